import Verif.Lemmas.GenLookup
import Verif.Props.Helpers
import Verif.Props.Layout
/-!
# Construction of messages (C05, C09, C20, C21, C22, C49, C52, C53)
-/
set_option linter.unusedSimpArgs false
namespace Props
open Py Nmea Spec

/-! ## C20: keyword order -/

theorem lookup_perm {β} (x : Str) (a b : List (Str × β)) (h : a.Perm b) (hn : (a.map Prod.fst).Nodup) :
    lookup x a = lookup x b := by
  induction h with
  | nil => rfl
  | cons p _ ih =>
    rw [List.map_cons, List.nodup_cons] at hn
    obtain ⟨k, v⟩ := p
    simp only [lookup, ih hn.2]
  | swap p q l =>
    obtain ⟨k, v⟩ := p
    obtain ⟨k', v'⟩ := q
    simp only [List.map_cons, List.nodup_cons, List.mem_cons, not_or] at hn
    simp only [lookup]
    by_cases h1 : x = k' <;> by_cases h2 : x = k
    · exact absurd (h1.symm.trans h2) hn.1.1
    · simp [h1, h2, show ¬ k' = k from hn.1.1]
    · simp [h1, h2, show ¬ k = k' from fun e => hn.1.1 e.symm]
    · simp [h1, h2]
  | trans h1 h2 ih1 ih2 => rw [ih1 hn, ih2 (((h1.map Prod.fst).nodup_iff).1 hn)]

/-- Keyword sets that cannot be told apart. -/
structure KwEq (a b : Kwargs) : Prop where
  payload : a.payload = b.payload
  look : ∀ x, lookup x a.others = lookup x b.others
  names : ∀ x, x ∈ a.others.map Prod.fst ↔ x ∈ b.others.map Prod.fst

theorem findDict_kwEq (t i : Str) (mode : Nat) (hp : Bool) (v : Nat) (u : UDefs) (a b : Kwargs) (h : KwEq a b) :
    findDict (ctxOf t i mode hp v u a) = findDict (ctxOf t i mode hp v u b) := by
  obtain ⟨ap, ao⟩ := a
  obtain ⟨bp, bo⟩ := b
  obtain ⟨h1, h2, h3⟩ := h
  simp only at h1 h2 h3
  subst h1
  have e : ∀ x, hasKey x ao = hasKey x bo := fun x => by unfold hasKey; rw [h2]
  have hb : baseKey (ctxOf t i mode hp v u ⟨ap, ao⟩) = baseKey (ctxOf t i mode hp v u ⟨ap, bo⟩) := by
    simp only [baseKey, Ctx.streaming, Ctx.payload0, ctxOf, h2]; rfl
  have hk : ∀ key, propKey (ctxOf t i mode hp v u ⟨ap, ao⟩) key = propKey (ctxOf t i mode hp v u ⟨ap, bo⟩) key := by
    intro key
    have g1 : qtmCfgGeofence (ctxOf t i mode hp v u ⟨ap, ao⟩) key = qtmCfgGeofence (ctxOf t i mode hp v u ⟨ap, bo⟩) key := by
      simp only [qtmCfgGeofence, Kwargs.has, Kwargs.get, Ctx.streaming, Ctx.payload0, ctxOf, h2, e]; rfl
    have g2 : qtmCfgMsgRate (ctxOf t i mode hp v u ⟨ap, ao⟩) key = qtmCfgMsgRate (ctxOf t i mode hp v u ⟨ap, bo⟩) key := by
      simp only [qtmCfgMsgRate, Kwargs.has, Kwargs.get, Ctx.streaming, Ctx.payload0, ctxOf, h2, e]; rfl
    have g3 : qtmCfgPps (ctxOf t i mode hp v u ⟨ap, ao⟩) key = qtmCfgPps (ctxOf t i mode hp v u ⟨ap, bo⟩) key := by
      simp only [qtmCfgPps, Kwargs.has, Kwargs.get, Ctx.streaming, Ctx.payload0, ctxOf, h2, e]; rfl
    have g4 : qtmCfgSat (ctxOf t i mode hp v u ⟨ap, ao⟩) key = qtmCfgSat (ctxOf t i mode hp v u ⟨ap, bo⟩) key := by
      simp only [qtmCfgSat, Kwargs.has, Kwargs.get, Ctx.streaming, Ctx.payload0, ctxOf, h2, e]; rfl
    have g5 : qtmCfgUart (ctxOf t i mode hp v u ⟨ap, ao⟩) key = qtmCfgUart (ctxOf t i mode hp v u ⟨ap, bo⟩) key := by
      simp only [qtmCfgUart, Kwargs.has, Kwargs.get, Ctx.streaming, Ctx.payload0, ctxOf, h2, e]; rfl
    have g6 : qtmSn (ctxOf t i mode hp v u ⟨ap, ao⟩) key = qtmSn (ctxOf t i mode hp v u ⟨ap, bo⟩) key := rfl
    have g7 : stmDrSenMsg (ctxOf t i mode hp v u ⟨ap, ao⟩) key = stmDrSenMsg (ctxOf t i mode hp v u ⟨ap, bo⟩) key := by
      simp only [stmDrSenMsg, Ctx.streaming, Ctx.payload0, ctxOf, h2]; rfl
    have g8 : qtmAckNak (ctxOf t i mode hp v u ⟨ap, ao⟩) key = qtmAckNak (ctxOf t i mode hp v u ⟨ap, bo⟩) key := rfl
    have hc : ∀ x, (ctxOf t i mode hp v u ⟨ap, ao⟩).kw.has x = (ctxOf t i mode hp v u ⟨ap, bo⟩).kw.has x := by
      intro x; simp only [Kwargs.has, ctxOf, e]
    unfold propKey
    simp only [g1, g2, g3, g4, g5, g6, g7, g8, hc]
  unfold findDict
  rw [hb]
  simp only [hk]
  rfl

theorem outcome_kwEq (now : Nat → DateTime) (t i : Str) (mode : Nat) (hp : Bool) (v : Nat) (u : UDefs)
    (a b : Kwargs) (h : KwEq a b) :
    outcome (ctxOf t i mode hp v u a) now = outcome (ctxOf t i mode hp v u b) now := by
  have hf := findDict_kwEq t i mode hp v u a b h
  obtain ⟨ap, ao⟩ := a
  obtain ⟨bp, bo⟩ := b
  obtain ⟨h1, h2, h3⟩ := h
  simp only at h1 h2 h3
  subst h1
  have e : ∀ x, hasKey x ao = hasKey x bo := fun x => by unfold hasKey; rw [h2]
  have hg : getDict (ctxOf t i mode hp v u ⟨ap, ao⟩) = getDict (ctxOf t i mode hp v u ⟨ap, bo⟩) := by
    unfold getDict; rw [hf]; rfl
  have hc : (ctxOf t i mode hp v u ⟨ap, ao⟩).kw.clash = (ctxOf t i mode hp v u ⟨ap, bo⟩).kw.clash := by
    have : Kwargs.has ⟨ap, ao⟩ = Kwargs.has ⟨ap, bo⟩ := by
      funext x; exact e x
    simp only [Kwargs.clash, ctxOf, this]
  have hs : ∀ d g st, setPDict (ctxOf t i mode hp v u ⟨ap, ao⟩) now d g st =
      setPDict (ctxOf t i mode hp v u ⟨ap, bo⟩) now d g st := by
    intro d g st
    apply setPDict_congr
    · intro k ty g st
      simp only [setSingle, Ctx.streaming, ctxOf, setSingleStream, setSingleGen, genValue, Kwargs.get, h2]; rfl
    · intro rep b st
      cases rep with
      | fixed n => rfl
      | indet => simp only [repCount, Ctx.streaming, ctxOf, C40_order _ _ h3]; rfl
      | named k => rfl
  unfold outcome rawOutcome
  rw [hg]
  congr 1
  cases getDict (ctxOf t i mode hp v u ⟨ap, bo⟩) with
  | error e => rfl
  | ok o =>
    cases o with
    | none => rfl
    | some d => simp only [hc, hs]; rfl

theorem mkMsg_kwEq (now : Nat → DateTime) (t i : Str) (mode : Int) (hp : Bool) (v : Nat) (u : UDefs)
    (ck : Option Str) (a b : Kwargs) (h : KwEq a b) :
    mkMsg now t i mode hp v u ck a = mkMsg now t i mode hp v u ck b := by
  by_cases hm : mode = 0 ∨ mode = 1 ∨ mode = 2
  · rw [mkMsg_eq _ _ _ _ _ _ _ _ _ hm, mkMsg_eq _ _ _ _ _ _ _ _ _ hm, outcome_kwEq now t i _ hp v u a b h]
    congr 1
    cases outcome (ctxOf t i mode.toNat hp v u b) now with
    | error e => rfl
    | ok o =>
      obtain ⟨ap, ao⟩ := a
      obtain ⟨bp, bo⟩ := b
      have hp := h.payload
      simp only at hp
      subst hp
      cases o <;> rfl
  · rw [mkMsg_mode _ _ _ _ _ _ _ _ _ hm, mkMsg_mode _ _ _ _ _ _ _ _ _ hm]

/-- Constructing a message from the same keyword arguments in any order gives the same message or
the same error (Python's keyword names are distinct). -/
theorem C20_keyword_order (now : Nat → DateTime) (t i : Str) (mode : Int) (hp : Bool) (v : Nat) (u : UDefs)
    (ck : Option Str) (payload : Option (List Str)) (kw kw' : List (Str × PyVal)) (h : kw.Perm kw')
    (hn : (kw.map Prod.fst).Nodup) :
    mkMsg now t i mode hp v u ck ⟨payload, kw⟩ = mkMsg now t i mode hp v u ck ⟨payload, kw'⟩ :=
  mkMsg_kwEq now t i mode hp v u ck _ _
    ⟨rfl, fun x => lookup_perm x kw kw' h hn, fun _ => (h.map Prod.fst).mem_iff⟩

/-- A constructor call used in examples: a GLL sentence from keywords, in two orders. -/
def gllKw : List (Str × PyVal) :=
  [(py!"lat", .float (.fin true (107/2))), (py!"NS", .str py!"N"), (py!"lon", .float (.fin false (9/4))),
   (py!"status", .str py!"A"), (py!"posMode", .str py!"A")]

/-- A constructor call succeeded with a message having property `P`. -/
def madeWith (P : Msg → Bool) : Except Err Msg → Bool
  | .ok m => P m
  | _ => false

theorem madeWith_iff (P : Msg → Bool) (r : Except Err Msg) : madeWith P r = true ↔ ∃ m, r = .ok m ∧ P m = true := by
  cases r <;> simp [madeWith]

example : (gllKw.map Prod.fst).Nodup ∧
    madeWith (fun m => m.payload == [py!"5330.00000", py!"S", py!"00215.00000", py!"E", py!"030405.67", py!"A", py!"A"])
      (mkMsg clock0 py!"GN" py!"GLL" 0 false 1 [] none ⟨none, gllKw.reverse⟩) = true := by decide +kernel

/-! ## C21: a payload makes the other keywords irrelevant -/

/-- If `payload` is supplied, no other keyword changes the constructed message (unless it has the name
of an internal parameter). -/
theorem C21_payload_only (now now' : Nat → DateTime) (t i : Str) (mode : Int) (hp : Bool) (v : Nat) (u : UDefs)
    (ck : Option Str) (payload : List Str) (kw : List (Str × PyVal))
    (hkw : ∀ k ∈ kw.map Prod.fst, k ∉ [py!"pindex", py!"pdict", py!"key", py!"gindex", py!"att"] ∧
      (i ∈ variantIds → k ≠ py!"mode")) :
    mkMsg now t i mode hp v u ck ⟨some payload, kw⟩ = mkMsg now' t i mode hp v u ck ⟨some payload, []⟩ := by
  have hnc : NoClash i kw := ⟨fun k hk hm => (hkw k hm).1 hk, fun hi hm => (hkw _ hm).2 hi rfl⟩
  by_cases hm : mode = 0 ∨ mode = 1 ∨ mode = 2
  · rw [mkMsg_eq _ _ _ _ _ _ _ _ _ hm, mkMsg_eq _ _ _ _ _ _ _ _ _ hm,
      outcome_received now _ _ _ _ _ _ _ _ (by omega) hnc,
      outcome_received now' _ _ _ _ _ _ _ _ (by omega) noClash_nil]
    congr 1
    cases definitionFor mode.toNat u i payload with
    | error e => rfl
    | ok o =>
      cases o with
      | none =>
        simp only
        split <;> rfl
      | some d =>
        simp only
        rw [setPDict_stream_congr (ctxOf t i mode.toNat hp v u ⟨some payload, kw⟩)
          (ctxOf t i mode.toNat hp v u ⟨some payload, []⟩) now now' ⟨rfl, rfl, rfl, rfl, rfl⟩]
        cases setPDict (ctxOf t i mode.toNat hp v u ⟨some payload, []⟩) now' d [] (st0 payload) with
        | error e => simp only [Except.map, wrapErr_error]
        | ok st => rfl
  · rw [mkMsg_mode _ _ _ _ _ _ _ _ _ hm, mkMsg_mode _ _ _ _ _ _ _ _ _ hm]

example : madeWith (fun m => m.attrs.length == 7) (mkMsg clock0 py!"GN" py!"GLL" 0 false 1 [] none
    ⟨some [py!"5330.00000", py!"S", py!"00215.00000", py!"E", py!"030405.67", py!"A", py!"A"], gllKw⟩) = true := by
  decide +kernel

/-- The exception: a keyword with the name of an internal parameter. -/
theorem C21_clash_counterexample :
    mkMsg clock0 py!"GN" py!"ROT" 0 false 1 [] none ⟨some [py!"1.5", py!"A"], [(py!"pindex", .int 1)]⟩ =
      .error .nmeaType ∧
    madeWith (fun _ => true) (mkMsg clock0 py!"GN" py!"ROT" 0 false 1 [] none ⟨some [py!"1.5", py!"A"], []⟩) = true := by
  constructor <;> decide +kernel

/-- The exception for `mode`: the seven proprietary types with layout variants reject it, whatever the
payload, the other keywords and the mode. -/
theorem C21_mode_rejected (now : Nat → DateTime) (t i : Str) (mode : Int) (hp : Bool) (v : Nat) (u : UDefs)
    (ck : Option Str) (payload : Option (List Str)) (kw : List (Str × PyVal))
    (hm : mode = 0 ∨ mode = 1 ∨ mode = 2) (hi : i ∈ variantIds) (hkw : py!"mode" ∈ kw.map Prod.fst)
    (hids : ValMsgid v → t ∈ NMEA_TALKERS) :
    mkMsg now t i mode hp v u ck ⟨payload, kw⟩ = .error .nmeaType := by
  have hv : ∀ i ∈ variantIds, IsProprietary i ∧ ¬ IsStandard i ∧ i ∉ NMEA_PREFIX_PROP ∧ upper i = i := by
    decide +kernel
  obtain ⟨h1, h2, h3, h4⟩ := hv i hi
  have hrej : ¬ Rejected t i v u := by
    unfold Rejected
    rintro ⟨h, hv⟩
    rcases h with h | h
    · exact h (hids ((valMsgid_iff v).1 hv))
    · exact (sourceOf_unkn i u).1 h (by unfold Recognised; simp [h1])
  rw [mkMsg_eq _ _ _ _ _ _ _ _ _ hm, if_neg hrej]
  have hk : Kwargs.has ⟨payload, kw⟩ py!"mode" = true := by
    unfold Kwargs.has; exact (hasKey_mem _ _).2 hkw
  have hf : getDict (ctxOf t i mode.toNat hp v u ⟨payload, kw⟩) = .error .type := by
    unfold getDict findDict baseKey
    have e : (ctxOf t i mode.toNat hp v u ⟨payload, kw⟩).msgID = i := rfl
    have e2 : (ctxOf t i mode.toNat hp v u ⟨payload, kw⟩).defsource = .prop := by
      show sourceOf i u = .prop
      rw [sourceOf_eq, if_neg h2, if_pos h1]
    simp only [e, if_neg h3, bind, Except.bind, h4, e2]
    have : propKey (ctxOf t i mode.toNat hp v u ⟨payload, kw⟩) i = .error .type := by
      unfold propKey
      split
      · rfl
      · simp only [show (ctxOf t i mode.toNat hp v u ⟨payload, kw⟩).kw = ⟨payload, kw⟩ from rfl, hk, if_true]
        simp only [variantIds, List.mem_cons, List.not_mem_nil, or_false] at hi
        rcases hi with rfl | rfl | rfl | rfl | rfl | rfl | rfl <;> rfl
    rw [this]
  unfold outcome rawOutcome
  rw [hf]
  rfl

example : py!"QTMSN" ∈ variantIds ∧ madeWith (fun m => m.attrs.any (fun a => a.1 == py!"mode"))
    (mkMsg clock0 py!"GN" py!"GRS" 0 false 1 [] none ⟨none, [(py!"mode", .int 1)]⟩) = true := by decide +kernel

/-! ## C22: immutability -/

/-- An attempt to update an object: assign or delete an attribute, or edit in place the list of fields, which
the message shares with its creator (`payload=` keyword, /repo/src/pynmeagps/nmeamessage.py:125) and with every
user of the `payload` property (/repo/src/pynmeagps/nmeamessage.py:690-699). -/
inductive Update where
  | assign (name : Str) (val : PyVal)
  | delete (name : Str)
  | editList (fields : List Str)

/-- Outcome and resulting object of one attempt. -/
def attempt (m : Msg) : Update → Except Err Unit × Msg
  | .assign n x => m.setattr n x
  | .delete n => m.delattr n
  | .editList l => (.ok (), { m with payload := l })

/-- The object after a sequence of attempts (errors caught by the caller). -/
def after (m : Msg) (us : List Update) : Msg := us.foldl (fun m x => (attempt m x).2) m

/-- A message that was constructed or parsed. -/
inductive Built : Msg → Prop
  | make (now t i mode hp v u ck kw m) : mkMsg now t i mode hp v u ck kw = .ok m → Built m
  | parse (now msg mode v u m) : parse now msg mode v u = .ok (some m) → Built m

theorem built_immutable (m : Msg) (h : Built m) : m.immutable = true := by
  have key : ∀ now t i mode hp v u ck kw m, mkMsg now t i mode hp v u ck kw = .ok m → m.immutable = true := by
    intro now t i mode hp v u ck kw m h
    obtain ⟨_, _, o, _, rfl⟩ := mkMsg_ok _ _ _ _ _ _ _ _ _ _ h
    cases o <;> rfl
  cases h with
  | make now t i mode hp v u ck kw _ h => exact key _ _ _ _ _ _ _ _ _ _ h
  | parse now msg mode v u _ h =>
    obtain ⟨_, p, _, _, hmk⟩ := parse_accept now msg mode v u m h
    exact key _ _ _ _ _ _ _ _ _ _ hmk

theorem attempt_fixed (m : Msg) (x : Update) (hx : ∀ l, x ≠ .editList l) (h : m.immutable = true) :
    ∃ a, (attempt m x).2 = { m with attrs := a } := by
  cases x with
  | editList l => exact absurd rfl (hx l)
  | assign n v => exact ⟨m.attrs, by simp only [attempt, Msg.setattr]; rw [if_pos h]⟩
  | delete n =>
    simp only [attempt, Msg.delattr]
    split
    · exact ⟨m.attrs, rfl⟩
    · split
      · exact ⟨_, rfl⟩
      · exact ⟨m.attrs, rfl⟩

/-- After construction every assignment raises `NMEAMessageError` and changes nothing: over any
sequence of assignments. -/
theorem C22_immutable (m : Msg) (hm : Built m) (us : List (Str × PyVal)) :
    after m (us.map fun x => .assign x.1 x.2) = m ∧
    ∀ name v, (attempt (after m (us.map fun x => .assign x.1 x.2)) (.assign name v)).1 = .error .nmeaMessage := by
  have hi := built_immutable m hm
  have key : after m (us.map fun x => .assign x.1 x.2) = m := by
    induction us with
    | nil => rfl
    | cons x us ih =>
      have e : (attempt m (.assign x.1 x.2)).2 = m := by simp [attempt, Msg.setattr, hi]
      simp only [List.map_cons, after, List.foldl_cons, e]
      exact ih
  refine ⟨key, ?_⟩
  intro name v
  rw [key]
  simp [attempt, Msg.setattr, hi]

/-- Whatever is tried with the attributes, deletions included: assignments keep failing, and talker, id, mode,
payload, checksum and the wire form never change. -/
theorem C22_wire_stable (m : Msg) (hm : Built m) (us : List Update) (hus : ∀ l, Update.editList l ∉ us) :
    (after m us).serialize = m.serialize ∧ (after m us).payload = m.payload ∧
    (after m us).talker = m.talker ∧ (after m us).msgID = m.msgID ∧ (after m us).mode = m.mode ∧
    (after m us).checksum = m.checksum ∧
    ∀ name v, attempt (after m us) (.assign name v) = (.error .nmeaMessage, after m us) := by
  have hi := built_immutable m hm
  have key : ∀ us, (∀ l, Update.editList l ∉ us) → ∃ a, after m us = { m with attrs := a } := by
    intro us
    induction us using snoc_ind with
    | h0 => exact fun _ => ⟨m.attrs, rfl⟩
    | h1 us x ih =>
      intro hus
      have e : after m (us ++ [x]) = (attempt (after m us) x).2 := by
        simp [after, List.foldl_append]
      obtain ⟨a, ha⟩ := ih (fun l hl => hus l (by simp [hl]))
      obtain ⟨a', ha'⟩ := attempt_fixed (after m us) x (fun l hl => hus l (by simp [hl])) (by rw [ha]; exact hi)
      rw [e, ha', ha]
      exact ⟨a', rfl⟩
  obtain ⟨a, ha⟩ := key us hus
  rw [ha]
  refine ⟨rfl, rfl, rfl, rfl, rfl, rfl, ?_⟩
  intro name v
  simp [attempt, Msg.setattr, hi]

/-- But attributes can be deleted. -/
theorem C22_delete_counterexample : ∃ m, mkMsg clock0 py!"GN" py!"ROT" 0 false 1 [] none
      ⟨some [py!"1.5", py!"A"], []⟩ = .ok m ∧ lookup py!"rot" m.attrs = some (.float (.fin false (3/2))) ∧
    (attempt m (.delete py!"rot")).1 = .ok () ∧ lookup py!"rot" (attempt m (.delete py!"rot")).2.attrs = none := by
  obtain ⟨m, h1, h2⟩ := (madeWith_iff (fun m => decide (lookup py!"rot" m.attrs = some (.float (.fin false (3/2))) ∧
    lookup py!"rot" (attempt m (.delete py!"rot")).2.attrs = none) &&
      (match (attempt m (.delete py!"rot")).1 with | .ok _ => true | _ => false)) _).1
    (by decide +kernel : madeWith _ (mkMsg clock0 py!"GN" py!"ROT" 0 false 1 [] none
      ⟨some [py!"1.5", py!"A"], []⟩) = true)
  simp only [Bool.and_eq_true, decide_eq_true_eq] at h2
  refine ⟨m, h1, h2.1.1, ?_, h2.1.2⟩
  have := h2.2
  split at this
  · rename_i u hu; rw [hu]
  · cases this

/-- And the field list can be edited in place: the attributes and the checksum stay, the wire form gets the new
fields with the old checksum, so that it is rejected when it is read with checksum validation, unless the new content
happens to have the same XOR. -/
theorem C22_edited_payload (m : Msg) (l : List Str) (b : Bytes)
    (hck : m.checksum = some (calcChecksum (commaJoin ((m.talker ++ m.msgID) :: m.payload))))
    (hb : (attempt m (.editList l)).2.serialize = .ok b)
    (hplain : ∀ c ∈ commaJoin ((m.talker ++ m.msgID) :: l), ¬ FrameChar c ∧ c ≠ 42)
    (now : Nat → DateTime) (mode : Int) (v : Nat) (u : UDefs) (hv : ValCksum v) :
    (attempt m (.editList l)).2.attrs = m.attrs ∧ (attempt m (.editList l)).2.checksum = m.checksum ∧
    (xorAll (commaJoin ((m.talker ++ m.msgID) :: l)) ≠ xorAll (commaJoin ((m.talker ++ m.msgID) :: m.payload)) →
      parse now (.bytes b) mode v u = .error .nmeaParse) := by
  refine ⟨rfl, rfl, fun hx => ?_⟩
  obtain ⟨hh, hne⟩ : (∀ c ∈ calcChecksum (commaJoin ((m.talker ++ m.msgID) :: m.payload)), c ∈ hexDigits) ∧
      calcChecksum (commaJoin ((m.talker ++ m.msgID) :: m.payload)) ≠ [] := by
    have h := C01_checksum_is_hex_of_xor (commaJoin ((m.talker ++ m.msgID) :: m.payload))
    refine ⟨h.1, fun e => ?_⟩
    have := h.2.2.1
    rw [e] at this
    exact absurd this (by decide)
  have h1 : ∀ c ∈ hexDigits, upperChar c = [c] ∧ c ≠ 36 ∧ c ≠ 13 ∧ c ≠ 10 := by decide
  have hup : upper (calcChecksum (commaJoin ((m.talker ++ m.msgID) :: m.payload))) =
      calcChecksum (commaJoin ((m.talker ++ m.msgID) :: m.payload)) := by
    generalize calcChecksum (commaJoin ((m.talker ++ m.msgID) :: m.payload)) = s at hh
    clear hne hck
    induction s with
    | nil => rfl
    | cons c s ih =>
      have e := ih (fun d hd => hh d (by simp [hd]))
      unfold upper at e ⊢
      rw [List.flatMap_cons, e, (h1 c (hh c (by simp))).1]
      rfl
  refine C03_wrong_checksum_rejected now (.bytes b) mode v u _
    (commaJoin ((m.talker ++ m.msgID) :: l)) (calcChecksum (commaJoin ((m.talker ++ m.msgID) :: m.payload))) hv
    (.bytes b _ hb) ⟨⟨[36], [13, 10], ?_, ?_, ?_, ?_, ?_⟩, ?_⟩ ?_
  · simp [Msg.text, attempt, contentOf_eq, hck]
  · intro c hc; simp at hc; subst hc; exact Or.inl rfl
  · intro c hc; simp at hc; rcases hc with rfl | rfl <;> simp [FrameChar]
  · intro c hc
    cases e : commaJoin ((m.talker ++ m.msgID) :: l) with
    | nil => rw [e] at hc; simp at hc; subst hc; simp [FrameChar]
    | cons a r =>
      rw [e] at hc hplain
      simp at hc
      subst hc
      exact (hplain _ (by simp)).1
  · intro c hc
    have hc : c ∈ (calcChecksum (commaJoin ((m.talker ++ m.msgID) :: m.payload))).getLast? := by
      rwa [List.getLast?_append, List.getLast?_eq_some_getLast hne, Option.some_or, ← List.getLast?_eq_some_getLast hne] at hc
    have := h1 c (hh c (List.mem_of_getLast? hc))
    simp [FrameChar, this.2.1, this.2.2.1, this.2.2.2]
  · intro hc
    exact (hplain 42 hc).2 rfl
  · rw [hup]
    exact fun e => hx ((C01_checksum_eq_iff _ _).1 e).symm

example : madeWith (fun m => decide (m.checksum = some (calcChecksum (commaJoin ((m.talker ++ m.msgID) :: m.payload))) ∧
      (∀ c ∈ commaJoin ((m.talker ++ m.msgID) :: [py!"9.5", py!"2.5"]), ¬ (c = 36 ∨ c = 13 ∨ c = 10) ∧ c ≠ 42) ∧
      xorAll (commaJoin ((m.talker ++ m.msgID) :: [py!"9.5", py!"2.5"])) ≠
        xorAll (commaJoin ((m.talker ++ m.msgID) :: m.payload))))
    (mkMsg clock0 py!"GN" py!"DPT" 0 false 1 [] none ⟨some [py!"1.5", py!"2.5"], []⟩) = true := by decide +kernel

/-- An XOR does not see the order: exchanging two fields in the list gives a valid sentence with another
meaning, while the attributes of the message keep their old values. -/
theorem C22_swapped_counterexample : ∃ m m', mkMsg clock0 py!"GN" py!"DPT" 0 false 1 [] none
      ⟨some [py!"1.5", py!"2.5"], []⟩ = .ok m ∧
    (attempt m (.editList [py!"2.5", py!"1.5"])).2.serialize = .ok pb!"$GNDPT,2.5,1.5*4A\r\n" ∧
    parse clock0 (.bytes pb!"$GNDPT,2.5,1.5*4A\r\n") 0 1 [] = .ok (some m') ∧
    lookup py!"depth" (attempt m (.editList [py!"2.5", py!"1.5"])).2.attrs = some (.float (.fin false (3/2))) ∧
    lookup py!"depth" m'.attrs = some (.float (.fin false (5/2))) := by
  obtain ⟨m, h1, h2⟩ := (madeWith_iff (fun m => decide (lookup py!"depth" m.attrs = some (.float (.fin false (3/2)))) &&
      (match (attempt m (.editList [py!"2.5", py!"1.5"])).2.serialize with | .ok b => b == pb!"$GNDPT,2.5,1.5*4A\r\n" | _ => false)) _).1
    (by decide +kernel : madeWith _ (mkMsg clock0 py!"GN" py!"DPT" 0 false 1 [] none
      ⟨some [py!"1.5", py!"2.5"], []⟩) = true)
  have h3 : (match parse clock0 (.bytes pb!"$GNDPT,2.5,1.5*4A\r\n") 0 1 [] with
      | .ok (some m') => decide (lookup py!"depth" m'.attrs = some (.float (.fin false (5/2)))) | _ => false) = true := by
    decide +kernel
  split at h3
  · rename_i m' hm'
    simp only [Bool.and_eq_true, decide_eq_true_eq] at h2 h3
    refine ⟨m, m', h1, ?_, hm', h2.1, h3⟩
    have := h2.2
    split at this
    · rename_i b hb; rw [hb, eq_of_beq this]
    · cases this
  · cases h3

end Props
