import Verif.Lemmas.TextChars
import Verif.Lemmas.GenLookup
import Verif.Props.Construct
/-!
# Messages generated from keyword arguments (C05, C09, C53)
-/
set_option linter.unusedSimpArgs false
namespace Props
open Py Nmea Spec

/-- No keyword has the name of an internal parameter of the constructor. The name `mode` is an internal
parameter only for the seven proprietary types with layout variants. -/
def PlainKeywords (i : Str) (kw : List (Str × PyVal)) : Prop :=
  ∀ k ∈ kw.map Prod.fst, k ∉ [py!"pindex", py!"pdict", py!"key", py!"gindex", py!"att"] ∧
    (i ∈ variantIds → k ≠ py!"mode")

instance (i : Str) (kw : List (Str × PyVal)) : Decidable (PlainKeywords i kw) := by
  unfold PlainKeywords; infer_instance

theorem PlainKeywords.noClash {i kw} (h : PlainKeywords i kw) : NoClash i kw :=
  ⟨fun k hk hm => (h k hm).1 hk, fun hi hm => (h _ hm).2 hi rfl⟩

theorem kw_outcome (now : Nat → DateTime) (t i : Str) (mode : Nat) (hp : Bool) (v : Nat) (u : UDefs)
    (kw : List (Str × PyVal)) (hm : mode = 0 ∨ mode = 1 ∨ mode = 2) (hkw : PlainKeywords i kw) (d : PDict)
    (hd : KwDefinition mode u i kw d) :
    outcome (ctxOf t i mode hp v u ⟨none, kw⟩) now =
      wrapErr ((setPDict (ctxOf t i mode hp v u ⟨none, kw⟩) now d [] (st0 [])).map some) := by
  have hnc := hkw.noClash
  have hf := (findDict_kw (ctxOf t i mode hp v u ⟨none, kw⟩) hm rfl rfl (hnc.has _ (by decide))
    (fun h => hnc.mode h) d).2 hd
  have hg : getDict (ctxOf t i mode hp v u ⟨none, kw⟩) = .ok (some d) := by
    unfold getDict; rw [hf]; rfl
  unfold outcome rawOutcome
  rw [hg]
  simp only
  rw [if_neg (by rintro ⟨h, _⟩; rw [show (ctxOf t i mode hp v u ⟨none, kw⟩).kw = ⟨none, kw⟩ from rfl,
    hnc.clash] at h; cases h)]
  rfl

/-- The checks on talker and message id made by the constructor. -/
def KnownIds (v : Nat) (u : UDefs) (t i : Str) : Prop := ValMsgid v → t ∈ NMEA_TALKERS ∧ Recognised u i

theorem not_rejected (t i : Str) (v : Nat) (u : UDefs) : ¬ Rejected t i v u ↔ KnownIds v u t i := by
  unfold Rejected KnownIds
  rw [← valMsgid_iff, sourceOf_unkn]
  by_cases h : valMsgid v = true <;> by_cases h1 : t ∈ NMEA_TALKERS <;> by_cases h2 : Recognised u i <;>
    simp [h, h1, h2]

/-- A message generated from keywords, described by the specification `Emit`: which calls succeed,
and what payload, attributes and checksum they produce. -/
theorem C05_generate (now : Nat → DateTime) (t i : Str) (mode : Int) (hp : Bool) (v : Nat) (u : UDefs)
    (kw : List (Str × PyVal)) (hm : mode = 0 ∨ mode = 1 ∨ mode = 2) (hids : KnownIds v u t i)
    (hkw : PlainKeywords i kw) (d : PDict) (hd : KwDefinition mode.toNat u i kw d) (hsane : SaneGen d)
    (payload : List Str) (attrs : Attrs) :
    (∃ m, mkMsg now t i mode hp v u none ⟨none, kw⟩ = .ok m ∧ m.payload = payload ∧ m.attrs = attrs) ↔
      ∃ ws, Emit kw mode.toNat hp now d [] [] ws ∧ payload = ws.map Written.text ∧ attrs = attrsOf ws := by
  obtain ⟨g1, g2⟩ := generated now t i mode.toNat hp v u kw d hsane
  rw [mkMsg_eq _ _ _ _ _ _ _ _ _ hm, if_neg ((not_rejected _ _ _ _).2 hids),
    kw_outcome now t i mode.toNat hp v u kw (by omega) hkw d hd]
  constructor
  · rintro ⟨m, h, rfl, rfl⟩
    cases hst : setPDict (ctxOf t i mode.toNat hp v u ⟨none, kw⟩) now d [] (st0 []) with
    | error e => rw [hst] at h; simp only [Except.map, wrapErr_error] at h; cases h
    | ok st =>
      rw [hst] at h
      simp only [Except.map, wrapErr_ok, Except.ok.injEq] at h
      obtain ⟨ws, he, hi⟩ := g1 st hst
      rw [← h]
      exact ⟨ws, he, hi.pay, hi.attrs⟩
  · rintro ⟨ws, he, rfl, rfl⟩
    obtain ⟨st, hst, hi⟩ := g2 ws he
    rw [hst]
    exact ⟨_, rfl, hi.pay, hi.attrs⟩

/-- The header and mode of a constructed message, and its checksum if there is a definition. -/
theorem made_fields (now : Nat → DateTime) (t i : Str) (mode : Int) (hp : Bool) (v : Nat) (u : UDefs)
    (ck : Option Str) (kw : Kwargs) (m : Msg) (h : mkMsg now t i mode hp v u ck kw = .ok m) :
    m.talker = t ∧ m.msgID = i ∧ (m.mode : Int) = mode ∧
    ∃ o, outcome (ctxOf t i mode.toNat hp v u kw) now = .ok o ∧
      m.checksum = match o with
        | none => ck
        | some _ => some (ck.getD (calcChecksum (commaJoin ((t ++ i) :: m.payload)))) := by
  obtain ⟨hm, _, o, ho, rfl⟩ := mkMsg_ok _ _ _ _ _ _ _ _ _ _ h
  have hmode : ((mode.toNat : Nat) : Int) = mode := by omega
  cases o with
  | none => exact ⟨rfl, rfl, hmode, none, ho, rfl⟩
  | some st =>
    refine ⟨rfl, rfl, hmode, some st, ho, ?_⟩
    simp only [finish, C01_generate_checksum]
    rfl

/-- The wire text of a message made from keywords (C05, C53). -/
theorem C05_wire_text (now : Nat → DateTime) (t i : Str) (mode : Int) (hp : Bool) (v : Nat) (u : UDefs)
    (kw : List (Str × PyVal)) (m : Msg) (hkw : PlainKeywords i kw) (d : PDict)
    (hd : KwDefinition mode.toNat u i kw d) (h : mkMsg now t i mode hp v u none ⟨none, kw⟩ = .ok m) :
    m.text = py!"$" ++ commaJoin ((t ++ i) :: m.payload) ++ py!"*" ++
      calcChecksum (commaJoin ((t ++ i) :: m.payload)) ++ py!"\r\n" := by
  obtain ⟨hmode, _⟩ := mkMsg_ok _ _ _ _ _ _ _ _ _ _ h
  obtain ⟨h1, h2, _, o, ho, hck⟩ := made_fields _ _ _ _ _ _ _ _ _ _ h
  rw [kw_outcome now t i mode.toNat hp v u kw (by omega) hkw d hd] at ho
  cases hst : setPDict (ctxOf t i mode.toNat hp v u ⟨none, kw⟩) now d [] (st0 []) with
  | error e => rw [hst] at ho; simp only [Except.map, wrapErr_error] at ho; cases ho
  | ok st =>
    rw [hst] at ho
    simp only [Except.map, wrapErr_ok, Except.ok.injEq] at ho
    subst ho
    simp only [Option.getD_none] at hck
    unfold Msg.text
    rw [contentOf_eq, hck, h1, h2]
    simp

/-! ## C05: the reader sees what was generated -/

/-- Text without characters reserved by the framing, encodable as UTF-8. -/
def PlainText (s : Str) : Prop := ∀ c ∈ s, isScalar c = true ∧ c ∉ [36, 42, 44, 13, 10]

instance (s : Str) : Decidable (PlainText s) := by unfold PlainText; infer_instance

theorem plain_ok (s : Str) (h : OkS s) : PlainText s := by
  intro c hc
  have := h c hc
  unfold OkC at this
  refine ⟨?_, by simp; omega⟩
  unfold isScalar
  simp; omega

/-- The header can be split into talker and message id again. -/
def SplitsBack (t i : Str) : Prop :=
  t = py!"P" ∨ (t.head? ≠ some 80 ∧ (t.length = 2 ∨ (t.length < 2 ∧ i = [])))

instance (t i : Str) : Decidable (SplitsBack t i) := by unfold SplitsBack; infer_instance

/-- Every listed talker does. -/
theorem C05_talkers_split : ∀ t ∈ NMEA_TALKERS, ∀ i, SplitsBack t i := by
  intro t ht i
  have : ∀ t ∈ NMEA_TALKERS, t = py!"P" ∨ (t.head? ≠ some 80 ∧ t.length = 2) := by decide +kernel
  rcases this t ht with h | ⟨h, h'⟩
  · exact .inl h
  · exact .inr ⟨h, .inl h'⟩

theorem hex_chars (s : Str) (n : Nat) (h : IsHexText s n) : OkS s ∧ upper s = s := by
  have h1 : ∀ c ∈ hexDigits, OkC c ∧ upperChar c = [c] := by
    unfold OkC; decide +kernel
  refine ⟨fun c hc => (h1 c (h.1 c hc)).1, ?_⟩
  have : ∀ s : Str, (∀ c ∈ s, c ∈ hexDigits) → upper s = s := by
    intro s hs
    induction s with
    | nil => rfl
    | cons c cs ih =>
      have := upper_append [c] cs
      rw [List.singleton_append] at this
      rw [this, ih (fun x hx => hs x (by simp [hx]))]
      simp [upper, (h1 c (hs c (by simp))).2]
  exact this s h.1

theorem mem_commaJoin (fs : List Str) (c : Nat) (h : c ∈ commaJoin fs) : c = 44 ∨ ∃ f ∈ fs, c ∈ f := by
  induction fs with
  | nil => cases h
  | cons f r ih =>
    cases r with
    | nil => exact .inr ⟨f, by simp, h⟩
    | cons g r =>
      simp only [commaJoin, List.mem_append, List.mem_singleton] at h
      rcases h with (h | h) | h
      · exact .inr ⟨f, by simp, h⟩
      · exact .inl h
      · rcases ih h with h | ⟨x, hx, hc⟩
        · exact .inl h
        · exact .inr ⟨x, by simp [hx], hc⟩

/-- Text assembled from plain parts is a sentence with exactly these parts. -/
theorem plain_sentence (t i : Str) (f : List Str) (k : Str) (hplain : ∀ x ∈ (t ++ i) :: f, PlainText x)
    (hk : PlainText k) (hsplit : SplitsBack t i) :
    ∃ raw, utf8Encode (py!"$" ++ commaJoin ((t ++ i) :: f) ++ py!"*" ++ k ++ py!"\r\n") = .ok raw ∧
      IsSentence (.bytes raw) (commaJoin ((t ++ i) :: f)) t i f k := by
  have hc : ∀ c ∈ commaJoin ((t ++ i) :: f), isScalar c = true ∧ c ∉ [36, 42, 13, 10] := by
    intro c hc
    rcases mem_commaJoin _ _ hc with rfl | ⟨x, hx, hc⟩
    · decide
    · have := hplain x hx c hc
      simp only [List.mem_cons, List.not_mem_nil, or_false, not_or] at this ⊢
      exact ⟨this.1, this.2.1, this.2.2.1, this.2.2.2.2⟩
  have hall : (py!"$" ++ commaJoin ((t ++ i) :: f) ++ py!"*" ++ k ++ py!"\r\n").all isScalar = true := by
    simp only [List.all_append, Bool.and_eq_true]
    refine ⟨⟨⟨⟨by decide, ?_⟩, by decide⟩, ?_⟩, by decide⟩
    · exact List.all_eq_true.2 fun c h => (hc c h).1
    · exact List.all_eq_true.2 fun c h => (hk c h).1
  refine ⟨_, by unfold utf8Encode; rw [if_pos hall], ?_⟩
  refine ⟨_, .bytes _ _ (by unfold utf8Encode; rw [if_pos hall]), ⟨⟨py!"$", py!"\r\n", ?_, ?_, ?_, ?_, ?_⟩, ?_⟩,
    rfl, ?_, hsplit⟩
  · simp
  · intro c hc; simp at hc; exact .inl hc
  · intro c hc; simp at hc; unfold FrameChar; omega
  · intro c hh
    cases hcj : commaJoin ((t ++ i) :: f) with
    | nil => rw [hcj] at hh; simp at hh; unfold FrameChar; omega
    | cons x r =>
      rw [hcj] at hh; simp at hh
      have := (hc x (by rw [hcj]; simp)).2
      simp at this; unfold FrameChar; omega
  · intro c hh
    cases hkk : k.getLast? with
    | none =>
      rw [List.getLast?_eq_none_iff] at hkk
      rw [hkk] at hh; simp at hh; unfold FrameChar; omega
    | some x =>
      rw [List.getLast?_append, hkk] at hh
      simp at hh
      have := (hk x (List.mem_of_getLast? hkk)).2
      simp at this; unfold FrameChar; omega
  · intro h; have := (hc 42 h).2; simp at this
  · intro x hx h; have := (hplain x hx 44 h).2; simp at this

/-- All string keywords are plain text. -/
def PlainStrings (kw : List (Str × PyVal)) : Prop := ∀ k s, (k, .str s) ∈ kw → PlainText s

/-- A message generated from keywords whose strings, talker and id contain no reserved characters:
`serialize` succeeds, its bytes are a sentence with the same talker, id, payload and checksum, the
checksum is right, and so `parse` (with any of the modes, flags and definitions under which the ids are
known) does exactly what the constructor does for this header, payload and checksum. -/
theorem C05_accepted (now : Nat → DateTime) (t i : Str) (mode : Int) (hp : Bool) (v : Nat) (u : UDefs)
    (kw : List (Str × PyVal)) (m : Msg) (hkw : PlainKeywords i kw) (d : PDict)
    (hd : KwDefinition mode.toNat u i kw d) (hsane : SaneGen d)
    (h : mkMsg now t i mode hp v u none ⟨none, kw⟩ = .ok m)
    (hplain : PlainStrings kw) (hhead : PlainText (t ++ i)) (hsplit : SplitsBack t i) :
    ∃ raw ck, m.serialize = .ok raw ∧ m.checksum = some ck ∧
      IsSentence (.bytes raw) (commaJoin ((t ++ i) :: m.payload)) t i m.payload ck ∧
      upper ck = calcChecksum (commaJoin ((t ++ i) :: m.payload)) ∧
      ∀ now' mode' v' u', mode' = 0 ∨ mode' = 1 ∨ mode' = 2 → KnownIds v' u' t i →
        (definitionFor mode'.toNat u' i m.payload ≠ .ok none ∨ ¬ ValMsgid v') →
        parse now' (.bytes raw) mode' v' u' =
          (mkMsg now' t i mode' false v' u' (some ck) ⟨some m.payload, []⟩).map some := by
  obtain ⟨hm, hrej, _⟩ := mkMsg_ok _ _ _ _ _ _ _ _ _ _ h
  have htext := C05_wire_text now t i mode hp v u kw m hkw d hd h
  have hck : m.checksum = some (calcChecksum (commaJoin ((t ++ i) :: m.payload))) := by
    obtain ⟨h1, h2, _, o, ho, hck⟩ := made_fields _ _ _ _ _ _ _ _ _ _ h
    rw [kw_outcome now t i mode.toNat hp v u kw (by omega) hkw d hd] at ho
    cases hst : setPDict (ctxOf t i mode.toNat hp v u ⟨none, kw⟩) now d [] (st0 []) with
    | error e => rw [hst] at ho; simp only [Except.map, wrapErr_error] at ho; cases ho
    | ok st =>
      rw [hst] at ho
      simp only [Except.map, wrapErr_ok, Except.ok.injEq] at ho
      subst ho
      exact hck
  obtain ⟨ws, he, hpay, _⟩ := (C05_generate now t i mode hp v u kw hm ((not_rejected _ _ _ _).1 hrej) hkw d hd hsane
    m.payload m.attrs).1 ⟨m, h, rfl, rfl⟩
  have hfields : ∀ x ∈ (t ++ i) :: m.payload, PlainText x := by
    intro x hx
    rcases List.mem_cons.1 hx with rfl | hx
    · exact hhead
    · rw [hpay] at hx
      obtain ⟨w, hw, rfl⟩ := List.mem_map.1 hx
      rcases emit_chars he w hw with h | ⟨s, hs, hsub⟩
      · exact plain_ok _ h
      · exact fun c hc => hplain _ _ hs c (hsub c hc)
  have hhex := hex_chars _ _ (C01_checksum_is_hex_of_xor (commaJoin ((t ++ i) :: m.payload)))
  obtain ⟨raw, hraw, hs⟩ := plain_sentence t i m.payload _ hfields (plain_ok _ hhex.1) hsplit
  refine ⟨raw, _, by unfold Msg.serialize; rw [htext]; exact hraw, hck, hs, hhex.2, ?_⟩
  intro now' mode' v' u' hm' hids' hdef
  rw [parse_eq now' _ mode' v' u' hm', sentence_getParts _ _ _ _ _ _ hs]
  simp only
  rw [if_neg (fun h => h.2 hhex.2)]
  cases hmk : mkMsg now' t i mode' false v' u' (some (calcChecksum (commaJoin ((t ++ i) :: m.payload))))
      ⟨some m.payload, []⟩ with
  | ok m' => rfl
  | error e =>
    by_cases hee : e = .nmeaMessage
    · exfalso
      subst hee
      rw [mkMsg_eq _ _ _ _ _ _ _ _ _ hm', if_neg ((not_rejected _ _ _ _).2 hids'),
        outcome_received now' t i mode'.toNat false v' u' m.payload [] (by omega) noClash_nil] at hmk
      cases hdf : definitionFor mode'.toNat u' i m.payload with
      | error e =>
        rw [hdf] at hmk
        have := definitionFor_error _ _ _ _ _ hdf
        subst this
        cases hmk
      | ok o =>
        rw [hdf] at hmk
        cases o with
        | none =>
          rcases hdef with h | h
          · exact h hdf
          · simp only [if_neg h] at hmk; cases hmk
        | some d' =>
          simp only at hmk
          cases hst : setPDict (ctxOf t i mode'.toNat false v' u' ⟨some m.payload, []⟩) now' d' [] (st0 m.payload) with
          | ok st => rw [hst] at hmk; cases hmk
          | error e =>
            rw [hst] at hmk
            simp only [Except.map, wrapErr_error] at hmk
            have := setPDict_error _ _ rfl _ _ _ _ hst
            rcases this with h | ⟨h, _⟩
            · rw [h] at hmk; cases hmk
            · rw [h] at hmk; cases hmk
    · cases e <;> first | rfl | exact absurd rfl hee

/-- Whenever the generated sentence is parsed, the result has the same header, payload and checksum. -/
theorem C05_same (now : Nat → DateTime) (t i : Str) (mode : Int) (hp : Bool) (v : Nat) (u : UDefs)
    (kw : List (Str × PyVal)) (m : Msg) (hkw : PlainKeywords i kw) (d : PDict)
    (hd : KwDefinition mode.toNat u i kw d) (hsane : SaneGen d)
    (h : mkMsg now t i mode hp v u none ⟨none, kw⟩ = .ok m)
    (hplain : PlainStrings kw) (hhead : PlainText (t ++ i)) (hsplit : SplitsBack t i)
    (raw : Bytes) (hraw : m.serialize = .ok raw) (now' : Nat → DateTime) (mode' : Int) (v' : Nat) (u' : UDefs)
    (m' : Msg) (h' : parse now' (.bytes raw) mode' v' u' = .ok (some m')) :
    m'.talker = m.talker ∧ m'.msgID = m.msgID ∧ m'.checksum = m.checksum ∧
      (m'.identity ≠ .ok py!"PSSNSNC" → m'.payload = m.payload ∧ m'.serialize = m.serialize) := by
  obtain ⟨raw', ck, h1, h2, h3, h4, _⟩ := C05_accepted now t i mode hp v u kw m hkw d hd hsane h hplain hhead hsplit
  rw [hraw] at h1
  cases h1
  obtain ⟨g1, g2, _, g3, g4⟩ := C50_getters _ _ _ _ _ _ _ _ _ _ _ h3 h'
  obtain ⟨f1, f2, _⟩ := made_fields _ _ _ _ _ _ _ _ _ _ h
  refine ⟨by rw [g1, f1], by rw [g2, f2], by rw [g3, h2], fun hid => ⟨g4 hid, ?_⟩⟩
  unfold Msg.serialize Msg.text
  rw [g1, g2, g3, g4 hid, f1, f2, h2]

/-- The hypotheses are met by the GLL example (built-in definition, GET mode). -/
theorem gllKw_definition : ∃ d, KwDefinition 0 [] py!"GLL" gllKw d ∧ SaneGen d := by
  have h : ∃ d, lookup (upper py!"GLL") (standardDefs 0) = some d ∧ SaneGen d := by
    have : (match lookup (upper py!"GLL") (standardDefs 0) with
      | some d => decide (SaneGen d)
      | none => false) = true := by decide +kernel
    split at this
    · exact ⟨_, by assumption, by simpa using this⟩
    · cases this
  obtain ⟨d, h1, h2⟩ := h
  exact ⟨d, ⟨py!"GLL", by decide +kernel, by rw [if_pos (by decide +kernel)]; exact h1⟩, h2⟩

example : PlainKeywords py!"GLL" gllKw ∧ PlainText py!"GNGLL" ∧ SplitsBack py!"GN" py!"GLL" ∧
    madeWith (fun m => acceptedWith
        (fun m' => m'.payload == m.payload && (lookup py!"lat" m'.attrs == some (.float (.fin true (107/2)))))
        (parse clock0 (.str m.text) 0 1 []))
      (mkMsg clock0 py!"GN" py!"GLL" 0 false 1 [] none ⟨none, gllKw⟩) = true := by
  refine ⟨by decide +kernel, by decide +kernel, by decide +kernel, ?_⟩
  decide +kernel

example : PlainStrings gllKw := by
  intro k s h
  have : ∀ kv ∈ gllKw, ∀ s ∈ (match kv.2 with | .str s => some s | _ => none), PlainText s := by decide +kernel
  exact this _ h s (by simp)

/-! ## C09: directions follow the sign -/

/-- Every attribute written was chosen from what was written before, and its field is its text. -/
def EachChosen (kw : List (Str × PyVal)) (mode : Nat) (hp : Bool) (now : Nat → DateTime) (ws : List Written) : Prop :=
  ∀ (q : Nat) (w : Written), ws[q]? = some w →
    chosen kw mode now (ws.take q) w.name w.ty = .ok w.val ∧ val2str w.val w.ty hp = .ok w.text

theorem emit_each {kw mode hp now d sfx pre post} (he : Emit kw mode hp now d sfx pre post)
    (h : EachChosen kw mode hp now pre) : EachChosen kw mode hp now post := by
  induction he with
  | nil => exact h
  | single k t rest sfx pre post v text hc hv _ ih =>
    apply ih
    intro q w hq
    by_cases hlt : q < pre.length
    · rw [List.getElem?_append_left hlt] at hq
      rw [List.take_append_of_le_length (by omega)]
      exact h q w hq
    · rw [List.getElem?_append_right (by omega)] at hq
      have h0 : q = pre.length := by
        have := (List.getElem?_eq_some_iff.1 hq).1
        simp at this; omega
      subst h0
      simp at hq
      subst hq
      simp only [List.take_left']
      exact ⟨hc, hv⟩
  | group k rep body rest sfx pre post n at_ hr h0 _ _ ihb ihr =>
    apply ihr
    have key : ∀ i, i ≤ n → EachChosen kw mode hp now (at_ i) := by
      intro i
      induction i with
      | zero => intro _; rw [h0]; exact h
      | succ i ih => intro hi; exact ihb i (by omega) (ih (by omega))
    exact key n (Nat.le_refl n)

/-- A direction field is written from the sign of its coordinate attribute, if that was written
before, whatever keyword was supplied for it; definitions of every kind, groups included. -/
theorem C09_direction (now : Nat → DateTime) (t i : Str) (mode : Int) (hp : Bool) (v : Nat) (u : UDefs)
    (kw : List (Str × PyVal)) (m : Msg) (hkw : PlainKeywords i kw) (d : PDict)
    (hd : KwDefinition mode.toNat u i kw d) (hsane : SaneGen d)
    (h : mkMsg now t i mode hp v u none ⟨none, kw⟩ = .ok m) :
    ∃ ws, Emit kw mode.toNat hp now d [] [] ws ∧ m.payload = ws.map Written.text ∧ m.attrs = attrsOf ws ∧
      ∀ (q : Nat) (w : Written) (axis negative other : Str) (val : PyVal), ws[q]? = some w →
        directionOf w.ty = some (axis, negative, other) → lastValue axis (ws.take q) = some val →
        w.val = .str (if IsNegative val then negative else other) ∧
        m.payload[q]? = some (if IsNegative val then negative else other) := by
  obtain ⟨hm, hrej, _⟩ := mkMsg_ok _ _ _ _ _ _ _ _ _ _ h
  obtain ⟨ws, he, hpay, hattrs⟩ := (C05_generate now t i mode hp v u kw hm ((not_rejected _ _ _ _).1 hrej) hkw d hd hsane
    m.payload m.attrs).1 ⟨m, h, rfl, rfl⟩
  refine ⟨ws, he, hpay, hattrs, ?_⟩
  intro q w axis negative other val hq hdir hlast
  obtain ⟨h1, h2⟩ := emit_each he (by intro q w hq; simp at hq) q w hq
  unfold chosen at h1
  simp only [hdir, hlast, Except.ok.injEq] at h1
  refine ⟨h1.symm, ?_⟩
  rw [hpay, List.getElem?_map, hq]
  rw [← h1] at h2
  have hty : w.ty = py!"LND" ∨ w.ty = py!"LAD" := by
    unfold directionOf at hdir
    split at hdir
    · exact .inl ‹_›
    · split at hdir
      · exact .inr ‹_›
      · cases hdir
  have : w.text = if IsNegative val then negative else other := by
    rcases hty with e | e <;> rw [e] at h2 <;> simp [val2str, PyVal.toStr, CH, Nmea.ST, LAD, LND] at h2 <;> exact h2.symm
  simp [this]

/-- Coordinates are written without their sign. -/
theorem C09_magnitude (v : PyVal) (ty : Str) (hp : Bool) (hty : ty = py!"LA" ∨ ty = py!"LN")
    (hv : (∃ b, v = .bool b) ∨ (∃ i, v = .int i) ∨ ∃ x, v = .float x) : val2str v ty hp = val2str v.absV ty hp := by
  have key : ∀ a, ddd2dmm v a hp = ddd2dmm v.absV a hp := by
    intro a
    cases v with
    | int i => simp [ddd2dmm, PyVal.absV, PyVal.num?]
    | float x => simp [ddd2dmm, PyVal.absV, PyVal.num?]; cases x <;> rfl
    | bool b => cases b <;> rfl
    | _ => simp at hv
  rcases hty with rfl | rfl
  · simpa [val2str, CH, Nmea.ST, LAD, LND, QS, HX, DE, IN, LA, LN, TM, DT, DTL, DM] using key py!"LA"
  · simpa [val2str, CH, Nmea.ST, LAD, LND, QS, HX, DE, IN, LA, LN, TM, DT, DTL, DM] using key py!"LN"

/-- The attributes written for a static definition are its slots. -/
theorem emit_static {kw mode hp now d sfx pre post} (he : Emit kw mode hp now d sfx pre post)
    (hd : IsStatic d = true) :
    post.map (fun w => (w.name, w.ty)) = pre.map (fun w => (w.name, w.ty)) ++ slotsOf d sfx := by
  induction he with
  | nil => simp [slotsOf]
  | single k t rest sfx pre post v text hc hv _ ih =>
    rw [ih hd]; simp [slotsOf]
  | group k rep body rest sfx pre post n at_ hr h0 _ _ ihb ihr =>
    cases rep with
    | fixed z =>
      simp only [IsStatic, Bool.and_eq_true] at hd
      rw [ihr hd.2]
      have hn : n = z.toNat := by cases hr; rfl
      have key : ∀ i, i ≤ n → (at_ i).map (fun w => (w.name, w.ty)) =
          pre.map (fun w => (w.name, w.ty)) ++ (List.range i).flatMap (fun j => slotsOf body (sfx ++ groupSuffix (j + 1))) := by
        intro i
        induction i with
        | zero => intro _; rw [h0]; simp
        | succ i ih =>
          intro hi
          rw [ihb i (by omega) hd.1, ih (by omega), List.range_succ]
          simp
      rw [key n (Nat.le_refl n), hn]
      simp [slotsOf]
    | indet => cases hd
    | named k => cases hd

theorem kwDefinition_mem (mode : Nat) (i : Str) (kw : List (Str × PyVal)) (d : PDict)
    (h : KwDefinition mode [] i kw d) :
    (∃ k, (k, d) ∈ standardDefs mode) ∨ (∃ k, (k, d) ∈ proprietaryDefs mode) := by
  obtain ⟨id, _, h⟩ := h
  split at h
  · exact .inl ⟨_, lookup_some_mem _ _ _ h⟩
  · split at h
    · rcases h with ⟨s, _, h⟩ | ⟨_, _, h⟩ <;> exact .inr ⟨_, lookup_some_mem _ _ _ h⟩
    · split at h
      · cases h
      · exact .inl ⟨_, lookup_some_mem _ _ _ h⟩

theorem tables_sane_gen : (∀ mode, ∀ kd ∈ standardDefs mode, SaneGen kd.2) ∧
    (∀ mode, ∀ kd ∈ proprietaryDefs mode, SaneGen kd.2) := by
  constructor
  · intro mode
    unfold standardDefs
    split <;> decide +kernel
  · intro mode
    unfold proprietaryDefs
    split <;> decide +kernel

/-- All built-in definitions can be used for generation. -/
theorem kwDefinition_sane (mode : Nat) (i : Str) (kw : List (Str × PyVal)) (d : PDict)
    (h : KwDefinition mode [] i kw d) : SaneGen d := by
  rcases kwDefinition_mem mode i kw d h with ⟨k, h⟩ | ⟨k, h⟩
  · exact tables_sane_gen.1 mode _ h
  · exact tables_sane_gen.2 mode _ h

/-- For every message generated from a built-in definition that has the attribute `lat` (`lon`) and a
direction field of its kind: with the keyword `lat = val`, the attribute has this value, its field is
the text of the magnitude, and the direction field and attribute are `S` (`W`) exactly if `val < 0`,
and `N` (`E`) otherwise. -/
theorem C09_builtin (now : Nat → DateTime) (t i : Str) (mode : Int) (hp : Bool) (v : Nat)
    (kw : List (Str × PyVal)) (m : Msg) (hkw : PlainKeywords i kw) (d : PDict)
    (hd : KwDefinition mode.toNat [] i kw d)
    (h : mkMsg now t i mode hp v [] none ⟨none, kw⟩ = .ok m)
    (dty axis negative other : Str) (hdir : directionOf dty = some (axis, negative, other))
    (p : Nat) (hp1 : p ∈ coordAt axis (slotsOf d [])) (hdat : dirAt dty (slotsOf d []) ≠ [])
    (val : PyVal) (hval : lookup axis kw = some val) :
    ∃ ty dname, (slotsOf d [])[p]? = some (axis, ty) ∧ (slotsOf d [])[p + 1]? = some (dname, dty) ∧
      (∃ text, val2str val ty hp = .ok text ∧ m.payload[p]? = some text) ∧
      m.payload[p + 1]? = some (if IsNegative val then negative else other) := by
  have hg : ∃ letter, Governs dty axis letter := by
    unfold directionOf at hdir
    split at hdir
    · rename_i e; subst e; cases hdir; exact ⟨_, by constructor⟩
    · split at hdir
      · rename_i e; subst e; cases hdir; exact ⟨_, by constructor⟩
      · cases hdir
  obtain ⟨letter, hg⟩ := hg
  obtain ⟨h1, h2, h3⟩ := coord_tables mode.toNat d (kwDefinition_mem _ _ _ _ hd) dty axis letter hg p hp1
  have h3 := h3.resolve_right hdat
  have hq : p + 1 ∈ dirAt dty (slotsOf d []) := by rw [h3]; simp
  have hp2 := hp1
  simp only [coordAt, dirAt, List.mem_filter, List.mem_range, decide_eq_true_eq] at hp2 hq
  obtain ⟨⟨nm, ty⟩, hs1, hn1⟩ := Option.map_eq_some_iff.1 hp2.2
  obtain ⟨⟨dname, dt⟩, hs2, hn2⟩ := Option.map_eq_some_iff.1 hq.2
  simp only at hn1 hn2; subst hn1; subst hn2
  obtain ⟨ws, he, hpay, hattrs, hall⟩ := C09_direction now t i mode hp v [] kw m hkw d hd
    (kwDefinition_sane _ _ _ _ hd) h
  have hmap := emit_static he h1
  simp only [List.map_nil, List.nil_append] at hmap
  have look : ∀ (j : Nat), (slotsOf d [])[j]? = (ws[j]?).map (fun w => (w.name, w.ty)) := by
    intro j; rw [← hmap, List.getElem?_map]
  rw [look] at hs1 hs2
  obtain ⟨w1, hw1, e1⟩ := Option.map_eq_some_iff.1 hs1
  obtain ⟨w2, hw2, e2⟩ := Option.map_eq_some_iff.1 hs2
  simp only [Prod.mk.injEq] at e1 e2
  obtain ⟨e1, e1'⟩ := e1
  obtain ⟨e2, e2'⟩ := e2
  -- the coordinate itself
  obtain ⟨c1, c2⟩ := emit_each he (by intro q w hq; simp at hq) p w1 hw1
  have hnodir : directionOf w1.ty = none := by
    cases hh : directionOf w1.ty with
    | none => rfl
    | some x =>
      exfalso
      -- a direction type at the coordinate's position would be its own direction
      have hcase : ∀ ty, directionOf ty ≠ none → ty = py!"LND" ∨ ty = py!"LAD" := by
        intro ty hne
        unfold directionOf at hne
        split at hne
        · exact .inl ‹_›
        · split at hne
          · exact .inr ‹_›
          · exact absurd rfl hne
      have hty := hcase w1.ty (by rw [hh]; simp)
      have hslot : (slotsOf d [])[p]? = some (nm, w1.ty) := by rw [look, hw1, ← e1]; rfl
      have hno : ∀ kd ∈ standardDefs mode.toNat ++ proprietaryDefs mode.toNat, ∀ s ∈ slotsOf kd.2 [],
          s.1 = py!"lat" ∨ s.1 = py!"lon" → s.2 ≠ py!"LND" ∧ s.2 ≠ py!"LAD" := by
        have hm : mode.toNat = 0 ∨ mode.toNat = 1 ∨ mode.toNat = 2 := by
          obtain ⟨hm, _⟩ := mkMsg_ok _ _ _ _ _ _ _ _ _ _ h; omega
        rcases hm with e | e | e <;> rw [e] <;> decide +kernel
      have hmem : ∃ k, (k, d) ∈ standardDefs mode.toNat ++ proprietaryDefs mode.toNat := by
        rcases kwDefinition_mem _ _ _ _ hd with ⟨k, hk⟩ | ⟨k, hk⟩
        · exact ⟨k, List.mem_append_left _ hk⟩
        · exact ⟨k, List.mem_append_right _ hk⟩
      obtain ⟨k, hk⟩ := hmem
      have hax : nm = py!"lat" ∨ nm = py!"lon" := by cases hg <;> simp
      have := hno (k, d) hk _ (List.mem_of_getElem? hslot) hax
      rcases hty with e | e
      · exact this.1 e
      · exact this.2 e
  have hv1 : w1.val = val := by
    unfold chosen at c1
    simp only [hnodir] at c1
    cases hn : nomval w1.ty mode.toNat (now (clockReads (ws.take p))) with
    | error e => rw [hn] at c1; cases c1
    | ok nv =>
      rw [hn] at c1
      simp only [Except.map, keywordOr, Except.ok.injEq] at c1
      rw [e1, hval] at c1
      exact c1.symm
  have hlast : lastValue nm (ws.take (p + 1)) = some val := by
    have : ws.take (p + 1) = ws.take p ++ [w1] := by
      rw [List.take_add_one, hw1]; rfl
    rw [this, lastValue_snoc, if_pos e1, hv1]
  refine ⟨ty, dname, by rw [look]; exact hs1, by rw [look]; exact hs2, ⟨w1.text, ?_, ?_⟩, ?_⟩
  · rw [← hv1, ← e1']; exact c2
  · rw [hpay, List.getElem?_map, hw1]; rfl
  · exact (hall (p + 1) w2 nm negative other val hw2 (by rw [e2']; exact hdir) hlast).2

/-- The GLL example contradicts its `NS` keyword: latitude -53.5 with `NS='N'` is written as `S`. -/
example : ∃ d, lookup py!"GLL" (standardDefs 0) = some d ∧ 0 ∈ coordAt py!"lat" (slotsOf d []) ∧
    dirAt py!"LAD" (slotsOf d []) ≠ [] ∧ lookup py!"NS" gllKw = some (.str py!"N") ∧
    madeWith (fun m => m.payload[1]? == some py!"S")
      (mkMsg clock0 py!"GN" py!"GLL" 0 false 1 [] none ⟨none, gllKw⟩) = true := by
  refine ⟨_, by rfl, ?_, ?_, ?_, ?_⟩ <;> decide +kernel

/-- Where the coordinate attribute has another name, the supplied direction is used: a TLL target at
latitude -53.5 with `targetlatNS='N'` is written as north. -/
theorem C09_other_names_counterexample :
    madeWith (fun m => m.payload[1]? == some py!"5330.00000" && m.payload[2]? == some py!"N")
      (mkMsg clock0 py!"GN" py!"TLL" 0 false 1 [] none
        ⟨none, [(py!"targetlat", .float (.fin true (107/2))), (py!"targetlatNS", .str py!"N")]⟩) = true := by
  decide +kernel

/-! ## C53 -/

/-- A message generated with a definition always carries the right checksum: two or more upper-case
hexadecimal digits whose value is the XOR of the content. -/
theorem C53_valid_checksum (now : Nat → DateTime) (t i : Str) (mode : Int) (hp : Bool) (v : Nat) (u : UDefs)
    (kw : List (Str × PyVal)) (m : Msg) (hkw : PlainKeywords i kw) (d : PDict)
    (hd : KwDefinition mode.toNat u i kw d) (h : mkMsg now t i mode hp v u none ⟨none, kw⟩ = .ok m) :
    ∃ ck, IsHexText ck (xorAll (commaJoin ((t ++ i) :: m.payload))) ∧
      m.text = py!"$" ++ commaJoin ((t ++ i) :: m.payload) ++ py!"*" ++ ck ++ py!"\r\n" :=
  ⟨_, C01_checksum_is_hex_of_xor _, C05_wire_text now t i mode hp v u kw m hkw d hd h⟩

/-- Also for messages constructed from a payload, without a checksum argument. -/
theorem C53_payload_checksum (now : Nat → DateTime) (t i : Str) (mode : Int) (hp : Bool) (v : Nat) (u : UDefs)
    (f : List Str) (m : Msg) (d : PDict) (hd : definitionFor mode.toNat u i f = .ok (some d))
    (h : mkMsg now t i mode hp v u none ⟨some f, []⟩ = .ok m) :
    ∃ ck, IsHexText ck (xorAll (commaJoin ((t ++ i) :: m.payload))) ∧
      m.text = py!"$" ++ commaJoin ((t ++ i) :: m.payload) ++ py!"*" ++ ck ++ py!"\r\n" := by
  obtain ⟨hmode, _⟩ := mkMsg_ok _ _ _ _ _ _ _ _ _ _ h
  obtain ⟨h1, h2, _, o, ho, hck⟩ := made_fields _ _ _ _ _ _ _ _ _ _ h
  rw [outcome_received now t i mode.toNat hp v u f [] (by omega) noClash_nil, hd] at ho
  simp only at ho
  cases hst : setPDict (ctxOf t i mode.toNat hp v u ⟨some f, []⟩) now d [] (st0 f) with
  | error e => rw [hst] at ho; simp only [Except.map, wrapErr_error] at ho; cases ho
  | ok st =>
    rw [hst] at ho
    simp only [Except.map, wrapErr_ok, Except.ok.injEq] at ho
    subst ho
    refine ⟨_, C01_checksum_is_hex_of_xor _, ?_⟩
    simp only [Option.getD_none] at hck
    unfold Msg.text
    rw [contentOf_eq, hck, h1, h2]
    simp

/-- With `VALMSGID` the constructor also raises `NMEAMessageError` if there is no definition for the payload in that mode. -/
theorem C19_constructor_undefined (now : Nat → DateTime) (t i : Str) (mode : Int) (hp : Bool) (v : Nat) (u : UDefs)
    (ck : Option Str) (f : List Str) (hv : ValMsgid v) (hd : definitionFor mode.toNat u i f = .ok none) :
    mkMsg now t i mode hp v u ck ⟨some f, []⟩ = .error .nmeaMessage := by
  by_cases hm : mode = 0 ∨ mode = 1 ∨ mode = 2
  · rw [mkMsg_eq _ _ _ _ _ _ _ _ _ hm]
    split
    · rfl
    · rw [outcome_received now t i mode.toNat hp v u f [] (by omega) noClash_nil, hd]
      simp only [if_pos hv, Except.map]
  · exact mkMsg_mode _ _ _ _ _ _ _ _ _ hm

/-- And a message is made from keywords only if the talker and the id are known and the keywords select a definition. -/
theorem C19_constructor_known (now : Nat → DateTime) (t i : Str) (mode : Int) (hp : Bool) (v : Nat) (u : UDefs)
    (ck : Option Str) (kw : List (Str × PyVal)) (m : Msg) (hkw : PlainKeywords i kw) (hv : ValMsgid v)
    (h : mkMsg now t i mode hp v u ck ⟨none, kw⟩ = .ok m) :
    t ∈ NMEA_TALKERS ∧ Recognised u i ∧ ∃ d, KwDefinition mode.toNat u i kw d := by
  obtain ⟨hmode, hrej, o, ho, _⟩ := mkMsg_ok _ _ _ _ _ _ _ _ _ _ h
  obtain ⟨h1, h2⟩ := (not_rejected _ _ _ _).1 hrej hv
  refine ⟨h1, h2, ?_⟩
  have hnc := hkw.noClash
  have hf := findDict_kw (ctxOf t i mode.toNat hp v u ⟨none, kw⟩) (by show _ ∨ _; simp only [ctxOf]; omega) rfl rfl
    (hnc.has _ (by decide)) (fun h => hnc.mode h)
  unfold outcome rawOutcome getDict at ho
  cases hfd : findDict (ctxOf t i mode.toNat hp v u ⟨none, kw⟩) with
  | error e => rw [hfd] at ho; simp only [bind, Except.bind, wrapErr_error] at ho; cases ho
  | ok od =>
    cases od with
    | some d => exact ⟨d, (hf d).1 hfd⟩
    | none =>
      rw [hfd] at ho
      have hv' : valMsgid (ctxOf t i mode.toNat hp v u ⟨none, kw⟩).validate = true := (valMsgid_iff v).2 hv
      simp only [bind, Except.bind, hv', if_true, wrapErr_error] at ho
      cases ho

/-- The hypotheses are met: `GAQ` is a query, which has no definition for received sentences. -/
example : ValMsgid 2 ∧ definitionFor 0 [] py!"GAQ" [py!"GNGGA"] = .ok none := by
  refine ⟨by decide, by decide +kernel⟩

/-- Without a definition (here GAQ in GET mode: a known id without GET definition) the checksum is the
text `None`, and the sentence cannot be read back. -/
theorem C53_no_definition_counterexample :
    madeWith (fun m => m.text == py!"$EIGAQ,GNGGA*None\r\n" &&
        (match parse clock0 (.str m.text) 0 1 [] with | .error .nmeaParse => true | _ => false))
      (mkMsg clock0 py!"EI" py!"GAQ" 0 false 1 [] none ⟨some [py!"GNGGA"], []⟩) = true := by
  decide +kernel

example : ∃ d, definitionFor 0 [] py!"ROT" [py!"1.5", py!"A"] = .ok (some d) ∧
    madeWith (fun m => m.text == py!"$GNROT,1.5,A*2B\r\n") (mkMsg clock0 py!"GN" py!"ROT" 0 false 1 [] none
      ⟨some [py!"1.5", py!"A"], []⟩) = true := by
  refine ⟨_, by rfl, ?_⟩; decide +kernel

end Props
