import Verif.Lemmas.AnyPayload
import Verif.Props.Values
import Verif.Lemmas.MadeErrors
import Verif.Lemmas.IntText
/-!
# C102: payloads that are not lists of texts
-/
namespace Props.AnyPayload
open Py Nmea Spec

/-- A message whose payload is a list of texts. -/
def ofTexts (m : Msg) : AnyMsg :=
  { talker := m.talker, msgID := m.msgID, mode := m.mode, hp := m.hp, validate := m.validate, udefs := m.udefs,
    defsource := m.defsource, payload := .list (m.payload.map .str), checksum := m.checksum, attrs := m.attrs }

/-- **C102, lists of texts.** A list of texts is treated as in all other properties: the same message, with the same payload,
checksum and attributes, or the same exception. -/
theorem C102_texts (now : Nat → DateTime) (t i : Str) (mode : Int) (hp : Bool) (v : Nat) (u : UDefs) (ck : Option Str) (ps : List Str) :
    mkMsgAny t i mode hp v u ck (.list (ps.map .str)) = (mkMsg now t i mode hp v u ck ⟨some ps, []⟩).map ofTexts := by
  unfold mkMsgAny mkMsg
  split
  · rfl
  split
  · rfl
  split
  · rfl
  let c : Ctx := ctxOf t i mode.toNat hp v u ⟨some ps, []⟩
  have h1 : c.streaming = true := rfl
  have hd : doAttributesAny c.bare (.list (ps.map .str)) ck =
      (doAttributes c now ck).map fun r => (.list (r.1.map .str), r.2.1, r.2.2) := by
    unfold doAttributesAny doAttributes
    simp only [Payload.items, getDictAny_texts c ps rfl]
    cases getDict c with
    | error e => cases e <;> rfl
    | ok o =>
      cases o with
      | none =>
        simp only [bind, Except.bind, nominalAny_texts]
        rfl
      | some d =>
        have hs := setPDictAny_texts c h1 now d [] ⟨0, ps, [], 0⟩
        simp only [lift] at hs
        have hcl : (c.kw.clash && d.len != 0) = false := rfl
        simp only [bind, Except.bind, Payload.assignable, hs, hcl]
        simp only [Bool.false_eq_true, if_false, show c.payload0 = ps from rfl]
        cases setPDict c now d [] ⟨0, ps, [], 0⟩ with
        | error e => cases e <;> rfl
        | ok st =>
          simp only [Except.map, Nmea.lift, textsOf_texts]
          cases ck <;> rfl
  show (doAttributesAny c.bare _ ck >>= _) = Except.map ofTexts (doAttributes c now ck >>= _)
  rw [hd]
  cases doAttributes c now ck with
  | error e => rfl
  | ok r => rfl

/-! ## Items -/

theorem itemReads_iff (v : PyVal) (ty : Str) (w : PyVal) : ItemReads v ty w ↔ str2valAny v ty = .ok w := by
  constructor
  · intro h
    cases h with
    | text s ty w h => exact h
    | kept v ty hv hty =>
      simp only [List.mem_cons, List.not_mem_nil, or_false] at hty
      cases v with
      | str s => exact absurd rfl (hv s)
      | _ => rcases hty with rfl | rfl | rfl | rfl | rfl | rfl <;> rfl
    | float x => rfl
    | floatOfInt i x h =>
      show Except.map _ (PyFloat.ofInt i) = _
      rw [h]; rfl
    | floatOfBool b => rfl
    | int i => rfl
    | intOfFloat x i h =>
      show Except.map _ x.toInt = _
      rw [h]; rfl
    | intOfBool b => rfl
    | forgotten v ty hv hty =>
      simp only [List.mem_cons, List.not_mem_nil, or_false] at hty
      cases v with
      | str s => exact absurd rfl (hv s)
      | _ => rcases hty with rfl | rfl | rfl <;> rfl
  · intro h
    by_cases hv : ∃ s, v = .str s
    · obtain ⟨s, rfl⟩ := hv
      exact .text s ty w h
    · have hn : ∀ s, v ≠ .str s := fun s e => hv ⟨s, e⟩
      have h' : (if ty = CH ∨ ty = Nmea.ST ∨ ty = LAD ∨ ty = LND ∨ ty = QS then .ok v
          else if ty = HX then .ok v
          else if ty = DE then (floatOfVal v).map .float
          else if ty = DT ∨ ty = DM then .ok (.str [])
          else if ty = IN then (intOfVal v).map .int
          else if ty = LA ∨ ty = LN then .error .attribute
          else if ty = TM then .ok (.str [])
          else .error .nmeaType : Except Err PyVal) = .ok w := by
        rw [← h]
        cases v with
        | str s => exact absurd rfl (hn s)
        | _ => rfl
      split at h'
      · rename_i hty
        cases h'
        exact .kept v ty hn (by rcases hty with rfl | rfl | rfl | rfl | rfl <;> decide)
      split at h'
      · rename_i hty
        cases h'
        exact .kept v ty hn (by rw [hty]; decide)
      split at h'
      · rename_i hty
        subst hty
        cases v with
        | bool b => cases h'; exact .floatOfBool b
        | float x => cases h'; exact .float x
        | int i =>
          simp only [floatOfVal] at h'
          cases hi : PyFloat.ofInt i with
          | error e => rw [hi] at h'; cases h'
          | ok x => rw [hi] at h'; cases h'; exact .floatOfInt i x hi
        | _ => cases h'
      split at h'
      · rename_i hty
        cases h'
        exact .forgotten v ty hn (by rcases hty with rfl | rfl <;> decide)
      split at h'
      · rename_i hty
        subst hty
        cases v with
        | bool b => cases h'; exact .intOfBool b
        | int i => cases h'; exact .int i
        | float x =>
          simp only [intOfVal] at h'
          cases hi : x.toInt with
          | error e => rw [hi] at h'; cases h'
          | ok i => rw [hi] at h'; cases h'; exact .intOfFloat x i hi
        | _ => cases h'
      split at h'
      · cases h'
      split at h'
      · rename_i hty
        cases h'
        exact .forgotten v ty hn (by rw [hty]; decide)
      · cases h'

theorem ofInt_error (i : Int) (e : Err) (h : PyFloat.ofInt i = .error e) : e = .overflow := by
  unfold PyFloat.ofInt at h
  generalize PyFloat.ofRat (i : Rat) = x at h
  cases x <;> cases h <;> rfl

theorem str2valAny_error (v : PyVal) (ty : Str) (e : Err) (h : str2valAny v ty = .error e) : wrapE e = .nmeaType := by
  by_cases hv : ∃ s, v = .str s
  · obtain ⟨s, rfl⟩ := hv
    exact str2val_error s ty e h
  · have hn : ∀ s, v ≠ .str s := fun s e => hv ⟨s, e⟩
    have h' : (if ty = CH ∨ ty = Nmea.ST ∨ ty = LAD ∨ ty = LND ∨ ty = QS then .ok v
        else if ty = HX then .ok v
        else if ty = DE then (floatOfVal v).map .float
        else if ty = DT ∨ ty = DM then .ok (.str [])
        else if ty = IN then (intOfVal v).map .int
        else if ty = LA ∨ ty = LN then .error .attribute
        else if ty = TM then .ok (.str [])
        else .error .nmeaType : Except Err PyVal) = .error e := by
      rw [← h]
      cases v with
      | str s => exact absurd rfl (hn s)
      | _ => rfl
    split at h'
    · cases h'
    split at h'
    · cases h'
    split at h'
    · cases v with
      | int i =>
        simp only [floatOfVal] at h'
        cases hi : PyFloat.ofInt i with
        | ok x => rw [hi] at h'; cases h'
        | error e' =>
          rw [hi] at h'
          injection h' with h'
          subst h'
          rw [ofInt_error i _ hi]; rfl
      | bool b => cases h'
      | float x => cases h'
      | _ => cases h'; rfl
    split at h'
    · cases h'
    split at h'
    · cases v with
      | int i => cases h'
      | bool b => cases h'
      | float x => cases x <;> cases h' <;> rfl
      | _ => cases h'; rfl
    split at h'
    · cases h'; rfl
    split at h'
    · cases h'
    · cases h'; rfl

theorem readItems_iff (ss : List Slot) : ∀ (vs : List PyVal) (a a' : Attrs), ReadItems ss vs a a' ↔ readItems ss vs a = .ok a' := by
  induction ss with
  | nil =>
    intro vs a a'
    constructor
    · intro h; cases h; rfl
    · intro h; cases h; exact .done _ _
  | cons s ss ih =>
    obtain ⟨n, ty⟩ := s
    intro vs a a'
    cases vs with
    | nil =>
      constructor
      · intro h; cases h; rfl
      · intro h; cases h; exact .short _ _ _
    | cons v vs =>
      constructor
      · intro h
        cases h with
        | item _ _ _ _ _ w _ _ h1 h2 =>
          simp only [readItems, (itemReads_iff v ty w).1 h1]
          exact (ih _ _ _).1 h2
      · intro h
        simp only [readItems] at h
        split at h
        · cases h
        · rename_i w hw
          exact .item _ _ _ _ _ w _ _ ((itemReads_iff v ty w).2 hw) ((ih _ _ _).2 h)

theorem readItems_error (ss : List Slot) : ∀ (vs : List PyVal) (a : Attrs) (e : Err), readItems ss vs a = .error e → wrapE e = .nmeaType := by
  induction ss with
  | nil => intro vs a e h; cases h
  | cons s ss ih =>
    obtain ⟨n, ty⟩ := s
    intro vs a e h
    cases vs with
    | nil => cases h
    | cons v vs =>
      simp only [readItems] at h
      split at h
      · rename_i e' he
        cases h
        exact str2valAny_error v ty e he
      · exact ih _ _ _ h

theorem textsOf_iff (vs : List PyVal) : ∀ ts, textsOf vs = .ok ts ↔ List.Forall₂ (fun v s => PyVal.toStr v = .ok s) vs ts := by
  induction vs with
  | nil =>
    intro ts
    constructor
    · intro h; cases h; exact .nil
    · intro h; cases h; rfl
  | cons v vs ih =>
    intro ts
    simp only [textsOf, bind, Except.bind]
    constructor
    · intro h
      cases hv : v.toStr with
      | error e => rw [hv] at h; cases h
      | ok s =>
        rw [hv] at h
        cases ht : textsOf vs with
        | error e => rw [ht] at h; cases h
        | ok r => rw [ht] at h; cases h; exact .cons hv ((ih r).1 ht)
    · intro h
      cases h with
      | cons h1 h2 => rw [h1, (ih _).2 h2]; rfl

theorem textsOf_error (vs : List PyVal) : ∀ e, textsOf vs = .error e → e = .value := by
  induction vs with
  | nil => intro e h; cases h
  | cons v vs ih =>
    intro e h
    simp only [textsOf, bind, Except.bind] at h
    cases hv : v.toStr with
    | error e' => rw [hv] at h; cases h; exact toStr_error_value v _ hv
    | ok s =>
      rw [hv] at h
      cases ht : textsOf vs with
      | error e' => rw [ht] at h; cases h; exact ih _ ht
      | ok r => rw [ht] at h; cases h

/-! ## The constructor -/

theorem mkMsgAny_eq (t i : Str) (mode : Int) (hp : Bool) (v : Nat) (u : UDefs) (ck : Option Str) (p : Payload)
    (hm : mode = 0 ∨ mode = 1 ∨ mode = 2) (hr : ValMsgid v → t ∈ NMEA_TALKERS ∧ Recognised u i) :
    mkMsgAny t i mode hp v u ck p = (doAttributesAny (ctxOf t i mode.toNat hp v u ⟨none, []⟩) p ck).map fun r =>
      { talker := t, msgID := i, mode := mode.toNat, hp := hp, validate := v, udefs := u, defsource := sourceOf i u,
        payload := r.1, checksum := r.2.1, attrs := r.2.2 } := by
  unfold mkMsgAny
  rw [if_neg (by simp only [Classical.not_not]; exact hm), if_neg, if_neg]
  · show (doAttributesAny (ctxOf t i mode.toNat hp v u ⟨none, []⟩) p ck >>= _) = _
    cases doAttributesAny (ctxOf t i mode.toNat hp v u ⟨none, []⟩) p ck <;> rfl
  · rintro ⟨h1, h2⟩
    exact (sourceOf_unkn _ _).1 h1 (hr ((valMsgid_iff v).1 h2)).2
  · rintro ⟨h1, h2⟩
    exact h1 (hr ((valMsgid_iff v).1 h2)).1

/-- The definition of an id that is not proprietary does not depend on the items. -/
theorem getDictAny_plain (t i : Str) (mode : Int) (hp : Bool) (v : Nat) (u : UDefs) (vs : List PyVal) (hm : mode = 0 ∨ mode = 1 ∨ mode = 2)
    (hnp : ¬ IsProprietary i) (d : PDict) (hd : definitionFor mode.toNat u i [] = .ok (some d)) :
    getDictAny (ctxOf t i mode.toNat hp v u ⟨none, []⟩) vs = .ok (some d) := by
  have h0 := getDictAny_texts (ctxOf t i mode.toNat hp v u ⟨some [], []⟩) [] rfl
  rw [getDict_eq _ [] (by show mode.toNat = 0 ∨ mode.toNat = 1 ∨ mode.toNat = 2; omega) rfl rfl rfl (fun _ => rfl)] at h0
  simp only [show (ctxOf t i mode.toNat hp v u ⟨some [], []⟩).mode = mode.toNat from rfl,
    show (ctxOf t i mode.toNat hp v u ⟨some [], []⟩).udefs = u from rfl,
    show (ctxOf t i mode.toNat hp v u ⟨some [], []⟩).msgID = i from rfl, hd] at h0
  rw [← h0]
  have hb : ∀ vs, baseKeyAny i vs = .ok i := by
    intro vs; unfold baseKeyAny; rw [if_neg (fun h => hnp (.inr h))]
  have hs : sourceOf i u ≠ .prop := by
    rw [sourceOf_eq]
    split
    · simp
    · split <;> simp
  unfold getDictAny findDictAny
  simp only [Ctx.bare, ctxOf, hb, bind, Except.bind]
  cases hso : sourceOf i u with
  | prop => exact absurd hso hs
  | _ => rfl

theorem constant_plain (c : Ctx) (hnp : ¬ IsProprietary c.msgID) (hsn : c.talker ++ c.msgID ≠ py!"PSSNSNC") : Constant c := by
  refine ⟨_, ?_, hsn⟩
  intro attrs
  unfold identityOf
  rw [if_neg (fun h => hnp (.inr h.2))]

/-- Attribute processing for a static definition of an id that is not proprietary. -/
theorem doAttributesAny_plain (t i : Str) (mode : Int) (hp : Bool) (v : Nat) (u : UDefs) (ck : Option Str) (p : Payload)
    (hm : mode = 0 ∨ mode = 1 ∨ mode = 2) (hnp : ¬ IsProprietary i) (hsn : t ++ i ≠ py!"PSSNSNC") (d : PDict)
    (hd : definitionFor mode.toNat u i [] = .ok (some d)) (hs : IsStatic d = true) (hn : SaneNames d) :
    doAttributesAny (ctxOf t i mode.toNat hp v u ⟨none, []⟩) p ck = wrapErr (do
      let attrs ← readItems (slotsOf d []) p.items []
      let k ← match ck with
        | some k => pure k
        | none => (textsOf p.items).map (generateChecksum t i)
      pure (p, some k, attrs)) := by
  unfold doAttributesAny
  rw [getDictAny_plain t i mode hp v u p.items hm hnp d hd]
  simp only [bind, Except.bind]
  rw [setPDictAny_static _ (constant_plain _ hnp hsn) _ d hs (sane_names d hn) p.items [] [] (fun k => by simp [suffixed]) 0 []
    (Nat.zero_le _) rfl]
  simp only [List.drop_zero]
  cases readItems (slotsOf d []) p.items [] with
  | error e => rfl
  | ok attrs =>
    simp only [Except.map]
    have hw : p.withItems p.items = p := by cases p <;> rfl
    cases ck with
    | some k => simp only [hw, pure, Except.pure]
    | none =>
      cases textsOf p.items with
      | error e => rfl
      | ok ts => simp only [pure, Except.pure, hw]; rfl

/-- **C102, values.** For a sentence with a definition of fixed shape (and not a proprietary one): whatever the items are, the
message is made if each item that falls on a field gives a value for it, and every item has a text (if the checksum is to be
computed). The attributes are those values in order, the checksum is that of the sentence with the items as `str` writes them,
and the payload is kept as it was given. Otherwise `NMEATypeError` is raised. -/
theorem C102_values (t i : Str) (mode : Int) (hp : Bool) (v : Nat) (u : UDefs) (ck : Option Str) (p : Payload)
    (hm : mode = 0 ∨ mode = 1 ∨ mode = 2) (hr : ValMsgid v → t ∈ NMEA_TALKERS ∧ Recognised u i)
    (hnp : ¬ IsProprietary i) (hsn : t ++ i ≠ py!"PSSNSNC") (d : PDict)
    (hd : definitionFor mode.toNat u i [] = .ok (some d)) (hs : IsStatic d = true) (hn : SaneNames d) :
    (∀ attrs k, ReadItems (slotsOf d []) p.items [] attrs → ChecksumFor t i ck p.items k →
      ∃ m, mkMsgAny t i mode hp v u ck p = .ok m ∧ m.talker = t ∧ m.msgID = i ∧ m.payload = p ∧ m.checksum = some k ∧ m.attrs = attrs) ∧
    ((¬ ∃ attrs k, ReadItems (slotsOf d []) p.items [] attrs ∧ ChecksumFor t i ck p.items k) →
      mkMsgAny t i mode hp v u ck p = .error .nmeaType) := by
  rw [mkMsgAny_eq t i mode hp v u ck p hm hr, doAttributesAny_plain t i mode hp v u ck p hm hnp hsn d hd hs hn]
  constructor
  · intro attrs k h1 h2
    rw [(readItems_iff _ _ _ _).1 h1]
    cases ck with
    | some g =>
      simp only [ChecksumFor] at h2
      subst h2
      exact ⟨_, rfl, rfl, rfl, rfl, rfl, rfl⟩
    | none =>
      obtain ⟨ts, h2, rfl⟩ := h2
      rw [(textsOf_iff _ _).2 h2]
      exact ⟨_, rfl, rfl, rfl, rfl, rfl, rfl⟩
  · intro h
    cases hr' : readItems (slotsOf d []) p.items [] with
    | error e =>
      simp only [bind, Except.bind, wrapErr_error, Except.map, readItems_error _ _ _ _ hr']
    | ok attrs =>
      have h1 := (readItems_iff _ _ _ _).2 hr'
      cases ck with
      | some g => exact absurd ⟨attrs, g, h1, rfl⟩ h
      | none =>
        cases ht : textsOf p.items with
        | ok ts => exact absurd ⟨attrs, _, h1, ts, (textsOf_iff _ _).1 ht, rfl⟩ h
        | error e => rw [textsOf_error _ _ ht]; rfl

/-! ## StandsFor items -/

theorem natural_reads {ty : Str} {v : PyVal} {s : Str} (h : StandsFor ty v s) :
    v.toStr = .ok s ∧ str2valAny v ty = str2valAny (.str s) ty := by
  cases h with
  | text ty s => exact ⟨rfl, rfl⟩
  | int i s hs =>
    refine ⟨hs, ?_⟩
    have h1 := intOfStr_strOfInt i s hs
    show .ok (.int i) = str2val s IN
    have hne : s ≠ [] := by rintro rfl; exact absurd h1 (by rw [show intOfStr [] = .error .value by decide]; simp)
    simp [str2val, CH, Nmea.ST, LAD, LND, QS, HX, DE, DT, DM, IN, h1, hne]
    rfl
  | float x hx =>
    refine ⟨rfl, ?_⟩
    have h1 := floatOfStr_reprFloat x hx.wf
    show .ok (.float x) = str2val (reprFloat x) DE
    have hne : reprFloat x ≠ [] := by intro e; rw [e, show floatOfStr [] = .error .value by rfl] at h1; cases h1
    simp [str2val, CH, Nmea.ST, LAD, LND, QS, HX, DE, h1, hne]
    rfl

theorem readItems_natural (ss : List Slot) : ∀ (vs : List PyVal) (ts : List Str) (a : Attrs), vs.length = ts.length →
    (∀ (j : Nat) n ty v s, ss[j]? = some (n, ty) → vs[j]? = some v → ts[j]? = some s → StandsFor ty v s) →
    readItems ss vs a = readItems ss (ts.map .str) a := by
  induction ss with
  | nil => intro vs ts a _ _; rfl
  | cons x ss ih =>
    obtain ⟨n, ty⟩ := x
    intro vs ts a hl h
    cases vs with
    | nil => cases ts with
      | nil => rfl
      | cons _ _ => simp at hl
    | cons v vs =>
      cases ts with
      | nil => simp at hl
      | cons s ts =>
        have h1 := natural_reads (h 0 n ty v s rfl rfl rfl)
        simp only [readItems, List.map_cons, h1.2]
        split
        · rfl
        · exact ih vs ts _ (by simpa using hl) (fun j n' ty' v' s' e1 e2 e3 => h (j + 1) n' ty' v' s' (by simpa using e1) (by simpa using e2) (by simpa using e3))

/-- **C102, natural items.** If every item that falls on a field is the text, or the `int` (in integer fields) or the `float` (in
decimal fields) that `str` writes as that text, and the remaining items are written by `str` as the remaining texts, then the
message has the attributes and the checksum of the message made of the texts - and the same exceptions. Only its payload is
different. -/
theorem C102_natural (now : Nat → DateTime) (t i : Str) (mode : Int) (hp : Bool) (v : Nat) (u : UDefs) (ck : Option Str)
    (vs : List PyVal) (ts : List Str) (hm : mode = 0 ∨ mode = 1 ∨ mode = 2) (hr : ValMsgid v → t ∈ NMEA_TALKERS ∧ Recognised u i)
    (hnp : ¬ IsProprietary i) (hsn : t ++ i ≠ py!"PSSNSNC") (d : PDict)
    (hd : definitionFor mode.toNat u i [] = .ok (some d)) (hs : IsStatic d = true) (hn : SaneNames d)
    (hstr : List.Forall₂ (fun v s => PyVal.toStr v = .ok s) vs ts)
    (hnat : ∀ (j : Nat) n ty v s, (slotsOf d [])[j]? = some (n, ty) → vs[j]? = some v → ts[j]? = some s → StandsFor ty v s) :
    mkMsgAny t i mode hp v u ck (.list vs) =
      (mkMsg now t i mode hp v u ck ⟨some ts, []⟩).map fun m => { ofTexts m with payload := .list vs } := by
  have hc : ∀ r : Except Err Msg, r.map (fun m => ({ ofTexts m with payload := .list vs } : AnyMsg)) =
      (r.map ofTexts).map fun m => { m with payload := .list vs } := by
    intro r; cases r <;> rfl
  rw [hc, ← C102_texts, mkMsgAny_eq t i mode hp v u ck _ hm hr, mkMsgAny_eq t i mode hp v u ck _ hm hr,
    doAttributesAny_plain t i mode hp v u ck _ hm hnp hsn d hd hs hn, doAttributesAny_plain t i mode hp v u ck _ hm hnp hsn d hd hs hn]
  simp only [Payload.items]
  rw [readItems_natural _ vs ts [] hstr.length_eq hnat, textsOf_texts, (textsOf_iff _ _).2 hstr]
  cases readItems (slotsOf d []) (ts.map .str) [] with
  | error e => cases e <;> rfl
  | ok attrs => cases ck <;> rfl

/-! ## Tuples and texts -/

theorem identityOf_prefix {t i : Str} {attrs : Attrs} {s : Str} (h : identityOf t i attrs = .ok s) : t ++ i <+: s := by
  unfold identityOf at h
  split at h
  · split at h
    · cases h; exact List.prefix_append _ _
    · cases h
    · cases h; exact List.prefix_refl _
  · cases h; exact List.prefix_refl _

theorem setSingleAny_tuple (c : Ctx) (hc : ¬ c.talker ++ c.msgID <+: py!"PSSNSNC") (b b' : Bool) (k t : Str) (g : List Nat) (st : AnySt) :
    setSingleAny c b k t g st = setSingleAny c b' k t g st ∧ ∀ st', setSingleAny c b k t g st = .ok st' → st'.payload = st.payload := by
  unfold setSingleAny
  cases hi : identityOf c.talker c.msgID st.attrs with
  | error e => exact ⟨rfl, by intro st' h; cases h⟩
  | ok s =>
    have hne : s ≠ py!"PSSNSNC" := by
      rintro rfl
      exact hc (identityOf_prefix hi)
    simp only [bind, Except.bind, unbracket, if_neg hne]
    cases st.payload[st.pindex]? with
    | none => exact ⟨trivial, by intro st' h; cases h; rfl⟩
    | some raw =>
      simp only
      refine ⟨trivial, ?_⟩
      intro st' h
      split at h
      · cases h
      · cases hv : str2valAny raw t with
        | error e => rw [hv] at h; cases h
        | ok w =>
          rw [hv] at h
          cases ha : setAttr st.attrs (suffixed k g) w with
          | error e => simp only [ha] at h; cases h
          | ok a => simp only [ha] at h; cases h; rfl

theorem setPDictAny_tuple (c : Ctx) (hc : ¬ c.talker ++ c.msgID <+: py!"PSSNSNC") (b b' : Bool) (d : PDict) : ∀ (g : List Nat) (st : AnySt),
    setPDictAny c b d g st = setPDictAny c b' d g st ∧ ∀ st', setPDictAny c b d g st = .ok st' → st'.payload = st.payload := by
  induction d with
  | nil => intro g st; exact ⟨rfl, by intro st' h; cases h; rfl⟩
  | single k t r ih =>
    intro g st
    obtain ⟨h1, h2⟩ := setSingleAny_tuple c hc b b' k t g st
    simp only [setPDictAny, bind, Except.bind]
    rw [← h1]
    cases hs : setSingleAny c b k t g st with
    | error e => exact ⟨rfl, by intro st' h; cases h⟩
    | ok st1 =>
      refine ⟨(ih g st1).1, ?_⟩
      intro st' h
      rw [(ih g st1).2 st' h, h2 st1 hs]
  | group k rep bd r ihb ihr =>
    intro g st
    have loop : ∀ n j st, loopFrom (fun i st => setPDictAny c b bd (g ++ [i]) st) n j st =
          loopFrom (fun i st => setPDictAny c b' bd (g ++ [i]) st) n j st ∧
        ∀ st', loopFrom (fun i st => setPDictAny c b bd (g ++ [i]) st) n j st = .ok st' → st'.payload = st.payload := by
      intro n
      induction n with
      | zero => intro j st; exact ⟨rfl, by intro st' h; cases h; rfl⟩
      | succ n ihn =>
        intro j st
        simp only [loopFrom, bind, Except.bind]
        rw [← (ihb (g ++ [j]) st).1]
        cases hs : setPDictAny c b bd (g ++ [j]) st with
        | error e => exact ⟨rfl, by intro st' h; cases h⟩
        | ok st1 =>
          refine ⟨(ihn (j + 1) st1).1, ?_⟩
          intro st' h
          rw [(ihn (j + 1) st1).2 st' h, (ihb (g ++ [j]) st).2 st1 hs]
    simp only [setPDictAny, bind, Except.bind]
    cases repCountAny c rep bd st with
    | error e => exact ⟨rfl, by intro st' h; cases h⟩
    | ok n =>
      simp only
      rw [← (loop n.toNat 1 st).1]
      cases hs : loopFrom (fun i st => setPDictAny c b bd (g ++ [i]) st) n.toNat 1 st with
      | error e => exact ⟨rfl, by intro st' h; cases h⟩
      | ok st1 =>
        refine ⟨(ihr g st1).1, ?_⟩
        intro st' h
        rw [(ihr g st1).2 st' h, (loop n.toNat 1 st).2 st1 hs]

/-- **C102, tuples.** A tuple does what a list with the same items does, except for the bracketed sentences. -/
theorem C102_tuple (t i : Str) (mode : Int) (hp : Bool) (v : Nat) (u : UDefs) (ck : Option Str) (vs : List PyVal)
    (hsn : ¬ t ++ i <+: py!"PSSNSNC") :
    mkMsgAny t i mode hp v u ck (.tuple vs) =
      (mkMsgAny t i mode hp v u ck (.list vs)).map fun m => { m with payload := .tuple vs } := by
  unfold mkMsgAny
  split
  · rfl
  split
  · rfl
  split
  · rfl
  let c : Ctx := ctxOf t i mode.toNat hp v u ⟨none, []⟩
  have hd : doAttributesAny c (.tuple vs) ck = (doAttributesAny c (.list vs) ck).map fun r => (.tuple vs, r.2.1, r.2.2) := by
    unfold doAttributesAny
    simp only [Payload.items, Payload.assignable]
    cases getDictAny c vs with
    | error e => cases e <;> rfl
    | ok o =>
      cases o with
      | none => rfl
      | some d =>
        simp only [bind, Except.bind]
        rw [(setPDictAny_tuple c hsn false true d [] ⟨0, vs, []⟩).1]
        cases hs : setPDictAny c true d [] ⟨0, vs, []⟩ with
        | error e => cases e <;> rfl
        | ok st =>
          cases ck with
          | some k => rfl
          | none =>
            simp only
            cases textsOf st.payload with
            | error e => cases e <;> rfl
            | ok ts => rfl
  show (doAttributesAny c _ ck >>= _) = Except.map _ (doAttributesAny c _ ck >>= _)
  rw [hd]
  cases doAttributesAny c (.list vs) ck with
  | error e => rfl
  | ok r => rfl

/-- **C102, texts.** A payload that is one text does what the tuple of its characters does - each character is a field. -/
theorem C102_characters (t i : Str) (mode : Int) (hp : Bool) (v : Nat) (u : UDefs) (ck : Option Str) (s : Str) :
    mkMsgAny t i mode hp v u ck (.text s) =
      (mkMsgAny t i mode hp v u ck (.tuple (s.map fun c => .str [c]))).map fun m => { m with payload := .text s } := by
  unfold mkMsgAny
  split
  · rfl
  split
  · rfl
  split
  · rfl
  let c : Ctx := ctxOf t i mode.toNat hp v u ⟨none, []⟩
  have hd : doAttributesAny c (.text s) ck =
      (doAttributesAny c (.tuple (s.map fun c => .str [c])) ck).map fun r => (.text s, r.2.1, r.2.2) := by
    unfold doAttributesAny
    simp only [Payload.items, Payload.assignable]
    cases getDictAny c (s.map fun c => .str [c]) with
    | error e => cases e <;> rfl
    | ok o =>
      cases o with
      | none => rfl
      | some d =>
        simp only [bind, Except.bind]
        cases hs : setPDictAny c false d [] ⟨0, s.map fun c => .str [c], []⟩ with
        | error e => cases e <;> rfl
        | ok st =>
          cases ck with
          | some k => rfl
          | none =>
            simp only
            cases textsOf st.payload with
            | error e => cases e <;> rfl
            | ok ts => rfl
  show (doAttributesAny c _ ck >>= _) = Except.map _ (doAttributesAny c _ ck >>= _)
  rw [hd]
  cases doAttributesAny c (.tuple (s.map fun c => .str [c])) ck with
  | error e => rfl
  | ok r => rfl

/-! ## Serialization -/

theorem addItems_texts (fs : List Str) : ∀ out, addItems (fs.map .str) out = .ok (out ++ fs.flatMap fun f => 44 :: f) := by
  induction fs with
  | nil => intro out; simp [addItems]
  | cons f fs ih => intro out; simp [addItems, ih]

theorem addItems_other (vs : List PyVal) (h : ¬ ∃ fs : List Str, vs = fs.map .str) : ∀ out, addItems vs out = .error .type := by
  induction vs with
  | nil => exact absurd ⟨[], rfl⟩ h
  | cons v vs ih =>
    intro out
    cases v with
    | str f =>
      simp only [addItems]
      exact ih (by rintro ⟨fs, rfl⟩; exact h ⟨f :: fs, rfl⟩) _
    | _ => rfl

/-- **C102, serialize.** If all items are texts, `serialize()` writes them after commas, between the header and the checksum; if
any item is something else, it raises `TypeError` - although the message was made, with a checksum. -/
theorem C102_serialize (m : AnyMsg) (k : Str) (hk : m.checksum = some k) :
    (∀ fs : List Str, m.payload.items = fs.map .str →
      m.serialize = utf8Encode (py!"$" ++ m.talker ++ m.msgID ++ (fs.flatMap fun f => py!"," ++ f) ++ py!"*" ++ k ++ py!"\r\n")) ∧
    ((∃ v ∈ m.payload.items, ∀ s, v ≠ .str s) → m.serialize = .error .type) := by
  constructor
  · intro fs h
    unfold AnyMsg.serialize
    rw [h, addItems_texts, hk]
    simp [bind, Except.bind]
  · rintro ⟨v, hv, hn⟩
    unfold AnyMsg.serialize
    rw [addItems_other]
    · rfl
    · rintro ⟨fs, h⟩
      rw [h] at hv
      simp only [List.mem_map] at hv
      obtain ⟨s, _, rfl⟩ := hv
      exact hn s rfl

/-! ## Examples -/

/-- A course of 54.5 degrees and a speed of 5.5 knots, as floats. -/
def course : List PyVal := [.float (.fin false (109 / 2)), .str py!"T", .str [], .str py!"M", .float (.fin false (11 / 2)), .str py!"N",
  .str [], .str py!"K", .str py!"A"]

/-- The hypotheses of `C102_natural` hold for it. -/
example : ∃ d, definitionFor 0 [] py!"VTG" [] = .ok (some d) ∧ IsStatic d = true ∧ SaneNames d ∧ ¬ IsProprietary py!"VTG" ∧
    List.Forall₂ (fun v s => PyVal.toStr v = .ok s) course [py!"54.5", py!"T", [], py!"M", py!"5.5", py!"N", [], py!"K", py!"A"] := by
  refine ⟨_, rfl, by decide, by decide, by decide, ?_⟩
  have h1 : PyVal.toStr (.float (.fin false (109 / 2))) = .ok py!"54.5" := by decide +kernel
  have h2 : PyVal.toStr (.float (.fin false (11 / 2))) = .ok py!"5.5" := by decide +kernel
  exact .cons h1 (.cons rfl (.cons rfl (.cons rfl (.cons h2 (.cons rfl (.cons rfl (.cons rfl (.cons rfl .nil))))))))

example : StandsFor py!"DE" (.float (.fin false (109 / 2))) py!"54.5" := by
  have h : StandsFor py!"DE" (.float (.fin false (109 / 2))) (reprFloat (.fin false (109 / 2))) :=
    .float _ ⟨109, -1, by norm_num, by norm_num, by norm_num, by norm_num⟩
  rwa [show reprFloat (.fin false (109 / 2)) = py!"54.5" by decide +kernel] at h

/-- **C102, a message that cannot be sent.** It has its attributes and the right checksum, and `serialize()` raises `TypeError`. -/
theorem C102_unsendable : ∃ m, mkMsgAny py!"GN" py!"VTG" 0 false 1 [] none (.list course) = .ok m ∧
    lookup py!"sogn" m.attrs = some (.float (.fin false (11 / 2))) ∧ m.checksum = some py!"09" ∧ m.serialize = .error .type ∧
    (mkMsg clock0 py!"GN" py!"VTG" 0 false 1 [] none
      ⟨some [py!"54.5", py!"T", [], py!"M", py!"5.5", py!"N", [], py!"K", py!"A"], []⟩).map Msg.serialize =
        .ok (.ok pb!"$GNVTG,54.5,T,,M,5.5,N,,K,A*09\r\n") := by
  refine ⟨(mkMsgAny py!"GN" py!"VTG" 0 false 1 [] none (.list course)).toOption.get (by decide +kernel), ?_, ?_⟩ <;> decide +kernel

/-- **C102, positions and times as objects.** A position given as numbers is refused; a time given as a `time` object is lost. -/
theorem C102_objects :
    mkMsgAny py!"GN" py!"GLL" 0 false 1 [] none (.list [.float (.fin false (53 / 2)), .str py!"N", .float (.fin true 2), .str py!"W"]) =
      .error .nmeaType ∧
    (mkMsgAny py!"GN" py!"GLL" 0 false 1 [] none
      (.list [.str py!"2630.0", .str py!"N", .str py!"00200.0", .str py!"W", .time ⟨12, 0, 0, 0⟩, .str py!"A"])).map
        (fun m => (lookup py!"time" m.attrs, lookup py!"lon" m.attrs)) = .ok (some (.str []), some (.float (.fin true 2))) := by
  decide +kernel

/-- **C102, the fields in one text.** `payload="5,A"` is not the fields `5` and `A` but three: `5`, a comma and `A`. -/
theorem C102_one_text :
    (mkMsgAny py!"GN" py!"THS" 0 false 1 [] none (.text py!"5,A")).map (fun m => (lookup py!"headt" m.attrs, lookup py!"mi" m.attrs, m.serialize)) =
      .ok (some (.float (.fin false 5)), some (.str py!","), .ok pb!"$GNTHS,5,,,A*32\r\n") := by
  decide +kernel

/-- **C102, the bracketed sentence.** A tuple of texts is refused where a list is accepted. -/
theorem C102_bracketed :
    (mkMsgAny py!"P" py!"SSN" 0 false 1 [] none (.tuple [.str py!"SNC", .str py!"1"])) = .error .nmeaType ∧
    (mkMsgAny py!"P" py!"SSN" 0 false 1 [] none (.list [.str py!"SNC", .str py!"1"])).map AnyMsg.payload =
      .ok (.list [.str py!"SNC", .str py!"1"]) := by
  decide +kernel

end Props.AnyPayload
