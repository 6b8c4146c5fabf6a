import Verif.Lemmas.Keys
import Verif.Lemmas.SetPDict
import Verif.Spec.Layout
/-! # Streaming: attribute processing is expansion followed by positional reading -/
namespace Nmea
open Py Spec

theorem stripBrackets_eq (s : Str) : stripBrackets s = noBrackets s := by
  unfold stripBrackets noBrackets removeChar
  rw [List.filter_filter]
  congr 1
  funext c
  rw [Bool.and_comm]

theorem withSign_eq (name : Str) (neg : Prop) [Decidable neg] (attrs : Attrs) :
    (match lookup name attrs with
      | some v => if v.isNum then
          Py.insert name (if neg then v.absV.negV else v.absV) attrs else attrs
      | none => attrs) = withSign name (decide neg) attrs := by
  unfold withSign
  cases lookup name attrs with
  | none => rfl
  | some w =>
    by_cases h : neg
    · cases w with
      | bool b => cases b <;> simp [h, PyVal.isNum, PyVal.num?, PyVal.absV, PyVal.negV]
      | _ => simp [h, PyVal.isNum, PyVal.num?, PyVal.absV, PyVal.negV]
    · cases w with
      | bool b => cases b <;> simp [h, PyVal.isNum, PyVal.num?, PyVal.absV]
      | _ => simp [h, PyVal.isNum, PyVal.num?, PyVal.absV]

theorem signOverride_eq (ty : Str) (v : PyVal) (attrs : Attrs) :
    signOverride ty v attrs = hemisphere ty v attrs := by
  unfold signOverride hemisphere
  rw [← withSign_eq, ← withSign_eq]
  rfl

theorem suffixed_append (k : Str) (g : List Nat) (i : Nat) (hi : 0 < i) :
    suffixed k (g ++ [i]) = suffixed k g ++ groupSuffix i := by
  unfold suffixed groupSuffix
  rw [List.foldl_append]
  simp [hi]

theorem suffixed_eq (k : Str) (g : List Nat) : ∃ s, suffixed k g = k ++ s ∧ (s ≠ [] → 95 ∈ s) := by
  induction g generalizing k with
  | nil => exact ⟨[], by simp [suffixed], by simp⟩
  | cons i g ih =>
    have e : suffixed k (i :: g) = suffixed (if i > 0 then k ++ 95 :: fmt02d i else k) g := rfl
    rw [e]
    by_cases hi : 0 < i
    · rw [if_pos hi]
      obtain ⟨s, h1, _⟩ := ih (k ++ 95 :: fmt02d i)
      exact ⟨95 :: fmt02d i ++ s, by rw [h1, List.append_assoc], by simp⟩
    · rw [if_neg hi]; exact ih k

theorem suffixed_plain (k x : Str) (g : List Nat) (h : suffixed k g = x) (hx : 95 ∉ x) : k = x := by
  obtain ⟨s, h1, h2⟩ := suffixed_eq k g
  rw [h1] at h
  by_cases hs : s = []
  · rw [hs] at h; simpa using h
  · exact absurd (by rw [← h]; simp [h2 hs]) hx

/-! ## Reading slots -/

theorem readSlots_append (a b : List Slot) (fs : List Str) (attrs : Attrs) :
    readSlots (a ++ b) fs attrs = (readSlots a fs attrs).bind (readSlots b (fs.drop a.length)) := by
  induction a generalizing fs attrs with
  | nil => rfl
  | cons s a ih =>
    obtain ⟨n, t⟩ := s
    cases fs with
    | nil => cases b <;> simp [readSlots, Except.bind]
    | cons f fs =>
      simp only [List.cons_append, readSlots]
      cases str2val f t with
      | error e => rfl
      | ok v => simp [ih]

theorem readSlots_nil (b : List Slot) (attrs : Attrs) : readSlots b [] attrs = .ok attrs := by
  cases b <;> rfl

/-- Reading one more slot. -/
theorem readSlots_snoc (a : List Slot) (n t : Str) (fs : List Str) (attrs attrs' : Attrs)
    (h : readSlots a fs attrs = .ok attrs') :
    readSlots (a ++ [(n, t)]) fs attrs =
      match fs[a.length]? with
      | none => .ok attrs'
      | some f => match str2val f t with
        | .error e => .error e
        | .ok v => .ok (hemisphere t v (Py.insert n v attrs')) := by
  rw [readSlots_append, h]
  simp only [Except.bind]
  rw [← List.head?_drop]
  cases fs.drop a.length with
  | nil => rfl
  | cons f fs' =>
    simp only [List.head?_cons, readSlots]
    cases str2val f t with
    | error e => rfl
    | ok v => rfl

/-! ## Attribute dictionaries that come from reading -/

def PyVal.isBool : PyVal → Bool
  | .bool _ => true
  | _ => false

/-- No property name, no hidden method, no Boolean. -/
structure Clean (attrs : Attrs) : Prop where
  props : ∀ k ∈ propertyNames, lookup k attrs = none
  meth : lookup py!"str2val" attrs = none
  nobool : ∀ k b, lookup k attrs ≠ some (.bool b)

theorem withSign_lookup (name : Str) (neg : Bool) (attrs : Attrs) (x : Str) :
    lookup x (withSign name neg attrs) = lookup x attrs ∨
      (x = name ∧ (lookup x attrs).isSome ∧ ∃ w, lookup x (withSign name neg attrs) = some w ∧ w.isBool = false) := by
  unfold withSign
  split
  · rename_i i h
    rw [lookup_insert]
    split
    · rename_i hx; right; subst hx; exact ⟨rfl, by rw [h]; rfl, _, rfl, rfl⟩
    · exact .inl rfl
  · rename_i i h
    rw [lookup_insert]
    split
    · rename_i hx; right; subst hx; exact ⟨rfl, by rw [h]; rfl, _, rfl, rfl⟩
    · exact .inl rfl
  · rename_i i h
    rw [lookup_insert]
    split
    · rename_i hx; right; subst hx; exact ⟨rfl, by rw [h]; rfl, _, rfl, rfl⟩
    · exact .inl rfl
  · exact .inl rfl

theorem hemisphere_lookup (t : Str) (v : PyVal) (attrs : Attrs) (x : Str) :
    lookup x (hemisphere t v attrs) = lookup x attrs ∨
      ((x = py!"lon" ∨ x = py!"lat") ∧ (lookup x attrs).isSome ∧
        ∃ w, lookup x (hemisphere t v attrs) = some w ∧ w.isBool = false) := by
  unfold hemisphere
  split
  · rcases withSign_lookup py!"lon" (decide (v = .str py!"W")) attrs x with h | ⟨h1, h2⟩
    · exact .inl h
    · exact .inr ⟨.inl h1, h2⟩
  · split
    · rcases withSign_lookup py!"lat" (decide (v = .str py!"S")) attrs x with h | ⟨h1, h2⟩
      · exact .inl h
      · exact .inr ⟨.inr h1, h2⟩
    · exact .inl rfl

theorem lookup_hemisphere (t : Str) (v : PyVal) (attrs : Attrs) (x : Str) (h1 : x ≠ py!"lon")
    (h2 : x ≠ py!"lat") : lookup x (hemisphere t v attrs) = lookup x attrs := by
  rcases hemisphere_lookup t v attrs x with h | ⟨h | h, _⟩
  · exact h
  · exact absurd h h1
  · exact absurd h h2

theorem date2utc_notbool (f t : Str) : (date2utc f t).isBool = false := by
  unfold date2utc; simp only; split <;> rfl

theorem str2val_notbool (f t : Str) (v : PyVal) (h : str2val f t = .ok v) : v.isBool = false := by
  unfold str2val at h
  split at h
  · cases h; rfl
  split at h
  · cases h; rfl
  split at h
  · split at h
    · cases hf : floatOfStr f <;> rw [hf] at h <;> cases h; rfl
    · cases h; rfl
  split at h
  · cases h; exact date2utc_notbool f t
  split at h
  · split at h
    · cases hf : intOfStr f <;> rw [hf] at h <;> cases h; rfl
    · cases h; rfl
  split at h
  · unfold dmm2ddd at h
    simp only at h
    split at h <;> cases h <;> rfl
  split at h
  · cases h
    unfold time2utc; simp only; split <;> rfl
  · cases h

theorem Clean.step {attrs : Attrs} (h : Clean attrs) (t name : Str) (v : PyVal)
    (h1 : name ∉ propertyNames) (h2 : name ≠ py!"str2val") (hv : v.isBool = false) :
    Clean (hemisphere t v (Py.insert name v attrs)) := by
  refine ⟨?_, ?_, ?_⟩
  · intro k hk
    have n1 : k ≠ py!"lon" := by rintro rfl; exact absurd hk (by decide)
    have n2 : k ≠ py!"lat" := by rintro rfl; exact absurd hk (by decide)
    rw [lookup_hemisphere _ _ _ _ n1 n2, lookup_insert, if_neg (by rintro rfl; exact h1 hk), h.props k hk]
  · rw [lookup_hemisphere _ _ _ _ (by decide) (by decide), lookup_insert,
      if_neg (fun e => h2 e.symm), h.meth]
  · intro k b hb
    rcases hemisphere_lookup t v (Py.insert name v attrs) k with he | ⟨_, _, w, hw1, hw2⟩
    · rw [he, lookup_insert] at hb
      split at hb
      · cases hb; cases hv
      · exact h.nobool k b hb
    · rw [hw1] at hb; cases hb; cases hw2

theorem Clean.nil : Clean [] := ⟨fun _ _ => rfl, rfl, fun _ _ => by simp [lookup]⟩

/-! ## The state of the object while streaming -/

/-- Everything streaming depends on: `P` is an invariant of the attributes under which the
identity is known to be (or not to be) `PSSNSNC`. -/
structure Phase (c : Ctx) (d : PDict) (strip : Bool) (P : Attrs → Prop) : Prop where
  streaming : c.streaming = true
  ident : ∀ attrs, P attrs → ∃ s, identityOf c.talker c.msgID attrs = .ok s ∧
    (s = py!"PSSNSNC" ↔ strip = true)
  pres : ∀ attrs k t g v, P attrs → (k, t) ∈ d.entries →
    P (hemisphere t v (Py.insert (suffixed k g) v attrs))
  names : ∀ k t, (k, t) ∈ d.entries → ∀ g, suffixed k g ∉ propertyNames ∧ suffixed k g ≠ py!"str2val"

/-- The state after the slots `pre` have been processed: `fs` are the texts to convert, `orig` the
payload as received. -/
structure Inv (orig fs : List Str) (strip : Bool) (P : Attrs → Prop) (pre : List Slot) (st : St) : Prop where
  idx : st.pindex = min pre.length fs.length
  pay : st.payload = fs.take st.pindex ++ orig.drop st.pindex
  read : readSlots pre fs [] = .ok st.attrs
  clean : Clean st.attrs
  prop : P st.attrs
  len : fs.length = orig.length
  rest : ∀ i, pre.length ≤ i → fs[i]? = (orig[i]?).map (if strip then noBrackets else id)

theorem setAt_eq (p : List Str) (i : Nat) (v x : Str) (a b : List Str) (ha : a.length = i)
    (h : p = a ++ x :: b) : setAt p i v = a ++ v :: b := by
  subst h ha
  induction a with
  | nil => rfl
  | cons y a ih => simp [setAt, ih]

/-- One attribute. -/
theorem setSingleStream_spec (c : Ctx) (d : PDict) (strip : Bool) (P : Attrs → Prop)
    (hp : Phase c d strip P) (orig fs : List Str) (pre : List Slot) (st : St)
    (hi : Inv orig fs strip P pre st) (k t : Str) (g : List Nat) (hm : (k, t) ∈ d.entries) :
    match fs[pre.length]? with
    | none => setSingleStream c k t g st = .ok st ∧ Inv orig fs strip P (pre ++ [(suffixed k g, t)]) st
    | some f => match str2val f t with
      | .error e => setSingleStream c k t g st = .error e
      | .ok _ => ∃ st', setSingleStream c k t g st = .ok st' ∧
          Inv orig fs strip P (pre ++ [(suffixed k g, t)]) st' := by
  obtain ⟨s, hs1, hs2⟩ := hp.ident _ hi.prop
  have hn := hp.names k t hm g
  have hplen : st.payload.length = fs.length := by
    rw [hi.pay, List.length_append, List.length_take, List.length_drop, hi.len]
    have := hi.idx; have := hi.len; omega
  cases hf : fs[pre.length]? with
  | none =>
    have hle : fs.length ≤ pre.length := by simpa using hf
    have hidx : st.pindex = fs.length := by rw [hi.idx]; omega
    have hnone : st.payload[st.pindex]? = none := by
      rw [List.getElem?_eq_none_iff]; omega
    refine ⟨?_, ?_⟩
    · unfold setSingleStream
      simp only [hs1, bind, Except.bind, hnone, pure, Except.pure]
    · refine ⟨?_, hi.pay, ?_, hi.clean, hi.prop, hi.len, ?_⟩
      · rw [hi.idx]; simp; omega
      · rw [readSlots_snoc _ _ _ _ _ _ hi.read, hf]
      · intro i hi'; exact hi.rest i (by simp at hi'; omega)
  | some f =>
    have hlt : pre.length < fs.length := by
      have := List.getElem?_eq_some_iff.1 hf
      exact this.1
    have hidx : st.pindex = pre.length := by rw [hi.idx]; omega
    obtain ⟨raw, hraw⟩ : ∃ raw, orig[pre.length]? = some raw := by
      have : pre.length < orig.length := by have := hi.len; omega
      exact ⟨orig[pre.length], List.getElem?_eq_getElem this⟩
    have hfr : f = (if strip then noBrackets else id) raw := by
      have := hi.rest pre.length (Nat.le_refl _)
      rw [hf, hraw] at this
      simpa using this
    have hdrop : orig.drop pre.length = raw :: orig.drop (pre.length + 1) := by
      have h := List.getElem?_eq_some_iff.1 hraw
      rw [← h.2]
      exact List.drop_eq_getElem_cons h.1
    have hpay : st.payload = fs.take pre.length ++ raw :: orig.drop (pre.length + 1) := by
      rw [hi.pay, hidx, hdrop]
    have htl : (fs.take pre.length).length = pre.length := by rw [List.length_take]; omega
    have hget : st.payload[st.pindex]? = some raw := by
      rw [hpay, hidx, List.getElem?_append_right (by omega)]
      simp [htl]
    have htake : fs.take (pre.length + 1) = fs.take pre.length ++ [f] := by
      rw [List.take_add_one, hf]; rfl
    -- the field text and the new payload
    have hfld : (if s = py!"PSSNSNC" then stripBrackets raw else raw) = f := by
      rw [hfr, stripBrackets_eq]
      by_cases hst : strip = true
      · rw [if_pos (hs2.2 hst), if_pos hst]
      · rw [if_neg (fun h => hst (hs2.1 h)), if_neg hst]; rfl
    have hpay' : (if s = py!"PSSNSNC" then setAt st.payload st.pindex f else st.payload)
        = fs.take (pre.length + 1) ++ orig.drop (pre.length + 1) := by
      rw [htake]
      by_cases hst : s = py!"PSSNSNC"
      · rw [if_pos hst, setAt_eq _ _ f raw _ _ (by rw [htl, hidx]) hpay]; simp
      · rw [if_neg hst, hpay]
        rw [if_neg hst] at hfld
        rw [hfld]; simp
    cases hv : str2val f t with
    | error e =>
      unfold setSingleStream
      simp only [hs1, bind, Except.bind, hget, hfld]
      rw [if_neg (by simp [shadowed, hasKey, hi.clean.meth])]
      simp only [hv]
    | ok v =>
      simp only [hv]
      refine ⟨{ st with pindex := st.pindex + 1, payload := fs.take (pre.length + 1) ++ orig.drop (pre.length + 1), attrs := hemisphere t v (Py.insert (suffixed k g) v st.attrs) }, ?_, ?_⟩
      · unfold setSingleStream
        simp only [hs1, bind, Except.bind, hget, hfld]
        rw [if_neg (by simp [shadowed, hasKey, hi.clean.meth])]
        simp only [hv, setAttr]
        rw [if_neg hn.1]
        simp only [pure, Except.pure, signOverride_eq, hpay']
      · refine ⟨?_, ?_, ?_, ?_, ?_, hi.len, ?_⟩
        · simp only [hidx, List.length_append, List.length_singleton]; omega
        · simp only [hidx]
        · rw [readSlots_snoc _ _ _ _ _ _ hi.read, hf]; simp only [hv]
        · exact hi.clean.step _ _ _ hn.1 hn.2 (str2val_notbool _ _ _ hv)
        · exact hp.pres _ _ _ _ _ hi.prop hm
        · intro i hi'; exact hi.rest i (by simp at hi'; omega)

end Nmea

namespace Nmea
open Py Spec

theorem Inv.pindex_sub {orig fs strip P pre st} (h : Inv orig fs strip P pre st) :
    st.payload.length - st.pindex = fs.length - pre.length := by
  have hplen : st.payload.length = fs.length := by
    rw [h.pay, List.length_append, List.length_take, List.length_drop, h.len]
    have := h.idx; have := h.len; omega
  rw [hplen, h.idx]; omega

/-- Repeat counts agree with the specification. -/
theorem repCount_iff (c : Ctx) (hs : c.streaming = true) (orig fs : List Str) (strip : Bool)
    (P : Attrs → Prop) (pre : List Slot) (st : St) (hi : Inv orig fs strip P pre st)
    (rep : Rep) (b : PDict) (n : Nat) :
    (∃ z, repCount c rep b st = .ok z ∧ z.toNat = n) ↔ Repeats c.mode fs pre (keysOf b).length rep n := by
  rw [keysOf_length]
  cases rep with
  | fixed z =>
    simp only [repCount, Except.ok.injEq, exists_eq_left']
    constructor
    · rintro rfl; exact .fixed z
    · intro h; cases h; rfl
  | indet =>
    simp only [repCount, hs, if_true]
    by_cases hl : b.len = 0
    · rw [if_pos hl]
      constructor
      · rintro ⟨z, h, _⟩; cases h
      · intro h; cases h; contradiction
    · rw [if_neg hl, hi.pindex_sub]
      constructor
      · rintro ⟨z, h, rfl⟩
        cases h
        exact .indet hl
      · intro h; cases h; exact ⟨_, rfl, rfl⟩
  | named k =>
    simp only [repCount, getCount]
    by_cases hk : k = py!"msgmode"
    · rw [if_pos hk]
      subst hk
      constructor
      · rintro ⟨z, h, rfl⟩; cases h; exact .mode
      · intro h
        cases h with
        | named _ _ _ _ h _ => exact absurd rfl h
        | mode => exact ⟨_, rfl, rfl⟩
    · rw [if_neg hk]
      by_cases hkp : k ∈ propertyNames
      · rw [if_pos hkp]
        constructor
        · rintro ⟨z, h, _⟩; cases h
        · intro h
          cases h with
          | named _ attrs z h1 h2 h3 =>
            rw [hi.read] at h1; cases h1
            rw [hi.clean.props k hkp] at h3; cases h3
          | mode => exact absurd rfl hk
      · rw [if_neg hkp]
        cases hl : lookup k st.attrs with
        | none =>
          constructor
          · rintro ⟨z, h, _⟩; cases h
          · intro h
            cases h with
            | named _ attrs z h1 h2 h3 =>
              rw [hi.read] at h1; cases h1
              rw [hl] at h3; cases h3
            | mode => exact absurd rfl hk
        | some v =>
          have key : ∀ z : Int, v = .int z ↔ ∃ attrs, readSlots pre fs [] = .ok attrs ∧
              lookup k attrs = some (.int z) := by
            intro z
            rw [hi.read]
            constructor
            · rintro rfl; exact ⟨_, rfl, hl⟩
            · rintro ⟨attrs, h1, h2⟩
              cases h1; rw [hl] at h2; cases h2; rfl
          constructor
          · rintro ⟨z, h, rfl⟩
            have hv : v = .int z := by
              cases v with
              | bool b => exact absurd hl (hi.clean.nobool k b)
              | int i => simp only [Except.ok.injEq] at h; rw [h]
              | _ => simp at h
            obtain ⟨attrs, h1, h2⟩ := (key z).1 hv
            exact .named k attrs z h1 hk h2
          · intro h
            cases h with
            | named _ attrs z h1 h2 h3 =>
              have := (key z).2 ⟨attrs, h1, h3⟩
              subst this
              exact ⟨z, rfl, rfl⟩
            | mode => exact absurd rfl hk

end Nmea

namespace Nmea
open Py Spec

theorem readSlots_prefix (a b : List Slot) (fs : List Str) (attrs attrs' : Attrs)
    (h : readSlots (a ++ b) fs attrs = .ok attrs') : ∃ x, readSlots a fs attrs = .ok x := by
  rw [readSlots_append] at h
  cases hr : readSlots a fs attrs with
  | error e => rw [hr] at h; cases h
  | ok x => exact ⟨x, rfl⟩

theorem _root_.Spec.Expand.prefix {mode fs d sfx pre post} (h : Expand mode fs d sfx pre post) : pre <+: post := by
  induction h with
  | nil => exact List.prefix_refl _
  | single k t rest sfx pre post _ ih => exact (List.prefix_append _ _).trans ih
  | group k rep body rest sfx pre post n at_ _ h0 _ _ ihb ihr =>
    have key : ∀ i, i ≤ n → pre <+: at_ i := by
      intro i
      induction i with
      | zero => intro _; rw [h0]; exact List.prefix_refl _
      | succ i ih => intro hi; exact (ih (by omega)).trans (ihb i (by omega))
    exact (key n (Nat.le_refl _)).trans ihr

theorem Phase.mono {c d d' strip P} (h : Phase c d strip P) (hs : ∀ x ∈ d'.entries, x ∈ d.entries) :
    Phase c d' strip P :=
  ⟨h.streaming, h.ident, fun a k t g v hp hm => h.pres a k t g v hp (hs _ hm),
    fun k t hm g => h.names k t (hs _ hm) g⟩

/-- The main theorem: attribute processing succeeds exactly when the definition can be expanded
and the resulting slots can be read; it then gives the values read. -/
theorem setPDict_expand (c : Ctx) (now : Nat → DateTime) (strip : Bool) (P : Attrs → Prop)
    (orig fs : List Str) (d : PDict) (hp : Phase c d strip P) (g : List Nat) (sfx : Str)
    (hg : ∀ k, suffixed k g = k ++ sfx) (pre : List Slot) (st : St)
    (hi : Inv orig fs strip P pre st) :
    (∀ st', setPDict c now d g st = .ok st' →
      ∃ post, Expand c.mode fs d sfx pre post ∧ Inv orig fs strip P post st') ∧
    (∀ post attrs, Expand c.mode fs d sfx pre post → readSlots post fs [] = .ok attrs →
      ∃ st', setPDict c now d g st = .ok st' ∧ Inv orig fs strip P post st') := by
  induction d generalizing g sfx pre st with
  | nil =>
    constructor
    · intro st' h; cases h; exact ⟨pre, .nil _ _, hi⟩
    · intro post attrs h _; cases h; exact ⟨st, rfl, hi⟩
  | single k t r ih =>
    have hone := setSingleStream_spec c _ strip P hp orig fs pre st hi k t g (by simp [PDict.entries])
    have hp' : Phase c r strip P := hp.mono (fun x hx => by simp [PDict.entries, hx])
    simp only [setPDict, bind, Except.bind, setSingle_stream _ _ _ _ _ _ hp.streaming]
    have hkey : ∀ st1, setSingleStream c k t g st = .ok st1 →
        Inv orig fs strip P (pre ++ [(k ++ sfx, t)]) st1 := by
      intro st1 h1
      rw [hg] at hone
      split at hone
      · rw [h1] at hone; cases hone.1; exact hone.2
      · split at hone
        · rw [h1] at hone; cases hone
        · obtain ⟨st', h2, h3⟩ := hone; rw [h1] at h2; cases h2; exact h3
    constructor
    · intro st' h
      cases h1 : setSingleStream c k t g st with
      | error e => rw [h1] at h; cases h
      | ok st1 =>
        rw [h1] at h
        obtain ⟨post, h2, h3⟩ := (ih hp' g sfx hg _ st1 (hkey st1 h1)).1 st' h
        exact ⟨post, .single _ _ _ _ _ _ h2, h3⟩
    · intro post attrs h hr
      cases h with
      | single _ _ _ _ _ _ h =>
      cases h1 : setSingleStream c k t g st with
      | error e =>
        exfalso
        obtain ⟨b, hb⟩ := h.prefix
        rw [← hb] at hr
        obtain ⟨x, hx⟩ := readSlots_prefix _ _ _ _ _ hr
        rw [readSlots_snoc _ _ _ _ _ _ hi.read] at hx
        split at hone
        · rw [h1] at hone; cases hone.1
        · rename_i hf
          rw [hf] at hx
          split at hone
          · rename_i hv; simp only [hv] at hx; cases hx
          · rw [h1] at hone; obtain ⟨_, h2, _⟩ := hone; cases h2
      | ok st1 => exact (ih hp' g sfx hg _ st1 (hkey st1 h1)).2 post attrs h hr
  | group k rep b r ihb ihr =>
    have hpb : Phase c b strip P := hp.mono (fun x hx => by simp [PDict.entries, hx])
    have hpr : Phase c r strip P := hp.mono (fun x hx => by simp [PDict.entries, hx])
    have hrep := fun n => repCount_iff c hp.streaming orig fs strip P pre st hi rep b n
    have hgi : ∀ i, ∀ k, suffixed k (g ++ [i + 1]) = k ++ (sfx ++ groupSuffix (i + 1)) := by
      intro i k; rw [suffixed_append _ _ _ (by omega), hg, List.append_assoc]
    -- the loop
    have loop1 : ∀ n i pre1 st1 st2, Inv orig fs strip P pre1 st1 →
        loopFrom (fun i st => setPDict c now b (g ++ [i]) st) n (i + 1) st1 = .ok st2 →
        ∃ at_ : Nat → List Slot, at_ 0 = pre1 ∧
          (∀ j < n, Expand c.mode fs b (sfx ++ groupSuffix (i + j + 1)) (at_ j) (at_ (j + 1))) ∧
          Inv orig fs strip P (at_ n) st2 := by
      intro n
      induction n with
      | zero =>
        intro i pre1 st1 st2 hi1 h
        simp only [loopFrom] at h
        cases h
        exact ⟨fun _ => pre1, rfl, fun j hj => absurd hj (by omega), hi1⟩
      | succ n ihn =>
        intro i pre1 st1 st2 hi1 h
        simp only [loopFrom, bind, Except.bind] at h
        cases hb : setPDict c now b (g ++ [i + 1]) st1 with
        | error e => rw [hb] at h; cases h
        | ok stm =>
          rw [hb] at h
          obtain ⟨mid, h2, h3⟩ := (ihb hpb (g ++ [i + 1]) _ (hgi i) pre1 st1 hi1).1 stm hb
          obtain ⟨at_, a0, a1, a2⟩ := ihn (i + 1) mid stm st2 h3 h
          refine ⟨fun j => match j with | 0 => pre1 | j + 1 => at_ j, rfl, ?_, a2⟩
          intro j hj
          cases j with
          | zero => simp only [a0]; exact h2
          | succ j =>
            have := a1 j (by omega)
            rw [show i + 1 + j + 1 = i + (j + 1) + 1 by omega] at this
            exact this
    have loop2 : ∀ n i (at_ : Nat → List Slot) st1, Inv orig fs strip P (at_ 0) st1 →
        (∀ j < n, Expand c.mode fs b (sfx ++ groupSuffix (i + j + 1)) (at_ j) (at_ (j + 1))) →
        (∃ attrs, readSlots (at_ n) fs [] = .ok attrs) →
        ∃ st2, loopFrom (fun i st => setPDict c now b (g ++ [i]) st) n (i + 1) st1 = .ok st2 ∧
          Inv orig fs strip P (at_ n) st2 := by
      intro n
      induction n with
      | zero => intro i at_ st1 hi1 _ _; exact ⟨st1, rfl, hi1⟩
      | succ n ihn =>
        intro i at_ st1 hi1 hex hr
        have hpre : ∀ j, j ≤ n → at_ 1 <+: at_ (j + 1) := by
          intro j
          induction j with
          | zero => intro _; exact List.prefix_refl _
          | succ j ihj => intro hj; exact (ihj (by omega)).trans (hex (j + 1) (by omega)).prefix
        obtain ⟨x, hx⟩ : ∃ x, readSlots (at_ 1) fs [] = .ok x := by
          obtain ⟨attrs, hr⟩ := hr
          obtain ⟨y, hy⟩ := hpre n (Nat.le_refl _)
          rw [← hy] at hr
          exact readSlots_prefix _ _ _ _ _ hr
        obtain ⟨stm, hm1, hm2⟩ := (ihb hpb (g ++ [i + 1]) _ (hgi i) (at_ 0) st1 hi1).2 (at_ 1) x
          (hex 0 (by omega)) hx
        obtain ⟨st2, h1, h2⟩ := ihn (i + 1) (fun j => at_ (j + 1)) stm hm2
          (fun j hj => by
            have := hex (j + 1) (by omega)
            rw [show i + (j + 1) + 1 = i + 1 + j + 1 by omega] at this
            exact this) hr
        refine ⟨st2, ?_, h2⟩
        simp only [loopFrom, bind, Except.bind, hm1]
        exact h1
    simp only [setPDict, bind, Except.bind]
    constructor
    · intro st' h
      cases hc : repCount c rep b st with
      | error e => rw [hc] at h; cases h
      | ok z =>
        rw [hc] at h
        simp only at h
        have hR := (hrep z.toNat).1 ⟨z, hc, rfl⟩
        cases hl : loopFrom (fun i st => setPDict c now b (g ++ [i]) st) z.toNat 1 st with
        | error e => rw [hl] at h; cases h
        | ok stm =>
          rw [hl] at h
          obtain ⟨at_, a0, a1, a2⟩ := loop1 z.toNat 0 pre st stm hi hl
          obtain ⟨post, h2, h3⟩ := (ihr hpr g sfx hg _ stm a2).1 st' h
          refine ⟨post, .group _ _ _ _ _ _ _ _ at_ hR a0 ?_ h2, h3⟩
          intro i hi'
          have := a1 i hi'
          rwa [Nat.zero_add] at this
    · intro post attrs h hr
      cases h with
      | group _ _ _ _ _ _ _ n at_ hR a0 a1 h =>
      obtain ⟨z, hz1, hz2⟩ := (hrep n).2 hR
      obtain ⟨x, hx⟩ : ∃ x, readSlots (at_ n) fs [] = .ok x := by
        obtain ⟨y, hy⟩ := h.prefix
        rw [← hy] at hr
        exact readSlots_prefix _ _ _ _ _ hr
      obtain ⟨stm, l1, l2⟩ := loop2 n 0 at_ st (by rw [a0]; exact hi)
        (fun j hj => by rw [Nat.zero_add]; exact a1 j hj) ⟨x, hx⟩
      rw [hz1]
      simp only [hz2, l1]
      exact (ihr hpr g sfx hg _ stm l2).2 post attrs h hr

end Nmea
