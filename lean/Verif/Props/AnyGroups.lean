import Verif.Props.AnyPayload
import Verif.Lemmas.Keys
/-!
# C102: payloads that are not lists of texts, for definitions with repeating groups
-/
namespace Props.AnyPayload
open Py Nmea Spec

/-- Attributes that hide no method and no property. -/
def Tidy (attrs : Attrs) : Prop := NoMeth attrs ∧ ∀ k ∈ propertyNames, lookup k attrs = none

/-- The names of a definition hide no method and no property. -/
def TidyNames (d : PDict) : Prop :=
  ∀ k t, (k, t) ∈ d.entries → ∀ g, suffixed k g ∉ propertyNames ∧ suffixed k g ≠ py!"str2val"

theorem Tidy.step {attrs : Attrs} (h : Tidy attrs) (t name : Str) (v : PyVal) (h1 : name ∉ propertyNames) (h2 : name ≠ py!"str2val") :
    Tidy (hemisphere t v (Py.insert name v attrs)) := by
  refine ⟨h.1.step _ _ _ h2, fun k hk => ?_⟩
  have a : k ≠ py!"lon" := by rintro rfl; revert hk; decide
  have b : k ≠ py!"lat" := by rintro rfl; revert hk; decide
  rw [lookup_hemisphere _ _ _ _ a b, lookup_insert, if_neg (fun e : k = name => h1 (e ▸ hk))]
  exact h.2 k hk

/-- While attributes of the definition are set, `P` remains true of the attributes, and therefore the identity never is that of the
bracketed sentences. -/
structure Steady (c : Ctx) (d : PDict) (P : Attrs → Prop) : Prop where
  ident : ∀ attrs, P attrs → ∃ s, identityOf c.talker c.msgID attrs = .ok s ∧ s ≠ py!"PSSNSNC"
  pres : ∀ k t, (k, t) ∈ d.entries → ∀ g v attrs, P attrs → P (hemisphere t v (Py.insert (suffixed k g) v attrs))

theorem Steady.mono {c d d' P} (h : Steady c d P) (hs : ∀ x ∈ d'.entries, x ∈ d.entries) : Steady c d' P :=
  ⟨h.ident, fun k t hm => h.pres k t (hs _ hm)⟩

theorem steady_of_constant {c : Ctx} (h : Constant c) (d : PDict) : Steady c d fun _ => True := by
  obtain ⟨s, h1, h2⟩ := h
  exact ⟨fun attrs _ => ⟨s, h1 attrs, h2⟩, fun _ _ _ _ _ _ _ => trivial⟩

/-- The state after the slots `pre`. -/
structure AInv (P : Attrs → Prop) (vs : List PyVal) (pre : List Slot) (st : AnySt) : Prop where
  idx : st.pindex = min pre.length vs.length
  pay : st.payload = vs
  read : readItems pre vs [] = .ok st.attrs
  tidy : Tidy st.attrs
  prop : P st.attrs

theorem drop_min (vs : List PyVal) (n : Nat) : vs.drop (min n vs.length) = vs.drop n := by
  by_cases h : n ≤ vs.length
  · rw [Nat.min_eq_left h]
  · rw [Nat.min_eq_right (by omega), List.drop_length, List.drop_eq_nil_of_le (by omega)]

/-- One field. -/
theorem single_spec (c : Ctx) (P : Attrs → Prop) (d : PDict) (hc : Steady c d P) (b : Bool) (k t : Str) (g : List Nat) (sfx : Str) (hg : ∀ k, suffixed k g = k ++ sfx)
    (hn : suffixed k g ∉ propertyNames ∧ suffixed k g ≠ py!"str2val") (hmem : (k, t) ∈ d.entries)
    (vs : List PyVal) (pre : List Slot) (st : AnySt) (hi : AInv P vs pre st) :
    (∀ st', setSingleAny c b k t g st = .ok st' → AInv P vs (pre ++ [(k ++ sfx, t)]) st') ∧
    (∀ e, setSingleAny c b k t g st = .error e → readItems (pre ++ [(k ++ sfx, t)]) vs [] = .error e) := by
  obtain ⟨i, p, a⟩ := st
  have h1 : i = min pre.length vs.length := hi.idx
  have h2 : p = vs := hi.pay
  subst h1 h2
  have h := setSingleAny_at c b k t g p (min pre.length p.length) (Nat.min_le_right _ _) a (hc.ident _ hi.prop) hi.tidy.1 hn.1
  rw [hg, drop_min] at h
  have hr : readItems (pre ++ [(k ++ sfx, t)]) p [] = readItems [(k ++ sfx, t)] (p.drop pre.length) a := by
    rw [readItems_append, hi.read]; rfl
  rw [← hr] at h
  cases hx : readItems (pre ++ [(k ++ sfx, t)]) p [] with
  | error e =>
    rw [hx] at h
    exact ⟨fun st' h' => (by rw [h] at h'; cases h'), fun e' h' => (by rw [h] at h'; cases h'; rfl)⟩
  | ok a' =>
    rw [hx] at h
    refine ⟨fun st' h' => ?_, fun e' h' => (by rw [h] at h'; cases h')⟩
    rw [h] at h'
    cases h'
    refine ⟨?_, rfl, hx, ?_, ?_⟩
    · show min (min pre.length p.length + 1) p.length = min (pre ++ [(k ++ sfx, t)]).length p.length
      simp only [List.length_append, List.length_singleton]; omega
    · rw [hr] at hx
      cases hd : p.drop pre.length with
      | nil => rw [hd] at hx; cases hx; exact hi.tidy
      | cons f fs =>
        rw [hd] at hx
        simp only [readItems] at hx
        split at hx
        · cases hx
        · cases hx
          rw [← hg]
          exact hi.tidy.step _ _ _ hn.1 hn.2
    · rw [hr] at hx
      cases hd : p.drop pre.length with
      | nil => rw [hd] at hx; cases hx; exact hi.prop
      | cons f fs =>
        rw [hd] at hx
        simp only [readItems] at hx
        split at hx
        · cases hx
        · cases hx
          rw [← hg]
          exact hc.pres k t hmem g _ _ hi.prop

/-- Repeat counts. -/
theorem repCountAny_iff (P : Attrs → Prop) (c : Ctx) (vs : List PyVal) (pre : List Slot) (st : AnySt) (hi : AInv P vs pre st) (rep : Rep) (b : PDict) (n : Nat) :
    (∃ z, repCountAny c rep b st = .ok z ∧ z.toNat = n) ↔ RepeatsItems c.mode vs pre (keysOf b).length rep n := by
  rw [keysOf_length]
  cases rep with
  | fixed z =>
    simp only [repCountAny, Except.ok.injEq, exists_eq_left']
    exact ⟨fun h => h ▸ .fixed z, fun h => by cases h; rfl⟩
  | indet =>
    simp only [repCountAny]
    have hsub : st.payload.length - st.pindex = vs.length - pre.length := by rw [hi.pay, hi.idx]; omega
    by_cases hl : b.len = 0
    · rw [if_pos hl]
      exact ⟨fun ⟨z, h, _⟩ => (by cases h), fun h => (by cases h; contradiction)⟩
    · rw [if_neg hl, hsub]
      exact ⟨fun ⟨z, h, e⟩ => (by cases h; subst e; exact .indet hl), fun h => (by cases h; exact ⟨_, rfl, rfl⟩)⟩
  | named k =>
    simp only [repCountAny, getCount]
    by_cases hk : k = py!"msgmode"
    · rw [if_pos hk]
      subst hk
      constructor
      · rintro ⟨z, h, rfl⟩; cases h; exact .mode
      · intro h
        cases h with
        | named _ _ _ _ h _ => exact absurd rfl h
        | flag _ _ _ _ h _ => exact absurd rfl h
        | mode => exact ⟨_, rfl, rfl⟩
    · rw [if_neg hk]
      have huniq : ∀ attrs, ReadItems pre vs [] attrs → attrs = st.attrs := by
        intro attrs h
        rw [readItems_iff, hi.read] at h; cases h; rfl
      have hread : ReadItems pre vs [] st.attrs := (readItems_iff _ _ _ _).2 hi.read
      by_cases hkp : k ∈ propertyNames
      · rw [if_pos hkp]
        constructor
        · rintro ⟨z, h, _⟩; cases h
        · intro h
          cases h with
          | named _ attrs z h1 h2 h3 => rw [huniq _ h1, hi.tidy.2 k hkp] at h3; cases h3
          | flag _ attrs z h1 h2 h3 => rw [huniq _ h1, hi.tidy.2 k hkp] at h3; cases h3
          | mode => exact absurd rfl hk
      · rw [if_neg hkp]
        constructor
        · rintro ⟨z, h, rfl⟩
          cases hl : lookup k st.attrs with
          | none => rw [hl] at h; cases h
          | some v =>
            rw [hl] at h
            cases v with
            | int i => cases h; exact .named k _ _ hread hk hl
            | bool q =>
              cases h
              have := RepeatsItems.flag (mode := c.mode) (size := b.len) k _ q hread hk hl
              cases q <;> exact this
            | _ => cases h
        · intro h
          cases h with
          | named _ attrs z h1 h2 h3 => rw [huniq _ h1] at h3; rw [h3]; exact ⟨z, rfl, rfl⟩
          | flag _ attrs b h1 h2 h3 => rw [huniq _ h1] at h3; rw [h3]; exact ⟨_, rfl, by cases b <;> rfl⟩
          | mode => exact absurd rfl hk

theorem readItems_prefix (a b : List Slot) (vs : List PyVal) (attrs attrs' : Attrs) (h : readItems (a ++ b) vs attrs = .ok attrs') :
    ∃ x, readItems a vs attrs = .ok x := by
  rw [readItems_append] at h
  cases hr : readItems a vs attrs with
  | error e => rw [hr] at h; cases h
  | ok x => exact ⟨x, rfl⟩

theorem expandItems_prefix {mode vs d sfx pre post} (h : ExpandItems mode vs d sfx pre post) : pre <+: post := by
  induction h with
  | nil => exact List.prefix_refl _
  | single k t rest sfx pre post _ ih => exact (List.prefix_append _ _).trans ih
  | group k rep body rest sfx pre post n at_ _ h0 _ _ ihb ihr =>
    have key : ∀ i, i ≤ n → pre <+: at_ i := by
      intro i
      induction i with
      | zero => intro _; exact h0 ▸ List.prefix_refl _
      | succ i ih => intro hi; exact (ih (by omega)).trans (ihb i (by omega))
    exact (key n (Nat.le_refl _)).trans ihr

theorem repeatsItems_det {mode vs pre size rep n n'} (h : RepeatsItems mode vs pre size rep n) (h' : RepeatsItems mode vs pre size rep n') :
    n = n' := by
  have huniq : ∀ {a b : Attrs}, ReadItems pre vs [] a → ReadItems pre vs [] b → a = b := by
    intro a b h1 h2
    rw [readItems_iff] at h1 h2
    rw [h1] at h2; cases h2; rfl
  cases h with
  | fixed z => cases h'; rfl
  | indet _ => cases h'; rfl
  | mode =>
    cases h' with
    | mode => rfl
    | named _ _ _ _ h => exact absurd rfl h
    | flag _ _ _ _ h => exact absurd rfl h
  | named k a z h1 h2 h3 =>
    cases h' with
    | mode => exact absurd rfl h2
    | named _ b _ g1 _ g3 => rw [huniq g1 h1, h3] at g3; cases g3; rfl
    | flag _ b _ g1 _ g3 => rw [huniq g1 h1, h3] at g3; cases g3
  | flag k a z h1 h2 h3 =>
    cases h' with
    | mode => exact absurd rfl h2
    | named _ b _ g1 _ g3 => rw [huniq g1 h1, h3] at g3; cases g3
    | flag _ b _ g1 _ g3 => rw [huniq g1 h1, h3] at g3; cases g3; rfl

theorem expandItems_det {mode vs d sfx pre post post'} (h : ExpandItems mode vs d sfx pre post)
    (h' : ExpandItems mode vs d sfx pre post') : post = post' := by
  induction h generalizing post' with
  | nil => cases h'; rfl
  | single k t rest sfx pre post _ ih => cases h' with | single _ _ _ _ _ _ h => exact ih h
  | group k rep body rest sfx pre post n at_ hr h0 hb hrest ihb ihr =>
    cases h' with
    | group _ _ _ _ _ _ _ n' at' hr' h0' hb' hrest' =>
      have := repeatsItems_det hr hr'
      subst this
      have key : ∀ i, i ≤ n → at_ i = at' i := by
        intro i
        induction i with
        | zero => intro _; rw [h0, h0']
        | succ i ih =>
          intro hi
          have e := ih (by omega)
          exact ihb i (by omega) (e ▸ hb' i (by omega))
      exact ihr (key n (Nat.le_refl _) ▸ hrest')

theorem repCountAny_error (c : Ctx) (rep : Rep) (b : PDict) (st : AnySt) (e : Err) (h : repCountAny c rep b st = .error e) :
    wrapE e = .nmeaType ∨ (rep = .indet ∧ b.len = 0) := by
  unfold repCountAny at h
  split at h
  · cases h
  · split at h
    · exact .inr ⟨rfl, ‹_›⟩
    · cases h
  · left
    unfold getCount at h
    split at h
    · cases h
    · split at h
      · cases h; rfl
      · split at h
        · cases h; rfl
        · cases h
        · cases h
        · cases h; rfl

/-- Attribute processing succeeds exactly when the definition can be expanded and the slots can be read; it then gives the values
read. Otherwise the exception becomes `NMEATypeError`. -/
theorem setPDictAny_expand (c : Ctx) (P : Attrs → Prop) (as : Bool) (vs : List PyVal) (d : PDict) (hc : Steady c d P) (hn : TidyNames d) :
    ∀ (g : List Nat) (sfx : Str), (∀ k, suffixed k g = k ++ sfx) → ∀ (pre : List Slot) (st : AnySt), AInv P vs pre st →
    (∀ st', setPDictAny c as d g st = .ok st' → ∃ post, ExpandItems c.mode vs d sfx pre post ∧ AInv P vs post st') ∧
    (∀ post attrs, ExpandItems c.mode vs d sfx pre post → readItems post vs [] = .ok attrs →
      ∃ st', setPDictAny c as d g st = .ok st' ∧ AInv P vs post st') ∧
    (EmptyGroup d = false → ∀ e, setPDictAny c as d g st = .error e → wrapE e = .nmeaType) := by
  induction d with
  | nil =>
    intro g sfx hg pre st hi
    refine ⟨?_, ?_, ?_⟩
    · intro st' h; cases h; exact ⟨pre, .nil _ _, hi⟩
    · intro post attrs h _; cases h; exact ⟨st, rfl, hi⟩
    · intro _ e h; cases h
  | single k t r ih =>
    intro g sfx hg pre st hi
    have hone := single_spec c P _ hc as k t g sfx hg (hn k t (by simp [PDict.entries]) g) (by simp [PDict.entries]) vs pre st hi
    have hc' : Steady c r P := hc.mono (fun x hx => by simp [PDict.entries, hx])
    have hn' : TidyNames r := fun k' t' h' => hn k' t' (by simp [PDict.entries, h'])
    simp only [setPDictAny, bind, Except.bind]
    cases h1 : setSingleAny c as k t g st with
    | error e =>
      have he := hone.2 e h1
      refine ⟨fun st' h => (by cases h), ?_, ?_⟩
      · intro post attrs h hr
        cases h with
        | single _ _ _ _ _ _ h =>
        obtain ⟨b, hb⟩ := expandItems_prefix h
        rw [← hb] at hr
        obtain ⟨x, hx⟩ := readItems_prefix _ _ _ _ _ hr
        rw [he] at hx; cases hx
      · intro _ e' h'; cases h'
        exact readItems_error _ _ _ _ he
    | ok st1 =>
      obtain ⟨i1, i2, i3⟩ := ih hc' hn' g sfx hg _ st1 (hone.1 st1 h1)
      refine ⟨?_, ?_, ?_⟩
      · intro st' h
        obtain ⟨post, h2, h3⟩ := i1 st' h
        exact ⟨post, .single _ _ _ _ _ _ h2, h3⟩
      · intro post attrs h hr
        cases h with
        | single _ _ _ _ _ _ h => exact i2 post attrs h hr
      · intro hE; exact i3 hE
  | group k rep b r ihb ihr =>
    intro g sfx hg pre st hi
    have hnb : TidyNames b := fun k' t' h' => hn k' t' (by simp [PDict.entries, h'])
    have hnr : TidyNames r := fun k' t' h' => hn k' t' (by simp [PDict.entries, h'])
    have hcb : Steady c b P := hc.mono (fun x hx => by simp [PDict.entries, hx])
    have hcr : Steady c r P := hc.mono (fun x hx => by simp [PDict.entries, hx])
    have hrep := fun n => repCountAny_iff P c vs pre st hi rep b n
    have hgi : ∀ i, ∀ k, suffixed k (g ++ [i + 1]) = k ++ (sfx ++ groupSuffix (i + 1)) := by
      intro i k; rw [suffixed_append _ _ _ (by omega), hg, List.append_assoc]
    have loop1 : ∀ n i pre1 st1 st2, AInv P vs pre1 st1 →
        loopFrom (fun i st => setPDictAny c as b (g ++ [i]) st) n (i + 1) st1 = .ok st2 →
        ∃ at_ : Nat → List Slot, at_ 0 = pre1 ∧
          (∀ j < n, ExpandItems c.mode vs b (sfx ++ groupSuffix (i + j + 1)) (at_ j) (at_ (j + 1))) ∧ AInv P vs (at_ n) st2 := by
      intro n
      induction n with
      | zero =>
        intro i pre1 st1 st2 hi1 h
        simp only [loopFrom] at h
        cases h
        exact ⟨fun _ => pre1, rfl, fun j hj => absurd hj (by omega), hi1⟩
      | succ n ihn =>
        intro i pre1 st1 st2 hi1 h
        simp only [loopFrom, bind, Except.bind] at h
        cases hb : setPDictAny c as b (g ++ [i + 1]) st1 with
        | error e => rw [hb] at h; cases h
        | ok stm =>
          rw [hb] at h
          obtain ⟨mid, h2, h3⟩ := (ihb hcb hnb (g ++ [i + 1]) _ (hgi i) pre1 st1 hi1).1 stm hb
          obtain ⟨at_, a0, a1, a2⟩ := ihn (i + 1) mid stm st2 h3 h
          refine ⟨fun j => match j with | 0 => pre1 | j + 1 => at_ j, rfl, ?_, a2⟩
          intro j hj
          cases j with
          | zero => simp only [a0]; exact h2
          | succ j =>
            have := a1 j (by omega)
            rw [show i + 1 + j + 1 = i + (j + 1) + 1 by omega] at this
            exact this
    have loop2 : ∀ n i (at_ : Nat → List Slot) st1, AInv P vs (at_ 0) st1 →
        (∀ j < n, ExpandItems c.mode vs b (sfx ++ groupSuffix (i + j + 1)) (at_ j) (at_ (j + 1))) →
        (∃ attrs, readItems (at_ n) vs [] = .ok attrs) →
        ∃ st2, loopFrom (fun i st => setPDictAny c as b (g ++ [i]) st) n (i + 1) st1 = .ok st2 ∧ AInv P vs (at_ n) st2 := by
      intro n
      induction n with
      | zero => intro i at_ st1 hi1 _ _; exact ⟨st1, rfl, hi1⟩
      | succ n ihn =>
        intro i at_ st1 hi1 hex hr
        have hpre : ∀ j, j ≤ n → at_ 1 <+: at_ (j + 1) := by
          intro j
          induction j with
          | zero => intro _; exact List.prefix_refl _
          | succ j ihj => intro hj; exact (ihj (by omega)).trans (expandItems_prefix (hex (j + 1) (by omega)))
        obtain ⟨x, hx⟩ : ∃ x, readItems (at_ 1) vs [] = .ok x := by
          obtain ⟨attrs, hr⟩ := hr
          obtain ⟨y, hy⟩ := hpre n (Nat.le_refl _)
          rw [← hy] at hr
          exact readItems_prefix _ _ _ _ _ hr
        obtain ⟨stm, hm1, hm2⟩ := (ihb hcb hnb (g ++ [i + 1]) _ (hgi i) (at_ 0) st1 hi1).2.1 (at_ 1) x (hex 0 (by omega)) hx
        obtain ⟨st2, h1, h2⟩ := ihn (i + 1) (fun j => at_ (j + 1)) stm hm2
          (fun j hj => by
            have := hex (j + 1) (by omega)
            rw [show i + (j + 1) + 1 = i + 1 + j + 1 by omega] at this
            exact this) hr
        refine ⟨st2, ?_, h2⟩
        simp only [loopFrom, bind, Except.bind, hm1]
        exact h1
    have loop3 : EmptyGroup b = false → ∀ n i pre1 st1 e, AInv P vs pre1 st1 →
        loopFrom (fun i st => setPDictAny c as b (g ++ [i]) st) n (i + 1) st1 = .error e → wrapE e = .nmeaType := by
      intro hE n
      induction n with
      | zero => intro i pre1 st1 e _ h; cases h
      | succ n ihn =>
        intro i pre1 st1 e hi1 h
        simp only [loopFrom, bind, Except.bind] at h
        cases hb : setPDictAny c as b (g ++ [i + 1]) st1 with
        | error e' =>
          rw [hb] at h; cases h
          exact (ihb hcb hnb (g ++ [i + 1]) _ (hgi i) pre1 st1 hi1).2.2 hE e hb
        | ok stm =>
          rw [hb] at h
          obtain ⟨mid, _, h3⟩ := (ihb hcb hnb (g ++ [i + 1]) _ (hgi i) pre1 st1 hi1).1 stm hb
          exact ihn (i + 1) mid stm e h3 h
    simp only [setPDictAny, bind, Except.bind]
    refine ⟨?_, ?_, ?_⟩
    · intro st' h
      cases hc' : repCountAny c rep b st with
      | error e => rw [hc'] at h; cases h
      | ok z =>
        rw [hc'] at h
        simp only at h
        have hR := (hrep z.toNat).1 ⟨z, hc', rfl⟩
        cases hl : loopFrom (fun i st => setPDictAny c as b (g ++ [i]) st) z.toNat 1 st with
        | error e => rw [hl] at h; cases h
        | ok stm =>
          rw [hl] at h
          obtain ⟨at_, a0, a1, a2⟩ := loop1 z.toNat 0 pre st stm hi hl
          obtain ⟨post, h2, h3⟩ := (ihr hcr hnr g sfx hg _ stm a2).1 st' h
          refine ⟨post, .group _ _ _ _ _ _ _ _ at_ hR a0 ?_ h2, h3⟩
          intro i hi'
          have := a1 i hi'
          rwa [Nat.zero_add] at this
    · intro post attrs h hr
      cases h with
      | group _ _ _ _ _ _ _ n at_ hR a0 a1 h =>
      obtain ⟨z, hz1, hz2⟩ := (hrep n).2 hR
      obtain ⟨x, hx⟩ : ∃ x, readItems (at_ n) vs [] = .ok x := by
        obtain ⟨y, hy⟩ := expandItems_prefix h
        rw [← hy] at hr
        exact readItems_prefix _ _ _ _ _ hr
      obtain ⟨stm, l1, l2⟩ := loop2 n 0 at_ st (by rw [a0]; exact hi)
        (fun j hj => by rw [Nat.zero_add]; exact a1 j hj) ⟨x, hx⟩
      rw [hz1]
      simp only [hz2, l1]
      exact (ihr hcr hnr g sfx hg _ stm l2).2.1 post attrs h hr
    · intro hE e h
      simp only [EmptyGroup, Bool.or_eq_false_iff] at hE
      cases hc' : repCountAny c rep b st with
      | error e' =>
        rw [hc'] at h; cases h
        rcases repCountAny_error c rep b st e hc' with h | ⟨rfl, h⟩
        · exact h
        · have := hE.1
          rw [keysOf_nil, h] at this
          cases this
      | ok z =>
        rw [hc'] at h
        simp only at h
        cases hl : loopFrom (fun i st => setPDictAny c as b (g ++ [i]) st) z.toNat 1 st with
        | error e' => rw [hl] at h; cases h; exact loop3 hE.2.1 _ 0 pre st e hi hl
        | ok stm =>
          rw [hl] at h
          obtain ⟨at_, _, _, a2⟩ := loop1 z.toNat 0 pre st stm hi hl
          exact (ihr hcr hnr g sfx hg _ stm a2).2.2 hE.2.2 e h

/-- The initial state. -/
theorem aInv_zero (P : Attrs → Prop) (vs : List PyVal) (h : P []) : AInv P vs [] ⟨0, vs, []⟩ :=
  ⟨by simp, rfl, rfl, ⟨rfl, by intro k hk; rfl⟩, h⟩

/-- What attribute processing of the items does: it succeeds exactly when the definition can be written out and read. -/
def Processes (c : Ctx) (as : Bool) (vs : List PyVal) (d : PDict) : Prop :=
  (∀ st, setPDictAny c as d [] ⟨0, vs, []⟩ = .ok st →
    ∃ post, ExpandItems c.mode vs d [] [] post ∧ st.payload = vs ∧ readItems post vs [] = .ok st.attrs) ∧
  (∀ post attrs, ExpandItems c.mode vs d [] [] post → readItems post vs [] = .ok attrs →
    ∃ st, setPDictAny c as d [] ⟨0, vs, []⟩ = .ok st ∧ st.payload = vs ∧ st.attrs = attrs) ∧
  (EmptyGroup d = false → ∀ e, setPDictAny c as d [] ⟨0, vs, []⟩ = .error e → wrapE e = .nmeaType)

theorem processes_steady (c : Ctx) (as : Bool) (vs : List PyVal) (d : PDict) (P : Attrs → Prop) (hc : Steady c d P) (h0 : P [])
    (hn : SaneNames d) : Processes c as vs d := by
  obtain ⟨s1, s2, s3⟩ := setPDictAny_expand c P as vs d hc (sane_names d hn) [] [] (fun k => by simp [suffixed]) [] ⟨0, vs, []⟩
    (aInv_zero P vs h0)
  refine ⟨?_, ?_, s3⟩
  · intro st h
    obtain ⟨post, h1, h2⟩ := s1 st h
    exact ⟨post, h1, h2.pay, h2.read⟩
  · intro post attrs h1 h2
    obtain ⟨st, h3, h4⟩ := s2 post attrs h1 h2
    refine ⟨st, h3, h4.pay, ?_⟩
    have := h4.read
    rw [h2] at this
    cases this; rfl

theorem made_of_items (t i : Str) (mode : Int) (hp : Bool) (v : Nat) (u : UDefs) (ck : Option Str) (p : Payload)
    (hm : mode = 0 ∨ mode = 1 ∨ mode = 2) (hr : ValMsgid v → t ∈ NMEA_TALKERS ∧ Recognised u i) (d : PDict)
    (hget : getDictAny (ctxOf t i mode.toNat hp v u ⟨none, []⟩) p.items = .ok (some d))
    (hproc : Processes (ctxOf t i mode.toNat hp v u ⟨none, []⟩) p.assignable p.items d) :
    (∀ slots attrs k, ExpandItems mode.toNat p.items d [] [] slots → ReadItems slots p.items [] attrs → ChecksumFor t i ck p.items k →
      ∃ m, mkMsgAny t i mode hp v u ck p = .ok m ∧ m.talker = t ∧ m.msgID = i ∧ m.payload = p ∧ m.checksum = some k ∧ m.attrs = attrs) ∧
    (EmptyGroup d = false → (¬ ∃ slots attrs k, ExpandItems mode.toNat p.items d [] [] slots ∧ ReadItems slots p.items [] attrs ∧
        ChecksumFor t i ck p.items k) →
      mkMsgAny t i mode hp v u ck p = .error .nmeaType) := by
  obtain ⟨s1, s2, s3⟩ := hproc
  have hw : p.withItems p.items = p := by cases p <;> rfl
  rw [mkMsgAny_eq t i mode hp v u ck p hm hr]
  unfold doAttributesAny
  rw [hget]
  simp only [bind, Except.bind]
  constructor
  · intro slots attrs k h1 h2 h3
    rw [readItems_iff] at h2
    obtain ⟨st, e1, e2, ha⟩ := s2 slots attrs h1 h2
    rw [e1]
    simp only [e2, hw]
    cases ck with
    | some g =>
      simp only [ChecksumFor] at h3
      subst h3
      exact ⟨_, rfl, rfl, rfl, rfl, rfl, ha⟩
    | none =>
      obtain ⟨ts, h3, rfl⟩ := h3
      rw [(textsOf_iff _ _).2 h3]
      exact ⟨_, rfl, rfl, rfl, rfl, rfl, ha⟩
  · intro hE h
    cases hst : setPDictAny (ctxOf t i mode.toNat hp v u ⟨none, []⟩) p.assignable d [] ⟨0, p.items, []⟩ with
    | error e => simp only [wrapErr_error, Except.map, s3 hE e hst]
    | ok st =>
      obtain ⟨slots, h1, h2, h3⟩ := s1 st hst
      rw [← readItems_iff] at h3
      simp only [h2]
      cases ck with
      | some g => exact absurd ⟨slots, _, g, h1, h3, rfl⟩ h
      | none =>
        cases ht : textsOf p.items with
        | ok ts => exact absurd ⟨slots, _, _, h1, h3, ts, (textsOf_iff _ _).1 ht, rfl⟩ h
        | error e => rw [textsOf_error _ _ ht]; rfl

/-- **C102, repeating groups.** For any sentence that is not a proprietary one: if the definition can be written out for these
items, with as many repetitions of every group as fit or as the items before say, and every item that falls on a field gives a value
for it, and every item has a text (if the checksum is to be computed), then the message is made; its attributes are those values in
order, the checksum is that of the sentence with the items as `str` writes them, and the payload is kept as it was given. Otherwise
`NMEATypeError` is raised (if the definition has no indeterminate group without members). -/
theorem C102_groups (t i : Str) (mode : Int) (hp : Bool) (v : Nat) (u : UDefs) (ck : Option Str) (p : Payload)
    (hm : mode = 0 ∨ mode = 1 ∨ mode = 2) (hr : ValMsgid v → t ∈ NMEA_TALKERS ∧ Recognised u i)
    (hnp : ¬ IsProprietary i) (hsn : t ++ i ≠ py!"PSSNSNC") (d : PDict)
    (hd : definitionFor mode.toNat u i [] = .ok (some d)) (hn : SaneNames d) :
    (∀ slots attrs k, ExpandItems mode.toNat p.items d [] [] slots → ReadItems slots p.items [] attrs → ChecksumFor t i ck p.items k →
      ∃ m, mkMsgAny t i mode hp v u ck p = .ok m ∧ m.talker = t ∧ m.msgID = i ∧ m.payload = p ∧ m.checksum = some k ∧ m.attrs = attrs) ∧
    (EmptyGroup d = false → (¬ ∃ slots attrs k, ExpandItems mode.toNat p.items d [] [] slots ∧ ReadItems slots p.items [] attrs ∧
        ChecksumFor t i ck p.items k) →
      mkMsgAny t i mode hp v u ck p = .error .nmeaType) :=
  made_of_items t i mode hp v u ck p hm hr d (getDictAny_plain t i mode hp v u p.items hm hnp d hd)
    (processes_steady _ _ _ _ _ (steady_of_constant (constant_plain _ hnp hsn) d) trivial hn)

/-! ## Proprietary sentences -/

theorem textOr_asText : textOr = asText := by funext v; cases v <;> rfl

/-- The definition depends on the first item, if it is a text, and on the number of items. -/
theorem getDictAny_first (c : Ctx) (vs : List PyVal)
    (h : c.msgID ∈ NMEA_PREFIX_PROP ∨ upper c.msgID = py!"QTMSN" ∨ upper c.msgID = py!"STMDRSENMSG" → ∀ x ∈ vs.head?, ∃ s, x = .str s) :
    getDictAny c vs = getDictAny c ((vs.map asText).map .str) := by
  have hm : ((vs.map asText).map PyVal.str).map textOr = vs.map textOr := by
    rw [textOr_asText, List.map_map, List.map_map]
    congr 1
  have hb : baseKeyAny c.msgID vs = baseKeyAny c.msgID ((vs.map asText).map .str) := by
    unfold baseKeyAny
    split
    · rename_i hp
      cases vs with
      | nil => rfl
      | cons x r =>
        obtain ⟨s, rfl⟩ := h (.inl hp) x rfl
        rfl
    · rfl
  have hk : ∀ b, baseKeyAny c.msgID vs = .ok b → propKeyAny c vs (upper b) = propKeyAny c ((vs.map asText).map .str) (upper b) := by
    intro b hbk
    have hcase : upper b = py!"QTMSN" ∨ upper b = py!"STMDRSENMSG" → ∀ x ∈ vs.head?, ∃ s, x = .str s := by
      intro hu
      by_cases hp : c.msgID ∈ NMEA_PREFIX_PROP
      · exact h (.inl hp)
      · unfold baseKeyAny at hbk
        rw [if_neg hp] at hbk
        cases hbk
        exact h (.inr hu)
    unfold propKeyAny
    rw [hm]
    split
    · rename_i hu
      cases vs with
      | nil => rfl
      | cons x r =>
        obtain ⟨s, rfl⟩ := hcase (.inl hu) x rfl
        rfl
    · split
      · rename_i hu
        cases vs with
        | nil => rfl
        | cons x r =>
          obtain ⟨s, rfl⟩ := hcase (.inr hu) x rfl
          rfl
      · rfl
  unfold getDictAny findDictAny
  rw [← hb]
  cases hbk : baseKeyAny c.msgID vs with
  | error e => rfl
  | ok b =>
    simp only [bind, Except.bind]
    rw [hk b hbk]

theorem getDictAny_def (t i : Str) (mode : Int) (hp : Bool) (v : Nat) (u : UDefs) (vs : List PyVal) (hm : mode = 0 ∨ mode = 1 ∨ mode = 2)
    (hfirst : i ∈ NMEA_PREFIX_PROP ∨ upper i = py!"QTMSN" ∨ upper i = py!"STMDRSENMSG" → ∀ x ∈ vs.head?, ∃ s, x = .str s) (d : PDict)
    (hd : definitionFor mode.toNat u i (vs.map asText) = .ok (some d)) :
    getDictAny (ctxOf t i mode.toNat hp v u ⟨none, []⟩) vs = .ok (some d) := by
  rw [getDictAny_first _ _ hfirst]
  have h0 := getDictAny_texts (ctxOf t i mode.toNat hp v u ⟨some (vs.map asText), []⟩) (vs.map asText) rfl
  rw [getDict_eq _ (vs.map asText) (by show mode.toNat = 0 ∨ mode.toNat = 1 ∨ mode.toNat = 2; omega) rfl rfl rfl (fun _ => rfl)] at h0
  simp only [show (ctxOf t i mode.toNat hp v u ⟨some (vs.map asText), []⟩).mode = mode.toNat from rfl,
    show (ctxOf t i mode.toNat hp v u ⟨some (vs.map asText), []⟩).udefs = u from rfl,
    show (ctxOf t i mode.toNat hp v u ⟨some (vs.map asText), []⟩).msgID = i from rfl, hd] at h0
  exact h0

/-- The definition depends on the number of fields and, in proprietary sentences, on the first one. -/
theorem definitionFor_congr (mode : Nat) (u : UDefs) (i : Str) (f f' : List Str) (hl : f.length = f'.length)
    (hh : IsProprietary i → f.head? = f'.head?) : definitionFor mode u i f = definitionFor mode u i f' := by
  by_cases hp : IsProprietary i
  · have hh := hh hp
    have h1 : fullId i f = fullId i f' := by
      unfold fullId
      split
      · cases f with
        | nil => cases f' with
          | nil => rfl
          | cons _ _ => cases hh
        | cons a r => cases f' with
          | nil => cases hh
          | cons b r' => simp only [List.head?_cons, Option.some.injEq] at hh; subst hh; rfl
      · rfl
    have h2 : ∀ k, ackName k f = ackName k f' := by
      intro k
      unfold ackName
      have : f = [py!"OK"] ↔ f' = [py!"OK"] := by
        cases f with
        | nil => cases f' with
          | nil => rfl
          | cons _ _ => cases hh
        | cons a r => cases f' with
          | nil => cases hh
          | cons b r' =>
            simp only [List.head?_cons, Option.some.injEq] at hh; subst hh
            simp only [List.length_cons, Nat.add_right_cancel_iff] at hl
            constructor
            · intro e; cases e; rw [List.length_eq_zero_iff.1 hl.symm]
            · intro e; cases e; rw [List.length_eq_zero_iff.1 hl]
      simp only [this, hl, hh]
    have h3 : ∀ k, layoutName mode k f = layoutName mode k f' := by
      intro k
      unfold layoutName
      rw [hl, h2]
      split
      · cases f with
        | nil => cases f' with
          | nil => rfl
          | cons _ _ => cases hh
        | cons a r => cases f' with
          | nil => cases hh
          | cons b r' => simp only [List.head?_cons, Option.some.injEq] at hh; subst hh; rfl
      · split
        · cases f with
          | nil => cases f' with
            | nil => rfl
            | cons _ _ => cases hh
          | cons a r => cases f' with
            | nil => cases hh
            | cons b r' => simp only [List.head?_cons, Option.some.injEq] at hh; subst hh; rfl
        · rfl
    unfold definitionFor
    simp only [h1, h3]
  · have h1 : ∀ f, fullId i f = .ok i := by
      intro f
      unfold fullId
      rw [if_neg (fun h => hp (.inr h))]
    unfold definitionFor
    simp only [h1, if_neg hp]

theorem processes_any (t i : Str) (mode : Int) (hp : Bool) (v : Nat) (u : UDefs) (p : Payload) (d : PDict) (hn : SaneNames d)
    (hfirst : i ∈ NMEA_PREFIX_PROP → ∀ x ∈ p.items.head?, ∃ s, x = .str s)
    (hsnc : ¬ IsSnc t i (p.items.map asText))
    (hd : definitionFor mode.toNat u i (p.items.map asText) = .ok (some d)) :
    Processes (ctxOf t i mode.toNat hp v u ⟨none, []⟩) p.assignable p.items d := by
  by_cases hB : t = py!"P" ∧ i ∈ NMEA_PREFIX_PROP
  · obtain ⟨rfl, hM⟩ := hB
    have hfirst := hfirst hM
    obtain ⟨n1, n2⟩ := prefix_source i hM
    unfold definitionFor at hd
    cases hfull : fullId i (p.items.map asText) with
    | error e => rw [hfull] at hd; cases hd
    | ok fid =>
    rw [hfull] at hd
    simp only at hd
    rw [if_neg n1, if_pos n2] at hd
    cases hlay : layoutName mode.toNat (upper fid) (p.items.map asText) with
    | error e => rw [hlay] at hd; cases hd
    | ok name =>
    rw [hlay] at hd
    simp only [Except.ok.injEq] at hd
    have hgood := lookup_goodId _ _ _ hd
    unfold GoodId at hgood
    simp only [Bool.or_eq_true] at hgood
    rcases hgood with hgood | hgood
    · obtain ⟨r, rfl, hr⟩ := IdFirst.spec d hgood
      generalize hvs : p.items = vs at *
      cases vs with
      | nil => unfold fullId at hfull; rw [if_pos hM] at hfull; cases hfull
      | cons x vs =>
      obtain ⟨f, rfl⟩ := hfirst x rfl
      have hone : setSingleAny (ctxOf py!"P" i mode.toNat hp v u ⟨none, []⟩) p.assignable py!"msgId" Nmea.ST [] ⟨0, .str f :: vs, []⟩ =
          .ok ⟨1, .str f :: vs, [(py!"msgId", .str f)]⟩ := by
        rw [setSingleAny_at (ctxOf py!"P" i mode.toNat hp v u ⟨none, []⟩) p.assignable py!"msgId" Nmea.ST [] (.str f :: vs) 0
          (Nat.zero_le _) [] ⟨_, ident_none _ _ _ rfl, prefix_not_snc i hM⟩ rfl (by decide)]
        have : min 1 (PyVal.str f :: vs).length = 1 := by simp
        show Except.map _ (.ok _) = _
        simp only [Except.map, this]
        rfl
      have hst : Steady (ctxOf py!"P" i mode.toNat hp v u ⟨none, []⟩) r (fun attrs => lookup py!"msgId" attrs = some (.str f)) := by
        refine ⟨?_, ?_⟩
        · intro attrs ha
          refine ⟨_, ident_some i hM attrs f ha, ?_⟩
          rw [Ne, pssnsnc_iff _ _ hM]
          rintro ⟨rfl, rfl⟩
          exact hsnc (.inr ⟨rfl, rfl, rfl⟩)
        · intro k t hm g w attrs ha
          exact pres_lookup _ (by decide) (by decide) (by decide) r hr _ attrs k t g w ha hm
      have hi : AInv (fun attrs => lookup py!"msgId" attrs = some (.str f)) (.str f :: vs) [(py!"msgId", Nmea.ST)]
          ⟨1, .str f :: vs, [(py!"msgId", .str f)]⟩ := by
        refine ⟨by simp, rfl, rfl, ⟨rfl, ?_⟩, rfl⟩
        intro k hk
        have : k ≠ py!"msgId" := by rintro rfl; revert hk; decide
        simp [lookup, this]
      have hnr : TidyNames r := fun k' t' h' => sane_names _ hn k' t' (by simp [PDict.entries, h'])
      obtain ⟨s1, s2, s3⟩ := setPDictAny_expand _ _ p.assignable (.str f :: vs) r hst hnr [] [] (fun k => by simp [suffixed]) _ _ hi
      have e : setPDictAny (ctxOf py!"P" i mode.toNat hp v u ⟨none, []⟩) p.assignable (.single py!"msgId" Nmea.ST r) []
          ⟨0, .str f :: vs, []⟩ = setPDictAny (ctxOf py!"P" i mode.toNat hp v u ⟨none, []⟩) p.assignable r []
          ⟨1, .str f :: vs, [(py!"msgId", .str f)]⟩ := by
        simp only [setPDictAny, bind, Except.bind, hone]
      unfold Processes
      rw [e]
      refine ⟨?_, ?_, s3⟩
      · intro st h
        obtain ⟨post, h1, h2⟩ := s1 st h
        exact ⟨post, .single _ _ _ _ _ _ h1, h2.pay, h2.read⟩
      · intro post attrs h1 h2
        cases h1 with
        | single _ _ _ _ _ _ h1 =>
        obtain ⟨st, h3, h4⟩ := s2 post attrs h1 h2
        refine ⟨st, h3, h4.pay, ?_⟩
        have := h4.read
        rw [h2] at this
        cases this; rfl
    · simp only [Bool.and_eq_true, Bool.not_eq_true', List.contains_eq_mem, decide_eq_false_iff_not] at hgood
      refine processes_steady _ _ _ _ (fun attrs => lookup py!"msgId" attrs = none) ⟨?_, ?_⟩ rfl hn
      · intro attrs ha
        exact ⟨_, ident_none _ _ _ ha, prefix_not_snc i hM⟩
      · intro k t hm g w attrs ha
        exact pres_lookup _ (by decide) (by decide) (by decide) d hgood.1 _ attrs k t g w ha hm
  · refine processes_steady _ _ _ _ (fun _ => True) ⟨?_, fun _ _ _ _ _ _ _ => trivial⟩ trivial hn
    intro attrs _
    exact ⟨_, ident_plain t i hB attrs, fun h => hsnc (.inl h)⟩

/-- **C102, every sentence.** As `C102_groups`, for every sentence with a definition, proprietary or not, except the bracketed ones.
The definition is found by the number of items and the first one; where the code looks into the first item, that must be a text. -/
theorem C102_every (t i : Str) (mode : Int) (hp : Bool) (v : Nat) (u : UDefs) (ck : Option Str) (p : Payload)
    (hm : mode = 0 ∨ mode = 1 ∨ mode = 2) (hr : ValMsgid v → t ∈ NMEA_TALKERS ∧ Recognised u i)
    (hfirst : i ∈ NMEA_PREFIX_PROP ∨ upper i = py!"QTMSN" ∨ upper i = py!"STMDRSENMSG" → ∀ x ∈ p.items.head?, ∃ s, x = .str s)
    (hsnc : ¬ IsSnc t i (p.items.map asText)) (d : PDict)
    (hd : definitionFor mode.toNat u i (p.items.map asText) = .ok (some d)) (hn : SaneNames d) :
    (∀ slots attrs k, ExpandItems mode.toNat p.items d [] [] slots → ReadItems slots p.items [] attrs → ChecksumFor t i ck p.items k →
      ∃ m, mkMsgAny t i mode hp v u ck p = .ok m ∧ m.talker = t ∧ m.msgID = i ∧ m.payload = p ∧ m.checksum = some k ∧ m.attrs = attrs) ∧
    (EmptyGroup d = false → (¬ ∃ slots attrs k, ExpandItems mode.toNat p.items d [] [] slots ∧ ReadItems slots p.items [] attrs ∧
        ChecksumFor t i ck p.items k) →
      mkMsgAny t i mode hp v u ck p = .error .nmeaType) :=
  made_of_items t i mode hp v u ck p hm hr d (getDictAny_def t i mode hp v u p.items hm hfirst d hd)
    (processes_any t i mode hp v u p d hn (fun h => hfirst (.inl h)) hsnc hd)

/-- **C102, the first item of a proprietary sentence.** Where the id continues in the first field, anything but a text there is
refused. -/
theorem C102_first_item (t i : Str) (mode : Int) (hp : Bool) (v : Nat) (u : UDefs) (ck : Option Str) (p : Payload)
    (hm : mode = 0 ∨ mode = 1 ∨ mode = 2) (hr : ValMsgid v → t ∈ NMEA_TALKERS ∧ Recognised u i)
    (hi : i ∈ NMEA_PREFIX_PROP) (x : PyVal) (hx : p.items.head? = some x) (hns : ∀ s, x ≠ .str s) :
    mkMsgAny t i mode hp v u ck p = .error .nmeaType := by
  rw [mkMsgAny_eq t i mode hp v u ck p hm hr]
  have hb : baseKeyAny i p.items = .error .type := by
    unfold baseKeyAny
    rw [if_pos hi]
    cases hv : p.items with
    | nil => rw [hv] at hx; cases hx
    | cons y r =>
      rw [hv] at hx
      cases hx
      cases x with
      | str s => exact absurd rfl (hns s)
      | _ => rfl
  unfold doAttributesAny getDictAny findDictAny
  simp only [ctxOf, hb, bind, Except.bind]
  rfl

/-! ## Sentences without a definition -/

theorem nominalAny_eq (i : Nat) (fs : List PyVal) (attrs : Attrs) (h : ∀ j, i ≤ j → py!"field_" ++ fmt02d j ∉ attrs.map Prod.fst) :
    nominalAny i fs attrs = attrs ++ (fs.zipIdx i).map (fun x => (py!"field_" ++ fmt02d x.2, x.1)) := by
  induction fs generalizing i attrs with
  | nil => simp [nominalAny]
  | cons f fs ih =>
    rw [nominalAny, insert_not_mem _ _ _ (h i (Nat.le_refl i)), ih]
    · simp
    · intro j hj
      rw [List.map_append, List.mem_append]
      rintro (h1 | h1)
      · exact h j (by omega) h1
      · simp only [List.map_cons, List.map_nil, List.mem_singleton] at h1
        have := field_inj _ _ h1; omega

/-- **C102, no definition.** A sentence without a definition is refused with `NMEAMessageError` if message ids are validated;
otherwise its attributes are `field_01`, `field_02`, ... with the items just as they are, its payload is the one given, and it has the
checksum given, or none. -/
theorem C102_undefined (t i : Str) (mode : Int) (hp : Bool) (v : Nat) (u : UDefs) (ck : Option Str) (p : Payload)
    (hm : mode = 0 ∨ mode = 1 ∨ mode = 2) (hr : ValMsgid v → t ∈ NMEA_TALKERS ∧ Recognised u i)
    (hfirst : i ∈ NMEA_PREFIX_PROP ∨ upper i = py!"QTMSN" ∨ upper i = py!"STMDRSENMSG" → ∀ x ∈ p.items.head?, ∃ s, x = .str s)
    (hd : definitionFor mode.toNat u i (p.items.map asText) = .ok none) :
    (ValMsgid v → mkMsgAny t i mode hp v u ck p = .error .nmeaMessage) ∧
    (¬ ValMsgid v → ∃ m, mkMsgAny t i mode hp v u ck p = .ok m ∧ m.talker = t ∧ m.msgID = i ∧ m.payload = p ∧ m.checksum = ck ∧
      m.attrs = (p.items.zipIdx 1).map fun x => (py!"field_" ++ fmt02d x.2, x.1)) := by
  have hget : getDictAny (ctxOf t i mode.toNat hp v u ⟨none, []⟩) p.items = if ValMsgid v then .error .nmeaMessage else .ok none := by
    rw [getDictAny_first _ _ hfirst]
    have h0 := getDictAny_texts (ctxOf t i mode.toNat hp v u ⟨some (p.items.map asText), []⟩) (p.items.map asText) rfl
    rw [getDict_eq _ (p.items.map asText) (by show mode.toNat = 0 ∨ mode.toNat = 1 ∨ mode.toNat = 2; omega) rfl rfl rfl (fun _ => rfl)] at h0
    simp only [show (ctxOf t i mode.toNat hp v u ⟨some (p.items.map asText), []⟩).mode = mode.toNat from rfl,
      show (ctxOf t i mode.toNat hp v u ⟨some (p.items.map asText), []⟩).udefs = u from rfl,
      show (ctxOf t i mode.toNat hp v u ⟨some (p.items.map asText), []⟩).msgID = i from rfl, hd] at h0
    exact h0
  rw [mkMsgAny_eq t i mode hp v u ck p hm hr]
  unfold doAttributesAny
  rw [hget]
  constructor
  · intro h; rw [if_pos h]; rfl
  · intro h
    rw [if_neg h]
    refine ⟨_, rfl, rfl, rfl, rfl, rfl, ?_⟩
    have := nominalAny_eq 1 p.items [] (by simp)
    simpa using this

/-- Its hypotheses hold for an id nobody knows, with a date and a number in the payload. -/
example : definitionFor 0 [] py!"ABC" ([PyVal.date ⟨2024, 1, 2⟩, .int 5].map asText) = .ok none ∧ ¬ ValMsgid 1 ∧
    ¬ (py!"ABC" ∈ NMEA_PREFIX_PROP ∨ upper py!"ABC" = py!"QTMSN" ∨ upper py!"ABC" = py!"STMDRSENMSG") := by
  decide +kernel

/-! ## Items that stand for texts -/

theorem readItems_texts_slots (ss : List Slot) : ∀ (ts : List Str) (a : Attrs), readItems ss (ts.map .str) a = readSlots ss ts a := by
  induction ss with
  | nil => intro ts a; cases ts <;> rfl
  | cons x ss ih =>
    obtain ⟨n, ty⟩ := x
    intro ts a
    cases ts with
    | nil => rfl
    | cons t ts =>
      simp only [List.map_cons, readItems, readSlots, str2valAny]
      cases str2val t ty with
      | error e => rfl
      | ok w => exact ih _ _

/-- If the items stand for the texts in all the slots, the definition is written out in the same way. -/
theorem expandItems_natural {mode : Nat} {ts : List Str} {d : PDict} {sfx : Str} {pre post : List Slot}
    (h : Expand mode ts d sfx pre post) (vs : List PyVal) (hl : vs.length = ts.length) (all : List Slot) (hpre : post <+: all)
    (hnat : ∀ (j : Nat) n ty v s, all[j]? = some (n, ty) → vs[j]? = some v → ts[j]? = some s → StandsFor ty v s) :
    ExpandItems mode vs d sfx pre post ∧ pre <+: post := by
  have sub : ∀ l : List Slot, l <+: all → ∀ (j : Nat) n ty v s, l[j]? = some (n, ty) → vs[j]? = some v → ts[j]? = some s →
      StandsFor ty v s := by
    rintro l ⟨r, rfl⟩ j n ty v s h1 h2 h3
    refine hnat j n ty v s ?_ h2 h3
    rw [List.getElem?_append_left]
    · exact h1
    · exact (List.getElem?_eq_some_iff.1 h1).1
  have expand_pre : ∀ {d sfx pre post}, Expand mode ts d sfx pre post → pre <+: post := by
    intro d sfx pre post h
    induction h with
    | nil => exact List.prefix_refl _
    | single k t rest sfx pre post _ ih => exact (List.prefix_append _ _).trans ih
    | group k rep body rest sfx pre post n at_ _ h0 _ _ ihb ihr =>
      have key : ∀ i, i ≤ n → pre <+: at_ i := by
        intro i
        induction i with
        | zero => intro _; exact h0 ▸ List.prefix_refl _
        | succ i ih => intro hi; exact (ih (by omega)).trans (ihb i (by omega))
      exact (key n (Nat.le_refl _)).trans ihr
  refine ⟨?_, expand_pre h⟩
  induction h with
  | nil sfx pre => exact .nil _ _
  | single k t rest sfx pre post _ ih => exact .single _ _ _ _ _ _ (ih hpre)
  | group k rep body rest sfx pre post n at_ hr h0 hb hrest ihb ihr =>
    have hat : ∀ i, i ≤ n → at_ i <+: all := by
      intro i hi
      have key : ∀ j, i + j ≤ n → at_ i <+: at_ (i + j) := by
        intro j
        induction j with
        | zero => intro _; exact List.prefix_refl _
        | succ j ih => intro hj; exact (ih (by omega)).trans (expand_pre (hb (i + j) (by omega)))
      have h1 := key (n - i) (by omega)
      rw [show i + (n - i) = n by omega] at h1
      exact (h1.trans (expand_pre hrest)).trans hpre
    refine .group _ _ _ _ _ _ _ n at_ ?_ h0 (fun i hi => ihb i hi (hat (i + 1) (by omega))) (ihr hpre)
    have hp0 : pre <+: all := h0 ▸ hat 0 (by omega)
    cases hr with
    | fixed z => exact .fixed z
    | indet h => rw [← hl]; exact .indet h
    | named k attrs z h1 h2 h3 =>
      refine .named k attrs z ?_ h2 h3
      rw [readItems_iff, readItems_natural pre vs ts [] hl (sub pre hp0), readItems_texts_slots]
      exact h1
    | mode => exact .mode

/-- **C102, natural items in every sentence.** If the message can be made of the texts, and every item that falls on a field of
the definition, written out for those texts, stands for its text, then the message can be made of the items too (in a
proprietary sentence, if the first item is a text). It has the same attributes and the same checksum; only its payload is different. -/
theorem C102_natural_groups (now : Nat → DateTime) (t i : Str) (mode : Int) (hp : Bool) (v : Nat) (u : UDefs) (ck : Option Str)
    (vs : List PyVal) (ts : List Str) (hm : mode = 0 ∨ mode = 1 ∨ mode = 2) (hr : ValMsgid v → t ∈ NMEA_TALKERS ∧ Recognised u i)
    (hfirst : IsProprietary i → ∀ x ∈ vs.head?, ∃ s, x = .str s) (hsnc : ¬ IsSnc t i ts) (d : PDict)
    (hd : definitionFor mode.toNat u i ts = .ok (some d)) (hn : SaneNames d) (slots : List Slot)
    (hslots : Expand mode.toNat ts d [] [] slots)
    (hstr : List.Forall₂ (fun v s => PyVal.toStr v = .ok s) vs ts)
    (hnat : ∀ (j : Nat) n ty v s, slots[j]? = some (n, ty) → vs[j]? = some v → ts[j]? = some s → StandsFor ty v s)
    (m : Msg) (hmade : mkMsg now t i mode hp v u ck ⟨some ts, []⟩ = .ok m) :
    ∃ m', mkMsgAny t i mode hp v u ck (.list vs) = .ok m' ∧ m'.talker = m.talker ∧ m'.msgID = m.msgID ∧ m'.payload = .list vs ∧
      m'.checksum = m.checksum ∧ m'.attrs = m.attrs := by
  have hl := hstr.length_eq
  have ht : ∀ (j : Nat) n ty (v : PyVal) (s : Str), slots[j]? = some (n, ty) → (ts.map PyVal.str)[j]? = some v → ts[j]? = some s →
      StandsFor ty v s := by
    intro j n ty v s _ h2 h3
    rw [List.getElem?_map, h3] at h2
    cases h2
    exact .text _ _
  have x1 := (expandItems_natural hslots (ts.map .str) (by simp) slots (List.prefix_refl _) ht).1
  have x2 := (expandItems_natural hslots vs hl slots (List.prefix_refl _) hnat).1
  have hts : (ts.map PyVal.str).map asText = ts := by
    rw [List.map_map]; exact List.map_id' ts
  have hhead : IsProprietary i → (vs.map asText).head? = ts.head? := by
    intro hp
    cases hstr with
    | nil => rfl
    | cons h1 h2 =>
      obtain ⟨s, rfl⟩ := hfirst hp _ rfl
      cases h1; rfl
  have hdv : definitionFor mode.toNat u i (vs.map asText) = .ok (some d) := by
    rw [definitionFor_congr _ _ _ _ ts (by simp [hl]) hhead]; exact hd
  have hsncv : ¬ IsSnc t i (vs.map asText) := by
    rintro (h | ⟨h1, h2, h3⟩)
    · exact hsnc (.inl h)
    · exact hsnc (.inr ⟨h1, h2, by rw [← hhead (by rw [h2]; decide +kernel)]; exact h3⟩)
  have hgt : getDictAny (ctxOf t i mode.toNat hp v u ⟨none, []⟩) (ts.map .str) = .ok (some d) :=
    getDictAny_def t i mode hp v u _ hm (fun _ x hx => by
      cases ts with
      | nil => cases hx
      | cons s ts => cases hx; exact ⟨s, rfl⟩) d (by rw [hts]; exact hd)
  have hgv : getDictAny (ctxOf t i mode.toNat hp v u ⟨none, []⟩) vs = .ok (some d) := by
    by_cases hpi : IsProprietary i
    · exact getDictAny_def t i mode hp v u _ hm (fun _ => hfirst hpi) d hdv
    · refine getDictAny_plain t i mode hp v u vs hm hpi d ?_
      rw [← hd]
      have h1 : ∀ f, fullId i f = .ok i := by
        intro f
        unfold fullId
        rw [if_neg (fun h => hpi (.inr h))]
      unfold definitionFor
      simp only [h1, if_neg hpi]
  have hprt : Processes (ctxOf t i mode.toNat hp v u ⟨none, []⟩) true (ts.map .str) d :=
    processes_any t i mode hp v u (.list (ts.map .str)) d hn (fun _ x hx => by
      cases ts with
      | nil => cases hx
      | cons s ts => cases hx; exact ⟨s, rfl⟩) (by show ¬ IsSnc t i ((ts.map PyVal.str).map asText); rw [hts]; exact hsnc)
      (by show definitionFor _ _ _ ((ts.map PyVal.str).map asText) = _; rw [hts]; exact hd)
  have hprv : Processes (ctxOf t i mode.toNat hp v u ⟨none, []⟩) true vs d :=
    processes_any t i mode hp v u (.list vs) d hn (fun h => hfirst (.inr h)) hsncv hdv
  have g1 := made_of_items t i mode hp v u ck (.list (ts.map .str)) hm hr d hgt hprt
  have g2 := made_of_items t i mode hp v u ck (.list vs) hm hr d hgv hprv
  rw [C102_texts now, hmade] at g1
  have hck : ∀ k, ChecksumFor t i ck (ts.map .str) k → ChecksumFor t i ck vs k := by
    intro k h
    cases ck with
    | some g => exact h
    | none =>
      obtain ⟨ts', h1, h2⟩ := h
      rw [← textsOf_iff, textsOf_texts] at h1
      cases h1
      exact ⟨ts, hstr, h2⟩
  have hread : ∃ attrs, readItems slots (ts.map .str) [] = .ok attrs := by
    obtain ⟨s1, _, _⟩ := hprt
    have hx := C102_texts now t i mode hp v u ck ts
    rw [hmade, mkMsgAny_eq t i mode hp v u ck _ hm hr] at hx
    unfold doAttributesAny at hx
    rw [show Payload.items (.list (ts.map .str)) = ts.map .str from rfl, hgt] at hx
    simp only [bind, Except.bind, Payload.items, Payload.assignable] at hx
    cases hst : setPDictAny (ctxOf t i mode.toNat hp v u ⟨none, []⟩) true d [] ⟨0, ts.map .str, []⟩ with
    | error e => rw [hst] at hx; simp only [wrapErr_error, Except.map] at hx; cases hx
    | ok st =>
      obtain ⟨post, h1, _, h2⟩ := s1 st hst
      have : post = slots := expandItems_det h1 x1
      subst this
      exact ⟨_, h2⟩
  obtain ⟨attrs, hread⟩ := hread
  have hread' : readItems slots vs [] = .ok attrs := by
    rw [readItems_natural slots vs ts [] hl hnat]; exact hread
  obtain ⟨k, hk⟩ : ∃ k, ChecksumFor t i ck (ts.map .str) k := by
    cases ck with
    | some g => exact ⟨g, rfl⟩
    | none => exact ⟨_, ts, (textsOf_iff _ _).1 (textsOf_texts ts), rfl⟩
  obtain ⟨m1, a1, a2, a3, a4, a5, a6⟩ := g1.1 slots attrs k x1 ((readItems_iff _ _ _ _).2 hread) hk
  cases a1
  obtain ⟨m2, b1, b2, b3, b4, b5, b6⟩ := g2.1 slots attrs k x2 ((readItems_iff _ _ _ _).2 hread') (hck k hk)
  exact ⟨m2, b1, b2.trans a2.symm, b3.trans a3.symm, b4, b5.trans a5.symm, b6.trans a6.symm⟩

/-! ## Examples -/

/-- Two satellites in view, as numbers. -/
def inView : List PyVal := [.int 1, .int 1, .int 2, .int 7, .int 45, .float (.fin false 120), .int 33, .int 9, .int 10, .float (.fin false 300),
  .int 28, .int 1]

/-- The hypotheses of `C102_natural_groups` hold for two satellites given as `int`s. -/
example : ∃ d slots, definitionFor 0 [] py!"GSV"
      [py!"1", py!"1", py!"2", py!"7", py!"45", py!"120", py!"33", py!"9", py!"10", py!"300", py!"28"] = .ok (some d) ∧ SaneNames d ∧ EmptyGroup d = false ∧ ¬ IsProprietary py!"GSV" ∧
    Expand 0 [py!"1", py!"1", py!"2", py!"7", py!"45", py!"120", py!"33", py!"9", py!"10", py!"300", py!"28"] d [] [] slots ∧
    List.Forall₂ (fun v s => PyVal.toStr v = .ok s)
      [.int 1, .int 1, .int 2, .int 7, .int 45, .int 120, .int 33, .int 9, .int 10, .int 300, .int 28]
      [py!"1", py!"1", py!"2", py!"7", py!"45", py!"120", py!"33", py!"9", py!"10", py!"300", py!"28"] ∧
    ((slots.take 11).map Prod.snd = List.replicate 11 py!"IN" ∧ slots[9]? = some (py!"az_02", py!"IN")) := by
  refine ⟨_, ([(py!"numMsg", py!"IN"), (py!"msgNum", py!"IN"), (py!"numSV", py!"IN"),
    (py!"svid_01", py!"IN"), (py!"elv_01", py!"IN"), (py!"az_01", py!"IN"), (py!"cno_01", py!"IN"),
    (py!"svid_02", py!"IN"), (py!"elv_02", py!"IN"), (py!"az_02", py!"IN"), (py!"cno_02", py!"IN"), (py!"signalID", py!"HX")] : List Slot),
    rfl, by decide, by decide, by decide, ?_, ?_, ?_⟩
  · refine .single _ _ _ _ _ _ (.single _ _ _ _ _ _ (.single _ _ _ _ _ _ (.group _ _ _ _ _ _ _ 2
      (fun i => ([(py!"numMsg", py!"IN"), (py!"msgNum", py!"IN"), (py!"numSV", py!"IN")] : List Slot) ++
        (if i = 0 then [] else [(py!"svid_01", py!"IN"), (py!"elv_01", py!"IN"), (py!"az_01", py!"IN"), (py!"cno_01", py!"IN")]) ++
        (if i ≤ 1 then [] else [(py!"svid_02", py!"IN"), (py!"elv_02", py!"IN"), (py!"az_02", py!"IN"), (py!"cno_02", py!"IN")]))
      (.indet (by decide)) rfl ?_ (.single _ _ _ _ _ _ (.nil _ _)))))
    intro i hi
    have : i = 0 ∨ i = 1 := by omega
    rcases this with rfl | rfl
    · exact .single _ _ _ _ _ _ (.single _ _ _ _ _ _ (.single _ _ _ _ _ _ (.single _ _ _ _ _ _ (.nil _ _))))
    · exact .single _ _ _ _ _ _ (.single _ _ _ _ _ _ (.single _ _ _ _ _ _ (.single _ _ _ _ _ _ (.nil _ _))))
  · repeat' constructor
  · decide

/-- **C102, an example with groups.** GSV with all fields given as numbers: both groups are filled, and the signal id after them. -/
theorem C102_in_view : ∃ m, mkMsgAny py!"GP" py!"GSV" 0 false 1 [] none (.list inView) = .ok m ∧
    lookup py!"svid_01" m.attrs = some (.int 7) ∧ lookup py!"svid_02" m.attrs = some (.int 9) ∧
    lookup py!"svid_03" m.attrs = none ∧ lookup py!"numSV" m.attrs = some (.int 2) := by
  refine ⟨(mkMsgAny py!"GP" py!"GSV" 0 false 1 [] none (.list inView)).toOption.get (by decide +kernel), ?_⟩
  decide +kernel

/-- A u-blox configuration sentence with numbers after its message id: the hypotheses of `C102_every` hold for it. -/
def rate : List PyVal := [.str py!"40", .str py!"GLL", .int 0, .int 1, .bool false, .int 1, .int 0, .int 0]

example : ∃ d, definitionFor 1 [] py!"UBX" (rate.map asText) = .ok (some d) ∧ SaneNames d ∧ py!"UBX" ∈ NMEA_PREFIX_PROP ∧
    ¬ IsSnc py!"P" py!"UBX" (rate.map asText) ∧ ∀ x ∈ rate.head?, ∃ s, x = .str s := by
  refine ⟨_, rfl, by decide, by decide, by decide, ?_⟩
  intro x hx
  cases hx
  exact ⟨_, rfl⟩

/-- **C102, an example of a proprietary sentence.** The numbers are taken; a number as message id is refused. -/
theorem C102_rate :
    (mkMsgAny py!"P" py!"UBX" 1 false 1 [] none (.list rate)).map (fun m => (lookup py!"rus1" m.attrs, lookup py!"rusb" m.attrs, lookup py!"rus2" m.attrs)) =
      .ok (some (.int 1), some (.int 1), some (.int 0)) ∧
    mkMsgAny py!"P" py!"UBX" 1 false 1 [] none (.list (.int 40 :: rate.tail)) = .error .nmeaType := by
  decide +kernel

end Props.AnyPayload
