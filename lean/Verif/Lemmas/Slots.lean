import Verif.Lemmas.ParseErr
/-! # Lemmas: expansions of definitions and the values read -/
namespace Nmea
open Py Spec

theorem repeats_det {mode fs pre size rep n n'} (h : Repeats mode fs pre size rep n)
    (h' : Repeats mode fs pre size rep n') : n = n' := by
  cases h with
  | fixed z => cases h'; rfl
  | indet hs => cases h'; rfl
  | named k attrs z h1 h2 h3 =>
    cases h' with
    | named _ attrs' z' h1' h2' h3' =>
      rw [h1] at h1'; cases h1'; rw [h3] at h3'; cases h3'; rfl
    | mode => exact absurd rfl h2
  | mode =>
    cases h' with
    | named _ _ _ _ h2 _ => exact absurd rfl h2
    | mode => rfl

/-- A definition expands in at most one way. -/
theorem expand_det {mode fs d sfx pre post post'} (h : Expand mode fs d sfx pre post)
    (h' : Expand mode fs d sfx pre post') : post = post' := by
  induction h generalizing post' with
  | nil => cases h'; rfl
  | single k t rest sfx pre post _ ih => cases h' with | single _ _ _ _ _ _ h => exact ih h
  | group k rep body rest sfx pre post n at_ hr h0 hb hrest ihb ihr =>
    cases h' with
    | group _ _ _ _ _ _ _ n' at' hr' h0' hb' hrest' =>
      have := repeats_det hr hr'
      subst this
      have key : ∀ i, i ≤ n → at_ i = at' i := by
        intro i
        induction i with
        | zero => intro _; rw [h0, h0']
        | succ i ih =>
          intro hi
          have e := ih (by omega)
          have := hb' i (by omega)
          rw [← e] at this
          exact ihb i (by omega) this
      rw [← key n (Nat.le_refl n)] at hrest'
      exact ihr hrest'

theorem expand_static (mode : Nat) (fs : List Str) (d : PDict) (hd : IsStatic d = true) (sfx : Str)
    (pre : List Slot) : Expand mode fs d sfx pre (pre ++ slotsOf d sfx) := by
  induction d generalizing sfx pre with
  | nil => simp only [slotsOf, List.append_nil]; exact .nil _ _
  | single k t r ih =>
    apply Expand.single
    have := ih hd sfx (pre ++ [(k ++ sfx, t)])
    simpa [slotsOf] using this
  | group k rep b r ihb ihr =>
    cases rep with
    | fixed z =>
      simp only [IsStatic, Bool.and_eq_true] at hd
      refine .group k (.fixed z) b r sfx pre _ z.toNat
        (fun i => pre ++ (List.range i).flatMap (fun i => slotsOf b (sfx ++ groupSuffix (i + 1))))
        (.fixed z) (by simp) ?_ ?_
      · intro i _
        simp only [List.range_succ, List.flatMap_append, List.flatMap_cons, List.flatMap_nil,
          List.append_nil]
        rw [← List.append_assoc]
        exact ihb hd.1 _ _
      · simp only [slotsOf]
        rw [← List.append_assoc]
        exact ihr hd.2 _ _
    | indet => cases hd
    | named n => cases hd

theorem expand_static_iff (mode : Nat) (fs : List Str) (d : PDict) (hd : IsStatic d = true)
    (post : List Slot) : Expand mode fs d [] [] post ↔ post = slotsOf d [] := by
  have h := expand_static mode fs d hd [] []
  simp only [List.nil_append] at h
  constructor
  · intro h'; exact expand_det h' h
  · rintro rfl; exact h

/-- Without named and empty indeterminate groups, an expansion exists for all fields. -/
theorem expand_exists (mode : Nat) (fs : List Str) (d : PDict) (hn : NoNamed d = true)
    (he : EmptyGroup d = false) (sfx : Str) (pre : List Slot) : ∃ post, Expand mode fs d sfx pre post := by
  induction d generalizing sfx pre with
  | nil => exact ⟨_, .nil _ _⟩
  | single k t r ih =>
    obtain ⟨post, h⟩ := ih hn he sfx (pre ++ [(k ++ sfx, t)])
    exact ⟨post, .single _ _ _ _ _ _ h⟩
  | group k rep b r ihb ihr =>
    simp only [EmptyGroup, Bool.or_eq_false_iff] at he
    have main : NoNamed b = true ∧ NoNamed r = true → ∀ n, Repeats mode fs pre (keysOf b).length rep n →
        ∃ post, Expand mode fs (.group k rep b r) sfx pre post := by
      rintro ⟨h1, h2⟩ n hr
      let at_ : Nat → List Slot := fun i => Nat.rec pre
        (fun i p => Classical.choose (ihb h1 he.2.1 (sfx ++ groupSuffix (i + 1)) p)) i
      obtain ⟨post, hp⟩ := ihr h2 he.2.2 sfx (at_ n)
      exact ⟨post, .group _ _ _ _ _ _ _ n at_ hr rfl
        (fun i _ => Classical.choose_spec (ihb h1 he.2.1 (sfx ++ groupSuffix (i + 1)) (at_ i))) hp⟩
    cases rep with
    | fixed z =>
      simp only [NoNamed, Bool.and_eq_true] at hn
      exact main hn _ (.fixed z)
    | indet =>
      simp only [NoNamed, Bool.and_eq_true] at hn
      refine main hn _ (.indet ?_)
      intro h0
      have := he.1
      simp [List.length_eq_zero_iff.mp h0] at this
    | named n => cases hn

/-! ## Values read -/

theorem withSign_keys (name : Str) (neg : Bool) (attrs : Attrs) :
    (withSign name neg attrs).map Prod.fst = attrs.map Prod.fst := by
  have hmem : ∀ v, lookup name attrs = some v → name ∈ attrs.map Prod.fst := by
    intro v h
    exact List.mem_map.2 ⟨_, lookup_some_mem _ _ _ h, rfl⟩
  unfold withSign
  split
  · rename_i h; exact insert_keys_of_mem _ _ _ (hmem _ h)
  · rename_i h; exact insert_keys_of_mem _ _ _ (hmem _ h)
  · rename_i h; exact insert_keys_of_mem _ _ _ (hmem _ h)
  · rfl

theorem hemisphere_keys (t : Str) (v : PyVal) (attrs : Attrs) :
    (hemisphere t v attrs).map Prod.fst = attrs.map Prod.fst := by
  unfold hemisphere
  split
  · exact withSign_keys _ _ _
  · split
    · exact withSign_keys _ _ _
    · rfl

theorem insert_keys {β} (k : Str) (v : β) (d : List (Str × β)) :
    (Py.insert k v d).map Prod.fst =
      if k ∈ d.map Prod.fst then d.map Prod.fst else d.map Prod.fst ++ [k] := by
  split
  · rename_i h; exact insert_keys_of_mem _ _ _ h
  · rename_i h; rw [insert_not_mem _ _ _ h]; simp

theorem readSlots_length (slots : List Slot) (fs : List Str) (attrs attrs' : Attrs)
    (h : readSlots slots fs attrs = .ok attrs') : attrs'.length ≤ attrs.length + fs.length := by
  induction slots generalizing fs attrs with
  | nil => simp only [readSlots, Except.ok.injEq] at h; rw [h]; omega
  | cons s ss ih =>
    obtain ⟨n, t⟩ := s
    cases fs with
    | nil => simp only [readSlots, Except.ok.injEq] at h; rw [h]; omega
    | cons f fs =>
      rw [readSlots] at h
      split at h
      · cases h
      · rename_i v _
        have := ih _ _ h
        have e := congrArg List.length (hemisphere_keys t v (Py.insert n v attrs))
        simp only [List.length_map] at e
        have := insert_length_le n v attrs
        simp only [List.length_cons]
        omega

/-- Errors come from the conversion of a field. -/
theorem readSlots_error (slots : List Slot) (fs : List Str) (attrs : Attrs) (e : Err)
    (h : readSlots slots fs attrs = .error e) :
    ∃ (n : Nat) (name ty f : Str), slots[n]? = some (name, ty) ∧ fs[n]? = some f ∧ str2val f ty = .error e := by
  induction slots generalizing fs attrs with
  | nil => cases h
  | cons s ss ih =>
    obtain ⟨n, t⟩ := s
    cases fs with
    | nil => cases h
    | cons f fs =>
      rw [readSlots] at h
      split at h
      · rename_i h'; cases h; exact ⟨0, n, t, f, rfl, rfl, h'⟩
      · obtain ⟨i, name, ty, f', h1, h2, h3⟩ := ih _ _ h
        exact ⟨i + 1, name, ty, f', h1, h2, h3⟩

theorem readSlots_ok_val (slots : List Slot) (fs : List Str) (attrs attrs' : Attrs)
    (h : readSlots slots fs attrs = .ok attrs') (n : Nat) (name ty f : Str)
    (h1 : slots[n]? = some (name, ty)) (h2 : fs[n]? = some f) : ∃ v, str2val f ty = .ok v := by
  induction slots generalizing fs attrs n with
  | nil => simp at h1
  | cons s ss ih =>
    obtain ⟨m, t⟩ := s
    cases fs with
    | nil => simp at h2
    | cons g fs =>
      rw [readSlots] at h
      split at h
      · cases h
      · rename_i v hv
        cases n with
        | zero => simp at h1 h2; obtain ⟨rfl, rfl⟩ := h1; subst h2; exact ⟨v, hv⟩
        | succ n => exact ih _ _ h n (by simpa using h1) (by simpa using h2)

theorem readSlots_take (slots : List Slot) (fs : List Str) (attrs : Attrs) :
    readSlots slots fs attrs = readSlots (slots.take fs.length) (fs.take slots.length) attrs := by
  induction slots generalizing fs attrs with
  | nil => simp [readSlots]
  | cons s ss ih =>
    obtain ⟨m, t⟩ := s
    cases fs with
    | nil => simp [readSlots]
    | cons f fs =>
      simp only [List.length_cons, List.take_succ_cons, readSlots]
      split
      · rfl
      · exact ih _ _

/-- Keys: distinct slot names appear in order. -/
theorem readSlots_keys (slots : List Slot) (fs : List Str) (attrs attrs' : Attrs)
    (h : readSlots slots fs attrs = .ok attrs') (hn : (slots.map Prod.fst).Nodup)
    (hd : ∀ s ∈ slots, s.1 ∉ attrs.map Prod.fst) :
    attrs'.map Prod.fst = attrs.map Prod.fst ++ (slots.map Prod.fst).take fs.length := by
  induction slots generalizing fs attrs with
  | nil => simp only [readSlots, Except.ok.injEq] at h; rw [h]; simp
  | cons s ss ih =>
    obtain ⟨m, t⟩ := s
    cases fs with
    | nil => simp only [readSlots, Except.ok.injEq] at h; rw [h]; simp
    | cons f fs =>
      rw [readSlots] at h
      split at h
      · cases h
      · rename_i v hv
        have hk : (hemisphere t v (Py.insert m v attrs)).map Prod.fst = attrs.map Prod.fst ++ [m] := by
          rw [hemisphere_keys, insert_keys, if_neg (hd (m, t) (by simp))]
        simp only [List.map_cons, List.nodup_cons] at hn
        rw [ih _ _ h hn.2, hk]
        · simp
        · intro s hs
          rw [hk, List.mem_append]
          rintro (h1 | h1)
          · exact hd s (by simp [hs]) h1
          · simp only [List.mem_singleton] at h1
            exact hn.1 (List.mem_map.2 ⟨s, hs, h1⟩)

/-- A later slot does not change an attribute with another name (other than `lat`, `lon`). -/
theorem readSlots_stable (x : Str) (hx1 : x ≠ py!"lon") (hx2 : x ≠ py!"lat") (slots : List Slot)
    (fs : List Str) (attrs attrs' : Attrs) (h : readSlots slots fs attrs = .ok attrs')
    (hd : ∀ s ∈ slots, s.1 ≠ x) : lookup x attrs' = lookup x attrs := by
  induction slots generalizing fs attrs with
  | nil => simp only [readSlots, Except.ok.injEq] at h; rw [h]
  | cons s ss ih =>
    obtain ⟨m, t⟩ := s
    cases fs with
    | nil => simp only [readSlots, Except.ok.injEq] at h; rw [h]
    | cons f fs =>
      rw [readSlots] at h
      split at h
      · cases h
      · rename_i v hv
        rw [ih _ _ h (fun s hs => hd s (by simp [hs])), lookup_hemisphere _ _ _ _ hx1 hx2, lookup_insert,
          if_neg (Ne.symm (hd (m, t) (by simp)))]

/-- The value of an attribute with a unique name. -/
theorem readSlots_value (slots : List Slot) (fs : List Str) (attrs attrs' : Attrs)
    (h : readSlots slots fs attrs = .ok attrs') (hn : (slots.map Prod.fst).Nodup) (n : Nat)
    (name ty f : Str) (h1 : slots[n]? = some (name, ty)) (h2 : fs[n]? = some f)
    (hx1 : name ≠ py!"lon") (hx2 : name ≠ py!"lat") :
    ∃ v, str2val f ty = .ok v ∧ lookup name attrs' = some v := by
  induction slots generalizing fs attrs n with
  | nil => simp at h1
  | cons s ss ih =>
    obtain ⟨m, t⟩ := s
    cases fs with
    | nil => simp at h2
    | cons g fs =>
      rw [readSlots] at h
      split at h
      · cases h
      · rename_i v hv
        simp only [List.map_cons, List.nodup_cons] at hn
        cases n with
        | zero =>
          simp at h1 h2; obtain ⟨rfl, rfl⟩ := h1; subst h2
          refine ⟨v, hv, ?_⟩
          rw [readSlots_stable m hx1 hx2 _ _ _ _ h, lookup_hemisphere _ _ _ _ hx1 hx2, lookup_insert,
            if_pos rfl]
          intro s hs he
          exact hn.1 (List.mem_map.2 ⟨s, hs, he⟩)
        | succ n => exact ih _ _ h hn.2 n (by simpa using h1) (by simpa using h2)

end Nmea

namespace Nmea
open Py Spec

theorem withSign_self (name : Str) (neg : Bool) (attrs : Attrs) :
    lookup name (withSign name neg attrs) = (lookup name attrs).map (resign neg) := by
  unfold withSign
  split
  · rename_i h; rw [lookup_insert, if_pos rfl, h]; rfl
  · rename_i h; rw [lookup_insert, if_pos rfl, h]; rfl
  · rename_i h; rw [lookup_insert, if_pos rfl, h]; rfl
  · rename_i h1 h2 h3
    cases hl : lookup name attrs with
    | none => rfl
    | some v => cases v <;> simp_all [resign]

theorem withSign_other (name x : Str) (neg : Bool) (attrs : Attrs) (h : x ≠ name) :
    lookup x (withSign name neg attrs) = lookup x attrs := by
  rcases withSign_lookup name neg attrs x with h1 | ⟨h1, _⟩
  · exact h1
  · exact absurd h1 h

theorem hemisphere_governs {dty name letter} (hg : Governs dty name letter) (v : PyVal) (attrs : Attrs) :
    lookup name (hemisphere dty v attrs) =
      (lookup name attrs).map (resign (decide (v = .str letter))) := by
  cases hg with
  | lon => unfold hemisphere; rw [if_pos rfl]; exact withSign_self _ _ _
  | lat => unfold hemisphere; rw [if_neg (by decide), if_pos rfl]; exact withSign_self _ _ _

theorem hemisphere_not {dty name letter} (hg : Governs dty name letter) (t : Str) (ht : t ≠ dty)
    (v : PyVal) (attrs : Attrs) : lookup name (hemisphere t v attrs) = lookup name attrs := by
  cases hg with
  | lon =>
    unfold hemisphere; rw [if_neg ht]
    split
    · exact withSign_other _ _ _ _ (by decide)
    · rfl
  | lat =>
    unfold hemisphere
    split
    · exact withSign_other _ _ _ _ (by decide)
    · rfl

/-- Slots after which `name` is no longer touched. -/
theorem readSlots_untouched {dty name letter} (hg : Governs dty name letter) (slots : List Slot)
    (fs : List Str) (attrs attrs' : Attrs) (h : readSlots slots fs attrs = .ok attrs')
    (h1 : ∀ (n : Nat) s, slots[n]? = some s → n < fs.length → s.1 ≠ name ∧ s.2 ≠ dty) :
    lookup name attrs' = lookup name attrs := by
  induction slots generalizing fs attrs with
  | nil => simp only [readSlots, Except.ok.injEq] at h; rw [h]
  | cons s ss ih =>
    obtain ⟨m, t⟩ := s
    cases fs with
    | nil => simp only [readSlots, Except.ok.injEq] at h; rw [h]
    | cons f fs =>
      rw [readSlots] at h
      split at h
      · cases h
      · rename_i v hv
        have h0 := h1 0 (m, t) rfl (by simp)
        rw [ih _ _ h (fun n s hn hl => h1 (n + 1) s (by simpa using hn) (by simp; omega)),
          hemisphere_not hg t h0.2, lookup_insert, if_neg (Ne.symm h0.1)]

theorem readSlots_signed {dty name letter} (hg : Governs dty name letter) (slots : List Slot)
    (fs : List Str) (attrs attrs' : Attrs) (h : readSlots slots fs attrs = .ok attrs')
    (n : Nat) (dname dtext : Str) (hn : slots[n]? = some (dname, dty)) (hf : fs[n]? = some dtext)
    (hd : dname ≠ name)
    (hlast : ∀ (k : Nat) s, n < k → slots[k]? = some s → k < fs.length → s.1 ≠ name ∧ s.2 ≠ dty) :
    ∃ mid, readSlots (slots.take n) (fs.take n) attrs = .ok mid ∧
      lookup name attrs' = (lookup name mid).map (resign (decide (dtext = letter))) := by
  induction slots generalizing fs attrs n with
  | nil => simp at hn
  | cons s ss ih =>
    obtain ⟨m, t⟩ := s
    cases fs with
    | nil => simp at hf
    | cons f fs =>
      rw [readSlots] at h
      split at h
      · cases h
      · rename_i v hv
        cases n with
        | zero =>
          simp only [List.getElem?_cons_zero, Option.some.injEq, Prod.mk.injEq] at hn hf
          obtain ⟨rfl, rfl⟩ := hn
          subst hf
          refine ⟨attrs, by simp [readSlots], ?_⟩
          have hv' : v = .str f := by
            have : str2val f t = .ok (.str f) := by
              unfold str2val; rw [if_pos (by cases hg <;> decide)]
            rw [hv] at this; cases this; rfl
          rw [readSlots_untouched hg _ _ _ _ h (fun k s hk hl =>
            hlast (k + 1) s (by omega) (by simpa using hk) (by simp; omega)),
            hemisphere_governs hg, lookup_insert, if_neg (Ne.symm hd), hv']
          congr 2
          simp
        | succ n =>
          obtain ⟨mid, h1, h2⟩ := ih _ _ h n (by simpa using hn) (by simpa using hf)
            (fun k s hk hs hl => hlast (k + 1) s (by omega) (by simpa using hs) (by simp; omega))
          refine ⟨mid, ?_, h2⟩
          simp only [List.take_succ_cons, readSlots, hv]
          exact h1

/-- The value a governed attribute has before its direction is read. -/
theorem readSlots_last {dty name letter} (hg : Governs dty name letter) (slots : List Slot)
    (fs : List Str) (attrs attrs' : Attrs) (h : readSlots slots fs attrs = .ok attrs')
    (n : Nat) (ty text : Str) (hn : slots[n]? = some (name, ty)) (hf : fs[n]? = some text) (hty : ty ≠ dty)
    (hlast : ∀ (k : Nat) s, n < k → slots[k]? = some s → k < fs.length → s.1 ≠ name ∧ s.2 ≠ dty) :
    ∃ v, str2val text ty = .ok v ∧ lookup name attrs' = some v := by
  induction slots generalizing fs attrs n with
  | nil => simp at hn
  | cons s ss ih =>
    obtain ⟨m, t⟩ := s
    cases fs with
    | nil => simp at hf
    | cons f fs =>
      rw [readSlots] at h
      split at h
      · cases h
      · rename_i v hv
        cases n with
        | zero =>
          simp only [List.getElem?_cons_zero, Option.some.injEq, Prod.mk.injEq] at hn hf
          obtain ⟨rfl, rfl⟩ := hn
          subst hf
          refine ⟨v, hv, ?_⟩
          rw [readSlots_untouched hg _ _ _ _ h (fun k s hk hl =>
            hlast (k + 1) s (by omega) (by simpa using hk) (by simp; omega)),
            hemisphere_not hg _ hty, lookup_insert, if_pos rfl]
        | succ n =>
          exact ih _ _ h n (by simpa using hn) (by simpa using hf)
            (fun k s hk hs hl => hlast (k + 1) s (by omega) (by simpa using hs) (by simp; omega))


theorem resign_resign (a b : Bool) (v : PyVal) : resign a (resign b v) = resign a v := by
  cases v <;> cases b <;> simp [resign]
  case float.false x => cases x <;> rfl
  case float.true x => cases x <;> rfl
  case bool.false x => cases x <;> simp
  case bool.true x => cases x <;> simp

theorem hemisphere_upto (t x : Str) (v u w : PyVal) (attrs : Attrs) (h : lookup x attrs = some u)
    (hu : UpToSign w u) : ∃ u', lookup x (hemisphere t v attrs) = some u' ∧ UpToSign w u' := by
  have key : ∀ name b, ∃ u', lookup x (withSign name b attrs) = some u' ∧ UpToSign w u' := by
    intro name b
    by_cases hx : x = name
    · subst hx
      refine ⟨resign b u, by rw [withSign_self, h]; rfl, ?_⟩
      rcases hu with rfl | ⟨c, rfl⟩
      · exact .inr ⟨b, rfl⟩
      · exact .inr ⟨b, resign_resign b c w⟩
    · exact ⟨u, by rw [withSign_other _ _ _ _ hx, h], hu⟩
  unfold hemisphere
  split
  · exact key _ _
  · split
    · exact key _ _
    · exact ⟨u, h, hu⟩

theorem readSlots_upto (x : Str) (w : PyVal) (slots : List Slot)
    (fs : List Str) (attrs attrs' : Attrs) (h : readSlots slots fs attrs = .ok attrs')
    (hd : ∀ s ∈ slots, s.1 ≠ x) (u : PyVal) (hl : lookup x attrs = some u) (hu : UpToSign w u) :
    ∃ u', lookup x attrs' = some u' ∧ UpToSign w u' := by
  induction slots generalizing fs attrs u with
  | nil => simp only [readSlots, Except.ok.injEq] at h; subst h; exact ⟨u, hl, hu⟩
  | cons s ss ih =>
    obtain ⟨m, t⟩ := s
    cases fs with
    | nil => simp only [readSlots, Except.ok.injEq] at h; subst h; exact ⟨u, hl, hu⟩
    | cons f fs =>
      rw [readSlots] at h
      split at h
      · cases h
      · rename_i v hv
        obtain ⟨u', h1, h2⟩ := hemisphere_upto t x v u w (Py.insert m v attrs)
          (by rw [lookup_insert, if_neg (Ne.symm (hd (m, t) (by simp))), hl]) hu
        exact ih _ _ h (fun s hs => hd s (by simp [hs])) u' h1 h2

/-- The value of every slot that was read, up to the sign of coordinates. -/
theorem readSlots_value_upto (slots : List Slot) (fs : List Str) (attrs attrs' : Attrs)
    (h : readSlots slots fs attrs = .ok attrs') (hn : (slots.map Prod.fst).Nodup) (n : Nat)
    (name ty f : Str) (h1 : slots[n]? = some (name, ty)) (h2 : fs[n]? = some f) :
    ∃ v w, str2val f ty = .ok v ∧ lookup name attrs' = some w ∧ UpToSign v w := by
  induction slots generalizing fs attrs n with
  | nil => simp at h1
  | cons s ss ih =>
    obtain ⟨m, t⟩ := s
    cases fs with
    | nil => simp at h2
    | cons f' fs =>
      rw [readSlots] at h
      split at h
      · cases h
      · rename_i v hv
        simp only [List.map_cons, List.nodup_cons] at hn
        cases n with
        | zero =>
          simp only [List.getElem?_cons_zero, Option.some.injEq, Prod.mk.injEq] at h1 h2
          obtain ⟨rfl, rfl⟩ := h1
          subst h2
          obtain ⟨u', e1, e2⟩ := hemisphere_upto t m v v v (Py.insert m v attrs)
            (by rw [lookup_insert, if_pos rfl]) (.inl rfl)
          obtain ⟨w, e3, e4⟩ := readSlots_upto m v ss fs _ _ h
            (fun s hs e => hn.1 (e ▸ List.mem_map.2 ⟨s, hs, rfl⟩)) u' e1 e2
          exact ⟨v, w, hv, e3, e4⟩
        | succ n => exact ih _ _ h hn.2 n (by simpa using h1) (by simpa using h2)

end Nmea
