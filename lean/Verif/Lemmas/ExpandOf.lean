import Verif.Lemmas.ReadBack
import Verif.Spec.RoundTrip
/-! # Lemmas: the layout of a generated message is the one `parse` finds -/
namespace Props
open Py Nmea Spec

theorem slotsOf_length (d : PDict) (s s' : Str) : (slotsOf d s).length = (slotsOf d s').length := by
  induction d generalizing s s' with
  | nil => rfl
  | single k t r ih => simp only [slotsOf, List.length_cons, ih s s']
  | group k rep b r ihb ihr =>
    simp only [slotsOf, List.length_append, List.length_flatMap, ihr s s']
    congr 3
    funext i
    exact ihb _ _

theorem flat_static (d : PDict) (h : IsFlat d = true) : IsStatic d = true := by
  induction d with
  | nil => rfl
  | single k t r ih => exact ih h
  | group k rep b r => cases h

theorem flat_length (d : PDict) (h : IsFlat d = true) (s : Str) : (slotsOf d s).length = d.len := by
  induction d with
  | nil => rfl
  | single k t r ih => simp only [slotsOf, List.length_cons, PDict.len, ih h]
  | group k rep b r => cases h

theorem emit_static' {kw mode hp now d sfx pre post} (he : Emit kw mode hp now d sfx pre post)
    (hd : IsStatic d = true) : slotsW post = slotsW pre ++ slotsOf d sfx := emit_static he hd

theorem loop_static {kw mode hp now body sfx} {n : Nat} {at_ : Nat → List Written}
    (hb : ∀ i < n, Emit kw mode hp now body (sfx ++ groupSuffix (i + 1)) (at_ i) (at_ (i + 1)))
    (hst : IsStatic body = true) (fields : List Str) (m : Nat) :
    ∀ i < n, Expand m fields body (sfx ++ groupSuffix (i + 1)) (slotsW (at_ i)) (slotsW (at_ (i + 1))) := by
  intro i hi
  rw [emit_static' (hb i hi) hst]
  exact expand_static _ _ _ hst _ _

theorem loop_length {kw mode hp now body sfx} {n : Nat} {at_ : Nat → List Written}
    (hb : ∀ i < n, Emit kw mode hp now body (sfx ++ groupSuffix (i + 1)) (at_ i) (at_ (i + 1)))
    (hst : IsFlat body = true) : ∀ i ≤ n, (at_ i).length = (at_ 0).length + i * body.len := by
  intro i
  induction i with
  | zero => intro _; simp
  | succ i ih =>
    intro hi
    have h1 := congrArg List.length (emit_static' (hb i (by omega)) (flat_static _ hst))
    simp only [slotsW, List.length_append, List.length_map] at h1
    rw [flat_length _ hst] at h1
    rw [h1, ih (by omega), Nat.succ_mul]; omega

/-- The layout found in the fields of a generated message is that of the message. -/
theorem expand_of_emit {kw mode hp now} (d0 : PDict) (total : List Written) (fields : List Str)
    (hlen : fields.length = total.length)
    (hcount : ∀ (k : Str) (b : PDict) (z : Int) pre, (Rep.named k, b) ∈ d0.groups → pre <+: total → lastValue k pre = some (.int z) →
      ∃ attrs, readSlots (slotsW pre) fields [] = .ok attrs ∧ lookup k attrs = some (.int z))
    (hflag : ∀ (k : Str) (b : Bool) pre, pre <+: total → lastValue k pre ≠ some (.bool b)) :
    ∀ {d sfx pre post}, Emit kw mode hp now d sfx pre post → (∀ x ∈ d.groups, x ∈ d0.groups) →
      Determinate d = true → post = total → Expand mode fields d sfx (slotsW pre) (slotsW total) := by
  intro d sfx pre post he
  induction he with
  | nil => intro _ _ h; subst h; exact .nil _ _
  | single k t rest sfx pre post v text hc hv he ih =>
    intro hg hd h
    apply Expand.single
    have := ih (fun x hx => hg x (by simpa [PDict.groups] using hx)) hd h
    simpa [slotsW] using this
  | group k rep body rest sfx pre post n at_ hr h0 hb hrest ihb ihr =>
    intro hg hd h
    have hgr : ∀ x ∈ rest.groups, x ∈ d0.groups := fun x hx => hg x (by simp [PDict.groups, hx])
    have hpost := emit_prefix hrest
    have hat : ∀ i, i ≤ n → at_ i <+: at_ n := by
      intro i hi
      obtain ⟨m, hm⟩ := Nat.exists_eq_add_of_le hi
      clear hrest hpost ihr ihb hr
      induction m generalizing n with
      | zero => subst hm; exact List.prefix_rfl
      | succ m ihm =>
        subst hm
        exact (ihm (n := i + m) (fun j hj => hb j (by omega)) (by omega) rfl).trans (emit_prefix (hb (i + m) (by omega)))
    have hpre : pre <+: total := by
      rw [← h0]; exact (hat 0 (by omega)).trans (h ▸ hpost)
    cases rep with
    | fixed z =>
      simp only [Determinate, Bool.and_eq_true] at hd
      cases hr
      exact .group _ _ _ _ _ _ _ _ (fun i => slotsW (at_ i)) (.fixed z) (by rw [h0])
        (loop_static hb hd.1 fields mode) (ihr hgr hd.2 h)
    | named k =>
      simp only [Determinate, Bool.and_eq_true] at hd
      refine .group _ _ _ _ _ _ _ n (fun i => slotsW (at_ i)) ?_ (by rw [h0])
        (loop_static hb hd.1 fields mode) (ihr hgr hd.2 h)
      cases hr with
      | named _ z hk hl =>
        obtain ⟨attrs, r1, r2⟩ := hcount k body z pre (hg _ (by simp [PDict.groups])) hpre hl
        exact .named k attrs z r1 hk r2
      | flag _ b hk hl => exact absurd hl (hflag k b pre hpre)
      | mode => exact .mode
    | indet =>
      simp only [Determinate, Bool.and_eq_true, decide_eq_true_eq] at hd
      obtain ⟨⟨hf, hs⟩, hl⟩ := hd
      rw [keysOf_length] at hl
      have hrest' : Expand mode fields rest sfx (slotsW (at_ n)) (slotsW total) := by
        subst h
        rw [emit_static' hrest hs]
        exact expand_static _ _ _ hs _ _
      refine .group _ _ _ _ _ _ _ n (fun i => slotsW (at_ i)) ?_ (by rw [h0])
        (loop_static hb (flat_static _ hf) fields mode) hrest'
      have h1 := loop_length hb hf n (Nat.le_refl n)
      have h2 := congrArg List.length (emit_static' hrest hs)
      simp only [slotsW, List.length_append, List.length_map] at h2
      rw [slotsOf_length rest sfx []] at h2
      rw [h0] at h1
      have e : n = (fields.length - (slotsW pre).length) / body.len := by
        rw [hlen, ← h, h2, h1]
        simp only [slotsW, List.length_map]
        have : pre.length + n * body.len + (slotsOf rest []).length - pre.length
            = (slotsOf rest []).length + n * body.len := by omega
        rw [this, Nat.add_mul_div_right _ _ (by omega), Nat.div_eq_of_lt hl]
        omega
      rw [e, ← keysOf_length]
      exact .indet (by rw [keysOf_length]; omega)

end Props
