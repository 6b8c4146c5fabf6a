import Verif.Lemmas.Degrees
import Verif.Spec.Degrees
/-!
# Degree/minute/second texts
-/
set_option linter.unusedSimpArgs false
namespace Nmea
open Py

/-! ## Recognition -/

theorem isDmsChar_iff (c : Nat) : isDmsChar c = true ↔ IsNumberChar c := by
  unfold isDmsChar IsNumberChar; simp

theorem isDmsChar_false (c : Nat) : isDmsChar c = false ↔ ¬ IsNumberChar c := by
  rw [← isDmsChar_iff]; simp

theorem takeWhile_app (p : Nat → Bool) (a : Str) (d : Nat) (r : Str) (h : ∀ c ∈ a, p c = true)
    (hd : p d = false) : (a ++ d :: r).takeWhile p = a ∧ (a ++ d :: r).dropWhile p = d :: r := by
  induction a with
  | nil => simp [hd]
  | cons c cs ih =>
    have hc := h c (by simp)
    obtain ⟨x, y⟩ := ih (fun z hz => h z (by simp [hz]))
    simp [List.takeWhile_cons, List.dropWhile_cons, hc, x, y]

theorem dmsUnit_unit (num : Str) (d : Nat) (r : Str) (h : IsUnit num d) :
    dmsUnit (num ++ d :: r) = some r := by
  obtain ⟨hne, hn, hd⟩ := h
  obtain ⟨a, b⟩ := takeWhile_app isDmsChar num d r (fun c hc => (isDmsChar_iff c).mpr (hn c hc))
    ((isDmsChar_false d).mpr hd)
  unfold dmsUnit
  rw [a, b]
  simp [hne]

theorem dmsUnit_some {s r : Str} (h : dmsUnit s = some r) :
    ∃ num d, s = num ++ d :: r ∧ IsUnit num d := by
  unfold dmsUnit at h
  split at h
  · cases h
  · next hne =>
    split at h
    · cases h
    · next d r' hd =>
      simp only [Option.some.injEq] at h
      subst h
      refine ⟨s.takeWhile isDmsChar, d, ?_, ?_, ?_, ?_⟩
      · rw [← hd, List.takeWhile_append_dropWhile]
      · intro h0; rw [h0] at hne; simp at hne
      · intro c hc
        exact (isDmsChar_iff c).mp (List.mem_takeWhile_imp hc)
      · rw [← isDmsChar_false]
        have := List.head?_dropWhile_not isDmsChar s
        rw [hd] at this
        simpa using this

theorem dmsTail_iff (s : Str) : dmsTail s = true ↔
    ∃ hemi ∈ [[], py!"N", py!"S", py!"E", py!"W"], ∃ lf ∈ [[], [10]], s = hemi ++ lf := by
  constructor
  · intro h
    unfold dmsTail at h
    cases s with
    | nil => exact ⟨[], by simp, [], by simp, rfl⟩
    | cons c r =>
      simp only at h
      split at h
      · next hc =>
        simp only [Bool.or_eq_true, decide_eq_true_eq] at h
        refine ⟨[c], ?_, r, ?_, rfl⟩
        · rcases hc with rfl | rfl | rfl | rfl <;> decide
        · rcases h with rfl | rfl <;> decide
      · simp only [Bool.or_eq_true, decide_eq_true_eq] at h
        rcases h with h | h
        · cases h
        · exact ⟨[], by simp, [10], by simp, h⟩
  · rintro ⟨hemi, hh, lf, hl, rfl⟩
    simp only [List.mem_cons, List.not_mem_nil, or_false] at hh hl
    rcases hh with rfl | rfl | rfl | rfl | rfl <;> rcases hl with rfl | rfl <;> decide

theorem dmsMatch_iff (s : Str) : dmsMatch s = true ↔ ∃ us, IsDms s us := by
  constructor
  · intro h
    unfold dmsMatch at h
    cases h1 : dmsUnit s with
    | none => rw [h1] at h; cases h
    | some r1 =>
      rw [h1] at h
      obtain ⟨n1, d1, rfl, u1⟩ := dmsUnit_some h1
      simp only [Bool.or_eq_true] at h
      rcases h with h | h
      · obtain ⟨hemi, hh, lf, hl, rfl⟩ := (dmsTail_iff _).mp h
        exact ⟨[(n1, d1)], by simp, by simp, by simpa using u1, hemi, hh, lf, hl, by simp [unitsText]⟩
      · cases h2 : dmsUnit r1 with
        | none => rw [h2] at h; cases h
        | some r2 =>
          rw [h2] at h
          obtain ⟨n2, d2, rfl, u2⟩ := dmsUnit_some h2
          simp only [Bool.or_eq_true] at h
          rcases h with h | h
          · obtain ⟨hemi, hh, lf, hl, rfl⟩ := (dmsTail_iff _).mp h
            exact ⟨[(n1, d1), (n2, d2)], by simp, by simp, by simp [u1, u2], hemi, hh, lf, hl,
              by simp [unitsText]⟩
          · cases h3 : dmsUnit r2 with
            | none => rw [h3] at h; cases h
            | some r3 =>
              rw [h3] at h
              obtain ⟨n3, d3, rfl, u3⟩ := dmsUnit_some h3
              obtain ⟨hemi, hh, lf, hl, rfl⟩ := (dmsTail_iff _).mp h
              exact ⟨[(n1, d1), (n2, d2), (n3, d3)], by simp, by simp, by simp [u1, u2, u3], hemi, hh, lf, hl,
                by simp [unitsText]⟩
  · rintro ⟨us, hl1, hl2, hu, hemi, hh, lf, hl, rfl⟩
    have ht := (dmsTail_iff (hemi ++ lf)).mpr ⟨hemi, hh, lf, hl, rfl⟩
    match us, hl1, hl2, hu with
    | [u1], _, _, hu =>
      have e : unitsText [u1] ++ hemi ++ lf = u1.1 ++ u1.2 :: (hemi ++ lf) := by simp [unitsText]
      unfold dmsMatch
      rw [e, dmsUnit_unit _ _ _ (hu u1 (by simp))]
      simp [ht]
    | [u1, u2], _, _, hu =>
      have e : unitsText [u1, u2] ++ hemi ++ lf = u1.1 ++ u1.2 :: (u2.1 ++ u2.2 :: (hemi ++ lf)) := by
        simp [unitsText]
      unfold dmsMatch
      rw [e, dmsUnit_unit _ _ _ (hu u1 (by simp))]
      simp only
      rw [dmsUnit_unit _ _ _ (hu u2 (by simp))]
      simp [ht]
    | [u1, u2, u3], _, _, hu =>
      have e : unitsText [u1, u2, u3] ++ hemi ++ lf =
          u1.1 ++ u1.2 :: (u2.1 ++ u2.2 :: (u3.1 ++ u3.2 :: (hemi ++ lf))) := by
        simp [unitsText]
      unfold dmsMatch
      rw [e, dmsUnit_unit _ _ _ (hu u1 (by simp))]
      simp only
      rw [dmsUnit_unit _ _ _ (hu u2 (by simp))]
      simp only
      rw [dmsUnit_unit _ _ _ (hu u3 (by simp))]
      simp [ht]

/-! ## Splitting -/

theorem dmsSplit_ne_nil (n : Nat) (s : Str) : dmsSplit n s ≠ [] := by
  cases n with
  | zero => simp [dmsSplit]
  | succ n =>
    cases s with
    | nil => simp [dmsSplit]
    | cons c cs =>
      unfold dmsSplit
      split
      · split <;> simp
      · simp

theorem dmsSplit_unit (n : Nat) (num : Str) (d : Nat) (r : Str) (h : ∀ c ∈ num, isDmsChar c = true)
    (hd : isDmsChar d = false) : dmsSplit (n + 1) (num ++ d :: r) = num :: dmsSplit n r := by
  induction num with
  | nil => simp [dmsSplit, hd]
  | cons c cs ih =>
    rw [List.cons_append, dmsSplit, if_pos (h c (by simp)), ih (fun x hx => h x (by simp [hx]))]

theorem dmsSplit_tail (n : Nat) (hemi lf : Str) (hh : hemi ∈ [[], py!"N", py!"S", py!"E", py!"W"])
    (hl : lf ∈ [[], [10]]) : ∃ j, j ≤ 2 ∧ (dmsSplit n (hemi ++ lf)).dropLast = List.replicate j [] := by
  have c1 : isDmsChar 78 = false := by decide
  have c2 : isDmsChar 83 = false := by decide
  have c3 : isDmsChar 69 = false := by decide
  have c4 : isDmsChar 87 = false := by decide
  have c5 : isDmsChar 10 = false := by decide
  simp only [List.mem_cons, List.not_mem_nil, or_false] at hh hl
  rcases n with _ | _ | n
  · exact ⟨0, by omega, by simp [dmsSplit]⟩
  · rcases hh with rfl | rfl | rfl | rfl | rfl <;> rcases hl with rfl | rfl
    · exact ⟨0, by omega, by simp [dmsSplit]⟩
    all_goals exact ⟨1, by omega, by simp [dmsSplit, c1, c2, c3, c4, c5]⟩
  · rcases hh with rfl | rfl | rfl | rfl | rfl <;> rcases hl with rfl | rfl
    · exact ⟨0, by omega, by simp [dmsSplit]⟩
    · exact ⟨1, by omega, by cases n <;> simp [dmsSplit, c1, c2, c3, c4, c5]⟩
    · exact ⟨1, by omega, by cases n <;> simp [dmsSplit, c1, c2, c3, c4, c5]⟩
    · exact ⟨2, by omega, by cases n <;> simp [dmsSplit, c1, c2, c3, c4, c5]; try rfl⟩
    · exact ⟨1, by omega, by cases n <;> simp [dmsSplit, c1, c2, c3, c4, c5]⟩
    · exact ⟨2, by omega, by cases n <;> simp [dmsSplit, c1, c2, c3, c4, c5]; try rfl⟩
    · exact ⟨1, by omega, by cases n <;> simp [dmsSplit, c1, c2, c3, c4, c5]⟩
    · exact ⟨2, by omega, by cases n <;> simp [dmsSplit, c1, c2, c3, c4, c5]; try rfl⟩
    · exact ⟨1, by omega, by cases n <;> simp [dmsSplit, c1, c2, c3, c4, c5]⟩
    · exact ⟨2, by omega, by cases n <;> simp [dmsSplit, c1, c2, c3, c4, c5]; try rfl⟩

theorem dmsSplit_units (us : List (Str × Nat)) (hu : ∀ u ∈ us, IsUnit u.1 u.2) (n : Nat)
    (tl : Str) : dmsSplit (us.length + n) (unitsText us ++ tl) = us.map Prod.fst ++ dmsSplit n tl := by
  induction us with
  | nil => simp [unitsText]
  | cons u us ih =>
    have h := hu u (by simp)
    have e : unitsText (u :: us) ++ tl = u.1 ++ u.2 :: (unitsText us ++ tl) := by simp [unitsText]
    rw [e, List.length_cons, show us.length + 1 + n = (us.length + n) + 1 by omega,
      dmsSplit_unit _ _ _ _ (fun c hc => (isDmsChar_iff c).mpr (h.2.1 c hc)) ((isDmsChar_false _).mpr h.2.2),
      ih (fun x hx => hu x (by simp [hx]))]
    simp

theorem dmsSplit_dms {s : Str} {us : List (Str × Nat)} (h : IsDms s us) :
    ∃ j, (dmsSplit 3 s).dropLast = us.map Prod.fst ++ List.replicate j [] := by
  obtain ⟨h1, h2, hu, hemi, hh, lf, hl, rfl⟩ := h
  obtain ⟨j, -, hj⟩ := dmsSplit_tail (3 - us.length) hemi lf hh hl
  refine ⟨j, ?_⟩
  have := dmsSplit_units us hu (3 - us.length) (hemi ++ lf)
  rw [show us.length + (3 - us.length) = 3 by omega, ← List.append_assoc] at this
  rw [this, List.dropLast_append_of_ne_nil (dmsSplit_ne_nil _ _), hj]

/-! ## Summation -/

theorem dmsSum_zeros (x j : Nat) (a : ℚ) (ha : IsF64 a) (hb : a ≤ 2 ^ (64 : ℕ)) :
    dmsSum x (.fin false a) (List.replicate j []) = .ok (.fin false a) := by
  induction j generalizing x with
  | zero => rfl
  | succ j ih =>
    rw [List.replicate_succ, dmsSum]
    simp only [if_true, bind, Except.bind, pure, Except.pure]
    rw [add_pos_fin ha.nonneg (le_refl _) (by linarith), add_zero, roundMag_f64 ha]
    exact ih _

theorem dmsSum_step (x : Nat) (a f : ℚ) (d : Str) (ds : List Str) (hd : d ≠ [])
    (hf : floatOfStr d = .ok (.fin false f)) (ha0 : 0 ≤ a) (hf0 : 0 ≤ f) (ha : a ≤ 5000) (hf1 : f ≤ 5000) :
    dmsSum x (.fin false a) (d :: ds) =
      dmsSum (x + 1) (.fin false (roundMag (a + roundMag (f / 60 ^ x)))) ds := by
  have hp : (1 : ℚ) ≤ 60 ^ x := one_le_pow₀ (by norm_num)
  have hq1 : f / 60 ^ x ≤ 5000 := by
    rw [div_le_iff₀ (by positivity)]
    nlinarith
  have hr : roundMag (f / 60 ^ x) ≤ 5000 := by
    have := roundMag_le (q := f / 60 ^ x) (y := ((5000 : ℕ) : ℚ)) (by push_cast; exact hq1) (isF64_nat (by norm_num))
    exact_mod_cast this
  have ediv : PyFloat.div (.fin false f) (.fin false ((60 ^ x : Nat) : ℚ)) = .ok (.fin false (roundMag (f / 60 ^ x))) := by
    simp only [PyFloat.div]
    rw [if_neg (by positivity)]
    rw [show ((60 ^ x : ℕ) : ℚ) = 60 ^ x by push_cast; rfl]
    simp only [bne_self_eq_false]
    rw [PyFloat.ofMag_small (by norm_num; linarith)]
  rw [dmsSum, if_neg hd]
  simp only [bind, Except.bind, hf, ediv]
  rw [add_pos_fin ha0 (roundMag_nonneg _) (by norm_num; linarith)]

/-- The sum of one to three numbers, and its distance from the exact value. -/
theorem dmsSum_value (ds : List Str) (fs : List ℚ) (j : Nat) (hlen : ds.length = fs.length)
    (h1 : 1 ≤ fs.length) (h3 : fs.length ≤ 3)
    (h : ∀ i (hi : i < ds.length), ds[i] ≠ [] ∧ floatOfStr ds[i] = .ok (.fin false (fs[i]'(by omega))) ∧
      IsF64 (fs[i]'(by omega)) ∧ fs[i]'(by omega) ≤ 1000) :
    ∃ r, dmsSum 0 (.fin false 0) (ds ++ List.replicate j []) = .ok (.fin false r) ∧ 0 ≤ r ∧ r ≤ 1100 ∧
      |r - (fs[0]?.getD 0 + fs[1]?.getD 0 / 60 + fs[2]?.getD 0 / 3600)| ≤ 1 / 1000000000000 := by
  have small : ∀ q : ℚ, 0 ≤ q → q ≤ 1100 → |roundMag q - q| ≤ 1 / 8796093022208 ∧ 0 ≤ roundMag q ∧
      roundMag q ≤ 1100 := by
    intro q a b
    have := roundMag_abs_err (q := q) (e := 11) a (by norm_num; linarith) (by norm_num)
    have n3 : (2 : ℚ) ^ ((11 : ℤ) - 54) = 1 / 8796093022208 := by norm_num
    rw [n3] at this
    refine ⟨this, roundMag_nonneg q, ?_⟩
    have := roundMag_le (q := q) (y := ((1100 : ℕ) : ℚ)) (by push_cast; exact b) (isF64_nat (by norm_num))
    exact_mod_cast this
  match ds, fs, hlen, h1, h3, h with
  | [], fs, hl, h1, _, _ => simp only [List.length_nil] at hl; omega
  | _ :: _ :: _ :: _ :: _, fs, hl, _, h3, _ => simp only [List.length_cons] at hl; omega
  | [d0], [f0], _, _, _, h =>
    obtain ⟨n0, e0, i0, b0⟩ := h 0 (by simp)
    simp only [List.getElem_cons_zero] at n0 e0 i0 b0
    have p0 := i0.nonneg
    rw [List.singleton_append, dmsSum_step 0 0 f0 d0 _ n0 e0 (le_refl _) p0 (by norm_num) (by linarith)]
    have : roundMag (0 + roundMag (f0 / 60 ^ 0)) = f0 := by
      rw [pow_zero, div_one, zero_add, roundMag_idem, roundMag_f64 i0]
    rw [this, dmsSum_zeros _ _ _ i0 (by norm_num; linarith)]
    exact ⟨f0, rfl, p0, by linarith, by simp⟩
  | [d0, d1], [f0, f1], _, _, _, h =>
    obtain ⟨n0, e0, i0, b0⟩ := h 0 (by simp)
    obtain ⟨n1, e1, i1, b1⟩ := h 1 (by simp)
    simp only [List.getElem_cons_zero, List.getElem_cons_succ] at n0 e0 i0 b0 n1 e1 i1 b1
    have p0 := i0.nonneg
    have p1 := i1.nonneg
    rw [List.cons_append, List.singleton_append,
      dmsSum_step 0 0 f0 d0 _ n0 e0 (le_refl _) p0 (by norm_num) (by linarith)]
    have : roundMag (0 + roundMag (f0 / 60 ^ 0)) = f0 := by
      rw [pow_zero, div_one, zero_add, roundMag_idem, roundMag_f64 i0]
    rw [this, dmsSum_step _ f0 f1 d1 _ n1 e1 p0 p1 (by linarith) (by linarith)]
    simp only [zero_add, pow_one]
    obtain ⟨a1, a2, a3⟩ := small (f1 / 60) (by positivity) (by linarith)
    rw [abs_le] at a1
    obtain ⟨c1, c2, c3⟩ := small (f0 + roundMag (f1 / 60)) (by linarith) (by linarith [a1.2])
    rw [abs_le] at c1
    rw [dmsSum_zeros _ _ _ (isF64_roundMag _) (by norm_num; linarith)]
    refine ⟨_, rfl, c2, c3, ?_⟩
    simp only [List.getElem?_cons_zero, List.getElem?_cons_succ, List.getElem?_nil, Option.getD_some,
      Option.getD_none]
    rw [abs_le]
    constructor <;> linarith [a1.1, a1.2, c1.1, c1.2]
  | [d0, d1, d2], [f0, f1, f2], _, _, _, h =>
    obtain ⟨n0, e0, i0, b0⟩ := h 0 (by simp)
    obtain ⟨n1, e1, i1, b1⟩ := h 1 (by simp)
    obtain ⟨n2, e2, i2, b2⟩ := h 2 (by simp)
    simp only [List.getElem_cons_zero, List.getElem_cons_succ] at n0 e0 i0 b0 n1 e1 i1 b1 n2 e2 i2 b2
    have p0 := i0.nonneg
    have p1 := i1.nonneg
    have p2 := i2.nonneg
    rw [List.cons_append, List.cons_append, List.singleton_append,
      dmsSum_step 0 0 f0 d0 _ n0 e0 (le_refl _) p0 (by norm_num) (by linarith)]
    have : roundMag (0 + roundMag (f0 / 60 ^ 0)) = f0 := by
      rw [pow_zero, div_one, zero_add, roundMag_idem, roundMag_f64 i0]
    rw [this, dmsSum_step _ f0 f1 d1 _ n1 e1 p0 p1 (by linarith) (by linarith)]
    simp only [zero_add, pow_one]
    obtain ⟨a1, a2, a3⟩ := small (f1 / 60) (by positivity) (by linarith)
    rw [abs_le] at a1
    obtain ⟨c1, c2, c3⟩ := small (f0 + roundMag (f1 / 60)) (by linarith) (by linarith [a1.2])
    rw [abs_le] at c1
    generalize roundMag (f0 + roundMag (f1 / 60)) = s1 at *
    rw [dmsSum_step _ s1 f2 d2 _ n2 e2 c2 p2 (by linarith) (by linarith)]
    rw [show (60 : ℚ) ^ (1 + 1) = 3600 by norm_num]
    obtain ⟨g1, g2, g3⟩ := small (f2 / 3600) (by positivity) (by linarith)
    rw [abs_le] at g1
    obtain ⟨k1, k2, k3⟩ := small (s1 + roundMag (f2 / 3600)) (by linarith) (by linarith [a1.2, c1.2, g1.2])
    rw [abs_le] at k1
    rw [dmsSum_zeros _ _ _ (isF64_roundMag _) (by norm_num; linarith)]
    refine ⟨_, rfl, k2, k3, ?_⟩
    simp only [List.getElem?_cons_zero, List.getElem?_cons_succ, List.getElem?_nil, Option.getD_some,
      Option.getD_none]
    rw [abs_le]
    constructor <;> linarith [a1.1, a1.2, c1.1, c1.2, g1.1, g1.2, k1.1, k1.2]


theorem roundTo_near (neg : Bool) (m : ℚ) (h0 : 0 ≤ m) (h1 : m ≤ 1100) (n : ℕ) (hn : n ≤ 20) :
    ∃ r, PyFloat.roundTo (.fin neg m) n = .ok (.fin neg r) ∧ 0 ≤ r ∧ IsF64 r ∧
      r = roundMag ((roundHalfEven (m * 10 ^ n) : ℚ) / 10 ^ n) ∧
      |r - m| ≤ 1 / 2 / 10 ^ n + 1 / 8796093022208 := by
  unfold PyFloat.roundTo
  simp only
  rw [if_neg (by omega), if_neg (by omega)]
  have hp : (0 : ℚ) < 10 ^ n := by positivity
  have hp1 : (1 : ℚ) ≤ 10 ^ n := one_le_pow₀ (by norm_num)
  have p1 : pow10 (n : ℤ) = 10 ^ n := by rw [pow10_eq, zpow_natCast]
  have p2 : pow10 (-(n : ℤ)) = 1 / 10 ^ n := by rw [pow10_eq, zpow_neg, zpow_natCast, one_div]
  rw [p1, p2]
  have hr := rhe_err (m * 10 ^ n)
  have hr0 : 0 ≤ roundHalfEven (m * 10 ^ n) := rhe_ge (by push_cast; positivity)
  have hr0q : (0 : ℚ) ≤ (roundHalfEven (m * 10 ^ n) : ℚ) := by exact_mod_cast hr0
  generalize (roundHalfEven (m * 10 ^ n) : ℚ) = R at *
  have e : |R / 10 ^ n - m| ≤ 1 / 2 / 10 ^ n := by
    have : R / 10 ^ n - m = (R - m * 10 ^ n) / 10 ^ n := by field_simp
    rw [this, abs_div, abs_of_pos hp]
    gcongr
  have hle : 1 / 2 / (10 : ℚ) ^ n ≤ 1 / 2 := by
    rw [div_le_iff₀ hp]; linarith
  rw [abs_le] at e
  have hR0 : 0 ≤ R / 10 ^ n := by positivity
  rw [show R * (1 / 10 ^ n) = R / 10 ^ n by ring]
  rw [PyFloat.ofMag_small (by norm_num; linarith [e.2])]
  have := roundMag_abs_err (q := R / 10 ^ n) (e := 11) hR0 (by norm_num; linarith [e.2]) (by norm_num)
  have n3 : (2 : ℚ) ^ ((11 : ℤ) - 54) = 1 / 8796093022208 := by norm_num
  rw [n3, abs_le] at this
  refine ⟨_, rfl, roundMag_nonneg _, isF64_roundMag _, rfl, ?_⟩
  rw [abs_le]
  constructor <;> linarith [this.1, this.2, e.1, e.2]

theorem dms2deg_value (s : Str) (us : List (Str × Nat)) (hs : IsDms (removeChar 32 s) us) (fs : List ℚ)
    (hlen : us.length = fs.length)
    (h : ∀ i (hi : i < us.length), floatOfStr (us[i]).1 = .ok (.fin false (fs[i]'(by omega))) ∧
      IsF64 (fs[i]'(by omega)) ∧ fs[i]'(by omega) ≤ 1000) :
    ∃ r, dms2deg s 7 = .ok (.fin (decide (83 ∈ s ∨ 87 ∈ s)) r) ∧ 0 ≤ r ∧ IsF64 r ∧
      |r - (fs[0]?.getD 0 + fs[1]?.getD 0 / 60 + fs[2]?.getD 0 / 3600)| ≤ 55 / 1000000000 := by
  obtain ⟨j, hj⟩ := dmsSplit_dms hs
  have hm := (dmsMatch_iff _).mpr ⟨us, hs⟩
  obtain ⟨h1, h3, hu, -⟩ := hs
  obtain ⟨r, er, hr0, hr1, hre⟩ := dmsSum_value (us.map Prod.fst) fs j (by simpa using hlen) (by omega) (by omega)
    (by
      intro i hi
      rw [List.length_map] at hi
      obtain ⟨a, b, c⟩ := h i hi
      refine ⟨?_, ?_, b, c⟩
      · rw [List.getElem_map]; exact (hu _ (List.getElem_mem hi)).1
      · rw [List.getElem_map]; exact a)
  have hsgn : ((removeChar 32 s).contains 83 || (removeChar 32 s).contains 87) = decide (83 ∈ s ∨ 87 ∈ s) := by
    have m : ∀ c, c ≠ 32 → (c ∈ removeChar 32 s ↔ c ∈ s) := by
      intro c hc; simp [removeChar, List.mem_filter, hc]
    rw [Bool.eq_iff_iff]
    simp [m 83 (by omega), m 87 (by omega)]
  obtain ⟨r2, er2, hr20, hr2f, -, hr2e⟩ := roundTo_near (decide (83 ∈ s ∨ 87 ∈ s)) (roundMag r)
    (roundMag_nonneg r) (by
      have := roundMag_le (q := r) (y := ((1100 : ℕ) : ℚ)) (by push_cast; exact hr1) (isF64_nat (by norm_num))
      exact_mod_cast this) 7 (by omega)
  have hrm := roundMag_abs_err (q := r) (e := 11) hr0 (by norm_num; linarith) (by norm_num)
  have n3 : (2 : ℚ) ^ ((11 : ℤ) - 54) = 1 / 8796093022208 := by norm_num
  rw [n3, abs_le] at hrm
  refine ⟨r2, ?_, hr20, hr2f, ?_⟩
  · unfold dms2deg
    simp only [hm, Bool.not_true, Bool.false_eq_true, if_false, hj, hsgn]
    rw [er]
    simp only [bind, Except.bind, PyFloat.mul, mul_one]
    rw [PyFloat.ofMag_small (by norm_num; linarith)]
    rw [← er2]
    cases decide (83 ∈ s ∨ 87 ∈ s) <;> rfl
  · rw [abs_le] at hr2e hre
    norm_num at hr2e
    rw [abs_le]
    constructor <;> linarith [hr2e.1, hr2e.2, hre.1, hre.2, hrm.1, hrm.2]

end Nmea
