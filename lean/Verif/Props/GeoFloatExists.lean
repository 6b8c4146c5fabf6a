import Verif.Props.GeoFloatMore
/-!
# The assumption about libm can be met (C70)

`Accurate` is satisfiable: rounding the exact functions to close enough rational numbers gives a library of which it holds.
-/
namespace Nmea.GeoF
open Py PyFloat Nmea.Geo Classical

/-- The float with that value. -/
def ofQ (q : ℚ) : PyFloat := .fin (decide (q < 0)) |q|

theorem val_ofQ (q : ℚ) : val (ofQ q) = q := by
  unfold ofQ
  rw [val_fin]
  by_cases h : q < 0
  · simp [h, abs_of_neg h]
  · simp [h, abs_of_nonneg (not_lt.1 h)]

theorem finite_ofQ (q : ℚ) : Finite (ofQ q) := abs_nonneg q

theorem near_ofQ {q : ℚ} {r e : ℝ} (h : |(q : ℝ) - r| ≤ e) : Near (ofQ q) r e := ⟨finite_ofQ q, by rw [val_ofQ]; exact h⟩

theorem exists_close (r : ℝ) {e : ℝ} (he : 0 < e) : ∃ q : ℚ, |(q : ℝ) - r| ≤ e := by
  obtain ⟨q, h⟩ := exists_rat_near r he
  exact ⟨q, by rw [abs_sub_comm]; exact h.le⟩

/-- A rational within `e`, within [-1, 1] if the number is, and equal to it if it is rational. -/
theorem exists_unit (r : ℝ) {e : ℝ} (he : 0 < e) : ∃ q : ℚ, |(q : ℝ) - r| ≤ e ∧ (|r| ≤ 1 → |(q : ℝ)| ≤ 1) ∧
    (∀ p : ℚ, (p : ℝ) = r → q = p) := by
  by_cases hr : ∃ p : ℚ, (p : ℝ) = r
  · obtain ⟨p, rfl⟩ := hr
    exact ⟨p, by simpa using he.le, fun h => h, fun p' h => by exact_mod_cast h.symm⟩
  · obtain ⟨q, hq⟩ := exists_close r he
    by_cases h1 : |r| ≤ 1
    · obtain ⟨a, b⟩ := abs_le.1 h1
      obtain ⟨c, d⟩ := abs_le.1 hq
      rcases lt_or_ge 1 (q : ℝ) with h2 | h2
      · exact ⟨1, by push_cast; rw [abs_le]; constructor <;> linarith, fun _ => by norm_num, fun p hp => absurd ⟨p, hp⟩ hr⟩
      · rcases lt_or_ge (q : ℝ) (-1) with h3 | h3
        · exact ⟨-1, by push_cast; rw [abs_le]; constructor <;> linarith, fun _ => by norm_num, fun p hp => absurd ⟨p, hp⟩ hr⟩
        · exact ⟨q, hq, fun _ => abs_le.2 ⟨h3, h2⟩, fun p hp => absurd ⟨p, hp⟩ hr⟩
    · exact ⟨q, hq, fun h => absurd h h1, fun p hp => absurd ⟨p, hp⟩ hr⟩

/-- The rounding used by the library below. -/
noncomputable def rounded (r e : ℝ) : PyFloat := if he : 0 < e then ofQ (exists_unit r he).choose else ofQ 0

theorem rounded_near {r e : ℝ} (he : 0 < e) : Near (rounded r e) r e := by
  unfold rounded
  rw [dif_pos he]
  exact near_ofQ (exists_unit r he).choose_spec.1

theorem rounded_unit {r e : ℝ} (he : 0 < e) (h : |r| ≤ 1) : |val (rounded r e)| ≤ 1 := by
  unfold rounded
  rw [dif_pos he, val_ofQ]
  exact (exists_unit r he).choose_spec.2.1 h

theorem rounded_rat {e : ℝ} (he : 0 < e) (p : ℚ) : rounded p e = ofQ p := by
  unfold rounded
  rw [dif_pos he, (exists_unit (p : ℝ) he).choose_spec.2.2 p rfl]

/-- The exact functions, rounded. -/
noncomputable def roundedLib : Libm where
  sin x := rounded (Real.sin (val x)) (1 / 2 ^ 52)
  cos x := rounded (Real.cos (val x)) (1 / 2 ^ 52)
  asin x := if 1 < |val x| then .nan else rounded (Real.arcsin (val x)) (1 / 2 ^ 51)
  acos x := if 1 < |val x| then .nan else rounded (Real.arccos (val x)) (1 / 2 ^ 51)
  sqrt x := if val x < 0 then .nan else rounded (Real.sqrt (val x)) (Real.sqrt (val x) / 2 ^ 52)
  atan2 y x := rounded (Complex.arg ⟨val x, val y⟩) (1 / 2 ^ 51)
  square x := rounded (val x ^ 2) (val x ^ 2 / 2 ^ 52 + 1 / 10 ^ 70)

theorem roundedLib_accurate : Accurate roundedLib := by
  have h52 : (0 : ℝ) < 1 / 2 ^ 52 := by norm_num
  have h51 : (0 : ℝ) < 1 / 2 ^ 51 := by norm_num
  constructor
  · exact fun x _ _ => ⟨rounded_near h52, rounded_unit h52 (Real.abs_sin_le_one _)⟩
  · exact fun x _ _ => ⟨rounded_near h52, rounded_unit h52 (Real.abs_cos_le_one _)⟩
  · intro x _ hx
    show rounded (Real.cos (val x)) _ = _
    rw [hx, Real.cos_zero]
    have := rounded_rat h52 1
    push_cast at this
    rw [this]
    simp [ofQ]
  · intro x _ h
    show Near (if 1 < |val x| then _ else _) _ _
    rw [if_neg (not_lt.2 h)]
    exact rounded_near h51
  · intro x _ h
    show (if 1 < |val x| then _ else _) = _
    rw [if_pos h]
  · intro x _ h
    show Near (if 1 < |val x| then _ else _) _ _
    rw [if_neg (not_lt.2 h)]
    exact rounded_near h51
  · intro x _ h
    show (if 1 < |val x| then _ else _) = _
    rw [if_pos h]
  · show (if 1 < |val (.fin false 1)| then _ else rounded (Real.arccos (val (.fin false 1))) _) = _
    have hv : val (.fin false 1) = 1 := by rw [val_fin]; norm_num
    rw [hv, if_neg (by norm_num), Real.arccos_one]
    have := rounded_rat h51 0
    push_cast at this
    rw [this]
    simp [ofQ]
  · intro x _ h
    show Near (if val x < 0 then _ else _) _ _
    rw [if_neg (not_lt.2 h)]
    rcases h.eq_or_lt with h0 | h0
    · rw [← h0, Real.sqrt_zero, zero_div]
      unfold rounded
      rw [dif_neg (lt_irrefl _)]
      exact near_ofQ (by simp)
    · exact rounded_near (div_pos (Real.sqrt_pos.2 h0) (by norm_num))
  · intro x _ h
    show (if val x < 0 then _ else _) = _
    rw [if_pos h]
  · intro y x _ _
    refine ⟨Complex.arg ⟨val x, val y⟩, (Complex.neg_pi_lt_arg _).le, Complex.arg_le_pi _, rounded_near h51, ?_, ?_⟩
    · have q := Complex.norm_mul_cos_arg (⟨val x, val y⟩ : ℂ)
      rw [Complex.norm_def, Complex.normSq_mk] at q
      rw [pow_two, pow_two]
      exact q.symm
    · have q := Complex.norm_mul_sin_arg (⟨val x, val y⟩ : ℂ)
      rw [Complex.norm_def, Complex.normSq_mk] at q
      rw [pow_two, pow_two]
      exact q.symm
  · intro x _ _
    exact rounded_near (by positivity)

/-- C70. There is a library of the assumed accuracy. -/
theorem C70_accurate_exists : ∃ lib, Accurate lib := ⟨roundedLib, roundedLib_accurate⟩

/-! Examples: concrete coordinates meet the hypotheses of the theorems. -/

theorem onGlobe_lit (a b : ℚ) (s t : Bool) (ha : 0 ≤ a) (ha' : a ≤ 90) (hb : 0 ≤ b) (hb' : b ≤ 180) :
    OnGlobe (.fin s a) (.fin t b) := by
  refine ⟨ha, ?_, hb, ?_⟩
  · rw [abs_val_fin s ha]; exact_mod_cast ha'
  · rw [abs_val_fin t hb]; exact_mod_cast hb'

/-- Paris (48.5, 2.5) and Sydney (-33.75, 151.25). -/
example (lib : Libm) (hl : Accurate lib) :
    ∃ s, area lib (lit (97 / 2)) (lit (5 / 2)) (.fin true (135 / 4)) (lit (605 / 4)) (lit 6371) = .ok s :=
  let ⟨s, h, _⟩ := C70_area lib hl (lit (97 / 2)) (lit (5 / 2)) (.fin true (135 / 4)) (lit (605 / 4)) (lit 6371)
    (onGlobe_lit _ _ _ _ (by norm_num) (by norm_num) (by norm_num) (by norm_num))
    (onGlobe_lit _ _ _ _ (by norm_num) (by norm_num) (by norm_num) (by norm_num))
    (show (0 : ℚ) ≤ 6371 by norm_num) (by unfold lit; rw [val_fin]; norm_num) (by unfold lit; rw [val_fin]; norm_num)
  ⟨s, h⟩

/-- A quarter of the equator. -/
theorem separation_quarter : separation (lit 0) (lit 0) (lit 0) (lit 90) = Real.pi / 2 := by
  have h0 : val (lit 0) = 0 := by unfold lit; rw [val_fin]; norm_num
  have h90 : val (lit 90) = 90 := by unfold lit; rw [val_fin]; norm_num
  unfold separation
  rw [h0, h90, ← (cosSep_range 0 0 0 90).2.2]
  have h : cosSep 0 0 0 90 = 0 := by
    unfold cosSep toRad
    rw [show Real.pi * 90 / 180 - Real.pi * 0 / 180 = Real.pi / 2 by ring] <;> simp
  rw [h, Real.arccos_zero]

example (lib : Libm) (hl : Accurate lib) : ∃ d, haversine lib (lit 0) (lit 0) (lit 0) (lit 90) (lit 6371) = .ok d ∧
    Near d (6371 * (Real.pi / 2)) (1 / 10 ^ 5) := by
  have hr : val (lit 6371) = 6371 := by unfold lit; rw [val_fin]; norm_num
  have hp := Real.pi_gt_three
  rcases C70_haversine lib hl (lit 0) (lit 0) (lit 0) (lit 90) (lit 6371)
    (onGlobe_lit _ _ _ _ (by norm_num) (by norm_num) (by norm_num) (by norm_num))
    (onGlobe_lit _ _ _ _ (by norm_num) (by norm_num) (by norm_num) (by norm_num))
    (show (0 : ℚ) ≤ 6371 by norm_num) (by rw [hr]; norm_num) (by rw [hr]; norm_num) with ⟨_, h⟩ | ⟨d, h, _, h2⟩
  · exfalso
    rw [separation_quarter] at h
    rcases h with h | h <;> norm_num at h <;> linarith
  · rw [separation_quarter, hr] at h2
    refine ⟨d, h, (h2 (by norm_num; linarith) (by norm_num; linarith)).mono (by norm_num)⟩

example (lib : Libm) (hl : Accurate lib) : ∃ b, bearing lib (lit 0) (lit 0) (lit 0) (lit 90) = .ok b := by
  have hp := Real.pi_gt_three
  obtain ⟨b, h, -⟩ := C70_bearing lib hl (lit 0) (lit 0) (lit 0) (lit 90)
    (onGlobe_lit _ _ _ _ (by norm_num) (by norm_num) (by norm_num) (by norm_num))
    (onGlobe_lit _ _ _ _ (by norm_num) (by norm_num) (by norm_num) (by norm_num))
    (by rw [separation_quarter]; norm_num; linarith) (by rw [separation_quarter]; norm_num; linarith)
  exact ⟨b, h⟩

example (lib : Libm) (hl : Accurate lib) :
    ∃ x y z, llh2ecef lib (lit (97 / 2)) (lit (5 / 2)) (lit 35) smajAxis flattening = .ok (x, y, z) :=
  let ⟨x, y, z, h, _⟩ := C70_llh2ecef lib hl (lit (97 / 2)) (lit (5 / 2)) (lit 35)
    (onGlobe_lit _ _ _ _ (by norm_num) (by norm_num) (by norm_num) (by norm_num))
    (show (0 : ℚ) ≤ 35 by norm_num) (by unfold lit; rw [val_fin]; norm_num)
  ⟨x, y, z, h⟩

end Nmea.GeoF
