import Verif.Lemmas.Float
import Verif.Spec.Speed
import Verif.Model.Helpers
/-!
# knots2spd and the definition of the units (C46)
-/
namespace Props
open Py Nmea Spec

theorem tiny_le {q : ℚ} (h : 1 / 4 ≤ q) : (2 : ℚ) ^ (-1022 : ℤ) ≤ q := by
  refine le_trans ?_ h
  rw [show (1 / 4 : ℚ) = (2 : ℚ) ^ (-2 : ℤ) by norm_num]
  exact zpow_le_zpow_right₀ (by norm_num) (by norm_num)

theorem knots_factor {u : Str} {c : ℚ} (h : KnotIn u c) :
    ∃ f, lookup u KNOTSCONV = some f ∧ ∃ g, PyFloat.ofRat f = .fin false g ∧ 0 < c ∧ 51 / 100 ≤ c ∧ c ≤ 2 ∧
      |g - c| ≤ c * (9 / 10000000) := by
  cases h
  · refine ⟨_, rfl, roundMag (5144447324 / 10000000000), ?_, ?_⟩
    · exact PyFloat.ofRat_nonneg (by norm_num) (by norm_num)
    · have := roundMag_rel_err (q := 5144447324 / 10000000000) (tiny_le (by norm_num))
      rw [abs_le] at this ⊢
      norm_num at this ⊢
      constructor <;> linarith
  · refine ⟨_, rfl, roundMag (168781084 / 100000000), ?_, ?_⟩
    · exact PyFloat.ofRat_nonneg (by norm_num) (by norm_num)
    · have := roundMag_rel_err (q := 168781084 / 100000000) (tiny_le (by norm_num))
      rw [abs_le] at this ⊢
      norm_num at this ⊢
      constructor <;> linarith
  · refine ⟨_, rfl, roundMag (115078 / 100000), ?_, ?_⟩
    · exact PyFloat.ofRat_nonneg (by norm_num) (by norm_num)
    · have := roundMag_rel_err (q := 115078 / 100000) (tiny_le (by norm_num))
      rw [abs_le] at this ⊢
      norm_num at this ⊢
      constructor <;> linarith
  · refine ⟨_, rfl, roundMag (1852001 / 1000000), ?_, ?_⟩
    · exact PyFloat.ofRat_nonneg (by norm_num) (by norm_num)
    · have := roundMag_rel_err (q := 1852001 / 1000000) (tiny_le (by norm_num))
      rw [abs_le] at this ⊢
      norm_num at this ⊢
      constructor <;> linarith

/-- The converted speed is the speed in knots times the exact value of a knot in the unit, up to one part
in a million; the sign is kept. This holds for every float from `2⁻¹⁰²⁰` to `2¹⁰²⁰` in magnitude. -/
theorem C46_accuracy (s : Bool) (m : ℚ) (unit : Str) (c : ℚ) (hu : KnotIn (upper unit) c)
    (h1 : (2 : ℚ) ^ (-1020 : ℤ) ≤ m) (h2 : m ≤ (2 : ℚ) ^ (1020 : ℤ)) :
    ∃ y, knots2spd (.float (.fin s m)) unit = .ok (.fin s y) ∧ |y - m * c| ≤ m * c / 1000000 := by
  obtain ⟨f, hf, g, hg, hc, hc1, hc2, herr⟩ := knots_factor hu
  have hm : 0 < m := lt_of_lt_of_le (by positivity) h1
  rw [abs_le] at herr
  have hg1 : c * (1 - 9 / 10000000) ≤ g := by linarith [herr.1]
  have hg2 : g ≤ c * (1 + 9 / 10000000) := by linarith [herr.2]
  have hg0 : 0 < g := by nlinarith
  have hg3 : g ≤ 3 := by nlinarith
  have e1 : (2 : ℚ) ^ (-1020 : ℤ) = (2 : ℚ) ^ (-1022 : ℤ) * 4 := by
    rw [show (-1020 : ℤ) = -1022 + 2 by norm_num, zpow_add₀ (by norm_num)]; norm_num
  have e2 : (2 : ℚ) ^ (1024 : ℤ) = (2 : ℚ) ^ (1020 : ℤ) * 16 := by
    rw [show (1024 : ℤ) = 1020 + 4 by norm_num, zpow_add₀ (by norm_num)]; norm_num
  have hp : (0 : ℚ) < (2 : ℚ) ^ (-1022 : ℤ) := by positivity
  have hp2 : (0 : ℚ) < (2 : ℚ) ^ (1020 : ℤ) := by positivity
  have hmin : (2 : ℚ) ^ (-1022 : ℤ) ≤ m * g := by
    have : (1 : ℚ) / 4 ≤ g := by nlinarith
    nlinarith
  have hr := roundMag_rel_err hmin
  have h53 : (2 : ℚ) ^ (-53 : ℤ) ≤ 1 / 1000000000 := by norm_num
  have hmg : 0 < m * g := by positivity
  have hr' : |roundMag (m * g) - m * g| ≤ m * g * (1 / 1000000000) :=
    hr.trans (by gcongr)
  rw [abs_le] at hr'
  have hlt : roundMag (m * g) < f64Limit := by
    unfold f64Limit
    rw [pow2_eq, e2]
    have : m * g ≤ (2 : ℚ) ^ (1020 : ℤ) * 3 := by gcongr
    have h3 := hr'.2
    clear hr hr' h1 h2 e1 e2 hmin hp h53
    generalize (2 : ℚ) ^ (1020 : ℤ) = X at *
    linarith
  refine ⟨roundMag (m * g), ?_, ?_⟩
  · unfold knots2spd
    rw [hf]
    simp only [PyVal.num?, hg, PyFloat.mul]
    rw [PyFloat.ofMag_fin hlt]
    cases s <;> rfl
  · rw [abs_le]
    have hmc : 0 < m * c := by positivity
    have a1 : m * (c * (1 - 9 / 10000000)) ≤ m * g := by gcongr
    have a2 : m * g ≤ m * (c * (1 + 9 / 10000000)) := by gcongr
    constructor <;> nlinarith [hr'.1, hr'.2]

example : KnotIn (upper py!"kmph") (1852 / 1000) ∧ (2 : ℚ) ^ (-1020 : ℤ) ≤ 10 ∧ (10 : ℚ) ≤ (2 : ℚ) ^ (1020 : ℤ) :=
  ⟨(by decide +kernel : upper py!"kmph" = py!"KMPH") ▸ .kmph, (zpow_le_one_of_nonpos₀ (by norm_num) (by norm_num)).trans (by norm_num),
    le_trans (by norm_num) (zpow_le_zpow_right₀ (a := (2 : ℚ)) (m := 4) (by norm_num) (by norm_num))⟩

end Props
