import Verif.Lemmas.Near
import Verif.Spec.Geo
import Mathlib.Analysis.Real.Pi.Bounds
/-!
# Errors of the float geodesy formulas
-/
namespace Nmea.GeoF
open Py PyFloat Nmea.Geo

theorem lit_near {q : ℚ} (h : 0 ≤ q) : Near (lit q) (q : ℝ) 0 := ⟨h, by simp [lit, val_fin]⟩

theorem pi_near : Near pi Real.pi (13 / 10 ^ 17) := by
  refine ⟨by norm_num [pi, Finite], ?_⟩
  have h1 := Real.pi_gt_d20
  have h2 := Real.pi_lt_d20
  simp only [pi, val_fin]
  push_cast
  rw [abs_le]
  constructor <;> norm_num at h1 h2 ⊢ <;> linarith

theorem abs_pi_le : |Real.pi| ≤ 315 / 100 := by
  rw [abs_of_pos Real.pi_pos]
  have := Real.pi_lt_d2
  norm_num at this ⊢; linarith

theorem rad_near {c : PyFloat} (hc : Finite c) {B : ℝ} (h1 : 1 ≤ B) (h2 : B ≤ 1000) (hB : |val c| ≤ B) :
    ∃ z, rad c = .ok z ∧ Near z (toRad (val c)) (B * (5 / 10 ^ 18)) := by
  have hp : |val c * Real.pi| ≤ B * (315 / 100) := by
    rw [abs_mul]; exact mul_le_mul hB abs_pi_le (abs_nonneg _) (by linarith)
  have hm := Near.mul (g := B * (49 / 10 ^ 17)) (Near.exact hc) pi_near hB abs_pi_le
    (by norm_num; linarith) (by norm_num; linarith)
  have h180 := lit_near (q := 180) (by norm_num)
  obtain ⟨z, hz, hn⟩ := Near.div (g := B * (5 / 10 ^ 18)) (Q := B * (315 / 100) / 180) (S := 180) hm h180
    (by
      rw [abs_div]
      push_cast
      rw [abs_of_pos (by norm_num : (0 : ℝ) < 180)]
      exact div_le_div_of_nonneg_right hp (by norm_num))
    (by push_cast; norm_num) (by norm_num) (by norm_num; linarith) (by norm_num; linarith)
  refine ⟨z, hz, ?_⟩
  have : toRad (val c) = val c * Real.pi / ((180 : ℚ) : ℝ) := by unfold toRad; push_cast; ring
  rw [this]; exact hn

theorem toRad_le {c B : ℝ} (h : |c| ≤ B) : |toRad c| ≤ B * (7 / 400) := by
  unfold toRad
  rw [abs_div, abs_mul, abs_of_pos (by norm_num : (0 : ℝ) < 180)]
  have := mul_le_mul abs_pi_le h (abs_nonneg _) (by norm_num)
  rw [div_le_iff₀ (by norm_num)]
  linarith

/-! ## Arc cosine -/

theorem sin_mid {t x : ℝ} (h0 : 0 ≤ t) (h1 : t ≤ x) (h2 : x ≤ Real.pi - t) : Real.sin t ≤ Real.sin x := by
  have ht : t ≤ Real.pi / 2 := by linarith
  by_cases hx : x ≤ Real.pi / 2
  · exact Real.sin_le_sin_of_le_of_le_pi_div_two (by linarith [Real.pi_pos]) hx h1
  · rw [← Real.sin_pi_sub x]
    exact Real.sin_le_sin_of_le_of_le_pi_div_two (by linarith [Real.pi_pos]) (by linarith) (by linarith)

theorem cos_gap {x y : ℝ} (h0 : 0 ≤ x) (h1 : x ≤ y) (h2 : y ≤ Real.pi) :
    2 * ((y - x) / Real.pi) ^ 2 ≤ Real.cos x - Real.cos y := by
  have e : Real.cos x - Real.cos y = 2 * Real.sin ((x + y) / 2) * Real.sin ((y - x) / 2) := by
    rw [Real.cos_sub_cos, show (x - y) / 2 = -((y - x) / 2) by ring, Real.sin_neg]; ring
  have ht : 2 / Real.pi * ((y - x) / 2) ≤ Real.sin ((y - x) / 2) := Real.mul_le_sin (by linarith) (by linarith)
  have hm := sin_mid (t := (y - x) / 2) (x := (x + y) / 2) (by linarith) (by linarith) (by linarith)
  have e2 : 2 / Real.pi * ((y - x) / 2) = (y - x) / Real.pi := by ring
  rw [e2] at ht
  have hp : 0 ≤ (y - x) / Real.pi := div_nonneg (by linarith) Real.pi_pos.le
  rw [e]
  nlinarith

/-- Anywhere, the arc cosine changes by at most the square root of the change of its argument. -/
theorem arccos_gap {a b d : ℝ} (ha : -1 ≤ a) (ha' : a ≤ 1) (hb : -1 ≤ b) (hb' : b ≤ 1) (hd : 0 ≤ d)
    (h : |a - b| ≤ 2 * (d / Real.pi) ^ 2) : |Real.arccos a - Real.arccos b| ≤ d := by
  wlog hab : b ≤ a generalizing a b with H
  · rw [abs_sub_comm]
    exact H hb hb' ha ha' (by rwa [abs_sub_comm]) (not_le.1 hab).le
  have hxy : Real.arccos a ≤ Real.arccos b := Real.antitone_arccos hab
  have g := cos_gap (Real.arccos_nonneg a) hxy (Real.arccos_le_pi b)
  rw [Real.cos_arccos ha ha', Real.cos_arccos hb hb'] at g
  rw [abs_of_nonneg (by linarith)] at h
  rw [abs_sub_comm, abs_of_nonneg (by linarith)]
  have h2 : ((Real.arccos b - Real.arccos a) / Real.pi) ^ 2 ≤ (d / Real.pi) ^ 2 := by linarith
  have h3 := (sq_le_sq₀ (div_nonneg (by linarith) Real.pi_pos.le) (div_nonneg hd Real.pi_pos.le)).1 h2
  exact (div_le_div_iff_of_pos_right Real.pi_pos).1 h3

/-- Away from the ends it is nearly linear. -/
theorem cos_steep {x y θ : ℝ} (hθ : 0 < θ) (hθ1 : θ ≤ 1) (h : x ≤ y) (hs : y - x ≤ 1 / 5) (h1 : θ ≤ (x + y) / 2)
    (h2 : (x + y) / 2 ≤ Real.pi - θ) : (θ - θ ^ 3 / 4) * (99 / 100) * (y - x) ≤ Real.cos x - Real.cos y := by
  have e : Real.cos x - Real.cos y = 2 * Real.sin ((x + y) / 2) * Real.sin ((y - x) / 2) := by
    rw [Real.cos_sub_cos, show (x - y) / 2 = -((y - x) / 2) by ring, Real.sin_neg]; ring
  have hm := sin_mid hθ.le h1 h2
  have hs1 : θ - θ ^ 3 / 4 ≤ Real.sin θ := by
    have := Real.sin_gt_sub_cube hθ
    have : 0 < θ ^ 3 := by positivity
    linarith
  have ht : 99 / 100 * ((y - x) / 2) ≤ Real.sin ((y - x) / 2) := by
    rcases h.eq_or_lt with rfl | hlt
    · simp
    · have h0 : 0 < (y - x) / 2 := by linarith
      have := Real.sin_gt_sub_cube h0
      have hc : ((y - x) / 2) ^ 3 / 4 ≤ 1 / 100 * ((y - x) / 2) := by
        have : ((y - x) / 2) ^ 2 ≤ (1 / 10) ^ 2 := pow_le_pow_left₀ h0.le (by linarith) 2
        nlinarith
      linarith
  rw [e]
  have hc0 : 0 ≤ θ - θ ^ 3 / 4 := by nlinarith [pow_le_one₀ (n := 2) hθ.le hθ1]
  have h3 : (θ - θ ^ 3 / 4) * (99 / 100 * ((y - x) / 2)) ≤ Real.sin ((x + y) / 2) * Real.sin ((y - x) / 2) :=
    mul_le_mul (by linarith) ht (by linarith) (by linarith)
  linarith

end Nmea.GeoF
