import Verif.Props.GeoFloatMore
/-!
# `ecef2llh` in floating point: helper lemmas
-/
namespace Nmea.GeoF
open Py PyFloat Nmea.Geo

/-! ## Errors relative to a scale -/

theorem Near.mul_sc {x y : PyFloat} {X Y ρ e f g : ℝ} (hx : Near x X (ρ * e)) (hy : Near y Y (ρ * f)) (hX : |X| ≤ ρ) (hY : |Y| ≤ ρ)
    (h1 : 1 ≤ ρ) (h2 : ρ ≤ 10 ^ 9) (he : e ≤ 1) (hf : f ≤ 1)
    (hg : e + f + e * f + (1 + e) * (1 + f) / 2 ^ 53 + 1 / 10 ^ 70 ≤ g) : Near (x.mul y) (X * Y) (ρ ^ 2 * g) := by
  have he0 : 0 ≤ e := by have := (abs_nonneg _).trans hx.2; by_contra h; nlinarith
  have hf0 : 0 ≤ f := by have := (abs_nonneg _).trans hy.2; by_contra h; nlinarith
  have hρ : 1 ≤ ρ ^ 2 := one_le_pow₀ h1
  refine hx.mul hy hX hY ?_ ?_
  · calc _ = ρ ^ 2 * (e + f + e * f + (1 + e) * (1 + f) / 2 ^ 53) + 1 / 10 ^ 70 := by ring
      _ ≤ ρ ^ 2 * (e + f + e * f + (1 + e) * (1 + f) / 2 ^ 53) + ρ ^ 2 * (1 / 10 ^ 70) := by
        have : 1 * (1 / 10 ^ 70 : ℝ) ≤ ρ ^ 2 * (1 / 10 ^ 70) := mul_le_mul_of_nonneg_right hρ (by norm_num)
        linarith
      _ = ρ ^ 2 * (e + f + e * f + (1 + e) * (1 + f) / 2 ^ 53 + 1 / 10 ^ 70) := by ring
      _ ≤ ρ ^ 2 * g := mul_le_mul_of_nonneg_left hg (by positivity)
  · have h3 : ρ ^ 2 ≤ (10 ^ 9) ^ 2 := pow_le_pow_left₀ (by linarith) h2 2
    calc (ρ + ρ * e) * (ρ + ρ * f) = ρ ^ 2 * ((1 + e) * (1 + f)) := by ring
      _ ≤ (10 ^ 9) ^ 2 * (2 * 2) := mul_le_mul h3 (mul_le_mul (by linarith) (by linarith) (by linarith) (by norm_num))
          (by positivity) (by positivity)
      _ ≤ 2 ^ 64 := by norm_num

theorem Near.add_sc {x y : PyFloat} {X Y σ e f B g : ℝ} (hx : Near x X (σ * e)) (hy : Near y Y (σ * f)) (hB : |X + Y| ≤ σ * B)
    (h1 : 1 ≤ σ) (h2 : σ ≤ 10 ^ 18) (hs : B + (e + f) ≤ 10)
    (hg : e + f + (B + (e + f)) / 2 ^ 53 + 1 / 10 ^ 70 ≤ g) : Near (x.add y) (X + Y) (σ * g) := by
  refine hx.add hy hB ?_ ?_
  · calc _ = σ * (e + f + (B + (e + f)) / 2 ^ 53) + 1 / 10 ^ 70 := by ring
      _ ≤ σ * (e + f + (B + (e + f)) / 2 ^ 53) + σ * (1 / 10 ^ 70) := by
        have : 1 * (1 / 10 ^ 70 : ℝ) ≤ σ * (1 / 10 ^ 70) := mul_le_mul_of_nonneg_right h1 (by norm_num)
        linarith
      _ = σ * (e + f + (B + (e + f)) / 2 ^ 53 + 1 / 10 ^ 70) := by ring
      _ ≤ σ * g := mul_le_mul_of_nonneg_left hg (by linarith)
  · calc σ * B + (σ * e + σ * f) = σ * (B + (e + f)) := by ring
      _ ≤ σ * 10 := mul_le_mul_of_nonneg_left hs (by linarith)
      _ ≤ 10 ^ 18 * 10 := by linarith
      _ ≤ 2 ^ 64 := by norm_num

theorem Near.div_sc {x y : PyFloat} {X Y σ e f Q g : ℝ} (hx : Near x X (σ * e)) (hy : Near y Y (σ * f)) (hQ : |X / Y| ≤ Q)
    (hS : σ ≤ |Y|) (h1 : 0 < σ) (hf : f < 1)
    (hg : (e + Q * f) / (1 - f) + (Q + (e + Q * f) / (1 - f)) / 2 ^ 53 + 1 / 10 ^ 70 ≤ g)
    (hs : Q + (e + Q * f) / (1 - f) ≤ 2 ^ 64) :
    ∃ z, x.div y = .ok z ∧ Near z (X / Y) g := by
  have e1 : (σ * e + Q * (σ * f)) / (σ - σ * f) = (e + Q * f) / (1 - f) := by
    have : 1 - f ≠ 0 := by linarith
    rw [show σ * e + Q * (σ * f) = σ * (e + Q * f) by ring, show σ - σ * f = σ * (1 - f) by ring,
      mul_div_mul_left _ _ h1.ne']
  refine hx.div hy hQ hS ?_ (by rw [e1]; exact hg) (by rw [e1]; exact hs)
  nlinarith

/-! ## Signs -/

theorem neg_zero_of {s : Bool} {m : ℚ} (hm : 0 ≤ m) (h : 0 ≤ val (.fin s m)) (hs : s = true) : m = 0 := by
  rw [val_fin, hs] at h
  simp only [if_true] at h
  have : (m : ℝ) ≤ 0 := by linarith
  exact le_antisymm (by exact_mod_cast this) hm

theorem ofMag_zero_val (s : Bool) : val (ofMag s 0) = 0 := by
  have h := ofMag_near s (q := 0) (le_refl _) (by norm_num)
  have e : roundMag 0 = 0 := by decide +kernel
  unfold ofMag
  simp only [e]
  rw [if_neg (by decide +kernel), val_fin]
  simp

theorem mul_val_nonneg {x y : PyFloat} (hx : Finite x) (hy : Finite y) (h1 : 0 ≤ val x) (h2 : 0 ≤ val y) : 0 ≤ val (x.mul y) := by
  obtain ⟨s, a, rfl, ha⟩ := hx.cases
  obtain ⟨t, b, rfl, hb⟩ := hy.cases
  show 0 ≤ val (ofMag (s != t) (a * b))
  cases s with
  | true =>
    rw [neg_zero_of ha h1 rfl, zero_mul, ofMag_zero_val]
  | false =>
    cases t with
    | true => rw [neg_zero_of hb h2 rfl, mul_zero, ofMag_zero_val]
    | false => exact ofMag_val_nonneg _

theorem div_val_nonneg {x y z : PyFloat} (hx : Finite x) (hy : Finite y) (h1 : 0 ≤ val x) (h2 : 0 < val y) (h : x.div y = .ok z) :
    0 ≤ val z := by
  obtain ⟨s, a, rfl, ha⟩ := hx.cases
  obtain ⟨t, b, rfl, hb⟩ := hy.cases
  have ht : t = false := by
    cases t with
    | false => rfl
    | true => rw [neg_zero_of hb h2.le rfl, val_fin] at h2; simp at h2
  subst ht
  have hb0 : b ≠ 0 := by
    rintro rfl
    rw [val_fin] at h2; simp at h2
  simp only [PyFloat.div, if_neg hb0, Except.ok.injEq] at h
  rw [← h]
  cases s with
  | true => rw [neg_zero_of ha h1 rfl, zero_div, ofMag_zero_val]
  | false => exact ofMag_val_nonneg _

/-! ## The distance from the axis -/

/-- `sqrt(x * x + y * y)`. -/
theorem hypot_near {lib : Libm} (hl : Accurate lib) {x y : PyFloat} {X Y e B g : ℝ} (hx : Near x X e) (hy : Near y Y e)
    (hB : Real.sqrt (X * X + Y * Y) ≤ B) (hs : B + 2 * e ≤ 10 ^ 9)
    (hg : 2 * e + (B + 2 * e) * (6 / 10 ^ 16) + 1 / 10 ^ 30 ≤ g) :
    ∃ w, math1 lib.sqrt ((x.mul x).add (y.mul y)) = .ok w ∧ Near w (Real.sqrt (X * X + Y * Y)) g ∧ 0 ≤ val ((x.mul x).add (y.mul y)) := by
  have he : 0 ≤ e := (abs_nonneg _).trans hx.2
  have hBe : 0 ≤ B + 2 * e := by linarith [(Real.sqrt_nonneg _).trans hB]
  have q6 := norm_close (val x) (val y) X Y
  have hQ : Real.sqrt (val x * val x + val y * val y) ≤ B + 2 * e := by
    have := (abs_le.1 q6).2
    have := hx.2
    have := hy.2
    linarith
  have hx0 := mul_self_nonneg (val x)
  have hy0 := mul_self_nonneg (val y)
  have hq : 0 ≤ val x * val x + val y * val y := by linarith
  have hqB : val x * val x + val y * val y ≤ 10 ^ 18 := by
    rw [← Real.sq_sqrt hq]
    calc _ ≤ (10 ^ 9 : ℝ) ^ 2 := pow_le_pow_left₀ (Real.sqrt_nonneg _) (hQ.trans hs) 2
      _ = 10 ^ 18 := by norm_num
  have q1 := mul_near' hx.1 hx.1 (by rw [abs_mul_self]; norm_num at *; linarith)
  have q2 := mul_near' hy.1 hy.1 (by rw [abs_mul_self]; norm_num at *; linarith)
  rw [abs_mul_self] at q1 q2
  have q3 := q1.add q2 (B := val x * val x + val y * val y)
    (g := (val x * val x + val y * val y) * (23 / 10 ^ 17) + (1 / 10 ^ 34) ^ 2)
    (abs_of_nonneg hq).le (by norm_num; linarith) (by norm_num at *; linarith)
  have hs0 : 0 ≤ val ((x.mul x).add (y.mul y)) := add_val_nonneg (mul_self_val _) (mul_self_val _)
  have q4 := hl.sqrt _ q3.1 hs0
  have q5 := sqrt_rel hs0 hq (by norm_num) (by norm_num) (by norm_num) q3.2
  refine ⟨_, math1_fin q4.1, ⟨q4.1, ?_⟩, hs0⟩
  have w1 := q4.2
  have w2 := hx.2
  have w3 := hy.2
  generalize Real.sqrt (val ((x.mul x).add (y.mul y))) = S at *
  generalize Real.sqrt (val x * val x + val y * val y) = Q at *
  generalize Real.sqrt (X * X + Y * Y) = D at *
  have w4 := abs_sub_le (val (lib.sqrt ((x.mul x).add (y.mul y)))) S D
  have w5 := abs_sub_le S Q D
  have w6 := (abs_le.1 q5).2
  have w7 : S / 2 ^ 52 ≤ (Q * (23 / 10 ^ 17) + 1 / 10 ^ 34 + Q) / 2 ^ 52 := by gcongr; linarith
  norm_num at w1 w7 q5 hg ⊢
  linarith

end Nmea.GeoF
