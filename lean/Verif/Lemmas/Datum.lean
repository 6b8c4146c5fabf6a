import Verif.Model.Geo
import Mathlib.Analysis.SpecialFunctions.Trigonometric.Bounds
import Mathlib.Tactic.Linarith
import Mathlib.Tactic.FieldSimp
import Mathlib.Tactic.Ring
/-!
# The conversion from ECEF coordinates for any ellipsoid of the size and shape of the Earth, in closed form

As `Lemmas/Geo.lean`, with the semi-major axis `α` and the squared eccentricity `ε` in a range instead of those of WGS84.
-/
namespace Nmea.Datum
open Py Real Nmea.Geo

variable {α ε : ℝ}

/-- Every ellipsoid that has been fitted to the Earth: semi-major axis within 1 km of 6378 km, squared eccentricity
between 0.00663 and 0.006815 (inverse flattening between 293 and 301). -/
structure Ell (α ε : ℝ) : Prop where
  a0 : 6377000 ≤ α
  a1 : α ≤ 6379000
  e0 : 0.00663 ≤ ε
  e1 : ε ≤ 0.006815

theorem Ell.eb (H : Ell α ε) : 0.00663 ≤ ε ∧ ε ≤ 0.006815 := ⟨H.e0, H.e1⟩

noncomputable def gF (ε θ : ℝ) : ℝ := 1 - ε * sin θ ^ 2
noncomputable def nF (α ε w z θ : ℝ) : ℝ := w * cos θ + z * sin θ - α * √(gF ε θ)
noncomputable def tF (α ε w z θ : ℝ) : ℝ := z * cos θ - w * sin θ + α * ε * sin θ * cos θ / √(gF ε θ)
noncomputable def mF (α ε θ : ℝ) : ℝ := α * (1 - ε) / (gF ε θ * √(gF ε θ))

/-- The correction of the first guess; `X` and `Y` are the squared direction cosines, `A` is `a e² / r`. -/
noncomputable def k1 (ε A X Y : ℝ) : ℝ := Y * (A + A ^ 2 + X * (ε / 2 * A - 5 / 2 * A ^ 2))
noncomputable def k2 (ε A X Y : ℝ) : ℝ := X * (A + ε / 2 * A - A ^ 2 - Y * (ε / 2 * A - 5 / 2 * A ^ 2))

/-- The first guess. -/
def Guess (α ε w z r θ : ℝ) : Prop :=
  (3 / 10 < (w / r) ^ 2 ∧
    sin θ = z / r * (1 + k1 ε (α * ε / r) ((z / r) ^ 2) ((w / r) ^ 2))) ∨
  ((w / r) ^ 2 ≤ 3 / 10 ∧
    cos θ = w / r * (1 - k2 ε (α * ε / r) ((z / r) ^ 2) ((w / r) ^ 2)))

theorem k1_bounds (H : Ell α ε) {A X Y : ℝ} (hA : 0 ≤ A) (hA' : A ≤ 0.435) (hX : 0 ≤ X) (hX' : X ≤ 7 / 10) (hY : 0 ≤ Y) :
    0 ≤ k1 ε A X Y ∧ k1 ε A X Y ≤ 0.626 * Y := by
  obtain ⟨e1, e2⟩ := H.eb
  unfold k1
  have h0 : 0 ≤ A + A ^ 2 + X * (ε / 2 * A - 5 / 2 * A ^ 2) := by
    have : 0 ≤ X * (ε / 2 * A) := by positivity
    have : X * A ^ 2 ≤ 7 / 10 * A ^ 2 := by nlinarith [sq_nonneg A]
    nlinarith
  have h1 : A + A ^ 2 + X * (ε / 2 * A - 5 / 2 * A ^ 2) ≤ 0.626 := by
    have : X * (ε / 2 * A) ≤ 7 / 10 * (0.006815 / 2 * 0.435) := by
      apply mul_le_mul hX' _ (by positivity) (by norm_num)
      apply mul_le_mul _ hA' hA (by norm_num)
      linarith
    have : 0 ≤ X * A ^ 2 := by positivity
    nlinarith
  constructor
  · positivity
  · nlinarith

theorem k2_bounds (H : Ell α ε) {A X Y : ℝ} (hA : 0 ≤ A) (hA' : A ≤ 0.435) (hX : 0 ≤ X) (hX' : X ≤ 1) (hY : 0 ≤ Y)
    (hY' : Y ≤ 3 / 10) : 0 ≤ k2 ε A X Y ∧ k2 ε A X Y ≤ 0.44 := by
  obtain ⟨e1, e2⟩ := H.eb
  unfold k2
  have t1 : Y * (ε / 2 * A) ≤ ε / 2 * A := by
    have : 0 ≤ ε / 2 * A := by positivity
    nlinarith
  have t2 : 0 ≤ Y * (ε / 2 * A) := by positivity
  have t3 : 0 ≤ Y * A ^ 2 := by positivity
  have t4 : Y * A ^ 2 ≤ 3 / 10 * A ^ 2 := by nlinarith [sq_nonneg A]
  have t5 : ε / 2 * A ≤ 0.00341 * A := by nlinarith
  have h0 : 0 ≤ A + ε / 2 * A - A ^ 2 - Y * (ε / 2 * A - 5 / 2 * A ^ 2) := by nlinarith
  have h1 : A + ε / 2 * A - A ^ 2 - Y * (ε / 2 * A - 5 / 2 * A ^ 2) ≤ 0.44 := by nlinarith
  constructor
  · positivity
  · nlinarith

/-- In the first branch the guessed sine is at most one, and the guess is within 60 degrees of the
direction of the point. -/
theorem branch1 {A X Y k : ℝ} (hX : 0 ≤ X) (hXY : X + Y = 1) (hY : 3 / 10 < Y) (hk : 0 ≤ k) (hk' : k ≤ 0.626 * Y) :
    X * (1 + k) ^ 2 ≤ 0.99 ∧ 1 / 2 ≤ √(1 - X * (1 + k) ^ 2) * √Y + X * (1 + k) := by
  have hY1 : Y = 1 - X := by linarith
  subst hY1
  have hb : (1 + k) ^ 2 ≤ (1 + 0.626 * (1 - X)) ^ 2 := by
    apply pow_le_pow_left₀ (by linarith)
    linarith
  have h1 : X * (1 + k) ^ 2 ≤ X * (1 + 0.626 * (1 - X)) ^ 2 := mul_le_mul_of_nonneg_left hb hX
  have h2 : X * (1 + 0.626 * (1 - X)) ^ 2 ≤ 0.99 := by
    have hX7 : X ≤ 7 / 10 := by linarith
    nlinarith [sq_nonneg (X - 0.7), mul_nonneg hX (by linarith : (0:ℝ) ≤ 7 / 10 - X), mul_nonneg hX (sq_nonneg (7 / 10 - X))]
  refine ⟨h1.trans h2, ?_⟩
  by_cases hX5 : 1 / 2 ≤ X
  · have : 0 ≤ √(1 - X * (1 + k) ^ 2) * √(1 - X) := by positivity
    nlinarith
  · have hX5 : X ≤ 1 / 2 := by linarith
    have : 1 / 2 - X ≤ √(1 - X * (1 + k) ^ 2) * √(1 - X) := by
      rw [← Real.sqrt_mul (by linarith)]
      apply Real.le_sqrt_of_sq_le
      have : (1 / 2 - X) ^ 2 ≤ (1 - X * (1 + 0.626 * (1 - X)) ^ 2) * (1 - X) := by
        nlinarith [mul_nonneg hX (by linarith : (0:ℝ) ≤ 1 / 2 - X), mul_nonneg hX (sq_nonneg (1 / 2 - X)), mul_nonneg (mul_nonneg hX hX) (by linarith : (0:ℝ) ≤ 1 / 2 - X), mul_nonneg (mul_nonneg hX hX) (sq_nonneg (1 / 2 - X))]
      nlinarith
    nlinarith

theorem gF_bounds (H : Ell α ε) (θ : ℝ) : 1 - ε ≤ gF ε θ ∧ gF ε θ ≤ 1 ∧ 0.99318 ≤ gF ε θ ∧ 0 < gF ε θ ∧ 0 < √(gF ε θ) := by
  obtain ⟨e1, e2⟩ := H.eb
  have h1 : 1 - ε ≤ gF ε θ := by
    unfold gF
    nlinarith [sin_sq_le_one θ]
  have h2 : gF ε θ ≤ 1 := by
    unfold gF
    have : 0 ≤ ε * sin θ ^ 2 := by positivity
    linarith
  refine ⟨h1, h2, by linarith, by linarith, Real.sqrt_pos.mpr (by linarith)⟩

/-- The curvature term never cancels more than 43700 m. -/
theorem curv_bound (H : Ell α ε) (θ : ℝ) : -43700 ≤ mF α ε θ - α * √(gF ε θ) := by
  obtain ⟨e1, e2⟩ := H.eb
  obtain ⟨g1, g2, g3, g4, g5⟩ := gF_bounds H θ
  have hq : √(gF ε θ) ^ 2 = gF ε θ := Real.sq_sqrt g4.le
  have hq1 : √(gF ε θ) ≤ 1 := by nlinarith
  have hq2 : 0.99658 ≤ √(gF ε θ) := by nlinarith
  set q := √(gF ε θ) with hqd
  have e : mF α ε θ - α * q = α * ((1 - ε) - q ^ 4) / (q ^ 3) := by
    unfold mF
    rw [← hqd, ← hq]
    field_simp
  rw [e, le_div_iff₀ (by positivity)]
  have hα0 := H.a0
  have hα1 := H.a1
  have h4 : q ^ 4 ≤ 1 := pow_le_one₀ (by linarith) hq1
  have h3 : (0.99658 : ℝ) ^ 3 ≤ q ^ 3 := pow_le_pow_left₀ (by norm_num) hq2 3
  nlinarith

/-- `f` and `m` of the code in terms of the guess. -/
theorem code_nF (H : Ell α ε) (w z θ : ℝ) : cos θ * (w - α / √(gF ε θ) * cos θ) +
    sin θ * (z - (1 - ε) * (α / √(gF ε θ)) * sin θ) = nF α ε w z θ := by
  obtain ⟨g1, g2, g3, g4, g5⟩ := gF_bounds H θ
  have hq : √(gF ε θ) ^ 2 = gF ε θ := Real.sq_sqrt g4.le
  have hg : gF ε θ = 1 - ε * sin θ ^ 2 := rfl
  unfold nF
  have hs := sin_sq_add_cos_sq θ
  set q := √(gF ε θ)
  field_simp
  have : q ^ 2 = cos θ ^ 2 + (1 - ε) * sin θ ^ 2 := by rw [hq, hg]; linarith
  linear_combination α * this

theorem code_tF (H : Ell α ε) (w z θ : ℝ) : cos θ * (z - (1 - ε) * (α / √(gF ε θ)) * sin θ) -
    sin θ * (w - α / √(gF ε θ) * cos θ) = tF α ε w z θ := by
  obtain ⟨g1, g2, g3, g4, g5⟩ := gF_bounds H θ
  unfold tF
  set q := √(gF ε θ)
  field_simp
  ring

theorem code_mF (H : Ell α ε) (θ : ℝ) : (1 - ε) * (α / √(gF ε θ)) / gF ε θ = mF α ε θ := by
  unfold mF
  rw [mul_comm (gF ε θ), ← div_div, mul_comm α, ← mul_div_assoc]

set_option maxHeartbeats 1000000 in
/-- `ecef2llh` does not fail, and is one Newton step from the guess. -/
theorem ecef_char (H : Ell α ε) {f : ℝ} (hfl : f ≠ 0) (hE : 1 / f * (2 - 1 / f) = ε) (x y z w r : ℝ) (hw : w = √(x * x + y * y)) (hr : r = √(x * x + y * y + z * z))
    (h5 : 100000 ≤ r) :
    ∃ θ, 0 ≤ θ ∧ θ ≤ π / 2 ∧ Guess α ε w |z| r θ ∧ r / 2 ≤ w * cos θ + |z| * sin θ ∧
      0 < mF α ε θ + nF α ε w |z| θ ∧
      ecef2llh x y z α f = .ok
        (deg (if z < 0 then -(θ + tF α ε w |z| θ / (mF α ε θ + nF α ε w |z| θ)) else θ + tF α ε w |z| θ / (mF α ε θ + nF α ε w |z| θ)),
          deg (atan2 y x), nF α ε w |z| θ + tF α ε w |z| θ * (tF α ε w |z| θ / (mF α ε θ + nF α ε w |z| θ)) / 2) := by
  obtain ⟨e1, e2⟩ := H.eb
  have hw2 : w ^ 2 = x * x + y * y := by rw [hw, Real.sq_sqrt (by nlinarith [mul_self_nonneg x, mul_self_nonneg y])]
  have hr2 : r ^ 2 = x * x + y * y + z * z := by
    rw [hr, Real.sq_sqrt (by nlinarith [mul_self_nonneg x, mul_self_nonneg y, mul_self_nonneg z])]
  have hw0 : 0 ≤ w := by rw [hw]; positivity
  have hrp : 0 < r := by linarith
  have hz2 : |z| ^ 2 = z * z := by rw [sq_abs]; ring
  have hXY : (|z| / r) ^ 2 + (w / r) ^ 2 = 1 := by
    rw [div_pow, div_pow, ← add_div, hz2, hw2, hr2, div_eq_one_iff_eq (by rw [← hr2]; positivity)]
    ring
  set A := α * ε / r with hAd
  set X := (|z| / r) ^ 2 with hXd
  set Y := (w / r) ^ 2 with hYd
  have hX0 : 0 ≤ X := sq_nonneg _
  have hY0 : 0 ≤ Y := sq_nonneg _
  have hA0 : 0 ≤ A := by
    have := H.a0
    have : 0 ≤ α := by linarith
    rw [hAd]; positivity
  have hA1 : A ≤ 0.435 := by
    rw [hAd, div_le_iff₀ hrp]
    nlinarith [H.a0, H.a1]
  -- the guess
  have guess : ∃ θ, 0 ≤ θ ∧ θ ≤ π / 2 ∧ Guess α ε w |z| r θ ∧ r / 2 ≤ w * cos θ + |z| * sin θ ∧
      ((if 3 / 10 < Y then do
        let k ← div (Y * (α * ε + α * ε * (α * ε) / r +
          X * (α * ε * ε / 2 - 5 / 2 * (α * ε * (α * ε)) / r))) r
        let zr ← div |z| r
        let lat ← asin (zr * (1 + k))
        let c ← Geo.sqrt (1 - zr * (1 + k) * (zr * (1 + k)))
        pure (lat, zr * (1 + k), zr * (1 + k) * (zr * (1 + k)), c)
      else do
        let k ← div (X * (α * ε + α * ε * ε / 2 - α * ε * (α * ε) / r -
          Y * (α * ε * ε / 2 - 5 / 2 * (α * ε * (α * ε)) / r))) r
        let wr ← div w r
        let lat ← acos (wr * (1 - k))
        let s ← Geo.sqrt (1 - wr * (1 - k) * (wr * (1 - k)))
        pure (lat, s, 1 - wr * (1 - k) * (wr * (1 - k)), wr * (1 - k)) : Except Err (ℝ × ℝ × ℝ × ℝ))
        = .ok (θ, sin θ, sin θ ^ 2, cos θ)) := by
    by_cases hb : 3 / 10 < Y
    · obtain ⟨b0, b1⟩ := k1_bounds H (X := X) (Y := Y) hA0 hA1 hX0 (by linarith) hY0
      obtain ⟨c0, c1⟩ := branch1 (A := A) hX0 hXY hb b0 b1
      have hs0 : 0 ≤ |z| / r * (1 + k1 ε A X Y) := by positivity
      have hsq : (|z| / r * (1 + k1 ε A X Y)) ^ 2 = X * (1 + k1 ε A X Y) ^ 2 := by rw [mul_pow]
      have hs1 : |z| / r * (1 + k1 ε A X Y) ≤ 1 := by nlinarith
      have hsin : sin (arcsin (|z| / r * (1 + k1 ε A X Y))) = |z| / r * (1 + k1 ε A X Y) :=
        sin_arcsin (by linarith) hs1
      have hcos : cos (arcsin (|z| / r * (1 + k1 ε A X Y))) = √(1 - X * (1 + k1 ε A X Y) ^ 2) := by
        rw [cos_arcsin, hsq]
      have hk : Y * (α * ε + α * ε * (α * ε) / r +
          X * (α * ε * ε / 2 - 5 / 2 * (α * ε * (α * ε)) / r)) / r = k1 ε A X Y := by
        unfold k1
        rw [hAd]
        field_simp
      refine ⟨arcsin (|z| / r * (1 + k1 ε A X Y)), arcsin_nonneg.mpr hs0, arcsin_le_pi_div_two _, Or.inl ⟨hb, hsin⟩, ?_, ?_⟩
      · rw [hsin, hcos]
        have hy : √Y = w / r := by rw [hYd, Real.sqrt_sq (by positivity)]
        rw [hy] at c1
        have : r * (1 / 2) ≤ r * (√(1 - X * (1 + k1 ε A X Y) ^ 2) * (w / r) + X * (1 + k1 ε A X Y)) :=
          mul_le_mul_of_nonneg_left c1 hrp.le
        have e : r * (√(1 - X * (1 + k1 ε A X Y) ^ 2) * (w / r) + X * (1 + k1 ε A X Y)) =
            w * √(1 - X * (1 + k1 ε A X Y) ^ 2) + |z| * (|z| / r * (1 + k1 ε A X Y)) := by
          rw [hXd]
          field_simp
        linarith
      · rw [if_pos hb]
        unfold div
        rw [if_neg hrp.ne', if_neg hrp.ne']
        simp only [bind, Except.bind, hk]
        unfold asin Geo.sqrt
        rw [if_pos ⟨by linarith, hs1⟩]
        simp only [Except.bind]
        rw [if_pos (by rw [← pow_two, hsq]; linarith), hsin, hcos, ← hsq]
        simp only [pure, Except.pure, pow_two]
    · obtain ⟨b0, b1⟩ := k2_bounds H (X := X) (Y := Y) hA0 hA1 hX0 (by linarith) hY0 (by linarith)
      have hY3 : Y ≤ 3 / 10 := by linarith
      have hc0 : 0 ≤ w / r * (1 - k2 ε A X Y) := mul_nonneg (by positivity) (by linarith)
      have hc1 : w / r * (1 - k2 ε A X Y) ≤ w / r := by
        have : 0 ≤ w / r := by positivity
        nlinarith
      have hsq : (w / r * (1 - k2 ε A X Y)) ^ 2 ≤ 3 / 10 := by
        have : (w / r * (1 - k2 ε A X Y)) ^ 2 ≤ (w / r) ^ 2 := pow_le_pow_left₀ hc0 hc1 2
        linarith
      have hc2 : w / r * (1 - k2 ε A X Y) ≤ 1 := by nlinarith
      have hcos : cos (arccos (w / r * (1 - k2 ε A X Y))) = w / r * (1 - k2 ε A X Y) :=
        cos_arccos (by linarith) hc2
      have hsin : sin (arccos (w / r * (1 - k2 ε A X Y))) = √(1 - (w / r * (1 - k2 ε A X Y)) ^ 2) := sin_arccos _
      have hk : X * (α * ε + α * ε * ε / 2 - α * ε * (α * ε) / r -
          Y * (α * ε * ε / 2 - 5 / 2 * (α * ε * (α * ε)) / r)) / r = k2 ε A X Y := by
        unfold k2
        rw [hAd]
        field_simp
      refine ⟨arccos (w / r * (1 - k2 ε A X Y)), arccos_nonneg _, arccos_le_pi_div_two.mpr hc0, Or.inr ⟨hY3, hcos⟩, ?_, ?_⟩
      · have hs7 : 5 / 6 ≤ sin (arccos (w / r * (1 - k2 ε A X Y))) := by
          rw [hsin]
          apply Real.le_sqrt_of_sq_le
          linarith
        have hz7 : 5 / 6 * r ≤ |z| := by
          have : 5 / 6 ≤ |z| / r := by
            have : 7 / 10 ≤ (|z| / r) ^ 2 := by linarith
            have h0 : 0 ≤ |z| / r := by positivity
            nlinarith
          rw [le_div_iff₀ hrp] at this
          exact this
        rw [hcos]
        have : 0 ≤ w * (w / r * (1 - k2 ε A X Y)) := mul_nonneg hw0 hc0
        nlinarith
      · rw [if_neg hb]
        unfold div
        rw [if_neg hrp.ne', if_neg hrp.ne']
        simp only [bind, Except.bind, hk]
        unfold acos Geo.sqrt
        rw [if_pos ⟨by linarith, hc2⟩]
        simp only [Except.bind]
        rw [if_pos (by rw [← pow_two]; linarith), hsin, hcos, Real.sq_sqrt (by linarith)]
        simp only [pure, Except.pure, pow_two]
  obtain ⟨θ, ht0, ht1, hg, hdir, hcode⟩ := guess
  have hpos : 0 < mF α ε θ + nF α ε w |z| θ := by
    have := curv_bound H θ
    unfold nF
    linarith
  refine ⟨θ, ht0, ht1, hg, hdir, hpos, ?_⟩
  obtain ⟨g1, g2, g3, g4, g5⟩ := gF_bounds H θ
  have hr' : x * x + y * y + z * z ≠ 0 := by rw [← hr2]; positivity
  have hXc : z * z / (x * x + y * y + z * z) = X := by rw [hXd, div_pow, hz2, hr2]
  have hYc : (x * x + y * y) / (x * x + y * y + z * z) = Y := by rw [hYd, div_pow, hw2, hr2]
  have hgg : 1 - ε * sin θ ^ 2 = gF ε θ := rfl
  unfold ecef2llh
  rw [show div 1 f = .ok (1 / f) by unfold div; rw [if_neg hfl]]
  simp only [bind, Except.bind, hE]
  rw [show Geo.sqrt (x * x + y * y) = .ok w by
    unfold Geo.sqrt; rw [if_pos (by rw [← hw2]; positivity), hw]]
  rw [show Geo.sqrt (x * x + y * y + z * z) = .ok r by
    unfold Geo.sqrt; rw [if_pos (by rw [← hr2]; positivity), hr]]
  simp only
  rw [if_neg (by linarith)]
  rw [show div (z * z) (x * x + y * y + z * z) = .ok X by unfold div; rw [if_neg hr', hXc]]
  rw [show div (x * x + y * y) (x * x + y * y + z * z) = .ok Y by unfold div; rw [if_neg hr', hYc]]
  simp only
  rw [show div (α * ε * (α * ε)) r = .ok (α * ε * (α * ε) / r) by
    unfold div; rw [if_neg hrp.ne']]
  rw [show div (5 / 2 * (α * ε * (α * ε))) r = .ok (5 / 2 * (α * ε * (α * ε)) / r) by
    unfold div; rw [if_neg hrp.ne']]
  simp only [bind, Except.bind] at hcode ⊢
  rw [hcode]
  simp only [hgg]
  rw [show Geo.sqrt (gF ε θ) = .ok (√(gF ε θ)) by unfold Geo.sqrt; rw [if_pos g4.le]]
  simp only
  rw [show div α √(gF ε θ) = .ok (α / √(gF ε θ)) by unfold div; rw [if_neg g5.ne']]
  simp only
  rw [show div ((1 - ε) * (α / √(gF ε θ))) (gF ε θ) = .ok (mF α ε θ) by
    unfold div; rw [if_neg g4.ne', code_mF H]]
  simp only [code_nF H, code_tF H]
  rw [show div (tF α ε w |z| θ) (mF α ε θ + nF α ε w |z| θ) = .ok (tF α ε w |z| θ / (mF α ε θ + nF α ε w |z| θ)) by
    unfold div; rw [if_neg hpos.ne']]
  simp only [pure, Except.pure]


/-- The guess is determined by the point. -/
theorem guess_unique {w z r θ θ' : ℝ} (h : Guess α ε w z r θ) (h' : Guess α ε w z r θ') (a : 0 ≤ θ) (b : θ ≤ π / 2)
    (a' : 0 ≤ θ') (b' : θ' ≤ π / 2) : θ = θ' := by
  have hp := pi_pos
  rcases h with ⟨k, h⟩ | ⟨k, h⟩ <;> rcases h' with ⟨k', h'⟩ | ⟨k', h'⟩
  · exact injOn_sin ⟨by linarith, b⟩ ⟨by linarith, b'⟩ (h.trans h'.symm)
  · linarith
  · linarith
  · exact injOn_cos ⟨a, by linarith⟩ ⟨a', by linarith⟩ (h.trans h'.symm)

theorem ecef_core {f : ℝ} (hfl : f ≠ 0) (x y z : ℝ) (h : √(x * x + y * y + z * z) < 100000) :
    ecef2llh x y z α f = .ok (0, 0, -10000000) := by
  unfold ecef2llh
  rw [show div 1 f = .ok (1 / f) by unfold div; rw [if_neg hfl]]
  simp only [bind, Except.bind]
  rw [show Geo.sqrt (x * x + y * y) = .ok √(x * x + y * y) by
    unfold Geo.sqrt
    rw [if_pos (by nlinarith [mul_self_nonneg x, mul_self_nonneg y, mul_self_nonneg z])]]
  rw [show Geo.sqrt (x * x + y * y + z * z) = .ok √(x * x + y * y + z * z) by
    unfold Geo.sqrt
    rw [if_pos (by nlinarith [mul_self_nonneg x, mul_self_nonneg y, mul_self_nonneg z])]]
  simp only
  rw [if_pos h]
  rfl

/-- The curvature term of the residue is non-negative in the first quadrant. -/
theorem curv_nonneg (H : Ell α ε) (θ : ℝ) (hc : 0 ≤ cos θ) :
    0 ≤ α * ε * cos θ / √(gF ε θ) + (mF α ε θ - α * √(gF ε θ)) := by
  obtain ⟨e1, e2⟩ := H.eb
  obtain ⟨g1, g2, g3, g4, g5⟩ := gF_bounds H θ
  have hq : √(gF ε θ) ^ 2 = 1 - ε * sin θ ^ 2 := Real.sq_sqrt g4.le
  have hsc := sin_sq_add_cos_sq θ
  set q := √(gF ε θ) with hqd
  have e : α * ε * cos θ / q + (mF α ε θ - α * q) =
      α * ((1 - ε) - (q ^ 2) ^ 2 + ε * cos θ * q ^ 2) / (q ^ 3) := by
    unfold mF
    rw [← hqd, show gF ε θ = q ^ 2 from (Real.sq_sqrt g4.le).symm]
    field_simp
    ring
  rw [e, hq]
  have hc1 : cos θ ≤ 1 := cos_le_one θ
  have hs1 : sin θ ^ 2 ≤ 1 := sin_sq_le_one θ
  have key : 0 ≤ (1 - ε) - (1 - ε * sin θ ^ 2) ^ 2 + ε * cos θ * (1 - ε * sin θ ^ 2) := by
    have h1 : 0 ≤ cos θ - (1 - sin θ ^ 2) := by nlinarith
    have h2 : (1 - ε) - (1 - ε * sin θ ^ 2) ^ 2 + ε * cos θ * (1 - ε * sin θ ^ 2) =
        ε * (cos θ - (1 - sin θ ^ 2)) + ε * sin θ ^ 2 * (1 - ε * (sin θ ^ 2 + cos θ)) := by ring
    rw [h2]
    have h3 : 0 ≤ 1 - ε * (sin θ ^ 2 + cos θ) := by nlinarith
    have hw0 : 0 ≤ ε := by linarith
    have h4 : 0 ≤ ε * sin θ ^ 2 := by positivity
    exact add_nonneg (mul_nonneg hw0 h1) (mul_nonneg h4 h3)
  have : (0 : ℝ) ≤ α := by linarith [H.a0]
  positivity

theorem core1 {C X k c s2 : ℝ} (hC0 : 0 ≤ C) (hX0 : 0 ≤ X) (hXY : X + C ^ 2 = 1) (hk : 0 ≤ k) (hk' : k ≤ 0.626 * C ^ 2)
    (hs : s2 = X * (1 + k) ^ 2) (hc0 : 0 ≤ c) (hc1 : c ≤ 1) (hsc : s2 + c ^ 2 = 1) :
    C * (1 + k) * (1 - c) < c + s2 := by
  have e2 : s2 = 1 - c ^ 2 := by linarith
  by_cases hY : C ^ 2 ≤ 1 / 2
  · have hC7 : C ≤ 0.7072 := by
      by_contra h
      nlinarith
    have hk3 : 1 + k ≤ 1.3131 := by linarith
    have h1 : C * (1 + k) ≤ 0.7072 * 1.3131 := mul_le_mul hC7 hk3 (by linarith) (by norm_num)
    have h2 : C * (1 + k) * (1 - c) ≤ 0.7072 * 1.3131 * (1 - c) := mul_le_mul_of_nonneg_right h1 (by linarith)
    rw [e2]
    nlinarith
  · have hX5 : X ≤ 1 / 2 := by linarith
    have hC1 : C ≤ 1 := by
      by_contra h
      nlinarith
    have hk6 : 1 + k ≤ 1 + 0.626 * (1 - X) := by linarith
    have hsb : s2 ≤ 0.8621 := by
      rw [hs]
      have : X * (1 + k) ^ 2 ≤ X * (1 + 0.626 * (1 - X)) ^ 2 :=
        mul_le_mul_of_nonneg_left (pow_le_pow_left₀ (by linarith) hk6 2) hX0
      have : X * (1 + 0.626 * (1 - X)) ^ 2 ≤ 0.8621 := by
        clear * - hX0 hX5
        nlinarith [mul_nonneg hX0 (by linarith : (0:ℝ) ≤ 1 / 2 - X), mul_nonneg hX0 (sq_nonneg (1 / 2 - X))]
      linarith
    have hc37 : 0.37 ≤ c := by
      by_contra h
      have : c ^ 2 ≤ 0.37 ^ 2 := pow_le_pow_left₀ hc0 (by linarith) 2
      linarith
    have h1 : C * (1 + k) ≤ 1 * 1.626 := mul_le_mul hC1 (by linarith) (by linarith) (by norm_num)
    have h2 : C * (1 + k) * (1 - c) ≤ 1 * 1.626 * (1 - c) := mul_le_mul_of_nonneg_right h1 (by linarith)
    rw [e2]
    clear * - h2 hc37 hc1
    nlinarith

set_option maxHeartbeats 1000000 in
/-- The latitude computed for a point north of the equatorial plane is positive. -/
theorem step_pos (H : Ell α ε) {w z r θ : ℝ} (hw : 0 ≤ w) (hz : 0 < z) (h5 : 100000 ≤ r) (hwz : w ^ 2 + z ^ 2 = r ^ 2)
    (h0 : 0 ≤ θ) (h1 : θ ≤ π / 2) (hg : Guess α ε w z r θ) (hpos : 0 < mF α ε θ + nF α ε w z θ) :
    0 < θ + tF α ε w z θ / (mF α ε θ + nF α ε w z θ) := by
  obtain ⟨e1, e2⟩ := H.eb
  have hrp : 0 < r := by linarith
  have hc0 : 0 ≤ cos θ := cos_nonneg_of_mem_Icc ⟨by linarith [pi_pos], h1⟩
  have hs0 : 0 ≤ sin θ := sin_nonneg_of_nonneg_of_le_pi h0 (by linarith [pi_pos])
  have hsc := sin_sq_add_cos_sq θ
  have hc1 : cos θ ≤ 1 := cos_le_one θ
  have hsθ : sin θ ≤ θ := sin_le h0
  have hD := curv_nonneg H θ hc0
  have hXY : (z / r) ^ 2 + (w / r) ^ 2 = 1 := by
    rw [div_pow, div_pow, ← add_div, div_eq_one_iff_eq (by positivity)]
    linarith
  have hA0 : 0 ≤ α * ε / r := by
    have := H.a0
    have : 0 ≤ α := by linarith
    positivity
  have hA1 : α * ε / r ≤ 0.435 := by
    rw [div_le_iff₀ hrp]
    nlinarith [H.a0, H.a1]
  -- the geometric part
  have geo : 0 < z * cos θ + z * sin θ ^ 2 - w * sin θ * (1 - cos θ) := by
    rcases hg with ⟨hb, hs⟩ | ⟨hb, hc⟩
    · obtain ⟨b0, b1⟩ := k1_bounds H (X := (z / r) ^ 2) (Y := (w / r) ^ 2) hA0 hA1 (sq_nonneg _) (by linarith) (sq_nonneg _)
      obtain ⟨d1, -⟩ := branch1 (A := 0) (sq_nonneg _) hXY hb b0 b1
      set k := k1 ε (α * ε / r) ((z / r) ^ 2) ((w / r) ^ 2)
      set X := (z / r) ^ 2 with hX
      set C := w / r with hC
      have hC0 : 0 ≤ C := by positivity
      have hwC : w = C * r := by rw [hC]; field_simp
      have hzs : z * (1 + k) = sin θ * r := by rw [hs]; field_simp
      have hsX : sin θ ^ 2 = X * (1 + k) ^ 2 := by rw [hs, mul_pow]
      have hsp : 0 < sin θ := by rw [hs]; positivity
      have hX0 : 0 ≤ X := sq_nonneg _
      have core : C * (1 + k) * (1 - cos θ) < cos θ + sin θ ^ 2 := by
        exact core1 hC0 hX0 hXY b0 b1 hsX hc0 hc1 hsc
      have h1k : 0 < 1 + k := by linarith
      have : 0 < (1 + k) * (z * cos θ + z * sin θ ^ 2 - w * sin θ * (1 - cos θ)) := by
        have e : (1 + k) * (z * cos θ + z * sin θ ^ 2 - w * sin θ * (1 - cos θ)) =
            z * (1 + k) * (cos θ + sin θ ^ 2) - C * r * sin θ * (1 + k) * (1 - cos θ) := by
          rw [hwC]; ring
        rw [e, hzs]
        have : 0 < sin θ * r * (cos θ + sin θ ^ 2 - C * (1 + k) * (1 - cos θ)) := by
          have : 0 < cos θ + sin θ ^ 2 - C * (1 + k) * (1 - cos θ) := by linarith
          positivity
        linarith
      exact (mul_pos_iff_of_pos_left h1k).mp this
    · obtain ⟨b0, b1⟩ := k2_bounds H (X := (z / r) ^ 2) (Y := (w / r) ^ 2) hA0 hA1 (sq_nonneg _) (by linarith [sq_nonneg (w / r)]) (sq_nonneg _) hb
      have hw5 : w / r ≤ 0.55 := by
        have : 0 ≤ w / r := by positivity
        nlinarith
      have hz8 : 0.83 ≤ z / r := by
        have : 0 ≤ z / r := by positivity
        nlinarith
      rw [div_le_iff₀ hrp] at hw5
      rw [le_div_iff₀ hrp] at hz8
      have hcb : cos θ ≤ 0.55 := by
        rw [hc]
        have : w / r ≤ 0.55 := by rw [div_le_iff₀ hrp]; exact hw5
        have h0 : 0 ≤ w / r := by positivity
        nlinarith
      have hs8 : 0.83 ≤ sin θ := by nlinarith
      have hzs : w < z * sin θ := by nlinarith
      have hzc : 0 ≤ z * cos θ := by positivity
      have hsp : 0 < sin θ := by linarith
      have : w * sin θ * (1 - cos θ) ≤ w * sin θ := by
        have : 0 ≤ w * sin θ * cos θ := by positivity
        linarith
      nlinarith
  have hT : tF α ε w z θ + sin θ * (mF α ε θ + nF α ε w z θ) =
      (z * cos θ + z * sin θ ^ 2 - w * sin θ * (1 - cos θ)) +
      sin θ * (α * ε * cos θ / √(gF ε θ) + (mF α ε θ - α * √(gF ε θ))) := by
    unfold tF nF
    ring
  have : 0 < tF α ε w z θ + θ * (mF α ε θ + nF α ε w z θ) := by
    have : sin θ * (mF α ε θ + nF α ε w z θ) ≤ θ * (mF α ε θ + nF α ε w z θ) := mul_le_mul_of_nonneg_right hsθ hpos.le
    have : 0 ≤ sin θ * (α * ε * cos θ / √(gF ε θ) + (mF α ε θ - α * √(gF ε θ))) := mul_nonneg hs0 hD
    linarith
  have e : θ + tF α ε w z θ / (mF α ε θ + nF α ε w z θ) = (tF α ε w z θ + θ * (mF α ε θ + nF α ε w z θ)) / (mF α ε θ + nF α ε w z θ) := by
    field_simp
    ring
  rw [e]
  positivity

end Nmea.Datum
