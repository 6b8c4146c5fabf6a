import Verif.Model.Geo
import Mathlib.Analysis.SpecialFunctions.Trigonometric.Bounds
import Mathlib.Tactic.Linarith
import Mathlib.Tactic.FieldSimp
import Mathlib.Tactic.Ring
/-!
# The conversion from ECEF coordinates, in closed form

`ecef2llh` for the WGS84 ellipsoid computes a first guess of the latitude and one Newton step. The lemmas
here show that no operation of it can fail and express its result through the functions `nF` (normal
distance), `tF` (tangential residue) and `mF` (meridional radius of curvature).
-/
namespace Nmea.Geo
open Py Real

/-- The square of the eccentricity of the WGS84 ellipsoid. -/
noncomputable def wE2 : ℝ := 1 / flattening * (2 - 1 / flattening)

theorem wE2_bounds : 0.00669437999 < wE2 ∧ wE2 < 0.00669438 := by
  unfold wE2 flattening
  constructor <;> norm_num

noncomputable def gF (θ : ℝ) : ℝ := 1 - wE2 * sin θ ^ 2
noncomputable def nF (w z θ : ℝ) : ℝ := w * cos θ + z * sin θ - smajAxis * √(gF θ)
noncomputable def tF (w z θ : ℝ) : ℝ := z * cos θ - w * sin θ + smajAxis * wE2 * sin θ * cos θ / √(gF θ)
noncomputable def mF (θ : ℝ) : ℝ := smajAxis * (1 - wE2) / (gF θ * √(gF θ))

/-- The correction of the first guess; `X` and `Y` are the squared direction cosines, `A` is `a e² / r`. -/
noncomputable def k1 (A X Y : ℝ) : ℝ := Y * (A + A ^ 2 + X * (wE2 / 2 * A - 5 / 2 * A ^ 2))
noncomputable def k2 (A X Y : ℝ) : ℝ := X * (A + wE2 / 2 * A - A ^ 2 - Y * (wE2 / 2 * A - 5 / 2 * A ^ 2))

/-- The first guess. -/
def Guess (w z r θ : ℝ) : Prop :=
  (3 / 10 < (w / r) ^ 2 ∧
    sin θ = z / r * (1 + k1 (smajAxis * wE2 / r) ((z / r) ^ 2) ((w / r) ^ 2))) ∨
  ((w / r) ^ 2 ≤ 3 / 10 ∧
    cos θ = w / r * (1 - k2 (smajAxis * wE2 / r) ((z / r) ^ 2) ((w / r) ^ 2)))

theorem k1_bounds {A X Y : ℝ} (hA : 0 ≤ A) (hA' : A ≤ 0.428) (hX : 0 ≤ X) (hX' : X ≤ 7 / 10) (hY : 0 ≤ Y) :
    0 ≤ k1 A X Y ∧ k1 A X Y ≤ 0.613 * Y := by
  obtain ⟨e1, e2⟩ := wE2_bounds
  unfold k1
  have h0 : 0 ≤ A + A ^ 2 + X * (wE2 / 2 * A - 5 / 2 * A ^ 2) := by
    have : 0 ≤ X * (wE2 / 2 * A) := by positivity
    have : X * A ^ 2 ≤ 7 / 10 * A ^ 2 := by nlinarith [sq_nonneg A]
    nlinarith
  have h1 : A + A ^ 2 + X * (wE2 / 2 * A - 5 / 2 * A ^ 2) ≤ 0.613 := by
    have : X * (wE2 / 2 * A) ≤ 7 / 10 * (0.00669438 / 2 * 0.428) := by
      apply mul_le_mul hX' _ (by positivity) (by norm_num)
      apply mul_le_mul _ hA' hA (by norm_num)
      linarith
    have : 0 ≤ X * A ^ 2 := by positivity
    nlinarith
  constructor
  · positivity
  · nlinarith

theorem k2_bounds {A X Y : ℝ} (hA : 0 ≤ A) (hA' : A ≤ 0.428) (hX : 0 ≤ X) (hX' : X ≤ 1) (hY : 0 ≤ Y)
    (hY' : Y ≤ 3 / 10) : 0 ≤ k2 A X Y ∧ k2 A X Y ≤ 0.44 := by
  obtain ⟨e1, e2⟩ := wE2_bounds
  unfold k2
  have t1 : Y * (wE2 / 2 * A) ≤ wE2 / 2 * A := by
    have : 0 ≤ wE2 / 2 * A := by positivity
    nlinarith
  have t2 : 0 ≤ Y * (wE2 / 2 * A) := by positivity
  have t3 : 0 ≤ Y * A ^ 2 := by positivity
  have t4 : Y * A ^ 2 ≤ 3 / 10 * A ^ 2 := by nlinarith [sq_nonneg A]
  have t5 : wE2 / 2 * A ≤ 0.0034 * A := by nlinarith
  have h0 : 0 ≤ A + wE2 / 2 * A - A ^ 2 - Y * (wE2 / 2 * A - 5 / 2 * A ^ 2) := by nlinarith
  have h1 : A + wE2 / 2 * A - A ^ 2 - Y * (wE2 / 2 * A - 5 / 2 * A ^ 2) ≤ 0.44 := by nlinarith
  constructor
  · positivity
  · nlinarith

/-- In the first branch the guessed sine is at most one, and the guess is within 60 degrees of the
direction of the point. -/
theorem branch1 {A X Y k : ℝ} (hX : 0 ≤ X) (hXY : X + Y = 1) (hY : 3 / 10 < Y) (hk : 0 ≤ k) (hk' : k ≤ 0.613 * Y) :
    X * (1 + k) ^ 2 ≤ 0.99 ∧ 1 / 2 ≤ √(1 - X * (1 + k) ^ 2) * √Y + X * (1 + k) := by
  have hY1 : Y = 1 - X := by linarith
  subst hY1
  have hb : (1 + k) ^ 2 ≤ (1 + 0.613 * (1 - X)) ^ 2 := by
    apply pow_le_pow_left₀ (by linarith)
    linarith
  have h1 : X * (1 + k) ^ 2 ≤ X * (1 + 0.613 * (1 - X)) ^ 2 := mul_le_mul_of_nonneg_left hb hX
  have h2 : X * (1 + 0.613 * (1 - X)) ^ 2 ≤ 0.99 := by
    have hX7 : X ≤ 7 / 10 := by linarith
    nlinarith [sq_nonneg (X - 0.7), mul_nonneg hX (by linarith : (0:ℝ) ≤ 7 / 10 - X), mul_nonneg hX (sq_nonneg (7 / 10 - X))]
  refine ⟨h1.trans h2, ?_⟩
  by_cases hX5 : 1 / 2 ≤ X
  · have : 0 ≤ √(1 - X * (1 + k) ^ 2) * √(1 - X) := by positivity
    nlinarith
  · have hX5 : X ≤ 1 / 2 := by linarith
    have : 1 / 2 - X ≤ √(1 - X * (1 + k) ^ 2) * √(1 - X) := by
      rw [← Real.sqrt_mul (by linarith)]
      apply Real.le_sqrt_of_sq_le
      have : (1 / 2 - X) ^ 2 ≤ (1 - X * (1 + 0.613 * (1 - X)) ^ 2) * (1 - X) := by
        nlinarith [mul_nonneg hX (by linarith : (0:ℝ) ≤ 1 / 2 - X), mul_nonneg hX (sq_nonneg (1 / 2 - X)), mul_nonneg (mul_nonneg hX hX) (by linarith : (0:ℝ) ≤ 1 / 2 - X), mul_nonneg (mul_nonneg hX hX) (sq_nonneg (1 / 2 - X))]
      nlinarith
    nlinarith

theorem gF_bounds (θ : ℝ) : 1 - wE2 ≤ gF θ ∧ gF θ ≤ 1 ∧ 0.9933 ≤ gF θ ∧ 0 < gF θ ∧ 0 < √(gF θ) := by
  obtain ⟨e1, e2⟩ := wE2_bounds
  have h1 : 1 - wE2 ≤ gF θ := by
    unfold gF
    nlinarith [sin_sq_le_one θ]
  have h2 : gF θ ≤ 1 := by
    unfold gF
    have : 0 ≤ wE2 * sin θ ^ 2 := by positivity
    linarith
  refine ⟨h1, h2, by linarith, by linarith, Real.sqrt_pos.mpr (by linarith)⟩

/-- The curvature term never cancels more than 43500 m. -/
theorem curv_bound (θ : ℝ) : -43500 ≤ mF θ - smajAxis * √(gF θ) := by
  obtain ⟨e1, e2⟩ := wE2_bounds
  obtain ⟨g1, g2, g3, g4, g5⟩ := gF_bounds θ
  have hq : √(gF θ) ^ 2 = gF θ := Real.sq_sqrt g4.le
  have hq1 : √(gF θ) ≤ 1 := by nlinarith
  have hq2 : 0.9966 ≤ √(gF θ) := by nlinarith
  set q := √(gF θ) with hqd
  have e : mF θ - smajAxis * q = smajAxis * ((1 - wE2) - q ^ 4) / (q ^ 3) := by
    unfold mF
    rw [← hqd, ← hq]
    field_simp
  rw [e, le_div_iff₀ (by positivity)]
  unfold smajAxis
  have h4 : q ^ 4 ≤ 1 := pow_le_one₀ (by linarith) hq1
  have h3 : (0.9966 : ℝ) ^ 3 ≤ q ^ 3 := pow_le_pow_left₀ (by norm_num) hq2 3
  nlinarith

/-- `f` and `m` of the code in terms of the guess. -/
theorem code_nF (w z θ : ℝ) : cos θ * (w - smajAxis / √(gF θ) * cos θ) +
    sin θ * (z - (1 - wE2) * (smajAxis / √(gF θ)) * sin θ) = nF w z θ := by
  obtain ⟨g1, g2, g3, g4, g5⟩ := gF_bounds θ
  have hq : √(gF θ) ^ 2 = gF θ := Real.sq_sqrt g4.le
  have hg : gF θ = 1 - wE2 * sin θ ^ 2 := rfl
  unfold nF
  have hs := sin_sq_add_cos_sq θ
  set q := √(gF θ)
  field_simp
  have : q ^ 2 = cos θ ^ 2 + (1 - wE2) * sin θ ^ 2 := by rw [hq, hg]; linarith
  linear_combination smajAxis * this

theorem code_tF (w z θ : ℝ) : cos θ * (z - (1 - wE2) * (smajAxis / √(gF θ)) * sin θ) -
    sin θ * (w - smajAxis / √(gF θ) * cos θ) = tF w z θ := by
  obtain ⟨g1, g2, g3, g4, g5⟩ := gF_bounds θ
  unfold tF
  set q := √(gF θ)
  field_simp
  ring

theorem code_mF (θ : ℝ) : (1 - wE2) * (smajAxis / √(gF θ)) / gF θ = mF θ := by
  unfold mF
  rw [mul_comm (gF θ), ← div_div, mul_comm smajAxis, ← mul_div_assoc]

set_option maxHeartbeats 1000000 in
/-- `ecef2llh` does not fail, and is one Newton step from the guess. -/
theorem ecef_char (x y z w r : ℝ) (hw : w = √(x * x + y * y)) (hr : r = √(x * x + y * y + z * z))
    (h5 : 100000 ≤ r) :
    ∃ θ, 0 ≤ θ ∧ θ ≤ π / 2 ∧ Guess w |z| r θ ∧ r / 2 ≤ w * cos θ + |z| * sin θ ∧
      0 < mF θ + nF w |z| θ ∧
      ecef2llh x y z smajAxis flattening = .ok
        (deg (if z < 0 then -(θ + tF w |z| θ / (mF θ + nF w |z| θ)) else θ + tF w |z| θ / (mF θ + nF w |z| θ)),
          deg (atan2 y x), nF w |z| θ + tF w |z| θ * (tF w |z| θ / (mF θ + nF w |z| θ)) / 2) := by
  obtain ⟨e1, e2⟩ := wE2_bounds
  have hw2 : w ^ 2 = x * x + y * y := by rw [hw, Real.sq_sqrt (by nlinarith [mul_self_nonneg x, mul_self_nonneg y])]
  have hr2 : r ^ 2 = x * x + y * y + z * z := by
    rw [hr, Real.sq_sqrt (by nlinarith [mul_self_nonneg x, mul_self_nonneg y, mul_self_nonneg z])]
  have hw0 : 0 ≤ w := by rw [hw]; positivity
  have hrp : 0 < r := by linarith
  have hz2 : |z| ^ 2 = z * z := by rw [sq_abs]; ring
  have hXY : (|z| / r) ^ 2 + (w / r) ^ 2 = 1 := by
    rw [div_pow, div_pow, ← add_div, hz2, hw2, hr2, div_eq_one_iff_eq (by rw [← hr2]; positivity)]
    ring
  set A := smajAxis * wE2 / r with hAd
  set X := (|z| / r) ^ 2 with hXd
  set Y := (w / r) ^ 2 with hYd
  have hX0 : 0 ≤ X := sq_nonneg _
  have hY0 : 0 ≤ Y := sq_nonneg _
  have hA0 : 0 ≤ A := by rw [hAd]; unfold smajAxis; positivity
  have hA1 : A ≤ 0.428 := by
    rw [hAd, div_le_iff₀ hrp]
    unfold smajAxis
    nlinarith
  -- the guess
  have guess : ∃ θ, 0 ≤ θ ∧ θ ≤ π / 2 ∧ Guess w |z| r θ ∧ r / 2 ≤ w * cos θ + |z| * sin θ ∧
      ((if 3 / 10 < Y then do
        let k ← div (Y * (smajAxis * wE2 + smajAxis * wE2 * (smajAxis * wE2) / r +
          X * (smajAxis * wE2 * wE2 / 2 - 5 / 2 * (smajAxis * wE2 * (smajAxis * wE2)) / r))) r
        let zr ← div |z| r
        let lat ← asin (zr * (1 + k))
        let c ← Geo.sqrt (1 - zr * (1 + k) * (zr * (1 + k)))
        pure (lat, zr * (1 + k), zr * (1 + k) * (zr * (1 + k)), c)
      else do
        let k ← div (X * (smajAxis * wE2 + smajAxis * wE2 * wE2 / 2 - smajAxis * wE2 * (smajAxis * wE2) / r -
          Y * (smajAxis * wE2 * wE2 / 2 - 5 / 2 * (smajAxis * wE2 * (smajAxis * wE2)) / r))) r
        let wr ← div w r
        let lat ← acos (wr * (1 - k))
        let s ← Geo.sqrt (1 - wr * (1 - k) * (wr * (1 - k)))
        pure (lat, s, 1 - wr * (1 - k) * (wr * (1 - k)), wr * (1 - k)) : Except Err (ℝ × ℝ × ℝ × ℝ))
        = .ok (θ, sin θ, sin θ ^ 2, cos θ)) := by
    by_cases hb : 3 / 10 < Y
    · obtain ⟨b0, b1⟩ := k1_bounds (X := X) (Y := Y) hA0 hA1 hX0 (by linarith) hY0
      obtain ⟨c0, c1⟩ := branch1 (A := A) hX0 hXY hb b0 b1
      have hs0 : 0 ≤ |z| / r * (1 + k1 A X Y) := by positivity
      have hsq : (|z| / r * (1 + k1 A X Y)) ^ 2 = X * (1 + k1 A X Y) ^ 2 := by rw [mul_pow]
      have hs1 : |z| / r * (1 + k1 A X Y) ≤ 1 := by nlinarith
      have hsin : sin (arcsin (|z| / r * (1 + k1 A X Y))) = |z| / r * (1 + k1 A X Y) :=
        sin_arcsin (by linarith) hs1
      have hcos : cos (arcsin (|z| / r * (1 + k1 A X Y))) = √(1 - X * (1 + k1 A X Y) ^ 2) := by
        rw [cos_arcsin, hsq]
      have hk : Y * (smajAxis * wE2 + smajAxis * wE2 * (smajAxis * wE2) / r +
          X * (smajAxis * wE2 * wE2 / 2 - 5 / 2 * (smajAxis * wE2 * (smajAxis * wE2)) / r)) / r = k1 A X Y := by
        unfold k1
        rw [hAd]
        field_simp
      refine ⟨arcsin (|z| / r * (1 + k1 A X Y)), arcsin_nonneg.mpr hs0, arcsin_le_pi_div_two _, Or.inl ⟨hb, hsin⟩, ?_, ?_⟩
      · rw [hsin, hcos]
        have hy : √Y = w / r := by rw [hYd, Real.sqrt_sq (by positivity)]
        rw [hy] at c1
        have : r * (1 / 2) ≤ r * (√(1 - X * (1 + k1 A X Y) ^ 2) * (w / r) + X * (1 + k1 A X Y)) :=
          mul_le_mul_of_nonneg_left c1 hrp.le
        have e : r * (√(1 - X * (1 + k1 A X Y) ^ 2) * (w / r) + X * (1 + k1 A X Y)) =
            w * √(1 - X * (1 + k1 A X Y) ^ 2) + |z| * (|z| / r * (1 + k1 A X Y)) := by
          rw [hXd]
          field_simp
        linarith
      · rw [if_pos hb]
        unfold div
        rw [if_neg hrp.ne', if_neg hrp.ne']
        simp only [bind, Except.bind, hk]
        unfold asin Geo.sqrt
        rw [if_pos ⟨by linarith, hs1⟩]
        simp only [Except.bind]
        rw [if_pos (by rw [← pow_two, hsq]; linarith), hsin, hcos, ← hsq]
        simp only [pure, Except.pure, pow_two]
    · obtain ⟨b0, b1⟩ := k2_bounds (X := X) (Y := Y) hA0 hA1 hX0 (by linarith) hY0 (by linarith)
      have hY3 : Y ≤ 3 / 10 := by linarith
      have hc0 : 0 ≤ w / r * (1 - k2 A X Y) := mul_nonneg (by positivity) (by linarith)
      have hc1 : w / r * (1 - k2 A X Y) ≤ w / r := by
        have : 0 ≤ w / r := by positivity
        nlinarith
      have hsq : (w / r * (1 - k2 A X Y)) ^ 2 ≤ 3 / 10 := by
        have : (w / r * (1 - k2 A X Y)) ^ 2 ≤ (w / r) ^ 2 := pow_le_pow_left₀ hc0 hc1 2
        linarith
      have hc2 : w / r * (1 - k2 A X Y) ≤ 1 := by nlinarith
      have hcos : cos (arccos (w / r * (1 - k2 A X Y))) = w / r * (1 - k2 A X Y) :=
        cos_arccos (by linarith) hc2
      have hsin : sin (arccos (w / r * (1 - k2 A X Y))) = √(1 - (w / r * (1 - k2 A X Y)) ^ 2) := sin_arccos _
      have hk : X * (smajAxis * wE2 + smajAxis * wE2 * wE2 / 2 - smajAxis * wE2 * (smajAxis * wE2) / r -
          Y * (smajAxis * wE2 * wE2 / 2 - 5 / 2 * (smajAxis * wE2 * (smajAxis * wE2)) / r)) / r = k2 A X Y := by
        unfold k2
        rw [hAd]
        field_simp
      refine ⟨arccos (w / r * (1 - k2 A X Y)), arccos_nonneg _, arccos_le_pi_div_two.mpr hc0, Or.inr ⟨hY3, hcos⟩, ?_, ?_⟩
      · have hs7 : 5 / 6 ≤ sin (arccos (w / r * (1 - k2 A X Y))) := by
          rw [hsin]
          apply Real.le_sqrt_of_sq_le
          linarith
        have hz7 : 5 / 6 * r ≤ |z| := by
          have : 5 / 6 ≤ |z| / r := by
            have : 7 / 10 ≤ (|z| / r) ^ 2 := by linarith
            have h0 : 0 ≤ |z| / r := by positivity
            nlinarith
          rw [le_div_iff₀ hrp] at this
          exact this
        rw [hcos]
        have : 0 ≤ w * (w / r * (1 - k2 A X Y)) := mul_nonneg hw0 hc0
        nlinarith
      · rw [if_neg hb]
        unfold div
        rw [if_neg hrp.ne', if_neg hrp.ne']
        simp only [bind, Except.bind, hk]
        unfold acos Geo.sqrt
        rw [if_pos ⟨by linarith, hc2⟩]
        simp only [Except.bind]
        rw [if_pos (by rw [← pow_two]; linarith), hsin, hcos, Real.sq_sqrt (by linarith)]
        simp only [pure, Except.pure, pow_two]
  obtain ⟨θ, ht0, ht1, hg, hdir, hcode⟩ := guess
  have hpos : 0 < mF θ + nF w |z| θ := by
    have := curv_bound θ
    unfold nF
    linarith
  refine ⟨θ, ht0, ht1, hg, hdir, hpos, ?_⟩
  obtain ⟨g1, g2, g3, g4, g5⟩ := gF_bounds θ
  have hr' : x * x + y * y + z * z ≠ 0 := by rw [← hr2]; positivity
  have hXc : z * z / (x * x + y * y + z * z) = X := by rw [hXd, div_pow, hz2, hr2]
  have hYc : (x * x + y * y) / (x * x + y * y + z * z) = Y := by rw [hYd, div_pow, hw2, hr2]
  have hfl : flattening ≠ 0 := by unfold flattening; norm_num
  have hE : 1 / flattening * (2 - 1 / flattening) = wE2 := rfl
  have hgg : 1 - wE2 * sin θ ^ 2 = gF θ := rfl
  unfold ecef2llh
  rw [show div 1 flattening = .ok (1 / flattening) by unfold div; rw [if_neg hfl]]
  simp only [bind, Except.bind, hE]
  rw [show Geo.sqrt (x * x + y * y) = .ok w by
    unfold Geo.sqrt; rw [if_pos (by rw [← hw2]; positivity), hw]]
  rw [show Geo.sqrt (x * x + y * y + z * z) = .ok r by
    unfold Geo.sqrt; rw [if_pos (by rw [← hr2]; positivity), hr]]
  simp only
  rw [if_neg (by linarith)]
  rw [show div (z * z) (x * x + y * y + z * z) = .ok X by unfold div; rw [if_neg hr', hXc]]
  rw [show div (x * x + y * y) (x * x + y * y + z * z) = .ok Y by unfold div; rw [if_neg hr', hYc]]
  simp only
  rw [show div (smajAxis * wE2 * (smajAxis * wE2)) r = .ok (smajAxis * wE2 * (smajAxis * wE2) / r) by
    unfold div; rw [if_neg hrp.ne']]
  rw [show div (5 / 2 * (smajAxis * wE2 * (smajAxis * wE2))) r = .ok (5 / 2 * (smajAxis * wE2 * (smajAxis * wE2)) / r) by
    unfold div; rw [if_neg hrp.ne']]
  simp only [bind, Except.bind] at hcode ⊢
  rw [hcode]
  simp only [hgg]
  rw [show Geo.sqrt (gF θ) = .ok (√(gF θ)) by unfold Geo.sqrt; rw [if_pos g4.le]]
  simp only
  rw [show div smajAxis √(gF θ) = .ok (smajAxis / √(gF θ)) by unfold div; rw [if_neg g5.ne']]
  simp only
  rw [show div ((1 - wE2) * (smajAxis / √(gF θ))) (gF θ) = .ok (mF θ) by
    unfold div; rw [if_neg g4.ne', code_mF]]
  simp only [code_nF, code_tF]
  rw [show div (tF w |z| θ) (mF θ + nF w |z| θ) = .ok (tF w |z| θ / (mF θ + nF w |z| θ)) by
    unfold div; rw [if_neg hpos.ne']]
  simp only [pure, Except.pure]


/-- The guess is determined by the point. -/
theorem guess_unique {w z r θ θ' : ℝ} (h : Guess w z r θ) (h' : Guess w z r θ') (a : 0 ≤ θ) (b : θ ≤ π / 2)
    (a' : 0 ≤ θ') (b' : θ' ≤ π / 2) : θ = θ' := by
  have hp := pi_pos
  rcases h with ⟨k, h⟩ | ⟨k, h⟩ <;> rcases h' with ⟨k', h'⟩ | ⟨k', h'⟩
  · exact injOn_sin ⟨by linarith, b⟩ ⟨by linarith, b'⟩ (h.trans h'.symm)
  · linarith
  · linarith
  · exact injOn_cos ⟨a, by linarith⟩ ⟨a', by linarith⟩ (h.trans h'.symm)

theorem ecef_core (x y z : ℝ) (h : √(x * x + y * y + z * z) < 100000) :
    ecef2llh x y z smajAxis flattening = .ok (0, 0, -10000000) := by
  have hfl : flattening ≠ 0 := by unfold flattening; norm_num
  unfold ecef2llh
  rw [show div 1 flattening = .ok (1 / flattening) by unfold div; rw [if_neg hfl]]
  simp only [bind, Except.bind]
  rw [show Geo.sqrt (x * x + y * y) = .ok √(x * x + y * y) by
    unfold Geo.sqrt
    rw [if_pos (by nlinarith [mul_self_nonneg x, mul_self_nonneg y, mul_self_nonneg z])]]
  rw [show Geo.sqrt (x * x + y * y + z * z) = .ok √(x * x + y * y + z * z) by
    unfold Geo.sqrt
    rw [if_pos (by nlinarith [mul_self_nonneg x, mul_self_nonneg y, mul_self_nonneg z])]]
  simp only
  rw [if_pos h]
  rfl

/-- The curvature term of the residue is non-negative in the first quadrant. -/
theorem curv_nonneg (θ : ℝ) (hc : 0 ≤ cos θ) :
    0 ≤ smajAxis * wE2 * cos θ / √(gF θ) + (mF θ - smajAxis * √(gF θ)) := by
  obtain ⟨e1, e2⟩ := wE2_bounds
  obtain ⟨g1, g2, g3, g4, g5⟩ := gF_bounds θ
  have hq : √(gF θ) ^ 2 = 1 - wE2 * sin θ ^ 2 := Real.sq_sqrt g4.le
  have hsc := sin_sq_add_cos_sq θ
  set q := √(gF θ) with hqd
  have e : smajAxis * wE2 * cos θ / q + (mF θ - smajAxis * q) =
      smajAxis * ((1 - wE2) - (q ^ 2) ^ 2 + wE2 * cos θ * q ^ 2) / (q ^ 3) := by
    unfold mF
    rw [← hqd, show gF θ = q ^ 2 from (Real.sq_sqrt g4.le).symm]
    field_simp
    ring
  rw [e, hq]
  have hc1 : cos θ ≤ 1 := cos_le_one θ
  have hs1 : sin θ ^ 2 ≤ 1 := sin_sq_le_one θ
  have key : 0 ≤ (1 - wE2) - (1 - wE2 * sin θ ^ 2) ^ 2 + wE2 * cos θ * (1 - wE2 * sin θ ^ 2) := by
    have h1 : 0 ≤ cos θ - (1 - sin θ ^ 2) := by nlinarith
    have h2 : (1 - wE2) - (1 - wE2 * sin θ ^ 2) ^ 2 + wE2 * cos θ * (1 - wE2 * sin θ ^ 2) =
        wE2 * (cos θ - (1 - sin θ ^ 2)) + wE2 * sin θ ^ 2 * (1 - wE2 * (sin θ ^ 2 + cos θ)) := by ring
    rw [h2]
    have h3 : 0 ≤ 1 - wE2 * (sin θ ^ 2 + cos θ) := by nlinarith
    have hw0 : 0 ≤ wE2 := by linarith
    have h4 : 0 ≤ wE2 * sin θ ^ 2 := by positivity
    exact add_nonneg (mul_nonneg hw0 h1) (mul_nonneg h4 h3)
  have : (0 : ℝ) ≤ smajAxis := by unfold smajAxis; norm_num
  positivity

theorem core1 {C X k c s2 : ℝ} (hC0 : 0 ≤ C) (hX0 : 0 ≤ X) (hXY : X + C ^ 2 = 1) (hk : 0 ≤ k) (hk' : k ≤ 0.613 * C ^ 2)
    (hs : s2 = X * (1 + k) ^ 2) (hc0 : 0 ≤ c) (hc1 : c ≤ 1) (hsc : s2 + c ^ 2 = 1) :
    C * (1 + k) * (1 - c) < c + s2 := by
  have e2 : s2 = 1 - c ^ 2 := by linarith
  by_cases hY : C ^ 2 ≤ 1 / 2
  · have hC7 : C ≤ 0.7072 := by
      by_contra h
      nlinarith
    have hk3 : 1 + k ≤ 1.3066 := by linarith
    have h1 : C * (1 + k) ≤ 0.7072 * 1.3066 := mul_le_mul hC7 hk3 (by linarith) (by norm_num)
    have h2 : C * (1 + k) * (1 - c) ≤ 0.7072 * 1.3066 * (1 - c) := mul_le_mul_of_nonneg_right h1 (by linarith)
    rw [e2]
    nlinarith
  · have hX5 : X ≤ 1 / 2 := by linarith
    have hC1 : C ≤ 1 := by
      by_contra h
      nlinarith
    have hk6 : 1 + k ≤ 1 + 0.613 * (1 - X) := by linarith
    have hsb : s2 ≤ 0.8536 := by
      rw [hs]
      have : X * (1 + k) ^ 2 ≤ X * (1 + 0.613 * (1 - X)) ^ 2 :=
        mul_le_mul_of_nonneg_left (pow_le_pow_left₀ (by linarith) hk6 2) hX0
      have : X * (1 + 0.613 * (1 - X)) ^ 2 ≤ 0.8536 := by
        clear * - hX0 hX5
        nlinarith [mul_nonneg hX0 (by linarith : (0:ℝ) ≤ 1 / 2 - X), mul_nonneg hX0 (sq_nonneg (1 / 2 - X))]
      linarith
    have hc38 : 0.38 ≤ c := by
      by_contra h
      have : c ^ 2 ≤ 0.38 ^ 2 := pow_le_pow_left₀ hc0 (by linarith) 2
      linarith
    have h1 : C * (1 + k) ≤ 1 * 1.613 := mul_le_mul hC1 (by linarith) (by linarith) (by norm_num)
    have h2 : C * (1 + k) * (1 - c) ≤ 1 * 1.613 * (1 - c) := mul_le_mul_of_nonneg_right h1 (by linarith)
    rw [e2]
    clear * - h2 hc38 hc1
    nlinarith

set_option maxHeartbeats 1000000 in
/-- The latitude computed for a point north of the equatorial plane is positive. -/
theorem step_pos {w z r θ : ℝ} (hw : 0 ≤ w) (hz : 0 < z) (h5 : 100000 ≤ r) (hwz : w ^ 2 + z ^ 2 = r ^ 2)
    (h0 : 0 ≤ θ) (h1 : θ ≤ π / 2) (hg : Guess w z r θ) (hpos : 0 < mF θ + nF w z θ) :
    0 < θ + tF w z θ / (mF θ + nF w z θ) := by
  obtain ⟨e1, e2⟩ := wE2_bounds
  have hrp : 0 < r := by linarith
  have hc0 : 0 ≤ cos θ := cos_nonneg_of_mem_Icc ⟨by linarith [pi_pos], h1⟩
  have hs0 : 0 ≤ sin θ := sin_nonneg_of_nonneg_of_le_pi h0 (by linarith [pi_pos])
  have hsc := sin_sq_add_cos_sq θ
  have hc1 : cos θ ≤ 1 := cos_le_one θ
  have hsθ : sin θ ≤ θ := sin_le h0
  have hD := curv_nonneg θ hc0
  have hXY : (z / r) ^ 2 + (w / r) ^ 2 = 1 := by
    rw [div_pow, div_pow, ← add_div, div_eq_one_iff_eq (by positivity)]
    linarith
  have hA0 : 0 ≤ smajAxis * wE2 / r := by unfold smajAxis; positivity
  have hA1 : smajAxis * wE2 / r ≤ 0.428 := by
    rw [div_le_iff₀ hrp]
    unfold smajAxis
    nlinarith
  -- the geometric part
  have geo : 0 < z * cos θ + z * sin θ ^ 2 - w * sin θ * (1 - cos θ) := by
    rcases hg with ⟨hb, hs⟩ | ⟨hb, hc⟩
    · obtain ⟨b0, b1⟩ := k1_bounds (X := (z / r) ^ 2) (Y := (w / r) ^ 2) hA0 hA1 (sq_nonneg _) (by linarith) (sq_nonneg _)
      obtain ⟨d1, -⟩ := branch1 (A := 0) (sq_nonneg _) hXY hb b0 b1
      set k := k1 (smajAxis * wE2 / r) ((z / r) ^ 2) ((w / r) ^ 2)
      set X := (z / r) ^ 2 with hX
      set C := w / r with hC
      have hC0 : 0 ≤ C := by positivity
      have hwC : w = C * r := by rw [hC]; field_simp
      have hzs : z * (1 + k) = sin θ * r := by rw [hs]; field_simp
      have hsX : sin θ ^ 2 = X * (1 + k) ^ 2 := by rw [hs, mul_pow]
      have hsp : 0 < sin θ := by rw [hs]; positivity
      have hX0 : 0 ≤ X := sq_nonneg _
      have core : C * (1 + k) * (1 - cos θ) < cos θ + sin θ ^ 2 := by
        exact core1 hC0 hX0 hXY b0 b1 hsX hc0 hc1 hsc
      have h1k : 0 < 1 + k := by linarith
      have : 0 < (1 + k) * (z * cos θ + z * sin θ ^ 2 - w * sin θ * (1 - cos θ)) := by
        have e : (1 + k) * (z * cos θ + z * sin θ ^ 2 - w * sin θ * (1 - cos θ)) =
            z * (1 + k) * (cos θ + sin θ ^ 2) - C * r * sin θ * (1 + k) * (1 - cos θ) := by
          rw [hwC]; ring
        rw [e, hzs]
        have : 0 < sin θ * r * (cos θ + sin θ ^ 2 - C * (1 + k) * (1 - cos θ)) := by
          have : 0 < cos θ + sin θ ^ 2 - C * (1 + k) * (1 - cos θ) := by linarith
          positivity
        linarith
      exact (mul_pos_iff_of_pos_left h1k).mp this
    · obtain ⟨b0, b1⟩ := k2_bounds (X := (z / r) ^ 2) (Y := (w / r) ^ 2) hA0 hA1 (sq_nonneg _) (by linarith [sq_nonneg (w / r)]) (sq_nonneg _) hb
      have hw5 : w / r ≤ 0.55 := by
        have : 0 ≤ w / r := by positivity
        nlinarith
      have hz8 : 0.83 ≤ z / r := by
        have : 0 ≤ z / r := by positivity
        nlinarith
      rw [div_le_iff₀ hrp] at hw5
      rw [le_div_iff₀ hrp] at hz8
      have hcb : cos θ ≤ 0.55 := by
        rw [hc]
        have : w / r ≤ 0.55 := by rw [div_le_iff₀ hrp]; exact hw5
        have h0 : 0 ≤ w / r := by positivity
        nlinarith
      have hs8 : 0.83 ≤ sin θ := by nlinarith
      have hzs : w < z * sin θ := by nlinarith
      have hzc : 0 ≤ z * cos θ := by positivity
      have hsp : 0 < sin θ := by linarith
      have : w * sin θ * (1 - cos θ) ≤ w * sin θ := by
        have : 0 ≤ w * sin θ * cos θ := by positivity
        linarith
      nlinarith
  have hT : tF w z θ + sin θ * (mF θ + nF w z θ) =
      (z * cos θ + z * sin θ ^ 2 - w * sin θ * (1 - cos θ)) +
      sin θ * (smajAxis * wE2 * cos θ / √(gF θ) + (mF θ - smajAxis * √(gF θ))) := by
    unfold tF nF
    ring
  have : 0 < tF w z θ + θ * (mF θ + nF w z θ) := by
    have : sin θ * (mF θ + nF w z θ) ≤ θ * (mF θ + nF w z θ) := mul_le_mul_of_nonneg_right hsθ hpos.le
    have : 0 ≤ sin θ * (smajAxis * wE2 * cos θ / √(gF θ) + (mF θ - smajAxis * √(gF θ))) := mul_nonneg hs0 hD
    linarith
  have e : θ + tF w z θ / (mF θ + nF w z θ) = (tF w z θ + θ * (mF θ + nF w z θ)) / (mF θ + nF w z θ) := by
    field_simp
    ring
  rw [e]
  positivity

end Nmea.Geo
