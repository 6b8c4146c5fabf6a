import Verif.Model.Geo
import Verif.Spec.Geo
import Mathlib.Geometry.Euclidean.Angle.Unoriented.TriangleInequality
import Mathlib.Analysis.SpecialFunctions.Integrals.Basic
/-!
# Distance, area and bearing (C42), over the real numbers
-/
namespace Nmea.Geo
open Py Real InnerProductGeometry

theorem rad_eq (c : ℝ) : rad c = toRad c := by unfold rad toRad; ring

theorem inner_three (u v : EuclideanSpace ℝ (Fin 3)) :
    inner ℝ u v = u 0 * v 0 + u 1 * v 1 + u 2 * v 2 := by
  simp [PiLp.inner_apply, Fin.sum_univ_three, mul_comm]

theorem norm_spherePoint (lat lon : ℝ) : ‖spherePoint lat lon‖ = 1 := by
  have h : ‖spherePoint lat lon‖ ^ 2 = 1 := by
    rw [← real_inner_self_eq_norm_sq, inner_three]
    simp only [spherePoint, PiLp.toLp_apply, Matrix.cons_val_zero, Matrix.cons_val_one, Matrix.cons_val]
    nlinarith [sin_sq_add_cos_sq (toRad lat), sin_sq_add_cos_sq (toRad lon)]
  have := norm_nonneg (spherePoint lat lon)
  nlinarith

theorem inner_sphere (lat1 lon1 lat2 lon2 : ℝ) :
    cos (rad lat2 - rad lat1) - cos (rad lat1) * cos (rad lat2) * (1 - cos (rad lon2 - rad lon1)) =
      inner ℝ (spherePoint lat1 lon1) (spherePoint lat2 lon2) := by
  rw [inner_three]
  simp only [spherePoint, PiLp.toLp_apply, Matrix.cons_val_zero, Matrix.cons_val_one, Matrix.cons_val, rad_eq]
  rw [cos_sub, cos_sub]
  ring

/-- C42. `haversine` never fails: it is the radius times the angle, seen from the centre of the sphere,
between the two points. -/
theorem C42_haversine (lat1 lon1 lat2 lon2 radius : ℝ) :
    haversine lat1 lon1 lat2 lon2 radius =
      .ok (radius * angle (spherePoint lat1 lon1) (spherePoint lat2 lon2)) := by
  unfold haversine
  simp only [inner_sphere]
  have h := abs_real_inner_le_norm (spherePoint lat1 lon1) (spherePoint lat2 lon2)
  rw [norm_spherePoint, norm_spherePoint, mul_one, abs_le] at h
  unfold acos angle
  rw [if_pos h, norm_spherePoint, norm_spherePoint, mul_one, div_one]
  rfl

/-- C42. `haversine` is a distance on the sphere of non-negative radius: between zero and half the
circumference, symmetric, satisfying the triangle inequality. -/
theorem C42_haversine_metric (lat1 lon1 lat2 lon2 lat3 lon3 radius : ℝ) (hr : 0 ≤ radius) :
    ∃ d12 d21 d23 d13, haversine lat1 lon1 lat2 lon2 radius = .ok d12 ∧
      haversine lat2 lon2 lat1 lon1 radius = .ok d21 ∧ haversine lat2 lon2 lat3 lon3 radius = .ok d23 ∧
      haversine lat1 lon1 lat3 lon3 radius = .ok d13 ∧
      0 ≤ d12 ∧ d12 ≤ π * radius ∧ d12 = d21 ∧ d13 ≤ d12 + d23 := by
  refine ⟨_, _, _, _, C42_haversine .., C42_haversine .., C42_haversine .., C42_haversine .., ?_, ?_, ?_, ?_⟩
  · exact mul_nonneg hr (angle_nonneg _ _)
  · rw [mul_comm]
    exact mul_le_mul_of_nonneg_right (angle_le_pi _ _) hr
  · rw [angle_comm]
  · rw [← mul_add]
    exact mul_le_mul_of_nonneg_left (angle_le_angle_add_angle _ _ _) hr

theorem angle_sphere_zero (lat1 lon1 lat2 lon2 : ℝ) :
    angle (spherePoint lat1 lon1) (spherePoint lat2 lon2) = 0 ↔ spherePoint lat1 lon1 = spherePoint lat2 lon2 := by
  constructor
  · intro h
    rw [angle_eq_zero_iff] at h
    obtain ⟨-, r, hr, e⟩ := h
    have : ‖spherePoint lat2 lon2‖ = ‖r • spherePoint lat1 lon1‖ := by rw [e]
    rw [norm_smul, norm_spherePoint, norm_spherePoint, mul_one, norm_eq_abs, abs_of_pos hr] at this
    rw [e, ← this, one_smul]
  · intro h
    rw [h]
    apply angle_self
    intro h0
    have := norm_spherePoint lat2 lon2
    rw [h0, norm_zero] at this
    exact absurd this (by norm_num)

/-- C42. `haversine` is zero exactly when the coordinates name the same point of the sphere. -/
theorem C42_haversine_zero (lat1 lon1 lat2 lon2 radius : ℝ) (hr : 0 < radius) :
    haversine lat1 lon1 lat2 lon2 radius = .ok 0 ↔ spherePoint lat1 lon1 = spherePoint lat2 lon2 := by
  rw [C42_haversine, ← angle_sphere_zero]
  constructor
  · intro h
    have := Except.ok.inj h
    rcases mul_eq_zero.mp this with h | h
    · exact absurd h hr.ne'
    · exact h
  · intro h
    rw [h, mul_zero]

/-- C42. A quarter turn along the equator. -/
example : haversine 0 0 0 90 2 = .ok π := by
  rw [C42_haversine]
  have h : angle (spherePoint 0 0) (spherePoint 0 90) = π / 2 := by
    rw [← inner_eq_zero_iff_angle_eq_pi_div_two, inner_three]
    simp only [spherePoint, PiLp.toLp_apply, Matrix.cons_val_zero, Matrix.cons_val_one, Matrix.cons_val]
    have : toRad 90 = π / 2 := by unfold toRad; ring
    rw [this]
    simp [toRad]
  rw [h]
  congr 1
  ring

/-! ## Bearing -/

theorem pmod_range (x : ℝ) {m : ℝ} (hm : 0 < m) : 0 ≤ pmod x m ∧ pmod x m < m := by
  unfold pmod
  have h1 := Int.floor_le (x / m)
  have h2 := Int.lt_floor_add_one (x / m)
  rw [le_div_iff₀ hm] at h1
  rw [div_lt_iff₀ hm] at h2
  constructor <;> nlinarith

/-- C42. `bearing` is in [0, 360). -/
theorem C42_bearing_range (lat1 lon1 lat2 lon2 : ℝ) :
    0 ≤ bearing lat1 lon1 lat2 lon2 ∧ bearing lat1 lon1 lat2 lon2 < 360 :=
  pmod_range _ (by norm_num)

theorem trig_bearing (t : ℝ) (k : ℤ) :
    sin (toRad (t * 180 / π + 360 - 360 * (k : ℝ))) = sin t ∧ cos (toRad (t * 180 / π + 360 - 360 * (k : ℝ))) = cos t := by
  have e : toRad (t * 180 / π + 360 - 360 * (k : ℝ)) = t - ((k - 1 : ℤ) : ℝ) * (2 * π) := by
    unfold toRad
    push_cast
    field_simp
    ring
  rw [e, sin_sub_int_mul_two_pi, cos_sub_int_mul_two_pi]
  exact ⟨rfl, rfl⟩

/-- C42. `bearing` is the compass direction of the second point at the first: the horizontal part of the
direction to it is a non-negative multiple of `cos b` north plus `sin b` east. -/
theorem C42_bearing (lat1 lon1 lat2 lon2 : ℝ) :
    ∃ ρ : ℝ, 0 ≤ ρ ∧
      inner ℝ (northAt lat1 lon1) (spherePoint lat2 lon2) = ρ * cos (toRad (bearing lat1 lon1 lat2 lon2)) ∧
      inner ℝ (eastAt lon1) (spherePoint lat2 lon2) = ρ * sin (toRad (bearing lat1 lon1 lat2 lon2)) := by
  set y := sin (rad lon2 - rad lon1) * cos (rad lat2) with hy
  set x := cos (rad lat1) * sin (rad lat2) - sin (rad lat1) * cos (rad lat2) * cos (rad lon2 - rad lon1) with hx
  have hb : bearing lat1 lon1 lat2 lon2 = atan2 y x * 180 / π + 360 - 360 * (⌊(atan2 y x * 180 / π + 360) / 360⌋ : ℝ) := rfl
  obtain ⟨hs, hc⟩ := trig_bearing (atan2 y x) ⌊(atan2 y x * 180 / π + 360) / 360⌋
  refine ⟨‖(⟨x, y⟩ : ℂ)‖, norm_nonneg _, ?_, ?_⟩
  · rw [hb, hc]
    unfold atan2
    rw [Complex.norm_mul_cos_arg, inner_three, hx]
    simp only [spherePoint, northAt, PiLp.toLp_apply, Matrix.cons_val_zero, Matrix.cons_val_one, Matrix.cons_val, rad_eq]
    rw [cos_sub]
    ring
  · rw [hb, hs]
    unfold atan2
    rw [Complex.norm_mul_sin_arg, inner_three, hy]
    simp only [spherePoint, eastAt, PiLp.toLp_apply, Matrix.cons_val_zero, Matrix.cons_val_one, Matrix.cons_val, rad_eq]
    rw [sin_sub]
    ring

/-- C42. Due east along the equator is 90 degrees. -/
example : bearing 0 0 0 90 = 90 := by
  have h0 : rad 0 = 0 := by simp [rad]
  have h90 : rad 90 = π / 2 := by unfold rad; ring
  unfold bearing
  simp only [h0, h90, sub_zero, sin_pi_div_two, cos_pi_div_two, cos_zero, sin_zero]
  have : atan2 (1 * 1) (1 * 0 - 0 * 1 * 0) = π / 2 := by
    unfold atan2
    have : (⟨1 * 0 - 0 * 1 * 0, 1 * 1⟩ : ℂ) = Complex.I := by
      apply Complex.ext <;> simp
    rw [this, Complex.arg_I]
  rw [this]
  have e : π / 2 * 180 / π + 360 = 450 := by field_simp; norm_num
  rw [e]
  unfold pmod
  have : ⌊(450 : ℝ) / 360⌋ = 1 := by rw [Int.floor_eq_iff]; norm_num
  rw [this]
  norm_num

/-! ## Planar distance -/

/-- C42. `planar` never fails; its value is the length of the step of `dlat` north and `cos(lat1) * dlon`
east in the plane, so it is non-negative. -/
theorem C42_planar (lat1 lon1 lat2 lon2 radius : ℝ) :
    ∃ d, planar lat1 lon1 lat2 lon2 radius = .ok (radius * d) ∧ 0 ≤ d ∧
      d ^ 2 = toRad (lat2 - lat1) ^ 2 + (cos (toRad lat1) * toRad (lon2 - lon1)) ^ 2 := by
  have e : ((rad lon2 - rad lon1) * cos (rad lat1)) * ((rad lon2 - rad lon1) * cos (rad lat1)) +
      (rad lat2 - rad lat1) * (rad lat2 - rad lat1) =
      toRad (lat2 - lat1) ^ 2 + (cos (toRad lat1) * toRad (lon2 - lon1)) ^ 2 := by
    have : ∀ p q, toRad (p - q) = toRad p - toRad q := by intro p q; unfold toRad; ring
    simp only [rad_eq, this]
    ring
  refine ⟨√(toRad (lat2 - lat1) ^ 2 + (cos (toRad lat1) * toRad (lon2 - lon1)) ^ 2), ?_, Real.sqrt_nonneg _,
    Real.sq_sqrt (by positivity)⟩
  unfold planar
  simp only [e]
  unfold Geo.sqrt
  rw [if_pos (by positivity)]
  rfl

/-- C42. Away from the poles `planar` is zero exactly for equal coordinates. -/
theorem C42_planar_zero (lat1 lon1 lat2 lon2 radius : ℝ) (hr : 0 < radius) (hp : |lat1| < 90) :
    planar lat1 lon1 lat2 lon2 radius = .ok 0 ↔ lat1 = lat2 ∧ lon1 = lon2 := by
  obtain ⟨d, h1, h2, h3⟩ := C42_planar lat1 lon1 lat2 lon2 radius
  have hc : 0 < cos (toRad lat1) := by
    rw [abs_lt] at hp
    unfold toRad
    apply cos_pos_of_mem_Ioo
    have := pi_pos
    constructor <;> nlinarith
  rw [h1]
  have key : d = 0 ↔ lat1 = lat2 ∧ lon1 = lon2 := by
    constructor
    · intro h
      rw [h] at h3
      have a1 : toRad (lat2 - lat1) = 0 := by nlinarith [sq_nonneg (toRad (lat2 - lat1)), sq_nonneg (cos (toRad lat1) * toRad (lon2 - lon1))]
      have a2 : cos (toRad lat1) * toRad (lon2 - lon1) = 0 := by nlinarith [sq_nonneg (toRad (lat2 - lat1)), sq_nonneg (cos (toRad lat1) * toRad (lon2 - lon1))]
      have z : ∀ t, toRad t = 0 → t = 0 := by
        intro t h
        unfold toRad at h
        have := pi_pos
        have : π * t = 0 := by linarith
        rcases mul_eq_zero.mp this with h | h
        · exact absurd h pi_ne_zero
        · exact h
      have b1 := z _ a1
      have b2 := z _ ((mul_eq_zero.mp a2).resolve_left hc.ne')
      exact ⟨by linarith, by linarith⟩
    · rintro ⟨rfl, rfl⟩
      simp only [sub_self] at h3
      have : toRad 0 = 0 := by simp [toRad]
      rw [this] at h3
      nlinarith
  rw [← key]
  constructor
  · intro h
    rcases mul_eq_zero.mp (Except.ok.inj h) with h | h
    · exact absurd h hr.ne'
    · exact h
  · intro h
    rw [h, mul_zero]

/-- C42. Along a meridian the planar distance is the great-circle distance, whatever the separation. -/
theorem C42_planar_meridian (lat1 lat2 lon radius : ℝ) (h : |lat2 - lat1| ≤ 180) :
    planar lat1 lon lat2 lon radius = haversine lat1 lon lat2 lon radius := by
  obtain ⟨d, h1, h2, h3⟩ := C42_planar lat1 lon lat2 lon radius
  have hd : d = |toRad (lat2 - lat1)| := by
    have : toRad (lon - lon) = 0 := by simp [toRad]
    rw [this, mul_zero] at h3
    rw [← abs_of_nonneg h2, ← sq_eq_sq_iff_abs_eq_abs]
    linarith
  have hle : |toRad (lat2 - lat1)| ≤ π := by
    unfold toRad
    rw [abs_div, abs_mul, abs_of_pos pi_pos, abs_of_pos (by norm_num : (0 : ℝ) < 180)]
    have := pi_pos
    rw [div_le_iff₀ (by norm_num)]
    nlinarith
  rw [h1, hd]
  unfold haversine
  have e : rad lat2 - rad lat1 = toRad (lat2 - lat1) := by unfold rad toRad; ring
  simp only [sub_self, cos_zero, mul_zero, sub_zero, e]
  unfold acos
  rw [if_pos ⟨neg_one_le_cos _, cos_le_one _⟩, ← cos_abs (toRad (lat2 - lat1)), arccos_cos (abs_nonneg _) hle]
  rfl

/-- C42. `planar` uses the cosine of the *first* latitude only, so in general it is not symmetric in its end
points. -/
theorem C42_planar_asymmetric : planar 0 0 60 90 1 ≠ planar 60 90 0 0 1 := by
  obtain ⟨d, h1, h2, h3⟩ := C42_planar 0 0 60 90 1
  obtain ⟨d', h1', h2', h3'⟩ := C42_planar 60 90 0 0 1
  rw [h1, h1']
  intro h
  have h := Except.ok.inj h
  rw [one_mul, one_mul] at h
  rw [← h, h3] at h3'
  have c60 : cos (toRad 60) = 1 / 2 := by
    rw [show toRad 60 = π / 3 by unfold toRad; ring, cos_pi_div_three]
  have c0 : cos (toRad 0) = 1 := by simp [toRad]
  rw [c60, c0] at h3'
  unfold toRad at h3'
  have := pi_pos
  nlinarith

/-! ## Area -/

/-- C42. `area` is the area of the part of the sphere between the two parallels and the two meridians:
the surface integral of the area element `radius² cos φ dφ dλ`. -/
theorem C42_area (lat1 lon1 lat2 lon2 radius : ℝ) :
    area lat1 lon1 lat2 lon2 radius =
      |∫ _l in (toRad lon1)..(toRad lon2), ∫ p in (toRad lat1)..(toRad lat2), radius ^ 2 * cos p| := by
  have h : ∀ p q, (∫ x in p..q, radius ^ 2 * cos x) = radius ^ 2 * (sin q - sin p) := by
    intro p q
    rw [intervalIntegral.integral_const_mul, integral_cos]
  rw [h, intervalIntegral.integral_const, smul_eq_mul, abs_mul, abs_mul, abs_of_nonneg (sq_nonneg radius)]
  unfold area
  simp only [rad_eq]
  have e : |toRad lon2 - toRad lon1| = π * |lon1 - lon2| / 180 := by
    have : toRad lon2 - toRad lon1 = π / 180 * (lon2 - lon1) := by unfold toRad; ring
    rw [this, abs_mul, abs_of_pos (by positivity), abs_sub_comm]
    ring
  rw [e, abs_sub_comm]
  ring

/-- C42. `area` is non-negative and does not depend on the order of the corners. -/
theorem C42_area_symmetric (lat1 lon1 lat2 lon2 radius : ℝ) :
    0 ≤ area lat1 lon1 lat2 lon2 radius ∧
    area lat1 lon1 lat2 lon2 radius = area lat2 lon2 lat1 lon1 radius ∧
    area lat1 lon1 lat2 lon2 radius = area lat1 lon2 lat2 lon1 radius := by
  unfold area
  refine ⟨by positivity, ?_, ?_⟩
  · simp only [abs_sub_comm (sin (rad lat1)), abs_sub_comm lon1]
  · simp only [abs_sub_comm lon1]

/-- The whole sphere. -/
example (r : ℝ) : area (-90) (-180) 90 180 r = 4 * π * r ^ 2 := by
  unfold area rad
  have a1 : (-90 : ℝ) * π / 180 = -(π / 2) := by ring
  have a2 : (90 : ℝ) * π / 180 = π / 2 := by ring
  simp only [a1, a2, sin_neg, sin_pi_div_two]
  norm_num
  ring

end Nmea.Geo
