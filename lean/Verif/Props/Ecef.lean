import Verif.Lemmas.GeoNewton
import Verif.Props.Geo
import Mathlib.Analysis.Real.Pi.Bounds
/-!
# ECEF conversion (C43), over the real numbers
-/
namespace Nmea.Geo
open Py Real

/-! ## Geodetic coordinates to ECEF -/

/-- C43. `llh2ecef` is right for every flattened ellipsoid: the point it returns is obtained from a point
`Q` of the ellipsoid by moving `height` along the unit vector of the given latitude and longitude, and that
vector is normal to the ellipsoid at `Q`. That is the definition of geodetic coordinates. -/
theorem C43_llh2ecef (lat lon height a f : ℝ) (ha : 0 < a) (hf : 1 < f) :
    ∃ (Q : EuclideanSpace ℝ (Fin 3)) (k : ℝ), OnEllipsoid a (polarAxis a f) Q ∧ 0 < k ∧
      ellipsoidNormal a (polarAxis a f) Q = k • spherePoint lat lon ∧
      llh2ecef lat lon height a f = .ok (Q 0 + height * spherePoint lat lon 0,
        Q 1 + height * spherePoint lat lon 1, Q 2 + height * spherePoint lat lon 2) := by
  set φ := 1 / f with hφ
  have hφ0 : 0 < φ := by positivity
  have hφ1 : φ < 1 := by rw [hφ, div_lt_one (by linarith)]; exact hf
  set S := sin (rad lat) with hS
  set C := cos (rad lat) with hC
  have hSC : S ^ 2 + C ^ 2 = 1 := sin_sq_add_cos_sq _
  set d := 1 - φ * (2 - φ) * S ^ 2 with hd
  have hS1 : S ^ 2 ≤ 1 := by nlinarith
  have he1 : φ * (2 - φ) < 1 := by nlinarith
  have he0 : 0 < φ * (2 - φ) := by nlinarith
  have hdp : 0 < d := by nlinarith [sq_nonneg S]
  have hq : √d ^ 2 = d := Real.sq_sqrt hdp.le
  have hqp : 0 < √d := Real.sqrt_pos.mpr hdp
  have hb : polarAxis a f = a * (1 - φ) := by unfold polarAxis; rw [hφ]
  have hbp : 0 < a * (1 - φ) := mul_pos ha (by linarith)
  have hp0 : spherePoint lat lon 0 = C * cos (rad lon) := by simp [spherePoint, hC, rad_eq]
  have hp1 : spherePoint lat lon 1 = C * sin (rad lon) := by simp [spherePoint, hC, rad_eq]
  have hp2 : spherePoint lat lon 2 = S := by simp [spherePoint, hS, rad_eq]
  refine ⟨!₂[a / √d * C * cos (rad lon), a / √d * C * sin (rad lon), (1 - φ) ^ 2 * (a / √d) * S],
    1 / (a * √d), ?_, by positivity, ?_, ?_⟩
  · unfold OnEllipsoid
    simp only [PiLp.toLp_apply, Matrix.cons_val_zero, Matrix.cons_val_one, Matrix.cons_val, hb]
    have hl := sin_sq_add_cos_sq (rad lon)
    have h1 : (1 - φ) ≠ 0 := by linarith
    have e : (a / √d * C * cos (rad lon) / a) ^ 2 + (a / √d * C * sin (rad lon) / a) ^ 2 +
        ((1 - φ) ^ 2 * (a / √d) * S / (a * (1 - φ))) ^ 2 =
        (C ^ 2 * (sin (rad lon) ^ 2 + cos (rad lon) ^ 2) + (1 - φ) ^ 2 * S ^ 2) / √d ^ 2 := by
      field_simp
      ring
    rw [e, hl, hq, div_eq_one_iff_eq hdp.ne', hd]
    have : C ^ 2 = 1 - S ^ 2 := by linarith
    rw [this]
    ring
  · ext i
    have h1 : (1 - φ) ≠ 0 := by linarith
    fin_cases i
    · simp only [ellipsoidNormal, PiLp.toLp_apply, Matrix.cons_val_zero, Matrix.cons_val_one, Matrix.cons_val, hb,
        PiLp.smul_apply, smul_eq_mul, Fin.zero_eta, hp0]
      field_simp
    · simp only [ellipsoidNormal, PiLp.toLp_apply, Matrix.cons_val_zero, Matrix.cons_val_one, Matrix.cons_val, hb,
        PiLp.smul_apply, smul_eq_mul, Fin.mk_one, hp1]
      field_simp
    · simp only [ellipsoidNormal, PiLp.toLp_apply, Matrix.cons_val_zero, Matrix.cons_val_one, Matrix.cons_val, hb,
        PiLp.smul_apply, smul_eq_mul, Fin.reduceFinMk, hp2]
      field_simp
  · unfold llh2ecef
    rw [show div 1 f = .ok φ by unfold div; rw [if_neg (by linarith)]]
    simp only [bind, Except.bind]
    rw [show Geo.sqrt (1 - φ * (2 - φ) * sin (rad lat) ^ 2) = .ok √d by
      unfold Geo.sqrt; rw [if_pos hdp.le]]
    simp only
    rw [show div a √d = .ok (a / √d) by unfold div; rw [if_neg hqp.ne']]
    simp only
    rw [show div (a ^ 2 * (1 - φ * (2 - φ))) (a ^ 2) = .ok ((1 - φ) ^ 2) by
      unfold div
      rw [if_neg (by positivity)]
      congr 1
      field_simp
      ring]
    simp only [pure, Except.pure, PiLp.toLp_apply, Matrix.cons_val_zero, Matrix.cons_val_one, Matrix.cons_val, hp0, hp1, hp2]
    congr 2
    · ring
    · congr 1
      · ring
      · ring

example : ∃ (Q : EuclideanSpace ℝ (Fin 3)) (k : ℝ), OnEllipsoid smajAxis (polarAxis smajAxis flattening) Q ∧ 0 < k ∧
      ellipsoidNormal smajAxis (polarAxis smajAxis flattening) Q = k • spherePoint 51 (-1) ∧
      llh2ecef 51 (-1) 100 smajAxis flattening = .ok (Q 0 + 100 * spherePoint 51 (-1) 0,
        Q 1 + 100 * spherePoint 51 (-1) 1, Q 2 + 100 * spherePoint 51 (-1) 2) :=
  C43_llh2ecef 51 (-1) 100 smajAxis flattening (by unfold smajAxis; norm_num) (by unfold flattening; norm_num)

/-! ## ECEF to geodetic coordinates -/

/-- C43. With the WGS84 ellipsoid `ecef2llh` returns a result for every point of space. -/
theorem C43_total (x y z : ℝ) : ∃ lat lon height, ecef2llh x y z smajAxis flattening = .ok (lat, lon, height) := by
  by_cases h : 100000 ≤ √(x * x + y * y + z * z)
  · obtain ⟨θ, -, -, -, -, -, e⟩ := ecef_char x y z _ _ rfl rfl h
    exact ⟨_, _, _, e⟩
  · refine ⟨0, 0, -10000000, ?_⟩
    exact ecef_core x y z (by linarith)

/-- C43. Within 100 km of the centre the result is the nominal (0, 0, -10000 km). -/
theorem C43_core (x y z : ℝ) (h : x ^ 2 + y ^ 2 + z ^ 2 < 100000 ^ 2) :
    ecef2llh x y z smajAxis flattening = .ok (0, 0, -10000000) := by
  apply ecef_core
  rw [Real.sqrt_lt' (by norm_num)]
  nlinarith

example : ecef2llh 0 0 0 smajAxis flattening = .ok (0, 0, -10000000) := C43_core 0 0 0 (by norm_num)

/-- The distance from the centre is at least 100 km. -/
theorem sqrt_ge {x y z : ℝ} (h : 100000 ^ 2 ≤ x ^ 2 + y ^ 2 + z ^ 2) : 100000 ≤ √(x * x + y * y + z * z) := by
  apply Real.le_sqrt_of_sq_le
  nlinarith

theorem deg_rad (t : ℝ) : toRad (deg t) = t := by
  unfold toRad deg
  field_simp

/-- C43. Elsewhere the longitude is exact: in (-180, 180], and the point has the polar coordinates
`(√(x²+y²), longitude)` in the equatorial plane. -/
theorem C43_longitude (x y z : ℝ) (h : 100000 ^ 2 ≤ x ^ 2 + y ^ 2 + z ^ 2) :
    ∃ lat lon height, ecef2llh x y z smajAxis flattening = .ok (lat, lon, height) ∧ -180 < lon ∧ lon ≤ 180 ∧
      x = √(x ^ 2 + y ^ 2) * cos (toRad lon) ∧ y = √(x ^ 2 + y ^ 2) * sin (toRad lon) := by
  obtain ⟨θ, -, -, -, -, -, e⟩ := ecef_char x y z _ _ rfl rfl (sqrt_ge h)
  refine ⟨_, _, _, e, ?_, ?_, ?_, ?_⟩
  · have := Complex.neg_pi_lt_arg (⟨x, y⟩ : ℂ)
    unfold deg atan2
    rw [lt_div_iff₀ pi_pos]
    nlinarith
  · have := Complex.arg_le_pi (⟨x, y⟩ : ℂ)
    unfold deg atan2
    rw [div_le_iff₀ pi_pos]
    nlinarith
  · rw [deg_rad]
    have := Complex.norm_mul_cos_arg (⟨x, y⟩ : ℂ)
    rw [Complex.norm_def, Complex.normSq_mk, ← pow_two, ← pow_two] at this
    exact this.symm
  · rw [deg_rad]
    have := Complex.norm_mul_sin_arg (⟨x, y⟩ : ℂ)
    rw [Complex.norm_def, Complex.normSq_mk, ← pow_two, ← pow_two] at this
    exact this.symm

/-- C43. On the equator latitude and height are exact: latitude zero, height the distance from the axis
minus the semi-major axis. -/
theorem C43_equator (x y : ℝ) (h : 100000 ^ 2 ≤ x ^ 2 + y ^ 2) :
    ∃ lon, ecef2llh x y 0 smajAxis flattening = .ok (0, lon, √(x ^ 2 + y ^ 2) - smajAxis) := by
  obtain ⟨θ, h0, h1, hg, hdir, hpos, e⟩ := ecef_char x y 0 _ _ rfl rfl (sqrt_ge (by linarith))
  have hw : √(x * x + y * y) = √(x ^ 2 + y ^ 2) := by rw [pow_two, pow_two]
  have hr : √(x * x + y * y + 0 * 0) = √(x ^ 2 + y ^ 2) := by rw [pow_two, pow_two]; simp
  rw [hw, hr] at hg
  have hp : 0 < √(x ^ 2 + y ^ 2) := Real.sqrt_pos.mpr (by linarith)
  have hθ : θ = 0 := by
    have hsin : sin θ = 0 := by
      rcases hg with ⟨-, hs⟩ | ⟨hb, -⟩
      · rw [hs]; simp
      · rw [div_self hp.ne'] at hb
        norm_num at hb
    have h2 : θ < π := by linarith [pi_pos]
    exact (sin_eq_zero_iff_of_lt_of_lt (by linarith [pi_pos]) h2).mp hsin
  subst hθ
  refine ⟨deg (atan2 y x), ?_⟩
  rw [e, hw]
  have hT : tF √(x ^ 2 + y ^ 2) |0| 0 = 0 := by simp [tF]
  have hn : nF √(x ^ 2 + y ^ 2) |0| 0 = √(x ^ 2 + y ^ 2) - smajAxis := by simp [nF, gF]
  rw [hT, hn]
  simp [deg]

/-- C43. On the polar axis latitude and height are exact: latitude ±90, height the distance from the
centre minus the polar semi-axis. -/
theorem C43_pole (z : ℝ) (h : 100000 ≤ |z|) :
    ∃ lon, ecef2llh 0 0 z smajAxis flattening =
      .ok (if z < 0 then -90 else 90, lon, |z| - polarAxis smajAxis flattening) := by
  have hz : 100000 ^ 2 ≤ (0 : ℝ) ^ 2 + 0 ^ 2 + z ^ 2 := by rw [← sq_abs z]; nlinarith [abs_nonneg z]
  obtain ⟨θ, h0, h1, hg, hdir, hpos, e⟩ := ecef_char 0 0 z _ _ rfl rfl (sqrt_ge hz)
  have hw : √((0 : ℝ) * 0 + 0 * 0) = 0 := by simp
  rw [hw] at hg e
  have hθ : θ = π / 2 := by
    have hcos : cos θ = 0 := by
      rcases hg with ⟨hb, -⟩ | ⟨-, hc⟩
      · norm_num at hb
      · rw [hc]; simp
    by_contra hne
    have : θ < π / 2 := lt_of_le_of_ne h1 hne
    have := cos_pos_of_mem_Ioo (⟨by linarith [pi_pos], this⟩ : θ ∈ Set.Ioo (-(π / 2)) (π / 2))
    linarith
  subst hθ
  refine ⟨deg (atan2 0 0), ?_⟩
  rw [e]
  have hT : tF 0 |z| (π / 2) = 0 := by simp [tF]
  have hgp : √(gF (π / 2)) = 1 - 1 / flattening := by
    have : gF (π / 2) = (1 - 1 / flattening) ^ 2 := by
      unfold gF wE2
      rw [sin_pi_div_two]
      ring
    rw [this, Real.sqrt_sq]
    unfold flattening
    norm_num
  have hn : nF 0 |z| (π / 2) = |z| - polarAxis smajAxis flattening := by
    unfold nF polarAxis
    rw [hgp]
    simp
  rw [hT, hn]
  have hd : deg (π / 2) = 90 := by unfold deg; field_simp; norm_num
  have hdn : deg (-(π / 2)) = -90 := by unfold deg; field_simp; norm_num
  split <;> simp [hd, hdn]

/-- C43. Mirroring a point at the equatorial plane negates the latitude and keeps the rest. -/
theorem C43_mirror (x y z lat lon height : ℝ) (h : ecef2llh x y z smajAxis flattening = .ok (lat, lon, height))
    (hz : 0 < z) : ecef2llh x y (-z) smajAxis flattening = .ok (-lat, lon, height) := by
  by_cases hr : 100000 ≤ √(x * x + y * y + z * z)
  · have hr' : 100000 ≤ √(x * x + y * y + -z * -z) := by rw [neg_mul_neg]; exact hr
    obtain ⟨θ, h0, h1, hg, -, -, e⟩ := ecef_char x y z _ _ rfl rfl hr
    obtain ⟨θ', h0', h1', hg', -, -, e'⟩ := ecef_char x y (-z) _ _ rfl rfl hr'
    rw [abs_neg] at hg' e'
    rw [neg_mul_neg] at hg'
    obtain rfl := guess_unique hg hg' h0 h1 h0' h1'
    rw [if_neg (by linarith), h] at e
    rw [if_pos (by linarith)] at e'
    have e := Except.ok.inj e
    have e1 := (Prod.mk.inj e).1
    have e2 := (Prod.mk.inj (Prod.mk.inj e).2).1
    have e3 := (Prod.mk.inj (Prod.mk.inj e).2).2
    rw [e', e1, e2, e3]
    congr 2
    unfold deg
    ring
  · have hr : √(x * x + y * y + z * z) < 100000 := by linarith
    have hr' : √(x * x + y * y + -z * -z) < 100000 := by rw [neg_mul_neg]; exact hr
    rw [ecef_core x y z hr] at h
    rw [ecef_core x y (-z) hr']
    have e := Except.ok.inj h
    have e1 := (Prod.mk.inj e).1
    have e2 := (Prod.mk.inj (Prod.mk.inj e).2).1
    have e3 := (Prod.mk.inj (Prod.mk.inj e).2).2
    rw [← e1, ← e2, ← e3, neg_zero]

/-- C43. The latitude has the sign of `z`. -/
theorem C43_sign (x y z : ℝ) (h : 100000 ^ 2 ≤ x ^ 2 + y ^ 2 + z ^ 2) :
    ∃ lat lon height, ecef2llh x y z smajAxis flattening = .ok (lat, lon, height) ∧
      (0 < z → 0 < lat) ∧ (z = 0 → lat = 0) ∧ (z < 0 → lat < 0) := by
  rcases lt_trichotomy z 0 with hz | hz | hz
  all_goals
    try
      obtain ⟨θ, h0, h1, hg, hdir, hpos, e⟩ := ecef_char x y z _ _ rfl rfl (sqrt_ge h)
      have hs := step_pos (Real.sqrt_nonneg _) (abs_pos.mpr hz.ne) (sqrt_ge h) (by
        rw [Real.sq_sqrt (by nlinarith [mul_self_nonneg x, mul_self_nonneg y]),
          Real.sq_sqrt (by nlinarith [mul_self_nonneg x, mul_self_nonneg y, mul_self_nonneg z]), sq_abs]
        ring) h0 h1 hg hpos
      refine ⟨_, _, _, e, fun h => absurd h (by linarith), fun h => absurd h (by linarith), fun _ => ?_⟩
      rw [if_pos hz]
      unfold deg
      apply div_neg_of_neg_of_pos _ pi_pos
      linarith
  · subst hz
    obtain ⟨lon, e⟩ := C43_equator x y (by linarith)
    exact ⟨_, _, _, e, fun h => absurd h (lt_irrefl _), fun _ => rfl, fun h => absurd h (lt_irrefl _)⟩
  · obtain ⟨θ, h0, h1, hg, hdir, hpos, e⟩ := ecef_char x y z _ _ rfl rfl (sqrt_ge h)
    have hs := step_pos (Real.sqrt_nonneg _) (abs_pos.mpr hz.ne') (sqrt_ge h) (by
      rw [Real.sq_sqrt (by nlinarith [mul_self_nonneg x, mul_self_nonneg y]),
        Real.sq_sqrt (by nlinarith [mul_self_nonneg x, mul_self_nonneg y, mul_self_nonneg z]), sq_abs]
      ring) h0 h1 hg hpos
    refine ⟨_, _, _, e, fun _ => ?_, fun h => absurd h (by linarith), fun h => absurd h (by linarith)⟩
    rw [if_neg (by linarith)]
    unfold deg
    apply div_pos _ pi_pos
    linarith

/-! ## Accuracy of the round trip -/

theorem llh2ecef_wgs84 (lat lon height : ℝ) : llh2ecef lat lon height smajAxis flattening =
    .ok ((nV (rad lat) + height) * cos (rad lat) * cos (rad lon), (nV (rad lat) + height) * cos (rad lat) * sin (rad lon),
      ((1 - wE2) * nV (rad lat) + height) * sin (rad lat)) := by
  obtain ⟨g1, g2, g3, g4, g5⟩ := gF_bounds (rad lat)
  have hfl : flattening ≠ 0 := by unfold flattening; norm_num
  unfold llh2ecef
  rw [show div 1 flattening = .ok (1 / flattening) by unfold div; rw [if_neg hfl]]
  simp only [bind, Except.bind]
  rw [show Geo.sqrt (1 - 1 / flattening * (2 - 1 / flattening) * sin (rad lat) ^ 2) = .ok √(gF (rad lat)) by
    unfold Geo.sqrt; exact if_pos g4.le]
  simp only
  rw [show div smajAxis √(gF (rad lat)) = .ok (nV (rad lat)) by unfold div nV; rw [if_neg g5.ne']]
  simp only
  rw [show div (smajAxis ^ 2 * (1 - 1 / flattening * (2 - 1 / flattening))) (smajAxis ^ 2) = .ok (1 - wE2) by
    unfold div
    have : smajAxis ≠ 0 := by unfold smajAxis; norm_num
    rw [if_neg (by positivity)]
    congr 1
    unfold wE2
    field_simp]
  rfl

set_option maxHeartbeats 1000000 in
/-- C43. Converting geodetic coordinates to ECEF and back returns them: from 100 km below the ellipsoid
upwards, without limit, the latitude to within a billionth of a degree (a tenth of a millimetre on the
ground), the height to within ten nanometres, and the longitude exactly (off the poles). -/
theorem C43_round_trip (lat lon height : ℝ) (hlat : |lat| ≤ 90) (hh : -100000 ≤ height) :
    ∃ x y z lat' lon' height', llh2ecef lat lon height smajAxis flattening = .ok (x, y, z) ∧
      ecef2llh x y z smajAxis flattening = .ok (lat', lon', height') ∧
      |lat' - lat| ≤ 1 / 10 ^ 9 ∧ |height' - height| ≤ 1 / 10 ^ 8 ∧
      (|lat| < 90 → -180 < lon → lon ≤ 180 → lon' = lon) := by
  obtain ⟨e1, e2⟩ := wE2_bounds
  set φ := |rad lat| with hφ
  have hpi := pi_pos
  have hrad : |rad lat| = |lat| * π / 180 := by
    unfold rad
    rw [abs_div, abs_mul, abs_of_pos hpi, abs_of_pos (by norm_num : (0 : ℝ) < 180)]
  have hφ0 : 0 ≤ φ := abs_nonneg _
  have hφ1 : φ ≤ π / 2 := by rw [hφ, hrad]; nlinarith
  have hcos : cos (rad lat) = cos φ := by rw [hφ, cos_abs]
  have hsin2 : sin (rad lat) ^ 2 = sin φ ^ 2 := by
    have h1 := sin_sq_add_cos_sq (rad lat)
    have h2 := sin_sq_add_cos_sq φ
    rw [hcos] at h1
    linarith
  have hgF : gF (rad lat) = gF φ := by unfold gF; rw [hsin2]
  have hnV : nV (rad lat) = nV φ := by unfold nV; rw [hgF]
  obtain ⟨n1, n2⟩ := nV_bounds φ
  have hC0 : 0 ≤ cos φ := cos_nonneg_of_mem_Icc ⟨by linarith, hφ1⟩
  have hS0 : 0 ≤ sin φ := sin_nonneg_of_nonneg_of_le_pi hφ0 (by linarith)
  have hρ : 0 < nV φ + height := by linarith
  have hσ : 6000000 ≤ (1 - wE2) * nV φ + height := by nlinarith
  rw [llh2ecef_wgs84, hnV, hcos]
  -- sizes
  set x := (nV φ + height) * cos φ * cos (rad lon) with hx
  set y := (nV φ + height) * cos φ * sin (rad lon) with hy
  set z := ((1 - wE2) * nV φ + height) * sin (rad lat) with hz
  have hw : √(x * x + y * y) = (nV φ + height) * cos φ := by
    have : x * x + y * y = ((nV φ + height) * cos φ) ^ 2 := by
      rw [hx, hy]
      linear_combination ((nV φ + height) * cos φ) ^ 2 * sin_sq_add_cos_sq (rad lon)
    rw [this, Real.sqrt_sq (by positivity)]
  have habs : |sin (rad lat)| = sin φ := by
    rw [← abs_of_nonneg hS0, ← sq_eq_sq_iff_abs_eq_abs, hsin2]
  have hzabs : |z| = ((1 - wE2) * nV φ + height) * sin φ := by
    rw [hz, abs_mul, habs, abs_of_nonneg (by linarith)]
  have gd : Geodetic φ height √(x * x + y * y) |z| := ⟨hφ0, hφ1, hh, hw, hzabs⟩
  have hr2 : √(x * x + y * y + z * z) ^ 2 = √(x * x + y * y) ^ 2 + |z| ^ 2 := by
    rw [Real.sq_sqrt (by nlinarith [mul_self_nonneg x, mul_self_nonneg y, mul_self_nonneg z]),
      Real.sq_sqrt (by nlinarith [mul_self_nonneg x, mul_self_nonneg y]), sq_abs]
    ring
  have hbig : 100000 ≤ √(x * x + y * y + z * z) := by
    by_contra hn
    have h1 : √(x * x + y * y + z * z) ^ 2 ≤ 100000 ^ 2 := pow_le_pow_left₀ (Real.sqrt_nonneg _) (by linarith) 2
    rw [hr2, hw, hzabs] at h1
    have h2 : 6000000 ≤ nV φ + height := by linarith
    have h3 : (6000000 * cos φ) ^ 2 ≤ ((nV φ + height) * cos φ) ^ 2 :=
      pow_le_pow_left₀ (by positivity) (mul_le_mul_of_nonneg_right h2 hC0) 2
    have h4 : (6000000 * sin φ) ^ 2 ≤ (((1 - wE2) * nV φ + height) * sin φ) ^ 2 :=
      pow_le_pow_left₀ (by positivity) (mul_le_mul_of_nonneg_right hσ hS0) 2
    have h5 := sin_sq_add_cos_sq φ
    nlinarith
  obtain ⟨θ, t0, t1, hg, hdir, hpos, e⟩ := ecef_char x y z _ _ rfl rfl hbig
  have hclose := gd.guess (by linarith) hr2 hg t0 t1
  obtain ⟨a1, a2⟩ := gd.newton t0 t1 hclose
  refine ⟨x, y, z, _, _, _, rfl, e, ?_, a2, ?_⟩
  · -- latitude, in degrees
    set ψ := θ + tF √(x * x + y * y) |z| θ / (mF θ + nF √(x * x + y * y) |z| θ) with hψ
    have hdeg : ∀ s, deg s = s * (180 / π) := by intro s; unfold deg; ring
    have hlatd : lat = rad lat * (180 / π) := by unfold rad; field_simp
    have h180 : 180 / π ≤ 60 := by
      rw [div_le_iff₀ hpi]
      linarith [pi_gt_three]
    have h180' : 0 < 180 / π := by positivity
    have hb : |ψ - φ| * (180 / π) ≤ 1 / 10 ^ 9 := by
      have := mul_le_mul a1 h180 h180'.le (by norm_num)
      norm_num at this ⊢
      linarith
    by_cases hz0 : z < 0
    · rw [if_pos hz0]
      have hneg : rad lat = -φ := by
        have : sin (rad lat) < 0 := by
          by_contra hn
          have : 0 ≤ z := mul_nonneg (by linarith) (by linarith)
          linarith
        have hr : rad lat < 0 := by
          by_contra hn
          have : 0 ≤ sin (rad lat) := sin_nonneg_of_nonneg_of_le_pi (by linarith)
            (by rw [hφ, abs_of_nonneg (by linarith)] at hφ1; linarith)
          linarith
        rw [hφ, abs_of_neg hr, neg_neg]
      rw [hdeg, hlatd, hneg]
      have : -ψ * (180 / π) - -φ * (180 / π) = -((ψ - φ) * (180 / π)) := by ring
      rw [this, abs_neg, abs_mul, abs_of_pos h180']
      exact hb
    · rw [if_neg hz0]
      have hposr : rad lat = φ := by
        have hs : 0 ≤ sin (rad lat) := by
          by_contra hn
          have : z < 0 := mul_neg_of_pos_of_neg (by linarith) (by linarith)
          linarith
        have hr : 0 ≤ rad lat := by
          by_contra hn
          have h1 : rad lat < 0 := by linarith
          have h2 : φ = -rad lat := by rw [hφ, abs_of_neg h1]
          have : sin (rad lat) < 0 := sin_neg_of_neg_of_neg_pi_lt h1 (by linarith)
          linarith
        rw [hφ, abs_of_nonneg hr]
      rw [hdeg, hlatd, hposr]
      have : ψ * (180 / π) - φ * (180 / π) = (ψ - φ) * (180 / π) := by ring
      rw [this, abs_mul, abs_of_pos h180']
      exact hb
  · intro hl l1 l2
    have hc : 0 < cos φ := by
      apply cos_pos_of_mem_Ioo
      refine ⟨by linarith, ?_⟩
      rw [hφ, hrad]
      nlinarith
    have hm : rad lon ∈ Set.Ioc (-π) π := by
      unfold rad
      constructor <;> nlinarith
    have harg : atan2 y x = rad lon := by
      unfold atan2
      have : (⟨x, y⟩ : ℂ) = ((nV φ + height) * cos φ : ℝ) * (Complex.cos (rad lon) + Complex.sin (rad lon) * Complex.I) := by
        apply Complex.ext
        · rw [Complex.re_ofReal_mul]
          simp [Complex.cos_ofReal_re, ← Complex.ofReal_cos, ← Complex.ofReal_sin, hx]
        · rw [Complex.im_ofReal_mul]
          simp [← Complex.ofReal_cos, ← Complex.ofReal_sin, hy]
      rw [this]
      exact Complex.arg_mul_cos_add_sin_mul_I (by positivity) hm
    rw [harg]
    unfold deg rad
    field_simp

example : ∃ x y z lat' lon' height', llh2ecef (-27.5) 153 8850 smajAxis flattening = .ok (x, y, z) ∧
      ecef2llh x y z smajAxis flattening = .ok (lat', lon', height') ∧
      |lat' - -27.5| ≤ 1 / 10 ^ 9 ∧ |height' - 8850| ≤ 1 / 10 ^ 8 ∧
      (|(-27.5 : ℝ)| < 90 → -180 < (153 : ℝ) → (153 : ℝ) ≤ 180 → lon' = 153) :=
  C43_round_trip (-27.5) 153 8850 (by rw [abs_le]; norm_num) (by norm_num)

end Nmea.Geo
