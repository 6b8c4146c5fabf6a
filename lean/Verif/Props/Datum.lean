import Verif.Lemmas.DatumNewton
import Verif.Spec.Datum
import Verif.Model.Datums
import Mathlib.Data.Rat.Cast.Order
import Verif.Props.Ecef
/-!
# ECEF conversion with any ellipsoid of the Earth (C86), over the real numbers
-/
namespace Nmea.Datum
open Py Real Nmea.Geo
open Spec (EarthLike)

variable {α f : ℝ}

/-- The squared eccentricity, as the code computes it. -/
noncomputable abbrev sqEcc (f : ℝ) : ℝ := 1 / f * (2 - 1 / f)

theorem fne (E : EarthLike α f) : f ≠ 0 := by
  have := E.2.2.1
  intro h
  rw [h] at this
  norm_num at this

theorem ell (E : EarthLike α f) : Ell α (sqEcc f) := by
  obtain ⟨a0, a1, f0, f1⟩ := E
  have hf : 0 < f := by linarith
  have h0 : 1 / 301 ≤ 1 / f := one_div_le_one_div_of_le hf f1
  have h1 : 1 / f ≤ 1 / 293 := one_div_le_one_div_of_le (by norm_num) f0
  refine ⟨a0, a1, ?_, ?_⟩
  · unfold sqEcc; nlinarith
  · unfold sqEcc; nlinarith

/-- C86. With any Earth-like ellipsoid `ecef2llh` returns a result for every point of space. -/
theorem C86_total (E : EarthLike α f) (x y z : ℝ) : ∃ lat lon height, ecef2llh x y z α f = .ok (lat, lon, height) := by
  by_cases h : 100000 ≤ √(x * x + y * y + z * z)
  · obtain ⟨θ, -, -, -, -, -, e⟩ := ecef_char (ell E) (fne E) rfl x y z _ _ rfl rfl h
    exact ⟨_, _, _, e⟩
  · refine ⟨0, 0, -10000000, ?_⟩
    exact ecef_core (fne E) x y z (by linarith)

/-- C86. Within 100 km of the centre the result is the nominal (0, 0, -10000 km). -/
theorem C86_core (E : EarthLike α f) (x y z : ℝ) (h : x ^ 2 + y ^ 2 + z ^ 2 < 100000 ^ 2) :
    ecef2llh x y z α f = .ok (0, 0, -10000000) := by
  apply ecef_core (fne E)
  rw [Real.sqrt_lt' (by norm_num)]
  nlinarith

/-- C86. Elsewhere the longitude is exact: in (-180, 180], and the point has the polar coordinates
`(√(x²+y²), longitude)` in the equatorial plane. -/
theorem C86_longitude (E : EarthLike α f) (x y z : ℝ) (h : 100000 ^ 2 ≤ x ^ 2 + y ^ 2 + z ^ 2) :
    ∃ lat lon height, ecef2llh x y z α f = .ok (lat, lon, height) ∧ -180 < lon ∧ lon ≤ 180 ∧
      x = √(x ^ 2 + y ^ 2) * cos (toRad lon) ∧ y = √(x ^ 2 + y ^ 2) * sin (toRad lon) := by
  obtain ⟨θ, -, -, -, -, -, e⟩ := ecef_char (ell E) (fne E) rfl x y z _ _ rfl rfl (sqrt_ge h)
  refine ⟨_, _, _, e, ?_, ?_, ?_, ?_⟩
  · have := Complex.neg_pi_lt_arg (⟨x, y⟩ : ℂ)
    unfold deg atan2
    rw [lt_div_iff₀ pi_pos]
    nlinarith
  · have := Complex.arg_le_pi (⟨x, y⟩ : ℂ)
    unfold deg atan2
    rw [div_le_iff₀ pi_pos]
    nlinarith
  · rw [deg_rad]
    have := Complex.norm_mul_cos_arg (⟨x, y⟩ : ℂ)
    rw [Complex.norm_def, Complex.normSq_mk, ← pow_two, ← pow_two] at this
    exact this.symm
  · rw [deg_rad]
    have := Complex.norm_mul_sin_arg (⟨x, y⟩ : ℂ)
    rw [Complex.norm_def, Complex.normSq_mk, ← pow_two, ← pow_two] at this
    exact this.symm

/-- C86. On the equator latitude and height are exact: latitude zero, height the distance from the axis
minus the semi-major axis. -/
theorem C86_equator (E : EarthLike α f) (x y : ℝ) (h : 100000 ^ 2 ≤ x ^ 2 + y ^ 2) :
    ∃ lon, ecef2llh x y 0 α f = .ok (0, lon, √(x ^ 2 + y ^ 2) - α) := by
  obtain ⟨θ, h0, h1, hg, hdir, hpos, e⟩ := ecef_char (ell E) (fne E) rfl x y 0 _ _ rfl rfl (sqrt_ge (by linarith))
  have hw : √(x * x + y * y) = √(x ^ 2 + y ^ 2) := by rw [pow_two, pow_two]
  have hr : √(x * x + y * y + 0 * 0) = √(x ^ 2 + y ^ 2) := by rw [pow_two, pow_two]; simp
  rw [hw, hr] at hg
  have hp : 0 < √(x ^ 2 + y ^ 2) := Real.sqrt_pos.mpr (by linarith)
  have hθ : θ = 0 := by
    have hsin : sin θ = 0 := by
      rcases hg with ⟨-, hs⟩ | ⟨hb, -⟩
      · rw [hs]; simp
      · rw [div_self hp.ne'] at hb
        norm_num at hb
    have h2 : θ < π := by linarith [pi_pos]
    exact (sin_eq_zero_iff_of_lt_of_lt (by linarith [pi_pos]) h2).mp hsin
  subst hθ
  refine ⟨deg (atan2 y x), ?_⟩
  rw [e, hw]
  have hT : tF α (sqEcc f) √(x ^ 2 + y ^ 2) |0| 0 = 0 := by simp [tF]
  have hn : nF α (sqEcc f) √(x ^ 2 + y ^ 2) |0| 0 = √(x ^ 2 + y ^ 2) - α := by simp [nF, gF]
  rw [hT, hn]
  simp [deg]

/-- C86. On the polar axis latitude and height are exact: latitude ±90, height the distance from the
centre minus the polar semi-axis. -/
theorem C86_pole (E : EarthLike α f) (z : ℝ) (h : 100000 ≤ |z|) :
    ∃ lon, ecef2llh 0 0 z α f =
      .ok (if z < 0 then -90 else 90, lon, |z| - polarAxis α f) := by
  have hz : 100000 ^ 2 ≤ (0 : ℝ) ^ 2 + 0 ^ 2 + z ^ 2 := by rw [← sq_abs z]; nlinarith [abs_nonneg z]
  obtain ⟨θ, h0, h1, hg, hdir, hpos, e⟩ := ecef_char (ell E) (fne E) rfl 0 0 z _ _ rfl rfl (sqrt_ge hz)
  have hw : √((0 : ℝ) * 0 + 0 * 0) = 0 := by simp
  rw [hw] at hg e
  have hθ : θ = π / 2 := by
    have hcos : cos θ = 0 := by
      rcases hg with ⟨hb, -⟩ | ⟨-, hc⟩
      · norm_num at hb
      · rw [hc]; simp
    by_contra hne
    have : θ < π / 2 := lt_of_le_of_ne h1 hne
    have := cos_pos_of_mem_Ioo (⟨by linarith [pi_pos], this⟩ : θ ∈ Set.Ioo (-(π / 2)) (π / 2))
    linarith
  subst hθ
  refine ⟨deg (atan2 0 0), ?_⟩
  rw [e]
  have hT : tF α (sqEcc f) 0 |z| (π / 2) = 0 := by simp [tF]
  have hgp : √(gF (sqEcc f) (π / 2)) = 1 - 1 / f := by
    have : gF (sqEcc f) (π / 2) = (1 - 1 / f) ^ 2 := by
      unfold gF sqEcc
      rw [sin_pi_div_two]
      ring
    have h1 : 1 / f ≤ 1 / 293 := one_div_le_one_div_of_le (by norm_num) E.2.2.1
    rw [this, Real.sqrt_sq]
    norm_num at h1 ⊢
    linarith
  have hn : nF α (sqEcc f) 0 |z| (π / 2) = |z| - polarAxis α f := by
    unfold nF polarAxis
    rw [hgp]
    simp
  rw [hT, hn]
  have hd : deg (π / 2) = 90 := by unfold deg; field_simp; norm_num
  have hdn : deg (-(π / 2)) = -90 := by unfold deg; field_simp; norm_num
  split <;> simp [hd, hdn]

/-- C86. Mirroring a point at the equatorial plane negates the latitude and keeps the rest. -/
theorem C86_mirror (E : EarthLike α f) (x y z lat lon height : ℝ) (h : ecef2llh x y z α f = .ok (lat, lon, height))
    (hz : 0 < z) : ecef2llh x y (-z) α f = .ok (-lat, lon, height) := by
  by_cases hr : 100000 ≤ √(x * x + y * y + z * z)
  · have hr' : 100000 ≤ √(x * x + y * y + -z * -z) := by rw [neg_mul_neg]; exact hr
    obtain ⟨θ, h0, h1, hg, -, -, e⟩ := ecef_char (ell E) (fne E) rfl x y z _ _ rfl rfl hr
    obtain ⟨θ', h0', h1', hg', -, -, e'⟩ := ecef_char (ell E) (fne E) rfl x y (-z) _ _ rfl rfl hr'
    rw [abs_neg] at hg' e'
    rw [neg_mul_neg] at hg'
    obtain rfl := guess_unique hg hg' h0 h1 h0' h1'
    rw [if_neg (by linarith), h] at e
    rw [if_pos (by linarith)] at e'
    have e := Except.ok.inj e
    have e1 := (Prod.mk.inj e).1
    have e2 := (Prod.mk.inj (Prod.mk.inj e).2).1
    have e3 := (Prod.mk.inj (Prod.mk.inj e).2).2
    rw [e', e1, e2, e3]
    congr 2
    unfold deg
    ring
  · have hr : √(x * x + y * y + z * z) < 100000 := by linarith
    have hr' : √(x * x + y * y + -z * -z) < 100000 := by rw [neg_mul_neg]; exact hr
    rw [ecef_core (fne E) x y z hr] at h
    rw [ecef_core (fne E) x y (-z) hr']
    have e := Except.ok.inj h
    have e1 := (Prod.mk.inj e).1
    have e2 := (Prod.mk.inj (Prod.mk.inj e).2).1
    have e3 := (Prod.mk.inj (Prod.mk.inj e).2).2
    rw [← e1, ← e2, ← e3, neg_zero]

/-- C86. The latitude has the sign of `z`. -/
theorem C86_sign (E : EarthLike α f) (x y z : ℝ) (h : 100000 ^ 2 ≤ x ^ 2 + y ^ 2 + z ^ 2) :
    ∃ lat lon height, ecef2llh x y z α f = .ok (lat, lon, height) ∧
      (0 < z → 0 < lat) ∧ (z = 0 → lat = 0) ∧ (z < 0 → lat < 0) := by
  rcases lt_trichotomy z 0 with hz | hz | hz
  all_goals
    try
      obtain ⟨θ, h0, h1, hg, hdir, hpos, e⟩ := ecef_char (ell E) (fne E) rfl x y z _ _ rfl rfl (sqrt_ge h)
      have hs := step_pos (ell E) (Real.sqrt_nonneg _) (abs_pos.mpr hz.ne) (sqrt_ge h) (by
        rw [Real.sq_sqrt (by nlinarith [mul_self_nonneg x, mul_self_nonneg y]),
          Real.sq_sqrt (by nlinarith [mul_self_nonneg x, mul_self_nonneg y, mul_self_nonneg z]), sq_abs]
        ring) h0 h1 hg hpos
      refine ⟨_, _, _, e, fun h => absurd h (by linarith), fun h => absurd h (by linarith), fun _ => ?_⟩
      rw [if_pos hz]
      unfold deg
      apply div_neg_of_neg_of_pos _ pi_pos
      linarith
  · subst hz
    obtain ⟨lon, e⟩ := C86_equator E x y (by linarith)
    exact ⟨_, _, _, e, fun h => absurd h (lt_irrefl _), fun _ => rfl, fun h => absurd h (lt_irrefl _)⟩
  · obtain ⟨θ, h0, h1, hg, hdir, hpos, e⟩ := ecef_char (ell E) (fne E) rfl x y z _ _ rfl rfl (sqrt_ge h)
    have hs := step_pos (ell E) (Real.sqrt_nonneg _) (abs_pos.mpr hz.ne') (sqrt_ge h) (by
      rw [Real.sq_sqrt (by nlinarith [mul_self_nonneg x, mul_self_nonneg y]),
        Real.sq_sqrt (by nlinarith [mul_self_nonneg x, mul_self_nonneg y, mul_self_nonneg z]), sq_abs]
      ring) h0 h1 hg hpos
    refine ⟨_, _, _, e, fun _ => ?_, fun h => absurd h (by linarith), fun h => absurd h (by linarith)⟩
    rw [if_neg (by linarith)]
    unfold deg
    apply div_pos _ pi_pos
    linarith

/-! ## Accuracy of the round trip -/

theorem llh2ecef_ell (E : EarthLike α f) (lat lon height : ℝ) : llh2ecef lat lon height α f =
    .ok ((nV α (sqEcc f) (rad lat) + height) * cos (rad lat) * cos (rad lon), (nV α (sqEcc f) (rad lat) + height) * cos (rad lat) * sin (rad lon),
      ((1 - (sqEcc f)) * nV α (sqEcc f) (rad lat) + height) * sin (rad lat)) := by
  obtain ⟨g1, g2, g3, g4, g5⟩ := gF_bounds (ell E) (rad lat)
  have hfl : f ≠ 0 := fne E
  unfold llh2ecef
  rw [show div 1 f = .ok (1 / f) by unfold div; rw [if_neg hfl]]
  simp only [bind, Except.bind]
  rw [show Geo.sqrt (1 - 1 / f * (2 - 1 / f) * sin (rad lat) ^ 2) = .ok √(gF (sqEcc f) (rad lat)) by
    unfold Geo.sqrt; exact if_pos g4.le]
  simp only
  rw [show div α √(gF (sqEcc f) (rad lat)) = .ok (nV α (sqEcc f) (rad lat)) by unfold div nV; rw [if_neg g5.ne']]
  simp only
  rw [show div (α ^ 2 * (1 - 1 / f * (2 - 1 / f))) (α ^ 2) = .ok (1 - (sqEcc f)) by
    unfold div
    have : α ≠ 0 := by have := E.1; intro h; rw [h] at this; norm_num at this
    rw [if_neg (by positivity)]
    congr 1
    unfold sqEcc
    field_simp]
  rfl

set_option maxHeartbeats 1000000 in
/-- C86. Converting geodetic coordinates to ECEF and back returns them: from 100 km below the ellipsoid
upwards, without limit, the latitude to within a billionth of a degree (a tenth of a millimetre on the
ground), the height to within ten nanometres, and the longitude exactly (off the poles). -/
theorem C86_round_trip (E : EarthLike α f) (lat lon height : ℝ) (hlat : |lat| ≤ 90) (hh : -100000 ≤ height) :
    ∃ x y z lat' lon' height', llh2ecef lat lon height α f = .ok (x, y, z) ∧
      ecef2llh x y z α f = .ok (lat', lon', height') ∧
      |lat' - lat| ≤ 1 / 10 ^ 9 ∧ |height' - height| ≤ 1 / 10 ^ 8 ∧
      (|lat| < 90 → -180 < lon → lon ≤ 180 → lon' = lon) := by
  obtain ⟨e1, e2⟩ := (ell E).eb
  set φ := |rad lat| with hφ
  have hpi := pi_pos
  have hrad : |rad lat| = |lat| * π / 180 := by
    unfold rad
    rw [abs_div, abs_mul, abs_of_pos hpi, abs_of_pos (by norm_num : (0 : ℝ) < 180)]
  have hφ0 : 0 ≤ φ := abs_nonneg _
  have hφ1 : φ ≤ π / 2 := by rw [hφ, hrad]; nlinarith
  have hcos : cos (rad lat) = cos φ := by rw [hφ, cos_abs]
  have hsin2 : sin (rad lat) ^ 2 = sin φ ^ 2 := by
    have h1 := sin_sq_add_cos_sq (rad lat)
    have h2 := sin_sq_add_cos_sq φ
    rw [hcos] at h1
    linarith
  have hgF : gF (sqEcc f) (rad lat) = gF (sqEcc f) φ := by unfold gF; rw [hsin2]
  have hnV : nV α (sqEcc f) (rad lat) = nV α (sqEcc f) φ := by unfold nV; rw [hgF]
  obtain ⟨n1, n2⟩ := nV_bounds (ell E) φ
  have hC0 : 0 ≤ cos φ := cos_nonneg_of_mem_Icc ⟨by linarith, hφ1⟩
  have hS0 : 0 ≤ sin φ := sin_nonneg_of_nonneg_of_le_pi hφ0 (by linarith)
  have hρ : 0 < nV α (sqEcc f) φ + height := by linarith
  have hσ : 6000000 ≤ (1 - (sqEcc f)) * nV α (sqEcc f) φ + height := by nlinarith
  rw [llh2ecef_ell E, hnV, hcos]
  -- sizes
  set x := (nV α (sqEcc f) φ + height) * cos φ * cos (rad lon) with hx
  set y := (nV α (sqEcc f) φ + height) * cos φ * sin (rad lon) with hy
  set z := ((1 - (sqEcc f)) * nV α (sqEcc f) φ + height) * sin (rad lat) with hz
  have hw : √(x * x + y * y) = (nV α (sqEcc f) φ + height) * cos φ := by
    have : x * x + y * y = ((nV α (sqEcc f) φ + height) * cos φ) ^ 2 := by
      rw [hx, hy]
      linear_combination ((nV α (sqEcc f) φ + height) * cos φ) ^ 2 * sin_sq_add_cos_sq (rad lon)
    rw [this, Real.sqrt_sq (by positivity)]
  have habs : |sin (rad lat)| = sin φ := by
    rw [← abs_of_nonneg hS0, ← sq_eq_sq_iff_abs_eq_abs, hsin2]
  have hzabs : |z| = ((1 - (sqEcc f)) * nV α (sqEcc f) φ + height) * sin φ := by
    rw [hz, abs_mul, habs, abs_of_nonneg (by linarith)]
  have gd : Geodetic α (sqEcc f) φ height √(x * x + y * y) |z| := ⟨hφ0, hφ1, hh, hw, hzabs⟩
  have hr2 : √(x * x + y * y + z * z) ^ 2 = √(x * x + y * y) ^ 2 + |z| ^ 2 := by
    rw [Real.sq_sqrt (by nlinarith [mul_self_nonneg x, mul_self_nonneg y, mul_self_nonneg z]),
      Real.sq_sqrt (by nlinarith [mul_self_nonneg x, mul_self_nonneg y]), sq_abs]
    ring
  have hbig : 100000 ≤ √(x * x + y * y + z * z) := by
    by_contra hn
    have h1 : √(x * x + y * y + z * z) ^ 2 ≤ 100000 ^ 2 := pow_le_pow_left₀ (Real.sqrt_nonneg _) (by linarith) 2
    rw [hr2, hw, hzabs] at h1
    have h2 : 6000000 ≤ nV α (sqEcc f) φ + height := by linarith
    have h3 : (6000000 * cos φ) ^ 2 ≤ ((nV α (sqEcc f) φ + height) * cos φ) ^ 2 :=
      pow_le_pow_left₀ (by positivity) (mul_le_mul_of_nonneg_right h2 hC0) 2
    have h4 : (6000000 * sin φ) ^ 2 ≤ (((1 - (sqEcc f)) * nV α (sqEcc f) φ + height) * sin φ) ^ 2 :=
      pow_le_pow_left₀ (by positivity) (mul_le_mul_of_nonneg_right hσ hS0) 2
    have h5 := sin_sq_add_cos_sq φ
    nlinarith
  obtain ⟨θ, t0, t1, hg, hdir, hpos, e⟩ := ecef_char (ell E) (fne E) rfl x y z _ _ rfl rfl hbig
  have hclose := gd.guess (ell E) (by linarith) hr2 hg t0 t1
  obtain ⟨a1, a2⟩ := gd.newton (ell E) t0 t1 hclose
  refine ⟨x, y, z, _, _, _, rfl, e, ?_, a2, ?_⟩
  · -- latitude, in degrees
    set ψ := θ + tF α (sqEcc f) √(x * x + y * y) |z| θ / (mF α (sqEcc f) θ + nF α (sqEcc f) √(x * x + y * y) |z| θ) with hψ
    have hdeg : ∀ s, deg s = s * (180 / π) := by intro s; unfold deg; ring
    have hlatd : lat = rad lat * (180 / π) := by unfold rad; field_simp
    have h180 : 180 / π ≤ 60 := by
      rw [div_le_iff₀ hpi]
      linarith [pi_gt_three]
    have h180' : 0 < 180 / π := by positivity
    have hb : |ψ - φ| * (180 / π) ≤ 1 / 10 ^ 9 := by
      have := mul_le_mul a1 h180 h180'.le (by norm_num)
      norm_num at this ⊢
      linarith
    by_cases hz0 : z < 0
    · rw [if_pos hz0]
      have hneg : rad lat = -φ := by
        have : sin (rad lat) < 0 := by
          by_contra hn
          have : 0 ≤ z := mul_nonneg (by linarith) (by linarith)
          linarith
        have hr : rad lat < 0 := by
          by_contra hn
          have : 0 ≤ sin (rad lat) := sin_nonneg_of_nonneg_of_le_pi (by linarith)
            (by rw [hφ, abs_of_nonneg (by linarith)] at hφ1; linarith)
          linarith
        rw [hφ, abs_of_neg hr, neg_neg]
      rw [hdeg, hlatd, hneg]
      have : -ψ * (180 / π) - -φ * (180 / π) = -((ψ - φ) * (180 / π)) := by ring
      rw [this, abs_neg, abs_mul, abs_of_pos h180']
      exact hb
    · rw [if_neg hz0]
      have hposr : rad lat = φ := by
        have hs : 0 ≤ sin (rad lat) := by
          by_contra hn
          have : z < 0 := mul_neg_of_pos_of_neg (by linarith) (by linarith)
          linarith
        have hr : 0 ≤ rad lat := by
          by_contra hn
          have h1 : rad lat < 0 := by linarith
          have h2 : φ = -rad lat := by rw [hφ, abs_of_neg h1]
          have : sin (rad lat) < 0 := sin_neg_of_neg_of_neg_pi_lt h1 (by linarith)
          linarith
        rw [hφ, abs_of_nonneg hr]
      rw [hdeg, hlatd, hposr]
      have : ψ * (180 / π) - φ * (180 / π) = (ψ - φ) * (180 / π) := by ring
      rw [this, abs_mul, abs_of_pos h180']
      exact hb
  · intro hl l1 l2
    have hc : 0 < cos φ := by
      apply cos_pos_of_mem_Ioo
      refine ⟨by linarith, ?_⟩
      rw [hφ, hrad]
      nlinarith
    have hm : rad lon ∈ Set.Ioc (-π) π := by
      unfold rad
      constructor <;> nlinarith
    have harg : atan2 y x = rad lon := by
      unfold atan2
      have : (⟨x, y⟩ : ℂ) = ((nV α (sqEcc f) φ + height) * cos φ : ℝ) * (Complex.cos (rad lon) + Complex.sin (rad lon) * Complex.I) := by
        apply Complex.ext
        · rw [Complex.re_ofReal_mul]
          simp [Complex.cos_ofReal_re, ← Complex.ofReal_cos, ← Complex.ofReal_sin, hx]
        · rw [Complex.im_ofReal_mul]
          simp [← Complex.ofReal_cos, ← Complex.ofReal_sin, hy]
      rw [this]
      exact Complex.arg_mul_cos_add_sin_mul_I (by positivity) hm
    rw [harg]
    unfold deg rad
    field_simp

/-- C86. Every ellipsoid of the example's list of datums is one for which the above holds. -/
theorem C86_datums (p : ℚ × ℚ) (h : p ∈ datums) : EarthLike (p.1 : ℝ) (p.2 : ℝ) := by
  have hq : ∀ p ∈ datums, 6377000 ≤ p.1 ∧ p.1 ≤ 6379000 ∧ 293 ≤ p.2 ∧ p.2 ≤ 301 := by decide +kernel
  obtain ⟨h1, h2, h3, h4⟩ := hq p h
  refine ⟨?_, ?_, ?_, ?_⟩ <;> exact_mod_cast ‹_›

/-- The example's first datum, Adindan (Clarke 1880). -/
example : ∃ x y z lat' lon' height', llh2ecef (-27.5) 153 8850 6378024.855 293.464999995854 = .ok (x, y, z) ∧
      ecef2llh x y z 6378024.855 293.464999995854 = .ok (lat', lon', height') ∧
      |lat' - -27.5| ≤ 1 / 10 ^ 9 ∧ |height' - 8850| ≤ 1 / 10 ^ 8 ∧
      (|(-27.5 : ℝ)| < 90 → -180 < (153 : ℝ) → (153 : ℝ) ≤ 180 → lon' = 153) :=
  C86_round_trip ⟨by norm_num, by norm_num, by norm_num, by norm_num⟩ (-27.5) 153 8850 (by rw [abs_le]; norm_num)
    (by norm_num)

/-- The library's own defaults. -/
example : EarthLike smajAxis flattening := by
  refine ⟨?_, ?_, ?_, ?_⟩ <;> first | (unfold smajAxis; norm_num) | (unfold flattening; norm_num)

end Nmea.Datum
