import Verif.Lemmas.DatumGuess
import Verif.Lemmas.GeoNewton
import Mathlib.Analysis.SpecialFunctions.Trigonometric.Deriv
import Mathlib.Analysis.SpecialFunctions.Sqrt
import Mathlib.Analysis.Calculus.MeanValue
/-!
# The Newton step of `ecef2llh`, for any ellipsoid of the Earth

As `Lemmas/GeoNewton.lean`.
-/
namespace Nmea.Datum
open Real
open Nmea.Geo (sin_expand cos_expand mvt)

variable {α ε : ℝ}

/-- The prime vertical radius of curvature. -/
noncomputable def nV (α ε φ : ℝ) : ℝ := α / √(gF ε φ)

theorem nV_bounds (H : Ell α ε) (φ : ℝ) : 6377000 ≤ nV α ε φ ∧ nV α ε φ ≤ 6400900 := by
  obtain ⟨g1, g2, g3, g4, g5⟩ := gF_bounds H φ
  obtain ⟨e1, e2⟩ := H.eb
  have hq : √(gF ε φ) ^ 2 = gF ε φ := Real.sq_sqrt g4.le
  unfold nV
  have hα0 := H.a0
  have hα1 := H.a1
  constructor
  · rw [le_div_iff₀ g5]
    nlinarith
  · rw [div_le_iff₀ g5]
    have : 0.996586 ≤ √(gF ε φ) := by
      apply Real.le_sqrt_of_sq_le
      norm_num
      linarith
    linarith

/-- The relation between a point and its geodetic coordinates, in the meridian plane. -/
structure Geodetic (α ε φ h w z : ℝ) : Prop where
  φ0 : 0 ≤ φ
  φ1 : φ ≤ π / 2
  h0 : -100000 ≤ h
  hw : w = (nV α ε φ + h) * cos φ
  hz : z = ((1 - ε) * nV α ε φ + h) * sin φ

theorem Geodetic.est (H : Ell α ε) {φ h w z r : ℝ} (g : Geodetic α ε φ h w z) (hr : 0 < r) (hr2 : r ^ 2 = w ^ 2 + z ^ 2) :
    Est ε (sin φ ^ 2) (ε * nV α ε φ / (nV α ε φ + h)) (r / (nV α ε φ + h)) (√(gF ε φ)) (√(gF ε φ) / (r / (nV α ε φ + h)))
      (1 / (r / (nV α ε φ + h)) ^ 2) := by
  obtain ⟨e1, e2⟩ := H.eb
  obtain ⟨n1, n2⟩ := nV_bounds H φ
  obtain ⟨g1, g2, g3, g4, g5⟩ := gF_bounds H φ
  obtain ⟨φ0, φ1, h0, hw, hz⟩ := g
  have hρ : 0 < nV α ε φ + h := by linarith
  have hu : 0 < r / (nV α ε φ + h) := by positivity
  refine ⟨H.e0, H.e1, sq_nonneg _, sin_sq_le_one _, ?_, ?_, hu, ?_, g5, ?_, ?_, ?_⟩
  · have : 0 ≤ nV α ε φ := by linarith
    positivity
  · rw [div_le_iff₀ hρ]
    nlinarith
  · rw [div_pow, hr2, hw, hz]
    have hc : cos φ ^ 2 = 1 - sin φ ^ 2 := by linarith [sin_sq_add_cos_sq φ]
    field_simp
    rw [hc]
    ring
  · rw [Real.sq_sqrt g4.le]
    rfl
  · field_simp
  · field_simp

/-- A first guess, up to an error `e` in its sine or cosine. -/
def GuessNear (α ε e w z r θ : ℝ) : Prop :=
  (0.2999 < (w / r) ^ 2 ∧
    |sin θ - z / r * (1 + k1 ε (α * ε / r) ((z / r) ^ 2) ((w / r) ^ 2))| ≤ e) ∨
  ((w / r) ^ 2 ≤ 0.3001 ∧
    |cos θ - w / r * (1 - k2 ε (α * ε / r) ((z / r) ^ 2) ((w / r) ^ 2))| ≤ e)

set_option maxHeartbeats 1000000 in
/-- An approximate first guess is within 0.004 t of the true latitude, where `t = e² N / (N + h)` is below 0.00693. -/
theorem Geodetic.guess_near (H : Ell α ε) {φ h w z r θ : ℝ} (g : Geodetic α ε φ h w z) (hr : 0 < r) (hr2 : r ^ 2 = w ^ 2 + z ^ 2)
    
    (hG : GuessNear α ε (0.00005 * (ε * nV α ε φ / (nV α ε φ + h))) w z r θ) (t0 : 0 ≤ θ) (t1 : θ ≤ π / 2) : |θ - φ| ≤ 0.004 * (ε * nV α ε φ / (nV α ε φ + h)) := by
  have E := g.est H hr hr2
  obtain ⟨e1, e2⟩ := H.eb
  obtain ⟨n1, n2⟩ := nV_bounds H φ
  obtain ⟨g1, g2, g3, g4, g5⟩ := gF_bounds H φ
  obtain ⟨φ0, φ1, h0, hw, hz⟩ := g
  have hρ : 0 < nV α ε φ + h := by linarith
  have hC0 : 0 ≤ cos φ := cos_nonneg_of_mem_Icc ⟨by linarith [pi_pos], φ1⟩
  have hS0 : 0 ≤ sin φ := sin_nonneg_of_nonneg_of_le_pi φ0 (by linarith [pi_pos])
  have hct0 : 0 ≤ cos θ := cos_nonneg_of_mem_Icc ⟨by linarith [pi_pos], t1⟩
  have hst0 : 0 ≤ sin θ := sin_nonneg_of_nonneg_of_le_pi t0 (by linarith [pi_pos])
  have hsc := sin_sq_add_cos_sq φ
  have hsct := sin_sq_add_cos_sq θ
  obtain ⟨u1, u2, u3, u4⟩ := E.u_bounds
  obtain ⟨p1, p2, p3, p4⟩ := E.P_bounds
  have B1 := E.branch1
  have B2 := E.branch2
  have et0 := E.t0
  have et1 := E.t1
  have hu := E.u0
  clear E
  set x := sin φ ^ 2 with hx
  set t := ε * nV α ε φ / (nV α ε φ + h) with ht
  set u := r / (nV α ε φ + h) with hud
  have hru : r = u * (nV α ε φ + h) := by rw [hud]; field_simp
  have hzr : z / r = (1 - t) * sin φ / u := by
    rw [hz, hru, ht]
    field_simp
    ring
  have hwr : w / r = cos φ / u := by
    rw [hw, hru]
    field_simp
  have hA : α * ε / r = t * (√(gF ε φ) / u) := by
    rw [hru, ht]
    unfold nV
    field_simp
  have hX : (z / r) ^ 2 = x * (1 - t) ^ 2 * (1 / u ^ 2) := by rw [hzr, hx]; field_simp
  have hY : (w / r) ^ 2 = (1 - x) * (1 / u ^ 2) := by
    rw [hwr]
    have : 1 - x = cos φ ^ 2 := by linarith
    rw [this]
    field_simp
  unfold GuessNear at hG
  rw [hA, hX, hY] at hG
  set P := 1 / u ^ 2 with hP
  have hx0 : 0 ≤ x := by rw [hx]; positivity
  have hx1 : x ≤ 1 := by rw [hx]; exact sin_sq_le_one _
  have hiu : 1 / u ≤ 1.0071 := by
    rw [div_le_iff₀ hu]
    linarith
  have hiu0 : 0 < 1 / u := by positivity
  rcases hG with ⟨hb, hs⟩ | ⟨hb, hc⟩
  · rw [hzr] at hs
    set k := k1 ε (t * (√(gF ε φ) / u)) (x * (1 - t) ^ 2 * P) ((1 - x) * P)
    have hd : (1 - t) * sin φ / u * (1 + k) - sin φ = sin φ * (((1 - t) * (1 + k) - u) * (1 / u)) := by
      field_simp
    have hfac : |((1 - t) * (1 + k) - u) * (1 / u)| ≤ 0.00247 * t := by
      rw [abs_mul, abs_of_pos hiu0]
      have := mul_le_mul B1 hiu hiu0.le (by positivity : 0 ≤ 0.00245 * t)
      linarith
    have hx7 : x ≤ 0.7044 := by
      have : (1 - x) * P ≤ (1 - x) * 1.0142 := mul_le_mul_of_nonneg_left p4 (by linarith)
      linarith
    have hS8 : sin φ ≤ 0.8393 := by
      by_contra hn
      have : (0.8393 : ℝ) ^ 2 ≤ sin φ ^ 2 := pow_le_pow_left₀ (by norm_num) (by linarith) 2
      rw [← hx] at this
      norm_num at this
      linarith
    have hdl : |sin θ - sin φ| ≤ 0.0021231 * t := by
      have h3 := abs_sub_le (sin θ) ((1 - t) * sin φ / u * (1 + k)) (sin φ)
      rw [hd, abs_mul, abs_of_nonneg hS0] at h3
      have := mul_le_mul hS8 hfac (abs_nonneg _) (by norm_num)
      linarith
    have hcφ : 0.54 ≤ cos φ := by
      by_contra hn
      have : cos φ ^ 2 ≤ 0.54 ^ 2 := pow_le_pow_left₀ hC0 (by linarith) 2
      norm_num at this
      linarith
    have hsθ : sin θ ≤ 0.8394 := by
      rw [abs_le] at hdl
      linarith [hdl.2]
    have hcθ : 0.54 ≤ cos θ := by
      by_contra hn
      have h1 : cos θ ^ 2 ≤ 0.54 ^ 2 := pow_le_pow_left₀ hct0 (by linarith) 2
      have h2 : sin θ ^ 2 ≤ 0.8394 ^ 2 := pow_le_pow_left₀ hst0 hsθ 2
      norm_num at h1 h2
      linarith
    have := sin_expand t0 t1 φ0 φ1 hcθ hcφ
    linarith
  · rw [hwr] at hc
    set k := k2 ε (t * (√(gF ε φ) / u)) (x * (1 - t) ^ 2 * P) ((1 - x) * P)
    have hd : cos φ / u * (1 - k) - cos φ = cos φ * ((1 - k - u) * (1 / u)) := by
      field_simp
    have hfac : |(1 - k - u) * (1 / u)| ≤ 0.00247 * t := by
      rw [abs_mul, abs_of_pos hiu0]
      have := mul_le_mul B2 hiu hiu0.le (by positivity : 0 ≤ 0.00245 * t)
      linarith
    have hx7 : 0.6999 ≤ x := by
      have : (1 - x) * 1 ≤ (1 - x) * P := mul_le_mul_of_nonneg_left p3 (by linarith)
      linarith
    have hS8 : 0.836 ≤ sin φ := by
      by_contra hn
      have : sin φ ^ 2 ≤ 0.836 ^ 2 := pow_le_pow_left₀ hS0 (by linarith) 2
      rw [← hx] at this
      norm_num at this
      linarith
    have hcφ : cos φ ≤ 0.5479 := by
      by_contra hn
      have : (0.5479 : ℝ) ^ 2 ≤ cos φ ^ 2 := pow_le_pow_left₀ (by norm_num) (by linarith) 2
      norm_num at this
      linarith
    have hdl : |cos θ - cos φ| ≤ 0.0021231 * t := by
      have h3 := abs_sub_le (cos θ) (cos φ / u * (1 - k)) (cos φ)
      rw [hd, abs_mul, abs_of_nonneg hC0] at h3
      have := mul_le_mul hcφ hfac (abs_nonneg _) (by norm_num)
      linarith
    have hcθ : cos θ ≤ 0.548 := by
      rw [abs_le] at hdl
      linarith [hdl.2]
    have hsθ : 0.836 ≤ sin θ := by
      by_contra hn
      have h1 : sin θ ^ 2 ≤ 0.836 ^ 2 := pow_le_pow_left₀ hst0 (by linarith) 2
      have h2 : cos θ ^ 2 ≤ 0.548 ^ 2 := pow_le_pow_left₀ hct0 hcθ 2
      norm_num at h1 h2
      linarith
    have := cos_expand t0 t1 φ0 φ1 hsθ hS8
    have := abs_nonneg (θ - φ)
    linarith

/-- The first guess is within 0.004 t of the true latitude. -/
theorem Geodetic.guess (H : Ell α ε) {φ h w z r θ : ℝ} (g : Geodetic α ε φ h w z) (hr : 0 < r) (hr2 : r ^ 2 = w ^ 2 + z ^ 2)
    (hG : Guess α ε w z r θ) (t0 : 0 ≤ θ) (t1 : θ ≤ π / 2) : |θ - φ| ≤ 0.004 * (ε * nV α ε φ / (nV α ε φ + h)) := by
  have et0 := (g.est H hr hr2).t0
  refine g.guess_near H hr hr2 ?_ t0 t1
  rcases hG with ⟨a, b⟩ | ⟨a, b⟩
  · refine .inl ⟨by norm_num at a ⊢; linarith, ?_⟩
    rw [b, sub_self, abs_zero]; positivity
  · refine .inr ⟨by norm_num at a ⊢; linarith, ?_⟩
    rw [b, sub_self, abs_zero]; positivity

/-! ## Derivatives -/

theorem hasDerivAt_gF (θ : ℝ) : HasDerivAt (gF ε) (-(2 * ε * sin θ * cos θ)) θ := by
  have h := ((hasDerivAt_sin θ).pow 2).const_mul ε |>.const_sub 1
  refine h.congr_deriv ?_
  simp only [Nat.cast_ofNat]
  ring

theorem hasDerivAt_sqrt_gF (H : Ell α ε) (θ : ℝ) : HasDerivAt (fun x => √(gF ε x)) (-(ε * sin θ * cos θ / √(gF ε θ))) θ := by
  obtain ⟨g1, g2, g3, g4, g5⟩ := gF_bounds H θ
  refine ((hasDerivAt_gF θ).sqrt g4.ne').congr_deriv ?_
  field_simp

theorem hasDerivAt_nF (H : Ell α ε) (w z θ : ℝ) : HasDerivAt (nF α ε w z) (tF α ε w z θ) θ := by
  have h := (((hasDerivAt_cos θ).const_mul w).add ((hasDerivAt_sin θ).const_mul z)).sub
    ((hasDerivAt_sqrt_gF H θ).const_mul α)
  refine h.congr_deriv ?_
  unfold tF
  ring

theorem hasDerivAt_tF (H : Ell α ε) (w z θ : ℝ) : HasDerivAt (tF α ε w z) (-(mF α ε θ + nF α ε w z θ)) θ := by
  obtain ⟨g1, g2, g3, g4, g5⟩ := gF_bounds H θ
  have h := (((hasDerivAt_cos θ).const_mul z).sub ((hasDerivAt_sin θ).const_mul w)).add
    ((((hasDerivAt_sin θ).const_mul (α * ε)).mul (hasDerivAt_cos θ)).div (hasDerivAt_sqrt_gF H θ) g5.ne')
  refine h.congr_deriv ?_
  simp only [Pi.mul_apply]
  have hq : √(gF ε θ) ^ 2 = 1 - ε * sin θ ^ 2 := Real.sq_sqrt g4.le
  have hc : cos θ ^ 2 = 1 - sin θ ^ 2 := by linarith [sin_sq_add_cos_sq θ]
  unfold mF nF
  have hg : gF ε θ = √(gF ε θ) ^ 2 := (Real.sq_sqrt g4.le).symm
  set q := √(gF ε θ) with hqd
  rw [hg]
  field_simp
  have e4 : q ^ 4 = (1 - ε * sin θ ^ 2) ^ 2 := by rw [← hq]; ring
  have key : α * ε * (q ^ 2 * (cos θ ^ 2 - sin θ ^ 2) + ε * sin θ ^ 2 * cos θ ^ 2) =
      -(α * (1 - ε)) + α * q ^ 4 := by
    rw [e4, hq, hc]
    ring
  linear_combination key

noncomputable def dM (α ε θ : ℝ) : ℝ := 3 * α * (1 - ε) * ε * sin θ * cos θ / (gF ε θ ^ 2 * √(gF ε θ))

theorem hasDerivAt_mF (H : Ell α ε) (θ : ℝ) : HasDerivAt (mF α ε) (dM α ε θ) θ := by
  obtain ⟨g1, g2, g3, g4, g5⟩ := gF_bounds H θ
  have h := (hasDerivAt_const θ (α * (1 - ε))).div ((hasDerivAt_gF θ).mul (hasDerivAt_sqrt_gF H θ))
    (mul_pos g4 g5).ne'
  refine h.congr_deriv ?_
  simp only [Pi.mul_apply]
  unfold dM
  have hg : gF ε θ = √(gF ε θ) ^ 2 := (Real.sq_sqrt g4.le).symm
  set q := √(gF ε θ) with hqd
  rw [hg]
  field_simp
  ring

theorem dM_bound (H : Ell α ε) (θ : ℝ) : |dM α ε θ| ≤ 66500 := by
  obtain ⟨e1, e2⟩ := H.eb
  obtain ⟨g1, g2, g3, g4, g5⟩ := gF_bounds H θ
  have hq2 : 0.99658 ≤ √(gF ε θ) := by
    apply Real.le_sqrt_of_sq_le
    norm_num
    linarith
  have hsc : |sin θ * cos θ| ≤ 1 / 2 := by
    have := sin_sq_add_cos_sq θ
    rw [abs_le]
    constructor <;> nlinarith [sq_nonneg (sin θ - cos θ), sq_nonneg (sin θ + cos θ)]
  have hd : 0.983 ≤ gF ε θ ^ 2 * √(gF ε θ) := by
    have h1 : (0.99318 : ℝ) ^ 2 ≤ gF ε θ ^ 2 := pow_le_pow_left₀ (by norm_num) g3 2
    have := mul_le_mul h1 hq2 (by norm_num) (by positivity)
    norm_num at this
    linarith
  have e : dM α ε θ = 3 * α * (1 - ε) * ε * (sin θ * cos θ) / (gF ε θ ^ 2 * √(gF ε θ)) := by
    unfold dM; ring
  rw [e, abs_div, abs_of_pos (by positivity : 0 < gF ε θ ^ 2 * √(gF ε θ)), div_le_iff₀ (by positivity), abs_mul]
  have hc : |3 * α * (1 - ε) * ε| ≤ 130500 := by
    have hα0 := H.a0
    have hα1 := H.a1
    have hα : 0 ≤ α := by linarith
    have he : 0 ≤ 1 - ε := by linarith
    rw [abs_of_nonneg (by positivity)]
    have k1 : (1 - ε) * ε ≤ 1 * 0.006815 := mul_le_mul (by linarith) e2 (by linarith) (by norm_num)
    have k2 : α * ((1 - ε) * ε) ≤ 6379000 * (1 * 0.006815) := mul_le_mul hα1 k1 (by positivity) (by norm_num)
    linarith
  have := mul_le_mul hc hsc (abs_nonneg _) (by norm_num)
  linarith

/-! ## The step -/

theorem curv_upper (H : Ell α ε) (θ : ℝ) : mF α ε θ - α * √(gF ε θ) ≤ 43700 := by
  obtain ⟨e1, e2⟩ := H.eb
  obtain ⟨g1, g2, g3, g4, g5⟩ := gF_bounds H θ
  have hq : √(gF ε θ) ^ 2 = gF ε θ := Real.sq_sqrt g4.le
  have hq2 : 0.99658 ≤ √(gF ε θ) := by
    apply Real.le_sqrt_of_sq_le
    norm_num
    linarith
  set q := √(gF ε θ) with hqd
  have e : mF α ε θ - α * q = α * ((1 - ε) - (q ^ 2) ^ 2) / (q ^ 3) := by
    unfold mF
    rw [← hqd, ← hq]
    field_simp
  rw [e, div_le_iff₀ (by positivity), hq]
  have hα0 := H.a0
  have hα1 := H.a1
  have h4 : (1 - ε) ^ 2 ≤ gF ε θ ^ 2 := pow_le_pow_left₀ (by linarith) g1 2
  have h3 : (0.99658 : ℝ) ^ 3 ≤ q ^ 3 := pow_le_pow_left₀ (by norm_num) hq2 3
  have k1 : 1 - ε - gF ε θ ^ 2 ≤ 0.9934 * 0.006815 := by nlinarith
  have k2 : α * (1 - ε - gF ε θ ^ 2) ≤ α * (0.9934 * 0.006815) := mul_le_mul_of_nonneg_left k1 (by linarith)
  norm_num at h3
  linarith

theorem Geodetic.exact (H : Ell α ε) {φ h w z : ℝ} (g : Geodetic α ε φ h w z) : tF α ε w z φ = 0 ∧ nF α ε w z φ = h := by
  obtain ⟨g1, g2, g3, g4, g5⟩ := gF_bounds H φ
  have hq : √(gF ε φ) ^ 2 = 1 - ε * sin φ ^ 2 := Real.sq_sqrt g4.le
  have hc : cos φ ^ 2 = 1 - sin φ ^ 2 := by linarith [sin_sq_add_cos_sq φ]
  obtain ⟨-, -, -, hw, hz⟩ := g
  unfold tF nF
  rw [hw, hz]
  unfold nV
  set q := √(gF ε φ)
  constructor
  · field_simp
    ring
  · field_simp
    have key : α * q ^ 2 = α * (cos φ ^ 2 + (1 - ε) * sin φ ^ 2) := by
      rw [hq, hc]; ring
    linear_combination h * q * sin_sq_add_cos_sq φ - key

set_option maxHeartbeats 1000000 in
/-- One Newton step from a guess within 0.004 t, and the sizes of its parts. -/
theorem Geodetic.newton_full (H : Ell α ε) {φ h w z θ : ℝ} (g : Geodetic α ε φ h w z) (t0 : 0 ≤ θ) (t1 : θ ≤ π / 2)
    (hδ : |θ - φ| ≤ 0.004 * (ε * nV α ε φ / (nV α ε φ + h))) :
    |θ + tF α ε w z θ / (mF α ε θ + nF α ε w z θ) - φ| ≤ 1 / 10 ^ 11 ∧
      |nF α ε w z θ + tF α ε w z θ * (tF α ε w z θ / (mF α ε θ + nF α ε w z θ)) / 2 - h| ≤ 1 / 10 ^ 8 ∧
      |tF α ε w z θ| ≤ 177 ∧ 6233000 ≤ mF α ε θ + nF α ε w z θ := by
  obtain ⟨e1, e2⟩ := H.eb
  obtain ⟨n1, n2⟩ := nV_bounds H φ
  obtain ⟨hT, hN⟩ := g.exact H
  obtain ⟨φ0, φ1, h0, hw, hz⟩ := g
  have hρ : 6277000 ≤ nV α ε φ + h := by linarith
  have hρ0 : 0 < nV α ε φ + h := by linarith
  have hC0 : 0 ≤ cos φ := cos_nonneg_of_mem_Icc ⟨by linarith [pi_pos], φ1⟩
  have hS0 : 0 ≤ sin φ := sin_nonneg_of_nonneg_of_le_pi φ0 (by linarith [pi_pos])
  -- size of the guess error
  have hδ1 : |θ - φ| ≤ 0.0000278 := by
    refine hδ.trans ?_
    have : ε * nV α ε φ / (nV α ε φ + h) ≤ 0.00693 := by
      rw [div_le_iff₀ hρ0]
      nlinarith
    linarith
  have hδρ : (nV α ε φ + h) * |θ - φ| ≤ 175 := by
    have h1 : (nV α ε φ + h) * |θ - φ| ≤ (nV α ε φ + h) * (0.004 * (ε * nV α ε φ / (nV α ε φ + h))) :=
      mul_le_mul_of_nonneg_left hδ hρ0.le
    have h2 : (nV α ε φ + h) * (0.004 * (ε * nV α ε φ / (nV α ε φ + h))) = 0.004 * (ε * nV α ε φ) := by field_simp
    have h3 : ε * nV α ε φ ≤ 0.006815 * 6400900 := mul_le_mul e2 n2 (by linarith) (by norm_num)
    linarith
  set δ := |θ - φ| with hδd
  have hδ0 : 0 ≤ δ := abs_nonneg _
  -- the derivative
  have W_bound : ∀ ψ, 0 ≤ ψ → ψ ≤ π / 2 → |mF α ε ψ + nF α ε w z ψ| ≤ 1.01 * (nV α ε φ + h) := by
    intro ψ a b
    have c0 : 0 ≤ cos ψ := cos_nonneg_of_mem_Icc ⟨by linarith [pi_pos], b⟩
    have s0 : 0 ≤ sin ψ := sin_nonneg_of_nonneg_of_le_pi a (by linarith [pi_pos])
    have w0 : 0 ≤ w := by rw [hw]; positivity
    have z0 : 0 ≤ z := by
      rw [hz]
      apply mul_nonneg _ hS0
      nlinarith
    have zle : z ≤ (nV α ε φ + h) * sin φ := by
      rw [hz]
      apply mul_le_mul_of_nonneg_right _ hS0
      nlinarith
    have h1 : w * cos ψ + z * sin ψ ≤ nV α ε φ + h := by
      have h2 : z * sin ψ ≤ (nV α ε φ + h) * sin φ * sin ψ := mul_le_mul_of_nonneg_right zle s0
      have h3 : (nV α ε φ + h) * cos (φ - ψ) ≤ (nV α ε φ + h) * 1 := mul_le_mul_of_nonneg_left (cos_le_one _) hρ0.le
      rw [cos_sub] at h3
      rw [hw]
      linarith
    have h2 : 0 ≤ w * cos ψ + z * sin ψ := by positivity
    have h3 := curv_bound H ψ
    have h4 := curv_upper H ψ
    unfold nF
    rw [abs_le]
    constructor <;> linarith
  have inside : ∀ {ψ}, min θ φ ≤ ψ → ψ ≤ max θ φ → 0 ≤ ψ ∧ ψ ≤ π / 2 ∧ |ψ - φ| ≤ δ ∧ |ψ - θ| ≤ δ := by
    intro ψ a b
    refine ⟨(le_min t0 φ0).trans a, b.trans (max_le t1 φ1), ?_, ?_⟩
    all_goals
      rw [hδd]
      rcases le_total θ φ with hh | hh
      · rw [min_eq_left hh] at a
        rw [max_eq_right hh] at b
        rw [abs_le, abs_of_nonpos (by linarith : θ - φ ≤ 0)]
        constructor <;> linarith
      · rw [min_eq_right hh] at a
        rw [max_eq_left hh] at b
        rw [abs_le, abs_of_nonneg (by linarith : 0 ≤ θ - φ)]
        constructor <;> linarith
  have T_bound : ∀ {ψ}, min θ φ ≤ ψ → ψ ≤ max θ φ → |tF α ε w z ψ| ≤ 177 := by
    intro ψ a b
    obtain ⟨i1, i2, i3, i4⟩ := inside a b
    obtain ⟨ξ, x1, x2, x3⟩ := mvt (hasDerivAt_tF H w z) ψ φ
    rw [hT, sub_zero] at x3
    rw [x3, abs_mul, abs_neg]
    have hξ := W_bound ξ ((le_min i1 φ0).trans x1) (x2.trans (max_le i2 φ1))
    have := mul_le_mul hξ i3 (abs_nonneg _) (by positivity)
    linarith
  have hW : ∀ x, HasDerivAt (fun ψ => mF α ε ψ + nF α ε w z ψ) (dM α ε x + tF α ε w z x) x := fun x =>
    (hasDerivAt_mF H x).add (hasDerivAt_nF H w z x)
  have W_lip : ∀ {ψ ψ'}, min θ φ ≤ ψ → ψ ≤ max θ φ → min θ φ ≤ ψ' → ψ' ≤ max θ φ → ∀ d, |ψ - ψ'| ≤ d →
      |(mF α ε ψ + nF α ε w z ψ) - (mF α ε ψ' + nF α ε w z ψ')| ≤ 66700 * d := by
    intro ψ ψ' a b a' b' d hd
    obtain ⟨ξ, x1, x2, x3⟩ := mvt hW ψ ψ'
    rw [x3, abs_mul]
    have h1 := T_bound ((le_min a a').trans x1) (x2.trans (max_le b b'))
    have h2 := dM_bound H ξ
    have h3 : |dM α ε ξ + tF α ε w z ξ| ≤ 66700 := (abs_add_le _ _).trans (by linarith)
    exact mul_le_mul h3 hd (abs_nonneg _) (by norm_num)
  have hθl : min θ φ ≤ θ := min_le_left _ _
  have hθr : θ ≤ max θ φ := le_max_left _ _
  have hφl : min θ φ ≤ φ := min_le_right _ _
  have hφr : φ ≤ max θ φ := le_max_right _ _
  have hKφ : 6233000 ≤ mF α ε φ + nF α ε w z φ - 2 := by
    rw [hN]
    obtain ⟨g1, g2, g3, g4, g5⟩ := gF_bounds H φ
    have hq : √(gF ε φ) ≤ 1 := by
      rw [Real.sqrt_le_iff]
      exact ⟨by norm_num, by linarith⟩
    have : α * (1 - ε) ≤ mF α ε φ := by
      unfold mF
      rw [le_div_iff₀ (by positivity)]
      have h1 : gF ε φ * √(gF ε φ) ≤ 1 := mul_le_one₀ g2 g5.le hq
      have h2 : 0 ≤ α * (1 - ε) := by
        have := H.a0
        have : 0 ≤ α := by linarith
        have : 0 ≤ 1 - ε := by linarith
        positivity
      exact mul_le_of_le_one_right h2 h1
    have : 6377000 * (1 - 0.006815) ≤ α * (1 - ε) := mul_le_mul H.a0 (by linarith) (by norm_num) (by linarith [H.a0])
    linarith
  have hK : 6233000 ≤ mF α ε θ + nF α ε w z θ := by
    have := W_lip hθl hθr hφl hφr δ le_rfl
    rw [abs_le] at this
    linarith [this.1]
  have hKu := W_bound θ t0 t1
  have hN' : ∀ x, HasDerivAt (nF α ε w z) (tF α ε w z x) x := hasDerivAt_nF H w z
  set K := mF α ε θ + nF α ε w z θ with hKd
  have hK0 : 0 < K := by linarith
  set p := tF α ε w z θ / K with hp
  have hTK : tF α ε w z θ = K * p := by rw [hp]; field_simp
  -- latitude
  have hlat : |θ + p - φ| ≤ 0.01071 * δ ^ 2 := by
    obtain ⟨ξ, x1, x2, x3⟩ := mvt (hasDerivAt_tF H w z) θ φ
    obtain ⟨i1, i2, i3, i4⟩ := inside x1 x2
    rw [hT, sub_zero] at x3
    have hl := W_lip hθl hθr x1 x2 δ (by rw [abs_sub_comm]; exact i4)
    have e : θ + p - φ = (θ - φ) * (K - (mF α ε ξ + nF α ε w z ξ)) / K := by
      rw [hp, x3]
      field_simp
      ring
    rw [e, abs_div, abs_mul, abs_of_pos hK0, div_le_iff₀ hK0, ← hδd]
    have h1 : δ * |K - (mF α ε ξ + nF α ε w z ξ)| ≤ δ * (66700 * δ) := mul_le_mul_of_nonneg_left hl hδ0
    have h2 : 0.01071 * δ ^ 2 * 6233000 ≤ 0.01071 * δ ^ 2 * K := mul_le_mul_of_nonneg_left hK (by positivity)
    have h3 : 0 ≤ δ ^ 2 := by positivity
    nlinarith
  have hδ2 : δ ^ 2 ≤ 0.0000278 ^ 2 := pow_le_pow_left₀ hδ0 hδ1 2
  have hδ3 : δ ^ 3 ≤ 0.0000278 ^ 3 := pow_le_pow_left₀ hδ0 hδ1 3
  refine ⟨?_, ?_, T_bound hθl hθr, hK⟩
  · refine hlat.trans ?_
    norm_num at hδ2 ⊢
    linarith
  -- height
  · have hG : ∀ x, HasDerivAt (fun ψ => nF α ε w z ψ - tF α ε w z θ * (ψ - θ) + K * (ψ - θ) ^ 2 / 2)
        (tF α ε w z x - tF α ε w z θ + K * (x - θ)) x := by
      intro x
      have h1 := ((hasDerivAt_id x).sub_const θ).const_mul (tF α ε w z θ)
      have h2 := ((((hasDerivAt_id x).sub_const θ).pow 2).const_mul K).div_const 2
      refine (((hN' x).sub h1).add h2).congr_deriv ?_
      simp only [id_eq, Nat.cast_ofNat]
      ring
    obtain ⟨ξ, x1, x2, x3⟩ := mvt hG φ θ
    rw [min_comm] at x1
    rw [max_comm] at x2
    obtain ⟨i1, i2, i3, i4⟩ := inside x1 x2
    obtain ⟨ζ, y1, y2, y3⟩ := mvt (hasDerivAt_tF H w z) ξ θ
    have hζl : min θ φ ≤ ζ := (le_min x1 hθl).trans y1
    have hζr : ζ ≤ max θ φ := y2.trans (max_le x2 hθr)
    obtain ⟨j1, j2, j3, j4⟩ := inside hζl hζr
    rw [hN, y3] at x3
    have hl := W_lip hθl hθr hζl hζr δ (by rw [abs_sub_comm]; exact j4)
    have rem : |(-(mF α ε ζ + nF α ε w z ζ) * (ξ - θ) + K * (ξ - θ)) * (φ - θ)| ≤ 66700 * δ ^ 3 := by
      have e : (-(mF α ε ζ + nF α ε w z ζ) * (ξ - θ) + K * (ξ - θ)) * (φ - θ) =
          (K - (mF α ε ζ + nF α ε w z ζ)) * (ξ - θ) * (φ - θ) := by ring
      rw [e, abs_mul, abs_mul, abs_sub_comm φ θ, ← hδd]
      have h1 := mul_le_mul hl i4 (abs_nonneg _) (by positivity)
      have h2 := mul_le_mul_of_nonneg_right h1 hδ0
      have h3 : 66700 * δ * δ * δ = 66700 * δ ^ 3 := by ring
      linarith
    set Z := (-(mF α ε ζ + nF α ε w z ζ) * (ξ - θ) + K * (ξ - θ)) * (φ - θ) with hZ
    have main : nF α ε w z θ + tF α ε w z θ * p / 2 - h = K * (θ + p - φ) ^ 2 / 2 - Z := by
      rw [hTK] at x3 ⊢
      linear_combination -x3
    rw [main]
    have hsq : K * (θ + p - φ) ^ 2 ≤ 1 * δ ^ 3 := by
      have h1 : (θ + p - φ) ^ 2 ≤ (0.01071 * δ ^ 2) ^ 2 := by
        rw [← sq_abs]
        exact pow_le_pow_left₀ (abs_nonneg _) hlat 2
      rw [abs_of_pos hK0] at hKu
      have h2 := mul_le_mul hKu h1 (sq_nonneg _) (by positivity)
      have h3 : 1.01 * (nV α ε φ + h) * (0.01071 * δ ^ 2) ^ 2 = 1.01 * 0.01071 ^ 2 * (((nV α ε φ + h) * δ) * δ ^ 3) := by ring
      have h4 : (nV α ε φ + h) * δ * δ ^ 3 ≤ 175 * δ ^ 3 := mul_le_mul_of_nonneg_right hδρ (by positivity)
      have h5 : 0 ≤ δ ^ 3 := by positivity
      rw [h3] at h2
      nlinarith
    have hsq0 : 0 ≤ K * (θ + p - φ) ^ 2 := by positivity
    have hd3 : 66701 * δ ^ 3 ≤ 1 / 10 ^ 8 := by
      norm_num at hδ3 ⊢
      linarith
    rw [abs_le] at rem ⊢
    have h5 : 0 ≤ δ ^ 3 := by positivity
    constructor <;> linarith [rem.1, rem.2]

/-- One Newton step from a guess within 0.004 t. -/
theorem Geodetic.newton (H : Ell α ε) {φ h w z θ : ℝ} (g : Geodetic α ε φ h w z) (t0 : 0 ≤ θ) (t1 : θ ≤ π / 2)
    (hδ : |θ - φ| ≤ 0.004 * (ε * nV α ε φ / (nV α ε φ + h))) :
    |θ + tF α ε w z θ / (mF α ε θ + nF α ε w z θ) - φ| ≤ 1 / 10 ^ 11 ∧
      |nF α ε w z θ + tF α ε w z θ * (tF α ε w z θ / (mF α ε θ + nF α ε w z θ)) / 2 - h| ≤ 1 / 10 ^ 8 :=
  ⟨(g.newton_full H t0 t1 hδ).1, (g.newton_full H t0 t1 hδ).2.1⟩

end Nmea.Datum
