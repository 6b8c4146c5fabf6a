import Verif.Props.GeoFloatMore
import Verif.Props.Geo
/-!
# The planar approximation against the great circle (C73)
-/
namespace Nmea.GeoF
open Py PyFloat Nmea.Geo Real InnerProductGeometry

/-- The squared chord from above. -/
theorem chord_upper {u v c1 c2 F T p : ℝ} (h1 : 0 ≤ c1) (h2 : 0 ≤ c2) (hc : c2 ≤ c1 + u) (v0 : 0 ≤ v)
    (hF : F ≤ u ^ 2) (hT : T ≤ v ^ 2) (hp2 : p ^ 2 = u ^ 2 + (c1 * v) ^ 2) (uv : u * (c1 * v) ≤ p ^ 2 / 2) :
    F + c1 * c2 * T ≤ p ^ 2 * (1 + v / 2) := by
  have a2 : c1 * c2 * T ≤ c1 * c2 * v ^ 2 := mul_le_mul_of_nonneg_left hT (mul_nonneg h1 h2)
  have a3 : c1 * c2 * v ^ 2 ≤ c1 * (c1 + u) * v ^ 2 :=
    mul_le_mul_of_nonneg_right (mul_le_mul_of_nonneg_left hc h1) (sq_nonneg _)
  have a4 : c1 * (c1 + u) * v ^ 2 = (c1 * v) ^ 2 + (u * (c1 * v)) * v := by ring
  have a5 : (u * (c1 * v)) * v ≤ p ^ 2 / 2 * v := mul_le_mul_of_nonneg_right uv v0
  have : p ^ 2 * (1 + v / 2) = u ^ 2 + (c1 * v) ^ 2 + p ^ 2 / 2 * v := by rw [hp2]; ring
  rw [this]; linarith

/-- The squared chord from below. -/
theorem chord_lower {u v c1 c2 F T p : ℝ} (h1 : 0 ≤ c1) (h2 : 0 ≤ c2) (hc : c1 - u ≤ c2) (u0 : 0 ≤ u) (v0 : 0 ≤ v)
    (v1 : v ≤ 1) (hF : u ^ 2 - 5 / 48 * u ^ 4 ≤ F) (hT : v ^ 2 - 5 / 48 * v ^ 4 ≤ T)
    (hp2 : p ^ 2 = u ^ 2 + (c1 * v) ^ 2) (uv : u * (c1 * v) ≤ p ^ 2 / 2) :
    p ^ 2 * (1 - v / 2 - 5 / 48 * u ^ 2 - 5 / 48 * v ^ 2) ≤ F + c1 * c2 * T := by
  have v2 : v ^ 2 ≤ 1 := by nlinarith
  have w1 : 0 ≤ 1 - 5 / 48 * v ^ 2 := by linarith
  have w0 : 0 ≤ v ^ 2 - 5 / 48 * v ^ 4 := by
    have : v ^ 2 - 5 / 48 * v ^ 4 = v ^ 2 * (1 - 5 / 48 * v ^ 2) := by ring
    rw [this]; exact mul_nonneg (sq_nonneg v) w1
  have a2 : c1 * c2 * (v ^ 2 - 5 / 48 * v ^ 4) ≤ c1 * c2 * T := mul_le_mul_of_nonneg_left hT (mul_nonneg h1 h2)
  have a3 : c1 * (c1 - u) * (v ^ 2 - 5 / 48 * v ^ 4) ≤ c1 * c2 * (v ^ 2 - 5 / 48 * v ^ 4) :=
    mul_le_mul_of_nonneg_right (mul_le_mul_of_nonneg_left hc h1) w0
  have a4 : c1 * (c1 - u) * (v ^ 2 - 5 / 48 * v ^ 4) =
      (c1 * v) ^ 2 * (1 - 5 / 48 * v ^ 2) - (u * (c1 * v)) * (v * (1 - 5 / 48 * v ^ 2)) := by ring
  have a5 : (u * (c1 * v)) * (v * (1 - 5 / 48 * v ^ 2)) ≤ p ^ 2 / 2 * v := by
    have b1 : v * (1 - 5 / 48 * v ^ 2) ≤ v * 1 := mul_le_mul_of_nonneg_left (by linarith [sq_nonneg v]) v0
    rw [mul_one] at b1
    exact mul_le_mul uv b1 (mul_nonneg v0 w1) (by positivity)
  have a6 : 5 / 48 * u ^ 4 + (c1 * v) ^ 2 * (5 / 48 * v ^ 2) ≤ (5 / 48 * u ^ 2 + 5 / 48 * v ^ 2) * p ^ 2 := by
    have e : (5 / 48 * u ^ 2 + 5 / 48 * v ^ 2) * p ^ 2 = 5 / 48 * u ^ 4 + (c1 * v) ^ 2 * (5 / 48 * v ^ 2) +
        (5 / 48 * (u ^ 2 * (c1 * v) ^ 2) + 5 / 48 * (v ^ 2 * u ^ 2)) := by rw [hp2]; ring
    rw [e]
    have : 0 ≤ 5 / 48 * (u ^ 2 * (c1 * v) ^ 2) + 5 / 48 * (v ^ 2 * u ^ 2) := by positivity
    linarith
  have e1 : p ^ 2 * (1 - v / 2 - 5 / 48 * u ^ 2 - 5 / 48 * v ^ 2) =
      u ^ 2 + (c1 * v) ^ 2 - p ^ 2 / 2 * v - (5 / 48 * u ^ 2 + 5 / 48 * v ^ 2) * p ^ 2 := by
    rw [hp2]; ring
  rw [e1]
  have e2 : (c1 * v) ^ 2 * (1 - 5 / 48 * v ^ 2) = (c1 * v) ^ 2 - (c1 * v) ^ 2 * (5 / 48 * v ^ 2) := by ring
  linarith

/-- From the chord to the arc. -/
theorem arc_bound {u v p c δ : ℝ} (u0 : 0 ≤ u) (v0 : 0 ≤ v) (v1 : v ≤ 1 / 4) (hp : 0 ≤ p) (hd0 : 0 ≤ δ)
    (up : c ≤ p ^ 2 * (1 + v / 2)) (lo : p ^ 2 * (1 - v / 2 - 5 / 48 * u ^ 2 - 5 / 48 * v ^ 2) ≤ c)
    (cd : c ≤ δ ^ 2) (dc : δ ^ 2 - 5 / 48 * δ ^ 4 ≤ c) (d2 : δ ^ 2 ≤ 3 * p ^ 2) (p2uv : p ^ 2 ≤ u ^ 2 + v ^ 2) :
    |p - δ| ≤ p * (v + u ^ 2) := by
  have vv : v ^ 2 ≤ v := by nlinarith
  have pv : 0 ≤ p ^ 2 * v := by positivity
  have pu : 0 ≤ p ^ 2 * u ^ 2 := by positivity
  have pvv : p ^ 2 * v ^ 2 ≤ p ^ 2 * v := mul_le_mul_of_nonneg_left vv (sq_nonneg p)
  rcases hp.eq_or_lt with h0 | h0
  · have : δ ^ 2 ≤ 0 := by rw [← h0] at d2; simpa using d2
    have : δ = 0 := by nlinarith
    rw [this, ← h0]; simp
  rcases le_total δ p with hle | hle
  · rw [abs_of_nonneg (by linarith)]
    have k1 : (p - δ) * p ≤ p ^ 2 - δ ^ 2 := by nlinarith
    have e : p ^ 2 * (1 - v / 2 - 5 / 48 * u ^ 2 - 5 / 48 * v ^ 2) =
      p ^ 2 - p ^ 2 * v / 2 - 5 / 48 * (p ^ 2 * u ^ 2) - 5 / 48 * (p ^ 2 * v ^ 2) := by ring
    rw [e] at lo
    have k3 : (p - δ) * p ≤ (p * (v + u ^ 2)) * p := by
      have : (p * (v + u ^ 2)) * p = p ^ 2 * v + p ^ 2 * u ^ 2 := by ring
      rw [this]; linarith
    exact le_of_mul_le_mul_right k3 h0
  · rw [abs_of_nonpos (by linarith), neg_sub]
    have k1 : (δ - p) * (2 * p) ≤ δ ^ 2 - p ^ 2 := by nlinarith [sq_nonneg (δ - p)]
    have k3 : δ ^ 4 ≤ 9 * p ^ 4 := by
      have := pow_le_pow_left₀ (sq_nonneg δ) d2 2
      have e1 : (δ ^ 2) ^ 2 = δ ^ 4 := by ring
      have e2 : (3 * p ^ 2) ^ 2 = 9 * p ^ 4 := by ring
      rwa [e1, e2] at this
    have k4 : p ^ 4 ≤ p ^ 2 * u ^ 2 + p ^ 2 * v ^ 2 := by
      have := mul_le_mul_of_nonneg_left p2uv (sq_nonneg p)
      have e1 : p ^ 2 * p ^ 2 = p ^ 4 := by ring
      rw [e1, mul_add] at this
      exact this
    have e : p ^ 2 * (1 + v / 2) = p ^ 2 + p ^ 2 * v / 2 := by ring
    rw [e] at up
    have k6 : (δ - p) * (2 * p) ≤ (p * (v + u ^ 2)) * (2 * p) := by
      have : (p * (v + u ^ 2)) * (2 * p) = 2 * (p ^ 2 * v) + 2 * (p ^ 2 * u ^ 2) := by ring
      rw [this]; linarith
    exact le_of_mul_le_mul_right k6 (by linarith)

theorem pow4_abs (x : ℝ) : |x| ^ 4 = x ^ 4 := by
  have : |x| ^ 4 = (|x| ^ 2) ^ 2 := by ring
  rw [this, sq_abs]; ring

theorem two_sub_cos {x : ℝ} (hx : |x| ≤ 1) : |x| ^ 2 - 5 / 48 * |x| ^ 4 ≤ 2 - 2 * Real.cos x ∧ 2 - 2 * Real.cos x ≤ |x| ^ 2 := by
  have b := abs_le.1 (Real.cos_bound hx)
  have l := Real.one_sub_sq_div_two_le_cos (x := x)
  rw [sq_abs]
  constructor <;> linarith

theorem planar_core {f t c1 c2 δ p : ℝ} (h1 : 0 ≤ c1) (h2 : 0 ≤ c2) (hc : |c1 - c2| ≤ |f|)
    (ht : |t| ≤ 1 / 4) (hf : |f| ≤ 1 / 4) (h1' : c1 ≤ 1) (hd0 : 0 ≤ δ) (hd : δ ≤ π)
    (hcos : Real.cos δ = Real.cos f - c1 * c2 * (1 - Real.cos t)) (hp : 0 ≤ p) (hp2 : p ^ 2 = f ^ 2 + (c1 * t) ^ 2) :
    |p - δ| ≤ p * (|t| + f ^ 2) := by
  obtain ⟨lf, uf⟩ := two_sub_cos (hf.trans (by norm_num))
  obtain ⟨lt, ut⟩ := two_sub_cos (ht.trans (by norm_num))
  have u0 : 0 ≤ |f| := abs_nonneg f
  have v0 : 0 ≤ |t| := abs_nonneg t
  have hp2' : p ^ 2 = |f| ^ 2 + (c1 * |t|) ^ 2 := by rw [hp2, mul_pow, mul_pow, sq_abs, sq_abs]
  rw [← sq_abs f]
  generalize |f| = u at *
  generalize |t| = v at *
  obtain ⟨hc3, hc4⟩ := abs_le.1 hc
  have uv : u * (c1 * v) ≤ p ^ 2 / 2 := by
    rw [hp2']; nlinarith [sq_nonneg (u - c1 * v)]
  have up := chord_upper h1 h2 (by linarith) v0 uf ut hp2' uv
  have lo := chord_lower h1 h2 (by linarith) u0 v0 (by linarith) lf lt hp2' uv
  have hce : (2 - 2 * Real.cos f) + c1 * c2 * (2 - 2 * Real.cos t) = 2 - 2 * Real.cos δ := by rw [hcos]; ring
  rw [hce] at up lo
  have cv : (c1 * v) ^ 2 ≤ v ^ 2 := by
    apply pow_le_pow_left₀ (mul_nonneg h1 v0)
    calc c1 * v ≤ 1 * v := mul_le_mul_of_nonneg_right h1' v0
      _ = v := one_mul v
  have p2uv : p ^ 2 ≤ u ^ 2 + v ^ 2 := by rw [hp2']; linarith
  have p2small : p ^ 2 ≤ 1 / 8 := by nlinarith
  have pi2 : π ^ 2 < 10 := by nlinarith [Real.pi_lt_d2, Real.pi_pos]
  have d2 : δ ^ 2 ≤ 3 * p ^ 2 := by
    have := Real.cos_le_one_sub_mul_cos_sq (x := δ) (by rw [abs_of_nonneg hd0]; exact hd)
    have e : δ ^ 2 / 5 ≤ 2 / π ^ 2 * δ ^ 2 := by
      have : (1 : ℝ) / 5 ≤ 2 / π ^ 2 := by
        rw [div_le_div_iff₀ (by norm_num) (by positivity)]; linarith
      nlinarith [sq_nonneg δ]
    have e2 : δ ^ 2 ≤ 5 / 2 * (2 - 2 * Real.cos δ) := by linarith
    have e3 : p ^ 2 * (1 + v / 2) ≤ p ^ 2 * (9 / 8) := mul_le_mul_of_nonneg_left (by linarith) (sq_nonneg p)
    linarith [sq_nonneg p]
  have d1 : |δ| ≤ 1 := by
    rw [abs_of_nonneg hd0]; nlinarith
  obtain ⟨l, up'⟩ := two_sub_cos d1
  rw [pow4_abs, sq_abs] at l
  rw [sq_abs] at up'
  exact arc_bound u0 v0 ht hp hd0 up lo up' l d2 p2uv

/-! ## C73 -/

/-- C73. For two places at most 14 degrees apart in latitude and in longitude, `planar` differs from the
great-circle distance by at most the fraction `dlon + dlat²` (in radians) of its value. -/
theorem C73_planar (lat1 lon1 lat2 lon2 radius : ℝ) (hr : 0 ≤ radius) (h1 : |lat1| ≤ 90) (h2 : |lat2| ≤ 90)
    (hlat : |lat2 - lat1| ≤ 14) (hlon : |lon2 - lon1| ≤ 14) :
    ∃ d, Geo.planar lat1 lon1 lat2 lon2 radius = .ok d ∧
      |d - radius * angle (spherePoint lat1 lon1) (spherePoint lat2 lon2)| ≤
        d * (|toRad (lon2 - lon1)| + toRad (lat2 - lat1) ^ 2) := by
  obtain ⟨d, e, d0, d2⟩ := C42_planar lat1 lon1 lat2 lon2 radius
  obtain ⟨r1, r2, r3⟩ := cosSep_range lat1 lon1 lat2 lon2
  have hsmall : ∀ x : ℝ, |x| ≤ 14 → |toRad x| ≤ 1 / 4 := by
    intro x hx
    unfold toRad
    rw [abs_div, abs_mul, abs_of_pos Real.pi_pos, abs_of_pos (by norm_num : (0 : ℝ) < 180),
      div_le_iff₀ (by norm_num)]
    have := Real.pi_lt_d2
    nlinarith [Real.pi_pos, abs_nonneg x]
  have hcos0 : ∀ x : ℝ, |x| ≤ 90 → 0 ≤ Real.cos (toRad x) := by
    intro x hx
    obtain ⟨a, b⟩ := abs_le.1 hx
    apply Real.cos_nonneg_of_neg_pi_div_two_le_of_le
    · unfold toRad; nlinarith [Real.pi_pos]
    · unfold toRad; nlinarith [Real.pi_pos]
  have hsub : ∀ x y : ℝ, toRad (x - y) = toRad x - toRad y := fun x y => by unfold toRad; ring
  have hlip : |Real.cos (toRad lat1) - Real.cos (toRad lat2)| ≤ |toRad (lat2 - lat1)| := by
    rw [hsub, abs_sub_comm (toRad lat2)]
    exact Real.abs_cos_sub_cos_le _ _
  have key := planar_core (hcos0 lat1 h1) (hcos0 lat2 h2) hlip (hsmall _ hlon) (hsmall _ hlat) (Real.cos_le_one _)
    (angle_nonneg (spherePoint lat1 lon1) (spherePoint lat2 lon2)) (angle_le_pi _ _)
    (by rw [← r3, Real.cos_arccos r1 r2, hsub, hsub]; rfl) d0 d2
  refine ⟨_, e, ?_⟩
  rw [← mul_sub, abs_mul, abs_of_nonneg hr, mul_assoc]
  exact mul_le_mul_of_nonneg_left key hr

/-- C73. In terms of the distance: the error of a planar distance `d` is at most
`d² / (radius cos lat1) + d³ / radius²`. -/
theorem C73_planar_error (lat1 lon1 lat2 lon2 radius : ℝ) (hr : 0 < radius) (h1 : |lat1| < 90) (h2 : |lat2| ≤ 90)
    (hlat : |lat2 - lat1| ≤ 14) (hlon : |lon2 - lon1| ≤ 14) (d : ℝ)
    (hd : Geo.planar lat1 lon1 lat2 lon2 radius = .ok d) :
    |d - radius * angle (spherePoint lat1 lon1) (spherePoint lat2 lon2)| ≤
      d ^ 2 / (radius * Real.cos (toRad lat1)) + d ^ 3 / radius ^ 2 := by
  obtain ⟨d', e', k⟩ := C73_planar lat1 lon1 lat2 lon2 radius hr.le h1.le h2 hlat hlon
  obtain ⟨p, e, p0, p2⟩ := C42_planar lat1 lon1 lat2 lon2 radius
  rw [hd] at e e'
  cases Except.ok.inj e'
  have e := Except.ok.inj e
  have hc : 0 < Real.cos (toRad lat1) := by
    rw [abs_lt] at h1
    unfold toRad
    apply Real.cos_pos_of_mem_Ioo
    have := Real.pi_pos
    constructor <;> nlinarith
  refine k.trans ?_
  have d0 : 0 ≤ d := by rw [e]; exact mul_nonneg hr.le p0
  have pd : p = d / radius := by rw [e]; field_simp
  have ht : |toRad (lon2 - lon1)| ≤ d / (radius * Real.cos (toRad lat1)) := by
    have : |Real.cos (toRad lat1) * toRad (lon2 - lon1)| ≤ p := by
      apply abs_le_of_sq_le_sq _ p0
      rw [p2]; linarith [sq_nonneg (toRad (lat2 - lat1))]
    rw [abs_mul, abs_of_pos hc, pd] at this
    rw [le_div_iff₀ (by positivity)]
    rw [le_div_iff₀ hr] at this
    linarith
  have hf : toRad (lat2 - lat1) ^ 2 ≤ d ^ 2 / radius ^ 2 := by
    rw [← div_pow, ← pd, p2]
    linarith [sq_nonneg (Real.cos (toRad lat1) * toRad (lon2 - lon1))]
  calc d * (|toRad (lon2 - lon1)| + toRad (lat2 - lat1) ^ 2)
      ≤ d * (d / (radius * Real.cos (toRad lat1)) + d ^ 2 / radius ^ 2) :=
        mul_le_mul_of_nonneg_left (add_le_add ht hf) d0
    _ = d ^ 2 / (radius * Real.cos (toRad lat1)) + d ^ 3 / radius ^ 2 := by ring

/-- C73. On the Earth, up to 60 degrees of latitude, planar distances up to 50 metres are right to the
millimetre. -/
theorem C73_fifty_metres (lat1 lon1 lat2 lon2 : ℝ) (h1 : |lat1| ≤ 60) (h2 : |lat2| ≤ 90)
    (hlat : |lat2 - lat1| ≤ 14) (hlon : |lon2 - lon1| ≤ 14) (d : ℝ)
    (hd : Geo.planar lat1 lon1 lat2 lon2 Geo.smajAxis = .ok d) (h50 : d ≤ 50) :
    |d - Geo.smajAxis * angle (spherePoint lat1 lon1) (spherePoint lat2 lon2)| ≤ 1 / 1000 := by
  have k := C73_planar_error lat1 lon1 lat2 lon2 Geo.smajAxis (by norm_num [Geo.smajAxis]) (by linarith) h2 hlat hlon d hd
  obtain ⟨p, e, p0, p2⟩ := C42_planar lat1 lon1 lat2 lon2 Geo.smajAxis
  rw [hd] at e
  have d0 : 0 ≤ d := by rw [Except.ok.inj e]; exact mul_nonneg (by norm_num [Geo.smajAxis]) p0
  have hc : 1 / 2 ≤ Real.cos (toRad lat1) := by
    rw [← Real.cos_pi_div_three, ← Real.cos_abs (toRad lat1)]
    apply Real.cos_le_cos_of_nonneg_of_le_pi (abs_nonneg _)
    · linarith [Real.pi_pos]
    · unfold toRad
      rw [abs_div, abs_mul, abs_of_pos Real.pi_pos, abs_of_pos (by norm_num : (0 : ℝ) < 180),
        div_le_iff₀ (by norm_num)]
      nlinarith [Real.pi_pos]
  refine k.trans ?_
  have a1 : d ^ 2 ≤ 50 ^ 2 := pow_le_pow_left₀ d0 h50 2
  have a2 : d ^ 3 ≤ 50 ^ 3 := pow_le_pow_left₀ d0 h50 3
  have b1 : d ^ 2 / (Geo.smajAxis * Real.cos (toRad lat1)) ≤ 50 ^ 2 / (6378137 * (1 / 2)) := by
    unfold Geo.smajAxis
    exact div_le_div₀ (by positivity) a1 (by norm_num) (by linarith)
  have b2 : d ^ 3 / Geo.smajAxis ^ 2 ≤ 50 ^ 3 / 6378137 ^ 2 := by
    unfold Geo.smajAxis
    exact div_le_div_of_nonneg_right a2 (by positivity)
  calc _ ≤ (50 : ℝ) ^ 2 / (6378137 * (1 / 2)) + 50 ^ 3 / 6378137 ^ 2 := add_le_add b1 b2
    _ ≤ 1 / 1000 := by norm_num

/-- C73. The same as computed, in floating point: the rounding adds at most `2e-14` of the radius (0.13
micrometres on the Earth). -/
theorem C73_planar_float (lib : Libm) (hl : Accurate lib) (lat1 lon1 lat2 lon2 radius : PyFloat)
    (h1 : OnGlobe lat1 lon1) (h2 : OnGlobe lat2 lon2) (hr : Finite radius) (hr1 : 1 ≤ val radius)
    (hr2 : val radius ≤ 10 ^ 9) (hlat : |val lat2 - val lat1| ≤ 14) (hlon : |val lon2 - val lon1| ≤ 14) :
    ∃ d, planar lib lat1 lon1 lat2 lon2 radius = .ok d ∧ Finite d ∧
      |val d - val radius * separation lat1 lon1 lat2 lon2| ≤
        (val d + 2 / 10 ^ 14 * val radius) * (|toRad (val lon2 - val lon1)| + toRad (val lat2 - val lat1) ^ 2) +
          2 / 10 ^ 14 * val radius := by
  obtain ⟨d, e, n⟩ := C70_planar lib hl lat1 lon1 lat2 lon2 radius h1 h2 hr hr1 hr2
  obtain ⟨x, ex, k⟩ := C73_planar (val lat1) (val lon1) (val lat2) (val lon2) (val radius) (by linarith) h1.2.1 h2.2.1
    hlat hlon
  obtain ⟨p, ep, p0, p2⟩ := C42_planar (val lat1) (val lon1) (val lat2) (val lon2) (val radius)
  rw [← p2, Real.sqrt_sq p0] at n
  rw [ex] at ep
  have ep := Except.ok.inj ep
  rw [← ep] at n
  refine ⟨d, e, n.1, ?_⟩
  have n2 := abs_le.1 n.2
  have q : 0 ≤ |toRad (val lon2 - val lon1)| + toRad (val lat2 - val lat1) ^ 2 := by positivity
  have k' := abs_le.1 (k.trans (mul_le_mul_of_nonneg_right (show x ≤ val d + 2 / 10 ^ 14 * val radius by linarith) q))
  unfold separation
  rw [abs_le]
  constructor <;> linarith

/-- C73. `planar` does not know that longitudes wrap around: from 180 degrees east to 180 degrees west -
the same place - it goes once around the parallel. -/
theorem C73_antimeridian (lat radius : ℝ) (h : |lat| ≤ 90) :
    spherePoint lat 180 = spherePoint lat (-180) ∧ Geo.haversine lat 180 lat (-180) radius = .ok 0 ∧
    Geo.planar lat 180 lat (-180) radius = .ok (radius * (2 * π * Real.cos (toRad lat))) := by
  have e : spherePoint lat 180 = spherePoint lat (-180) := by
    have e1 : toRad 180 = π := by unfold toRad; ring
    have e2 : toRad (-180) = -π := by unfold toRad; ring
    unfold spherePoint
    rw [e1, e2]; simp
  have hc : 0 ≤ Real.cos (toRad lat) := by
    obtain ⟨a, b⟩ := abs_le.1 h
    apply Real.cos_nonneg_of_neg_pi_div_two_le_of_le
    · unfold toRad; nlinarith [Real.pi_pos]
    · unfold toRad; nlinarith [Real.pi_pos]
  refine ⟨e, ?_, ?_⟩
  · rw [C42_haversine, (angle_sphere_zero _ _ _ _).2 e, mul_zero]
  · obtain ⟨p, ep, p0, p2⟩ := C42_planar lat 180 lat (-180) radius
    rw [ep]
    have : p = 2 * π * Real.cos (toRad lat) := by
      have q0 : 0 ≤ 2 * π * Real.cos (toRad lat) := by have := Real.pi_pos; positivity
      rw [← Real.sqrt_sq p0, ← Real.sqrt_sq q0, p2]
      congr 1
      unfold toRad; ring
    rw [this]

/-- Two places in Greenwich, about 30 metres apart, meet the hypotheses. -/
example : ∃ d, Geo.planar 51.4778 0 51.478 0.0003 Geo.smajAxis = .ok d ∧ d ≤ 50 ∧
    |d - Geo.smajAxis * angle (spherePoint 51.4778 0) (spherePoint 51.478 0.0003)| ≤ 1 / 1000 := by
  obtain ⟨p, e, p0, p2⟩ := C42_planar 51.4778 0 51.478 0.0003 Geo.smajAxis
  have hle : Geo.smajAxis * p ≤ 50 := by
    have h1 : p ^ 2 ≤ (50 / 6378137) ^ 2 := by
      rw [p2]
      have c := Real.cos_sq_le_one (toRad 51.4778)
      have : (Real.cos (toRad 51.4778) * toRad (0.0003 - 0)) ^ 2 ≤ toRad 0.0003 ^ 2 := by
        rw [mul_pow, sub_zero]
        nlinarith [sq_nonneg (toRad 0.0003)]
      have e1 : toRad (51.478 - 51.4778) ^ 2 = π ^ 2 * (0.0002 / 180) ^ 2 := by unfold toRad; ring
      have e2 : toRad 0.0003 ^ 2 = π ^ 2 * (0.0003 / 180) ^ 2 := by unfold toRad; ring
      rw [e1]; rw [e2] at this
      have pi2 : π ^ 2 < 10 := by nlinarith [Real.pi_lt_d2, Real.pi_pos]
      norm_num at this ⊢
      linarith
    have := abs_le_of_sq_le_sq h1 (by norm_num)
    rw [abs_of_nonneg p0] at this
    unfold Geo.smajAxis
    linarith
  exact ⟨_, e, hle, C73_fifty_metres _ _ _ _ (by rw [abs_of_pos] <;> norm_num) (by rw [abs_of_pos] <;> norm_num)
    (by rw [abs_of_pos] <;> norm_num) (by rw [abs_of_pos] <;> norm_num) _ e hle⟩

end Nmea.GeoF
