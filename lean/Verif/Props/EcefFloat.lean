import Verif.Lemmas.EcefTail
import Verif.Props.GeoFloatExists
/-!
# `ecef2llh` in floating point (C71)
-/
namespace Nmea.GeoF
open Py PyFloat Nmea.Geo

theorem ltZero_val {z : PyFloat} (h : Finite z) : z.ltZero = true ↔ val z < 0 := by
  obtain ⟨s, m, rfl, hm⟩ := h.cases
  cases s with
  | false =>
    have : (0 : ℝ) ≤ m := by exact_mod_cast hm
    simp [PyFloat.ltZero, val_fin, hm]
  | true => simp [PyFloat.ltZero, val_fin]

/-- The latitude gets its sign back. -/
theorem sign_near {z l : PyFloat} {L Z φ ε e d : ℝ} (hz : Near z Z ε) (hl : Near l φ e) (hφ : φ = |L|)
    (hneg : L < 0 → Z ≤ 0) (hpos : 0 < L → 0 ≤ Z) (hsmall : |Z| ≤ ε → 2 * φ ≤ d) (hd : 0 ≤ d) :
    Near (if z.ltZero then l.neg else l) L (e + d) := by
  by_cases h : z.ltZero = true
  · rw [if_pos h]
    rw [ltZero_val hz.1] at h
    rcases le_or_gt L 0 with hL | hL
    · have := hl.neg
      rw [hφ, abs_of_nonpos hL, neg_neg] at this
      exact this.mono (by linarith)
    · have hZ := hpos hL
      have h1 := abs_le.1 hz.2
      have h2 := hsmall (by rw [abs_of_nonneg hZ]; linarith)
      refine ⟨hl.neg.1, ?_⟩
      have h3 := abs_le.1 hl.neg.2
      rw [hφ, abs_of_pos hL] at h3 h2
      rw [abs_le]
      constructor <;> linarith [h3.1, h3.2]
  · rw [if_neg h]
    rw [ltZero_val hz.1, not_lt] at h
    rcases le_or_gt 0 L with hL | hL
    · rw [hφ, abs_of_nonneg hL] at hl
      exact hl.mono (by linarith)
    · have hZ := hneg hL
      have h1 := abs_le.1 hz.2
      have h2 := hsmall (by rw [abs_of_nonpos hZ]; linarith)
      refine ⟨hl.1, ?_⟩
      have h3 := abs_le.1 hl.2
      rw [hφ, abs_of_neg hL] at h3 h2
      rw [abs_le]
      constructor <;> linarith [h3.1, h3.2]

set_option maxHeartbeats 1000000 in
theorem ecef_core {lib : Libm} (hl : Accurate lib) {x y z : PyFloat} {lat lon h X Y Z ε : ℝ} (hlat : |lat| ≤ 90)
    (h0 : -100000 ≤ h) (h1 : h ≤ 10 ^ 8)
    (hX : X = (nV (Geo.rad lat) + h) * Real.cos (Geo.rad lat) * Real.cos (Geo.rad lon))
    (hY : Y = (nV (Geo.rad lat) + h) * Real.cos (Geo.rad lat) * Real.sin (Geo.rad lon))
    (hZ : Z = ((1 - wE2) * nV (Geo.rad lat) + h) * Real.sin (Geo.rad lat))
    (hx : Near x X ε) (hy : Near y Y ε) (hz : Near z Z ε) (hε : ε ≤ 1 / 1000) :
    ∃ lat' lon' h', ecef2llh lib x y z smajAxis flattening = .ok (lat', lon', h') ∧
      Near lat' lat (6 / 10 ^ 10 + ε / 10 ^ 4) ∧ Near h' h (1 / 10 ^ 8 + 31 / 10 * ε + 7 / 10 ^ 15 * (6400000 + |h|)) ∧
      Finite lon' ∧ |val lon'| ≤ 180 + 1 / 10 ^ 12 ∧
      (2 * ε < Real.sqrt (X * X + Y * Y) → ∃ k : ℤ, |val lon' - lon - 360 * k| ≤ 2 / 10 ^ 13 + 180 * ε / (Real.sqrt (X * X + Y * Y) - 2 * ε)) := by
  have hε0 : 0 ≤ ε := (abs_nonneg _).trans hx.2
  obtain ⟨e1, e2⟩ := wE2_bounds
  set L := Geo.rad lat with hL
  set φ := |L| with hφ
  have hpi := Real.pi_pos
  have hpi2 := Real.pi_lt_d2
  have hpi3 := Real.pi_gt_d2
  have hrad : |L| = |lat| * Real.pi / 180 := by
    rw [hL]; unfold Geo.rad
    rw [abs_div, abs_mul, abs_of_pos hpi, abs_of_pos (by norm_num : (0 : ℝ) < 180)]
  have hφ0 : 0 ≤ φ := abs_nonneg _
  have hφ1 : φ ≤ Real.pi / 2 := by rw [hφ, hrad]; nlinarith
  have hcos : Real.cos L = Real.cos φ := by rw [hφ, Real.cos_abs]
  have hsin2 : Real.sin L ^ 2 = Real.sin φ ^ 2 := by
    have h1 := Real.sin_sq_add_cos_sq L
    have h2 := Real.sin_sq_add_cos_sq φ
    rw [hcos] at h1
    linarith
  have hgF : gF L = gF φ := by unfold gF; rw [hsin2]
  have hnV : nV L = nV φ := by unfold nV; rw [hgF]
  obtain ⟨n1, n2⟩ := nV_bounds φ
  have hC0 : 0 ≤ Real.cos φ := Real.cos_nonneg_of_mem_Icc ⟨by linarith, hφ1⟩
  have hS0 : 0 ≤ Real.sin φ := Real.sin_nonneg_of_nonneg_of_le_pi hφ0 (by linarith)
  have hρ : 0 < nV φ + h := by linarith
  have e3 : (0.9933 : ℝ) * nV φ ≤ (1 - wE2) * nV φ := mul_le_mul_of_nonneg_right (by linarith) (by linarith)
  have e4 : (1 - wE2) * nV φ ≤ 1 * nV φ := mul_le_mul_of_nonneg_right (by linarith) (by linarith)
  have hσ : 6235000 ≤ (1 - wE2) * nV φ + h := by norm_num at e3; linarith
  rw [hnV, hcos] at hX hY
  rw [hnV] at hZ
  have hw : Real.sqrt (X * X + Y * Y) = (nV φ + h) * Real.cos φ := by
    have : X * X + Y * Y = ((nV φ + h) * Real.cos φ) ^ 2 := by
      rw [hX, hY]
      linear_combination ((nV φ + h) * Real.cos φ) ^ 2 * Real.sin_sq_add_cos_sq (Geo.rad lon)
    rw [this, Real.sqrt_sq (by positivity)]
  have habs : |Real.sin L| = Real.sin φ := by
    rw [← abs_of_nonneg hS0, ← sq_eq_sq_iff_abs_eq_abs, hsin2]
  have hzabs : |Z| = ((1 - wE2) * nV φ + h) * Real.sin φ := by
    rw [hZ, abs_mul, habs, abs_of_nonneg (by linarith)]
  set W := Real.sqrt (X * X + Y * Y) with hW
  set r := Real.sqrt (X * X + Y * Y + Z * Z) with hr
  have gd : Geodetic φ h W |Z| := ⟨hφ0, hφ1, h0, hw, hzabs⟩
  have hX0 := mul_self_nonneg X
  have hY0 := mul_self_nonneg Y
  have hZ0 := mul_self_nonneg Z
  have hr2 : r ^ 2 = W ^ 2 + |Z| ^ 2 := by
    rw [hr, hW, Real.sq_sqrt (by linarith), Real.sq_sqrt (by linarith), sq_abs]
    ring
  have hsc := Real.sin_sq_add_cos_sq φ
  have r1 : 6200000 ≤ r := by
    by_contra hn
    have h1 : r ^ 2 ≤ 6200000 ^ 2 := pow_le_pow_left₀ (Real.sqrt_nonneg _) (by linarith) 2
    rw [hr2, hw, hzabs] at h1
    have h3 : (6235000 * Real.cos φ) ^ 2 ≤ ((nV φ + h) * Real.cos φ) ^ 2 :=
      pow_le_pow_left₀ (by positivity) (mul_le_mul_of_nonneg_right (by linarith) hC0) 2
    have h4 : (6235000 * Real.sin φ) ^ 2 ≤ (((1 - wE2) * nV φ + h) * Real.sin φ) ^ 2 :=
      pow_le_pow_left₀ (by positivity) (mul_le_mul_of_nonneg_right hσ hS0) 2
    nlinarith
  have hρ2 : nV φ + h ≤ 106400000 := by norm_num at h1; linarith
  have r2 : r ≤ 2 * 10 ^ 8 := by
    refine abs_le_of_sq_le_sq' (b := 2 * 10 ^ 8) ?_ (by norm_num) |>.2
    rw [hr2, hw, hzabs]
    have h3 : ((nV φ + h) * Real.cos φ) ^ 2 ≤ (106400000 * Real.cos φ) ^ 2 :=
      pow_le_pow_left₀ (by positivity) (mul_le_mul_of_nonneg_right hρ2 hC0) 2
    have h4 : (((1 - wE2) * nV φ + h) * Real.sin φ) ^ 2 ≤ (106400000 * Real.sin φ) ^ 2 :=
      pow_le_pow_left₀ (mul_nonneg (by linarith) hS0) (mul_le_mul_of_nonneg_right (by linarith) hS0) 2
    nlinarith
  obtain ⟨e2', w, latg, s, ss, c, θ, eq1, t0, t1, hG, ne, nw, nl, ns, nss, nc⟩ := ecef_front hl hx hy hz hε hW hr r1 r2
  have ht : 1 / 10 ^ 8 ≤ 0.00005 * (wE2 * nV φ / (nV φ + h)) := by
    have h2 : 4 / 10 ^ 4 ≤ wE2 * nV φ / (nV φ + h) := by
      rw [le_div_iff₀ hρ]
      have := mul_le_mul e1.le n1 (by norm_num) (by norm_num at e1; linarith)
      norm_num at this ⊢
      linarith
    norm_num at h2 ⊢
    linarith
  have hG' : GuessNear (0.00005 * (wE2 * nV φ / (nV φ + h))) W |Z| r θ := by
    rcases hG with ⟨a, b⟩ | ⟨a, b⟩
    · exact .inl ⟨a, b.trans ht⟩
    · exact .inr ⟨a, b.trans ht⟩
  have hclose := gd.guess_near (by linarith) hr2 hG' t0 t1
  obtain ⟨a1, a2, a3, a4⟩ := gd.newton_full t0 t1 hclose
  have hF : |nF W |Z| θ - h| ≤ 1 := by
    have : |tF W |Z| θ * (tF W |Z| θ / (mF θ + nF W |Z| θ)) / 2| ≤ 1 / 2 := by
      rw [abs_div, abs_two, abs_mul, abs_div, abs_of_pos (by linarith : 0 < mF θ + nF W |Z| θ)]
      have h5 : |tF W |Z| θ| / (mF θ + nF W |Z| θ) ≤ 174 / 6235000 :=
        div_le_div₀ (by norm_num) a3 (by norm_num) a4
      have := mul_le_mul a3 h5 (div_nonneg (abs_nonneg _) (by linarith)) (by norm_num)
      norm_num at this ⊢
      linarith
    have h6 := abs_le.1 this
    have h7 := abs_le.1 a2
    norm_num at h7
    rw [abs_le]
    constructor <;> linarith [h6.1, h6.2, h7.1, h7.2]
  set M := 6400000 + |h| with hM
  have hh := abs_le.1 (le_refl |h|)
  have hha := abs_nonneg h
  have hhb : |h| ≤ 10 ^ 8 := abs_le.2 ⟨by norm_num at h0 ⊢; linarith, h1⟩
  have hF' := abs_le.1 hF
  have hmF : 6335000 ≤ mF θ ∧ mF θ ≤ 6400000 := by
    rw [← code_mF]
    change _ ≤ (1 - wE2) * nV θ / gF θ ∧ (1 - wE2) * nV θ / gF θ ≤ _
    obtain ⟨g1, g2, g3, g4, g5⟩ := gF_bounds θ
    obtain ⟨m1, m2⟩ := nV_bounds θ
    have b1 : (0.9933 : ℝ) * nV θ ≤ (1 - wE2) * nV θ := mul_le_mul_of_nonneg_right (by linarith) (by linarith)
    have b2 : (1 - wE2) * nV θ ≤ gF θ * nV θ := mul_le_mul_of_nonneg_right g1 (by linarith)
    constructor
    · rw [le_div_iff₀ g4]
      have : 6335000 * gF θ ≤ 6335000 * 1 := mul_le_mul_of_nonneg_left g2 (by norm_num)
      norm_num at b1
      linarith
    · rw [div_le_iff₀ g4]
      have : gF θ * nV θ ≤ gF θ * 6400000 := mul_le_mul_of_nonneg_left (by linarith) g4.le
      linarith
  have hWM : W ≤ M := by
    rw [hw]
    have := mul_le_of_le_one_right hρ.le (Real.cos_le_one φ)
    linarith [hh.2]
  obtain ⟨lf, hf, eq2, n5, n6⟩ := ecef_tail (M := M) (x := x) (y := y) hl hz.abs ne nw nl ns nss nc hε0 hε t0 t1 (by linarith)
    (by norm_num at hhb ⊢; linarith) hWM (by rw [abs_le]; constructor <;> linarith [hh.1, hh.2, hF'.1, hF'.2]) a3
    (by rcases le_total 0 h with hc | hc
        · rw [hM, abs_of_nonneg hc]; linarith [hF'.1]
        · rw [hM, abs_of_nonpos hc]; linarith [hF'.1])
    (by linarith [hh.2, hF'.2])
  have hM0 : 0 < M := by linarith
  -- latitude
  have n7 : Near lf φ (1 / 10 ^ 11 + 8 / 10 ^ 15 + 33 / 10 * ε / M) := by
    refine ⟨n5.1, (abs_sub_le _ _ _).trans ((add_le_add n5.2 a1).trans (le_of_eq ?_))⟩
    ring
  have hsgn : ∀ {a : ℝ}, -Real.pi < a → a < 0 → Real.sin a < 0 := fun b c => Real.sin_neg_of_neg_of_neg_pi_lt c b
  have hφM : |Z| ≤ ε → 2 * φ ≤ 34 / 10 * ε / M := by
    intro hc
    rw [hzabs] at hc
    have s1 : 2 / Real.pi * φ ≤ Real.sin φ := Real.mul_le_sin hφ0 hφ1
    have s2 : 94 / 100 * M ≤ (1 - wE2) * nV φ + h := by
      norm_num at e3
      rcases le_total 0 h with hc | hc
      · rw [hM, abs_of_nonneg hc]; linarith
      · rw [hM, abs_of_nonpos hc]; linarith
    have s3 : 63 / 100 * φ ≤ 2 / Real.pi * φ := by
      refine mul_le_mul_of_nonneg_right ?_ hφ0
      rw [le_div_iff₀ hpi]; norm_num at hpi2 ⊢; linarith
    have s4 : 94 / 100 * M * (63 / 100 * φ) ≤ ((1 - wE2) * nV φ + h) * Real.sin φ :=
      mul_le_mul s2 (s3.trans s1) (by positivity) (by linarith)
    rw [le_div_iff₀ hM0]
    nlinarith
  have n8 := sign_near hz n7 hφ (d := 34 / 10 * ε / M)
    (by
      intro hn
      rw [hZ]
      refine mul_nonpos_of_nonneg_of_nonpos (by linarith) (hsgn ?_ hn).le
      have : φ = -L := by rw [hφ, abs_of_neg hn]
      linarith)
    (by
      intro hp
      rw [hZ]
      refine mul_nonneg (by linarith) (Real.sin_nonneg_of_nonneg_of_le_pi hp.le ?_)
      have : φ = L := by rw [hφ, abs_of_pos hp]
      linarith)
    hφM (by positivity)
  have hεM2 : ε / M ≤ ε / 6400000 := div_le_div_of_nonneg_left hε0 (by norm_num) (by linarith)
  have k1 : 33 / 10 * ε / M = 33 / 10 * (ε / M) := by ring
  have k2 : 34 / 10 * ε / M = 34 / 10 * (ε / M) := by ring
  obtain ⟨lat', el, n9⟩ := deg_near n8 (by rw [hrad]; norm_num at hpi2 ⊢; nlinarith)
    (by rw [k1, k2]; norm_num at hεM2 ⊢; linarith)
  have hlatd : L * 180 / Real.pi = lat := by rw [hL]; unfold Geo.rad; field_simp
  rw [hlatd] at n9
  -- longitude
  obtain ⟨α, α0, α1, nα, cx, cy⟩ := hl.atan2 y x hy.1 hx.1
  have hα : |α| ≤ Real.pi := abs_le.2 ⟨α0, α1⟩
  obtain ⟨lon', eo, n10⟩ := deg_near nα (by norm_num at hpi2 ⊢; linarith) (by norm_num)
  have hα180 : |α * 180 / Real.pi| ≤ 180 := by
    rw [abs_div, abs_mul, abs_of_pos hpi, abs_of_pos (by norm_num : (0 : ℝ) < 180), div_le_iff₀ hpi]
    linarith
  refine ⟨lat', lon', hf, ?_, n9.mono ?_, ⟨n6.1, ?_⟩, n10.1, ?_, ?_⟩
  · rw [eq1, eq2, el, ok_bind, eo, ok_bind]; rfl
  · rw [k1, k2]; norm_num at hεM2 ⊢; linarith
  · refine (abs_sub_le _ _ _).trans ((add_le_add n6.2 a2).trans (le_of_eq ?_))
    ring
  · refine (n10.bound hα180).trans ?_
    norm_num
  · intro h2
    have hpol := polar_close (ρ := W) (σ := Real.sqrt (val x ^ 2 + val y ^ 2)) (α := α) (β := Geo.rad lon) (E := ε)
      (Real.sqrt_nonneg _) h2 (by rw [← cx, hw, ← hX]; exact hx.2) (by rw [← cy, hw, ← hY]; exact hy.2)
    obtain ⟨k, hk⟩ := hpol
    refine ⟨k, ?_⟩
    have hdl : lon = Geo.rad lon * 180 / Real.pi := by unfold Geo.rad; field_simp
    have hdiff : |α * 180 / Real.pi - lon - 360 * k| ≤ 180 * ε / (W - 2 * ε) := by
      have e5 : α * 180 / Real.pi - lon - 360 * k = (α - Geo.rad lon - 2 * Real.pi * k) * (180 / Real.pi) := by
        rw [hdl]
        have : Geo.rad (Geo.rad lon * 180 / Real.pi) = Geo.rad lon := by rw [← hdl]
        rw [this]
        field_simp
        ring
      rw [e5, abs_mul, abs_of_pos (by positivity : 0 < 180 / Real.pi)]
      refine (mul_le_mul_of_nonneg_right hk (by positivity)).trans (le_of_eq ?_)
      have : W - 2 * ε ≠ 0 := by linarith
      field_simp
    have e6 : val lon' - lon - 360 * k = (val lon' - α * 180 / Real.pi) + (α * 180 / Real.pi - lon - 360 * k) := by ring
    rw [e6]
    refine (abs_add_le _ _).trans (add_le_add (n10.2.trans ?_) hdiff)
    norm_num


/-- A point of the ellipsoid is determined by its normal. -/
theorem foot_unique {a b : ℝ} (ha : 0 < a) (hb : 0 < b) {Q Q' n : EuclideanSpace ℝ (Fin 3)} {k k' : ℝ} (h : OnEllipsoid a b Q)
    (h' : OnEllipsoid a b Q') (hk : 0 < k) (hk' : 0 < k') (hn : ellipsoidNormal a b Q = k • n)
    (hn' : ellipsoidNormal a b Q' = k' • n) : ∀ i, Q i = Q' i := by
  have c : ∀ {P : EuclideanSpace ℝ (Fin 3)} {m : ℝ}, ellipsoidNormal a b P = m • n →
      P 0 = a ^ 2 * (m * n 0) ∧ P 1 = a ^ 2 * (m * n 1) ∧ P 2 = b ^ 2 * (m * n 2) := by
    intro P m hp
    have e0 : P 0 / a ^ 2 = m * n 0 := by simpa [ellipsoidNormal] using congrFun (congrArg (fun v => v.ofLp) hp) 0
    have e1 : P 1 / a ^ 2 = m * n 1 := by simpa [ellipsoidNormal] using congrFun (congrArg (fun v => v.ofLp) hp) 1
    have e2 : P 2 / b ^ 2 = m * n 2 := by simpa [ellipsoidNormal] using congrFun (congrArg (fun v => v.ofLp) hp) 2
    rw [div_eq_iff (by positivity)] at e0 e1 e2
    exact ⟨by linarith, by linarith, by linarith⟩
  obtain ⟨q0, q1, q2⟩ := c hn
  obtain ⟨p0, p1, p2⟩ := c hn'
  unfold OnEllipsoid at h h'
  rw [q0, q1, q2] at h
  rw [p0, p1, p2] at h'
  have e : k ^ 2 * (a ^ 2 * n 0 ^ 2 + a ^ 2 * n 1 ^ 2 + b ^ 2 * n 2 ^ 2) = 1 := by rw [← h]; field_simp
  have e' : k' ^ 2 * (a ^ 2 * n 0 ^ 2 + a ^ 2 * n 1 ^ 2 + b ^ 2 * n 2 ^ 2) = 1 := by rw [← h']; field_simp
  have hs : a ^ 2 * n 0 ^ 2 + a ^ 2 * n 1 ^ 2 + b ^ 2 * n 2 ^ 2 ≠ 0 := by
    intro h0; rw [h0, mul_zero] at e; exact absurd e (by norm_num)
  have hkk : k = k' := by
    have : k ^ 2 = k' ^ 2 := mul_right_cancel₀ hs (e.trans e'.symm)
    exact (pow_left_inj₀ hk.le hk'.le (by norm_num)).1 this
  intro i
  fin_cases i
  · show Q 0 = Q' 0
    rw [q0, p0, hkk]
  · show Q 1 = Q' 1
    rw [q1, p1, hkk]
  · show Q 2 = Q' 2
    rw [q2, p2, hkk]

/-- C71. `ecef2llh` in floating point. Take any place on Earth from 100 km below to 100000 km above the WGS84 ellipsoid: the point
at height `h` above the point `Q` of the ellipsoid where the normal has latitude `lat` and longitude `lon`. Given its
coordinates as floats, each to within `ε` (at most a millimetre), `ecef2llh` does not fail, and returns the latitude to within
6e-10 of a degree, the height to within ten nanometres, plus the effect of `ε` and of rounding; the longitude is right
modulo 360 degrees up to `180 ε / w`, where `w` is the distance from the axis of the Earth. -/
theorem C71_ecef2llh (lib : Libm) (hl : Accurate lib) (lat lon h k ε : ℝ) (Q : EuclideanSpace ℝ (Fin 3)) (x y z : PyFloat)
    (hlat : |lat| ≤ 90) (h0 : -100000 ≤ h) (h1 : h ≤ 10 ^ 8)
    (hQ : OnEllipsoid Geo.smajAxis (polarAxis Geo.smajAxis Geo.flattening) Q) (hk : 0 < k)
    (hn : ellipsoidNormal Geo.smajAxis (polarAxis Geo.smajAxis Geo.flattening) Q = k • spherePoint lat lon)
    (hx : Near x (Q 0 + h * spherePoint lat lon 0) ε) (hy : Near y (Q 1 + h * spherePoint lat lon 1) ε)
    (hz : Near z (Q 2 + h * spherePoint lat lon 2) ε) (hε : ε ≤ 1 / 1000) :
    ∃ lat' lon' h', ecef2llh lib x y z smajAxis flattening = .ok (lat', lon', h') ∧
      Near lat' lat (6 / 10 ^ 10 + ε / 10 ^ 4) ∧ Near h' h (1 / 10 ^ 8 + 31 / 10 * ε + 7 / 10 ^ 15 * (6400000 + |h|)) ∧
      Finite lon' ∧ |val lon'| ≤ 180 + 1 / 10 ^ 12 ∧
      ∀ w, w = Real.sqrt ((Q 0 + h * spherePoint lat lon 0) ^ 2 + (Q 1 + h * spherePoint lat lon 1) ^ 2) → 2 * ε < w →
        ∃ m : ℤ, |val lon' - lon - 360 * m| ≤ 2 / 10 ^ 13 + 180 * ε / (w - 2 * ε) := by
  obtain ⟨Q', k', hQ', hk', hn', e⟩ := C43_llh2ecef lat lon h Geo.smajAxis Geo.flattening (by unfold Geo.smajAxis; norm_num)
    (by unfold Geo.flattening; norm_num)
  have hu := foot_unique (by unfold Geo.smajAxis; norm_num) (by unfold polarAxis Geo.smajAxis Geo.flattening; norm_num) hQ hQ' hk hk' hn hn'
  rw [← hu 0, ← hu 1, ← hu 2, llh2ecef_wgs84] at e
  simp only [Except.ok.injEq, Prod.mk.injEq] at e
  obtain ⟨lat', lon', h', e1, e2, e3, e4, e5, e6⟩ := ecef_core hl hlat h0 h1 e.1.symm e.2.1.symm e.2.2.symm hx hy hz hε
  refine ⟨lat', lon', h', e1, e2, e3, e4, e5, ?_⟩
  rintro w rfl h2
  rw [pow_two, pow_two] at h2 ⊢
  exact e6 h2

/-- C71. The round trip in floating point: `ecef2llh` of `llh2ecef` does not fail, and returns the latitude to within a billionth of a
degree, the height to within ten nanometres plus 2e-14 times the distance (a tenth of a micrometre at ground level), and the
longitude, modulo 360 degrees, to within an arc of 3e-12 degrees along the parallel. -/
theorem C71_round_trip (lib : Libm) (hl : Accurate lib) (lat lon height : PyFloat) (h1 : OnGlobe lat lon) (hh : Finite height)
    (h2 : -100000 ≤ val height) (h3 : val height ≤ 10 ^ 8) :
    ∃ x y z lat' lon' height', llh2ecef lib lat lon height smajAxis flattening = .ok (x, y, z) ∧
      ecef2llh lib x y z smajAxis flattening = .ok (lat', lon', height') ∧
      Near lat' (val lat) (1 / 10 ^ 9) ∧ Near height' (val height) (1 / 10 ^ 8 + 2 / 10 ^ 14 * (6400000 + |val height|)) ∧
      Finite lon' ∧ ∃ m : ℤ, |val lon' - val lon - 360 * m| * Real.cos (toRad (val lat)) ≤ 3 / 10 ^ 12 := by
  have hb : |val height| ≤ 10 ^ 8 := abs_le.2 ⟨by norm_num at h2 ⊢; linarith, h3⟩
  obtain ⟨x, y, z, X, Y, Z, e1, e2, nx, ny, nz⟩ := llh2ecef_near hl h1 hh (by norm_num at hb ⊢; linarith)
  rw [llh2ecef_wgs84] at e2
  simp only [Except.ok.injEq, Prod.mk.injEq] at e2
  obtain ⟨c1, c2, c3⟩ := e2
  have hh0 := abs_nonneg (val height)
  set M := 6400000 + |val height| with hM
  have hε : 3 / 10 ^ 15 * M ≤ 1 / 1000 := by norm_num at hb ⊢; linarith
  obtain ⟨lat', lon', h', e3, e4, e5, e6, e7, e8⟩ := ecef_core hl h1.2.1 h2 h3 c1.symm c2.symm c3.symm nx ny nz hε
  refine ⟨x, y, z, lat', lon', h', e1, e3, e4.mono (by norm_num at hb ⊢; linarith), e5.mono (by norm_num; linarith), e6, ?_⟩
  have hrt : Geo.rad (val lat) = toRad (val lat) := rad_eq _
  rw [hrt] at c1 c2
  have hlat := toRad_le h1.2.1
  have hpi := Real.pi_gt_d2
  have hpp := Real.pi_pos
  have hC0 : 0 ≤ Real.cos (toRad (val lat)) := by
    apply Real.cos_nonneg_of_mem_Icc
    have h90 := abs_le.1 h1.2.1
    unfold toRad
    constructor
    · nlinarith [h90.1]
    · nlinarith [h90.2]
  obtain ⟨n1, n2⟩ := nV_bounds (toRad (val lat))
  have hρ : 96 / 100 * M ≤ nV (toRad (val lat)) + val height := by
    rcases le_total 0 (val height) with hc | hc
    · rw [hM, abs_of_nonneg hc]; linarith
    · rw [hM, abs_of_nonpos hc]; linarith
  have hM0 : 6400000 ≤ M := by linarith
  have hw : Real.sqrt (X * X + Y * Y) = (nV (toRad (val lat)) + val height) * Real.cos (toRad (val lat)) := by
    have : X * X + Y * Y = ((nV (toRad (val lat)) + val height) * Real.cos (toRad (val lat))) ^ 2 := by
      rw [← c1, ← c2]
      linear_combination ((nV (toRad (val lat)) + val height) * Real.cos (toRad (val lat))) ^ 2 *
        Real.sin_sq_add_cos_sq (Geo.rad (val lon))
    rw [this, Real.sqrt_sq (mul_nonneg (by linarith) hC0)]
  have hC1 := Real.cos_le_one (toRad (val lat))
  rw [hw] at e8
  set C := Real.cos (toRad (val lat)) with hC
  have hwC : 96 / 100 * M * C ≤ (nV (toRad (val lat)) + val height) * C := mul_le_mul_of_nonneg_right hρ hC0
  rcases le_or_gt C (15 / 10 ^ 15) with hs | hs
  · have hlo := abs_le.1 e7
    have hlo2 := abs_le.1 h1.2.2.2
    have hk : ∃ m : ℤ, |val lon' - val lon - 360 * m| ≤ 181 := by
      by_cases a : val lon' - val lon < -181
      · exact ⟨-1, by push_cast; rw [abs_le]; norm_num at hlo ⊢; constructor <;> linarith [hlo.1, hlo.2, hlo2.1, hlo2.2]⟩
      · by_cases b : 181 < val lon' - val lon
        · exact ⟨1, by push_cast; rw [abs_le]; norm_num at hlo ⊢; constructor <;> linarith [hlo.1, hlo.2, hlo2.1, hlo2.2]⟩
        · exact ⟨0, by push_cast; rw [abs_le]; constructor <;> linarith⟩
    obtain ⟨m, hm⟩ := hk
    refine ⟨m, ?_⟩
    have := mul_le_mul hm hs hC0 (by norm_num)
    norm_num at this ⊢
    linarith
  · have hcm : 15 / 10 ^ 15 * M ≤ C * M := mul_le_mul_of_nonneg_right hs.le (by linarith)
    have hCM : 0 ≤ C * M := mul_nonneg hC0 (by linarith)
    have hgap : 55 / 100 * (C * M) ≤ (nV (toRad (val lat)) + val height) * C - 2 * (3 / 10 ^ 15 * M) := by
      norm_num at hcm ⊢; linarith
    have hpos : 0 < C * M := by
      have : 0 < M := by linarith
      norm_num at hs
      have : 0 < C := by linarith
      positivity
    obtain ⟨m, hm⟩ := e8 (by linarith)
    refine ⟨m, ?_⟩
    have hq : 180 * (3 / 10 ^ 15 * M) / ((nV (toRad (val lat)) + val height) * C - 2 * (3 / 10 ^ 15 * M)) * C ≤ 1 / 10 ^ 12 := by
      rw [div_mul_eq_mul_div, div_le_iff₀ (by linarith)]
      norm_num at hgap ⊢
      linarith
    have := mul_le_mul_of_nonneg_right hm hC0
    have hC2 : 2 / 10 ^ 13 * C ≤ 2 / 10 ^ 13 * 1 := mul_le_mul_of_nonneg_left hC1 (by norm_num)
    rw [add_mul] at this
    norm_num at hq hC2 this ⊢
    linarith

/-- Paris and back. -/
example (lib : Libm) (hl : Accurate lib) :
    ∃ x y z lat' lon' height', llh2ecef lib (lit (97 / 2)) (lit (5 / 2)) (lit 35) smajAxis flattening = .ok (x, y, z) ∧
      ecef2llh lib x y z smajAxis flattening = .ok (lat', lon', height') ∧ Near lat' (97 / 2) (1 / 10 ^ 9) := by
  obtain ⟨x, y, z, a, b, c, h1, h2, h3, -⟩ := C71_round_trip lib hl (lit (97 / 2)) (lit (5 / 2)) (lit 35)
    (onGlobe_lit _ _ _ _ (by norm_num) (by norm_num) (by norm_num) (by norm_num))
    (show (0 : ℚ) ≤ 35 by norm_num) (by unfold lit; rw [val_fin]; norm_num) (by unfold lit; rw [val_fin]; norm_num)
  refine ⟨x, y, z, a, b, c, h1, h2, ?_⟩
  have e : val (lit (97 / 2)) = 97 / 2 := by unfold lit; rw [val_fin]; norm_num
  rwa [e] at h3

/-- The point of the equator on the Greenwich meridian. -/
example (lib : Libm) (hl : Accurate lib) : ∃ lat' lon' h', ecef2llh lib smajAxis (lit 0) (lit 0) smajAxis flattening = .ok (lat', lon', h') ∧
    Near lat' 0 (6 / 10 ^ 10) ∧ Near h' 0 (2 / 10 ^ 7) := by
  have hs : val smajAxis = 6378137 := by unfold smajAxis lit; rw [val_fin]; norm_num
  have hz : val (lit 0) = 0 := by unfold lit; rw [val_fin]; norm_num
  have b0 : polarAxis Geo.smajAxis Geo.flattening ≠ 0 := by unfold polarAxis Geo.smajAxis Geo.flattening; norm_num
  obtain ⟨a, b, c, h1, h2, h3, -⟩ := C71_ecef2llh lib hl 0 0 0 (1 / 6378137) 0 !₂[6378137, 0, 0] smajAxis (lit 0) (lit 0)
    (by norm_num) (by norm_num) (by norm_num)
    (by unfold OnEllipsoid Geo.smajAxis; norm_num; exact .inl rfl)
    (by norm_num)
    (by ext i; fin_cases i <;> simp [ellipsoidNormal, spherePoint, toRad, Geo.smajAxis]; norm_num)
    ⟨(show (0 : ℚ) ≤ 6378137 by norm_num), by rw [hs]; simp⟩ ⟨le_refl (0 : ℚ), by rw [hz]; simp⟩ ⟨le_refl (0 : ℚ), by rw [hz]; simp⟩ (by norm_num)
  exact ⟨a, b, c, h1, h2.mono (by norm_num), h3.mono (by norm_num)⟩

end Nmea.GeoF
