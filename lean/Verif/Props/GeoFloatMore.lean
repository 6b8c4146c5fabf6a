import Verif.Props.GeoFloat
import Verif.Props.Ecef
/-!
# Area, planar distance and `llh2ecef` in floating point (C70)
-/
namespace Nmea.GeoF
open Py PyFloat Nmea.Geo

theorem rad_eq (c : ℝ) : Geo.rad c = toRad c := by unfold Geo.rad toRad; ring

/-- `x ** 2`. -/
theorem square_near {lib : Libm} (hl : Accurate lib) {x : PyFloat} (hx : Finite x) (hb : |val x| ≤ 10 ^ 100) :
    ∃ y, square lib x = .ok y ∧ Near y (val x ^ 2) (val x ^ 2 / 2 ^ 52 + 1 / 10 ^ 70) := by
  have h := hl.square x hx hb
  obtain ⟨s, m, rfl, -⟩ := hx.cases
  refine ⟨_, ?_, h⟩
  unfold square
  obtain ⟨t, n, e, -⟩ := h.1.cases
  simp only [e]

/-- C70. `area` is the area of the region between the parallels and meridians (`C42_area`) to within 3e-14 times the
squared radius. -/
theorem C70_area (lib : Libm) (hl : Accurate lib) (lat1 lon1 lat2 lon2 radius : PyFloat) (h1 : OnGlobe lat1 lon1)
    (h2 : OnGlobe lat2 lon2) (hr : Finite radius) (hr1 : 1 ≤ val radius) (hr2 : val radius ≤ 5 * 10 ^ 7) :
    ∃ s, area lib lat1 lon1 lat2 lon2 radius = .ok s ∧
      Near s |∫ _l in (toRad (val lon1))..(toRad (val lon2)), ∫ p in (toRad (val lat1))..(toRad (val lat2)),
        val radius ^ 2 * Real.cos p| (3 / 10 ^ 14 * val radius ^ 2) := by
  rw [← C42_area]
  unfold Geo.area
  simp only [rad_eq]
  obtain ⟨a1, b1, c1, d1⟩ := h1
  obtain ⟨a2, b2, c2, d2⟩ := h2
  obtain ⟨p1, e1, n1⟩ := rad_near a1 (by norm_num) (by norm_num) b1
  obtain ⟨p2, e2, n2⟩ := rad_near a2 (by norm_num) (by norm_num) b2
  obtain ⟨r2, e3, n3⟩ := square_near hl hr (by rw [abs_of_nonneg (by linarith)]; exact hr2.trans (by norm_num))
  obtain ⟨s1, e4, n4, -⟩ := n1.sin hl (toRad_le b1) (by norm_num)
  obtain ⟨s2, e5, n5, -⟩ := n2.sin hl (toRad_le b2) (by norm_num)
  have hA1 : 1 ≤ val radius ^ 2 := by nlinarith
  have hA2 : val radius ^ 2 ≤ 25 * 10 ^ 14 := by nlinarith
  generalize val radius ^ 2 = A at *
  have hd : |Real.sin (toRad (val lat1)) - Real.sin (toRad (val lat2))| ≤ 2 :=
    (abs_sub _ _).trans (by linarith [Real.abs_sin_le_one (toRad (val lat1)), Real.abs_sin_le_one (toRad (val lat2))])
  have m1 := (n4.sub n5 (B := 2) (g := 17 / 10 ^ 16) hd (by norm_num) (by norm_num)).abs
  have hAA : |A| ≤ A := (abs_of_nonneg (by linarith)).le
  have m2 := n3.mul pi_near (R := A) (S := 315 / 100) (g := A * (13 / 10 ^ 16)) hAA abs_pi_le
    (by norm_num; linarith) (by norm_num; linarith)
  have m3 := m2.mul m1 (R := A * (315 / 100)) (S := 2) (g := A * (9 / 10 ^ 15))
    (by rw [abs_mul]; exact mul_le_mul hAA abs_pi_le (abs_nonneg _) (by linarith))
    (by rw [abs_abs]; exact hd) (by norm_num; linarith) (by norm_num; linarith)
  have hl' : |val lon1 - val lon2| ≤ 360 := (abs_sub _ _).trans (by linarith)
  have m4 := ((Near.exact c1).sub (Near.exact c2) (B := 360) (g := 41 / 10 ^ 15) hl' (by norm_num) (by norm_num)).abs
  have m5 := m3.mul m4 (R := A * (63 / 10)) (S := 360) (g := A * (4 / 10 ^ 12))
    (by
      rw [abs_mul, abs_mul, abs_abs]
      calc |A| * |Real.pi| * _ ≤ A * (315 / 100) * 2 :=
            mul_le_mul (mul_le_mul hAA abs_pi_le (abs_nonneg _) (by linarith)) hd (abs_nonneg _) (by linarith)
        _ = A * (63 / 10) := by ring)
    (by rw [abs_abs]; exact hl') (by norm_num; linarith) (by norm_num; linarith)
  have hQ : |A * Real.pi * |Real.sin (toRad (val lat1)) - Real.sin (toRad (val lat2))| * |val lon1 - val lon2| / ((180 : ℚ) : ℝ)| ≤ A * (126 / 10) := by
    rw [abs_div, abs_mul, abs_mul, abs_mul, abs_abs, abs_abs, div_le_iff₀ (by norm_num)]
    calc |A| * |Real.pi| * _ * _ ≤ A * (315 / 100) * 2 * 360 :=
            mul_le_mul (mul_le_mul (mul_le_mul hAA abs_pi_le (abs_nonneg _) (by linarith)) hd (abs_nonneg _) (by linarith))
              hl' (abs_nonneg _) (by linarith)
      _ = _ := by norm_num; ring
  obtain ⟨z, e6, n6⟩ := m5.div (lit_near (q := 180) (by norm_num)) (Q := A * (126 / 10)) (S := 180)
    (g := 3 / 10 ^ 14 * A) hQ (by norm_num) (by norm_num) (by norm_num; linarith) (by norm_num; linarith)
  refine ⟨z, ?_, by push_cast at n6; exact n6⟩
  unfold area
  simp only [e1, e2, bind, Except.bind, e3, e4, e5]
  exact e6

/-- Square roots of nearly equal numbers. -/
theorem sqrt_rel {s q ε : ℝ} (hs : 0 ≤ s) (hq : 0 ≤ q) (hε : 0 ≤ ε) (hε1 : ε ≤ 1) {t : ℝ} (ht : 0 ≤ t)
    (h : |s - q| ≤ q * ε + t ^ 2) : |Real.sqrt s - Real.sqrt q| ≤ Real.sqrt q * ε + t := by
  obtain ⟨h1, h2⟩ := abs_le.1 h
  have hsq := Real.sq_sqrt hq
  have hq0 := Real.sqrt_nonneg q
  rw [abs_le]
  constructor
  · rw [neg_le_sub_iff_le_add]
    by_contra hc
    push Not at hc
    have hs0 := Real.sqrt_nonneg s
    have hss := Real.sq_sqrt hs
    generalize Real.sqrt q = Q at *
    generalize Real.sqrt s = S at *
    have h3 : S + t < Q * (1 - ε) := by linarith
    have h4 : (S + t) ^ 2 < (Q * (1 - ε)) ^ 2 := by
      apply pow_lt_pow_left₀ h3 (by linarith) (by norm_num)
    have h5 : 0 ≤ Q * (1 - ε) - t := by linarith
    have h6 : S ^ 2 < (Q * (1 - ε) - t) ^ 2 := by
      apply pow_lt_pow_left₀ (by linarith) hs0 (by norm_num)
    nlinarith [mul_nonneg h5 ht, mul_nonneg (mul_nonneg (sq_nonneg Q) hε) (sub_nonneg.2 hε1)]
  · have : Real.sqrt s ≤ Real.sqrt q * (1 + ε) + t := by
      apply Real.sqrt_le_iff.2
      refine ⟨by positivity, ?_⟩
      generalize Real.sqrt q = Q at *
      nlinarith [mul_nonneg (mul_nonneg hq0 ht) hε, mul_nonneg hq0 ht, mul_nonneg (sq_nonneg Q) hε, sq_nonneg (Q * ε)]
    linarith

/-- The length of a step in the plane. -/
theorem norm_close (u v U V : ℝ) : |Real.sqrt (u * u + v * v) - Real.sqrt (U * U + V * V)| ≤ |u - U| + |v - V| := by
  have n : ∀ a b : ℝ, Real.sqrt (a * a + b * b) = ‖(⟨a, b⟩ : ℂ)‖ := by
    intro a b; rw [Complex.norm_def, Complex.normSq_mk]
  rw [n, n]
  refine (abs_norm_sub_norm_le _ _).trans ?_
  have := Complex.norm_le_abs_re_add_abs_im ((⟨u, v⟩ : ℂ) - ⟨U, V⟩)
  simpa using this

theorem Near.sqrt {lib : Libm} (hl : Accurate lib) {x : PyFloat} {r e T B g : ℝ} (hx : Near x r e) (hT : 0 < T) (hTr : T ^ 2 ≤ r)
    (heT : e ≤ T ^ 2) (hB : r ≤ B ^ 2) (hB0 : 0 ≤ B) (hg : e / T + (B + e / T) / 2 ^ 52 ≤ g) :
    ∃ y, math1 lib.sqrt x = .ok y ∧ Near y (Real.sqrt r) g := by
  have hx0 : 0 ≤ val x := by have := (abs_le.1 hx.2).1; linarith
  have h := hl.sqrt x hx.1 hx0
  refine ⟨_, math1_fin h.1, h.1, ?_⟩
  have hT' : T ≤ Real.sqrt r := Real.le_sqrt_of_sq_le hTr
  have hB' : Real.sqrt r ≤ B := Real.sqrt_le_iff.2 ⟨hB0, hB⟩
  have hr : 0 ≤ r := (sq_nonneg T).trans hTr
  have h2 : |Real.sqrt (val x) - Real.sqrt r| ≤ e / T := by
    rw [le_div_iff₀ hT]
    have : val x - r = (Real.sqrt (val x) - Real.sqrt r) * (Real.sqrt (val x) + Real.sqrt r) := by
      have a := Real.mul_self_sqrt hx0
      have b := Real.mul_self_sqrt hr
      nlinarith
    calc |Real.sqrt (val x) - Real.sqrt r| * T
        ≤ |Real.sqrt (val x) - Real.sqrt r| * (Real.sqrt (val x) + Real.sqrt r) :=
          mul_le_mul_of_nonneg_left (by linarith [Real.sqrt_nonneg (val x)]) (abs_nonneg _)
      _ = |val x - r| := by rw [this, abs_mul, abs_of_nonneg (a := Real.sqrt (val x) + Real.sqrt r) (by positivity)]
      _ ≤ e := hx.2
  have h3 : Real.sqrt (val x) ≤ B + e / T := by have := (abs_le.1 h2).2; linarith
  have h4 : Real.sqrt (val x) / 2 ^ 52 ≤ (B + e / T) / 2 ^ 52 := by gcongr
  have h5 := abs_sub_le (val (lib.sqrt x)) (Real.sqrt (val x)) (Real.sqrt r)
  have h6 := h.2
  linarith

theorem ofMag_val_nonneg (q : ℚ) : 0 ≤ val (ofMag false q) := by
  unfold ofMag
  simp only
  split
  · simp [val, PyFloat.toRat]
  · rw [val_fin]; simpa using roundMag_nonneg q

/-- Squares are not negative. -/
theorem mul_self_val (x : PyFloat) : 0 ≤ val (x.mul x) := by
  cases x with
  | fin s a => simpa [PyFloat.mul] using ofMag_val_nonneg (a * a)
  | inf s => simp [PyFloat.mul, val, PyFloat.toRat]
  | nan => simp [PyFloat.mul, val, PyFloat.toRat]

/-- Sums of non-negative floats are not negative. -/
theorem add_val_nonneg {x y : PyFloat} (hx : 0 ≤ val x) (hy : 0 ≤ val y) : 0 ≤ val (x.add y) := by
  cases x <;> cases y <;> try (simp [PyFloat.add, val, PyFloat.toRat]; done)
  · rename_i s a t b
    have hq : 0 ≤ toRat (.fin s a) + toRat (.fin t b) := by
      unfold val at hx hy
      have : (0 : ℝ) ≤ ((toRat (.fin s a) + toRat (.fin t b) : ℚ) : ℝ) := by push_cast; linarith
      exact_mod_cast this
    show 0 ≤ val (if toRat (.fin s a) + toRat (.fin t b) = 0 then _ else _)
    split
    · rw [val_fin]; simp
    · unfold ofRat
      simp only [not_lt.2 hq, decide_false, if_false]
      exact ofMag_val_nonneg _
  · simp only [PyFloat.add]
    split <;> simp [val, PyFloat.toRat]

/-- C70. `planar` never fails on the globe; it is the length of the step of `dlat` north and `cos(lat1) * dlon` east to
within 2e-14 of the radius (0.13 micrometres on the Earth). -/
theorem C70_planar (lib : Libm) (hl : Accurate lib) (lat1 lon1 lat2 lon2 radius : PyFloat) (h1 : OnGlobe lat1 lon1)
    (h2 : OnGlobe lat2 lon2) (hr : Finite radius) (hr1 : 1 ≤ val radius) (hr2 : val radius ≤ 10 ^ 9) :
    ∃ d, planar lib lat1 lon1 lat2 lon2 radius = .ok d ∧
      Near d (val radius * Real.sqrt (toRad (val lat2 - val lat1) ^ 2 +
        (Real.cos (toRad (val lat1)) * toRad (val lon2 - val lon1)) ^ 2)) (2 / 10 ^ 14 * val radius) := by
  obtain ⟨a1, b1, c1, d1⟩ := h1
  obtain ⟨a2, b2, c2, d2⟩ := h2
  obtain ⟨p1, e1, n1⟩ := rad_near a1 (by norm_num) (by norm_num) b1
  obtain ⟨p2, e2, n2⟩ := rad_near a2 (by norm_num) (by norm_num) b2
  obtain ⟨l1, e3, n3⟩ := rad_near c1 (by norm_num) (by norm_num) d1
  obtain ⟨l2, e4, n4⟩ := rad_near c2 (by norm_num) (by norm_num) d2
  have t1 := toRad_le b1
  have t2 := toRad_le b2
  have t3 := toRad_le d1
  have t4 := toRad_le d2
  obtain ⟨k1, e5, n5, -⟩ := n1.cos hl t1 (by norm_num)
  have hdl : |toRad (val lon2) - toRad (val lon1)| ≤ 63 / 10 := (abs_sub _ _).trans (by linarith)
  have hdp : |toRad (val lat2) - toRad (val lat1)| ≤ 315 / 100 := (abs_sub _ _).trans (by linarith)
  have m1 := n4.sub n3 (B := 63 / 10) (g := 251 / 10 ^ 17) hdl (by norm_num) (by norm_num)
  have m2 := m1.mul n5 (R := 63 / 10) (S := 1) (g := 8 / 10 ^ 15) hdl (Real.abs_cos_le_one _) (by norm_num) (by norm_num)
  have m3 := n2.sub n1 (B := 315 / 100) (g := 126 / 10 ^ 17) hdp (by norm_num) (by norm_num)
  have hL : |(toRad (val lon2) - toRad (val lon1)) * Real.cos (toRad (val lat1))| ≤ 63 / 10 := by
    rw [abs_mul]
    calc _ ≤ 63 / 10 * 1 := mul_le_mul hdl (Real.abs_cos_le_one _) (abs_nonneg _) (by norm_num)
      _ = _ := by norm_num
  have hu := m2.bound hL
  have hv := m3.bound hdp
  set dl := (l2.sub l1).mul k1
  set dp := p2.sub p1
  have hu2 : |val dl * val dl| ≤ 40 := by
    rw [abs_mul]
    calc _ ≤ (63 / 10 + 8 / 10 ^ 15) * (63 / 10 + 8 / 10 ^ 15 : ℝ) := mul_le_mul hu hu (abs_nonneg _) (by norm_num)
      _ ≤ _ := by norm_num
  have hv2 : |val dp * val dp| ≤ 40 := by
    rw [abs_mul]
    calc _ ≤ (315 / 100 + 126 / 10 ^ 17) * (315 / 100 + 126 / 10 ^ 17 : ℝ) := mul_le_mul hv hv (abs_nonneg _) (by norm_num)
      _ ≤ _ := by norm_num
  have q1 := mul_near' m2.1 m2.1 (hu2.trans (by norm_num))
  have q2 := mul_near' m3.1 m3.1 (hv2.trans (by norm_num))
  rw [abs_mul_self] at q1 q2
  rw [abs_mul_self] at hu2 hv2
  have hu0 := mul_self_nonneg (val dl)
  have hv0 := mul_self_nonneg (val dp)
  have hq : 0 ≤ val dl * val dl + val dp * val dp := by positivity
  have q3 := q1.add q2 (B := val dl * val dl + val dp * val dp)
    (g := (val dl * val dl + val dp * val dp) * (23 / 10 ^ 17) + (1 / 10 ^ 34) ^ 2)
    (abs_of_nonneg hq).le (by norm_num; linarith) (by norm_num; linarith)
  set sm := (dl.mul dl).add (dp.mul dp)
  have hs0 : 0 ≤ val sm := by
    exact add_val_nonneg (mul_self_val _) (mul_self_val _)
  have q4 := hl.sqrt sm q3.1 hs0
  have q5 := sqrt_rel hs0 hq (by norm_num) (by norm_num) (by norm_num) q3.2
  have q6 := norm_close (val dl) (val dp) ((toRad (val lon2) - toRad (val lon1)) * Real.cos (toRad (val lat1)))
    (toRad (val lat2) - toRad (val lat1))
  have e6 : toRad (val lat2 - val lat1) ^ 2 + (Real.cos (toRad (val lat1)) * toRad (val lon2 - val lon1)) ^ 2 =
      (toRad (val lon2) - toRad (val lon1)) * Real.cos (toRad (val lat1)) * ((toRad (val lon2) - toRad (val lon1)) * Real.cos (toRad (val lat1))) +
        (toRad (val lat2) - toRad (val lat1)) * (toRad (val lat2) - toRad (val lat1)) := by
    unfold toRad; ring
  rw [e6]
  have hD : Real.sqrt ((toRad (val lon2) - toRad (val lon1)) * Real.cos (toRad (val lat1)) * ((toRad (val lon2) - toRad (val lon1)) * Real.cos (toRad (val lat1))) +
        (toRad (val lat2) - toRad (val lat1)) * (toRad (val lat2) - toRad (val lat1))) ≤ 71 / 10 := by
    apply Real.sqrt_le_iff.2
    refine ⟨by norm_num, ?_⟩
    have g1 : (toRad (val lon2) - toRad (val lon1)) * Real.cos (toRad (val lat1)) * ((toRad (val lon2) - toRad (val lon1)) * Real.cos (toRad (val lat1))) ≤ 63 / 10 * (63 / 10) := by
      rw [← abs_mul_abs_self]; exact mul_le_mul hL hL (abs_nonneg _) (by norm_num)
    have g2 : (toRad (val lat2) - toRad (val lat1)) * (toRad (val lat2) - toRad (val lat1)) ≤ 315 / 100 * (315 / 100) := by
      rw [← abs_mul_abs_self]; exact mul_le_mul hdp hdp (abs_nonneg _) (by norm_num)
    norm_num at *; linarith
  have hD0 := Real.sqrt_nonneg ((toRad (val lon2) - toRad (val lon1)) * Real.cos (toRad (val lat1)) * ((toRad (val lon2) - toRad (val lon1)) * Real.cos (toRad (val lat1))) +
        (toRad (val lat2) - toRad (val lat1)) * (toRad (val lat2) - toRad (val lat1)))
  generalize Real.sqrt ((toRad (val lon2) - toRad (val lon1)) * Real.cos (toRad (val lat1)) * ((toRad (val lon2) - toRad (val lon1)) * Real.cos (toRad (val lat1))) +
        (toRad (val lat2) - toRad (val lat1)) * (toRad (val lat2) - toRad (val lat1))) = D at *
  generalize Real.sqrt (val dl * val dl + val dp * val dp) = Q at *
  have q7 : Near (lib.sqrt sm) D (15 / 10 ^ 15) := by
    refine ⟨q4.1, ?_⟩
    have w1 := q4.2
    have w2 := m2.2
    have w3 := m3.2
    generalize Real.sqrt (val sm) = S at *
    have w4 := abs_sub_le (val (lib.sqrt sm)) S D
    have w5 := abs_sub_le S Q D
    have w6 := (abs_le.1 q5).2
    have w7 := (abs_le.1 q6).2
    norm_num at *
    linarith
  have hD1 : |D| ≤ 71 / 10 := by rw [abs_of_nonneg hD0]; exact hD
  have habs : |val radius| = val radius := abs_of_nonneg (by linarith)
  refine ⟨_, ?_, (Near.exact hr).mul q7 habs.le hD1 (by norm_num; linarith) (by norm_num; linarith)⟩
  unfold planar
  simp only [e1, e2, e3, e4, bind, Except.bind, e5]
  rw [show math1 lib.sqrt _ = Except.ok (lib.sqrt sm) from math1_fin q4.1]
  rfl

/-! ## Geodetic to Cartesian coordinates -/

/-- The WGS84 eccentricity squared as computed. -/
theorem e2_near : ∃ f, (lit 1).div flattening = .ok f ∧
    Near (f.mul ((lit 2).sub f)) (1 / Geo.flattening * (2 - 1 / Geo.flattening)) (5 / 10 ^ 18) := by
  have n1 : Near flattening Geo.flattening (34 / 10 ^ 15) := by
    have := ofMag_near false (q := 298257223563 / 1000000000) (by norm_num) (by norm_num)
    unfold flattening Geo.flattening
    refine Near.mono (by simpa using this) ?_
    norm_num
  have hv : |1 / Geo.flattening| ≤ 336 / 100000 := by
    unfold Geo.flattening; rw [abs_of_nonneg (by norm_num)]; norm_num
  obtain ⟨f, e1, n2⟩ := (lit_near (q := 1) (by norm_num)).div n1 (Q := 336 / 100000) (S := 298) (g := 8 / 10 ^ 19)
    (by push_cast; exact hv) (by unfold Geo.flattening; rw [abs_of_nonneg (by norm_num)]; norm_num)
    (by norm_num) (by norm_num) (by norm_num)
  push_cast at n2
  have n3 := (lit_near (q := 2) (by norm_num)).sub n2 (B := 2) (g := 225 / 10 ^ 18)
    (by push_cast; unfold Geo.flattening; rw [abs_of_nonneg (by norm_num)]; norm_num) (by norm_num) (by norm_num)
  push_cast at n3
  have n4 := n2.mul n3 (R := 336 / 100000) (S := 2) (g := 5 / 10 ^ 18) hv
    (by unfold Geo.flattening; rw [abs_of_nonneg (by norm_num)]; norm_num) (by norm_num) (by norm_num)
  exact ⟨f, e1, n4⟩

theorem llh2ecef_near {lib : Libm} (hl : Accurate lib) {lat lon height : PyFloat} (h1 : OnGlobe lat lon) (hh : Finite height)
    (hb : |val height| ≤ 10 ^ 15) :
    ∃ x y z X Y Z, llh2ecef lib lat lon height smajAxis flattening = .ok (x, y, z) ∧
      Geo.llh2ecef (val lat) (val lon) (val height) Geo.smajAxis Geo.flattening = .ok (X, Y, Z) ∧
      Near x X (3 / 10 ^ 15 * (6400000 + |val height|)) ∧ Near y Y (3 / 10 ^ 15 * (6400000 + |val height|)) ∧
      Near z Z (3 / 10 ^ 15 * (6400000 + |val height|)) := by
  obtain ⟨a1, b1, c1, d1⟩ := h1
  obtain ⟨p, e1, n1⟩ := rad_near a1 (by norm_num) (by norm_num) b1
  obtain ⟨l, e2, n2⟩ := rad_near c1 (by norm_num) (by norm_num) d1
  obtain ⟨f, e3, n3⟩ := e2_near
  obtain ⟨s, e4, n4, s4⟩ := n1.sin hl (toRad_le b1) (by norm_num)
  obtain ⟨cl, e5, n5, -⟩ := n1.cos hl (toRad_le b1) (by norm_num)
  obtain ⟨so, e6, n6, -⟩ := n2.sin hl (toRad_le d1) (by norm_num)
  obtain ⟨co, e7, n7, -⟩ := n2.cos hl (toRad_le d1) (by norm_num)
  have hE0 : (66 / 10000 : ℝ) ≤ 1 / Geo.flattening * (2 - 1 / Geo.flattening) := by unfold Geo.flattening; norm_num
  have hE1 : 1 / Geo.flattening * (2 - 1 / Geo.flattening) ≤ (67 / 10000 : ℝ) := by unfold Geo.flattening; norm_num
  have hf0 : Geo.flattening ≠ 0 := by unfold Geo.flattening; norm_num
  have hS1 := Real.abs_sin_le_one (toRad (val lat))
  have hC1 := Real.abs_cos_le_one (toRad (val lat))
  have hcl := Real.abs_cos_le_one (toRad (val lon))
  have hsl := Real.abs_sin_le_one (toRad (val lon))
  have hreal : ∀ d q : ℝ, 0 ≤ 1 - 1 / Geo.flattening * (2 - 1 / Geo.flattening) * Real.sin (toRad (val lat)) ^ 2 →
      d = Real.sqrt (1 - 1 / Geo.flattening * (2 - 1 / Geo.flattening) * Real.sin (toRad (val lat)) ^ 2) → d ≠ 0 →
      q = 1 - 1 / Geo.flattening * (2 - 1 / Geo.flattening) →
      Geo.llh2ecef (val lat) (val lon) (val height) Geo.smajAxis Geo.flattening = .ok
        ((Geo.smajAxis / d + val height) * Real.cos (toRad (val lat)) * Real.cos (toRad (val lon)),
         (Geo.smajAxis / d + val height) * Real.cos (toRad (val lat)) * Real.sin (toRad (val lon)),
         (q * (Geo.smajAxis / d) + val height) * Real.sin (toRad (val lat))) := by
    intro d q h0 hd hd0 hq
    unfold Geo.llh2ecef Geo.div Geo.sqrt
    simp only [rad_eq, bind, Except.bind, if_neg hf0, if_pos h0, ← hd, if_neg hd0]
    have ha : Geo.smajAxis ^ 2 ≠ 0 := by unfold Geo.smajAxis; norm_num
    simp only [if_neg ha]
    rw [mul_div_cancel_left₀ _ ha, ← hq]
    rfl
  generalize 1 / Geo.flattening * (2 - 1 / Geo.flattening) = E at *
  generalize Real.sin (toRad (val lat)) = S at *
  generalize Real.cos (toRad (val lat)) = C at *
  have hS2 : S ^ 2 ≤ 1 := by rw [← sq_abs]; exact pow_le_one₀ (abs_nonneg _) hS1
  have hS0 := sq_nonneg S
  have hES0 : 0 ≤ E * S ^ 2 := mul_nonneg (by linarith) hS0
  have hES : E * S ^ 2 ≤ 67 / 10000 := by
    calc E * S ^ 2 ≤ 67 / 10000 * 1 := mul_le_mul hE1 hS2 hS0 (by norm_num)
      _ = _ := by norm_num
  have hTd : (9966 / 10000 : ℝ) ≤ Real.sqrt (1 - E * S ^ 2) := Real.le_sqrt_of_sq_le (by norm_num; linarith)
  have hreal := hreal _ _ (by linarith) rfl (by linarith) rfl
  have hd1 : Real.sqrt (1 - E * S ^ 2) ≤ 1 := Real.sqrt_le_one.2 (by linarith)
  obtain ⟨s2, e8, n8⟩ := square_near hl n4.1 (s4.trans (by norm_num))
  have n8' : Near s2 (S ^ 2) (16 / 10 ^ 16) := by
    refine ⟨n8.1, ?_⟩
    have w1 := n8.2
    have w2 := n4.2
    have w3 : val s ^ 2 - S ^ 2 = (val s - S) * (val s + S) := by ring
    have w4 : |val s ^ 2 - S ^ 2| ≤ (90 * (5 / 10 ^ 18) + 1 / 2 ^ 52) * 2 := by
      rw [w3, abs_mul]
      exact mul_le_mul w2 ((abs_add_le _ _).trans (by linarith)) (abs_nonneg _) (by norm_num)
    have w5 : val s ^ 2 ≤ 1 := by rw [← sq_abs]; exact pow_le_one₀ (abs_nonneg _) s4
    have w6 := abs_sub_le (val s2) (val s ^ 2) (S ^ 2)
    norm_num at w1 w4 ⊢
    linarith
  have n9 := n3.mul n8' (R := 67 / 10000) (S := 1) (g := 17 / 10 ^ 18) (by rw [abs_of_nonneg (by linarith)]; exact hE1)
    (by rw [abs_of_nonneg hS0]; exact hS2) (by norm_num) (by norm_num)
  have n10 := (lit_near (q := 1) (by norm_num)).sub n9 (B := 1) (g := 13 / 10 ^ 17)
    (by push_cast; rw [abs_of_nonneg (by linarith)]; linarith) (by norm_num) (by norm_num)
  push_cast at n10
  obtain ⟨d, e11, n11⟩ := n10.sqrt hl (T := 9966 / 10000) (B := 1) (g := 36 / 10 ^ 17) (by norm_num)
    (by norm_num; linarith) (by norm_num) (by linarith) (by norm_num) (by norm_num)
  generalize Real.sqrt (1 - E * S ^ 2) = D at *
  have hN : |Geo.smajAxis / D| ≤ 6400000 := by
    unfold Geo.smajAxis
    rw [abs_of_nonneg (by positivity), div_le_iff₀ (by linarith)]
    linarith
  have na : Near smajAxis Geo.smajAxis 0 := by
    have := lit_near (q := 6378137) (by norm_num)
    unfold smajAxis Geo.smajAxis
    simpa using this
  obtain ⟨N, e12, n12⟩ := na.div n11 (Q := 6400000) (S := 9966 / 10000) (g := 31 / 10 ^ 10) hN
    (by rw [abs_of_nonneg (by linarith)]; exact hTd) (by norm_num) (by norm_num) (by norm_num)
  generalize Geo.smajAxis / D = M at *
  have hab : ∀ k : ℝ, |k| ≤ 6400000 → |k + val height| ≤ 6400000 + |val height| := by
    intro k hk
    exact (abs_add_le _ _).trans (by linarith)
  have hh0 := abs_nonneg (val height)
  have n13 := n12.add (Near.exact hh) (B := 6400000 + |val height|) (g := 6 / 10 ^ 16 * (6400000 + |val height|))
    (hab _ hN) (by norm_num; linarith) (by norm_num; linarith)
  have hb1 := hab _ hN
  have n14 := n13.mul n5 (R := 6400000 + |val height|) (S := 1) (g := 14 / 10 ^ 16 * (6400000 + |val height|))
    hb1 hC1 (by norm_num; linarith) (by norm_num; linarith)
  have hb2 : |(M + val height) * C| ≤ 6400000 + |val height| := by
    rw [abs_mul]
    calc _ ≤ (6400000 + |val height|) * 1 := mul_le_mul hb1 hC1 (abs_nonneg _) (by linarith)
      _ = _ := mul_one _
  have nx := n14.mul n7 (R := 6400000 + |val height|) (S := 1) (g := 3 / 10 ^ 15 * (6400000 + |val height|))
    hb2 hcl (by norm_num; linarith) (by norm_num; linarith)
  have ny := n14.mul n6 (R := 6400000 + |val height|) (S := 1) (g := 3 / 10 ^ 15 * (6400000 + |val height|))
    hb2 hsl (by norm_num; linarith) (by norm_num; linarith)
  -- the third coordinate
  have hA : val smajAxis = 6378137 := by unfold smajAxis lit; rw [val_fin]; norm_num
  obtain ⟨a2, e15, n15⟩ := square_near hl na.1 (by rw [hA]; norm_num)
  rw [hA] at n15
  have n16 := (lit_near (q := 1) (by norm_num)).sub n3 (B := 1) (g := 12 / 10 ^ 17)
    (by push_cast; rw [abs_of_nonneg (by linarith)]; linarith) (by norm_num) (by norm_num)
  push_cast at n16
  have n17 := n15.mul n16 (R := 6378137 ^ 2) (S := 1) (g := 2 / 100) (by norm_num)
    (by rw [abs_of_nonneg (by linarith)]; linarith) (by norm_num) (by norm_num)
  obtain ⟨q, e18, n18⟩ := n17.div n15 (Q := 1) (S := 6378137 ^ 2) (g := 9 / 10 ^ 16)
    (by rw [mul_div_cancel_left₀ _ (by norm_num), abs_of_nonneg (by linarith)]; linarith)
    (by norm_num) (by norm_num) (by norm_num) (by norm_num)
  rw [mul_div_cancel_left₀ _ (by norm_num)] at n18
  have hq1 : |1 - E| ≤ 1 := by rw [abs_of_nonneg (by linarith)]; linarith
  have n19 := n18.mul n12 (R := 1) (S := 6400000) (g := 96 / 10 ^ 10) hq1 hN (by norm_num) (by norm_num)
  have hqN : |(1 - E) * M| ≤ 6400000 := by
    rw [abs_mul]
    calc _ ≤ 1 * (6400000 : ℝ) := mul_le_mul hq1 hN (abs_nonneg _) (by norm_num)
      _ = _ := by norm_num
  have n20 := n19.add (Near.exact hh) (B := 6400000 + |val height|) (g := 162 / 10 ^ 17 * (6400000 + |val height|))
    (hab _ hqN) (by norm_num; linarith) (by norm_num; linarith)
  have nz := n20.mul n4 (R := 6400000 + |val height|) (S := 1) (g := 3 / 10 ^ 15 * (6400000 + |val height|))
    (hab _ hqN) hS1 (by norm_num; linarith) (by norm_num; linarith)
  refine ⟨_, _, _, _, _, _, ?_, hreal, nx, ny, nz⟩
  unfold llh2ecef
  simp only [e1, e2, e3, e4, e5, e6, e7, e8, e11, e12, e15, e18, bind, Except.bind]
  rfl

/-- C70. `llh2ecef` on the WGS84 ellipsoid never fails, and the point it returns is, in each coordinate to within 3e-15 of
6400 km plus the height (20 nanometres at ground level), the point at that height above the point `Q` of the ellipsoid whose
normal has that latitude and longitude. -/
theorem C70_llh2ecef (lib : Libm) (hl : Accurate lib) (lat lon height : PyFloat) (h1 : OnGlobe lat lon) (hh : Finite height)
    (hb : |val height| ≤ 10 ^ 15) :
    ∃ x y z, llh2ecef lib lat lon height smajAxis flattening = .ok (x, y, z) ∧
    ∃ (Q : EuclideanSpace ℝ (Fin 3)) (k : ℝ), OnEllipsoid Geo.smajAxis (polarAxis Geo.smajAxis Geo.flattening) Q ∧ 0 < k ∧
      ellipsoidNormal Geo.smajAxis (polarAxis Geo.smajAxis Geo.flattening) Q = k • spherePoint (val lat) (val lon) ∧
      Near x (Q 0 + val height * spherePoint (val lat) (val lon) 0) (3 / 10 ^ 15 * (6400000 + |val height|)) ∧
      Near y (Q 1 + val height * spherePoint (val lat) (val lon) 1) (3 / 10 ^ 15 * (6400000 + |val height|)) ∧
      Near z (Q 2 + val height * spherePoint (val lat) (val lon) 2) (3 / 10 ^ 15 * (6400000 + |val height|)) := by
  obtain ⟨x, y, z, X, Y, Z, e, er, nx, ny, nz⟩ := llh2ecef_near hl h1 hh hb
  obtain ⟨Q, k, hQ, hk, hn, er'⟩ := C43_llh2ecef (val lat) (val lon) (val height) Geo.smajAxis Geo.flattening
    (by unfold Geo.smajAxis; norm_num) (by unfold Geo.flattening; norm_num)
  rw [er'] at er
  obtain ⟨rfl, rfl, rfl⟩ : Q 0 + _ = X ∧ Q 1 + _ = Y ∧ Q 2 + _ = Z := by
    simpa only [Except.ok.injEq, Prod.mk.injEq] using er
  exact ⟨x, y, z, e, Q, k, hQ, hk, hn, nx, ny, nz⟩

end Nmea.GeoF
