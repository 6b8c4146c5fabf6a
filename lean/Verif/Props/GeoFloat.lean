import Verif.Lemmas.GeoFloat
import Verif.Props.Geo
/-!
# The geodesy helpers in floating point (C70)
-/
namespace Nmea.GeoF
open Py PyFloat Nmea.Geo InnerProductGeometry

/-- Coordinates on the globe: floats with latitude in [-90, 90] and longitude in [-180, 180]. -/
def OnGlobe (lat lon : PyFloat) : Prop := Finite lat ∧ |val lat| ≤ 90 ∧ Finite lon ∧ |val lon| ≤ 180

/-- The angle between two points, seen from the centre. -/
noncomputable def separation (lat1 lon1 lat2 lon2 : PyFloat) : ℝ :=
  angle (spherePoint (val lat1) (val lon1)) (spherePoint (val lat2) (val lon2))

/-- The cosine of the separation as `haversine` computes it. -/
noncomputable def cosSep (lat1 lon1 lat2 lon2 : ℝ) : ℝ :=
  Real.cos (toRad lat2 - toRad lat1) - Real.cos (toRad lat1) * Real.cos (toRad lat2) * (1 - Real.cos (toRad lon2 - toRad lon1))

theorem cosSep_range (lat1 lon1 lat2 lon2 : ℝ) : -1 ≤ cosSep lat1 lon1 lat2 lon2 ∧ cosSep lat1 lon1 lat2 lon2 ≤ 1 ∧
    Real.arccos (cosSep lat1 lon1 lat2 lon2) = angle (spherePoint lat1 lon1) (spherePoint lat2 lon2) := by
  have h := C42_haversine lat1 lon1 lat2 lon2 1
  have hr : ∀ c, Geo.rad c = toRad c := by intro c; unfold Geo.rad toRad; ring
  unfold Geo.haversine Geo.acos at h
  simp only [hr] at h
  change (if -1 ≤ cosSep lat1 lon1 lat2 lon2 ∧ cosSep lat1 lon1 lat2 lon2 ≤ 1 then Except.ok (Real.arccos _) else _ : Except Err ℝ) >>= _ = _ at h
  split at h
  · rename_i hc
    refine ⟨hc.1, hc.2, ?_⟩
    have := Except.ok.inj h
    unfold cosSep
    simpa using this
  · cases h

theorem haversine_arg {lib : Libm} (hl : Accurate lib) {lat1 lon1 lat2 lon2 : PyFloat} (radius : PyFloat) (h1 : OnGlobe lat1 lon1)
    (h2 : OnGlobe lat2 lon2) : ∃ u, Near u (cosSep (val lat1) (val lon1) (val lat2) (val lon2)) (8 / 10 ^ 15) ∧
      haversine lib lat1 lon1 lat2 lon2 radius = (math1 lib.acos u).map radius.mul := by
  obtain ⟨a1, b1, c1, d1⟩ := h1
  obtain ⟨a2, b2, c2, d2⟩ := h2
  obtain ⟨p1, e1, n1⟩ := rad_near a1 (by norm_num) (by norm_num) b1
  obtain ⟨p2, e2, n2⟩ := rad_near a2 (by norm_num) (by norm_num) b2
  obtain ⟨l1, e3, n3⟩ := rad_near c1 (by norm_num) (by norm_num) d1
  obtain ⟨l2, e4, n4⟩ := rad_near c2 (by norm_num) (by norm_num) d2
  have t1 := toRad_le b1
  have t2 := toRad_le b2
  have t3 := toRad_le d1
  have t4 := toRad_le d2
  have m1 := n2.sub n1 (B := 315 / 100) (g := 126 / 10 ^ 17) ((abs_sub _ _).trans (by linarith)) (by norm_num) (by norm_num)
  obtain ⟨cd, e5, n5, -⟩ := m1.cos hl ((abs_sub _ _).trans (by linarith) : |_| ≤ (315 / 100 : ℝ)) (by norm_num)
  obtain ⟨k1, e6, n6, -⟩ := n1.cos hl t1 (by norm_num)
  obtain ⟨k2, e7, n7, -⟩ := n2.cos hl t2 (by norm_num)
  have m2 := n4.sub n3 (B := 63 / 10) (g := 251 / 10 ^ 17) ((abs_sub _ _).trans (by linarith)) (by norm_num) (by norm_num)
  obtain ⟨cl, e8, n8, -⟩ := m2.cos hl ((abs_sub _ _).trans (by linarith) : |_| ≤ (63 / 10 : ℝ)) (by norm_num)
  have m3 := n6.mul n7 (R := 1) (S := 1) (g := 146 / 10 ^ 17) (Real.abs_cos_le_one _) (Real.abs_cos_le_one _) (by norm_num) (by norm_num)
  have m4 := (lit_near (q := 1) (by norm_num)).sub n8 (B := 2) (g := 296 / 10 ^ 17)
    (by push_cast; rw [abs_le]; constructor <;> linarith [Real.cos_le_one (toRad (val lon2) - toRad (val lon1)), Real.neg_one_le_cos (toRad (val lon2) - toRad (val lon1))])
    (by norm_num) (by norm_num)
  have m5 := m3.mul m4 (R := 1) (S := 2) (g := 62 / 10 ^ 16)
    (by rw [abs_mul]; exact mul_le_one₀ (Real.abs_cos_le_one _) (abs_nonneg _) (Real.abs_cos_le_one _))
    (by push_cast; rw [abs_le]; constructor <;> linarith [Real.cos_le_one (toRad (val lon2) - toRad (val lon1)), Real.neg_one_le_cos (toRad (val lon2) - toRad (val lon1))])
    (by norm_num) (by norm_num)
  have hr := cosSep_range (val lat1) (val lon1) (val lat2) (val lon2)
  have m6 := n5.sub m5 (B := 1) (g := 8 / 10 ^ 15)
    (by
      have := abs_le.2 ⟨hr.1, hr.2.1⟩
      unfold cosSep at this
      push_cast
      exact this) (by norm_num) (by norm_num)
  refine ⟨_, by unfold cosSep; push_cast at m6; exact m6, ?_⟩
  unfold haversine
  simp only [e1, e2, e3, e4, bind, Except.bind, e5, e6, e7, e8]
  cases math1 lib.acos _ <;> rfl

theorem gap_small : (8 : ℝ) / 10 ^ 15 ≤ 2 * ((205 / 10 ^ 9) / Real.pi) ^ 2 := by
  have h1 : (205 / 10 ^ 9 : ℝ) / (31416 / 10000) ≤ (205 / 10 ^ 9) / Real.pi := by
    apply div_le_div_of_nonneg_left (by norm_num) Real.pi_pos
    have := Real.pi_lt_d4; norm_num at this ⊢; linarith
  have h2 := pow_le_pow_left₀ (by norm_num) h1 2
  refine le_trans ?_ (mul_le_mul_of_nonneg_left h2 (by norm_num))
  norm_num

/-- C70. With floats and any accurate libm, `haversine` is the great-circle distance to within 2.1e-7 of the
radius (1.4 m on the Earth), and to within 1.1e-9 of the radius (7 mm) for points at least 7.8e-6 radians
(50 m) apart from each other and from being antipodal. It can fail - `ValueError` from `acos` - only for points
within 2.1e-7 radians of each other or of being antipodal. -/
theorem C70_haversine (lib : Libm) (hl : Accurate lib) (lat1 lon1 lat2 lon2 radius : PyFloat) (h1 : OnGlobe lat1 lon1)
    (h2 : OnGlobe lat2 lon2) (hr : Finite radius) (hr1 : 1 ≤ val radius) (hr2 : val radius ≤ 10 ^ 9) :
    (haversine lib lat1 lon1 lat2 lon2 radius = .error .value ∧
      (separation lat1 lon1 lat2 lon2 ≤ 21 / 10 ^ 8 ∨ Real.pi - 21 / 10 ^ 8 ≤ separation lat1 lon1 lat2 lon2)) ∨
    ∃ d, haversine lib lat1 lon1 lat2 lon2 radius = .ok d ∧
      Near d (val radius * separation lat1 lon1 lat2 lon2) (val radius * (21 / 10 ^ 8)) ∧
      (78 / 10 ^ 7 ≤ separation lat1 lon1 lat2 lon2 → separation lat1 lon1 lat2 lon2 ≤ Real.pi - 78 / 10 ^ 7 →
        Near d (val radius * separation lat1 lon1 lat2 lon2) (val radius * (11 / 10 ^ 10))) := by
  obtain ⟨u, hu, he⟩ := haversine_arg hl radius h1 h2
  obtain ⟨c1, c2, c3⟩ := cosSep_range (val lat1) (val lon1) (val lat2) (val lon2)
  have hsep : separation lat1 lon1 lat2 lon2 = Real.arccos (cosSep (val lat1) (val lon1) (val lat2) (val lon2)) := c3.symm
  rw [hsep, he]
  generalize cosSep (val lat1) (val lon1) (val lat2) (val lon2) = U at hu c1 c2
  by_cases hd : |val u| ≤ 1
  · right
    obtain ⟨ha, hb⟩ := abs_le.1 hd
    have hac := hl.acos u hu.1 hd
    refine ⟨_, by rw [math1_fin hac.1]; rfl, ?_⟩
    have hgap := arccos_gap ha hb c1 c2 (by norm_num) (hu.2.trans gap_small)
    have hpi : |Real.arccos U| ≤ 315 / 100 := by
      rw [abs_of_nonneg (Real.arccos_nonneg _)]
      exact (Real.arccos_le_pi _).trans ((le_abs_self _).trans abs_pi_le)
    have habs : |val radius| = val radius := abs_of_nonneg (by linarith)
    have hmul : ∀ e g : ℝ, Near (lib.acos u) (Real.arccos U) e → e ≤ 1 →
        val radius * e + val radius * (4 / 10 ^ 16) + val radius * (e * (2 / 10 ^ 16)) + 1 / 10 ^ 70 ≤ g →
        Near (radius.mul (lib.acos u)) (val radius * Real.arccos U) g := by
      intro e g hn h1e hg
      have he0 : 0 ≤ e := (abs_nonneg _).trans hn.2
      have hRe : 0 ≤ val radius * e := by positivity
      refine (Near.exact hr).mul hn habs.le hpi ?_ ?_
      · refine le_trans ?_ hg
        norm_num
        nlinarith
      · have : val radius * e ≤ 10 ^ 9 * 1 := mul_le_mul hr2 h1e he0 (by norm_num)
        norm_num
        nlinarith
    constructor
    · have hn : Near (lib.acos u) (Real.arccos U) (206 / 10 ^ 9) := by
        refine ⟨hac.1, ?_⟩
        have := abs_sub_le (val (lib.acos u)) (Real.arccos (val u)) (Real.arccos U)
        have := hac.2
        norm_num at *
        linarith
      refine hmul _ _ hn (by norm_num) ?_
      norm_num
      nlinarith
    · intro hlo hhi
      have hsteep : |Real.arccos (val u) - Real.arccos U| ≤ 107 / 10 ^ 11 := by
        have key : ∀ x y : ℝ, x ≤ y → y - x ≤ 205 / 10 ^ 9 → 76 / 10 ^ 7 ≤ (x + y) / 2 → (x + y) / 2 ≤ Real.pi - 76 / 10 ^ 7 →
            Real.cos x - Real.cos y ≤ 8 / 10 ^ 15 → y - x ≤ 107 / 10 ^ 11 := by
          intro x y hxy hd h1 h2 h3
          have := cos_steep (θ := 76 / 10 ^ 7) (by norm_num) (by norm_num) hxy (by norm_num at *; linarith) h1 h2
          norm_num at *
          linarith
        have hc1 := Real.cos_arccos ha hb
        have hc2 := Real.cos_arccos c1 c2
        have hg1 := abs_le.1 hgap
        have hu1 := abs_le.1 hu.2
        rcases le_total (Real.arccos (val u)) (Real.arccos U) with hle | hle
        · have := key _ _ hle (by linarith) (by norm_num at *; linarith) (by norm_num at *; linarith) (by linarith)
          rw [abs_sub_comm, abs_of_nonneg (by linarith)]
          exact this
        · have := key _ _ hle (by linarith) (by norm_num at *; linarith) (by norm_num at *; linarith) (by linarith)
          rw [abs_of_nonneg (by linarith)]
          exact this
      have hn : Near (lib.acos u) (Real.arccos U) (108 / 10 ^ 11) := by
        refine ⟨hac.1, ?_⟩
        have := abs_sub_le (val (lib.acos u)) (Real.arccos (val u)) (Real.arccos U)
        have := hac.2
        norm_num at *
        linarith
      refine hmul _ _ hn (by norm_num) ?_
      norm_num
      nlinarith
  · left
    have hd' := not_le.1 hd
    refine ⟨by rw [math1_nan hu.1 (hl.acos_domain u hu.1 hd')]; rfl, ?_⟩
    have hu1 := abs_le.1 hu.2
    rcases lt_abs.1 hd' with hd' | hd'
    · left
      have := arccos_gap c1 c2 (b := 1) (by norm_num) (by norm_num) (d := 205 / 10 ^ 9) (by norm_num)
        (le_trans (by rw [abs_sub_comm, abs_of_nonneg (by linarith)]; linarith) gap_small)
      rw [Real.arccos_one, sub_zero] at this
      have := le_abs_self (Real.arccos U)
      norm_num at *
      linarith
    · right
      have := arccos_gap c1 c2 (b := -1) (by norm_num) (by norm_num) (d := 205 / 10 ^ 9) (by norm_num)
        (le_trans (by rw [abs_of_nonneg (by linarith)]; linarith) gap_small)
      rw [Real.arccos_neg_one] at this
      have := abs_le.1 this
      norm_num at *
      linarith

theorem sub_self_zero {x : PyFloat} (h : Finite x) : x.sub x = .fin false 0 := by
  obtain ⟨s, a, rfl, ha⟩ := h.cases
  show (if toRat (.fin s a) + toRat (.fin (!s) a) = 0 then _ else _) = _
  have : toRat (.fin s a) + toRat (.fin (!s) a) = 0 := by cases s <;> simp [toRat]
  rw [if_pos this]
  cases s <;> rfl

/-- C70. The distance of a point from itself is exactly zero. -/
theorem C70_haversine_same (lib : Libm) (hl : Accurate lib) (lat lon radius : PyFloat) (h : OnGlobe lat lon)
    (hr : Finite radius) : ∃ d, haversine lib lat lon lat lon radius = .ok d ∧ Finite d ∧ val d = 0 := by
  obtain ⟨a1, b1, c1, d1⟩ := h
  obtain ⟨p1, e1, n1⟩ := rad_near a1 (by norm_num) (by norm_num) b1
  obtain ⟨l1, e3, n3⟩ := rad_near c1 (by norm_num) (by norm_num) d1
  have z : Finite (.fin false 0) := le_refl _
  have z0 : val (.fin false 0) = 0 := by simp [val_fin]
  have hc : math1 lib.cos (.fin false 0) = .ok (.fin false 1) := by
    have := hl.cos_zero _ z z0
    have hf : Finite (lib.cos (.fin false 0)) := by rw [this]; exact zero_le_one
    rw [math1_fin hf, this]
  obtain ⟨k, e6, n6, -⟩ := n1.cos hl (toRad_le b1) (by norm_num)
  have h0 : (lit 1).sub (.fin false 1) = .fin false 0 := by decide +kernel
  have hm : ∀ x, Finite x → ∃ s, x.mul (.fin false 0) = .fin s 0 := by
    intro x hx
    obtain ⟨s, a, rfl, ha⟩ := hx.cases
    refine ⟨s, ?_⟩
    show ofMag (s != false) (a * 0) = _
    rw [mul_zero]
    cases s <;> decide +kernel
  have h1 : ∀ s, (PyFloat.fin false 1).sub (.fin s 0) = .fin false 1 := by decide +kernel
  have hkk : Finite (k.mul k) := (mul_near' n6.1 n6.1 (by
    have : |val k| ≤ 1 + _ := n6.bound (Real.abs_cos_le_one _)
    rw [abs_mul]
    have h2 := mul_le_mul this this (abs_nonneg _) (by norm_num)
    refine h2.trans (by norm_num))).1
  obtain ⟨s, hs⟩ := hm _ hkk
  have hac : math1 lib.acos (.fin false 1) = .ok (.fin false 0) := by
    have hf : Finite (lib.acos (.fin false 1)) := by rw [hl.acos_one]; exact z
    rw [math1_fin hf, hl.acos_one]
  obtain ⟨t, ht⟩ := hm _ hr
  refine ⟨.fin t 0, ?_, le_refl _, by simp [val_fin]⟩
  unfold haversine
  simp only [e1, e3, bind, Except.bind, sub_self_zero n1.1, sub_self_zero n3.1, hc, e6, h0, hs, h1, hac]
  exact congrArg Except.ok ht

/-- C70. The same for `haversine` with its default radius, in kilometres: within 1.4 m, and within a
centimetre for points that are at least 50 m apart (and 50 m from being antipodal). -/
theorem C70_haversine_earth (lib : Libm) (hl : Accurate lib) (lat1 lon1 lat2 lon2 : PyFloat) (h1 : OnGlobe lat1 lon1)
    (h2 : OnGlobe lat2 lon2) (hd : 50 / 1000 ≤ 6378.137 * separation lat1 lon1 lat2 lon2)
    (hd' : 6378.137 * separation lat1 lon1 lat2 lon2 ≤ 6378.137 * Real.pi - 50 / 1000) :
    ∃ d, haversine lib lat1 lon1 lat2 lon2 kmRadius = .ok d ∧ Near d (6378.137 * separation lat1 lon1 lat2 lon2) (1 / 10 ^ 5) := by
  have hk : Near kmRadius 6378.137 (1 / 10 ^ 12) := by
    have := ofMag_near false (q := 6378137 / 1000) (by norm_num) (by norm_num)
    refine ⟨this.1, this.2.trans' ?_ |>.trans ?_⟩
    · unfold kmRadius; norm_num
    · norm_num
  have hv := abs_le.1 hk.2
  have hs0 : 0 ≤ separation lat1 lon1 lat2 lon2 := angle_nonneg _ _
  have hsp : separation lat1 lon1 lat2 lon2 ≤ Real.pi := angle_le_pi _ _
  have hpi := Real.pi_lt_d2
  rcases C70_haversine lib hl lat1 lon1 lat2 lon2 kmRadius h1 h2 hk.1 (by norm_num at *; linarith) (by norm_num at *; linarith) with
    ⟨_, h | h⟩ | ⟨d, hd1, _, hd3⟩
  · norm_num at *; linarith
  · norm_num at *; linarith
  · refine ⟨d, hd1, ?_⟩
    have := hd3 (by norm_num at *; linarith) (by norm_num at *; linarith)
    refine ⟨this.1, ?_⟩
    have h3 := abs_sub_le (val d) (val kmRadius * separation lat1 lon1 lat2 lon2) (6378.137 * separation lat1 lon1 lat2 lon2)
    have h4 : |val kmRadius * separation lat1 lon1 lat2 lon2 - 6378.137 * separation lat1 lon1 lat2 lon2| ≤ 1 / 10 ^ 12 * 3.15 := by
      rw [← sub_mul, abs_mul, abs_of_nonneg hs0]
      exact mul_le_mul hk.2 (by linarith) hs0 (by norm_num)
    have h5 := this.2
    norm_num at *
    linarith

/-! ## Bearing -/

/-- East and north components of the direction to the second point, as `bearing` computes them. -/
noncomputable def eastPart (lon1 lat2 lon2 : ℝ) : ℝ := Real.sin (toRad lon2 - toRad lon1) * Real.cos (toRad lat2)

noncomputable def northPart (lat1 lon1 lat2 lon2 : ℝ) : ℝ :=
  Real.cos (toRad lat1) * Real.sin (toRad lat2) -
    Real.sin (toRad lat1) * Real.cos (toRad lat2) * Real.cos (toRad lon2 - toRad lon1)

theorem parts_sq (lat1 lon1 lat2 lon2 : ℝ) :
    northPart lat1 lon1 lat2 lon2 ^ 2 + eastPart lon1 lat2 lon2 ^ 2 + cosSep lat1 lon1 lat2 lon2 ^ 2 = 1 := by
  unfold northPart eastPart cosSep
  rw [Real.cos_sub (toRad lat2) (toRad lat1)]
  have h1 := Real.sin_sq_add_cos_sq (toRad lat1)
  have h2 := Real.sin_sq_add_cos_sq (toRad lat2)
  have h3 := Real.sin_sq_add_cos_sq (toRad lon2 - toRad lon1)
  generalize Real.sin (toRad lat1) = a at *
  generalize Real.cos (toRad lat1) = b at *
  generalize Real.sin (toRad lat2) = c at *
  generalize Real.cos (toRad lat2) = d at *
  generalize Real.sin (toRad lon2 - toRad lon1) = e at *
  generalize Real.cos (toRad lon2 - toRad lon1) = f at *
  have ha : a ^ 2 = 1 - b ^ 2 := by linarith
  have hc : c ^ 2 = 1 - d ^ 2 := by linarith
  have he : e ^ 2 = 1 - f ^ 2 := by linarith
  linear_combination (c ^ 2 + d ^ 2 * f ^ 2) * h1 + h2 + d ^ 2 * h3

theorem bearing_parts {lib : Libm} (hl : Accurate lib) {lat1 lon1 lat2 lon2 : PyFloat} (h1 : OnGlobe lat1 lon1)
    (h2 : OnGlobe lat2 lon2) : ∃ y x, Near y (eastPart (val lon1) (val lat2) (val lon2)) (4 / 10 ^ 15) ∧
      Near x (northPart (val lat1) (val lon1) (val lat2) (val lon2)) (7 / 10 ^ 15) ∧
      bearing lib lat1 lon1 lat2 lon2 =
        (((lib.atan2 y x).mul (lit 180)).div pi).map (fun q => pmod (q.add (lit 360)) 360) := by
  obtain ⟨a1, b1, c1, d1⟩ := h1
  obtain ⟨a2, b2, c2, d2⟩ := h2
  obtain ⟨p1, e1, n1⟩ := rad_near a1 (by norm_num) (by norm_num) b1
  obtain ⟨p2, e2, n2⟩ := rad_near a2 (by norm_num) (by norm_num) b2
  obtain ⟨l1, e3, n3⟩ := rad_near c1 (by norm_num) (by norm_num) d1
  obtain ⟨l2, e4, n4⟩ := rad_near c2 (by norm_num) (by norm_num) d2
  have t1 := toRad_le b1
  have t2 := toRad_le b2
  have t3 := toRad_le d1
  have t4 := toRad_le d2
  have m2 := n4.sub n3 (B := 63 / 10) (g := 251 / 10 ^ 17) ((abs_sub _ _).trans (by linarith)) (by norm_num) (by norm_num)
  have hd : |toRad (val lon2) - toRad (val lon1)| ≤ 63 / 10 := (abs_sub _ _).trans (by linarith)
  obtain ⟨sd, e5, n5, -⟩ := m2.sin hl hd (by norm_num)
  obtain ⟨k2, e6, n6, -⟩ := n2.cos hl t2 (by norm_num)
  obtain ⟨k1, e7, n7, -⟩ := n1.cos hl t1 (by norm_num)
  obtain ⟨s2, e8, n8, -⟩ := n2.sin hl t2 (by norm_num)
  obtain ⟨s1, e9, n9, -⟩ := n1.sin hl t1 (by norm_num)
  obtain ⟨cd, e10, n10, -⟩ := m2.cos hl hd (by norm_num)
  have my := n5.mul n6 (R := 1) (S := 1) (g := 4 / 10 ^ 15) (Real.abs_sin_le_one _) (Real.abs_cos_le_one _) (by norm_num) (by norm_num)
  have w1 := n7.mul n8 (R := 1) (S := 1) (g := 146 / 10 ^ 17) (Real.abs_cos_le_one _) (Real.abs_sin_le_one _) (by norm_num) (by norm_num)
  have w2 := n9.mul n6 (R := 1) (S := 1) (g := 146 / 10 ^ 17) (Real.abs_sin_le_one _) (Real.abs_cos_le_one _) (by norm_num) (by norm_num)
  have w3 := w2.mul n10 (R := 1) (S := 1) (g := 44 / 10 ^ 16)
    (by rw [abs_mul]; exact mul_le_one₀ (Real.abs_sin_le_one _) (abs_nonneg _) (Real.abs_cos_le_one _))
    (Real.abs_cos_le_one _) (by norm_num) (by norm_num)
  have hx : |northPart (val lat1) (val lon1) (val lat2) (val lon2)| ≤ 1 := by
    rw [← sq_le_one_iff_abs_le_one]
    nlinarith [parts_sq (val lat1) (val lon1) (val lat2) (val lon2), sq_nonneg (eastPart (val lon1) (val lat2) (val lon2)),
      sq_nonneg (cosSep (val lat1) (val lon1) (val lat2) (val lon2))]
  have mx := w1.sub w3 (B := 1) (g := 7 / 10 ^ 15) hx (by norm_num) (by norm_num)
  refine ⟨_, _, my, mx, ?_⟩
  unfold bearing
  simp only [e1, e2, e3, e4, bind, Except.bind, e5, e6, e7, e8, e9, e10]
  cases PyFloat.div _ _ <;> rfl

theorem pmod_range {x : PyFloat} (hf : Finite x) (h0 : 0 < val x) :
    Finite (pmod x 360) ∧ 0 ≤ val (pmod x 360) ∧ val (pmod x 360) < 360 ∧ ∃ k : ℤ, val (pmod x 360) = val x - 360 * k := by
  obtain ⟨s, m, rfl, hm⟩ := hf.cases
  have hs : s = false := by
    cases s
    · rfl
    · simp only [val_fin, if_true] at h0
      have : (0 : ℝ) ≤ m := by exact_mod_cast hm
      linarith
  subst hs
  have hfl : (m / 360).floor = ⌊m / 360⌋ := ratFloor _
  have e1 : 0 ≤ m - 360 * (⌊m / 360⌋ : ℚ) := by
    have := Int.floor_le (m / 360)
    rw [le_div_iff₀ (by norm_num)] at this
    linarith
  have e2 : m - 360 * (⌊m / 360⌋ : ℚ) < 360 := by
    have := Int.lt_floor_add_one (m / 360)
    rw [div_lt_iff₀ (by norm_num)] at this
    linarith
  have hv : pmod (.fin false m) 360 = .fin false (m - 360 * (⌊m / 360⌋ : ℚ)) := by
    unfold pmod
    simp only [hfl]
    split
    · rename_i h; rw [h]
    · rfl
  rw [hv]
  refine ⟨e1, ?_, ?_, ⌊m / 360⌋, ?_⟩
  · rw [val_fin, if_neg (by simp)]; exact_mod_cast e1
  · rw [val_fin, if_neg (by simp)]; exact_mod_cast e2
  · simp only [val_fin]; push_cast; simp

theorem bearing_value {lib : Libm} (hl : Accurate lib) {lat1 lon1 lat2 lon2 : PyFloat} (h1 : OnGlobe lat1 lon1)
    (h2 : OnGlobe lat2 lon2) : ∃ y x b α, Near y (eastPart (val lon1) (val lat2) (val lon2)) (4 / 10 ^ 15) ∧
      Near x (northPart (val lat1) (val lon1) (val lat2) (val lon2)) (7 / 10 ^ 15) ∧
      val x = Real.sqrt (val x ^ 2 + val y ^ 2) * Real.cos α ∧ val y = Real.sqrt (val x ^ 2 + val y ^ 2) * Real.sin α ∧
      bearing lib lat1 lon1 lat2 lon2 = .ok b ∧ Finite b ∧ 0 ≤ val b ∧ val b < 360 ∧
      ∃ k : ℤ, |toRad (val b) - α - 2 * Real.pi * k| ≤ 1 / 10 ^ 14 := by
  obtain ⟨y, x, hy, hx, hb⟩ := bearing_parts hl h1 h2
  obtain ⟨α, ha1, ha2, hn, hc, hs⟩ := hl.atan2 y x hy.1 hx.1
  have hpi := abs_pi_le
  have hα : |α| ≤ 315 / 100 := abs_le.2 ⟨by linarith [le_abs_self Real.pi], by linarith [le_abs_self Real.pi]⟩
  have m1 := hn.mul (lit_near (q := 180) (by norm_num)) (R := 315 / 100) (S := 180) (g := 15 / 10 ^ 14) hα (by norm_num) (by norm_num) (by norm_num)
  have hpi3 : (3 : ℝ) ≤ |Real.pi| := by rw [abs_of_pos Real.pi_pos]; exact Real.pi_gt_three.le
  have hq : α * ((180 : ℚ) : ℝ) / Real.pi = α * 180 / Real.pi := by push_cast; rfl
  have hQ : |α * 180 / Real.pi| ≤ 180 := by
    rw [abs_div, abs_mul, abs_of_pos (by norm_num : (0 : ℝ) < 180), abs_of_pos Real.pi_pos, div_le_iff₀ Real.pi_pos]
    have : |α| ≤ Real.pi := abs_le.2 ⟨ha1, ha2⟩
    linarith
  obtain ⟨q, e1, m2⟩ := m1.div pi_near (Q := 180) (S := 3) (g := 8 / 10 ^ 14) (by rw [hq]; exact hQ) hpi3 (by norm_num) (by norm_num) (by norm_num)
  rw [hq] at m2
  have m3 := m2.add (lit_near (q := 360) (by norm_num)) (B := 540) (g := 15 / 10 ^ 14)
    (by push_cast; exact (abs_add_le _ _).trans (by norm_num; linarith)) (by norm_num) (by norm_num)
  have hv := abs_le.1 m3.2
  have hQ' := abs_le.1 hQ
  have hpos : 0 < val (q.add (lit 360)) := by push_cast at hv; norm_num at *; linarith
  obtain ⟨r1, r2, r3, k, r4⟩ := pmod_range m3.1 hpos
  refine ⟨y, x, _, α, hy, hx, hc, hs, by rw [hb, e1]; rfl, r1, r2, r3, 1 - k, ?_⟩
  have e : toRad (val (pmod (q.add (lit 360)) 360)) - α - 2 * Real.pi * ((1 - k : ℤ) : ℝ) =
      Real.pi / 180 * (val (q.add (lit 360)) - (α * 180 / Real.pi + 360)) := by
    rw [r4]; unfold toRad; push_cast; field_simp; ring
  rw [e, abs_mul, abs_of_pos (by positivity)]
  have h5 : |val (q.add (lit 360)) - (α * 180 / Real.pi + 360)| ≤ 15 / 10 ^ 14 := by
    have := m3.2; push_cast at this; exact this
  have h6 : Real.pi / 180 ≤ 1 / 50 := by have := Real.pi_lt_d2; norm_num at this ⊢; linarith
  exact (mul_le_mul h6 h5 (abs_nonneg _) (by norm_num)).trans (by norm_num)

/-- C70. `bearing` never fails, and is at least zero and less than 360. -/
theorem C70_bearing_range (lib : Libm) (hl : Accurate lib) (lat1 lon1 lat2 lon2 : PyFloat) (h1 : OnGlobe lat1 lon1)
    (h2 : OnGlobe lat2 lon2) : ∃ b, bearing lib lat1 lon1 lat2 lon2 = .ok b ∧ Finite b ∧ 0 ≤ val b ∧ val b < 360 := by
  obtain ⟨_, _, b, _, _, _, _, _, hb, hf, h0, h3, _⟩ := bearing_value hl h1 h2
  exact ⟨b, hb, hf, h0, h3⟩

/-- Two vectors in polar coordinates that differ by little have nearly the same direction. -/
theorem polar_close {ρ σ α β E : ℝ} (hσ : 0 ≤ σ) (hE : 2 * E < ρ)
    (hx : |σ * Real.cos α - ρ * Real.cos β| ≤ E) (hy : |σ * Real.sin α - ρ * Real.sin β| ≤ E) :
    ∃ k : ℤ, |α - β - 2 * Real.pi * k| ≤ Real.pi / 2 * (2 * E / (ρ - 2 * E)) := by
  have hpi := Real.pi_pos
  refine ⟨round ((α - β) / (2 * Real.pi)), ?_⟩
  set k : ℤ := round ((α - β) / (2 * Real.pi)) with hk
  set δ := α - β - 2 * Real.pi * k with hδ
  have hδpi : |δ| ≤ Real.pi := by
    have := abs_sub_round ((α - β) / (2 * Real.pi))
    rw [← hk] at this
    have e : δ = 2 * Real.pi * ((α - β) / (2 * Real.pi) - k) := by rw [hδ]; field_simp
    rw [e, abs_mul, abs_of_pos (by positivity)]
    nlinarith
  have hcos : Real.cos δ = Real.cos (α - β) := by
    rw [hδ, show 2 * Real.pi * (k : ℝ) = k * (2 * Real.pi) by ring, Real.cos_sub_int_mul_two_pi]
  have hsin : Real.sin δ = Real.sin (α - β) := by
    rw [hδ, show 2 * Real.pi * (k : ℝ) = k * (2 * Real.pi) by ring, Real.sin_sub_int_mul_two_pi]
  have h1 := Real.sin_sq_add_cos_sq β
  have d1 : σ * Real.cos δ - ρ = (σ * Real.cos α - ρ * Real.cos β) * Real.cos β + (σ * Real.sin α - ρ * Real.sin β) * Real.sin β := by
    rw [hcos, Real.cos_sub]; linear_combination ρ * h1
  have d2 : σ * Real.sin δ = (σ * Real.sin α - ρ * Real.sin β) * Real.cos β - (σ * Real.cos α - ρ * Real.cos β) * Real.sin β := by
    rw [hsin, Real.sin_sub]; ring
  have b1 : ∀ a c : ℝ, |a| ≤ E → |c| ≤ 1 → |a * c| ≤ E := by
    intro a c ha hc
    rw [abs_mul]
    calc |a| * |c| ≤ E * 1 := mul_le_mul ha hc (abs_nonneg _) ((abs_nonneg _).trans ha)
      _ = E := mul_one E
  have g1 : |σ * Real.cos δ - ρ| ≤ 2 * E := by
    rw [d1]
    have := abs_add_le ((σ * Real.cos α - ρ * Real.cos β) * Real.cos β) ((σ * Real.sin α - ρ * Real.sin β) * Real.sin β)
    linarith [b1 _ _ hx (Real.abs_cos_le_one β), b1 _ _ hy (Real.abs_sin_le_one β)]
  have g2 : |σ * Real.sin δ| ≤ 2 * E := by
    rw [d2]
    have := abs_sub ((σ * Real.sin α - ρ * Real.sin β) * Real.cos β) ((σ * Real.cos α - ρ * Real.cos β) * Real.sin β)
    linarith [b1 _ _ hy (Real.abs_cos_le_one β), b1 _ _ hx (Real.abs_sin_le_one β)]
  have g3 : ρ - 2 * E ≤ σ * Real.cos δ := by have := abs_le.1 g1; linarith
  have g4 : ρ - 2 * E ≤ σ := g3.trans (by
    calc σ * Real.cos δ ≤ σ * 1 := mul_le_mul_of_nonneg_left (Real.cos_le_one _) hσ
      _ = σ := mul_one σ)
  have hσ0 : 0 < σ := by linarith
  have hc : 0 < Real.cos δ := by
    by_contra hn
    have := mul_nonpos_of_nonneg_of_nonpos hσ (not_lt.1 hn)
    linarith
  have hhalf : |δ| ≤ Real.pi / 2 := by
    by_contra hn
    have := Real.cos_nonpos_of_pi_div_two_le_of_le (not_le.1 hn).le (by linarith)
    rw [Real.cos_abs] at this
    linarith
  have hs : |Real.sin δ| ≤ 2 * E / (ρ - 2 * E) := by
    rw [abs_mul, abs_of_pos hσ0] at g2
    rw [le_div_iff₀ (by linarith)]
    calc |Real.sin δ| * (ρ - 2 * E) ≤ |Real.sin δ| * σ := mul_le_mul_of_nonneg_left g4 (abs_nonneg _)
      _ ≤ 2 * E := by linarith
  have hms := Real.mul_le_sin (abs_nonneg δ) hhalf
  have habs : Real.sin |δ| ≤ |Real.sin δ| := by
    rcases le_total 0 δ with h | h
    · rw [abs_of_nonneg h]; exact le_abs_self _
    · rw [abs_of_nonpos h, Real.sin_neg]; exact neg_le_abs _
  have : |δ| = Real.pi / 2 * (2 / Real.pi * |δ|) := by field_simp
  rw [this]
  exact mul_le_mul_of_nonneg_left (hms.trans (habs.trans hs)) (by positivity)

/-- The direction computed by `bearing` over the reals, in radians. -/
theorem bearing_real (lat1 lon1 lat2 lon2 : ℝ) :
    northPart lat1 lon1 lat2 lon2 = Real.sqrt (northPart lat1 lon1 lat2 lon2 ^ 2 + eastPart lon1 lat2 lon2 ^ 2) *
      Real.cos (toRad (Geo.bearing lat1 lon1 lat2 lon2)) ∧
    eastPart lon1 lat2 lon2 = Real.sqrt (northPart lat1 lon1 lat2 lon2 ^ 2 + eastPart lon1 lat2 lon2 ^ 2) *
      Real.sin (toRad (Geo.bearing lat1 lon1 lat2 lon2)) := by
  have hr : ∀ c, Geo.rad c = toRad c := by intro c; unfold Geo.rad toRad; ring
  have hb : ∃ k : ℤ, toRad (Geo.bearing lat1 lon1 lat2 lon2) =
      Complex.arg ⟨northPart lat1 lon1 lat2 lon2, eastPart lon1 lat2 lon2⟩ - k * (2 * Real.pi) := by
    unfold Geo.bearing Geo.pmod Geo.atan2
    simp only [hr]
    have key : ∀ θ : ℝ, ∃ k : ℤ, toRad (θ * 180 / Real.pi + 360 - 360 * (⌊(θ * 180 / Real.pi + 360) / 360⌋ : ℝ)) =
        θ - k * (2 * Real.pi) := by
      intro θ
      refine ⟨⌊(θ * 180 / Real.pi + 360) / 360⌋ - 1, ?_⟩
      unfold toRad; push_cast; field_simp; ring
    exact key _
  obtain ⟨k, hk⟩ := hb
  rw [hk, Real.cos_sub_int_mul_two_pi, Real.sin_sub_int_mul_two_pi]
  have e : Real.sqrt (northPart lat1 lon1 lat2 lon2 ^ 2 + eastPart lon1 lat2 lon2 ^ 2) =
      ‖(⟨northPart lat1 lon1 lat2 lon2, eastPart lon1 lat2 lon2⟩ : ℂ)‖ := by
    rw [Complex.norm_def, Complex.normSq_mk]; ring_nf
  rw [e]
  have q1 := Complex.norm_mul_cos_arg (⟨northPart lat1 lon1 lat2 lon2, eastPart lon1 lat2 lon2⟩ : ℂ)
  have q2 := Complex.norm_mul_sin_arg (⟨northPart lat1 lon1 lat2 lon2, eastPart lon1 lat2 lon2⟩ : ℂ)
  exact ⟨q1.symm, q2.symm⟩

/-- C70. `bearing` is the compass direction to within 2e-7 degrees (modulo 360), for points at least 7.8e-6
radians (50 m) apart and from being antipodal. `Geo.bearing` is the exact direction, see `C42_bearing`. -/
theorem C70_bearing (lib : Libm) (hl : Accurate lib) (lat1 lon1 lat2 lon2 : PyFloat) (h1 : OnGlobe lat1 lon1)
    (h2 : OnGlobe lat2 lon2) (hlo : 78 / 10 ^ 7 ≤ separation lat1 lon1 lat2 lon2)
    (hhi : separation lat1 lon1 lat2 lon2 ≤ Real.pi - 78 / 10 ^ 7) :
    ∃ b, bearing lib lat1 lon1 lat2 lon2 = .ok b ∧
      ∃ k : ℤ, |val b - Geo.bearing (val lat1) (val lon1) (val lat2) (val lon2) - 360 * k| ≤ 2 / 10 ^ 7 := by
  obtain ⟨y, x, b, α, hy, hx, hc, hs, hb, _, _, _, k1, hk1⟩ := bearing_value hl h1 h2
  refine ⟨b, hb, ?_⟩
  obtain ⟨r1, r2⟩ := bearing_real (val lat1) (val lon1) (val lat2) (val lon2)
  have hps := parts_sq (val lat1) (val lon1) (val lat2) (val lon2)
  obtain ⟨c1, c2, c3⟩ := cosSep_range (val lat1) (val lon1) (val lat2) (val lon2)
  have hsep : separation lat1 lon1 lat2 lon2 = Real.arccos (cosSep (val lat1) (val lon1) (val lat2) (val lon2)) := c3.symm
  rw [hsep] at hlo hhi
  have hρ : 779 / 10 ^ 8 ≤ Real.sqrt (northPart (val lat1) (val lon1) (val lat2) (val lon2) ^ 2 + eastPart (val lon1) (val lat2) (val lon2) ^ 2) := by
    have e : northPart (val lat1) (val lon1) (val lat2) (val lon2) ^ 2 + eastPart (val lon1) (val lat2) (val lon2) ^ 2 =
        1 - cosSep (val lat1) (val lon1) (val lat2) (val lon2) ^ 2 := by linarith
    rw [e, ← Real.sin_arccos]
    refine le_trans ?_ (sin_mid (t := 78 / 10 ^ 7) (by norm_num) hlo hhi)
    have := Real.sin_gt_sub_cube (x := 78 / 10 ^ 7) (by norm_num)
    norm_num at *
    linarith
  generalize Real.sqrt (northPart (val lat1) (val lon1) (val lat2) (val lon2) ^ 2 + eastPart (val lon1) (val lat2) (val lon2) ^ 2) = ρ at *
  have hx' := hx.2
  have hy' := hy.2
  rw [r1, hc] at hx'
  rw [r2, hs] at hy'
  obtain ⟨k2, hk2⟩ := polar_close (E := 7 / 10 ^ 15) (Real.sqrt_nonneg _) (by norm_num at *; linarith) hx'
    (hy'.trans (by norm_num))
  refine ⟨k1 + k2, ?_⟩
  have hb2 : 2 * (7 / 10 ^ 15 : ℝ) / (ρ - 2 * (7 / 10 ^ 15)) ≤ 18 / 10 ^ 10 := by
    rw [div_le_iff₀ (by norm_num at *; linarith)]
    norm_num at *
    linarith
  have hpi2 : Real.pi / 2 ≤ 158 / 100 := by have := Real.pi_lt_d2; norm_num at this ⊢; linarith
  have h3 : |toRad (val b) - toRad (Geo.bearing (val lat1) (val lon1) (val lat2) (val lon2)) - 2 * Real.pi * (k1 + k2)| ≤ 3 / 10 ^ 9 := by
    have h4 := abs_add_le (toRad (val b) - α - 2 * Real.pi * k1) (α - toRad (Geo.bearing (val lat1) (val lon1) (val lat2) (val lon2)) - 2 * Real.pi * k2)
    have h5 := mul_le_mul hpi2 hb2 (div_nonneg (by norm_num) (by norm_num at *; linarith)) (by norm_num)
    have e : toRad (val b) - toRad (Geo.bearing (val lat1) (val lon1) (val lat2) (val lon2)) - 2 * Real.pi * (k1 + k2) =
      (toRad (val b) - α - 2 * Real.pi * k1) + (α - toRad (Geo.bearing (val lat1) (val lon1) (val lat2) (val lon2)) - 2 * Real.pi * k2) := by ring
    rw [e]
    refine h4.trans ((add_le_add hk1 (hk2.trans h5)).trans ?_)
    norm_num
  have e : val b - Geo.bearing (val lat1) (val lon1) (val lat2) (val lon2) - 360 * ((k1 + k2 : ℤ) : ℝ) =
      180 / Real.pi * (toRad (val b) - toRad (Geo.bearing (val lat1) (val lon1) (val lat2) (val lon2)) - 2 * Real.pi * (k1 + k2)) := by
    unfold toRad; push_cast; field_simp; ring
  rw [e, abs_mul, abs_of_pos (by positivity)]
  have h6 : 180 / Real.pi ≤ 60 := by
    rw [div_le_iff₀ Real.pi_pos]; linarith [Real.pi_gt_three]
  exact (mul_le_mul h6 h3 (abs_nonneg _) (by norm_num)).trans (by norm_num)

end Nmea.GeoF
