import Verif.Lemmas.EcefFront
/-!
# `ecef2llh` in floating point: the Newton step
-/
namespace Nmea.GeoF
open Py PyFloat Nmea.Geo

/-- `c * 180 / pi`. -/
theorem deg_near {t : PyFloat} {T e : ℝ} (h : Near t T e) (hT : |T| ≤ 16 / 5) (he : e ≤ 1 / 10) :
    ∃ d, deg t = .ok d ∧ Near d (T * 180 / Real.pi) (58 * e + 1 / 10 ^ 13) := by
  have he0 : 0 ≤ e := (abs_nonneg _).trans h.2
  have hpi := Real.pi_gt_d20
  have hpi2 : (3.1415 : ℝ) ≤ Real.pi := Real.pi_gt_d4.le
  have n1 := h.mul (lit_near (q := 180) (by norm_num)) (R := 16 / 5) (S := 180) (g := 1801 / 10 * e + 7 / 10 ^ 14) hT (by norm_num)
    (by norm_num; linarith) (by norm_num; linarith)
  push_cast at n1
  have hb : |T * 180| ≤ 576 := by rw [abs_mul, abs_of_pos (by norm_num : (0 : ℝ) < 180)]; linarith
  have hQ : |T * 180 / Real.pi| ≤ 184 := by
    rw [abs_div, abs_of_pos Real.pi_pos, div_le_iff₀ Real.pi_pos]; linarith
  have hd : (1801 / 10 * e + 7 / 10 ^ 14 + 184 * (13 / 10 ^ 17)) / (3.1415 - 13 / 10 ^ 17) ≤ 574 / 10 * e + 4 / 10 ^ 14 := by
    rw [div_le_iff₀ (by norm_num)]; norm_num; linarith
  obtain ⟨d, ed, nd⟩ := n1.div pi_near (Q := 184) (S := 3.1415) (g := 58 * e + 1 / 10 ^ 13) hQ
    (hpi2.trans (le_abs_self _)) (by norm_num) (by norm_num at hd ⊢; linarith) (by norm_num at hd ⊢; linarith)
  exact ⟨d, ed, nd⟩

set_option maxHeartbeats 1000000 in
theorem ecef_tail {lib : Libm} (hl : Accurate lib) {x y z e2 w lat s ss c : PyFloat} {W Zp θ ε M : ℝ}
    (hz : Near z.abs Zp ε) (ne : Near e2 wE2 (5 / 10 ^ 18)) (nw : Near w W (2 * ε + (W + 2 * ε) * (6 / 10 ^ 16) + 1 / 10 ^ 30))
    (nl : Near lat θ (5 / 10 ^ 16)) (ns : Near s (Real.sin θ) (7 / 10 ^ 16)) (nss : Near ss (Real.sin θ ^ 2) (3 / 10 ^ 16))
    (nc : Near c (Real.cos θ) (7 / 10 ^ 16)) (hε0 : 0 ≤ ε) (hε : ε ≤ 1 / 1000) (t0 : 0 ≤ θ) (t1 : θ ≤ Real.pi / 2)
    (M0 : 6400000 ≤ M) (M1 : M ≤ 2 * 10 ^ 8) (hW : W ≤ M) (hF : |nF W Zp θ| ≤ M - 6000000) (hT : |tF W Zp θ| ≤ 174)
    (hD : 95 / 100 * M ≤ mF θ + nF W Zp θ) (hD2 : mF θ + nF W Zp θ ≤ 2 * M) :
    ∃ lat' height, ecefTail lib x y z e2 w lat s ss c = (do
        let a ← deg (if z.ltZero then lat'.neg else lat')
        let b ← deg (lib.atan2 y x)
        return (a, b, height)) ∧
      Near lat' (θ + tF W Zp θ / (mF θ + nF W Zp θ)) (33 / 10 * ε / M + 8 / 10 ^ 15) ∧
      Near height (nF W Zp θ + tF W Zp θ * (tF W Zp θ / (mF θ + nF W Zp θ)) / 2) (31 / 10 * ε + 7 / 10 ^ 15 * M) := by
  obtain ⟨h1, h2⟩ := wE2_bounds
  obtain ⟨g1, g2, g3, g4, g5⟩ := gF_bounds θ
  have hG1 : Real.sqrt (gF θ) ≤ 1 := by rw [Real.sqrt_le_iff]; exact ⟨by norm_num, by linarith⟩
  have hG0 : 996 / 1000 ≤ Real.sqrt (gF θ) := by
    apply Real.le_sqrt_of_sq_le; norm_num at g3 ⊢; linarith
  have hN := nV_bounds θ
  have hs1 := Real.abs_sin_le_one θ
  have hc1 := Real.abs_cos_le_one θ
  have hs2 : |Real.sin θ ^ 2| ≤ 1 := abs_le_of (sq_nonneg _) (Real.sin_sq_le_one θ)
  have hE0 : 0 ≤ wE2 := by norm_num at h1; linarith
  have hE : |wE2| ≤ 67 / 10000 := abs_le_of hE0 (by norm_num at h2 ⊢; linarith)
  -- the curvature
  have p1 := ne.mul nss (R := 67 / 10000) (S := 1) (g := 8 / 10 ^ 18) hE hs2 (by norm_num) (by norm_num)
  have p2 := (lit_near (q := 1) (by norm_num)).sub p1 (B := 1) (g := 12 / 10 ^ 17)
    (by push_cast; exact abs_le_of g4.le g2) (by norm_num) (by norm_num)
  push_cast at p2
  change Near _ (gF θ) _ at p2
  obtain ⟨sg, esg, p3⟩ := p2.sqrt hl (T := 996 / 1000) (B := 1) (g := 35 / 10 ^ 17) (by norm_num) (by norm_num at g3 ⊢; linarith)
    (by norm_num) (by norm_num; exact g2) (by norm_num) (by norm_num)
  obtain ⟨rg, erg, p4⟩ := near_smaj.div p3 (Q := 6399600) (S := 996 / 1000) (g := 3 / 10 ^ 9)
    (abs_le_of (by have := hN.1; unfold nV at this; linarith) hN.2) (hG0.trans (le_abs_self _)) (by norm_num) (by norm_num) (by norm_num)
  change Near rg (nV θ) _ at p4
  have p5 := (lit_near (q := 1) (by norm_num)).sub ne (B := 1) (g := 12 / 10 ^ 17)
    (by push_cast; exact abs_le_of (by norm_num at h2; linarith) (by linarith)) (by norm_num) (by norm_num)
  push_cast at p5
  have hE1 : |1 - wE2| ≤ 99331 / 100000 := abs_le_of (by norm_num at h2; linarith) (by norm_num at h1 ⊢; linarith)
  have hNa : |nV θ| ≤ 6399600 := abs_le_of (by linarith) hN.2
  have p6 := p5.mul p4 (R := 99331 / 100000) (S := 6399600) (g := 45 / 10 ^ 10) hE1 hNa (by norm_num) (by norm_num)
  have hrf : |(1 - wE2) * nV θ| ≤ 6357000 := by
    rw [abs_mul]; have := mul_le_mul hE1 hNa (abs_nonneg _) (by norm_num); norm_num at this ⊢; linarith
  have p7 := p4.mul nc (R := 6399600) (S := 1) (g := 83 / 10 ^ 10) hNa hc1 (by norm_num) (by norm_num)
  have p8 := p6.mul ns (R := 6357000) (S := 1) (g := 97 / 10 ^ 10) hrf hs1 (by norm_num) (by norm_num)
  -- sizes of the offsets
  set F := nF W Zp θ with hFd
  set T := tF W Zp θ with hTd
  have hsc := Real.sin_sq_add_cos_sq θ
  have eF : Real.cos θ * (W - nV θ * Real.cos θ) + Real.sin θ * (Zp - (1 - wE2) * nV θ * Real.sin θ) = F := code_nF W Zp θ
  have eT : Real.cos θ * (Zp - (1 - wE2) * nV θ * Real.sin θ) - Real.sin θ * (W - nV θ * Real.cos θ) = T := code_tF W Zp θ
  set U := W - nV θ * Real.cos θ with hU
  set V := Zp - (1 - wE2) * nV θ * Real.sin θ with hV
  have eU : U = F * Real.cos θ - T * Real.sin θ := by rw [← eF, ← eT]; linear_combination (-U) * hsc
  have eV : V = F * Real.sin θ + T * Real.cos θ := by rw [← eF, ← eT]; linear_combination (-V) * hsc
  have bU : |U| ≤ M := by
    rw [eU]
    refine (abs_sub _ _).trans ?_
    rw [abs_mul, abs_mul]
    have a1 := mul_le_of_le_one_right (abs_nonneg F) hc1
    have a2 := mul_le_of_le_one_right (abs_nonneg T) hs1
    linarith
  have bV : |V| ≤ M := by
    rw [eV]
    refine (abs_add_le _ _).trans ?_
    rw [abs_mul, abs_mul]
    have a1 := mul_le_of_le_one_right (abs_nonneg F) hs1
    have a2 := mul_le_of_le_one_right (abs_nonneg T) hc1
    linarith
  have q1 := nw.sub p7 (B := M) (g := 2001 / 1000 * ε + 22 / 10 ^ 16 * M) bU (by norm_num; linarith) (by norm_num at M1 ⊢; linarith)
  have q2 := hz.sub p8 (B := M) (g := 1001 / 1000 * ε + 18 / 10 ^ 16 * M) bV (by norm_num; linarith) (by norm_num at M1 ⊢; linarith)
  rw [← hU] at q1
  rw [← hV] at q2
  have eM : ε ≤ M / 10 ^ 9 := by norm_num; linarith
  have cu := nc.mul q1 (R := 1) (S := M) (g := 2002 / 1000 * ε + 31 / 10 ^ 16 * M) hc1 bU (by norm_num at eM ⊢; linarith) (by norm_num at M1 ⊢; linarith)
  have sv := ns.mul q2 (R := 1) (S := M) (g := 1002 / 1000 * ε + 27 / 10 ^ 16 * M) hs1 bV (by norm_num at eM ⊢; linarith) (by norm_num at M1 ⊢; linarith)
  have cv := nc.mul q2 (R := 1) (S := M) (g := 1002 / 1000 * ε + 27 / 10 ^ 16 * M) hc1 bV (by norm_num at eM ⊢; linarith) (by norm_num at M1 ⊢; linarith)
  have su := ns.mul q1 (R := 1) (S := M) (g := 2002 / 1000 * ε + 31 / 10 ^ 16 * M) hs1 bU (by norm_num at eM ⊢; linarith) (by norm_num at M1 ⊢; linarith)
  have nf := cu.add sv (B := M) (g := 301 / 100 * ε + 6 / 10 ^ 15 * M) (by rw [eF]; linarith) (by norm_num at eM ⊢; linarith) (by norm_num at M1 ⊢; linarith)
  have nm := cv.sub su (B := M) (g := 301 / 100 * ε + 6 / 10 ^ 15 * M) (by rw [eT]; linarith) (by norm_num at eM ⊢; linarith) (by norm_num at M1 ⊢; linarith)
  rw [eF] at nf
  rw [eT] at nm
  have hmF : |(1 - wE2) * nV θ / gF θ| ≤ 6400000 := by
    rw [abs_div, abs_of_pos g4, div_le_iff₀ g4]
    have := mul_le_mul_of_nonneg_left g3 (by norm_num : (0 : ℝ) ≤ 6400000)
    norm_num at this
    linarith
  obtain ⟨rfg, erfg, n7⟩ := p6.div p2 (Q := 6400000) (S := 9933 / 10000) (g := 61 / 10 ^ 10) hmF
    (by rw [abs_of_pos g4]; norm_num at g3 ⊢; linarith) (by norm_num) (by norm_num) (by norm_num)
  have eK : (1 - wE2) * nV θ / gF θ = mF θ := code_mF θ
  rw [eK] at n7
  set K := mF θ + F with hK
  have hK0 : 0 < K := by linarith
  have n8 := n7.add nf (B := 2 * M) (g := 302 / 100 * ε + 8 / 10 ^ 15 * M) (abs_le_of hK0.le hD2)
    (by norm_num at eM ⊢; linarith) (by norm_num at M1 ⊢; linarith)
  have bp : |T / K| ≤ 3 / 10 ^ 5 := by
    rw [abs_div, abs_of_pos hK0, div_le_iff₀ hK0]; norm_num; linarith
  have hdv : (301 / 100 * ε + 6 / 10 ^ 15 * M + 3 / 10 ^ 5 * (302 / 100 * ε + 8 / 10 ^ 15 * M)) /
      (95 / 100 * M - (302 / 100 * ε + 8 / 10 ^ 15 * M)) ≤ 32 / 10 * ε / M + 66 / 10 ^ 16 := by
    have hM : 0 < M := by linarith
    rw [div_le_iff₀ (by norm_num at eM ⊢; linarith)]
    have e0 : 0 ≤ ε / M := by positivity
    have e1 : ε / M * M = ε := by field_simp
    have e2 : ε / M * ε ≤ ε / 10 ^ 9 := by
      rw [div_mul_eq_mul_div, div_le_iff₀ hM]
      have := mul_le_mul_of_nonneg_left eM hε0
      norm_num at this ⊢; linarith
    have : (32 / 10 * ε / M + 66 / 10 ^ 16) * (95 / 100 * M - (302 / 100 * ε + 8 / 10 ^ 15 * M)) =
        32 / 10 * (95 / 100 - 8 / 10 ^ 15) * (ε / M * M) - 32 / 10 * (302 / 100) * (ε / M * ε) +
          66 / 10 ^ 16 * (95 / 100 * M - (302 / 100 * ε + 8 / 10 ^ 15 * M)) := by ring
    rw [this, e1]
    norm_num at e2 eM ⊢
    linarith
  have hεM : 32 / 10 * ε / M ≤ 1 / 10 ^ 8 := by
    rw [div_le_iff₀ (by linarith)]; norm_num at eM ⊢; linarith
  have hεM0 : 0 ≤ ε / M := by positivity
  have eεM : 33 / 10 * ε / M = 33 / 10 * (ε / M) := by ring
  have eεM' : 32 / 10 * ε / M = 32 / 10 * (ε / M) := by ring
  obtain ⟨p, ep, n9⟩ := nm.div n8 (Q := 3 / 10 ^ 5) (S := 95 / 100 * M) (g := 33 / 10 * ε / M + 67 / 10 ^ 16) bp
    (hD.trans (le_abs_self _)) (by norm_num at eM ⊢; linarith)
    (by rw [eεM]; rw [eεM'] at hdv; norm_num at hdv ⊢; linarith)
    (by norm_num at hdv hεM ⊢; linarith)
  have hpi := Real.pi_lt_d2
  have bθ : |θ + T / K| ≤ 2 := by
    refine (abs_add_le _ _).trans ?_
    rw [abs_of_nonneg t0]; norm_num at bp hpi ⊢; linarith
  have n10 := nl.add n9 (B := 2) (g := 33 / 10 * ε / M + 8 / 10 ^ 15) bθ
    (by rw [eεM]; rw [eεM'] at hεM; norm_num at hεM ⊢; linarith) (by rw [eεM]; rw [eεM'] at hεM; norm_num at hεM ⊢; linarith)
  have hεM2 : ε / M ≤ ε / 6400000 := div_le_div_of_nonneg_left hε0 (by norm_num) M0
  have n11 := nm.mul n9 (R := 174) (S := 3 / 10 ^ 5) (g := 2 / 10 ^ 3 * ε + M / 10 ^ 17) hT bp
    (by
      rw [eεM]
      have e2 : ε / M * ε ≤ ε / 10 ^ 9 := by
        rw [div_mul_eq_mul_div, div_le_iff₀ (by linarith)]
        have := mul_le_mul_of_nonneg_left eM hε0
        norm_num at this ⊢; linarith
      have e1 : ε / M * M = ε := by field_simp
      have : (301 / 100 * ε + 6 / 10 ^ 15 * M) * (33 / 10 * (ε / M) + 67 / 10 ^ 16) =
          301 / 100 * (33 / 10) * (ε / M * ε) + 301 / 100 * (67 / 10 ^ 16) * ε + 6 / 10 ^ 15 * (33 / 10) * (ε / M * M) +
            6 / 10 ^ 15 * (67 / 10 ^ 16) * M := by ring
      have t2 : (174 + (301 / 100 * ε + 6 / 10 ^ 15 * M)) * (3 / 10 ^ 5 + (33 / 10 * (ε / M) + 67 / 10 ^ 16)) =
        174 * (3 / 10 ^ 5 + (33 / 10 * (ε / M) + 67 / 10 ^ 16)) + (301 / 100 * ε + 6 / 10 ^ 15 * M) * (3 / 10 ^ 5) +
          (301 / 100 * ε + 6 / 10 ^ 15 * M) * (33 / 10 * (ε / M) + 67 / 10 ^ 16) := by ring
      rw [t2, this, e1]
      norm_num at e2 eM hεM2 ⊢
      linarith)
    (by
      have : (174 + (301 / 100 * ε + 6 / 10 ^ 15 * M)) * (3 / 10 ^ 5 + (33 / 10 * ε / M + 67 / 10 ^ 16)) ≤ 200 * 1 := by
        refine mul_le_mul ?_ ?_ (by positivity) (by norm_num)
        · norm_num at M1 ⊢; linarith
        · rw [eεM]; norm_num at hεM2 ⊢; linarith
      refine this.trans (by norm_num))
  have bTp : |T * (T / K)| ≤ 6 / 1000 := by
    rw [abs_mul]; have := mul_le_mul hT bp (abs_nonneg _) (by norm_num); norm_num at this ⊢; linarith
  obtain ⟨mp, emp, n12⟩ := n11.div (lit_near (q := 2) (by norm_num)) (Q := 6 / 1000) (S := 2) (g := 11 / 10 ^ 4 * ε + M / 10 ^ 17)
    (by push_cast; rw [abs_div, abs_two]; linarith) (by norm_num) (by norm_num) (by norm_num; linarith) (by norm_num at M1 ⊢; linarith)
  push_cast at n12
  have n13 := nf.add n12 (B := M) (g := 31 / 10 * ε + 7 / 10 ^ 15 * M)
    (by refine (abs_add_le _ _).trans ?_
        have : |T * (T / K) / 2| ≤ 1 := by rw [abs_div, abs_two]; linarith
        linarith) (by norm_num at eM ⊢; linarith) (by norm_num at M1 ⊢; linarith)
  refine ⟨_, _, ?_, n10, n13⟩
  · unfold ecefTail
    dsimp only
    rw [esg, ok_bind, erg, ok_bind, erfg, ok_bind, ep, ok_bind, emp, ok_bind]

end Nmea.GeoF
