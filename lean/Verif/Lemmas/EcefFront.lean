import Verif.Lemmas.EcefFloat
/-!
# `ecef2llh` in floating point: the first guess
-/
namespace Nmea.GeoF
open Py PyFloat Nmea.Geo

/-- The code of `ecef2llh` after the first guess; src/pynmeagps/nmeahelpers.py:389-406. -/
def ecefTail (lib : Libm) (x y z e2 w lat s ss c : PyFloat) : Except Err (PyFloat × PyFloat × PyFloat) := do
  let g := (lit 1).sub (e2.mul ss)
  let sg ← math1 lib.sqrt g
  let rg ← smajAxis.div sg
  let rf := ((lit 1).sub e2).mul rg
  let u := w.sub (rg.mul c)
  let v := z.abs.sub (rf.mul s)
  let f := (c.mul u).add (s.mul v)
  let m := (c.mul v).sub (s.mul u)
  let rfg ← rf.div g
  let p ← m.div (rfg.add f)
  let lat := lat.add p
  let mp ← (m.mul p).div (lit 2)
  let height := f.add mp
  let lat := if z.ltZero then lat.neg else lat
  let lat ← deg lat
  let lon ← deg (lib.atan2 y x)
  return (lat, lon, height)

/-- The constants of the algorithm. -/
structure Consts (e2 a1 a2 a3 a4 a5 : PyFloat) : Prop where
  e2 : Near e2 wE2 (5 / 10 ^ 18)
  a1 : Near a1 (Geo.smajAxis * wE2) (4 / 10 ^ 11)
  a2 : Near a2 ((Geo.smajAxis * wE2) * (Geo.smajAxis * wE2)) (4 / 10 ^ 6)
  a3 : Near a3 (Geo.smajAxis * wE2 * wE2 / 2) (1 / 10 ^ 12)
  a4 : Near a4 (5 / 2 * ((Geo.smajAxis * wE2) * (Geo.smajAxis * wE2))) (2 / 10 ^ 5)
  a5 : Near a5 (Geo.smajAxis * wE2 + Geo.smajAxis * wE2 * wE2 / 2) (5 / 10 ^ 11)

theorem near_smaj : Near smajAxis Geo.smajAxis 0 := by
  have := lit_near (q := 6378137) (by norm_num)
  unfold smajAxis Geo.smajAxis
  simpa using this

theorem a1_bounds : 42697 ≤ Geo.smajAxis * wE2 ∧ Geo.smajAxis * wE2 ≤ 42698 := by
  obtain ⟨h1, h2⟩ := wE2_bounds
  unfold Geo.smajAxis
  constructor <;> norm_num at * <;> linarith

theorem consts : ∃ f a3, (lit 1).div flattening = .ok f ∧
    (((smajAxis.mul (f.mul ((lit 2).sub f))).mul (f.mul ((lit 2).sub f))).div (lit 2)) = .ok a3 ∧
    Consts (f.mul ((lit 2).sub f)) (smajAxis.mul (f.mul ((lit 2).sub f)))
      ((smajAxis.mul (f.mul ((lit 2).sub f))).mul (smajAxis.mul (f.mul ((lit 2).sub f)))) a3
      ((lit (5 / 2)).mul ((smajAxis.mul (f.mul ((lit 2).sub f))).mul (smajAxis.mul (f.mul ((lit 2).sub f)))))
      ((smajAxis.mul (f.mul ((lit 2).sub f))).add a3) := by
  obtain ⟨f, e1, n1⟩ := e2_near
  change Near _ wE2 _ at n1
  obtain ⟨h1, h2⟩ := wE2_bounds
  obtain ⟨b1, b2⟩ := a1_bounds
  have hE : |wE2| ≤ 67 / 10000 := by rw [abs_of_nonneg (by norm_num at *; linarith)]; norm_num at *; linarith
  have hA : |Geo.smajAxis * wE2| ≤ 42698 := by rw [abs_of_nonneg (by linarith)]; exact b2
  set e2 := f.mul ((lit 2).sub f)
  have n2 := near_smaj.mul n1 (R := 6378137) (S := 67 / 10000) (g := 4 / 10 ^ 11)
    (by unfold Geo.smajAxis; rw [abs_of_nonneg (by norm_num)]) hE (by norm_num) (by norm_num)
  have n3 := n2.mul n2 (R := 42698) (S := 42698) (g := 4 / 10 ^ 6) hA hA (by norm_num) (by norm_num)
  have n4 := n2.mul n1 (R := 42698) (S := 67 / 10000) (g := 1 / 10 ^ 12) hA hE (by norm_num) (by norm_num)
  have hAE : |Geo.smajAxis * wE2 * wE2| ≤ 287 := by
    rw [abs_mul]
    calc _ ≤ 42698 * (67 / 10000 : ℝ) := mul_le_mul hA hE (abs_nonneg _) (by norm_num)
      _ ≤ _ := by norm_num
  have hA3 : |Geo.smajAxis * wE2 * wE2 / 2| ≤ 144 := by
    have : |Geo.smajAxis * wE2 * wE2 / 2| = |Geo.smajAxis * wE2 * wE2| / 2 := by rw [abs_div, abs_two]
    linarith
  obtain ⟨a3, e5, n5⟩ := n4.div (lit_near (q := 2) (by norm_num)) (Q := 144) (S := 2) (g := 1 / 10 ^ 12)
    (by push_cast; exact hA3) (by norm_num) (by norm_num) (by norm_num) (by norm_num)
  push_cast at n5
  have n6 := (lit_near (q := 5 / 2) (by norm_num)).mul n3 (R := 5 / 2) (S := 42698 * 42698) (g := 2 / 10 ^ 5)
    (by norm_num) (by rw [abs_mul]; exact mul_le_mul hA hA (abs_nonneg _) (by norm_num)) (by norm_num) (by norm_num)
  push_cast at n6
  have n7 := n2.add n5 (B := 42900) (g := 5 / 10 ^ 11) ((abs_add_le _ _).trans (by linarith)) (by norm_num) (by norm_num)
  exact ⟨f, a3, e1, e5, n1, n2, n3, n5, n6, n7⟩


/-! ## Directions -/

theorem front1 {lib : Libm} (hl : Accurate lib) {x y z : PyFloat} {X Y Z W r ε : ℝ} (hx : Near x X ε) (hy : Near y Y ε)
    (hz : Near z Z ε) (hε : ε ≤ 1 / 1000) (hW : W = Real.sqrt (X * X + Y * Y)) (hr : r = Real.sqrt (X * X + Y * Y + Z * Z))
    (r1 : 6200000 ≤ r) (r2 : r ≤ 2 * 10 ^ 8) :
    ∃ w r' s2 c2, math1 lib.sqrt ((x.mul x).add (y.mul y)) = .ok w ∧
      math1 lib.sqrt (((x.mul x).add (y.mul y)).add (z.mul z)) = .ok r' ∧
      (z.mul z).div (((x.mul x).add (y.mul y)).add (z.mul z)) = .ok s2 ∧
      ((x.mul x).add (y.mul y)).div (((x.mul x).add (y.mul y)).add (z.mul z)) = .ok c2 ∧
      Near w W (2 * ε + (W + 2 * ε) * (6 / 10 ^ 16) + 1 / 10 ^ 30) ∧ 0 ≤ val w ∧ Near w W (r * (4 / 10 ^ 10)) ∧
      Near r' r (r * (13 / 10 ^ 10)) ∧ Near s2 ((|Z| / r) ^ 2) (16 / 10 ^ 10) ∧ Near c2 ((W / r) ^ 2) (21 / 10 ^ 10) := by
  have hε0 : 0 ≤ ε := (abs_nonneg _).trans hx.2
  have hX0 := mul_self_nonneg X
  have hY0 := mul_self_nonneg Y
  have hZ0 := mul_self_nonneg Z
  have hr0 : 0 < r := by linarith
  have hr2 : r ^ 2 = X * X + Y * Y + Z * Z := by rw [hr, Real.sq_sqrt (by linarith)]
  have hW2 : W ^ 2 = X * X + Y * Y := by rw [hW, Real.sq_sqrt (by linarith)]
  have hW0 : 0 ≤ W := by rw [hW]; exact Real.sqrt_nonneg _
  have bX : |X| ≤ r := abs_le_of_sq_le_sq (by nlinarith) hr0.le
  have bY : |Y| ≤ r := abs_le_of_sq_le_sq (by nlinarith) hr0.le
  have bZ : |Z| ≤ r := abs_le_of_sq_le_sq (by nlinarith) hr0.le
  have bW : W ≤ r := by
    have := abs_le_of_sq_le_sq (a := W) (b := r) (by nlinarith) hr0.le
    rwa [abs_of_nonneg hW0] at this
  have hε2 : ε ≤ r * (17 / 10 ^ 11) := by norm_num; linarith
  have r11 : 1 ≤ r := by linarith
  have rb : r ≤ 10 ^ 9 := r2.trans (by norm_num)
  have q11 : 1 ≤ r ^ 2 := one_le_pow₀ r11
  have qb : r ^ 2 ≤ 10 ^ 18 := (pow_le_pow_left₀ hr0.le rb 2).trans (by norm_num)
  have nx := hx.mono hε2
  have ny := hy.mono hε2
  have nz := hz.mono hε2
  have m1 := nx.mul_sc nx bX bX r11 rb (by norm_num) (by norm_num) (g := 35 / 10 ^ 11) (by norm_num)
  have m2 := ny.mul_sc ny bY bY r11 rb (by norm_num) (by norm_num) (g := 35 / 10 ^ 11) (by norm_num)
  have m3 := nz.mul_sc nz bZ bZ r11 rb (by norm_num) (by norm_num) (g := 35 / 10 ^ 11) (by norm_num)
  have m4 := m1.add_sc m2 (B := 1) (g := 8 / 10 ^ 10) (by rw [abs_of_nonneg (by linarith)]; linarith) q11 qb (by norm_num) (by norm_num)
  have m5 := m4.add_sc m3 (B := 1) (g := 12 / 10 ^ 10) (by rw [abs_of_nonneg (by linarith)]; linarith) q11 qb (by norm_num) (by norm_num)
  have hw := hypot_near hl hx hy (B := W) (g := 2 * ε + (W + 2 * ε) * (6 / 10 ^ 16) + 1 / 10 ^ 30)
    (by rw [hW]) (by norm_num at rb ⊢; linarith) le_rfl
  obtain ⟨w, ew, nw, hs0⟩ := hw
  rw [← hW] at nw
  have hw0 : 0 ≤ val w := by
    have h1 := hl.sqrt _ m4.1 hs0
    rw [math1_fin h1.1] at ew
    obtain rfl : lib.sqrt ((x.mul x).add (y.mul y)) = w := by simpa using ew
    have h2 := Real.sqrt_nonneg (val ((x.mul x).add (y.mul y)))
    have h3 := (abs_le.1 h1.2).1
    have h4 : Real.sqrt (val ((x.mul x).add (y.mul y))) / 2 ^ 52 ≤ Real.sqrt (val ((x.mul x).add (y.mul y))) :=
      div_le_self h2 (by norm_num)
    linarith
  have hq0 : 0 ≤ val (((x.mul x).add (y.mul y)).add (z.mul z)) := add_val_nonneg hs0 (mul_self_val _)
  obtain ⟨r', er, nr⟩ : ∃ r', math1 lib.sqrt (((x.mul x).add (y.mul y)).add (z.mul z)) = .ok r' ∧ Near r' r (r * (13 / 10 ^ 10)) := by
    have h1 := hl.sqrt _ m5.1 hq0
    have h2 := sqrt_rel hq0 (q := r ^ 2) (ε := 12 / 10 ^ 10) (t := 0) (by positivity) (by norm_num) (by norm_num) le_rfl
      (by rw [hr2]; have := m5.2; rw [hr2] at this; norm_num at this ⊢; linarith)
    rw [Real.sqrt_sq hr0.le] at h2
    refine ⟨_, math1_fin h1.1, h1.1, ?_⟩
    have h3 := h1.2
    generalize Real.sqrt (val (((x.mul x).add (y.mul y)).add (z.mul z))) = S at *
    have h4 := abs_sub_le (val (lib.sqrt (((x.mul x).add (y.mul y)).add (z.mul z)))) S r
    have h5 := (abs_le.1 h2).2
    norm_num at h3 h2 h5 ⊢
    linarith
  have aq : r ^ 2 ≤ |X * X + Y * Y + Z * Z| := by rw [← hr2]; exact le_abs_self _
  obtain ⟨s2, es, ns⟩ := m3.div_sc m5 (Q := 1) (g := 16 / 10 ^ 10)
    (by rw [← hr2, abs_div, abs_of_nonneg hZ0, abs_of_nonneg (sq_nonneg r), div_le_one (by positivity)]; linarith)
    aq (by positivity) (by norm_num) (by norm_num) (by norm_num)
  obtain ⟨c2, ec, nc⟩ := m4.div_sc m5 (Q := 1) (g := 21 / 10 ^ 10)
    (by rw [← hr2, abs_div, abs_of_nonneg (a := X * X + Y * Y) (by linarith), abs_of_nonneg (sq_nonneg r), div_le_one (by positivity)]; linarith)
    aq (by positivity) (by norm_num) (by norm_num) (by norm_num)
  refine ⟨w, r', s2, c2, ew, er, es, ec, nw, hw0, nw.mono ?_, nr, ?_, ?_⟩
  · norm_num at r1 ⊢; linarith
  · rw [div_pow, sq_abs, hr2, pow_two Z]; exact ns
  · rw [div_pow, hr2, hW2]; exact nc

/-! ## From the sine or the cosine to the angle -/

theorem finish1 {lib : Libm} (hl : Accurate lib) {s : PyFloat} (hs : Finite s) (h0 : 0 ≤ val s) (h1 : val s ≤ 843 / 1000) :
    ∃ lat c θ, math1 lib.asin s = .ok lat ∧ math1 lib.sqrt ((lit 1).sub (s.mul s)) = .ok c ∧ 0 ≤ θ ∧ θ ≤ Real.pi / 2 ∧
      Real.sin θ = val s ∧ Near lat θ (5 / 10 ^ 16) ∧ Near (s.mul s) (Real.sin θ ^ 2) (3 / 10 ^ 16) ∧
      Near c (Real.cos θ) (7 / 10 ^ 16) := by
  have ha : |val s| ≤ 1 := by rw [abs_of_nonneg h0]; linarith
  have q := hl.asin s hs ha
  have hq2 : val s * val s ≤ 711 / 1000 := by nlinarith
  have hq0 := mul_self_nonneg (val s)
  have n1 := mul_near' hs hs (by rw [abs_mul_self]; linarith)
  rw [abs_mul_self] at n1
  have n2 := n1.mono (e' := 9 / 10 ^ 17) (by norm_num at hq2 ⊢; linarith)
  have n3 := (lit_near (q := 1) (by norm_num)).sub n2 (B := 1) (g := 21 / 10 ^ 17)
    (by push_cast; rw [abs_of_nonneg (by linarith)]; linarith) (by norm_num) (by norm_num)
  push_cast at n3
  obtain ⟨c, e1, n4⟩ := n3.sqrt hl (T := 53 / 100) (B := 1) (g := 7 / 10 ^ 16) (by norm_num) (by norm_num; linarith) (by norm_num)
    (by norm_num; linarith) (by norm_num) (by norm_num)
  have hsin : Real.sin (Real.arcsin (val s)) = val s := Real.sin_arcsin (by linarith) (by linarith)
  refine ⟨_, c, Real.arcsin (val s), math1_fin q.1, e1, Real.arcsin_nonneg.2 h0, Real.arcsin_le_pi_div_two _, hsin,
    q.mono (by norm_num), ?_, ?_⟩
  · rw [hsin, pow_two]; exact n2.mono (by norm_num)
  · rw [Real.cos_arcsin, pow_two]; exact n4

theorem finish2 {lib : Libm} (hl : Accurate lib) {c : PyFloat} (hc : Finite c) (h0 : 0 ≤ val c) (h1 : val c ≤ 552 / 1000) :
    ∃ lat s θ, math1 lib.acos c = .ok lat ∧ math1 lib.sqrt ((lit 1).sub (c.mul c)) = .ok s ∧ 0 ≤ θ ∧ θ ≤ Real.pi / 2 ∧
      Real.cos θ = val c ∧ Near lat θ (5 / 10 ^ 16) ∧ Near ((lit 1).sub (c.mul c)) (Real.sin θ ^ 2) (3 / 10 ^ 16) ∧
      Near s (Real.sin θ) (7 / 10 ^ 16) := by
  have ha : |val c| ≤ 1 := by rw [abs_of_nonneg h0]; linarith
  have q := hl.acos c hc ha
  have hq2 : val c * val c ≤ 305 / 1000 := by nlinarith
  have hq0 := mul_self_nonneg (val c)
  have n1 := mul_near' hc hc (by rw [abs_mul_self]; linarith)
  rw [abs_mul_self] at n1
  have n2 := n1.mono (e' := 5 / 10 ^ 17) (by norm_num at hq2 ⊢; linarith)
  have n3 := (lit_near (q := 1) (by norm_num)).sub n2 (B := 1) (g := 17 / 10 ^ 17)
    (by push_cast; rw [abs_of_nonneg (by linarith)]; linarith) (by norm_num) (by norm_num)
  push_cast at n3
  obtain ⟨s, e1, n4⟩ := n3.sqrt hl (T := 83 / 100) (B := 1) (g := 7 / 10 ^ 16) (by norm_num) (by norm_num; linarith) (by norm_num)
    (by norm_num; linarith) (by norm_num) (by norm_num)
  have hcos : Real.cos (Real.arccos (val c)) = val c := Real.cos_arccos (by linarith) (by linarith)
  have hsin : Real.sin (Real.arccos (val c)) = Real.sqrt (1 - val c * val c) := by rw [Real.sin_arccos, pow_two]
  refine ⟨_, s, Real.arccos (val c), math1_fin q.1, e1, Real.arccos_nonneg _, Real.arccos_le_pi_div_two.2 h0, hcos,
    q.mono (by norm_num), ?_, ?_⟩
  · rw [hsin, Real.sq_sqrt (by linarith)]; exact n3.mono (by norm_num)
  · rw [hsin]; exact n4


/-! ## The corrections of the first guess -/

theorem abs_le_of {a b : ℝ} (h0 : 0 ≤ a) (h : a ≤ b) : |a| ≤ b := by rwa [abs_of_nonneg h0]

theorem front2 {e2 a1 a2 a3 a4 a5 r' s2 c2 : PyFloat} {r P Q : ℝ} (K : Consts e2 a1 a2 a3 a4 a5) (r1 : 6200000 ≤ r)
    (nr : Near r' r (r * (13 / 10 ^ 10))) (ns : Near s2 P (16 / 10 ^ 10)) (nc : Near c2 Q (21 / 10 ^ 10)) (p0 : 0 ≤ P) (p1 : P ≤ 1)
    (q0 : 0 ≤ Q) (q1 : Q ≤ 1) :
    ∃ u a4r, a2.div r' = .ok u ∧ a4.div r' = .ok a4r ∧
      (∃ k, (c2.mul ((a1.add u).add (s2.mul (a3.sub a4r)))).div r' = .ok k ∧ Near k (k1 (Geo.smajAxis * wE2 / r) P Q) (3 / 10 ^ 11)) ∧
      (∃ k, (s2.mul ((a5.sub u).sub (c2.mul (a3.sub a4r)))).div r' = .ok k ∧ Near k (k2 (Geo.smajAxis * wE2 / r) P Q) (3 / 10 ^ 11)) ∧
      |k1 (Geo.smajAxis * wE2 / r) P Q| ≤ 71 / 10000 ∧ |k2 (Geo.smajAxis * wE2 / r) P Q| ≤ 71 / 10000 := by
  obtain ⟨-, n1, n2, n3, n4, n5⟩ := K
  obtain ⟨b1, b2⟩ := a1_bounds
  obtain ⟨h1, h2⟩ := wE2_bounds
  have hr0 : 0 < r := by linarith
  set A := Geo.smajAxis * wE2 with hA
  have hE0 : 0 ≤ wE2 := by norm_num at h1; linarith
  have hA0 : 0 ≤ A := by linarith
  have hAA0 : 0 ≤ A * A := mul_nonneg hA0 hA0
  have hAA : A * A ≤ 42698 * 42698 := mul_le_mul b2 b2 hA0 (by norm_num)
  have hAE : A * wE2 / 2 ≤ 143 := by
    have := mul_le_mul b2 h2.le hE0 (by norm_num)
    norm_num at this; linarith
  have hAE0 : 0 ≤ A * wE2 / 2 := by positivity
  have hu : A * A / r ≤ 295 := by rw [div_le_iff₀ hr0]; linarith
  have hu0 : 0 ≤ A * A / r := by positivity
  have hv : 5 / 2 * (A * A) / r = 5 / 2 * (A * A / r) := by ring
  obtain ⟨u, eu, nu⟩ := (n2.mono (e' := r * (1 / 10 ^ 12)) (by norm_num; linarith)).div_sc nr (Q := 295) (g := 4 / 10 ^ 7)
    (abs_le_of hu0 hu) (le_abs_self r) hr0 (by norm_num) (by norm_num) (by norm_num)
  obtain ⟨a4r, e4, n4r⟩ := (n4.mono (e' := r * (1 / 10 ^ 11)) (by norm_num; linarith)).div_sc nr (Q := 738) (g := 1 / 10 ^ 6)
    (abs_le_of (by positivity) (by rw [hv]; linarith)) (le_abs_self r) hr0 (by norm_num) (by norm_num) (by norm_num)
  have bv : |A * wE2 / 2 - 5 / 2 * (A * A) / r| ≤ 738 := by rw [hv, abs_le]; constructor <;> linarith
  have nv := n3.sub n4r (B := 738) (g := 11 / 10 ^ 7) bv (by norm_num) (by norm_num)
  set V := A * wE2 / 2 - 5 / 2 * (A * A) / r with hV
  have bP : |P| ≤ 1 := abs_le_of p0 p1
  have bQ : |Q| ≤ 1 := abs_le_of q0 q1
  have bPV : |P * V| ≤ 738 := by
    rw [abs_mul]; have := mul_le_mul bP bv (abs_nonneg _) (by norm_num); linarith
  have bQV : |Q * V| ≤ 738 := by
    rw [abs_mul]; have := mul_le_mul bQ bv (abs_nonneg _) (by norm_num); linarith
  -- first branch
  have c1 := n1.add nu (B := 42993) (g := 5 / 10 ^ 7) (abs_le_of (by linarith) (by linarith)) (by norm_num) (by norm_num)
  have c2' := ns.mul nv (R := 1) (S := 738) (g := 26 / 10 ^ 7) bP bv (by norm_num) (by norm_num)
  have b3 : |A + A * A / r + P * V| ≤ 43800 := by
    have := abs_le.1 bPV
    rw [abs_le]; constructor <;> linarith
  have c3 := c1.add c2' (B := 43800) (g := 32 / 10 ^ 7) b3 (by norm_num) (by norm_num)
  have c4 := nc.mul c3 (R := 1) (S := 43800) (g := 96 / 10 ^ 6) bQ b3 (by norm_num) (by norm_num)
  have b4 : |Q * (A + A * A / r + P * V)| ≤ 43800 := by
    rw [abs_mul]; have := mul_le_mul bQ b3 (abs_nonneg _) (by norm_num); linarith
  have b5 : |Q * (A + A * A / r + P * V) / r| ≤ 71 / 10000 := by
    rw [abs_div, abs_of_pos hr0, div_le_iff₀ hr0]; linarith
  obtain ⟨k, ek, nk⟩ := (c4.mono (e' := r * (16 / 10 ^ 12)) (by norm_num; linarith)).div_sc nr (Q := 71 / 10000) (g := 3 / 10 ^ 11)
    b5 (le_abs_self r) hr0 (by norm_num) (by norm_num) (by norm_num)
  have hk : Q * (A + A * A / r + P * V) / r = k1 (A / r) P Q := by
    rw [hV]; unfold k1; field_simp
  -- second branch
  have d1 := n5.sub nu (B := 42993) (g := 5 / 10 ^ 7) (by rw [abs_le]; constructor <;> linarith) (by norm_num) (by norm_num)
  have d2 := nc.mul nv (R := 1) (S := 738) (g := 30 / 10 ^ 7) bQ bv (by norm_num) (by norm_num)
  have g3 : |A + A * wE2 / 2 - A * A / r - Q * V| ≤ 43800 := by
    have := abs_le.1 bQV
    rw [abs_le]; constructor <;> linarith
  have d3 := d1.sub d2 (B := 43800) (g := 36 / 10 ^ 7) g3 (by norm_num) (by norm_num)
  have d4 := ns.mul d3 (R := 1) (S := 43800) (g := 75 / 10 ^ 6) bP g3 (by norm_num) (by norm_num)
  have g4 : |P * (A + A * wE2 / 2 - A * A / r - Q * V)| ≤ 43800 := by
    rw [abs_mul]; have := mul_le_mul bP g3 (abs_nonneg _) (by norm_num); linarith
  have g5 : |P * (A + A * wE2 / 2 - A * A / r - Q * V) / r| ≤ 71 / 10000 := by
    rw [abs_div, abs_of_pos hr0, div_le_iff₀ hr0]; linarith
  obtain ⟨k', ek', nk'⟩ := (d4.mono (e' := r * (16 / 10 ^ 12)) (by norm_num; linarith)).div_sc nr (Q := 71 / 10000) (g := 3 / 10 ^ 11)
    g5 (le_abs_self r) hr0 (by norm_num) (by norm_num) (by norm_num)
  have hk' : P * (A + A * wE2 / 2 - A * A / r - Q * V) / r = k2 (A / r) P Q := by
    rw [hV]; unfold k2; field_simp
  rw [hk] at nk b5
  rw [hk'] at nk' g5
  exact ⟨u, a4r, eu, e4, ⟨k, ek, nk⟩, ⟨k', ek', nk'⟩, b5, g5⟩


theorem ok_bind {α β : Type} (a : α) (f : α → Except Err β) : (Except.ok a >>= f) = f a := rfl

/-- The choice of the first guess in `ecef2llh`; src/pynmeagps/nmeahelpers.py:378-388. -/
def guessPart (lib : Libm) (zp w r s2 c2 u v a1 a5 : PyFloat) : Except Err (PyFloat × PyFloat × PyFloat × PyFloat) :=
  if lt (.ofMag false (3 / 10)) c2 then do
      let zr ← zp.div r
      let k ← (c2.mul ((a1.add u).add (s2.mul v))).div r
      let s := zr.mul ((lit 1).add k)
      let lat ← math1 lib.asin s
      let ss := s.mul s
      let c ← math1 lib.sqrt ((lit 1).sub ss)
      pure (lat, s, ss, c)
    else do
      let wr ← w.div r
      let k ← (s2.mul ((a5.sub u).sub (c2.mul v))).div r
      let c := wr.mul ((lit 1).sub k)
      let lat ← math1 lib.acos c
      let ss := (lit 1).sub (c.mul c)
      let s ← math1 lib.sqrt ss
      pure (lat, s, ss, c)

theorem ecef_split (lib : Libm) (x y z : PyFloat) {f a3 w r s2 c2 u a4r} 
  (ef : (lit 1).div flattening = .ok f) (e2 : PyFloat) (he2 : f.mul ((lit 2).sub f) = e2)
  (a1 : PyFloat) (ha1 : smajAxis.mul e2 = a1) (ea3 : (a1.mul e2).div (lit 2) = .ok a3)
  (w2 r2: PyFloat) (hw2 : (x.mul x).add (y.mul y) = w2) (hr2 : w2.add (z.mul z) = r2)
  (ew : math1 lib.sqrt w2 = .ok w) (er : math1 lib.sqrt r2 = .ok r) (hb : ¬ (lt r (lit 100000) = true))
  (es : (z.mul z).div r2 = .ok s2) (ec : w2.div r2 = .ok c2) (eu : (a1.mul a1).div r = .ok u)
  (e4 : ((lit (5/2)).mul (a1.mul a1)).div r = .ok a4r) {lat s ss c}
  (eg : guessPart lib z.abs w r s2 c2 u (a3.sub a4r) a1 (a1.add a3) = .ok (lat, s, ss, c)) :
  ecef2llh lib x y z smajAxis flattening = ecefTail lib x y z e2 w lat s ss c := by
  subst he2 ha1 hw2 hr2
  unfold ecef2llh
  rw [ef, ok_bind]
  dsimp only
  rw [ea3, ok_bind, ew, ok_bind, er, ok_bind, if_neg hb]
  rw [es, ok_bind, ec, ok_bind, eu, ok_bind, e4, ok_bind]
  change (guessPart lib z.abs w r s2 c2 u (a3.sub a4r) _ _ >>= _) = _
  rw [eg, ok_bind]
  rfl

theorem lt_val {a b : PyFloat} (ha : Finite a) (hb : Finite b) : lt a b = true ↔ val a < val b := by
  obtain ⟨s, m, rfl, _⟩ := ha.cases
  obtain ⟨t, n, rfl, _⟩ := hb.cases
  simp only [lt, decide_eq_true_eq, val]
  exact (Rat.cast_lt (K := ℝ)).symm

/-! ## The first guess -/

theorem ecef_front {lib : Libm} (hl : Accurate lib) {x y z : PyFloat} {X Y Z W r ε : ℝ} (hx : Near x X ε) (hy : Near y Y ε)
    (hz : Near z Z ε) (hε : ε ≤ 1 / 1000) (hW : W = Real.sqrt (X * X + Y * Y)) (hr : r = Real.sqrt (X * X + Y * Y + Z * Z))
    (r1 : 6200000 ≤ r) (r2 : r ≤ 2 * 10 ^ 8) :
    ∃ e2 w lat s ss c θ, ecef2llh lib x y z smajAxis flattening = ecefTail lib x y z e2 w lat s ss c ∧
      0 ≤ θ ∧ θ ≤ Real.pi / 2 ∧ GuessNear (1 / 10 ^ 8) W |Z| r θ ∧ Near e2 wE2 (5 / 10 ^ 18) ∧
      Near w W (2 * ε + (W + 2 * ε) * (6 / 10 ^ 16) + 1 / 10 ^ 30) ∧ Near lat θ (5 / 10 ^ 16) ∧
      Near s (Real.sin θ) (7 / 10 ^ 16) ∧ Near ss (Real.sin θ ^ 2) (3 / 10 ^ 16) ∧ Near c (Real.cos θ) (7 / 10 ^ 16) := by
  obtain ⟨f, a3, ef, ea3, K⟩ := consts
  obtain ⟨w, r', s2, c2, ew, er, es, ec, nw, hw0, nw', nr, ns, nc⟩ := front1 hl hx hy hz hε hW hr r1 r2
  have hr0 : 0 < r := by linarith
  have hX0 := mul_self_nonneg X
  have hY0 := mul_self_nonneg Y
  have hZ0 := mul_self_nonneg Z
  have hr2 : r ^ 2 = X * X + Y * Y + Z * Z := by rw [hr, Real.sq_sqrt (by linarith)]
  have hW2 : W ^ 2 = X * X + Y * Y := by rw [hW, Real.sq_sqrt (by linarith)]
  have hW0 : 0 ≤ W := by rw [hW]; exact Real.sqrt_nonneg _
  have hε2 : ε ≤ r * (17 / 10 ^ 11) := by norm_num; linarith
  have bZ : |Z| ≤ r := abs_le_of_sq_le_sq (by nlinarith) hr0.le
  have bW : W ≤ r := by
    have := abs_le_of_sq_le_sq (a := W) (b := r) (by nlinarith) hr0.le
    rwa [abs_of_nonneg hW0] at this
  have hPQ : (|Z| / r) ^ 2 + (W / r) ^ 2 = 1 := by
    rw [div_pow, div_pow, sq_abs, ← add_div, hW2, hr2]
    rw [div_eq_one_iff_eq (by rw [← hr2]; positivity)]
    ring
  have hzr0 : 0 ≤ |Z| / r := by positivity
  have hwr0 : 0 ≤ W / r := by positivity
  have hzr1 : |Z| / r ≤ 1 := (div_le_one hr0).2 bZ
  have hwr1 : W / r ≤ 1 := (div_le_one hr0).2 bW
  have hp0 := sq_nonneg (|Z| / r)
  have hq0 := sq_nonneg (W / r)
  obtain ⟨u, a4r, eu, e4, ⟨k, ek, nk⟩, ⟨k', ek', nk'⟩, b5, g5⟩ := front2 K r1 nr ns nc hp0 (by linarith) hq0 (by linarith)
  have hrpos : 0 < val r' := by have := (abs_le.1 nr.2).1; norm_num at this; linarith
  have hbig : ¬ (lt r' (lit 100000) = true) := by
    rw [lt_val nr.1 (lit_near (q := 100000) (by norm_num)).1]
    have h1 := (lit_near (q := 100000) (by norm_num)).2
    have := (abs_le.1 nr.2).1
    have h2 := (abs_le.1 h1).2
    push_cast at h2
    norm_num at this
    linarith
  have n03 : Near (ofMag false (3 / 10)) (3 / 10) (1 / 10 ^ 16) := by
    have := ofMag_near false (q := 3 / 10) (by norm_num) (by norm_num)
    refine Near.mono ?_ (show ((3 / 10 : ℚ) : ℝ) / 2 ^ 53 + 1 / 10 ^ 70 ≤ 1 / 10 ^ 16 by norm_num)
    have e : (if false = true then -((3 / 10 : ℚ) : ℝ) else ((3 / 10 : ℚ) : ℝ)) = 3 / 10 := by norm_num
    rwa [e] at this
  by_cases hb : lt (ofMag false (3 / 10)) c2 = true
  · -- first branch
    have hY : 2999 / 10000 < (W / r) ^ 2 := by
      rw [lt_val n03.1 nc.1] at hb
      have h1 := (abs_le.1 n03.2).1
      have h2 := (abs_le.1 nc.2).2
      norm_num at h1 h2 ⊢
      linarith
    have hZr : |Z| / r ≤ 8368 / 10000 := by
      by_contra hn
      have : (8368 / 10000 : ℝ) ^ 2 ≤ (|Z| / r) ^ 2 := pow_le_pow_left₀ (by norm_num) (by linarith) 2
      norm_num at this
      linarith
    obtain ⟨zr, ez, nzr⟩ := (hz.abs.mono hε2).div_sc nr (Q := 1) (g := 16 / 10 ^ 10) (abs_le_of hzr0 hzr1) (le_abs_self r) hr0
      (by norm_num) (by norm_num) (by norm_num)
    have hzr' : 0 ≤ val zr := by
      refine div_val_nonneg hz.abs.1 nr.1 ?_ hrpos ez
      rw [(val_abs hz.1).2]; exact abs_nonneg _
    have h1k := (lit_near (q := 1) (by norm_num)).add nk (B := 10071 / 10000) (g := 4 / 10 ^ 11)
      (by push_cast; have := abs_le.1 b5; rw [abs_le]; constructor <;> linarith) (by norm_num) (by norm_num)
    push_cast at h1k
    have h1k0 : 0 ≤ val ((lit 1).add k) := by
      have := (abs_le.1 h1k.2).1
      have := (abs_le.1 b5).1
      norm_num at *
      linarith
    have nS := nzr.mul h1k (R := 1) (S := 10071 / 10000) (g := 17 / 10 ^ 10) (abs_le_of hzr0 hzr1)
      (by have := abs_le.1 b5; rw [abs_le]; constructor <;> linarith) (by norm_num) (by norm_num)
    have hS0 : 0 ≤ val (zr.mul ((lit 1).add k)) := mul_val_nonneg nzr.1 h1k.1 hzr' h1k0
    have hS1 : val (zr.mul ((lit 1).add k)) ≤ 843 / 1000 := by
      have h1 := (abs_le.1 nS.2).2
      have h2 : |Z| / r * (1 + k1 (Geo.smajAxis * wE2 / r) ((|Z| / r) ^ 2) ((W / r) ^ 2)) ≤ 8368 / 10000 * (10071 / 10000) :=
        mul_le_mul hZr (by linarith [(abs_le.1 b5).2]) (by linarith [(abs_le.1 b5).1]) (by norm_num)
      norm_num at h1 h2 ⊢
      linarith
    obtain ⟨lat, c, θ, el, ecc, t0, t1, hsin, nl, nss, ncc⟩ := finish1 hl nS.1 hS0 hS1
    refine ⟨_, w, lat, zr.mul ((lit 1).add k), _, c, θ, ?_, t0, t1, .inl ⟨by norm_num at hY ⊢; linarith, ?_⟩, K.e2, nw, nl, ?_, nss, ncc⟩
    · refine ecef_split lib x y z ef _ rfl _ rfl ea3 _ _ rfl rfl ew er hbig es ec eu e4 ?_
      unfold guessPart
      rw [if_pos hb, ez, ok_bind, ek, ok_bind]
      dsimp only
      rw [el, ok_bind, ecc, ok_bind]
      rfl
    · rw [hsin]; exact nS.2.trans (by norm_num)
    · rw [hsin]; exact (Near.exact nS.1).mono (by norm_num)
  · have hY : (W / r) ^ 2 ≤ 3001 / 10000 := by
      rw [lt_val n03.1 nc.1] at hb
      have h1 := (abs_le.1 n03.2).2
      have h2 := (abs_le.1 nc.2).1
      norm_num at h1 h2 hb ⊢
      linarith
    have hWr : W / r ≤ 548 / 1000 := by
      by_contra hn
      have : (548 / 1000 : ℝ) ^ 2 ≤ (W / r) ^ 2 := pow_le_pow_left₀ (by norm_num) (by linarith) 2
      norm_num at this
      linarith
    obtain ⟨wr, ez, nwr⟩ := nw'.div_sc nr (Q := 1) (g := 18 / 10 ^ 10) (abs_le_of hwr0 hwr1) (le_abs_self r) hr0
      (by norm_num) (by norm_num) (by norm_num)
    have hwr' : 0 ≤ val wr := div_val_nonneg nw.1 nr.1 hw0 hrpos ez
    have h1k := (lit_near (q := 1) (by norm_num)).sub nk' (B := 10071 / 10000) (g := 4 / 10 ^ 11)
      (by push_cast; have := abs_le.1 g5; rw [abs_le]; constructor <;> linarith) (by norm_num) (by norm_num)
    push_cast at h1k
    have h1k0 : 0 ≤ val ((lit 1).sub k') := by
      have := (abs_le.1 h1k.2).1
      have := (abs_le.1 g5).2
      norm_num at *
      linarith
    have nC := nwr.mul h1k (R := 1) (S := 10071 / 10000) (g := 19 / 10 ^ 10) (abs_le_of hwr0 hwr1)
      (by have := abs_le.1 g5; rw [abs_le]; constructor <;> linarith) (by norm_num) (by norm_num)
    have hC0 : 0 ≤ val (wr.mul ((lit 1).sub k')) := mul_val_nonneg nwr.1 h1k.1 hwr' h1k0
    have hC1 : val (wr.mul ((lit 1).sub k')) ≤ 552 / 1000 := by
      have h1 := (abs_le.1 nC.2).2
      have h2 : W / r * (1 - k2 (Geo.smajAxis * wE2 / r) ((|Z| / r) ^ 2) ((W / r) ^ 2)) ≤ 548 / 1000 * (10071 / 10000) :=
        mul_le_mul hWr (by linarith [(abs_le.1 g5).1]) (by linarith [(abs_le.1 g5).2]) (by norm_num)
      norm_num at h1 h2 ⊢
      linarith
    obtain ⟨lat, s, θ, el, ess, t0, t1, hcos, nl, nss, nsn⟩ := finish2 hl nC.1 hC0 hC1
    refine ⟨_, w, lat, s, _, wr.mul ((lit 1).sub k'), θ, ?_, t0, t1, .inr ⟨by norm_num at hY ⊢; linarith, ?_⟩, K.e2, nw, nl, nsn, nss, ?_⟩
    · refine ecef_split lib x y z ef _ rfl _ rfl ea3 _ _ rfl rfl ew er hbig es ec eu e4 ?_
      unfold guessPart
      rw [if_neg hb, ez, ok_bind, ek', ok_bind]
      dsimp only
      rw [el, ok_bind, ess, ok_bind]
      rfl
    · rw [hcos]; exact nC.2.trans (by norm_num)
    · rw [hcos]; exact (Near.exact nC.1).mono (by norm_num)

end Nmea.GeoF
