import Verif.Spec.GeoFloat
import Verif.Lemmas.Float
import Mathlib.Analysis.SpecialFunctions.Trigonometric.Bounds
/-!
# Error propagation through float operations
-/
namespace Nmea.GeoF
open Py PyFloat

theorem roundMag_any_err {q : ℚ} (h : 0 ≤ q) : |roundMag q - q| ≤ q / 2 ^ 53 + 1 / 10 ^ 70 := by
  rcases h.eq_or_lt with rfl | hq
  · rw [roundMag_zero]; norm_num
  · by_cases hn : (2 : ℚ) ^ (-1022 : ℤ) ≤ q
    · refine (roundMag_rel_err hn).trans ?_
      have : (2 : ℚ) ^ (-53 : ℤ) = 1 / 2 ^ 53 := by norm_num
      rw [this]
      have : (0 : ℚ) ≤ 1 / 10 ^ 70 := by positivity
      linarith
    · refine (roundMag_abs_err (e := -1021) h ?_ (le_refl _)).trans ?_
      · exact (not_le.1 hn).trans (zpow_lt_zpow_right₀ (by norm_num) (by norm_num))
      · have : (2 : ℚ) ^ ((-1021 : ℤ) - 54) ≤ 1 / 10 ^ 70 :=
          (zpow_le_zpow_right₀ (n := -240) (by norm_num) (by norm_num)).trans (by norm_num)
        have : 0 ≤ q / 2 ^ 53 := by positivity
        linarith

theorem roundMag_any_err_real {q : ℚ} (h : 0 ≤ q) :
    |((roundMag q : ℚ) : ℝ) - (q : ℝ)| ≤ (q : ℝ) / 2 ^ 53 + 1 / 10 ^ 70 := by
  have := roundMag_any_err h
  have h2 : ((|roundMag q - q| : ℚ) : ℝ) ≤ ((q / 2 ^ 53 + 1 / 10 ^ 70 : ℚ) : ℝ) := by exact_mod_cast this
  push_cast at h2
  exact h2

theorem val_fin (s : Bool) (m : ℚ) : val (.fin s m) = if s then -(m : ℝ) else m := by
  cases s <;> simp [val, toRat]

theorem abs_val_fin (s : Bool) {m : ℚ} (h : 0 ≤ m) : |val (.fin s m)| = m := by
  have : (0 : ℝ) ≤ m := by exact_mod_cast h
  cases s <;> simp [val_fin, abs_of_nonneg this]

theorem Finite.cases {x : PyFloat} (h : Finite x) : ∃ s m, x = .fin s m ∧ 0 ≤ m := by
  cases x with
  | fin s m => exact ⟨s, m, rfl, h⟩
  | inf => cases h
  | nan => cases h

/-- A rounded magnitude with a sign. -/
theorem ofMag_near (s : Bool) {q : ℚ} (h0 : 0 ≤ q) (h : q ≤ 2 ^ 64) :
    Near (ofMag s q) (if s then -(q : ℝ) else q) ((q : ℝ) / 2 ^ 53 + 1 / 10 ^ 70) := by
  rw [ofMag_small h]
  refine ⟨roundMag_nonneg q, ?_⟩
  have := roundMag_any_err_real h0
  cases s
  · simpa [val_fin] using this
  · simp only [val_fin, if_true]
    rw [← abs_neg]
    convert this using 2
    ring

theorem ofRat_near {q : ℚ} (h : |q| ≤ 2 ^ 64) : Near (ofRat q) q (|(q : ℝ)| / 2 ^ 53 + 1 / 10 ^ 70) := by
  unfold ofRat
  by_cases hq : q < 0
  · rw [abs_of_neg hq] at h
    have := ofMag_near true (q := -q) (by linarith) h
    have e : |(q : ℝ)| = -q := abs_of_neg (by exact_mod_cast hq)
    rw [e]
    simpa [hq] using this
  · have h0 : 0 ≤ q := not_lt.1 hq
    rw [abs_of_nonneg h0] at h
    have := ofMag_near false (q := q) h0 h
    have e : |(q : ℝ)| = q := abs_of_nonneg (by exact_mod_cast h0)
    rw [e]
    simpa [hq] using this

/-- The float sum is within half a unit of the sum of the floats. -/
theorem add_near' {x y : PyFloat} (hx : Finite x) (hy : Finite y) (h : |val x + val y| ≤ 2 ^ 64) :
    Near (add x y) (val x + val y) (|val x + val y| / 2 ^ 53 + 1 / 10 ^ 70) := by
  obtain ⟨s, a, rfl, ha⟩ := hx.cases
  obtain ⟨t, b, rfl, hb⟩ := hy.cases
  have e : val (.fin s a) + val (.fin t b) = ((toRat (.fin s a) + toRat (.fin t b) : ℚ) : ℝ) := by
    unfold val; push_cast; ring
  rw [e] at h ⊢
  show Near (if toRat (.fin s a) + toRat (.fin t b) = 0 then _ else _) _ _
  split
  · rename_i h0
    rw [h0]
    refine ⟨le_refl _, ?_⟩
    have : val (.fin (s && t) 0) = 0 := by simp [val_fin]
    rw [this]; norm_num
  · exact ofRat_near (by exact_mod_cast h)

theorem mul_near' {x y : PyFloat} (hx : Finite x) (hy : Finite y) (h : |val x * val y| ≤ 2 ^ 64) :
    Near (mul x y) (val x * val y) (|val x * val y| / 2 ^ 53 + 1 / 10 ^ 70) := by
  obtain ⟨s, a, rfl, ha⟩ := hx.cases
  obtain ⟨t, b, rfl, hb⟩ := hy.cases
  have hab : 0 ≤ a * b := mul_nonneg ha hb
  have e2 : |val (.fin s a) * val (.fin t b)| = ((a * b : ℚ) : ℝ) := by
    rw [abs_mul, abs_val_fin s ha, abs_val_fin t hb]; push_cast; ring
  rw [e2] at h ⊢
  have e : val (.fin s a) * val (.fin t b) = if (s != t) then -((a * b : ℚ) : ℝ) else ((a * b : ℚ) : ℝ) := by
    cases s <;> cases t <;> simp [val_fin]
  rw [e]
  exact ofMag_near (s != t) hab (by exact_mod_cast h)

theorem div_near' {x y : PyFloat} (hx : Finite x) (hy : Finite y) (h0 : val y ≠ 0) (h : |val x / val y| ≤ 2 ^ 64) :
    ∃ z, div x y = .ok z ∧ Near z (val x / val y) (|val x / val y| / 2 ^ 53 + 1 / 10 ^ 70) := by
  obtain ⟨s, a, rfl, ha⟩ := hx.cases
  obtain ⟨t, b, rfl, hb⟩ := hy.cases
  have hb0 : b ≠ 0 := by
    intro hc; apply h0; simp [val_fin, hc]
  refine ⟨ofMag (s != t) (a / b), by simp only [div, if_neg hb0], ?_⟩
  have hab : 0 ≤ a / b := div_nonneg ha hb
  have e2 : |val (.fin s a) / val (.fin t b)| = ((a / b : ℚ) : ℝ) := by
    rw [abs_div, abs_val_fin s ha, abs_val_fin t hb]; push_cast; ring
  rw [e2] at h ⊢
  have e : val (.fin s a) / val (.fin t b) = if (s != t) then -((a / b : ℚ) : ℝ) else ((a / b : ℚ) : ℝ) := by
    cases s <;> cases t <;> simp [val_fin, neg_div, div_neg]
  rw [e]
  exact ofMag_near (s != t) hab (by exact_mod_cast h)

theorem Near.neg {x : PyFloat} {r e : ℝ} (h : Near x r e) : Near (PyFloat.neg x) (-r) e := by
  obtain ⟨hf, h⟩ := h
  obtain ⟨s, a, rfl, ha⟩ := hf.cases
  refine ⟨ha, ?_⟩
  rw [← abs_neg]
  convert h using 2
  cases s <;> simp [PyFloat.neg, val_fin] <;> ring

theorem val_neg {x : PyFloat} (h : Finite x) : val (PyFloat.neg x) = -val x := by
  obtain ⟨s, a, rfl, ha⟩ := h.cases
  cases s <;> simp [PyFloat.neg, val_fin]

theorem val_abs {x : PyFloat} (h : Finite x) : Finite (PyFloat.abs x) ∧ val (PyFloat.abs x) = |val x| := by
  obtain ⟨s, a, rfl, ha⟩ := h.cases
  refine ⟨ha, ?_⟩
  rw [abs_val_fin s ha]
  simp [PyFloat.abs, val_fin]

theorem Near.abs {x : PyFloat} {r e : ℝ} (h : Near x r e) : Near (PyFloat.abs x) |r| e := by
  obtain ⟨h1, h2⟩ := val_abs h.1
  exact ⟨h1, by rw [h2]; exact (abs_abs_sub_abs_le _ _).trans h.2⟩

theorem Near.mono {x : PyFloat} {r e e' : ℝ} (h : Near x r e) (he : e ≤ e') : Near x r e' := ⟨h.1, h.2.trans he⟩

theorem Near.exact {x : PyFloat} (h : Finite x) : Near x (val x) 0 := ⟨h, by simp⟩

theorem Near.bound {x : PyFloat} {r e B : ℝ} (h : Near x r e) (hB : |r| ≤ B) : |val x| ≤ B + e := by
  have : |val x| ≤ |r| + |val x - r| := by
    calc |val x| = |r + (val x - r)| := by ring_nf
      _ ≤ _ := abs_add_le _ _
  linarith [h.2]

/-- Sum: the errors add up, and there is one rounding. -/
theorem Near.add {x y : PyFloat} {r s e f B g : ℝ} (hx : Near x r e) (hy : Near y s f) (hB : |r + s| ≤ B)
    (hg : e + f + (B + (e + f)) / 2 ^ 53 + 1 / 10 ^ 70 ≤ g) (hsmall : B + (e + f) ≤ 2 ^ 64) :
    Near (PyFloat.add x y) (r + s) g := by
  have h1 : |val x + val y - (r + s)| ≤ e + f := by
    calc |val x + val y - (r + s)| = |(val x - r) + (val y - s)| := by ring_nf
      _ ≤ _ := (abs_add_le _ _).trans (add_le_add hx.2 hy.2)
  have h2 : |val x + val y| ≤ B + (e + f) := by
    calc |val x + val y| = |(r + s) + (val x + val y - (r + s))| := by ring_nf
      _ ≤ _ := (abs_add_le _ _).trans (add_le_add hB h1)
  have h3 := add_near' hx.1 hy.1 (h2.trans hsmall)
  refine ⟨h3.1, ?_⟩
  calc |val (PyFloat.add x y) - (r + s)| = |(val (PyFloat.add x y) - (val x + val y)) + (val x + val y - (r + s))| := by ring_nf
    _ ≤ _ := abs_add_le _ _
    _ ≤ (B + (e + f)) / 2 ^ 53 + 1 / 10 ^ 70 + (e + f) := by
      refine add_le_add (h3.2.trans ?_) h1
      gcongr
    _ ≤ g := by linarith

theorem Near.sub {x y : PyFloat} {r s e f B g : ℝ} (hx : Near x r e) (hy : Near y s f) (hB : |r - s| ≤ B)
    (hg : e + f + (B + (e + f)) / 2 ^ 53 + 1 / 10 ^ 70 ≤ g) (hsmall : B + (e + f) ≤ 2 ^ 64) :
    Near (PyFloat.sub x y) (r - s) g := by
  have := Near.add (B := B) (g := g) hx hy.neg (by rwa [← sub_eq_add_neg]) hg hsmall
  rwa [← sub_eq_add_neg] at this

/-- Product. -/
theorem Near.mul {x y : PyFloat} {r s e f R S g : ℝ} (hx : Near x r e) (hy : Near y s f) (hR : |r| ≤ R) (hS : |s| ≤ S)
    (hg : R * f + S * e + e * f + ((R + e) * (S + f)) / 2 ^ 53 + 1 / 10 ^ 70 ≤ g) (hsmall : (R + e) * (S + f) ≤ 2 ^ 64) :
    Near (PyFloat.mul x y) (r * s) g := by
  have hxb := hx.bound hR
  have hyb := hy.bound hS
  have he : 0 ≤ e := (abs_nonneg _).trans hx.2
  have hf : 0 ≤ f := (abs_nonneg _).trans hy.2
  have hR0 : 0 ≤ R := (abs_nonneg _).trans hR
  have hS0 : 0 ≤ S := (abs_nonneg _).trans hS
  have h2 : |val x * val y| ≤ (R + e) * (S + f) := by
    rw [abs_mul]; exact mul_le_mul hxb hyb (abs_nonneg _) (by linarith)
  have h1 : |val x * val y - r * s| ≤ R * f + S * e + e * f := by
    calc |val x * val y - r * s| = |r * (val y - s) + s * (val x - r) + (val x - r) * (val y - s)| := by ring_nf
      _ ≤ |r * (val y - s)| + |s * (val x - r)| + |(val x - r) * (val y - s)| := by
        refine (abs_add_le _ _).trans ?_
        linarith [abs_add_le (r * (val y - s)) (s * (val x - r))]
      _ ≤ _ := by
        rw [abs_mul, abs_mul, abs_mul]
        refine add_le_add (add_le_add ?_ ?_) ?_
        · exact mul_le_mul hR hy.2 (abs_nonneg _) hR0
        · exact mul_le_mul hS hx.2 (abs_nonneg _) hS0
        · exact mul_le_mul hx.2 hy.2 (abs_nonneg _) he
  have h3 := mul_near' hx.1 hy.1 (h2.trans hsmall)
  refine ⟨h3.1, ?_⟩
  calc |val (PyFloat.mul x y) - r * s| = |(val (PyFloat.mul x y) - val x * val y) + (val x * val y - r * s)| := by ring_nf
    _ ≤ _ := abs_add_le _ _
    _ ≤ ((R + e) * (S + f)) / 2 ^ 53 + 1 / 10 ^ 70 + (R * f + S * e + e * f) := by
      refine add_le_add (h3.2.trans ?_) h1
      gcongr
    _ ≤ g := by linarith

/-- Quotient: `|s| ≥ S > f`. -/
theorem Near.div {x y : PyFloat} {r s e f Q S g : ℝ} (hx : Near x r e) (hy : Near y s f) (hQ : |r / s| ≤ Q) (hS : S ≤ |s|)
    (hSf : f < S) (hg : (e + Q * f) / (S - f) + (Q + (e + Q * f) / (S - f)) / 2 ^ 53 + 1 / 10 ^ 70 ≤ g)
    (hsmall : Q + (e + Q * f) / (S - f) ≤ 2 ^ 64) :
    ∃ z, PyFloat.div x y = .ok z ∧ Near z (r / s) g := by
  have he : 0 ≤ e := (abs_nonneg _).trans hx.2
  have hf : 0 ≤ f := (abs_nonneg _).trans hy.2
  have hQ0 : 0 ≤ Q := (abs_nonneg _).trans hQ
  have hs0 : s ≠ 0 := by
    intro h; rw [h, abs_zero] at hS; linarith
  have hyb : S - f ≤ |val y| := by
    have : |s| ≤ |val y| + |val y - s| := by
      calc |s| = |val y - (val y - s)| := by ring_nf
        _ ≤ _ := abs_sub _ _
    linarith [hy.2]
  have hpos : 0 < S - f := by linarith
  have hy0 : val y ≠ 0 := by
    intro h; rw [h, abs_zero] at hyb; linarith
  have h1 : |val x / val y - r / s| ≤ (e + Q * f) / (S - f) := by
    have : val x / val y - r / s = ((val x - r) - (r / s) * (val y - s)) / val y := by
      field_simp; ring
    rw [this, abs_div]
    refine div_le_div₀ (by positivity) ?_ hpos hyb
    refine (abs_sub _ _).trans ?_
    refine add_le_add hx.2 ?_
    rw [abs_mul]
    exact mul_le_mul hQ hy.2 (abs_nonneg _) hQ0
  have h2 : |val x / val y| ≤ Q + (e + Q * f) / (S - f) := by
    calc |val x / val y| = |r / s + (val x / val y - r / s)| := by ring_nf
      _ ≤ _ := (abs_add_le _ _).trans (add_le_add hQ h1)
  obtain ⟨z, hz, h3⟩ := div_near' hx.1 hy.1 hy0 (h2.trans hsmall)
  refine ⟨z, hz, h3.1, ?_⟩
  calc |val z - r / s| = |(val z - val x / val y) + (val x / val y - r / s)| := by ring_nf
    _ ≤ _ := abs_add_le _ _
    _ ≤ (Q + (e + Q * f) / (S - f)) / 2 ^ 53 + 1 / 10 ^ 70 + (e + Q * f) / (S - f) := by
      refine add_le_add (h3.2.trans ?_) h1
      gcongr
    _ ≤ g := by linarith

theorem math1_fin {f : PyFloat → PyFloat} {x : PyFloat} (h : Finite (f x)) : math1 f x = .ok (f x) := by
  obtain ⟨s, m, he, _⟩ := h.cases
  unfold math1
  rw [he]

theorem math1_nan {f : PyFloat → PyFloat} {x : PyFloat} (hx : Finite x) (h : f x = .nan) : math1 f x = .error .value := by
  obtain ⟨s, m, rfl, _⟩ := hx.cases
  unfold math1
  rw [h]

variable {lib : Libm} (hl : Accurate lib)
include hl

theorem Near.sin {x : PyFloat} {r e B : ℝ} (hx : Near x r e) (hB : |r| ≤ B) (h10 : B + e ≤ 10) :
    ∃ y, math1 lib.sin x = .ok y ∧ Near y (Real.sin r) (e + 1 / 2 ^ 52) ∧ |val y| ≤ 1 := by
  obtain ⟨h1, h2⟩ := hl.sin x hx.1 ((hx.bound hB).trans h10)
  refine ⟨_, math1_fin h1.1, ⟨h1.1, ?_⟩, h2⟩
  have := Real.abs_sin_sub_sin_le (val x) r
  have h3 := abs_sub_le (val (lib.sin x)) (Real.sin (val x)) (Real.sin r)
  linarith [h1.2, hx.2]

theorem Near.cos {x : PyFloat} {r e B : ℝ} (hx : Near x r e) (hB : |r| ≤ B) (h10 : B + e ≤ 10) :
    ∃ y, math1 lib.cos x = .ok y ∧ Near y (Real.cos r) (e + 1 / 2 ^ 52) ∧ |val y| ≤ 1 := by
  obtain ⟨h1, h2⟩ := hl.cos x hx.1 ((hx.bound hB).trans h10)
  refine ⟨_, math1_fin h1.1, ⟨h1.1, ?_⟩, h2⟩
  have := Real.abs_cos_sub_cos_le (val x) r
  have h3 := abs_sub_le (val (lib.cos x)) (Real.cos (val x)) (Real.cos r)
  linarith [h1.2, hx.2]

end Nmea.GeoF
