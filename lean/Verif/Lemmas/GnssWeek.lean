import Verif.Lemmas.GnssTime
/-!
# Week number and time of week
-/
set_option linter.unusedSimpArgs false
namespace Nmea
open Py

theorem epochOf_eq (g : Gnss) : epochOf g = (weekZero g, weekCycle g) := by
  cases g <;> decide

theorem weekCycle_pos (g : Gnss) : 0 < weekCycle g := by cases g <;> decide

theorem weekUs_val : weekUs = 604800000000 := by decide

theorem weekZero_bounds (g : Gnss) :
    midnight 1980 1 ≤ weekZero g ∧ weekZero g ≤ midnight 2006 1 := by cases g <;> decide

theorem midnight_vals : midnight 1972 1 = 2272060800000000 ∧ midnight 1980 1 = 2524521600000000 ∧
    midnight 2006 1 = 3345062400000000 := by decide

theorem taiMinus_le (g : Gnss) {t : Int} (h : weekZero g ≤ t) : taiMinus g ≤ taiUtc t := by
  refine le_trans ?_ (taiUtc_mono h)
  cases g <;> decide

theorem ahead_bounds (g : Gnss) {t : Int} (h : weekZero g ≤ t) : 0 ≤ ahead g t ∧ ahead g t ≤ 18 := by
  have h1 := taiMinus_le g h
  have h2 := taiUtc_le t
  unfold ahead
  split
  · omega
  · constructor
    · omega
    · unfold taiMinus; split <;> omega

theorem leapsecond_ahead {g : Gnss} {t : Int} (hg : g ≠ .glo) (h0 : weekZero g ≤ t)
    (h1 : |t| ≤ 2 ^ 60) : leapsecond t g = .ok (ahead g t) := by
  have hz := weekZero_bounds g
  have hm := midnight_vals
  rw [leapsecond_eq h1, if_neg (by omega), ahead, if_neg hg]

/-- `floor(days / 7)` in floating point is the exact quotient. -/
theorem floor_div7 {d : Int} (h0 : 0 ≤ d) (h1 : d < 2 ^ 30) :
    (PyFloat.ofRat ((d : ℚ) / 7)).toRat.floor = d / 7 := by
  have hd0 : (0 : ℚ) ≤ d := by exact_mod_cast h0
  have hd1 : (d : ℚ) < 2 ^ 30 := by exact_mod_cast h1
  rw [PyFloat.ofRat_nonneg (by positivity)
    (by rw [div_le_iff₀ (by norm_num)]; exact le_of_lt (lt_trans hd1 (by norm_num)))]
  simp only [PyFloat.toRat, Bool.false_eq_true, if_false]
  rw [ratFloor, Int.floor_eq_iff]
  set n := d / 7 with hn
  have hlo : n * 7 ≤ d := by omega
  have hhi : d ≤ n * 7 + 6 := by omega
  have hlo' : (n : ℚ) * 7 ≤ d := by exact_mod_cast hlo
  have hhi' : (d : ℚ) ≤ n * 7 + 6 := by exact_mod_cast hhi
  constructor
  · apply le_roundMag
    · rw [le_div_iff₀ (by norm_num)]; exact hlo'
    · have := PyFloat.isF64_int (n := n) (by rw [abs_of_nonneg (by omega)]; omega)
      rwa [abs_of_nonneg (by exact_mod_cast (by omega : (0:ℤ) ≤ n))] at this
  · have he := roundMag_abs_err (q := (d : ℚ) / 7) (e := 30) (by positivity)
      (by rw [div_lt_iff₀ (by norm_num)]; refine lt_trans hd1 (by norm_num)) (by norm_num)
    have : (2 : ℚ) ^ ((30 : ℤ) - 54) < 1 / 7 := by norm_num
    have h3 : (d : ℚ) / 7 ≤ n + 6 / 7 := by
      rw [div_le_iff₀ (by norm_num)]; rw [add_mul]; norm_num; linarith
    have := (abs_le.mp he).2
    linarith

/-- The float time of week before truncation. -/
def towFloat (D ls W : Int) : PyFloat :=
  PyFloat.sub (PyFloat.mul (PyFloat.add (PyFloat.ofRat (totalSeconds D)) (PyFloat.ofRat (ls : ℚ)))
    (.fin false 1000)) (PyFloat.ofRat (W : ℚ))

/-- Whole-second inputs: every float step is exact. -/
theorem towFloat_exact {k ls W : Int} (hk0 : 0 ≤ k) (hk1 : k < 2 ^ 38) (hl0 : 0 ≤ ls)
    (hl1 : ls ≤ 18) (hW0 : 0 ≤ W) (hW : W ≤ k * 1000) :
    towFloat (k * 1000000) ls W = .fin false (((k + ls) * 1000 - W : Int) : ℚ) := by
  have F : ∀ n : Int, 0 ≤ n → n ≤ 2 ^ 53 → IsF64 (n : ℚ) := by
    intro n h0 h1
    have := PyFloat.isF64_int (n := n) (by rw [abs_of_nonneg h0]; exact h1)
    rwa [abs_of_nonneg (by exact_mod_cast h0)] at this
  have R : ∀ n : Int, 0 ≤ n → n ≤ 2 ^ 53 → PyFloat.ofRat (n : ℚ) = .fin false (n : ℚ) := by
    intro n h0 h1
    rw [PyFloat.ofRat_nonneg (by exact_mod_cast h0) ?_, roundMag_f64 (F n h0 h1)]
    have : (n : ℚ) ≤ 2 ^ 53 := by exact_mod_cast h1
    exact le_trans this (by norm_num)
  have tS : totalSeconds (k * 1000000) = (k : ℚ) := by
    rw [totalSeconds_eq (by rw [abs_of_nonneg (by omega)]; omega)]
    push_cast
    rw [mul_div_assoc, div_self (by norm_num), mul_one]
    exact PyFloat.rnd_int (by rw [abs_of_nonneg hk0]; omega)
  have e1 : PyFloat.add (.fin false (k : ℚ)) (.fin false (ls : ℚ)) = .fin false ((k + ls : Int) : ℚ) := by
    simp only [PyFloat.add, PyFloat.toRat, Bool.false_eq_true, if_false, Bool.and_self]
    have hc : (k : ℚ) + (ls : ℚ) = ((k + ls : Int) : ℚ) := by push_cast; ring
    rw [hc]
    split
    · next h => rw [h]
    · exact R _ (by omega) (by omega)
  have e2 : PyFloat.mul (.fin false ((k + ls : Int) : ℚ)) (.fin false 1000)
      = .fin false (((k + ls) * 1000 : Int) : ℚ) := by
    simp only [PyFloat.mul, bne_self_eq_false]
    have hc : ((k + ls : Int) : ℚ) * 1000 = (((k + ls) * 1000 : Int) : ℚ) := by push_cast; ring
    rw [hc, PyFloat.ofMag_small, roundMag_f64 (F _ (by omega) (by omega))]
    have : (((k + ls) * 1000 : Int) : ℚ) ≤ 2 ^ 53 := by
      exact_mod_cast (by omega : (k + ls) * 1000 ≤ 2 ^ 53)
    exact le_trans this (by norm_num)
  unfold towFloat
  rw [tS, R k hk0 (by omega), R ls hl0 (by omega), e1, e2, R W hW0 (by omega)]
  simp only [PyFloat.sub, PyFloat.neg, PyFloat.add, PyFloat.toRat, Bool.false_eq_true, if_false,
    Bool.not_false, if_true, Bool.and_true]
  have hc : (((k + ls) * 1000 : Int) : ℚ) + -(W : ℚ) = (((k + ls) * 1000 - W : Int) : ℚ) := by
    push_cast; ring
  rw [hc]
  split
  · next h => rw [h]
  · exact R _ (by omega) (by omega)

theorem towFloat_spec {D ls W : Int} (hD0 : 0 ≤ D) (hD1 : D ≤ maxInstant) (hl0 : 0 ≤ ls)
    (hl1 : ls ≤ 18) (hW0 : 0 ≤ W) (hW : W * 1000 ≤ D) (hW1 : D < W * 1000 + weekUs) :
    ∃ (s : Bool) (m y : ℚ), towFloat D ls W = .fin s m ∧ 0 ≤ m ∧ y = (if s then -m else m) ∧
      |y - ((D : ℚ) / 1000 + 1000 * ls - W)| ≤ 1 / 20 := by
  have hDq0 : (0 : ℚ) ≤ D := by exact_mod_cast hD0
  have hDq1 : (D : ℚ) ≤ 255611289599999999 := by rw [maxInstant_val] at hD1; exact_mod_cast hD1
  have hlq0 : (0 : ℚ) ≤ ls := by exact_mod_cast hl0
  have hlq1 : (ls : ℚ) ≤ 18 := by exact_mod_cast hl1
  have hWq0 : (0 : ℚ) ≤ W := by exact_mod_cast hW0
  have hWq : (W : ℚ) * 1000 ≤ D := by exact_mod_cast hW
  have hWq1 : (D : ℚ) < W * 1000 + 604800000000 := by rw [weekUs_val] at hW1; exact_mod_cast hW1
  -- seconds
  set x : ℚ := (D : ℚ) / 1000000 with hx
  have hDx : (D : ℚ) = x * 1000000 := by rw [hx]; ring
  have hx0 : 0 ≤ x := by positivity
  set S : ℚ := roundMag x with hS
  have hS0 : 0 ≤ S := roundMag_nonneg _
  have hx1 : x ≤ 255611289600 := by
    rw [hx, div_le_iff₀ (by norm_num)]; refine le_trans hDq1 (by norm_num)
  have x38 : (2 : ℚ) ^ (38 : ℤ) = 274877906944 := by norm_num
  have eS := abs_le.mp (roundMag_abs_err (q := x) (e := 38) hx0
    (by rw [x38]; linarith) (by norm_num))
  have tS : totalSeconds D = S := by
    rw [totalSeconds_eq (by rw [abs_of_nonneg hD0]; rw [maxInstant_val] at hD1; omega), PyFloat.rnd,
      if_neg (not_lt.mpr (by positivity))]
  have c1 : (2 : ℚ) ^ ((38 : ℤ) - 54) = 1 / 65536 := by norm_num
  rw [c1, ← hS] at eS
  have hS1 : S ≤ 255611289601 := by linarith [eS.2]
  have fS : PyFloat.ofRat S = .fin false S := by
    rw [PyFloat.ofRat_nonneg hS0 (le_trans hS1 (by norm_num)), hS, roundMag_idem]
  have fl : PyFloat.ofRat (ls : ℚ) = .fin false (ls : ℚ) := by
    rw [PyFloat.ofRat_nonneg hlq0 (le_trans hlq1 (by norm_num)), roundMag_f64]
    have := PyFloat.isF64_int (n := ls) (by rw [abs_of_nonneg hl0]; omega)
    rwa [abs_of_nonneg hlq0] at this
  -- plus leap seconds
  set A : ℚ := roundMag (S + ls) with hA
  have hA0 : 0 ≤ A := roundMag_nonneg _
  have fA : PyFloat.add (.fin false S) (.fin false (ls : ℚ)) = .fin false A := by
    simp only [PyFloat.add, PyFloat.toRat, Bool.false_eq_true, if_false, Bool.and_self]
    split
    · next h => rw [hA, h, roundMag_zero]
    · rw [PyFloat.ofRat_nonneg (by positivity)]
      refine le_trans (add_le_add hS1 hlq1) (by norm_num)
  have eA := abs_le.mp (roundMag_abs_err (q := S + ls) (e := 38) (by positivity)
    (by rw [x38]; linarith) (by norm_num))
  rw [c1, ← hA] at eA
  have hA1 : A ≤ 255611289620 := by linarith [eA.2]
  -- milliseconds
  set T : ℚ := roundMag (A * 1000) with hT
  have hT0 : 0 ≤ T := roundMag_nonneg _
  have fT : PyFloat.mul (.fin false A) (.fin false 1000) = .fin false T := by
    simp only [PyFloat.mul, bne_self_eq_false]
    rw [PyFloat.ofMag_small]
    refine le_trans (mul_le_mul_of_nonneg_right hA1 (by norm_num)) (by norm_num)
  have eT := abs_le.mp (roundMag_abs_err (q := A * 1000) (e := 48) (by positivity)
    (by rw [show (2 : ℚ) ^ (48 : ℤ) = 281474976710656 by norm_num]; linarith) (by norm_num))
  rw [show (2 : ℚ) ^ ((48 : ℤ) - 54) = 1 / 64 by norm_num, ← hT] at eT
  have hW2 : W ≤ 2 ^ 53 := by rw [maxInstant_val] at hD1; omega
  have hWq2 : (W : ℚ) ≤ 2 ^ 53 := by exact_mod_cast hW2
  have fW : PyFloat.ofRat (W : ℚ) = .fin false (W : ℚ) := by
    rw [PyFloat.ofRat_nonneg hWq0 (le_trans hWq2 (by norm_num)), roundMag_f64]
    have := PyFloat.isF64_int (n := W) (by rw [abs_of_nonneg hW0]; exact hW2)
    rwa [abs_of_nonneg hWq0] at this
  have hdm : (D : ℚ) / 1000 = x * 1000 := by rw [hDx]; ring
  -- the difference
  have hd1 : |(T - W) - ((D : ℚ) / 1000 + 1000 * ls - W)| ≤ 47 / 1000 := by
    rw [abs_le, hdm]
    constructor <;> linarith [eS.1, eS.2, eA.1, eA.2, eT.1, eT.2]
  have hd2 : |T - W| < (2 : ℚ) ^ (30 : ℤ) := by
    rw [show (2 : ℚ) ^ (30 : ℤ) = 1073741824 by norm_num, abs_lt]
    rw [abs_le, hdm] at hd1
    rw [hDx] at hWq hWq1
    constructor <;> linarith [hd1.1, hd1.2]
  have eY := PyFloat.rnd_abs_err hd2 (by norm_num)
  have hY : |PyFloat.rnd (T - W) - ((D : ℚ) / 1000 + 1000 * ls - W)| ≤ 1 / 20 := by
    rw [show (2 : ℚ) ^ ((30 : ℤ) - 54) = 1 / 16777216 by norm_num] at eY
    rw [abs_le] at eY hd1 ⊢
    constructor <;> linarith [eY.1, eY.2, hd1.1, hd1.2]
  have hf : towFloat D ls W
      = if T - W = 0 then .fin false 0 else PyFloat.ofRat (T - W) := by
    unfold towFloat
    rw [tS, fS, fl, fA, fT, fW]
    simp only [PyFloat.sub, PyFloat.neg, PyFloat.add, PyFloat.toRat, Bool.false_eq_true, if_false,
      Bool.not_false, if_true, Bool.and_true, ← sub_eq_add_neg]
  have hb : |T - W| ≤ 2 ^ (64 : ℕ) := le_trans (le_of_lt hd2) (by norm_num)
  rw [abs_le] at hb
  by_cases h0 : T - W = 0
  · rw [if_pos h0] at hf
    refine ⟨false, 0, 0, hf, le_refl _, by simp, ?_⟩
    rw [h0] at hY
    simpa [PyFloat.rnd, roundMag_zero] using hY
  · rw [if_neg h0] at hf
    by_cases hneg : T - W < 0
    · rw [PyFloat.ofRat_neg hneg (by linarith)] at hf
      refine ⟨true, _, _, hf, roundMag_nonneg _, rfl, ?_⟩
      rw [PyFloat.rnd, if_pos hneg] at hY
      simpa using hY
    · rw [PyFloat.ofRat_nonneg (not_lt.mp hneg) hb.2] at hf
      refine ⟨false, _, _, hf, roundMag_nonneg _, rfl, ?_⟩
      rw [PyFloat.rnd, if_neg hneg] at hY
      simpa using hY

/-- Truncation of the float time of week. -/
theorem tow_trunc {D ls W : Int} (hD0 : 0 ≤ D) (hD1 : D ≤ maxInstant) (hl0 : 0 ≤ ls)
    (hl1 : ls ≤ 18) (hW0 : 0 ≤ W) (hW : W * 1000 ≤ D) (hW1 : D < W * 1000 + weekUs) :
    ∃ tow : Int, (towFloat D ls W).toInt = .ok tow ∧ 0 ≤ tow ∧
      D + 1000000 * ls - W * 1000 - 1050 < tow * 1000 ∧
      tow * 1000 ≤ D + 1000000 * ls - W * 1000 + 50 ∧
      (1000000 ∣ D → tow * 1000 = D + 1000000 * ls - W * 1000) := by
  obtain ⟨s, m, y, hf, hm, hy, he⟩ := towFloat_spec hD0 hD1 hl0 hl1 hW0 hW hW1
  rw [hf]
  have hex : ∀ tow : Int, PyFloat.toInt (.fin s m) = .ok tow →
      (1000000 ∣ D → tow * 1000 = D + 1000000 * ls - W * 1000) := by
    intro tow ht ⟨k, hk⟩
    rw [mul_comm] at hk
    have hx := towFloat_exact (k := k) (ls := ls) (W := W) (by omega)
      (by rw [maxInstant_val] at hD1; omega) hl0 hl1 hW0 (by omega)
    rw [← hk, hf] at hx
    rw [hx] at ht
    simp only [PyFloat.toInt, Bool.false_eq_true, if_false, ratFloor, Int.floor_intCast,
      Except.ok.injEq] at ht
    omega
  rw [abs_le] at he
  have hWq : (W : ℚ) * 1000 ≤ D := by exact_mod_cast hW
  have hlq0 : (0 : ℚ) ≤ ls := by exact_mod_cast hl0
  set x : ℚ := (D : ℚ) / 1000 with hx
  have hDx : (D : ℚ) = x * 1000 := by rw [hx]; ring
  rw [hDx] at hWq
  cases s with
  | false =>
    simp only [Bool.false_eq_true, if_false] at hy
    refine ⟨⌊m⌋, by simp [PyFloat.toInt, ratFloor], Int.floor_nonneg.mpr hm, ?_, ?_, ?_⟩
    · have := Int.lt_floor_add_one m
      have h2 : ((D + 1000000 * ls - W * 1000 - 1050 : Int) : ℚ) < ((⌊m⌋ * 1000 : Int) : ℚ) := by
        push_cast; rw [hDx]; rw [hy] at he; linarith [he.1]
      exact_mod_cast h2
    · have := Int.floor_le m
      have h2 : ((⌊m⌋ * 1000 : Int) : ℚ) ≤ ((D + 1000000 * ls - W * 1000 + 50 : Int) : ℚ) := by
        push_cast; rw [hDx]; rw [hy] at he; linarith [he.2]
      exact_mod_cast h2
    · exact hex _ (by simp [PyFloat.toInt, ratFloor])
  | true =>
    simp only [if_true] at hy
    have hm1 : m ≤ 1 / 20 := by
      have : -m ≥ -(1 / 20) := by rw [← hy]; linarith [he.1]
      linarith
    have hfl : ⌊m⌋ = 0 := by rw [Int.floor_eq_iff]; constructor <;> (push_cast; linarith)
    refine ⟨0, by simp [PyFloat.toInt, ratFloor, hfl], le_refl _, ?_, ?_, ?_⟩
    · have h2 : ((D + 1000000 * ls - W * 1000 - 1050 : Int) : ℚ) < ((0 * 1000 : Int) : ℚ) := by
        push_cast; rw [hDx]; linarith [he.1]
      exact_mod_cast h2
    · have h2 : ((0 * 1000 : Int) : ℚ) ≤ ((D + 1000000 * ls - W * 1000 + 50 : Int) : ℚ) := by
        push_cast; rw [hDx]; linarith
      exact_mod_cast h2
    · exact hex _ (by simp [PyFloat.toInt, ratFloor, hfl])

theorem weekOf_days (g : Gnss) (t : Int) : (t - weekZero g) / usDay / 7 = weekOf g t := by
  unfold weekOf
  rw [weekUs_val, Int.ediv_ediv_of_nonneg (by decide)]
  rfl

/-- `utc2wnotow` on every instant from the first week on. -/
theorem utc2wnotow_spec {g : Gnss} {t : Int} (h0 : weekZero g ≤ t) (h1 : t ≤ maxInstant)
    (modwno : Bool) :
    ∃ tow : Int, utc2wnotow t g modwno
        = .ok (if modwno then weekOf g t % weekCycle g else weekOf g t, tow, ahead g t) ∧
      0 ≤ tow ∧
      intoWeek g t + 1000000 * ahead g t - 1050 < tow * 1000 ∧
      tow * 1000 ≤ intoWeek g t + 1000000 * ahead g t + 50 ∧
      (1000000 ∣ t → tow * 1000 = intoWeek g t + 1000000 * ahead g t) := by
  have hz := weekZero_bounds g
  have hm := midnight_vals
  have hmx := maxInstant_val
  have ha := ahead_bounds g h0
  have hls : (if g = .glo then pure 0 else leapsecond t g : Except Err Int) = .ok (ahead g t) := by
    by_cases hg : g = .glo
    · simp [hg, ahead, pure, Except.pure]
    · rw [if_neg hg, leapsecond_ahead hg h0 (by rw [abs_of_nonneg (by omega)]; omega)]
  have hdm : 604800000000 * weekOf g t + intoWeek g t = t - weekZero g :=
    Int.mul_ediv_add_emod _ weekUs
  have hw0 : 0 ≤ weekOf g t := Int.ediv_nonneg (by omega) (by decide)
  have hi0 : 0 ≤ intoWeek g t := Int.emod_nonneg _ (by decide)
  have hi1 : intoWeek g t < weekUs := Int.emod_lt_of_pos _ (by decide)
  have hwk := weekUs_val
  have hfl : (PyFloat.ofRat ((((t - weekZero g) / usDay : Int) : ℚ) / 7)).toRat.floor = weekOf g t := by
    rw [floor_div7 (Int.ediv_nonneg (by omega) (by decide)) ?_, weekOf_days]
    apply Int.ediv_lt_of_lt_mul (by decide); show _ < _ * (86400000000 : Int); omega
  obtain ⟨tow, ht, p0, p1, p2, p3⟩ := tow_trunc (D := t - weekZero g) (ls := ahead g t)
    (W := weekOf g t * 604800000) (by omega) (by omega) ha.1 ha.2 (by omega) (by omega) (by omega)
  refine ⟨tow, ?_, p0, by omega, by omega, ?_⟩
  · unfold utc2wnotow
    simp only [epochOf_eq, hls, hfl]
    simp only [towFloat] at ht
    simp only [bind, Except.bind, pure, Except.pure]
    by_cases hg : g = .glo
    · have ha0 : ahead g t = 0 := by simp [ahead, hg]
      rw [ha0] at ht ⊢
      rw [if_pos hg, ht]
    · rw [if_neg hg] at hls
      rw [if_neg hg]
      simp only [hls, ht]
  · intro hd
    have : (1000000 : Int) ∣ weekZero g := by cases g <;> decide
    have := p3 (by omega)
    omega

end Nmea
