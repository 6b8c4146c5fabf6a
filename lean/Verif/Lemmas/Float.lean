import Verif.Py.Float
import Mathlib.Tactic.Linarith
import Mathlib.Tactic.Ring
import Mathlib.Tactic.FieldSimp
import Mathlib.Tactic.NormNum
import Mathlib.Tactic.Positivity
import Mathlib.Tactic.Push
import Mathlib.Tactic.Zify
import Mathlib.Data.Rat.Floor
import Mathlib.Algebra.Order.Floor.Ring
import Mathlib.Algebra.Order.Archimedean.Basic
import Mathlib.Algebra.Order.Field.Power
/-!
# Theory of the binary64 rounding function

`roundMag` is round-to-nearest-even on the grid of binary64 magnitudes: it is monotone, fixes
every representable magnitude and errs by at most half a unit in the last place.
-/
namespace Py

theorem pow2_eq (e : Int) : pow2 e = (2 : ℚ) ^ e := by
  cases e with
  | ofNat n => simp [pow2]
  | negSucc n => simp [pow2, zpow_negSucc]

theorem pow10_eq (e : Int) : pow10 e = (10 : ℚ) ^ e := by
  cases e with
  | ofNat n => simp [pow10]
  | negSucc n => simp [pow10, zpow_negSucc]

theorem pow2_pos (e : Int) : 0 < pow2 e := by rw [pow2_eq]; positivity

theorem pow10_pos (e : Int) : 0 < pow10 e := by rw [pow10_eq]; positivity

theorem ratFloor (q : ℚ) : q.floor = ⌊q⌋ := rfl

/-! ## Rounding to an integer -/

theorem rhe_cases (q : ℚ) :
    (q - (⌊q⌋ : ℚ) < 1 / 2 ∧ roundHalfEven q = ⌊q⌋) ∨
    (1 / 2 < q - (⌊q⌋ : ℚ) ∧ roundHalfEven q = ⌊q⌋ + 1) ∨
    (q - (⌊q⌋ : ℚ) = 1 / 2 ∧ roundHalfEven q = if ⌊q⌋ % 2 = 0 then ⌊q⌋ else ⌊q⌋ + 1) := by
  show (q - (q.floor : ℚ) < 1 / 2 ∧ roundHalfEven q = q.floor) ∨
    (1 / 2 < q - (q.floor : ℚ) ∧ roundHalfEven q = q.floor + 1) ∨
    (q - (q.floor : ℚ) = 1 / 2 ∧ roundHalfEven q = if q.floor % 2 = 0 then q.floor else q.floor + 1)
  simp only [roundHalfEven]
  by_cases h1 : q - (q.floor : ℚ) < 1 / 2
  · exact Or.inl ⟨h1, if_pos h1⟩
  · by_cases h2 : 1 / 2 < q - (q.floor : ℚ)
    · exact Or.inr (Or.inl ⟨h2, by rw [if_neg h1, if_pos h2]⟩)
    · exact Or.inr (Or.inr ⟨le_antisymm (not_lt.mp h2) (not_lt.mp h1), by rw [if_neg h1, if_neg h2]⟩)

theorem rhe_bounds (q : ℚ) : ⌊q⌋ ≤ roundHalfEven q ∧ roundHalfEven q ≤ ⌊q⌋ + 1 := by
  rcases rhe_cases q with ⟨-, e⟩ | ⟨-, e⟩ | ⟨-, e⟩ <;> rw [e]
  · omega
  · omega
  · split <;> omega

theorem rhe_err (q : ℚ) : |(roundHalfEven q : ℚ) - q| ≤ 1 / 2 := by
  have h1 := Int.floor_le q
  have h2 := Int.lt_floor_add_one q
  rcases rhe_cases q with ⟨h, e⟩ | ⟨h, e⟩ | ⟨h, e⟩ <;> rw [e]
  · rw [abs_le]; constructor <;> linarith
  · push_cast; rw [abs_le]; constructor <;> linarith
  · split
    · rw [abs_le]; constructor <;> linarith
    · push_cast; rw [abs_le]; constructor <;> linarith

theorem rhe_int (n : ℤ) : roundHalfEven (n : ℚ) = n := by
  unfold roundHalfEven
  simp [ratFloor]

theorem rhe_unique {q : ℚ} {n : ℤ} (h : |(n : ℚ) - q| < 1 / 2) : roundHalfEven q = n := by
  have h1 := rhe_err q
  have : |((roundHalfEven q - n : ℤ) : ℚ)| < 1 := by
    push_cast
    calc |(roundHalfEven q : ℚ) - n| = |((roundHalfEven q : ℚ) - q) - ((n : ℚ) - q)| := by ring_nf
      _ ≤ |(roundHalfEven q : ℚ) - q| + |(n : ℚ) - q| := abs_sub _ _
      _ < 1 := by linarith
  have h3 : |roundHalfEven q - n| < 1 := by exact_mod_cast this
  have := Int.abs_lt_one_iff.mp h3
  omega

theorem rhe_mono {p q : ℚ} (h : p ≤ q) : roundHalfEven p ≤ roundHalfEven q := by
  have hf : ⌊p⌋ ≤ ⌊q⌋ := Int.floor_le_floor h
  have hb := rhe_bounds
  rcases lt_or_eq_of_le hf with hl | he
  · have := (hb p).2; have := (hb q).1; omega
  · rcases rhe_cases p with ⟨h1, e1⟩ | ⟨h1, e1⟩ | ⟨h1, e1⟩ <;>
    rcases rhe_cases q with ⟨h2, e2⟩ | ⟨h2, e2⟩ | ⟨h2, e2⟩ <;> rw [e1, e2] <;> rw [he] at * <;>
    first
    | omega
    | (exfalso; linarith)


theorem rhe_le {q : ℚ} {n : ℤ} (h : q ≤ n) : roundHalfEven q ≤ n := by
  have := rhe_mono h; rwa [rhe_int] at this

theorem rhe_ge {q : ℚ} {n : ℤ} (h : (n : ℚ) ≤ q) : n ≤ roundHalfEven q := by
  have := rhe_mono h; rwa [rhe_int] at this

/-! ## Exponents -/

theorem floorLog2_spec {q : ℚ} (hq : 0 < q) :
    (2 : ℚ) ^ (floorLog2 q) ≤ q ∧ q < (2 : ℚ) ^ (floorLog2 q + 1) := by
  have hn : 0 < q.num := Rat.num_pos.mpr hq
  have hnn : q.num.natAbs ≠ 0 := by omega
  have hd : q.den ≠ 0 := q.den_ne_zero
  have a1 : 2 ^ (q.num.natAbs).log2 ≤ q.num.natAbs := Nat.log2_self_le hnn
  have a2 : q.num.natAbs < 2 ^ ((q.num.natAbs).log2 + 1) := Nat.lt_log2_self
  have b1 : 2 ^ (q.den).log2 ≤ q.den := Nat.log2_self_le hd
  have b2 : q.den < 2 ^ ((q.den).log2 + 1) := Nat.lt_log2_self
  have e : q = (q.num.natAbs : ℚ) / (q.den : ℚ) := by
    have : ((q.num.natAbs : ℕ) : ℚ) = (q.num : ℚ) := by
      have : ((q.num.natAbs : ℕ) : ℤ) = q.num := by omega
      rw [← this]; simp
    rw [this]; exact (Rat.num_div_den q).symm
  generalize hN : q.num.natAbs = N at *
  generalize hD : q.den = D at *
  have a1' : (2 : ℚ) ^ N.log2 ≤ N := by exact_mod_cast a1
  have a2' : (N : ℚ) < 2 ^ (N.log2 + 1) := by exact_mod_cast a2
  have b1' : (2 : ℚ) ^ D.log2 ≤ D := by exact_mod_cast b1
  have b2' : (D : ℚ) < 2 ^ (D.log2 + 1) := by exact_mod_cast b2
  have dpos : (0 : ℚ) < D := by exact_mod_cast Nat.pos_of_ne_zero hd
  -- `q < 2^(e+1)` and `2^(e-1) < q` for `e = log2 N - log2 D`
  have up : q < (2 : ℚ) ^ ((N.log2 : ℤ) - D.log2 + 1) := by
    rw [e, div_lt_iff₀ dpos]
    calc (N : ℚ) < 2 ^ (N.log2 + 1) := a2'
      _ = (2 : ℚ) ^ ((N.log2 : ℤ) - D.log2 + 1) * 2 ^ D.log2 := by
        rw [← zpow_natCast, ← zpow_natCast, ← zpow_add₀ (by norm_num)]; congr 1; push_cast; ring
      _ ≤ _ := by gcongr
  have lo : (2 : ℚ) ^ ((N.log2 : ℤ) - D.log2 - 1) ≤ q := by
    rw [e, le_div_iff₀ dpos]
    calc (2 : ℚ) ^ ((N.log2 : ℤ) - D.log2 - 1) * D
        ≤ (2 : ℚ) ^ ((N.log2 : ℤ) - D.log2 - 1) * 2 ^ (D.log2 + 1) := by gcongr
      _ = 2 ^ N.log2 := by
        rw [← zpow_natCast, ← zpow_natCast, ← zpow_add₀ (by norm_num)]; congr 1; push_cast; ring
      _ ≤ _ := a1'
  unfold floorLog2
  simp only [hN, hD, pow2_eq]
  split
  · next h => exact ⟨h, up⟩
  · next h =>
    refine ⟨lo, ?_⟩
    rw [sub_add_cancel]
    exact not_le.mp h

theorem floorLog2_unique {q : ℚ} {e : ℤ} (h1 : (2 : ℚ) ^ e ≤ q) (h2 : q < (2 : ℚ) ^ (e + 1)) :
    floorLog2 q = e := by
  have hq : 0 < q := lt_of_lt_of_le (by positivity) h1
  obtain ⟨a, b⟩ := floorLog2_spec hq
  have x : e < floorLog2 q + 1 := (zpow_lt_zpow_iff_right₀ (by norm_num)).mp (lt_of_le_of_lt h1 b)
  have y : floorLog2 q < e + 1 := (zpow_lt_zpow_iff_right₀ (by norm_num)).mp (lt_of_le_of_lt a h2)
  omega

theorem floorLog2_mono {p q : ℚ} (hp : 0 < p) (h : p ≤ q) : floorLog2 p ≤ floorLog2 q := by
  have a := (floorLog2_spec hp).1
  have b := (floorLog2_spec (lt_of_lt_of_le hp h)).2
  have : floorLog2 p < floorLog2 q + 1 :=
    (zpow_lt_zpow_iff_right₀ (a := (2 : ℚ)) (by norm_num)).mp (lt_of_le_of_lt (le_trans a h) b)
  omega

theorem ulpExp_mono {p q : ℚ} (hp : 0 < p) (h : p ≤ q) : ulpExp p ≤ ulpExp q := by
  have := floorLog2_mono hp h
  unfold ulpExp; omega

/-- A magnitude is below `2^53` units in its last place. -/
theorem lt_ulp {q : ℚ} (hq : 0 < q) : q < 2 ^ (53 : ℕ) * (2 : ℚ) ^ ulpExp q := by
  have h := (floorLog2_spec hq).2
  refine lt_of_lt_of_le h ?_
  rw [← zpow_natCast, ← zpow_add₀ (by norm_num)]
  apply zpow_le_zpow_right₀ (by norm_num)
  unfold ulpExp; push_cast; omega

/-! ## Rounding to binary64 -/

theorem roundMag_zero : roundMag 0 = 0 := by simp [roundMag]

theorem roundMag_pos_eq {q : ℚ} (hq : 0 < q) :
    roundMag q = (roundHalfEven (q / (2 : ℚ) ^ ulpExp q) : ℚ) * (2 : ℚ) ^ ulpExp q := by
  unfold roundMag
  rw [if_neg (not_le.mpr hq), pow2_eq]

/-- The error is at most half a unit in the last place. -/
theorem roundMag_err {q : ℚ} (hq : 0 < q) : |roundMag q - q| ≤ (2 : ℚ) ^ ulpExp q / 2 := by
  rw [roundMag_pos_eq hq]
  have hu : (0 : ℚ) < (2 : ℚ) ^ ulpExp q := by positivity
  have h := rhe_err (q / (2 : ℚ) ^ ulpExp q)
  have e : (roundHalfEven (q / (2 : ℚ) ^ ulpExp q) : ℚ) * (2 : ℚ) ^ ulpExp q - q
      = ((roundHalfEven (q / (2 : ℚ) ^ ulpExp q) : ℚ) - q / (2 : ℚ) ^ ulpExp q)
        * (2 : ℚ) ^ ulpExp q := by
    field_simp
  rw [e, abs_mul, abs_of_pos hu]
  calc _ ≤ 1 / 2 * (2 : ℚ) ^ ulpExp q := by gcongr
    _ = _ := by ring

theorem roundMag_nonneg (q : ℚ) : 0 ≤ roundMag q := by
  by_cases hq : 0 < q
  · rw [roundMag_pos_eq hq]
    have : (0 : ℤ) ≤ roundHalfEven (q / (2 : ℚ) ^ ulpExp q) := rhe_ge (by push_cast; positivity)
    have : (0 : ℚ) ≤ (roundHalfEven (q / (2 : ℚ) ^ ulpExp q) : ℚ) := by exact_mod_cast this
    positivity
  · rw [roundMag, if_pos (not_lt.mp hq)]

/-- A magnitude of the binary64 grid (exponent unbounded above). -/
def IsF64 (q : ℚ) : Prop := ∃ (m : ℕ) (e : ℤ), m ≤ 2 ^ 53 ∧ -1074 ≤ e ∧ q = m * (2 : ℚ) ^ e

theorem IsF64.nonneg {q : ℚ} (h : IsF64 q) : 0 ≤ q := by
  obtain ⟨m, e, -, -, rfl⟩ := h; positivity

/-- Every multiple of `2^e'` with `e' ≥ ulpExp q` is fixed. -/
theorem roundMag_of_int {q : ℚ} (hq : 0 < q) {n : ℤ} (h : q = n * (2 : ℚ) ^ ulpExp q) :
    roundMag q = q := by
  rw [roundMag_pos_eq hq]
  have : q / (2 : ℚ) ^ ulpExp q = n := by
    rw [div_eq_iff (by positivity)]; exact h
  rw [this, rhe_int, ← h]

/-- The exponent of the last place of `m * 2^e`, `m ≤ 2^53`, is at most `e` (or the value is a power of two
whose last place is `e + 1`). -/
theorem roundMag_f64 {q : ℚ} (h : IsF64 q) : roundMag q = q := by
  obtain ⟨m, e, hm, he, rfl⟩ := h
  rcases Nat.eq_zero_or_pos m with rfl | mpos
  · simp [roundMag]
  have hq : (0 : ℚ) < m * (2 : ℚ) ^ e := by positivity
  set q : ℚ := m * (2 : ℚ) ^ e with hqd
  rcases Nat.lt_or_ge m (2 ^ 53) with hlt | hge
  · -- ulpExp q ≤ e
    have hu : ulpExp q ≤ e := by
      have h1 := (floorLog2_spec hq).1
      have h2 : q < (2 : ℚ) ^ (e + 53) := by
        rw [hqd, zpow_add₀ (by norm_num), mul_comm]
        have : (m : ℚ) < 2 ^ 53 := by exact_mod_cast hlt
        gcongr
        exact_mod_cast this
      have : floorLog2 q < e + 53 :=
        (zpow_lt_zpow_iff_right₀ (a := (2 : ℚ)) (by norm_num)).mp (lt_of_le_of_lt h1 h2)
      unfold ulpExp; omega
    apply roundMag_of_int hq (n := (m : ℤ) * 2 ^ (e - ulpExp q).toNat)
    have : (e : ℤ) = ((e - ulpExp q).toNat : ℤ) + ulpExp q := by omega
    push_cast
    rw [mul_assoc, ← zpow_natCast, ← zpow_add₀ (by norm_num), ← this]
  · have hm' : m = 2 ^ 53 := le_antisymm hm hge
    have hq2 : q = (2 : ℚ) ^ (e + 53) := by
      rw [hqd, hm', zpow_add₀ (by norm_num)]; push_cast; rw [mul_comm]
    have hfl : floorLog2 q = e + 53 := by
      apply floorLog2_unique
      · rw [hq2]
      · rw [hq2]; apply zpow_lt_zpow_right₀ (by norm_num); omega
    have hu : ulpExp q = e + 1 := by unfold ulpExp; omega
    apply roundMag_of_int hq (n := 2 ^ 52)
    rw [hu, hq2, show e + 53 = 52 + (e + 1) by ring, zpow_add₀ (by norm_num) 52]; norm_cast

/-- The result of rounding is on the grid. -/
theorem isF64_roundMag (q : ℚ) : IsF64 (roundMag q) := by
  by_cases hq : 0 < q
  · rw [roundMag_pos_eq hq]
    have h0 : (0 : ℤ) ≤ roundHalfEven (q / (2 : ℚ) ^ ulpExp q) := rhe_ge (by push_cast; positivity)
    have h1 : roundHalfEven (q / (2 : ℚ) ^ ulpExp q) ≤ 2 ^ 53 := by
      apply rhe_le
      rw [div_le_iff₀ (by positivity)]
      push_cast
      exact le_of_lt (lt_ulp hq)
    refine ⟨(roundHalfEven (q / (2 : ℚ) ^ ulpExp q)).toNat, ulpExp q, ?_, ?_, ?_⟩
    · omega
    · unfold ulpExp; omega
    · congr 1
      have : ((roundHalfEven (q / (2 : ℚ) ^ ulpExp q)).toNat : ℤ)
          = roundHalfEven (q / (2 : ℚ) ^ ulpExp q) := by omega
      exact_mod_cast this.symm
  · rw [roundMag, if_pos (not_lt.mp hq)]; exact ⟨0, 0, by norm_num, by norm_num, by simp⟩

theorem roundMag_idem (q : ℚ) : roundMag (roundMag q) = roundMag q :=
  roundMag_f64 (isF64_roundMag q)

theorem roundMag_mono {p q : ℚ} (h : p ≤ q) : roundMag p ≤ roundMag q := by
  by_cases hp : 0 < p
  swap
  · rw [roundMag, if_pos (not_lt.mp hp)]; exact roundMag_nonneg q
  have hq : 0 < q := lt_of_lt_of_le hp h
  have hu := ulpExp_mono hp h
  rcases lt_or_eq_of_le hu with hlt | heq
  · -- separated by the power of two `2^(ulpExp p + 53)`
    set y : ℚ := 2 ^ (53 : ℕ) * (2 : ℚ) ^ ulpExp p with hy
    have hyF : roundMag p ≤ y := by
      rw [roundMag_pos_eq hp, hy]
      have h1 : roundHalfEven (p / (2 : ℚ) ^ ulpExp p) ≤ 2 ^ 53 := by
        apply rhe_le
        rw [div_le_iff₀ (by positivity)]
        push_cast
        exact le_of_lt (lt_ulp hp)
      have : ((roundHalfEven (p / (2 : ℚ) ^ ulpExp p) : ℤ) : ℚ) ≤ 2 ^ 53 := by exact_mod_cast h1
      gcongr
    have hfl : ulpExp q = floorLog2 q - 52 := by
      have hp1 : -1074 ≤ ulpExp p := by unfold ulpExp; omega
      have hq1 : ulpExp q = max (floorLog2 q - 52) (-1074) := rfl
      omega
    have hyq : y ≤ roundMag q := by
      rw [roundMag_pos_eq hq]
      have h1 : (2 : ℤ) ^ 52 ≤ roundHalfEven (q / (2 : ℚ) ^ ulpExp q) := by
        apply rhe_ge
        rw [le_div_iff₀ (by positivity)]
        push_cast
        refine le_trans (le_of_eq ?_) (floorLog2_spec hq).1
        rw [show floorLog2 q = 52 + ulpExp q by omega, zpow_add₀ (by norm_num)]; norm_cast
      have h2 : (2 : ℚ) ^ 52 ≤ ((roundHalfEven (q / (2 : ℚ) ^ ulpExp q) : ℤ) : ℚ) := by
        exact_mod_cast h1
      calc y = 2 ^ 52 * (2 : ℚ) ^ (ulpExp p + 1) := by
            rw [hy, zpow_add₀ (by norm_num)]; ring
        _ ≤ 2 ^ 52 * (2 : ℚ) ^ (ulpExp q) := by
            gcongr
            · norm_num
            · omega
        _ ≤ _ := by gcongr
    exact le_trans hyF hyq
  · rw [roundMag_pos_eq hp, roundMag_pos_eq hq, heq]
    have : roundHalfEven (p / (2 : ℚ) ^ ulpExp q) ≤ roundHalfEven (q / (2 : ℚ) ^ ulpExp q) := by
      apply rhe_mono; gcongr
    have : (roundHalfEven (p / (2 : ℚ) ^ ulpExp q) : ℚ) ≤ roundHalfEven (q / (2 : ℚ) ^ ulpExp q) := by
      exact_mod_cast this
    gcongr

theorem roundMag_le {q y : ℚ} (h : q ≤ y) (hy : IsF64 y) : roundMag q ≤ y := by
  have := roundMag_mono h; rwa [roundMag_f64 hy] at this

theorem le_roundMag {q y : ℚ} (h : y ≤ q) (hy : IsF64 y) : y ≤ roundMag q := by
  have := roundMag_mono h; rwa [roundMag_f64 hy] at this

/-- Absolute error for magnitudes below a power of two. -/
theorem roundMag_abs_err {q : ℚ} {e : ℤ} (h0 : 0 ≤ q) (h1 : q < (2 : ℚ) ^ e) (he : -1021 ≤ e) :
    |roundMag q - q| ≤ (2 : ℚ) ^ (e - 54) := by
  rcases eq_or_lt_of_le h0 with rfl | hq
  · simp [roundMag_zero]; positivity
  refine le_trans (roundMag_err hq) ?_
  have : ulpExp q ≤ e - 53 := by
    have h2 : floorLog2 q < e :=
      (zpow_lt_zpow_iff_right₀ (a := (2 : ℚ)) (by norm_num)).mp (lt_of_le_of_lt (floorLog2_spec hq).1 h1)
    unfold ulpExp; omega
  calc (2 : ℚ) ^ ulpExp q / 2 ≤ (2 : ℚ) ^ (e - 53) / 2 := by gcongr; norm_num
    _ = (2 : ℚ) ^ (e - 54) := by
      rw [show e - 53 = (e - 54) + 1 by ring, zpow_add₀ (by norm_num)]; norm_num

/-- Relative error of normal magnitudes. -/
theorem roundMag_rel_err {q : ℚ} (h : (2 : ℚ) ^ (-1022 : ℤ) ≤ q) :
    |roundMag q - q| ≤ q * (2 : ℚ) ^ (-53 : ℤ) := by
  have hq : 0 < q := lt_of_lt_of_le (by positivity) h
  refine le_trans (roundMag_err hq) ?_
  have hs := floorLog2_spec hq
  have : -1022 < floorLog2 q + 1 :=
    (zpow_lt_zpow_iff_right₀ (a := (2 : ℚ)) (by norm_num)).mp (lt_of_le_of_lt h hs.2)
  have hu : ulpExp q = floorLog2 q - 52 := by unfold ulpExp; omega
  rw [hu]
  calc (2 : ℚ) ^ (floorLog2 q - 52) / 2 = (2 : ℚ) ^ (floorLog2 q) * (2 : ℚ) ^ (-53 : ℤ) := by
        rw [← zpow_add₀ (by norm_num), show floorLog2 q - 52 = (floorLog2 q + -53) + 1 by ring,
          zpow_add₀ (by norm_num) _ 1]; norm_num
    _ ≤ _ := by gcongr; exact hs.1

/-- Whole multiples of a grid spacing are representable. -/
theorem isF64_nat {m : ℕ} (h : m ≤ 2 ^ 53) : IsF64 (m : ℚ) := ⟨m, 0, h, by norm_num, by simp⟩

theorem isF64_zero : IsF64 0 := ⟨0, 0, by norm_num, by norm_num, by simp⟩

namespace PyFloat

/-- A finite float value that the type can hold. -/
def Wf : PyFloat → Prop
  | .fin _ m => IsF64 m ∧ m < f64Limit
  | _ => True

theorem ofMag_fin {neg : Bool} {q : ℚ} (h : roundMag q < f64Limit) :
    ofMag neg q = .fin neg (roundMag q) := by
  simp only [ofMag]; rw [if_neg (not_le.mpr h)]

theorem ofMag_wf (neg : Bool) (q : ℚ) : (ofMag neg q).Wf := by
  simp only [ofMag]; split
  · trivial
  · next h => exact ⟨isF64_roundMag q, not_le.mp h⟩

/-- Everything up to `2^64` rounds to a finite float. -/
theorem ofMag_small {neg : Bool} {q : ℚ} (h : q ≤ 2 ^ (64 : ℕ)) :
    ofMag neg q = .fin neg (roundMag q) := by
  apply ofMag_fin
  refine lt_of_le_of_lt (roundMag_le h ⟨1, 64, by norm_num, by norm_num, ?_⟩) ?_
  · rw [Nat.cast_one, one_mul]; norm_cast
  · rw [f64Limit, pow2_eq, ← zpow_natCast]; exact zpow_lt_zpow_right₀ (by norm_num) (by norm_num)

theorem ofRat_nonneg {q : ℚ} (h0 : 0 ≤ q) (h : q ≤ 2 ^ (64 : ℕ)) :
    ofRat q = .fin false (roundMag q) := by
  simp only [ofRat, not_lt.mpr h0, decide_false, if_false]
  exact ofMag_small h

theorem ofRat_neg {q : ℚ} (h0 : q < 0) (h : -q ≤ 2 ^ (64 : ℕ)) :
    ofRat q = .fin true (roundMag (-q)) := by
  simp only [ofRat, h0, decide_true, if_true]
  exact ofMag_small h

/-- Signed rounding of a rational. -/
def rnd (q : ℚ) : ℚ := if q < 0 then - roundMag (-q) else roundMag q

theorem toRat_ofRat {q : ℚ} (h : |q| ≤ 2 ^ (64 : ℕ)) : (ofRat q).toRat = rnd q := by
  rw [abs_le] at h
  by_cases h0 : q < 0
  · rw [ofRat_neg h0 (by linarith)]; simp [toRat, rnd, h0]
  · rw [ofRat_nonneg (not_lt.mp h0) h.2]; simp [toRat, rnd, h0]

theorem rnd_mono {p q : ℚ} (h : p ≤ q) : rnd p ≤ rnd q := by
  unfold rnd
  split <;> split
  · have := roundMag_mono (p := -q) (q := -p) (by linarith); linarith
  · have := roundMag_nonneg (-p); have := roundMag_nonneg q; linarith
  · linarith
  · exact roundMag_mono h

theorem rnd_exact {q : ℚ} (h : IsF64 |q|) : rnd q = q := by
  unfold rnd
  split
  · next h0 => rw [abs_of_neg h0] at h; rw [roundMag_f64 h]; ring
  · next h0 => rw [abs_of_nonneg (not_lt.mp h0)] at h; exact roundMag_f64 h

theorem rnd_abs_err {q : ℚ} {e : ℤ} (h1 : |q| < (2 : ℚ) ^ e) (he : -1021 ≤ e) :
    |rnd q - q| ≤ (2 : ℚ) ^ (e - 54) := by
  unfold rnd
  split
  · next h0 =>
    rw [abs_of_neg h0] at h1
    have := roundMag_abs_err (by linarith) h1 he
    rw [show -roundMag (-q) - q = -(roundMag (-q) - -q) by ring, abs_neg]; exact this
  · next h0 =>
    rw [abs_of_nonneg (not_lt.mp h0)] at h1
    exact roundMag_abs_err (not_lt.mp h0) h1 he

theorem isF64_int {n : ℤ} (h : |n| ≤ 2 ^ 53) : IsF64 |(n : ℚ)| := by
  refine ⟨n.natAbs, 0, by rw [abs_le] at h; omega, by norm_num, ?_⟩
  simp

theorem rnd_int {n : ℤ} (h : |n| ≤ 2 ^ 53) : rnd (n : ℚ) = n := rnd_exact (isF64_int h)

end PyFloat
end Py
