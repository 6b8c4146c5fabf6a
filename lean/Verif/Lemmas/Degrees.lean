import Verif.Lemmas.FloatText
import Verif.Model.Helpers
/-!
# Degrees and minutes
-/
set_option linter.unusedSimpArgs false
namespace Nmea
open Py

/-! ## Reading `(d)ddmm.mmm` -/

theorem ofMag_abs_err {neg : Bool} {q : ℚ} {e : ℤ} (h0 : 0 ≤ q) (h1 : q < (2 : ℚ) ^ e) (he : -1021 ≤ e)
    (h64 : e ≤ 64) : ∃ r, PyFloat.ofMag neg q = .fin neg r ∧ |r - q| ≤ (2 : ℚ) ^ (e - 54) ∧ 0 ≤ r ∧
      IsF64 r := by
  refine ⟨roundMag q, PyFloat.ofMag_small ?_, roundMag_abs_err h0 h1 he, roundMag_nonneg q,
    isF64_roundMag q⟩
  have : (2 : ℚ) ^ e ≤ (2 : ℚ) ^ (64 : ℤ) := zpow_le_zpow_right₀ (by norm_num) h64
  have h2 : (2 : ℚ) ^ (64 : ℤ) = 2 ^ (64 : ℕ) := by norm_cast
  rw [h2] at this
  linarith

theorem add_pos_fin {a b : ℚ} (ha : 0 ≤ a) (hb : 0 ≤ b) (h : a + b ≤ 2 ^ (64 : ℕ)) :
    PyFloat.add (.fin false a) (.fin false b) = .fin false (roundMag (a + b)) := by
  simp only [PyFloat.add, PyFloat.toRat, Bool.false_eq_true, if_false, Bool.and_self]
  split
  · next h0 => rw [h0, roundMag_zero]
  · exact PyFloat.ofRat_nonneg (by linarith) h

/-- `dmm2ddd` on text of the expected shape, step by step. -/
theorem dmm2ddd_text (ip fp : Str) (h1 : ∀ c ∈ ip, isAsciiDigit c = true)
    (h2 : ∀ c ∈ fp, isAsciiDigit c = true) (hl : 4 ≤ ip.length) :
    dmm2ddd (ip ++ 46 :: fp) =
      (match (PyFloat.div (PyFloat.ofMag false (((asciiDigitsVal ip % 100 : ℕ) : ℚ) +
            (asciiDigitsVal fp : ℚ) / 10 ^ fp.length)) (.fin false 60)) with
        | .ok q => (match PyFloat.roundTo (PyFloat.add
              (PyFloat.ofMag false ((asciiDigitsVal ip / 100 : ℕ) : ℚ)).abs q) 10 with
            | .ok x => .ok (.float x)
            | .error .value => .ok (.str [])
            | .error .type => .ok (.str [])
            | .error e => .error e)
        | .error .value => .ok (.str [])
        | .error .type => .ok (.str [])
        | .error e => .error e) := by
  have hfind : findChar 46 (ip ++ 46 :: fp) = some ip.length := by
    apply findChar_append
    intro hc
    have := h1 46 hc
    simp [isAsciiDigit] at this
  set a := ip.take (ip.length - 2) with ha
  set b := ip.drop (ip.length - 2) with hb
  have hab : ip = a ++ b := (List.take_append_drop _ _).symm
  have hbl : b.length = 2 := by rw [hb, List.length_drop]; omega
  have hal : a.length = ip.length - 2 := by rw [ha, List.length_take]; omega
  have ha1 : ∀ c ∈ a, isAsciiDigit c = true := fun c hc => h1 c (List.mem_of_mem_take hc)
  have hb1 : ∀ c ∈ b, isAsciiDigit c = true := fun c hc => h1 c (List.mem_of_mem_drop hc)
  have hane : a ≠ [] := by intro h0; rw [h0] at hal; simp at hal; omega
  have hbne : b ≠ [] := by intro h0; rw [h0] at hbl; simp at hbl
  have htake : (ip ++ 46 :: fp).take (ip.length - 2) = a := by
    rw [List.take_append_of_le_length (by omega)]
  have hdrop : (ip ++ 46 :: fp).drop (ip.length - 2) = b ++ 46 :: fp := by
    rw [List.drop_append_of_le_length (by omega)]
  have hv : asciiDigitsVal ip = asciiDigitsVal a * 100 + asciiDigitsVal b := by
    conv_lhs => rw [hab]
    rw [asciiVal_append, hbl]
  have hblt : asciiDigitsVal b < 100 := by
    have := ofDigits_lt 10 (b.map (· - 48)) (by
      intro d hd
      obtain ⟨c, hc, rfl⟩ := List.mem_map.mp hd
      have := hb1 c hc
      simp [isAsciiDigit] at this
      omega)
    rw [List.length_map, hbl] at this
    exact this
  have e1 : asciiDigitsVal ip / 100 = asciiDigitsVal a := by omega
  have e2 : asciiDigitsVal ip % 100 = asciiDigitsVal b := by omega
  have e3 : ((asciiDigitsVal (b ++ fp) : ℕ) : ℚ) * pow10 (-(fp.length : Int)) =
      (asciiDigitsVal b : ℚ) + (asciiDigitsVal fp : ℚ) / 10 ^ fp.length := by
    rw [asciiVal_append, pow10_eq, zpow_neg, zpow_natCast]
    push_cast
    field_simp
  unfold dmm2ddd
  simp only [hfind]
  rw [if_neg (by omega), htake, hdrop, floatOfStr_int a ha1 hane, floatOfStr_dot b fp hb1 h2 hbne,
    e3, e1, e2]
  simp only [bind, Except.bind]
  cases PyFloat.div (PyFloat.ofMag false ((asciiDigitsVal b : ℚ) + (asciiDigitsVal fp : ℚ) / 10 ^ fp.length)) (.fin false 60) with
  | error e => cases e <;> rfl
  | ok q => rfl

/-- Reading accuracy: degrees below 1000, exact decimal `D + M/60`, error below `6e-11`. -/
theorem dmm2ddd_accurate (ip fp : Str) (h1 : ∀ c ∈ ip, isAsciiDigit c = true)
    (h2 : ∀ c ∈ fp, isAsciiDigit c = true) (hl : 4 ≤ ip.length) (hb : asciiDigitsVal ip < 100000) :
    ∃ r, dmm2ddd (ip ++ 46 :: fp) = .ok (.float (.fin false r)) ∧ IsF64 r ∧
      ((asciiDigitsVal ip / 100 : ℕ) : ℚ) ≤ r ∧ |r - (((asciiDigitsVal ip / 100 : ℕ) : ℚ) +
        (((asciiDigitsVal ip % 100 : ℕ) : ℚ) + (asciiDigitsVal fp : ℚ) / 10 ^ fp.length) / 60)| ≤
        6 / 100000000000 := by
  rw [dmm2ddd_text ip fp h1 h2 hl]
  set D : ℕ := asciiDigitsVal ip / 100 with hD
  set I : ℕ := asciiDigitsVal ip % 100 with hI
  have hD0 : D < 1000 := by omega
  have hI0 : I < 100 := by omega
  have hF : (asciiDigitsVal fp : ℚ) / 10 ^ fp.length < 1 := by
    rw [div_lt_one (by positivity)]
    have := ofDigits_lt 10 (fp.map (· - 48)) (by
      intro d hd
      obtain ⟨c, hc, rfl⟩ := List.mem_map.mp hd
      have := h2 c hc
      simp [isAsciiDigit] at this
      omega)
    rw [List.length_map] at this
    exact_mod_cast this
  have hF0 : 0 ≤ (asciiDigitsVal fp : ℚ) / 10 ^ fp.length := by positivity
  generalize (asciiDigitsVal fp : ℚ) / 10 ^ fp.length = F at *
  have hDq : (D : ℚ) ≤ 999 := by exact_mod_cast (show D ≤ 999 by omega)
  have hIq : (I : ℚ) ≤ 99 := by exact_mod_cast (show I ≤ 99 by omega)
  have hD0q : (0 : ℚ) ≤ D := by positivity
  have hI0q : (0 : ℚ) ≤ I := by positivity
  -- degrees are exact
  have hdeg : (PyFloat.ofMag false (D : ℚ)).abs = .fin false (D : ℚ) := by
    rw [PyFloat.ofMag_small (by norm_num; linarith), roundMag_f64 (isF64_nat (by omega))]
    rfl
  obtain ⟨m, em, hm, hm0, -⟩ := ofMag_abs_err (neg := false) (q := (I : ℚ) + F) (e := 7) (by linarith)
    (by norm_num; linarith) (by norm_num) (by norm_num)
  have n1 : (2 : ℚ) ^ ((7 : ℤ) - 54) = 1 / 140737488355328 := by norm_num
  rw [n1, abs_le] at hm
  have hm1 : m ≤ 101 := by linarith [hm.2]
  rw [em, hdeg]
  have ediv : PyFloat.div (.fin false m) (.fin false 60) = .ok (PyFloat.ofMag false (m / 60)) := by
    simp [PyFloat.div]
  rw [ediv]
  obtain ⟨q, eq, hq, hq0, -⟩ := ofMag_abs_err (neg := false) (q := m / 60) (e := 1) (by linarith)
    (by norm_num; linarith) (by norm_num) (by norm_num)
  have n2 : (2 : ℚ) ^ ((1 : ℤ) - 54) = 1 / 9007199254740992 := by norm_num
  rw [n2, abs_le] at hq
  have hq1 : q ≤ 2 := by linarith [hq.2]
  rw [eq]
  simp only
  rw [add_pos_fin hD0q hq0 (by norm_num; linarith)]
  have ht := roundMag_abs_err (q := (D : ℚ) + q) (e := 10) (by linarith) (by norm_num; linarith) (by norm_num)
  have ht0 := roundMag_nonneg ((D : ℚ) + q)
  have n3 : (2 : ℚ) ^ ((10 : ℤ) - 54) = 1 / 17592186044416 := by norm_num
  rw [n3, abs_le] at ht
  have hDf : IsF64 (D : ℚ) := isF64_nat (by omega)
  have htD : (D : ℚ) ≤ roundMag ((D : ℚ) + q) := le_roundMag (by linarith) hDf
  generalize roundMag ((D : ℚ) + q) = t at *
  unfold PyFloat.roundTo
  simp only
  rw [if_neg (by norm_num), if_neg (by norm_num)]
  have hr := rhe_err (t * pow10 10)
  have p10 : pow10 10 = 10000000000 := by rw [pow10_eq]; norm_num
  have p10' : pow10 (-10) = 1 / 10000000000 := by rw [pow10_eq]; norm_num
  have hrn : 0 ≤ roundHalfEven (t * pow10 10) := rhe_ge (by rw [p10]; push_cast; linarith)
  have hrD : ((D * 10000000000 : ℕ) : ℤ) ≤ roundHalfEven (t * pow10 10) := by
    apply rhe_ge; rw [p10]; push_cast; linarith
  rw [p10] at hr hrn hrD
  rw [p10, p10']
  have hrq : (0 : ℚ) ≤ (roundHalfEven (t * 10000000000) : ℚ) := by exact_mod_cast hrn
  have hrDq : (D : ℚ) * 10000000000 ≤ (roundHalfEven (t * 10000000000) : ℚ) := by exact_mod_cast hrD
  generalize (roundHalfEven (t * 10000000000) : ℚ) = R at *
  rw [abs_le] at hr
  obtain ⟨r, er, hr1, hr0, hrf⟩ := ofMag_abs_err (neg := false) (q := R * (1 / 10000000000)) (e := 10)
    (by linarith) (by norm_num; linarith [hr.2, ht.2]) (by norm_num) (by norm_num)
  rw [n3, abs_le] at hr1
  have hrge : (D : ℚ) ≤ r := by
    have e := PyFloat.ofMag_small (neg := false) (q := R * (1 / 10000000000))
      (by norm_num; linarith [hr.2, ht.2])
    rw [e] at er
    have er' : roundMag (R * (1 / 10000000000)) = r := by injection er
    rw [← er']
    exact le_roundMag (by linarith) hDf
  rw [er]
  refine ⟨r, rfl, hrf, hrge, ?_⟩
  rw [abs_le]
  constructor <;> linarith [hr.1, hr.2, hr1.1, hr1.2, ht.1, ht.2, hq.1, hq.2, hm.1, hm.2]

/-- The float `dmm2ddd` computes from `D` degrees and `M` minutes, rounding by rounding. -/
def coordVal (D : ℕ) (M : ℚ) : ℚ :=
  roundMag ((roundHalfEven (roundMag ((D : ℚ) + roundMag (roundMag M / 60)) * 10000000000) : ℚ) * (1 / 10000000000))

/-- Reading `(d)ddmm.mmm`, as one value. -/
theorem dmm2ddd_exact (ip fp : Str) (h1 : ∀ c ∈ ip, isAsciiDigit c = true)
    (h2 : ∀ c ∈ fp, isAsciiDigit c = true) (hl : 4 ≤ ip.length) (hb : asciiDigitsVal ip < 100000) :
    dmm2ddd (ip ++ 46 :: fp) = .ok (.float (.fin false (coordVal (asciiDigitsVal ip / 100)
      (((asciiDigitsVal ip % 100 : ℕ) : ℚ) + (asciiDigitsVal fp : ℚ) / 10 ^ fp.length)))) := by
  rw [dmm2ddd_text ip fp h1 h2 hl]
  set D : ℕ := asciiDigitsVal ip / 100 with hD
  set I : ℕ := asciiDigitsVal ip % 100 with hI
  have hD0 : D < 1000 := by omega
  have hI0 : I < 100 := by omega
  have hF : (asciiDigitsVal fp : ℚ) / 10 ^ fp.length < 1 := by
    rw [div_lt_one (by positivity)]
    have := ofDigits_lt 10 (fp.map (· - 48)) (by
      intro d hd
      obtain ⟨c, hc, rfl⟩ := List.mem_map.mp hd
      have := h2 c hc
      simp [isAsciiDigit] at this
      omega)
    rw [List.length_map] at this
    exact_mod_cast this
  have hF0 : 0 ≤ (asciiDigitsVal fp : ℚ) / 10 ^ fp.length := by positivity
  generalize (asciiDigitsVal fp : ℚ) / 10 ^ fp.length = F at *
  have hDq : (D : ℚ) ≤ 999 := by exact_mod_cast (show D ≤ 999 by omega)
  have hIq : (I : ℚ) ≤ 99 := by exact_mod_cast (show I ≤ 99 by omega)
  have hD0q : (0 : ℚ) ≤ D := by positivity
  have hI0q : (0 : ℚ) ≤ I := by positivity
  have hdeg : (PyFloat.ofMag false (D : ℚ)).abs = .fin false (D : ℚ) := by
    rw [PyFloat.ofMag_small (by norm_num; linarith), roundMag_f64 (isF64_nat (by omega))]
    rfl
  have hm0 := roundMag_nonneg ((I : ℚ) + F)
  have hm1 : roundMag ((I : ℚ) + F) ≤ ((100 : ℕ) : ℚ) := roundMag_le (by push_cast; linarith) (isF64_nat (by norm_num))
  push_cast at hm1
  rw [PyFloat.ofMag_small (q := (I : ℚ) + F) (by norm_num; linarith), hdeg]
  have hq0 := roundMag_nonneg (roundMag ((I : ℚ) + F) / 60)
  have hq1 : roundMag (roundMag ((I : ℚ) + F) / 60) ≤ ((2 : ℕ) : ℚ) :=
    roundMag_le (by push_cast; linarith) (isF64_nat (by norm_num))
  push_cast at hq1
  have ediv : PyFloat.div (.fin false (roundMag ((I : ℚ) + F))) (.fin false 60) =
      .ok (.fin false (roundMag (roundMag ((I : ℚ) + F) / 60))) := by
    simp only [PyFloat.div]
    rw [if_neg (by norm_num), PyFloat.ofMag_small (by norm_num; linarith)]
    rfl
  rw [ediv]
  simp only
  rw [add_pos_fin hD0q hq0 (by norm_num; linarith)]
  have ht1 : roundMag ((D : ℚ) + roundMag (roundMag ((I : ℚ) + F) / 60)) ≤ ((1001 : ℕ) : ℚ) :=
    roundMag_le (by push_cast; linarith) (isF64_nat (by norm_num))
  push_cast at ht1
  unfold PyFloat.roundTo coordVal
  simp only
  rw [if_neg (by norm_num), if_neg (by norm_num)]
  have p10 : pow10 10 = 10000000000 := by rw [pow10_eq]; norm_num
  have p10' : pow10 (-10) = 1 / 10000000000 := by rw [pow10_eq]; norm_num
  rw [p10, p10']
  generalize roundMag ((D : ℚ) + roundMag (roundMag ((I : ℚ) + F) / 60)) = t at *
  have hr := rhe_err (t * 10000000000)
  rw [abs_le] at hr
  rw [PyFloat.ofMag_small (by norm_num; linarith [hr.2])]

theorem coordVal_zero : coordVal 0 0 = 0 := by decide +kernel

/-- More is not less. -/
theorem coordVal_mono {D E : ℕ} {M N : ℚ} (hM0 : 0 ≤ M) (hM1 : M < 60) (hN : N < 60)
    (h : (D : ℚ) + M / 60 ≤ E + N / 60) : coordVal D M ≤ coordVal E N := by
  have key : (D : ℚ) + roundMag (roundMag M / 60) ≤ E + roundMag (roundMag N / 60) := by
    have hm1 : roundMag M ≤ ((60 : ℕ) : ℚ) := roundMag_le (by push_cast; linarith) (isF64_nat (by norm_num))
    push_cast at hm1
    have hq : roundMag (roundMag M / 60) ≤ ((1 : ℕ) : ℚ) := roundMag_le (by push_cast; linarith) (isF64_nat (by norm_num))
    push_cast at hq
    have h0 := roundMag_nonneg (roundMag N / 60)
    rcases lt_trichotomy D E with hlt' | rfl | hgt
    · have : (D : ℚ) + 1 ≤ E := by exact_mod_cast hlt'
      linarith
    · have : M ≤ N := by linarith
      have := roundMag_mono this
      have := roundMag_mono (p := roundMag M / 60) (q := roundMag N / 60) (by linarith)
      linarith
    · exfalso
      have : (E : ℚ) + 1 ≤ D := by exact_mod_cast hgt
      linarith
  unfold coordVal
  apply roundMag_mono
  have := rhe_mono (p := roundMag ((D : ℚ) + roundMag (roundMag M / 60)) * 10000000000)
    (q := roundMag ((E : ℚ) + roundMag (roundMag N / 60)) * 10000000000) (by
      have := roundMag_mono key
      linarith)
  have : (roundHalfEven (roundMag ((D : ℚ) + roundMag (roundMag M / 60)) * 10000000000) : ℚ) ≤
    roundHalfEven (roundMag ((E : ℚ) + roundMag (roundMag N / 60)) * 10000000000) := by exact_mod_cast this
  linarith

/-! ## Writing -/

theorem divmodPos_60 {P : ℚ} (h0 : 0 ≤ P) (h1 : P ≤ 1000000000) :
    PyFloat.divmodPos (.fin false P) 60 = (.fin false (⌊P / 60⌋ : ℚ), .fin false (P - 60 * (⌊P / 60⌋ : ℚ))) := by
  have hD0 : 0 ≤ ⌊P / 60⌋ := Int.floor_nonneg.mpr (by positivity)
  have hD1 : ⌊P / 60⌋ ≤ 1000000000 := by
    have : P / 60 ≤ 1000000000 := by linarith
    have := Int.floor_le_floor this
    simpa using this
  have hex : ∀ n : ℤ, 0 ≤ n → n ≤ 2 ^ 53 → roundMag (n : ℚ) = n := by
    intro n a b
    have := isF64_nat (m := n.toNat) (by omega)
    have hc : ((n.toNat : ℕ) : ℚ) = (n : ℚ) := by
      have : ((n.toNat : ℕ) : ℤ) = n := Int.toNat_of_nonneg a
      exact_mod_cast this
    rw [hc] at this
    exact roundMag_f64 this
  unfold PyFloat.divmodPos
  have key : roundMag (roundMag (P - (P - 60 * ((P / 60).floor : ℚ))) / 60) = ((P / 60).floor : ℚ) := by
    rw [ratFloor]
    have e1 : P - (P - 60 * (⌊P / 60⌋ : ℚ)) = ((60 * ⌊P / 60⌋ : ℤ) : ℚ) := by push_cast; ring
    have e2 : ((60 * ⌊P / 60⌋ : ℤ) : ℚ) / 60 = ((⌊P / 60⌋ : ℤ) : ℚ) := by push_cast; ring
    rw [e1, hex _ (by omega) (by norm_num; omega), e2, hex _ hD0 (by norm_num; omega)]
  simp only [key, Rat.floor_intCast, sub_self]
  rw [if_neg (by norm_num)]
  rfl

/-- What `ddd2dmm` prints, and from which numbers. -/
theorem ddd2dmm_sum_exact {s : Bool} {a : ℚ} (h0 : 0 ≤ a) (h1 : a ≤ 999) (att : Str) (hp : Bool) :
    ∃ (D : ℕ) (S : ℚ), ((D : ℤ) = ⌊roundMag (a * 60) / 60⌋ ∧
        S = roundMag (((100 * D : ℕ) : ℚ) + (roundMag (a * 60) - 60 * D))) ∧ D ≤ 999 ∧ (∀ n : ℕ, (n : ℚ) ≤ a → n ≤ D) ∧ (D : ℚ) ≤ a + 1 / 5000000000000 ∧
      (100 * D : ℚ) ≤ S ∧ S ≤ 100 * D + 60 ∧
      |(D + (S - 100 * D) / 60) - a| ≤ 1 / 5000000000000 ∧
      ddd2dmm (.float (.fin s a)) att hp =
        .ok (zfill ((if hp then 12 else 10) + (if att = LA then 0 else 1))
          (fmtFixed (if hp then 7 else 5) (.fin false S))) := by
  obtain ⟨P, eP, hP, hP0, hPf⟩ := ofMag_abs_err (neg := false) (q := a * 60) (e := 16) (by linarith)
    (by norm_num; linarith) (by norm_num) (by norm_num)
  have hPe : roundMag (a * 60) = P := by
    have e := PyFloat.ofMag_small (neg := false) (q := a * 60) (by norm_num; linarith)
    rw [e] at eP
    injection eP
  have hP1 : P ≤ 59940 := by
    have e := PyFloat.ofMag_small (neg := false) (q := a * 60) (by norm_num; linarith)
    rw [e] at eP
    have hP : roundMag (a * 60) = P := by injection eP
    rw [← hP]
    exact_mod_cast roundMag_le (q := a * 60) (y := ((59940 : ℕ) : ℚ)) (by push_cast; linarith) (isF64_nat (by norm_num))
  have hdm := divmodPos_60 hP0 (by linarith)
  have hfl := Int.floor_le (P / 60)
  have hfl2 := Int.lt_floor_add_one (P / 60)
  have hD0 : 0 ≤ ⌊P / 60⌋ := Int.floor_nonneg.mpr (by positivity)
  have hD1 : ⌊P / 60⌋ ≤ 999 := by
    have : P / 60 ≤ 999 := by linarith
    have := Int.floor_le_floor this
    simpa using this
  obtain ⟨D, hD⟩ : ∃ D : ℕ, ⌊P / 60⌋ = D := ⟨⌊P / 60⌋.toNat, by omega⟩
  rw [hD] at hdm hfl hfl2 hD1
  push_cast at hdm hfl hfl2
  have hD180 : D ≤ 999 := by omega
  have hDq : (D : ℚ) ≤ 999 := by exact_mod_cast hD180
  have hDq0 : (0 : ℚ) ≤ D := by positivity
  have hmd0 : 0 ≤ P - 60 * D := by linarith
  have hmd1 : P - 60 * D < 60 := by linarith
  have h100 : ((100 * D : ℕ) : ℚ) = 100 * D := by push_cast; ring
  have hf100 : IsF64 ((100 * D : ℕ) : ℚ) := isF64_nat (by omega)
  have hf160 : IsF64 ((100 * D + 60 : ℕ) : ℚ) := isF64_nat (by omega)
  have e100 : PyFloat.mul (.fin false (D : ℚ)) (.fin false 100) = .fin false ((100 * D : ℕ) : ℚ) := by
    simp only [PyFloat.mul]
    rw [show (D : ℚ) * 100 = ((100 * D : ℕ) : ℚ) by push_cast; ring]
    rw [PyFloat.ofMag_small (by rw [h100]; norm_num; linarith), roundMag_f64 hf100]
    rfl
  have eint : PyFloat.toInt (.fin false ((100 * D : ℕ) : ℚ)) = .ok ((100 * D : ℕ) : ℤ) := by
    simp only [PyFloat.toInt, ratFloor, Int.floor_natCast]; rfl
  have eof : PyFloat.ofInt ((100 * D : ℕ) : ℤ) = .ok (.fin false ((100 * D : ℕ) : ℚ)) := by
    unfold PyFloat.ofInt
    rw [Int.cast_natCast, PyFloat.ofRat_nonneg (by positivity) (by rw [h100]; norm_num; linarith),
      roundMag_f64 hf100]
  have eadd : PyFloat.add (.fin false ((100 * D : ℕ) : ℚ)) (.fin false (P - 60 * D)) =
      .fin false (roundMag (((100 * D : ℕ) : ℚ) + (P - 60 * D))) :=
    add_pos_fin (by positivity) hmd0 (by rw [h100]; norm_num; linarith)
  have hS := roundMag_abs_err (q := ((100 * D : ℕ) : ℚ) + (P - 60 * D)) (e := 17)
    (by rw [h100]; linarith) (by rw [h100]; norm_num; linarith) (by norm_num)
  have hSlo : ((100 * D : ℕ) : ℚ) ≤ roundMag (((100 * D : ℕ) : ℚ) + (P - 60 * D)) :=
    le_roundMag (by linarith) hf100
  have hShi : roundMag (((100 * D : ℕ) : ℚ) + (P - 60 * D)) ≤ ((100 * D + 60 : ℕ) : ℚ) :=
    roundMag_le (by push_cast; linarith) hf160
  have n1 : (2 : ℚ) ^ ((16 : ℤ) - 54) = 1 / 274877906944 := by norm_num
  have n2 : (2 : ℚ) ^ ((17 : ℤ) - 54) = 1 / 137438953472 := by norm_num
  rw [n1, abs_le] at hP
  rw [n2, abs_le] at hS
  refine ⟨D, roundMag (((100 * D : ℕ) : ℚ) + (P - 60 * D)), ⟨?_, ?_⟩, hD180, ?_, ?_, ?_, ?_, ?_, ?_⟩
  · rw [hPe, hD]
  · rw [hPe]
  · intro n hn
    have hn9 : n ≤ 999 := by
      have : (n : ℚ) ≤ 999 := le_trans hn h1
      exact_mod_cast this
    have e := PyFloat.ofMag_small (neg := false) (q := a * 60) (by norm_num; linarith)
    rw [e] at eP
    have eP' : roundMag (a * 60) = P := by injection eP
    have : ((60 * n : ℕ) : ℚ) ≤ P := by
      rw [← eP']
      exact le_roundMag (by push_cast; linarith) (isF64_nat (by omega))
    push_cast at this
    have : (n : ℤ) ≤ ⌊P / 60⌋ := Int.le_floor.mpr (by push_cast; linarith)
    omega
  · linarith [hP.2]
  · rw [← h100]; exact hSlo
  · push_cast at hShi ⊢; exact hShi
  · rw [h100] at hS ⊢
    rw [abs_le]
    constructor <;> linarith [hS.1, hS.2, hP.1, hP.2]
  · unfold ddd2dmm
    have hmul : PyFloat.mul (PyFloat.abs (.fin s a)) (.fin false 60) = .fin false P := by
      simp only [PyFloat.abs, PyFloat.mul]; exact eP
    simp only [PyVal.num?, hmul, hdm]
    rw [e100, eint]
    simp only [bind, Except.bind]
    rw [eof]
    simp only [pure, Except.pure, eadd]
    rfl

/-- What `ddd2dmm` prints: the count `K` of units in the last place. -/
theorem ddd2dmm_sum {s : Bool} {a : ℚ} (h0 : 0 ≤ a) (h1 : a ≤ 999) (att : Str) (hp : Bool) :
    ∃ (D : ℕ) (S : ℚ), D ≤ 999 ∧ (∀ n : ℕ, (n : ℚ) ≤ a → n ≤ D) ∧ (D : ℚ) ≤ a + 1 / 5000000000000 ∧
      (100 * D : ℚ) ≤ S ∧ S ≤ 100 * D + 60 ∧
      |(D + (S - 100 * D) / 60) - a| ≤ 1 / 5000000000000 ∧
      ddd2dmm (.float (.fin s a)) att hp =
        .ok (zfill ((if hp then 12 else 10) + (if att = LA then 0 else 1))
          (fmtFixed (if hp then 7 else 5) (.fin false S))) := by
  obtain ⟨D, S, _, h⟩ := ddd2dmm_sum_exact (s := s) h0 h1 att hp
  exact ⟨D, S, h⟩

/-- The printed text: integer part, point, `n` digits. -/
theorem fixed_text (n w : ℕ) (S : ℚ) (hn : 1 ≤ n) (hw : n + 5 ≤ w) :
    ∃ ip fp, zfill w (fmtFixed n (.fin false S)) = ip ++ 46 :: fp ∧
      (∀ c ∈ ip, isAsciiDigit c = true) ∧ (∀ c ∈ fp, isAsciiDigit c = true) ∧ 4 ≤ ip.length ∧
      fp.length = n ∧
      asciiDigitsVal ip = (roundHalfEven (S * 10 ^ n)).toNat / 10 ^ n ∧
      asciiDigitsVal fp = (roundHalfEven (S * 10 ^ n)).toNat % 10 ^ n ∧
      ip.length = max (w - (fp.length + 1)) (natDec ((roundHalfEven (S * 10 ^ n)).toNat / 10 ^ n)).length := by
  have hc : ((10 ^ n : ℕ) : ℚ) = (10 : ℚ) ^ n := by push_cast; rfl
  set K := (roundHalfEven (S * 10 ^ n)).toNat with hK
  have ht : fmtFixed n (.fin false S) = natDec (K / 10 ^ n) ++ 46 :: padZero n (natDec (K % 10 ^ n)) := by
    simp only [fmtFixed, fixedDigits, Bool.false_eq_true, if_false, hc, ← hK]
  have hfl : (padZero n (natDec (K % 10 ^ n))).length = n := by
    rw [padZero_length]
    have := natDec_length (K % 10 ^ n) n (Nat.mod_lt _ (by positivity)) hn
    omega
  have hz : zfill w (fmtFixed n (.fin false S)) = padZero w (fmtFixed n (.fin false S)) := by
    obtain ⟨c, r, hr⟩ := List.exists_cons_of_ne_nil (natDec_ne_nil (K / 10 ^ n))
    have hc' := natDec_hex (K / 10 ^ n) c (by rw [hr]; simp)
    rw [ht, hr, List.cons_append]
    simp only [zfill]
    rw [if_neg (by omega)]
  refine ⟨List.replicate (w - (fmtFixed n (.fin false S)).length) 48 ++ natDec (K / 10 ^ n),
    padZero n (natDec (K % 10 ^ n)), ?_, ?_, ?_, ?_, hfl, ?_, ?_, ?_⟩
  · rw [hz, padZero]
    conv_lhs => rw [ht]
    rw [List.append_assoc, ← ht]
  · intro c hc
    rcases List.mem_append.mp hc with h | h
    · exact zeros_ascii _ c h
    · exact natDec_digit _ c h
  · exact padZero_digit _ _ (natDec_digit _)
  · rw [ht]
    simp only [List.length_append, List.length_replicate, List.length_cons, hfl]
    omega
  · rw [asciiVal_append, asciiVal_zeros, asciiVal_natDec]; simp
  · rw [asciiVal_padZero, asciiVal_natDec]
  · rw [ht]
    simp only [List.length_append, List.length_replicate, List.length_cons]
    omega


theorem asciiVal_cons (c : Nat) (r : Str) : asciiDigitsVal (c :: r) = (c - 48) * 10 ^ r.length + asciiDigitsVal r := by
  have := asciiVal_append [c] r
  rw [List.singleton_append] at this
  rw [this]
  simp [asciiDigitsVal, ofDigits]

theorem asciiVal_lt (r : Str) (h : ∀ c ∈ r, isAsciiDigit c = true) : asciiDigitsVal r < 10 ^ r.length := by
  have := ofDigits_lt 10 (r.map (· - 48)) (by
    intro d hd
    obtain ⟨c, hc, rfl⟩ := List.mem_map.mp hd
    have := h c hc
    simp [isAsciiDigit] at this
    omega)
  rw [List.length_map] at this
  exact this

theorem asciiVal_inj : ∀ (a b : Str), a.length = b.length → (∀ c ∈ a, isAsciiDigit c = true) →
    (∀ c ∈ b, isAsciiDigit c = true) → asciiDigitsVal a = asciiDigitsVal b → a = b
  | [], [], _, _, _, _ => rfl
  | c :: r, d :: t, hl, ha, hb, hv => by
    have hlt : r.length = t.length := by simpa using hl
    rw [asciiVal_cons, asciiVal_cons, hlt] at hv
    have h1 := asciiVal_lt r (fun x hx => ha x (List.mem_cons_of_mem _ hx))
    have h2 := asciiVal_lt t (fun x hx => hb x (List.mem_cons_of_mem _ hx))
    rw [hlt] at h1
    have hc := ha c (by simp)
    have hd := hb d (by simp)
    simp [isAsciiDigit] at hc hd
    have e1 : c - 48 = d - 48 := by
      have hp : 0 < 10 ^ t.length := by positivity
      have q : ∀ x v : ℕ, v < 10 ^ t.length → (x * 10 ^ t.length + v) / 10 ^ t.length = x := by
        intro x v hv'
        rw [Nat.add_comm, Nat.add_mul_div_right _ _ hp, Nat.div_eq_of_lt hv', Nat.zero_add]
      rw [← q (c - 48) _ h1, hv, q _ _ h2]
    have e2 : asciiDigitsVal r = asciiDigitsVal t := by rw [e1] at hv; omega
    rw [asciiVal_inj r t hlt (fun x hx => ha x (List.mem_cons_of_mem _ hx))
      (fun x hx => hb x (List.mem_cons_of_mem _ hx)) e2]
    congr 1
    omega


theorem findChar_some {c : Nat} : ∀ {s : Str} {n : Nat}, findChar c s = some n →
    ∃ a b, s = a ++ c :: b ∧ c ∉ a ∧ a.length = n
  | [], _, h => by simp [findChar] at h
  | x :: xs, n, h => by
    unfold findChar at h
    split at h
    · next hx =>
      simp only [Option.some.injEq] at h
      exact ⟨[], xs, by simp [hx], by simp, by simpa using h⟩
    · next hx =>
      rw [Option.map_eq_some_iff] at h
      obtain ⟨m, hm, rfl⟩ := h
      obtain ⟨a, b, rfl, ha, hl⟩ := findChar_some hm
      exact ⟨x :: a, b, rfl, by simp [ha, Ne.symm hx], by simp [hl]⟩

end Nmea
