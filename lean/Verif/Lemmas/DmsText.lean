import Verif.Lemmas.Dms
/-!
# Formatting degrees
-/
set_option linter.unusedSimpArgs false
namespace Nmea
open Py

theorem strOfInt_nat (n : ℕ) (h : n < 10 ^ 4300) : strOfInt (n : ℤ) = .ok (natDec n) := by
  unfold strOfInt
  have := natDec_length n 4300 h (by omega)
  have e : ((n : ℤ)).natAbs = n := by omega
  simp only [e]
  rw [if_neg (by unfold maxStrDigits; omega), if_neg (by omega)]

theorem lt_4300 {n : ℕ} (h : n < 10 ^ 10) : n < 10 ^ 4300 :=
  lt_of_lt_of_le h (Nat.pow_le_pow_right (by omega) (by omega))

theorem ltZero_fin (neg : Bool) (a : ℚ) : PyFloat.ltZero (.fin neg a) = (neg && decide (0 < a)) := rfl

theorem floor_nat {q : ℚ} (h : 0 ≤ q) : ∃ n : ℕ, ⌊q⌋ = n ∧ (n : ℚ) ≤ q ∧ q < n + 1 := by
  have h0 : 0 ≤ ⌊q⌋ := Int.floor_nonneg.mpr h
  refine ⟨⌊q⌋.toNat, by omega, ?_, ?_⟩
  · have := Int.floor_le q
    have e : ((⌊q⌋.toNat : ℕ) : ℚ) = (⌊q⌋ : ℚ) := by
      have : ((⌊q⌋.toNat : ℕ) : ℤ) = ⌊q⌋ := by omega
      exact_mod_cast this
    rw [e]; exact this
  · have := Int.lt_floor_add_one q
    have e : ((⌊q⌋.toNat : ℕ) : ℚ) = (⌊q⌋ : ℚ) := by
      have : ((⌊q⌋.toNat : ℕ) : ℤ) = ⌊q⌋ := by omega
      exact_mod_cast this
    rw [e]; exact this

theorem toInt_nat (n : ℕ) : PyFloat.toInt (.fin false (n : ℚ)) = .ok (n : ℤ) := by
  simp only [PyFloat.toInt, ratFloor, Int.floor_natCast]; rfl

/-- `deg2dmm`. -/
theorem deg2dmm_text (neg : Bool) (a : ℚ) (h0 : 0 ≤ a) (h1 : a ≤ 999) (att : Str) :
    ∃ (D : ℕ) (M : ℚ), D ≤ 999 ∧ IsF64 M ∧ 0 ≤ M ∧ M ≤ 60 ∧ |(D + M / 60) - a| ≤ 1 / 1000000000 ∧
      deg2dmm (.float (.fin neg a)) att = .ok (natDec D ++ [0xb0] ++ reprFloat (.fin false M) ++ [0x2032] ++
        degSuffix (neg && decide (0 < a)) att) := by
  obtain ⟨P, eP, hP, hP0, -⟩ := ofMag_abs_err (neg := false) (q := a * 60) (e := 16) (by linarith)
    (by norm_num; linarith) (by norm_num) (by norm_num)
  have n1 : (2 : ℚ) ^ ((16 : ℤ) - 54) = 1 / 274877906944 := by norm_num
  rw [n1, abs_le] at hP
  have hP1 : P ≤ 59941 := by linarith [hP.2]
  have hdm := divmodPos_60 hP0 (by linarith)
  obtain ⟨D, hD, hfl, hfl2⟩ := floor_nat (q := P / 60) (by positivity)
  rw [hD] at hdm
  push_cast at hdm
  have hDle : D ≤ 999 := by
    have e := PyFloat.ofMag_small (neg := false) (q := a * 60) (by norm_num; linarith)
    rw [e] at eP
    have eP' : roundMag (a * 60) = P := by injection eP
    have : P ≤ ((59940 : ℕ) : ℚ) := by
      rw [← eP']; exact roundMag_le (by push_cast; linarith) (isF64_nat (by norm_num))
    push_cast at this
    have : (D : ℚ) ≤ (999 : ℕ) := by push_cast; linarith
    exact_mod_cast this
  have hmd0 : 0 ≤ P - 60 * D := by linarith
  have hmd1 : P - 60 * D < 60 := by linarith
  obtain ⟨M, eM, hM0, hMf, hMr, hMe⟩ := roundTo_near false (P - 60 * D) hmd0 (by linarith) 7 (by omega)
  have hM60 : M ≤ 60 := by
    rw [hMr]
    have hR : roundHalfEven ((P - 60 * D) * 10 ^ 7) ≤ ((600000000 : ℕ) : ℤ) := rhe_le (by push_cast; linarith)
    have hRq : (roundHalfEven ((P - 60 * D) * 10 ^ 7) : ℚ) ≤ 600000000 := by exact_mod_cast hR
    have := roundMag_le (q := (roundHalfEven ((P - 60 * D) * 10 ^ 7) : ℚ) / 10 ^ 7) (y := ((60 : ℕ) : ℚ))
      (by rw [div_le_iff₀ (by norm_num)]; push_cast; linarith) (isF64_nat (by norm_num))
    exact_mod_cast this
  refine ⟨D, M, hDle, hMf, hM0, hM60, ?_, ?_⟩
  · rw [abs_le] at hMe ⊢
    norm_num at hMe
    constructor <;> linarith [hMe.1, hMe.2, hP.1, hP.2]
  · unfold deg2dmm
    have hmul : PyFloat.mul (PyFloat.abs (.fin neg a)) (.fin false 60) = .fin false P := by
      simp only [PyFloat.abs, PyFloat.mul]; exact eP
    simp only [PyVal.num?, hmul, hdm]
    rw [toInt_nat]
    simp only [bind, Except.bind]
    rw [strOfInt_nat D (lt_4300 (by omega))]
    have eM' : PyFloat.roundTo (.fin false (P - 60 * D)) 7 = .ok (.fin false M) := eM
    simp only [eM', pure, Except.pure, catchTV, ltZero_fin]

/-- `deg2dms`. -/
theorem deg2dms_text (neg : Bool) (a : ℚ) (h0 : 0 ≤ a) (h1 : a ≤ 999) (att : Str) :
    ∃ (D M : ℕ) (S : ℚ), D ≤ 999 ∧ M ≤ 59 ∧ IsF64 S ∧ 0 ≤ S ∧ S ≤ 60 ∧
      |(D + M / 60 + S / 3600) - a| ≤ 2 / 1000000000 ∧
      deg2dms (.float (.fin neg a)) att = .ok (natDec D ++ [0xb0] ++ natDec M ++ [0x2032] ++
        reprFloat (.fin false S) ++ [0x2033] ++ degSuffix (neg && decide (0 < a)) att) := by
  obtain ⟨P, eP, hP, hP0, -⟩ := ofMag_abs_err (neg := false) (q := a * 3600) (e := 22) (by linarith)
    (by norm_num; linarith) (by norm_num) (by norm_num)
  have n1 : (2 : ℚ) ^ ((22 : ℤ) - 54) = 1 / 4294967296 := by norm_num
  rw [n1, abs_le] at hP
  have hP1 : P ≤ 3596400 := by
    have e := PyFloat.ofMag_small (neg := false) (q := a * 3600) (by norm_num; linarith)
    rw [e] at eP
    have eP' : roundMag (a * 3600) = P := by injection eP
    have : P ≤ ((3596400 : ℕ) : ℚ) := by
      rw [← eP']; exact roundMag_le (by push_cast; linarith) (isF64_nat (by norm_num))
    exact_mod_cast this
  have hdm := divmodPos_60 hP0 (by linarith)
  obtain ⟨Q, hQ, hfl, hfl2⟩ := floor_nat (q := P / 60) (by positivity)
  rw [hQ] at hdm
  push_cast at hdm
  have hQle : Q ≤ 59940 := by
    have : (Q : ℚ) ≤ (59940 : ℕ) := by push_cast; linarith
    exact_mod_cast this
  have hQq : (Q : ℚ) ≤ 59940 := by exact_mod_cast hQle
  have hdm2 := divmodPos_60 (P := (Q : ℚ)) (by positivity) (by linarith)
  have hfloor : ⌊(Q : ℚ) / 60⌋ = ((Q / 60 : ℕ) : ℤ) := by
    rw [Int.floor_eq_iff]
    have := Nat.div_add_mod Q 60
    have hlt := Nat.mod_lt Q (show 0 < 60 by omega)
    have h' : (60 : ℚ) * ((Q / 60 : ℕ) : ℚ) + ((Q % 60 : ℕ) : ℚ) = Q := by exact_mod_cast this
    have h2 : ((Q % 60 : ℕ) : ℚ) < 60 := by exact_mod_cast hlt
    have h3 : (0 : ℚ) ≤ ((Q % 60 : ℕ) : ℚ) := by positivity
    rw [Int.cast_natCast]
    constructor <;> linarith
  rw [hfloor, Int.cast_natCast] at hdm2
  have hmod : (Q : ℚ) - 60 * ((Q / 60 : ℕ) : ℚ) = ((Q % 60 : ℕ) : ℚ) := by
    have := Nat.div_add_mod Q 60
    have h' : (60 : ℚ) * ((Q / 60 : ℕ) : ℚ) + ((Q % 60 : ℕ) : ℚ) = Q := by exact_mod_cast this
    linarith
  rw [hmod] at hdm2
  have hmd0 : 0 ≤ P - 60 * Q := by linarith
  have hmd1 : P - 60 * Q < 60 := by linarith
  obtain ⟨S, eS, hS0, hSf, hSr, hSe⟩ := roundTo_near false (P - 60 * Q) hmd0 (by linarith) 5 (by omega)
  have hS60 : S ≤ 60 := by
    rw [hSr]
    have hR : roundHalfEven ((P - 60 * Q) * 10 ^ 5) ≤ ((6000000 : ℕ) : ℤ) := rhe_le (by push_cast; linarith)
    have hRq : (roundHalfEven ((P - 60 * Q) * 10 ^ 5) : ℚ) ≤ 6000000 := by exact_mod_cast hR
    have := roundMag_le (q := (roundHalfEven ((P - 60 * Q) * 10 ^ 5) : ℚ) / 10 ^ 5) (y := ((60 : ℕ) : ℚ))
      (by rw [div_le_iff₀ (by norm_num)]; push_cast; linarith) (isF64_nat (by norm_num))
    exact_mod_cast this
  refine ⟨Q / 60, Q % 60, S, by omega, by omega, hSf, hS0, hS60, ?_, ?_⟩
  · have hmod' : ((Q % 60 : ℕ) : ℚ) = (Q : ℚ) - 60 * ((Q / 60 : ℕ) : ℚ) := hmod.symm
    rw [hmod']
    rw [abs_le] at hSe ⊢
    norm_num at hSe
    constructor <;> linarith [hSe.1, hSe.2, hP.1, hP.2]
  · unfold deg2dms
    have hmul : PyFloat.mul (PyFloat.abs (.fin neg a)) (.fin false 3600) = .fin false P := by
      simp only [PyFloat.abs, PyFloat.mul]; exact eP
    simp only [PyVal.num?, hmul, hdm, hdm2]
    rw [toInt_nat, toInt_nat]
    simp only [bind, Except.bind]
    rw [strOfInt_nat _ (lt_4300 (by omega)), strOfInt_nat _ (lt_4300 (by omega))]
    have eS' : PyFloat.roundTo (.fin false (P - 60 * Q)) 5 = .ok (.fin false S) := eS
    simp only [eS', pure, Except.pure, catchTV, ltZero_fin]

/-! ## Shape of `repr` -/

theorem reprCand_digits {q : ℚ} {n : ℕ} {r : ℕ × ℤ} (hq : 0 < q) (hn : 1 ≤ n)
    (h : reprCand q (floorLog10 q) n = some r) :
    r.2 = floorLog10 q - n + 1 ∧ 10 ^ (n - 1) ≤ r.1 ∧ r.1 ≤ 10 ^ n := by
  set k := floorLog10 q with hk
  have hs := floorLog10_spec hq
  rw [← hk] at hs
  set v := q / pow10 (k - n + 1) with hv
  have hp : (0 : ℚ) < (10 : ℚ) ^ (k - n + 1) := by positivity
  have hv1 : ((10 ^ (n - 1) : ℕ) : ℚ) ≤ v := by
    rw [hv, pow10_eq, le_div_iff₀ hp]
    refine le_trans (le_of_eq ?_) hs.1
    push_cast
    rw [← zpow_natCast, ← zpow_add₀ (by norm_num)]
    congr 1; omega
  have hv2 : v < ((10 ^ n : ℕ) : ℚ) := by
    rw [hv, pow10_eq, div_lt_iff₀ hp]
    refine lt_of_lt_of_le hs.2 (le_of_eq ?_)
    push_cast
    rw [← zpow_natCast, ← zpow_add₀ (by norm_num)]
    congr 1; omega
  have hf1 : ((10 ^ (n - 1) : ℕ) : ℤ) ≤ v.floor := by rw [ratFloor]; exact Int.le_floor.mpr (by exact_mod_cast hv1)
  have hf2 : v.floor < ((10 ^ n : ℕ) : ℤ) := by rw [ratFloor]; exact Int.floor_lt.mpr (by exact_mod_cast hv2)
  have hb := rhe_bounds v
  rw [← ratFloor] at hb
  have main : ∀ j : ℤ, v.floor ≤ j → j ≤ v.floor + 1 → (j.toNat, k - n + 1) = r →
      r.2 = k - n + 1 ∧ 10 ^ (n - 1) ≤ r.1 ∧ r.1 ≤ 10 ^ n := by
    intro j h1 h2 h3
    rw [← h3]
    have p1 : (0 : ℤ) < ((10 ^ (n - 1) : ℕ) : ℤ) := by positivity
    have p2 : (0 : ℤ) < ((10 ^ n : ℕ) : ℤ) := by positivity
    have hj : ((j.toNat : ℕ) : ℤ) = j := Int.toNat_of_nonneg (by linarith)
    refine ⟨rfl, ?_, ?_⟩
    · have : ((10 ^ (n - 1) : ℕ) : ℤ) ≤ ((j.toNat : ℕ) : ℤ) := by rw [hj]; linarith
      exact Int.ofNat_le.mp this
    · have : ((j.toNat : ℕ) : ℤ) ≤ ((10 ^ n : ℕ) : ℤ) := by rw [hj]; linarith [Int.add_one_le_of_lt hf2]
      exact Int.ofNat_le.mp this
  unfold reprCand at h
  simp only [decide_eq_true_eq] at h
  rw [← hv] at h
  generalize hfar : (if roundHalfEven v = v.floor then v.floor + 1 else v.floor) = far at h
  have hfar0 : v.floor ≤ far ∧ far ≤ v.floor + 1 := by rw [← hfar]; split <;> omega
  by_cases h1 : roundMag ((roundHalfEven v : ℚ) * pow10 (k - n + 1)) = q
  · rw [if_pos h1] at h
    exact main _ hb.1 hb.2 (Option.some.inj h)
  · rw [if_neg h1] at h
    by_cases h2 : roundMag ((far : ℚ) * pow10 (k - n + 1)) = q
    · rw [if_pos h2] at h
      exact main _ hfar0.1 hfar0.2 (Option.some.inj h)
    · rw [if_neg h2] at h
      exact absurd h (by simp)

theorem digits_len_eq (d n : ℕ) (hn : 1 ≤ n) (h1 : 10 ^ (n - 1) ≤ d) (h2 : d < 10 ^ n) :
    (digits 10 d).length = n := by
  apply le_antisymm ((digits_length_le 10 d n (by omega) hn).2 h2)
  by_contra hlt
  rw [not_le] at hlt
  have hne : (digits 10 d).length ≠ 0 := by
    intro h; exact digits_ne_nil 10 d (List.length_eq_zero_iff.mp h)
  rcases Nat.lt_or_ge (n - 1) 1 with h0 | h0
  · omega
  · have := (digits_length_le 10 d (n - 1) (by omega) h0).1 (by omega)
    omega

/-- Position of the decimal point in `repr`. -/
theorem shortest_point {q : ℚ} (h : IsF64 q) (hq : 0 < q) :
    ((digits 10 (shortest q).1).length : ℤ) + (shortest q).2 = floorLog10 q + 1 ∨
    (((digits 10 (shortest q).1).length : ℤ) + (shortest q).2 = floorLog10 q + 2 ∧
      roundMag ((10 : ℚ) ^ (floorLog10 q + 1)) = q) := by
  have hsp := shortest_spec h hq
  have : ∃ n, 1 ≤ n ∧ reprCand q (floorLog10 q) n = some (shortest q) := by
    unfold shortest
    simp only
    cases hf : (List.range 17).findSome? (fun i => reprCand q (floorLog10 q) (i + 1)) with
    | some r =>
      obtain ⟨i, -, hi⟩ := List.exists_of_findSome?_eq_some hf
      exact ⟨i + 1, by omega, hi⟩
    | none =>
      exfalso
      rw [List.findSome?_eq_none_iff] at hf
      have := hf 16 (by simp)
      obtain ⟨r, hr⟩ := reprCand_17 h hq
      rw [hr] at this
      cases this
  obtain ⟨n, hn, hc⟩ := this
  obtain ⟨h1, h2, h3⟩ := reprCand_digits hq hn hc
  rcases Nat.lt_or_ge (shortest q).1 (10 ^ n) with hlt | hge
  · left
    rw [digits_len_eq _ n hn h2 hlt, h1]; omega
  · right
    have he : (shortest q).1 = 10 ^ n := le_antisymm h3 hge
    constructor
    · rw [he, digits_len_eq (10 ^ n) (n + 1) (by omega) (by simp) (Nat.pow_lt_pow_right (by omega) (by omega)), h1]
      push_cast; ring
    · rw [he, h1] at hsp
      push_cast at hsp
      rw [← zpow_natCast, ← zpow_add₀ (by norm_num)] at hsp
      rw [show (n : ℤ) + (floorLog10 q - n + 1) = floorLog10 q + 1 by ring] at hsp
      exact hsp

theorem reprDigits_plain (ds : List Nat) (h : ∀ d ∈ ds, d < 10) (decpt : Int) (h1 : -4 < decpt)
    (h2 : decpt ≤ 16) : ∀ c ∈ reprDigits ds decpt, c = 46 ∨ isAsciiDigit c = true := by
  have hc := digits_map_ascii h
  intro c
  unfold reprDigits
  simp only
  rw [if_neg (by omega)]
  have hz := zeros_ascii
  split
  · intro hm
    simp only [List.mem_cons, List.mem_append] at hm
    rcases hm with rfl | rfl | hm | hm
    · exact Or.inr rfl
    · exact Or.inl rfl
    · exact Or.inr (hz _ c hm)
    · exact Or.inr (hc c hm)
  · split
    · intro hm
      simp only [List.mem_cons, List.mem_append, List.not_mem_nil, or_false] at hm
      rcases hm with (hm | hm) | rfl | rfl
      · exact Or.inr (hc c hm)
      · exact Or.inr (hz _ c hm)
      · exact Or.inl rfl
      · exact Or.inr rfl
    · intro hm
      simp only [List.mem_cons, List.mem_append] at hm
      rcases hm with hm | rfl | hm
      · exact Or.inr (hc c (List.mem_of_mem_take hm))
      · exact Or.inl rfl
      · exact Or.inr (hc c (List.mem_of_mem_drop hm))

theorem reprDigits_exp (ds : List Nat) (h : ∀ d ∈ ds, d < 10) (hne : ds ≠ []) (decpt : Int) (h1 : decpt ≤ -4) :
    ∃ mant r, mant ≠ [] ∧ (∀ c ∈ mant, c = 46 ∨ isAsciiDigit c = true) ∧
      reprDigits ds decpt = mant ++ 101 :: 45 :: r := by
  have hc := digits_map_ascii h
  unfold reprDigits
  simp only
  rw [if_pos (by omega), if_pos (by omega)]
  have hcne : ds.map digitUpper ≠ [] := by simp [hne]
  generalize ds.map digitUpper = cs at *
  match cs, hcne with
  | [c], _ => exact ⟨[c], _, by simp, fun x hx => Or.inr (hc x hx), rfl⟩
  | c :: c2 :: r, _ =>
    refine ⟨c :: 46 :: c2 :: r, _, by simp, ?_, rfl⟩
    intro x hx
    rcases List.mem_cons.mp hx with rfl | hx
    · exact Or.inr (hc _ (by simp))
    · rcases List.mem_cons.mp hx with rfl | hx
      · exact Or.inl rfl
      · exact Or.inr (hc x (List.mem_cons_of_mem _ hx))

theorem stripZeros_lt (n : ℕ) : ∀ d ∈ stripZeros (digits 10 n), d < 10 := by
  intro d hd
  obtain ⟨k, hk⟩ := stripZeros_split (digits 10 n)
  exact digits_lt 10 _ (by omega) d (by rw [hk]; exact List.mem_append_left _ hd)

theorem stripZeros_shortest_ne {q : ℚ} (h : IsF64 q) (hq : 0 < q) :
    stripZeros (digits 10 (shortest q).1) ≠ [] := by
  have hsp := shortest_spec h hq
  have hd0 : (shortest q).1 ≠ 0 := by
    intro h0
    rw [h0] at hsp
    simp [roundMag_zero] at hsp
    rw [← hsp] at hq; exact absurd hq (lt_irrefl _)
  have hval := stripZeros_value (digits 10 (shortest q).1)
  rw [ofDigits_digits 10 _ (by omega)] at hval
  intro h0
  rw [h0] at hval
  simp [ofDigits] at hval
  exact hd0 hval

/-- `repr` of zero and of numbers from 0.0001 to 1000 has only digits and a point. -/
theorem repr_plain {q : ℚ} (h : IsF64 q) (hq : q = 0 ∨ (1 / 10000 ≤ q ∧ q ≤ 1000)) :
    ∀ c ∈ reprFloat (.fin false q), c = 46 ∨ isAsciiDigit c = true := by
  rcases hq with rfl | ⟨h1, h2⟩
  · decide +kernel
  have hq0 : 0 < q := lt_of_lt_of_le (by norm_num) h1
  have hs := floorLog10_spec hq0
  have k1 : -4 ≤ floorLog10 q := by
    by_contra hlt
    have : (10 : ℚ) ^ (floorLog10 q + 1) ≤ (10 : ℚ) ^ (-4 : ℤ) := zpow_le_zpow_right₀ (by norm_num) (by omega)
    norm_num at this
    linarith [hs.2]
  have k2 : floorLog10 q ≤ 3 := by
    by_contra hlt
    have : (10 : ℚ) ^ (4 : ℤ) ≤ (10 : ℚ) ^ (floorLog10 q) := zpow_le_zpow_right₀ (by norm_num) (by omega)
    norm_num at this
    linarith [hs.1]
  have hp := shortest_point h hq0
  unfold reprFloat
  simp only [ne_of_gt hq0, if_false, Bool.false_eq_true]
  apply reprDigits_plain _ (stripZeros_lt _)
  · rcases hp with h | ⟨h, -⟩ <;> omega
  · rcases hp with h | ⟨h, -⟩ <;> omega

/-- `repr` of a positive number below 0.0001 uses a negative exponent. -/
theorem repr_exp {q : ℚ} (h : IsF64 q) (h0 : 0 < q) (h1 : q < 1 / 10000) :
    ∃ mant r, mant ≠ [] ∧ (∀ c ∈ mant, c = 46 ∨ isAsciiDigit c = true) ∧
      reprFloat (.fin false q) = mant ++ 101 :: 45 :: r := by
  have hs := floorLog10_spec h0
  have k1 : floorLog10 q ≤ -5 := by
    by_contra hlt
    have : (10 : ℚ) ^ (-4 : ℤ) ≤ (10 : ℚ) ^ (floorLog10 q) := zpow_le_zpow_right₀ (by norm_num) (by omega)
    norm_num at this
    linarith [hs.1]
  have hp := shortest_point h h0
  unfold reprFloat
  simp only [ne_of_gt h0, if_false, Bool.false_eq_true]
  apply reprDigits_exp _ (stripZeros_lt _) (stripZeros_shortest_ne h h0)
  rcases hp with h | ⟨h, hr⟩
  · omega
  · rcases lt_or_eq_of_le k1 with hk | hk
    · omega
    · exfalso
      rw [hk] at hr
      have : (10 : ℚ) ^ ((-5 : ℤ) + 1) = 1 / 10000 := by norm_num
      rw [this] at hr
      have hbig : (1 : ℚ) / 10000 ≤ roundMag (1 / 10000) := by decide +kernel
      rw [hr] at hbig
      linarith

end Nmea
