import Verif.Lemmas.Float
import Verif.Lemmas.IntText
import Verif.Lemmas.Dec
import Mathlib.Data.List.TakeWhile
/-!
# Floats to text and back
-/
set_option linter.unusedSimpArgs false
namespace Py

/-! ## Reading decimal literals -/

theorem dropUnderscores_id : ∀ (s : Str) (prev : Nat), prev ≠ 95 → (∀ c ∈ s, c ≠ 95) →
    dropUnderscores prev s = some s
  | [], prev, h, _ => by simp [dropUnderscores, h]
  | c :: cs, prev, h, hs => by
    have hc := hs c (by simp)
    rw [dropUnderscores, if_neg hc, if_neg (by tauto), dropUnderscores_id cs c hc
      (fun x hx => hs x (by simp [hx]))]
    rfl

/-- Digits, point, exponent letter and signs. -/
def NumChar (c : Nat) : Prop := (48 ≤ c ∧ c ≤ 57) ∨ c = 46 ∨ c = 101 ∨ c = 43 ∨ c = 45

theorem floatOfStr_clean (s : Str) (h : ∀ c ∈ s, NumChar c) :
    floatOfStr s = match floatOfBody (splitSign s).1 (splitSign s).2 with
      | some x => .ok x
      | none => .error .value := by
  unfold floatOfStr
  rw [toAsciiNum_ascii s (fun c hc => by have := h c hc; unfold NumChar at this; omega),
    stripBy_id _ _ (fun c hc => by
      have := h c hc; unfold NumChar at this; unfold isAsciiSpace
      simp only [Bool.or_eq_false_iff, decide_eq_false_iff_not, Bool.and_eq_false_iff]
      omega),
    dropUnderscores_id s 0 (by omega) (fun c hc => by have := h c hc; unfold NumChar at this; omega)]
  rfl

theorem floatOfBody_digit (neg : Bool) (c : Nat) (r : Str) (hc : 48 ≤ c ∧ c ≤ 57) :
    floatOfBody neg (c :: r) = (scanDecimal (c :: r)).map fun (m, e) =>
      PyFloat.ofMag neg ((m : Rat) * pow10 e) := by
  have hl : lowerAscii c = c := by
    unfold lowerAscii; rw [if_neg]; simp; omega
  unfold floatOfBody
  simp only [List.map_cons, hl]
  have n1 : ¬ (c :: r.map lowerAscii = py!"inf" ∨ c :: r.map lowerAscii = py!"infinity") := by
    rintro (h | h) <;>
    · have h2 := congrArg List.head? h
      have h3 : (some c : Option Nat) = some 105 := h2
      simp only [Option.some.injEq] at h3
      omega
  have n2 : ¬ (c :: r.map lowerAscii = py!"nan") := by
    intro h
    have h2 := congrArg List.head? h
    have h3 : (some c : Option Nat) = some 110 := h2
    simp only [Option.some.injEq] at h3
    omega
  rw [if_neg n1, if_neg n2]

theorem takeWhile_digits (ip r : Str) (h : ∀ c ∈ ip, isAsciiDigit c = true)
    (hr : ∀ c ∈ r.head?, isAsciiDigit c = false) :
    (ip ++ r).takeWhile isAsciiDigit = ip ∧ (ip ++ r).dropWhile isAsciiDigit = r := by
  induction ip with
  | nil =>
    cases r with
    | nil => simp
    | cons c r => have := hr c (by simp); simp [this]
  | cons c cs ih =>
    have hc := h c (by simp)
    obtain ⟨a, b⟩ := ih (fun x hx => h x (by simp [hx]))
    simp [List.takeWhile_cons, List.dropWhile_cons, hc, a, b]

theorem scanDecimal_dot (ip fp r : Str) (h1 : ∀ c ∈ ip, isAsciiDigit c = true)
    (h2 : ∀ c ∈ fp, isAsciiDigit c = true) (hr : ∀ c ∈ r.head?, isAsciiDigit c = false)
    (hne : ip ≠ []) :
    scanDecimal (ip ++ 46 :: (fp ++ r)) = (scanExponent r).map fun e =>
      (asciiDigitsVal (ip ++ fp), e - (fp.length : Int)) := by
  obtain ⟨a, b⟩ := takeWhile_digits ip (46 :: (fp ++ r)) h1 (by simp [isAsciiDigit])
  obtain ⟨c, d⟩ := takeWhile_digits fp r h2 hr
  unfold scanDecimal
  simp only [a, b, c, d]
  have : ip.isEmpty = false := by simp [hne]
  simp [this]

theorem scanDecimal_nodot (ip r : Str) (h1 : ∀ c ∈ ip, isAsciiDigit c = true)
    (hr : ∀ c ∈ r.head?, isAsciiDigit c = false ∧ c ≠ 46) (hne : ip ≠ []) :
    scanDecimal (ip ++ r) = (scanExponent r).map fun e => (asciiDigitsVal ip, e) := by
  obtain ⟨a, b⟩ := takeWhile_digits ip r h1 (fun c hc => (hr c hc).1)
  unfold scanDecimal
  simp only [a, b]
  have hi : ip.isEmpty = false := by simp [hne]
  cases r with
  | nil => simp [hi]
  | cons c r' =>
    have hc := (hr c (by simp)).2
    split
    · next heq => simp only [List.cons.injEq] at heq; exact absurd heq.1 hc
    · simp [hi]

theorem head_digit {ip : Str} (h1 : ∀ c ∈ ip, isAsciiDigit c = true) (hne : ip ≠ []) (r : Str) :
    ∃ c t, ip ++ r = c :: t ∧ 48 ≤ c ∧ c ≤ 57 := by
  cases ip with
  | nil => exact absurd rfl hne
  | cons c t =>
    have := h1 c (by simp)
    simp [isAsciiDigit] at this
    exact ⟨c, t ++ r, rfl, this.1, this.2⟩

/-- `float` of unsigned digits with an optional fraction. -/
theorem floatOfBody_dot (neg : Bool) (ip fp r : Str) (e : Int) (h1 : ∀ c ∈ ip, isAsciiDigit c = true)
    (h2 : ∀ c ∈ fp, isAsciiDigit c = true) (hr : ∀ c ∈ r.head?, isAsciiDigit c = false)
    (hne : ip ≠ []) (he : scanExponent r = some e) :
    floatOfBody neg (ip ++ 46 :: (fp ++ r)) = some (PyFloat.ofMag neg
      ((asciiDigitsVal (ip ++ fp) : Rat) * pow10 (e - (fp.length : Int)))) := by
  obtain ⟨c, t, ht, hc⟩ := head_digit h1 hne (46 :: (fp ++ r))
  have hs := scanDecimal_dot ip fp r h1 h2 hr hne
  rw [he] at hs
  rw [ht] at hs ⊢
  rw [floatOfBody_digit neg c t hc, hs]
  rfl

theorem floatOfBody_nodot (neg : Bool) (ip r : Str) (e : Int) (h1 : ∀ c ∈ ip, isAsciiDigit c = true)
    (hr : ∀ c ∈ r.head?, isAsciiDigit c = false ∧ c ≠ 46) (hne : ip ≠ [])
    (he : scanExponent r = some e) :
    floatOfBody neg (ip ++ r) = some (PyFloat.ofMag neg ((asciiDigitsVal ip : Rat) * pow10 e)) := by
  obtain ⟨c, t, ht, hc⟩ := head_digit h1 hne r
  have hs := scanDecimal_nodot ip r h1 hr hne
  rw [he] at hs
  rw [ht] at hs ⊢
  rw [floatOfBody_digit neg c t hc, hs]
  rfl

theorem digit_num {s : Str} (h : ∀ c ∈ s, isAsciiDigit c = true) : ∀ c ∈ s, NumChar c := by
  intro c hc
  have := h c hc
  simp [isAsciiDigit] at this
  exact Or.inl this

theorem splitSign_of_digit {ip : Str} (h1 : ∀ c ∈ ip, isAsciiDigit c = true) (hne : ip ≠ []) (r : Str) :
    splitSign (ip ++ r) = (false, ip ++ r) := by
  obtain ⟨c, t, ht, hc⟩ := head_digit h1 hne r
  rw [ht]
  apply splitSign_digit
  intro x hx
  simp only [List.head?_cons, Option.mem_def, Option.some.injEq] at hx
  omega

/-- `float("ddd.ddd")`. -/
theorem floatOfStr_dot (ip fp : Str) (h1 : ∀ c ∈ ip, isAsciiDigit c = true)
    (h2 : ∀ c ∈ fp, isAsciiDigit c = true) (hne : ip ≠ []) :
    floatOfStr (ip ++ 46 :: fp) = .ok (PyFloat.ofMag false
      ((asciiDigitsVal (ip ++ fp) : Rat) * pow10 (-(fp.length : Int)))) := by
  rw [floatOfStr_clean]
  · rw [splitSign_of_digit h1 hne]
    have := floatOfBody_dot false ip fp [] 0 h1 h2 (by simp) hne rfl
    rw [List.append_nil, zero_sub] at this
    simp only [this]
  · intro c hc
    rcases List.mem_append.mp hc with h | h
    · exact digit_num h1 c h
    · rcases List.mem_cons.mp h with rfl | h
      · exact Or.inr (Or.inl rfl)
      · exact digit_num h2 c h

/-- `float("ddd")`. -/
theorem floatOfStr_int (ip : Str) (h1 : ∀ c ∈ ip, isAsciiDigit c = true) (hne : ip ≠ []) :
    floatOfStr ip = .ok (PyFloat.ofMag false (asciiDigitsVal ip : Rat)) := by
  rw [floatOfStr_clean ip (digit_num h1)]
  have hs := splitSign_of_digit h1 hne []
  rw [List.append_nil] at hs
  rw [hs]
  have := floatOfBody_nodot false ip [] 0 h1 (by simp) hne rfl
  rw [List.append_nil] at this
  simp only [this]
  simp [pow10]

/-! ## `repr` -/

theorem floorLog10_spec {q : ℚ} (hq : 0 < q) :
    (10 : ℚ) ^ (floorLog10 q) ≤ q ∧ q < (10 : ℚ) ^ (floorLog10 q + 1) := by
  have hn : 0 < q.num := Rat.num_pos.mpr hq
  have hd : q.den ≠ 0 := q.den_ne_zero
  have e : q = (q.num.natAbs : ℚ) / (q.den : ℚ) := by
    have : ((q.num.natAbs : ℕ) : ℚ) = (q.num : ℚ) := by
      have : ((q.num.natAbs : ℕ) : ℤ) = q.num := by omega
      rw [← this]; simp
    rw [this]; exact (Rat.num_div_den q).symm
  have bounds : ∀ n : Nat, n ≠ 0 → 10 ^ ((digits 10 n).length - 1) ≤ n ∧ n < 10 ^ (digits 10 n).length := by
    intro n hn0
    have hl : (digits 10 n).length ≠ 0 := by
      intro h; exact digits_ne_nil 10 n (List.length_eq_zero_iff.mp h)
    refine ⟨?_, (digits_length_le 10 n _ (by omega) (by omega)).1 (le_refl _)⟩
    by_contra hlt
    rw [not_le] at hlt
    rcases Nat.eq_or_lt_of_le (show 1 ≤ (digits 10 n).length by omega) with h1 | h1
    · rw [← h1] at hlt; simp at hlt; omega
    · have := (digits_length_le 10 n ((digits 10 n).length - 1) (by omega) (by omega)).2 hlt
      omega
  have hN := bounds q.num.natAbs (by omega)
  have hD := bounds q.den hd
  have hlN : (digits 10 q.num.natAbs).length ≠ 0 := by
    intro h; exact digits_ne_nil 10 _ (List.length_eq_zero_iff.mp h)
  have hlD : (digits 10 q.den).length ≠ 0 := by
    intro h; exact digits_ne_nil 10 _ (List.length_eq_zero_iff.mp h)
  unfold floorLog10
  generalize hN' : q.num.natAbs = N at *
  generalize hD' : q.den = D at *
  generalize hA : (digits 10 N).length = A at *
  generalize hB : (digits 10 D).length = B at *
  have a1 : (10 : ℚ) ^ (A - 1) ≤ N := by exact_mod_cast hN.1
  have a2 : (N : ℚ) < 10 ^ A := by exact_mod_cast hN.2
  have b1 : (10 : ℚ) ^ (B - 1) ≤ D := by exact_mod_cast hD.1
  have b2 : (D : ℚ) < 10 ^ B := by exact_mod_cast hD.2
  have dpos : (0 : ℚ) < D := by exact_mod_cast Nat.pos_of_ne_zero hd
  have up : q < (10 : ℚ) ^ ((A : ℤ) - B + 1) := by
    rw [e, div_lt_iff₀ dpos]
    calc (N : ℚ) < 10 ^ A := a2
      _ = (10 : ℚ) ^ ((A : ℤ) - B + 1) * 10 ^ (B - 1) := by
        rw [← zpow_natCast, ← zpow_natCast, ← zpow_add₀ (by norm_num)]; congr 1; omega
      _ ≤ _ := by gcongr
  have lo : (10 : ℚ) ^ ((A : ℤ) - B - 1) ≤ q := by
    rw [e, le_div_iff₀ dpos]
    calc (10 : ℚ) ^ ((A : ℤ) - B - 1) * D
        ≤ (10 : ℚ) ^ ((A : ℤ) - B - 1) * 10 ^ B := by gcongr
      _ = 10 ^ (A - 1) := by
        rw [← zpow_natCast, ← zpow_natCast, ← zpow_add₀ (by norm_num)]; congr 1; omega
      _ ≤ _ := a1
  simp only [pow10_eq]
  split
  · next h => exact ⟨h, up⟩
  · next h =>
    refine ⟨lo, ?_⟩
    rw [sub_add_cancel]
    exact not_le.mp h

theorem roundMag_of_near {x : ℚ} (hx : 0 < x) {n : ℤ}
    (h : |(n : ℚ) * (2 : ℚ) ^ ulpExp x - x| < (2 : ℚ) ^ ulpExp x / 2) :
    roundMag x = n * (2 : ℚ) ^ ulpExp x := by
  rw [roundMag_pos_eq hx, rhe_unique]
  have hu : (0 : ℚ) < (2 : ℚ) ^ ulpExp x := by positivity
  have e : (n : ℚ) - x / (2 : ℚ) ^ ulpExp x = ((n : ℚ) * (2 : ℚ) ^ ulpExp x - x) / (2 : ℚ) ^ ulpExp x := by
    field_simp
  rw [e, abs_div, abs_of_pos hu, div_lt_iff₀ hu]
  linarith

/-- A grid magnitude is a multiple of its own last place. -/
theorem f64_multiple {m : ℚ} (h : IsF64 m) (hm : 0 < m) : ∃ n : ℤ, m = n * (2 : ℚ) ^ ulpExp m := by
  have := roundMag_f64 h
  rw [roundMag_pos_eq hm] at this
  exact ⟨_, this.symm⟩

/-- Anything within `m * 2^-54` of a grid magnitude `m` rounds to `m`. -/
theorem roundMag_close {m x : ℚ} (h : IsF64 m) (hm : 0 < m)
    (hx : |x - m| < m * (2 : ℚ) ^ (-54 : ℤ)) : roundMag x = m := by
  rw [abs_lt] at hx
  have h54 : (2 : ℚ) ^ (-54 : ℤ) = 1 / 18014398509481984 := by norm_num
  rw [h54] at hx
  have hx0 : 0 < x := by linarith [hx.1]
  obtain ⟨n, hn⟩ := f64_multiple h hm
  set E := ulpExp m with hE
  have hu : (0 : ℚ) < (2 : ℚ) ^ E := by positivity
  have hlt := lt_ulp hm
  rw [← hE] at hlt
  -- half an ulp exceeds the distance
  have hhalf : m * (1 / 18014398509481984) < (2 : ℚ) ^ E / 2 := by
    norm_num at hlt; linarith
  by_cases hsame : ulpExp x = E
  · have := roundMag_of_near hx0 (n := n) (by
      rw [hsame, ← hn, abs_lt]; constructor <;> linarith [hx.1, hx.2])
    rw [this, hsame, ← hn]
  · -- different exponents
    have hfs := floorLog2_spec hm
    rcases lt_or_ge x m with hlow | hhigh
    · have hle := ulpExp_mono hx0 (le_of_lt hlow)
      have hlt' : ulpExp x < E := lt_of_le_of_ne hle hsame
      have hx1074 : -1074 ≤ ulpExp x := by unfold ulpExp; omega
      have hEf : E = floorLog2 m - 52 := by
        have : E = max (floorLog2 m - 52) (-1074) := rfl
        omega
      -- x < 2^(floorLog2 m), so m is that power of two
      have hfx : floorLog2 x < floorLog2 m := by
        have h1 : ulpExp x = max (floorLog2 x - 52) (-1074) := rfl
        omega
      have hxlt : x < (2 : ℚ) ^ floorLog2 m :=
        lt_of_lt_of_le (floorLog2_spec hx0).2 (zpow_le_zpow_right₀ (by norm_num) (by omega))
      have hpow : (2 : ℚ) ^ floorLog2 m = 4503599627370496 * (2 : ℚ) ^ E := by
        rw [show floorLog2 m = 52 + E by omega, zpow_add₀ (by norm_num)]; norm_num
      have hmn : m = (2 : ℚ) ^ floorLog2 m := by
        rw [hpow]
        have hn1 : (n : ℚ) < 4503599627370497 := by
          by_contra hge
          rw [not_lt] at hge
          have : 4503599627370497 * (2 : ℚ) ^ E ≤ m := by rw [hn]; gcongr
          rw [hpow] at hxlt
          linarith [hx.1]
        have hn0 : (4503599627370496 : ℚ) ≤ n := by
          have := hfs.1
          rw [hpow, hn] at this
          exact le_of_mul_le_mul_right this hu
        have a1 : n < 4503599627370497 := by exact_mod_cast hn1
        have a0 : 4503599627370496 ≤ n := by exact_mod_cast hn0
        have : n = 4503599627370496 := by omega
        rw [hn, this]; norm_num
      -- x lies in the binade below
      have hxf : floorLog2 x = floorLog2 m - 1 := by
        apply floorLog2_unique
        · have : (2 : ℚ) ^ (floorLog2 m - 1) = m / 2 := by
            rw [zpow_sub₀ (by norm_num), ← hmn]; norm_num
          rw [this]; linarith [hx.1]
        · rw [sub_add_cancel]; exact hxlt
      have hxu : ulpExp x = E - 1 := by
        have h1 : ulpExp x = max (floorLog2 x - 52) (-1074) := rfl
        omega
      have hxp : (2 : ℚ) ^ ulpExp x = (2 : ℚ) ^ E / 2 := by
        rw [hxu, zpow_sub₀ (by norm_num)]; norm_num
      have hm2 : m = ((9007199254740992 : ℤ) : ℚ) * (2 : ℚ) ^ ulpExp x := by
        rw [hxp, hmn, hpow]; push_cast; ring
      have := roundMag_of_near hx0 (n := 9007199254740992) (by
        rw [← hm2, abs_lt]
        have : m * (1 / 18014398509481984) = (2 : ℚ) ^ ulpExp x / 2 := by
          rw [hxp, hmn, hpow]; ring
        rw [this] at hx
        have hup : (0 : ℚ) < (2 : ℚ) ^ ulpExp x := by positivity
        constructor <;> linarith [hx.1, hx.2])
      rw [this, ← hm2]
    · exfalso
      have hle := ulpExp_mono hm hhigh
      have hlt' : E < ulpExp x := lt_of_le_of_ne hle (fun h => hsame h.symm)
      have hE1074 : -1074 ≤ E := by rw [hE]; unfold ulpExp; omega
      have hxE : ulpExp x = floorLog2 x - 52 := by
        have h1 : ulpExp x = max (floorLog2 x - 52) (-1074) := rfl
        omega
      -- 2^53 * 2^E ≤ x
      have hx53 : 9007199254740992 * (2 : ℚ) ^ E ≤ x := by
        refine le_trans ?_ (floorLog2_spec hx0).1
        calc 9007199254740992 * (2 : ℚ) ^ E = (2 : ℚ) ^ (53 + E) := by
              rw [zpow_add₀ (by norm_num)]; norm_num
          _ ≤ _ := zpow_le_zpow_right₀ (by norm_num) (by omega)
      have hnm : (n : ℚ) ≤ 9007199254740991 := by
        have : (n : ℚ) < 9007199254740992 := by
          by_contra hge
          rw [not_lt] at hge
          have : 9007199254740992 * (2 : ℚ) ^ E ≤ m := by rw [hn]; gcongr
          norm_num at hlt
          linarith
        have : n < 9007199254740992 := by exact_mod_cast this
        exact_mod_cast (show n ≤ 9007199254740991 by omega)
      have : m ≤ 9007199254740991 * (2 : ℚ) ^ E := by
        calc m = n * (2 : ℚ) ^ E := hn
          _ ≤ _ := by gcongr
      linarith [hx.2]

/-- Seventeen significant digits always suffice. -/
theorem reprCand_17 {q : ℚ} (h : IsF64 q) (hq : 0 < q) : ∃ r, reprCand q (floorLog10 q) 17 = some r := by
  set k := floorLog10 q with hk
  have hs := floorLog10_spec hq
  rw [← hk] at hs
  have hp : (0 : ℚ) < (10 : ℚ) ^ (k - 16) := by positivity
  have hnear : roundMag ((roundHalfEven (q / pow10 (k - (17 : ℕ) + 1)) : ℚ) * pow10 (k - (17 : ℕ) + 1)) = q := by
    rw [show k - ((17 : ℕ) : ℤ) + 1 = k - 16 by push_cast; ring, pow10_eq]
    apply roundMag_close h hq
    have he := rhe_err (q / (10 : ℚ) ^ (k - 16))
    have e : (roundHalfEven (q / (10 : ℚ) ^ (k - 16)) : ℚ) * (10 : ℚ) ^ (k - 16) - q
        = ((roundHalfEven (q / (10 : ℚ) ^ (k - 16)) : ℚ) - q / (10 : ℚ) ^ (k - 16)) * (10 : ℚ) ^ (k - 16) := by
      field_simp
    rw [e, abs_mul, abs_of_pos hp]
    have hk16 : (10 : ℚ) ^ k = 10000000000000000 * (10 : ℚ) ^ (k - 16) := by
      rw [show k = 16 + (k - 16) by ring, zpow_add₀ (by norm_num)]
      norm_num
    calc _ ≤ 1 / 2 * (10 : ℚ) ^ (k - 16) := by gcongr
      _ < q * (2 : ℚ) ^ (-54 : ℤ) := by
        rw [show (2 : ℚ) ^ (-54 : ℤ) = 1 / 18014398509481984 by norm_num]
        rw [hk16] at hs
        linarith [hs.1]
  unfold reprCand
  simp only
  rw [if_pos (by simpa using hnear)]
  exact ⟨_, rfl⟩

theorem reprCand_sound {q : ℚ} {k : ℤ} {n : ℕ} {r : ℕ × ℤ} (hq : 0 < q)
    (h : reprCand q k n = some r) : roundMag ((r.1 : ℚ) * (10 : ℚ) ^ r.2) = q := by
  have hv : 0 ≤ q / pow10 (k - n + 1) := div_nonneg (le_of_lt hq) (le_of_lt (pow10_pos _))
  have hf0 : 0 ≤ (q / pow10 (k - n + 1)).floor := by rw [ratFloor]; exact Int.floor_nonneg.mpr hv
  have hr0 : 0 ≤ roundHalfEven (q / pow10 (k - n + 1)) := by
    have := (rhe_bounds (q / pow10 (k - n + 1))).1
    rw [ratFloor] at hf0
    omega
  have cast : ∀ j : ℤ, 0 ≤ j → ((j.toNat : ℕ) : ℚ) = (j : ℚ) := by
    intro j hj
    have : ((j.toNat : ℕ) : ℤ) = j := Int.toNat_of_nonneg hj
    exact_mod_cast this
  have main : ∀ j : ℤ, 0 ≤ j → roundMag ((j : ℚ) * pow10 (k - n + 1)) = q →
      (j.toNat, k - n + 1) = r → roundMag ((r.1 : ℚ) * (10 : ℚ) ^ r.2) = q := by
    intro j hj ha hb
    rw [← hb]
    simp only [cast j hj, ← pow10_eq]
    exact ha
  unfold reprCand at h
  simp only [decide_eq_true_eq] at h
  generalize hfar : (if roundHalfEven (q / pow10 (k - n + 1)) = (q / pow10 (k - n + 1)).floor
    then (q / pow10 (k - n + 1)).floor + 1 else (q / pow10 (k - n + 1)).floor) = far at h
  have hfar0 : 0 ≤ far := by rw [← hfar]; split <;> omega
  by_cases h1 : roundMag ((roundHalfEven (q / pow10 (k - n + 1)) : ℚ) * pow10 (k - n + 1)) = q
  · rw [if_pos h1] at h
    exact main _ hr0 h1 (Option.some.inj h)
  · rw [if_neg h1] at h
    by_cases h2 : roundMag ((far : ℚ) * pow10 (k - n + 1)) = q
    · rw [if_pos h2] at h
      exact main _ hfar0 h2 (Option.some.inj h)
    · rw [if_neg h2] at h
      exact absurd h (by simp)

/-- The digits chosen by `repr` read back as the number. -/
theorem shortest_spec {q : ℚ} (h : IsF64 q) (hq : 0 < q) :
    roundMag (((shortest q).1 : ℚ) * (10 : ℚ) ^ (shortest q).2) = q := by
  unfold shortest
  simp only
  cases hf : (List.range 17).findSome? (fun i => reprCand q (floorLog10 q) (i + 1)) with
  | some r =>
    obtain ⟨i, -, hi⟩ := List.exists_of_findSome?_eq_some hf
    exact reprCand_sound hq hi
  | none =>
    exfalso
    rw [List.findSome?_eq_none_iff] at hf
    have := hf 16 (by simp)
    obtain ⟨r, hr⟩ := reprCand_17 h hq
    rw [hr] at this
    cases this


/-- Unsigned text that `float` reads as the exact decimal `q`, rounded. -/
structure ReadsAs (t : Str) (q : ℚ) : Prop where
  chars : ∀ c ∈ t, NumChar c
  head : ∃ c r, t = c :: r ∧ 48 ≤ c ∧ c ≤ 57
  val : ∀ neg, floatOfBody neg t = some (PyFloat.ofMag neg q)

theorem ReadsAs.pos {t : Str} {q : ℚ} (h : ReadsAs t q) : floatOfStr t = .ok (PyFloat.ofMag false q) := by
  rw [floatOfStr_clean t h.chars]
  obtain ⟨c, r, ht, hc⟩ := h.head
  have : splitSign t = (false, t) := by
    rw [ht]; apply splitSign_digit
    intro x hx
    simp only [List.head?_cons, Option.mem_def, Option.some.injEq] at hx
    omega
  rw [this]
  simp only [h.val]

theorem ReadsAs.neg {t : Str} {q : ℚ} (h : ReadsAs t q) :
    floatOfStr (45 :: t) = .ok (PyFloat.ofMag true q) := by
  rw [floatOfStr_clean (45 :: t) (by
    intro c hc
    rcases List.mem_cons.mp hc with rfl | hc
    · exact Or.inr (Or.inr (Or.inr (Or.inr rfl)))
    · exact h.chars c hc)]
  have : splitSign (45 :: t) = (true, t) := by simp [splitSign]
  rw [this]
  simp only [h.val]

theorem digits_map_ascii {ds : List Nat} (h : ∀ d ∈ ds, d < 10) :
    ∀ c ∈ ds.map digitUpper, isAsciiDigit c = true := by
  intro c hc
  obtain ⟨d, hd, rfl⟩ := List.mem_map.mp hc
  have := h d hd
  unfold digitUpper isAsciiDigit
  rw [if_pos this]
  simp only [Bool.and_eq_true, decide_eq_true_eq]
  omega

theorem zeros_ascii (n : Nat) : ∀ c ∈ List.replicate n 48, isAsciiDigit c = true := by
  intro c hc
  rw [List.eq_of_mem_replicate hc]; rfl

theorem readsAs_dot (ip fp : Str) (h1 : ∀ c ∈ ip, isAsciiDigit c = true)
    (h2 : ∀ c ∈ fp, isAsciiDigit c = true) (hne : ip ≠ []) :
    ReadsAs (ip ++ 46 :: fp) ((asciiDigitsVal (ip ++ fp) : ℚ) * pow10 (-(fp.length : Int))) := by
  refine ⟨?_, head_digit h1 hne _, ?_⟩
  · intro c hc
    rcases List.mem_append.mp hc with h | h
    · exact digit_num h1 c h
    · rcases List.mem_cons.mp h with rfl | h
      · exact Or.inr (Or.inl rfl)
      · exact digit_num h2 c h
  · intro neg
    have := floatOfBody_dot neg ip fp [] 0 h1 h2 (by simp) hne rfl
    rw [List.append_nil, zero_sub] at this
    exact this

theorem fmt02d_ascii (n : Nat) : ∀ c ∈ fmt02d n, isAsciiDigit c = true := by
  intro c hc
  unfold fmt02d padZero at hc
  rcases List.mem_append.mp hc with h | h
  · exact zeros_ascii _ c h
  · exact natDec_digit n c h

theorem fmt02d_ne_nil (n : Nat) : fmt02d n ≠ [] := by
  unfold fmt02d padZero
  simp [natDec_ne_nil]

/-- The exponent suffix of `repr`. -/
theorem scanExponent_repr (e : Int) :
    scanExponent (101 :: (if e < 0 then 45 else 43) :: fmt02d e.natAbs) = some e := by
  have hall : (fmt02d e.natAbs).all isAsciiDigit = true := List.all_eq_true.mpr (fmt02d_ascii _)
  have hne : (fmt02d e.natAbs).isEmpty = false := by simp [fmt02d_ne_nil]
  unfold scanExponent
  by_cases he : e < 0
  · simp only [he, if_true]
    rw [show splitSign (45 :: fmt02d e.natAbs) = (true, fmt02d e.natAbs) by simp [splitSign]]
    simp only [true_or, if_true, hne, hall, Bool.not_true, Bool.or_self, Bool.false_eq_true, if_false]
    rw [asciiVal_fmt02d]
    unfold applySign
    simp only [if_true]
    congr 1; omega
  · simp only [he, if_false]
    rw [show splitSign (43 :: fmt02d e.natAbs) = (false, fmt02d e.natAbs) by simp [splitSign]]
    simp only [true_or, if_true, hne, hall, Bool.not_true, Bool.or_self, Bool.false_eq_true, if_false]
    rw [asciiVal_fmt02d]
    unfold applySign
    simp only [Bool.false_eq_true, if_false]
    congr 1; omega

theorem expChars (e : Int) : ∀ c ∈ 101 :: (if e < 0 then 45 else 43) :: fmt02d e.natAbs, NumChar c := by
  intro c hc
  rcases List.mem_cons.mp hc with rfl | hc
  · exact Or.inr (Or.inr (Or.inl rfl))
  · rcases List.mem_cons.mp hc with rfl | hc
    · split
      · exact Or.inr (Or.inr (Or.inr (Or.inr rfl)))
      · exact Or.inr (Or.inr (Or.inr (Or.inl rfl)))
    · exact digit_num (fmt02d_ascii _) c hc

/-- Every branch of `repr` denotes the decimal it was given. -/
theorem reprDigits_reads (ds : List Nat) (h : ∀ d ∈ ds, d < 10) (hne : ds ≠ []) (decpt : Int) :
    ReadsAs (reprDigits ds decpt) ((ofDigits 10 ds : ℚ) * (10 : ℚ) ^ (decpt - ds.length)) := by
  have hc := digits_map_ascii h
  have hv := asciiVal_map ds h
  have hcl : (ds.map digitUpper).length = ds.length := by simp
  have hcne : ds.map digitUpper ≠ [] := by simp [hne]
  unfold reprDigits
  simp only
  generalize hcs : ds.map digitUpper = cs at *
  rw [← hv, ← hcl]
  split
  · -- exponent form
    set t := (101 :: (if decpt - 1 < 0 then 45 else 43) :: fmt02d (decpt - 1).natAbs) with ht
    have hexp : scanExponent t = some (decpt - 1) := scanExponent_repr _
    have hechars : ∀ c ∈ t, NumChar c := expChars _
    have hth : ∀ c ∈ t.head?, isAsciiDigit c = false ∧ c ≠ 46 := by
      intro c hc'
      rw [ht] at hc'
      simp only [List.head?_cons, Option.mem_def, Option.some.injEq] at hc'
      rw [← hc']; decide
    match hm : cs, hcne with
    | [c], _ =>
      refine ⟨?_, ?_, ?_⟩
      · intro x hx
        rcases List.mem_append.mp hx with hx | hx
        · exact digit_num hc x hx
        · exact hechars x hx
      · exact head_digit hc (by simp) _
      · intro neg
        have := floatOfBody_nodot neg [c] t (decpt - 1) hc hth (by simp) hexp
        rw [this, pow10_eq]
        simp
    | c :: c2 :: r, _ =>
      have hc1 : ∀ x ∈ [c], isAsciiDigit x = true := fun x hx => hc x (by
        simp only [List.mem_singleton] at hx; simp [hx])
      have hc2 : ∀ x ∈ c2 :: r, isAsciiDigit x = true := fun x hx => hc x (List.mem_cons_of_mem _ hx)
      refine ⟨?_, ?_, ?_⟩
      · intro x hx
        rcases List.mem_append.mp hx with hx | hx
        · rcases List.mem_cons.mp hx with rfl | hx
          · exact digit_num hc1 _ (by simp)
          · rcases List.mem_cons.mp hx with rfl | hx
            · exact Or.inr (Or.inl rfl)
            · exact digit_num hc2 x hx
        · exact hechars x hx
      · exact head_digit hc1 (by simp) (46 :: (c2 :: r) ++ t)
      · intro neg
        have := floatOfBody_dot neg [c] (c2 :: r) t (decpt - 1) hc1 hc2 (fun x hx => (hth x hx).1)
          (by simp) hexp
        refine this.trans ?_
        rw [pow10_eq]
        congr 4
        simp only [List.length_cons]; push_cast; ring
  · split
    · next hr h0 =>
      have := readsAs_dot [48] (List.replicate (-decpt).toNat 48 ++ cs) (by simp [isAsciiDigit])
        (by intro c hc'
            rcases List.mem_append.mp hc' with hx | hx
            · exact zeros_ascii _ c hx
            · exact hc c hx) (by simp)
      have e1 : asciiDigitsVal ([48] ++ (List.replicate (-decpt).toNat 48 ++ cs)) = asciiDigitsVal cs := by
        rw [asciiVal_append, asciiVal_append, asciiVal_zeros]
        simp [asciiDigitsVal, ofDigits]
      rw [e1, pow10_eq] at this
      have e2 : -((List.replicate (-decpt).toNat 48 ++ cs).length : ℤ) = decpt - cs.length := by
        simp only [List.length_append, List.length_replicate]; omega
      rw [e2] at this
      exact this
    · next hr h0 =>
      split
      · next hl =>
        have := readsAs_dot (cs ++ List.replicate (decpt.toNat - cs.length) 48) [48]
          (by intro c hc'
              rcases List.mem_append.mp hc' with hx | hx
              · exact hc c hx
              · exact zeros_ascii _ c hx) (by simp [isAsciiDigit]) (by simp [hcne])
        convert this using 1
        rw [asciiVal_append, asciiVal_append, asciiVal_zeros, pow10_eq]
        simp only [List.length_replicate, List.length_singleton]
        have h48 : asciiDigitsVal [48] = 0 := by simp [asciiDigitsVal, ofDigits]
        rw [h48]
        push_cast
        rw [show decpt - (cs.length : ℤ) = ((decpt.toNat - cs.length : ℕ) : ℤ) by omega]
        rw [zpow_natCast, zpow_neg]
        field_simp
        norm_num
      · next hl =>
        have := readsAs_dot (cs.take decpt.toNat) (cs.drop decpt.toNat)
          (fun c hx => hc c (List.mem_of_mem_take hx)) (fun c hx => hc c (List.mem_of_mem_drop hx))
          (by
            intro hnil
            have := congrArg List.length hnil
            rw [List.length_take] at this
            simp only [List.length_nil] at this
            omega)
        rw [List.take_append_drop, pow10_eq] at this
        convert this using 3
        rw [List.length_drop]; omega

theorem stripZeros_split (ds : List Nat) :
    ∃ k, ds = stripZeros ds ++ List.replicate k 0 := by
  have h := List.takeWhile_append_dropWhile (p := (· == 0)) (l := ds.reverse)
  refine ⟨(ds.reverse.takeWhile (· == 0)).length, ?_⟩
  unfold stripZeros
  have hz : ds.reverse.takeWhile (· == 0) = List.replicate (ds.reverse.takeWhile (· == 0)).length 0 := by
    rw [List.eq_replicate_iff]
    refine ⟨rfl, fun b hb => ?_⟩
    have := List.mem_takeWhile_imp hb
    simpa using this
  have h2 := congrArg List.reverse h
  rw [List.reverse_append, List.reverse_reverse] at h2
  conv_lhs => rw [← h2]
  congr 1
  conv_lhs => rw [hz, List.reverse_replicate]

theorem stripZeros_value (ds : List Nat) :
    (ofDigits 10 ds : ℚ) = (ofDigits 10 (stripZeros ds) : ℚ) * (10 : ℚ) ^ ((ds.length : ℤ) - (stripZeros ds).length) := by
  obtain ⟨k, hk⟩ := stripZeros_split ds
  have hl : ds.length = (stripZeros ds).length + k := by
    conv_lhs => rw [hk]
    simp
  have hv : ofDigits 10 ds = ofDigits 10 (stripZeros ds) * 10 ^ k := by
    conv_lhs => rw [hk]
    rw [ofDigits_append, ofDigits_zeros, List.length_replicate, add_zero]
  rw [hv, hl]
  push_cast
  rw [add_sub_cancel_left, zpow_natCast]

/-- The body of `repr` of a positive float. -/
theorem reprBody_reads {q : ℚ} (h : IsF64 q) (hq : 0 < q) :
    ReadsAs (reprDigits (stripZeros (digits 10 (shortest q).1))
      (((digits 10 (shortest q).1).length : ℤ) + (shortest q).2))
      (((shortest q).1 : ℚ) * (10 : ℚ) ^ (shortest q).2) := by
  have hsp := shortest_spec h hq
  have hd0 : (shortest q).1 ≠ 0 := by
    intro h0
    rw [h0] at hsp
    simp [roundMag_zero] at hsp
    rw [← hsp] at hq; exact absurd hq (lt_irrefl _)
  have hsub : ∀ d ∈ stripZeros (digits 10 (shortest q).1), d < 10 := by
    intro d hd
    obtain ⟨k, hk⟩ := stripZeros_split (digits 10 (shortest q).1)
    exact digits_lt 10 _ (by omega) d (by rw [hk]; exact List.mem_append_left _ hd)
  have hval := stripZeros_value (digits 10 (shortest q).1)
  rw [ofDigits_digits 10 _ (by omega)] at hval
  have hne : stripZeros (digits 10 (shortest q).1) ≠ [] := by
    intro h0
    rw [h0] at hval
    simp [ofDigits] at hval
    exact hd0 hval
  have := reprDigits_reads _ hsub hne (((digits 10 (shortest q).1).length : ℤ) + (shortest q).2)
  convert this using 1
  rw [hval, mul_assoc, ← zpow_add₀ (by norm_num)]
  congr 2; ring

/-- `float(str(x)) == x` for every float, including the sign of zero, infinities and nan. -/
theorem floatOfStr_reprFloat (x : PyFloat) (h : x.Wf) : floatOfStr (reprFloat x) = .ok x := by
  cases x with
  | nan => decide +kernel
  | inf s => cases s <;> decide +kernel
  | fin s m =>
    obtain ⟨hf, hlim⟩ : IsF64 m ∧ m < f64Limit := h
    by_cases h0 : m = 0
    · subst h0; cases s <;> decide +kernel
    · have hm : 0 < m := lt_of_le_of_ne hf.nonneg (Ne.symm h0)
      have hr := reprBody_reads hf hm
      have ho : ∀ neg, PyFloat.ofMag neg (((shortest m).1 : ℚ) * (10 : ℚ) ^ (shortest m).2) = .fin neg m := by
        intro neg
        unfold PyFloat.ofMag
        simp only [shortest_spec hf hm]
        rw [if_neg (not_le.mpr hlim)]
      unfold reprFloat
      simp only [h0, if_false]
      cases s with
      | false => simp only [Bool.false_eq_true, if_false]; rw [hr.pos, ho]
      | true => simp only [if_true]; rw [hr.neg, ho]

end Py
