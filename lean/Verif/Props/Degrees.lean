import Verif.Lemmas.Degrees
import Verif.Props.Values
/-!
# Latitude and longitude fields (C07)
-/
set_option linter.unusedSimpArgs false
namespace Nmea
open Py

/-- Number of decimals of the minutes: five, or seven in high precision mode. -/
def minuteDecimals (hp : Bool) : ℕ := if hp then 7 else 5

theorem latlon_ascii_digits {s : Str} (h : ∀ c ∈ s, 48 ≤ c ∧ c ≤ 57) : ∀ c ∈ s, isAsciiDigit c = true := by
  intro c hc
  have := h c hc
  simp [isAsciiDigit]; omega

/-- C07. Writing a float position and reading it back gives a float within `1e-7` degrees of its
magnitude, within `1e-9` in high precision mode (for all
latitudes and longitudes). -/
theorem C07_round_trip (neg : Bool) (a : ℚ) (hx : IsDouble (.fin neg a)) (ha : a ≤ 180) (att : Str)
    (hp : Bool) :
    ∃ t r, ddd2dmm (.float (.fin neg a)) att hp = .ok t ∧
      dmm2ddd t = .ok (.float (.fin false r)) ∧ IsDouble (.fin false r) ∧
      |r - a| < (if hp then 1 / 10 ^ 9 else 1 / 10 ^ 7) := by
  have h0 : 0 ≤ a := (hx.wf).1.nonneg
  obtain ⟨D, S, hD, -, -, hS1, hS2, herr, htext⟩ := ddd2dmm_sum (s := neg) h0 (by linarith) att hp
  set n := minuteDecimals hp with hn
  have hn57 : (if hp then 7 else 5) = n := rfl
  have hw : n + 5 ≤ (if hp then 12 else 10) + (if att = LA then 0 else 1) := by
    rw [hn]; unfold minuteDecimals; split <;> split <;> omega
  have hn1 : 1 ≤ n := by rw [hn]; unfold minuteDecimals; split <;> omega
  rw [hn57] at htext
  obtain ⟨ip, fp, et, h1, h2, hl, hfl, hip, hfp, -⟩ := fixed_text n _ S hn1 hw
  have hpow : (0 : ℚ) < 10 ^ n := by positivity
  have hD0 : (0 : ℚ) ≤ D := by positivity
  -- the printed count
  set K := roundHalfEven (S * 10 ^ n) with hK
  have hKlo : ((100 * D * 10 ^ n : ℕ) : ℤ) ≤ K := rhe_ge (by push_cast; gcongr)
  have hKhi : K ≤ (((100 * D + 60) * 10 ^ n : ℕ) : ℤ) := rhe_le (by push_cast; gcongr)
  have hKerr := rhe_err (S * 10 ^ n)
  rw [← hK] at hKerr
  obtain ⟨k, hk⟩ : ∃ k : ℕ, K = k := ⟨K.toNat, by omega⟩
  rw [hk] at hKlo hKhi hKerr hip hfp
  rw [Int.toNat_natCast] at hip hfp
  have hKlo' : 100 * D * 10 ^ n ≤ k := by exact_mod_cast hKlo
  have hKhi' : k ≤ (100 * D + 60) * 10 ^ n := by exact_mod_cast hKhi
  have hI1 : 100 * D ≤ k / 10 ^ n := (Nat.le_div_iff_mul_le (by positivity)).mpr hKlo'
  have hI2 : k / 10 ^ n ≤ 100 * D + 60 := by
    calc k / 10 ^ n ≤ ((100 * D + 60) * 10 ^ n) / 10 ^ n := Nat.div_le_div_right hKhi'
      _ = _ := Nat.mul_div_cancel _ (by positivity)
  obtain ⟨r, hr, hrf, -, hre⟩ := dmm2ddd_accurate ip fp h1 h2 hl (by rw [hip]; omega)
  rw [hip, hfp, hfl] at hre
  have e1 : k / 10 ^ n / 100 = D := by omega
  have hdm : ((k / 10 ^ n : ℕ) : ℚ) + ((k % 10 ^ n : ℕ) : ℚ) / 10 ^ n = (k : ℚ) / 10 ^ n := by
    have := Nat.div_add_mod k (10 ^ n)
    have h' : ((10 ^ n : ℕ) : ℚ) * ((k / 10 ^ n : ℕ) : ℚ) + ((k % 10 ^ n : ℕ) : ℚ) = (k : ℚ) := by
      exact_mod_cast this
    push_cast at h' ⊢
    rw [← h']; field_simp
  have e2 : ((k / 10 ^ n % 100 : ℕ) : ℚ) = ((k / 10 ^ n : ℕ) : ℚ) - 100 * D := by
    have : k / 10 ^ n = k / 10 ^ n % 100 + 100 * D := by omega
    have h' : ((k / 10 ^ n : ℕ) : ℚ) = ((k / 10 ^ n % 100 : ℕ) : ℚ) + 100 * D := by exact_mod_cast this
    linarith
  have e3 : (D : ℚ) + (((k / 10 ^ n % 100 : ℕ) : ℚ) + ((k % 10 ^ n : ℕ) : ℚ) / 10 ^ n) / 60 =
      D + ((k : ℚ) / 10 ^ n - 100 * D) / 60 := by
    rw [e2, ← hdm]; ring
  rw [e1, e3] at hre
  have hSk : |(k : ℚ) / 10 ^ n - S| ≤ 1 / 2 / 10 ^ n := by
    have : (k : ℚ) / 10 ^ n - S = (((k : ℤ) : ℚ) - S * 10 ^ n) / 10 ^ n := by
      push_cast; field_simp
    rw [this, abs_div, abs_of_pos hpow]
    gcongr
  refine ⟨_, r, htext, ?_, ?_, ?_⟩
  · rw [et]; exact hr
  · -- the result is a double: it comes out of a rounding and is small
    obtain ⟨m, e, hm, he, rfl⟩ := hrf
    exact isDouble_of_small hm he (by
      have := abs_le.mp hre
      have := abs_le.mp hSk
      have : 1 / 2 / (10 : ℚ) ^ n ≤ 1 / 2 := by
        rw [div_le_iff₀ hpow]
        have : (1 : ℚ) ≤ 10 ^ n := one_le_pow₀ (by norm_num)
        linarith
      have hDq : (D : ℚ) ≤ 999 := by exact_mod_cast hD
      norm_num
      linarith)
  · generalize (k : ℚ) / 10 ^ n = y at *
    rw [abs_le] at hre herr hSk
    cases hp with
    | false =>
      have : (10 : ℚ) ^ n = 100000 := by rw [hn]; norm_num [minuteDecimals]
      rw [this] at hSk
      simp only [Bool.false_eq_true, if_false]
      norm_num
      rw [abs_lt]; constructor <;> linarith [hre.1, hre.2, herr.1, herr.2, hSk.1, hSk.2]
    | true =>
      have : (10 : ℚ) ^ n = 10000000 := by rw [hn]; norm_num [minuteDecimals]
      rw [this] at hSk
      simp only [if_true]
      norm_num
      rw [abs_lt]; constructor <;> linarith [hre.1, hre.2, herr.1, herr.2, hSk.1, hSk.2]


/-- -33.8688197 (the float nearest to it). -/
example : ∃ t r, ddd2dmm (.float (.fin true (2383306309068727 * (2 : ℚ) ^ (-46 : ℤ)))) LA false = .ok t ∧
    dmm2ddd t = .ok (.float (.fin false r)) ∧ IsDouble (.fin false r) ∧
      |r - 2383306309068727 * (2 : ℚ) ^ (-46 : ℤ)| < 1 / 10 ^ 7 :=
  C07_round_trip true (2383306309068727 * (2 : ℚ) ^ (-46 : ℤ))
    ⟨2383306309068727, -46, by norm_num, by norm_num, by norm_num, by norm_num⟩ (by norm_num) LA false

/-- Digits only. -/
def AllDigits (s : Str) : Prop := ∀ c ∈ s, 48 ≤ c ∧ c ≤ 57

instance (s : Str) : Decidable (AllDigits s) := inferInstanceAs (Decidable (∀ c ∈ s, _))

/-- C07. Reading is accurate by itself: degrees, two digits of minutes and any number of decimals of
minutes give a float within `6e-11` of degrees plus minutes over sixty. -/
theorem C07_reading (deg min frac : Str) (hd : AllDigits deg) (hm : AllDigits min) (hf : AllDigits frac)
    (ld : 2 ≤ deg.length) (lm : min.length = 2) (hb : ofDigits 10 (deg.map (· - 48)) < 1000) :
    ∃ r, dmm2ddd (deg ++ min ++ py!"." ++ frac) = .ok (.float (.fin false r)) ∧
      |r - ((ofDigits 10 (deg.map (· - 48)) : ℚ) + ((ofDigits 10 (min.map (· - 48)) : ℚ) +
        (ofDigits 10 (frac.map (· - 48)) : ℚ) / 10 ^ frac.length) / 60)| ≤ 6 / 10 ^ 11 := by
  have v1 : ofDigits 10 (deg.map (· - 48)) = asciiDigitsVal deg := rfl
  have v2 : ofDigits 10 (min.map (· - 48)) = asciiDigitsVal min := rfl
  have v3 : ofDigits 10 (frac.map (· - 48)) = asciiDigitsVal frac := rfl
  rw [v1] at hb ⊢
  rw [v2, v3]
  have hv : asciiDigitsVal (deg ++ min) = asciiDigitsVal deg * 100 + asciiDigitsVal min := by
    rw [asciiVal_append, lm]
  have hmlt := asciiVal_lt min (latlon_ascii_digits hm)
  rw [lm] at hmlt
  obtain ⟨r, hr, -, -, he⟩ := dmm2ddd_accurate (deg ++ min) frac (by
      intro c hc
      rcases List.mem_append.mp hc with h | h
      · exact latlon_ascii_digits hd c h
      · exact latlon_ascii_digits hm c h) (latlon_ascii_digits hf) (by simp; omega) (by rw [hv]; omega)
  refine ⟨r, ?_, ?_⟩
  · rw [← hr]
    congr 1
    simp [List.append_assoc]
  · rw [hv, show (asciiDigitsVal deg * 100 + asciiDigitsVal min) / 100 = asciiDigitsVal deg by omega,
      show (asciiDigitsVal deg * 100 + asciiDigitsVal min) % 100 = asciiDigitsVal min by omega] at he
    norm_num at he ⊢
    exact he

example : ∃ r, dmm2ddd py!"5327.03942" = .ok (.float (.fin false r)) ∧
    |r - (53 + (27 + 3942 / 10 ^ 5) / 60)| ≤ 6 / 10 ^ 11 := by
  have := C07_reading py!"53" py!"27" py!"03942" (by decide) (by decide) (by decide) (by decide) (by decide)
    (by decide)
  simpa [ofDigits] using this

/-- C07. Conversely, reading a field in the form the writer uses - two or three digits of degrees, two
of minutes below sixty, five or seven decimals - and writing the result gives the same text. -/
theorem C07_text_round_trip (hp : Bool) (att deg min frac : Str) (hd : AllDigits deg) (hm : AllDigits min)
    (hf : AllDigits frac) (ld : deg.length = if att = LA then 2 else 3) (lm : min.length = 2)
    (lf : frac.length = if hp then 7 else 5) (hmin : ofDigits 10 (min.map (· - 48)) < 60)
    (hdeg : ofDigits 10 (deg.map (· - 48)) < 999) :
    ∃ v, dmm2ddd (deg ++ min ++ py!"." ++ frac) = .ok v ∧
      ddd2dmm v att hp = .ok (deg ++ min ++ py!"." ++ frac) := by
  have v1 : ofDigits 10 (deg.map (· - 48)) = asciiDigitsVal deg := rfl
  have v2 : ofDigits 10 (min.map (· - 48)) = asciiDigitsVal min := rfl
  rw [v1] at hdeg
  rw [v2] at hmin
  set n := minuteDecimals hp with hn
  have hn57 : (if hp then 7 else 5) = n := rfl
  rw [hn57] at lf
  have hw : n + 5 ≤ (if hp then 12 else 10) + (if att = LA then 0 else 1) := by
    rw [hn]; unfold minuteDecimals; split <;> split <;> omega
  have hn1 : 1 ≤ n := by rw [hn]; unfold minuteDecimals; split <;> omega
  have hpow : (0 : ℚ) < 10 ^ n := by positivity
  have htxt : deg ++ min ++ py!"." ++ frac = (deg ++ min) ++ 46 :: frac := by simp [List.append_assoc]
  have hip : ∀ c ∈ deg ++ min, isAsciiDigit c = true := by
    intro c hc
    rcases List.mem_append.mp hc with h | h
    · exact latlon_ascii_digits hd c h
    · exact latlon_ascii_digits hm c h
  have hv : asciiDigitsVal (deg ++ min) = asciiDigitsVal deg * 100 + asciiDigitsVal min := by
    rw [asciiVal_append, lm]
  have hipl : 4 ≤ (deg ++ min).length := by
    rw [List.length_append, ld, lm]; split <;> omega
  obtain ⟨r, hr, -, hge, he⟩ := dmm2ddd_accurate (deg ++ min) frac hip (latlon_ascii_digits hf) hipl
    (by rw [hv]; omega)
  rw [hv, show (asciiDigitsVal deg * 100 + asciiDigitsVal min) / 100 = asciiDigitsVal deg by omega] at hge he
  rw [show (asciiDigitsVal deg * 100 + asciiDigitsVal min) % 100 = asciiDigitsVal min by omega, lf] at he
  rw [htxt]
  refine ⟨_, hr, ?_⟩
  -- numbers
  have hF := asciiVal_lt frac (latlon_ascii_digits hf)
  rw [lf] at hF
  set Dg := asciiDigitsVal deg with hDg
  set Mi := asciiDigitsVal min with hMi
  set Fr := asciiDigitsVal frac with hFr
  have hFq : (Fr : ℚ) + 1 ≤ 10 ^ n := by exact_mod_cast hF
  have hMq : (Mi : ℚ) ≤ 59 := by exact_mod_cast (show Mi ≤ 59 by omega)
  have hFq0 : (0 : ℚ) ≤ Fr / 10 ^ n := by positivity
  have hp7 : (10 : ℚ) ^ n ≤ 10000000 := by
    rw [hn]; unfold minuteDecimals; split <;> norm_num
  have hstep : 1 / 10000000 ≤ 1 / (10 : ℚ) ^ n := one_div_le_one_div_of_le hpow hp7
  have hFq1 : (Fr : ℚ) / 10 ^ n ≤ 1 - 1 / 10000000 := by
    have : (Fr : ℚ) / 10 ^ n ≤ 1 - 1 / 10 ^ n := by
      rw [div_le_iff₀ hpow, sub_mul, one_div, inv_mul_cancel₀ (ne_of_gt hpow)]
      linarith
    linarith
  have hMq0 : (0 : ℚ) ≤ Mi := by positivity
  have hDq0 : (0 : ℚ) ≤ Dg := by positivity
  have hDq : (Dg : ℚ) ≤ 998 := by exact_mod_cast (show Dg ≤ 998 by omega)
  rw [abs_le] at he
  obtain ⟨D, S, hD, hmono, hup, hS1, hS2, herr, htext⟩ := ddd2dmm_sum (s := false) (a := r) (by linarith)
    (by linarith [he.2]) att hp
  have hDD : D = Dg := by
    apply le_antisymm _ (hmono Dg hge)
    have : (D : ℚ) < Dg + 1 := by linarith [he.2]
    have : D < Dg + 1 := by exact_mod_cast this
    omega
  rw [hDD] at hS1 hS2 herr
  rw [htext, hn57]
  obtain ⟨ip, fp, et, h1, h2, hl, hfl, hvi, hvf, hlen⟩ := fixed_text n _ S hn1 hw
  rw [abs_le] at herr
  have hpe : (10 : ℚ) ^ n * (1 / 10 ^ n) = 1 := by rw [one_div, mul_inv_cancel₀ (ne_of_gt hpow)]
  have hN : roundHalfEven (S * 10 ^ n) = ((((Dg * 100 + Mi) * 10 ^ n + Fr : ℕ) : ℤ)) := by
    apply rhe_unique
    have e : (((((Dg * 100 + Mi) * 10 ^ n + Fr : ℕ) : ℤ)) : ℚ) - S * 10 ^ n =
        ((Dg * 100 + Mi + Fr / 10 ^ n) - S) * 10 ^ n := by
      push_cast
      have : (Fr : ℚ) / 10 ^ n * 10 ^ n = Fr := by field_simp
      rw [sub_mul, add_mul (_ + _) _ ((10 : ℚ) ^ n), this]
    rw [e, abs_mul, abs_of_pos hpow]
    have : |((Dg : ℚ) * 100 + Mi + Fr / 10 ^ n) - S| ≤ 1 / 200000000 := by
      rw [abs_le]; constructor <;> linarith [he.1, he.2, herr.1, herr.2]
    calc _ ≤ 1 / 200000000 * (10 : ℚ) ^ n := by gcongr
      _ ≤ 1 / 200000000 * 10000000 := by gcongr
      _ < 1 / 2 := by norm_num
  rw [hN, Int.toNat_natCast] at hvi hvf hlen
  have hq : ((Dg * 100 + Mi) * 10 ^ n + Fr) / 10 ^ n = Dg * 100 + Mi := by
    rw [Nat.add_comm, Nat.add_mul_div_right _ _ (by positivity), Nat.div_eq_of_lt hF, Nat.zero_add]
  have hr' : ((Dg * 100 + Mi) * 10 ^ n + Fr) % 10 ^ n = Fr := by
    rw [Nat.add_comm, Nat.add_mul_mod_self_right, Nat.mod_eq_of_lt hF]
  rw [hq] at hvi hlen
  rw [hr'] at hvf
  have hdl := asciiVal_lt deg (latlon_ascii_digits hd)
  have hlen' : ip.length = (deg ++ min).length := by
    rw [hlen, hfl, List.length_append, ld, lm]
    have h45 : (natDec (Dg * 100 + Mi)).length ≤ (if att = LA then 2 else 3) + 2 := by
      apply natDec_length _ _ _ (by omega)
      have : Dg < 10 ^ (if att = LA then 2 else 3) := by rw [← ld]; exact hdl
      rw [pow_add]
      omega
    have : (if hp then 12 else 10) = n + 5 := by rw [hn]; unfold minuteDecimals; split <;> rfl
    rw [this]
    split at h45 <;> split <;> first | omega | contradiction
  rw [et, asciiVal_inj ip (deg ++ min) hlen' h1 hip (by rw [hvi, hv]),
    asciiVal_inj fp frac (by rw [hfl, lf]) h2 (latlon_ascii_digits hf) hvf]

example : ∃ v, dmm2ddd py!"00025.40000" = .ok v ∧ ddd2dmm v LN false = .ok py!"00025.40000" :=
  C07_text_round_trip false LN py!"000" py!"25" py!"40000" (by decide) (by decide) (by decide)
    (by decide) (by decide) (by decide) (by decide) (by decide)

/-- C07. The written text always has the fixed width of the field: four (latitude below 100) or five
(longitude) digits, a point, and the chosen number of decimals. -/
theorem C07_shape (neg : Bool) (a : ℚ) (hx : IsDouble (.fin neg a)) (att : Str) (hp : Bool)
    (ha : a ≤ if att = LA then 90 else 180) :
    ∃ ip fp, ddd2dmm (.float (.fin neg a)) att hp = .ok (ip ++ py!"." ++ fp) ∧ AllDigits ip ∧ AllDigits fp ∧
      ip.length = (if att = LA then 4 else 5) ∧ fp.length = (if hp then 7 else 5) := by
  have h0 : 0 ≤ a := (hx.wf).1.nonneg
  have ha' : a ≤ 180 := le_trans ha (by split <;> norm_num)
  obtain ⟨D, S, hD, -, hup, hS1, hS2, herr, htext⟩ := ddd2dmm_sum (s := neg) h0 (by linarith) att hp
  set n := minuteDecimals hp with hn
  have hn57 : (if hp then 7 else 5) = n := rfl
  have hw : n + 5 ≤ (if hp then 12 else 10) + (if att = LA then 0 else 1) := by
    rw [hn]; unfold minuteDecimals; split <;> split <;> omega
  have hn1 : 1 ≤ n := by rw [hn]; unfold minuteDecimals; split <;> omega
  rw [hn57] at htext
  obtain ⟨ip, fp, et, h1, h2, hl, hfl, hvi, hvf, hlen⟩ := fixed_text n _ S hn1 hw
  have dig : ∀ s : Str, (∀ c ∈ s, isAsciiDigit c = true) → AllDigits s := by
    intro s h c hc
    have := h c hc
    simpa [isAsciiDigit] using this
  refine ⟨ip, fp, ?_, dig _ h1, dig _ h2, ?_, hfl⟩
  · rw [htext, et]; simp [List.append_assoc]
  · have hDb : D ≤ if att = LA then 90 else 180 := by
      have : (D : ℚ) < (if att = LA then 90 else 180) + 1 := by linarith
      by_cases hla : att = LA
      · rw [if_pos hla] at this ⊢
        have : (D : ℚ) < (91 : ℕ) := by push_cast; linarith
        have : D < 91 := by exact_mod_cast this
        omega
      · rw [if_neg hla] at this ⊢
        have : (D : ℚ) < (181 : ℕ) := by push_cast; linarith
        have : D < 181 := by exact_mod_cast this
        omega
    have hKhi : roundHalfEven (S * 10 ^ n) ≤ (((100 * D + 60) * 10 ^ n : ℕ) : ℤ) :=
      rhe_le (by push_cast; gcongr)
    have hI2 : (roundHalfEven (S * 10 ^ n)).toNat / 10 ^ n ≤ 100 * D + 60 := by
      calc _ ≤ ((100 * D + 60) * 10 ^ n) / 10 ^ n := Nat.div_le_div_right (by omega)
        _ = _ := Nat.mul_div_cancel _ (by positivity)
    have h45 : (natDec ((roundHalfEven (S * 10 ^ n)).toNat / 10 ^ n)).length ≤ if att = LA then 4 else 5 := by
      apply natDec_length
      · refine lt_of_le_of_lt hI2 ?_
        split at hDb <;> rename_i hla
        · rw [if_pos hla]; omega
        · rw [if_neg hla]; omega
      · split <;> omega
    have h5 : (if hp then 12 else 10) = n + 5 := by rw [hn]; unfold minuteDecimals; split <;> rfl
    rw [hlen, hfl, h5]
    split at h45 <;> split <;> first | omega | contradiction

example : ∃ ip fp, ddd2dmm (.float (.fin true (1 / 2))) LN true = .ok (ip ++ py!"." ++ fp) ∧ AllDigits ip ∧
    AllDigits fp ∧ ip.length = 5 ∧ fp.length = 7 :=
  C07_shape true (1 / 2) ⟨1, -1, by norm_num, by norm_num, by norm_num, by norm_num⟩ LN true
    (by rw [if_neg (by decide)]; norm_num)

/-- C07. The same for the fields of a message: a latitude is written with two digits of degrees, a longitude
with three, and reading the field gives the position back. -/
theorem C07_field (neg : Bool) (a : ℚ) (hx : IsDouble (.fin neg a)) (att : Str) (hp : Bool)
    (hatt : (att = py!"LA" ∧ a ≤ 90) ∨ (att = py!"LN" ∧ a ≤ 180)) :
    ∃ ip fp r, val2str (.float (.fin neg a)) att hp = .ok (ip ++ py!"." ++ fp) ∧ AllDigits ip ∧ AllDigits fp ∧
      ip.length = (if att = py!"LA" then 4 else 5) ∧ fp.length = (if hp then 7 else 5) ∧
      str2val (ip ++ py!"." ++ fp) att = .ok (.float (.fin false r)) ∧
      |r - a| < (if hp then 1 / 10 ^ 9 else 1 / 10 ^ 7) := by
  have h1 : val2str (.float (.fin neg a)) att hp = ddd2dmm (.float (.fin neg a)) att hp ∧
      ∀ s, str2val s att = dmm2ddd s := by
    rcases hatt with ⟨rfl, _⟩ | ⟨rfl, _⟩ <;> exact ⟨rfl, fun _ => rfl⟩
  have ha : a ≤ 180 := by rcases hatt with ⟨_, h⟩ | ⟨_, h⟩ <;> linarith
  have ha' : a ≤ if att = LA then 90 else 180 := by
    rcases hatt with ⟨rfl, h⟩ | ⟨rfl, h⟩
    · exact h
    · exact h
  obtain ⟨t, r, h2, h3, _, h4⟩ := C07_round_trip neg a hx ha att hp
  obtain ⟨ip, fp, g1, g2, g3, g4, g5⟩ := C07_shape neg a hx att hp ha'
  have : t = ip ++ py!"." ++ fp := by rw [h2] at g1; exact Except.ok.inj g1
  subst this
  exact ⟨ip, fp, r, h1.1.trans h2, g2, g3, g4, g5, (h1.2 _).trans h3, h4⟩

/-- C07. Anything that is not a number - and nan and the infinities - is written as an empty field, and
text without at least four characters before a decimal point is read as an empty text. -/
theorem C07_invalid (v : PyVal) (att : Str) (hp : Bool)
    (h : ((∀ b, v ≠ .bool b) ∧ (∀ i, v ≠ .int i) ∧ ∀ x, v ≠ .float x) ∨ v = .float .nan ∨ ∃ s, v = .float (.inf s)) :
    ddd2dmm v att hp = .ok [] := by
  rcases h with h | rfl | ⟨s, rfl⟩
  · have : v.num? = none := by cases v <;> simp_all [PyVal.num?]
    unfold ddd2dmm
    simp only [this]
    rfl
  · rfl
  · rfl

/-- C07. `True` and `False` are written as the numbers 1 and 0. -/
theorem C07_bool (b : Bool) (att : Str) (hp : Bool) : ddd2dmm (.bool b) att hp = ddd2dmm (.int (if b then 1 else 0)) att hp := by
  cases b <;> rfl

/-- C07. See `C07_invalid`. -/
theorem C07_short (t : Str) (h : ∀ a b, t = a ++ py!"." ++ b → 46 ∉ a →
    a.length < 4) : dmm2ddd t = .ok (.str []) := by
  unfold dmm2ddd
  cases hf : findChar 46 t with
  | none => rfl
  | some n =>
    obtain ⟨a, b, rfl, ha, hl⟩ := findChar_some hf
    have := h a b (by simp) ha
    simp only
    rw [if_pos (by omega)]

example : dmm2ddd py!"123.45" = .ok (.str []) := by decide

/-- C07. Rounding the minutes can reach sixty: the writer then prints `60.00000` instead of carrying into
the degrees (the reader accepts it). -/
theorem C07_sixty : ddd2dmm (.float (.fin false (9007199250000000 / 9007199254740992))) LA false =
    .ok py!"0060.00000" := by
  decide +kernel


/-- C07. Whole degrees given as an `int` come back exactly, as a float. -/
theorem C07_int (i : ℤ) (hi : i.natAbs ≤ 180) (att : Str) (hp : Bool) :
    ∃ t, ddd2dmm (.int i) att hp = .ok t ∧ dmm2ddd t = .ok (.float (.fin false (i.natAbs : ℚ))) := by
  set n := minuteDecimals hp with hn
  have hn57 : (if hp then 7 else 5) = n := rfl
  have hw : n + 5 ≤ (if hp then 12 else 10) + (if att = LA then 0 else 1) := by
    rw [hn]; unfold minuteDecimals; split <;> split <;> omega
  have hn1 : 1 ≤ n := by rw [hn]; unfold minuteDecimals; split <;> omega
  set D := i.natAbs with hD
  have hDq : (D : ℚ) ≤ 180 := by exact_mod_cast hi
  have h100 : ((100 * D : ℕ) : ℚ) = 100 * D := by push_cast; ring
  have hsum : PyFloat.ofInt (((i.natAbs : ℤ) * 60) / 60 * 100 + ((i.natAbs : ℤ) * 60) % 60) =
      .ok (.fin false ((100 * D : ℕ) : ℚ)) := by
    rw [show ((i.natAbs : ℤ) * 60) / 60 * 100 + ((i.natAbs : ℤ) * 60) % 60 = ((100 * D : ℕ) : ℤ) by omega]
    unfold PyFloat.ofInt
    rw [Int.cast_natCast, PyFloat.ofRat_nonneg (by positivity) (by rw [h100]; norm_num; linarith),
      roundMag_f64 (isF64_nat (by omega))]
  have htext : ddd2dmm (.int i) att hp = .ok (zfill ((if hp then 12 else 10) + (if att = LA then 0 else 1))
      (fmtFixed n (.fin false ((100 * D : ℕ) : ℚ)))) := by
    unfold ddd2dmm
    simp only [PyVal.num?, bind, Except.bind, hsum]
    rfl
  obtain ⟨ip, fp, et, h1, h2, hl, hfl, hvi, hvf, -⟩ := fixed_text n _ ((100 * D : ℕ) : ℚ) hn1 hw
  have hK : roundHalfEven (((100 * D : ℕ) : ℚ) * 10 ^ n) = ((100 * D * 10 ^ n : ℕ) : ℤ) := by
    have := rhe_int ((100 * D * 10 ^ n : ℕ) : ℤ)
    rw [← this]
    congr 1
    push_cast; rfl
  rw [hK, Int.toNat_natCast, Nat.mul_div_cancel _ (by positivity)] at hvi
  rw [hK, Int.toNat_natCast, Nat.mul_mod_left] at hvf
  refine ⟨_, htext, ?_⟩
  rw [et, dmm2ddd_text ip fp h1 h2 hl, hvi, hvf]
  have z : ((100 * D % 100 : ℕ) : ℚ) + ((0 : ℕ) : ℚ) / 10 ^ fp.length = 0 := by
    rw [show 100 * D % 100 = 0 by omega]; simp
  have zero : PyFloat.ofMag false 0 = .fin false 0 := by
    rw [PyFloat.ofMag_small (by norm_num), roundMag_zero]
  rw [z, zero, show 100 * D / 100 = D by omega]
  have ediv : PyFloat.div (.fin false 0) (.fin false 60) = .ok (.fin false 0) := by
    simp [PyFloat.div, zero]
  rw [ediv]
  simp only
  rw [PyFloat.ofMag_small (by norm_num; linarith), roundMag_f64 (isF64_nat (m := D) (by omega))]
  simp only [PyFloat.abs]
  rw [add_pos_fin (by positivity) (le_refl _) (by norm_num; linarith), add_zero,
    roundMag_f64 (isF64_nat (m := D) (by omega))]
  unfold PyFloat.roundTo
  simp only
  rw [if_neg (by norm_num), if_neg (by norm_num)]
  have p10 : pow10 10 = 10000000000 := by rw [pow10_eq]; norm_num
  have p10' : pow10 (-10) = 1 / 10000000000 := by rw [pow10_eq]; norm_num
  have hr : roundHalfEven ((D : ℚ) * pow10 10) = ((D * 10000000000 : ℕ) : ℤ) := by
    have e : (D : ℚ) * pow10 10 = (((D * 10000000000 : ℕ) : ℤ) : ℚ) := by rw [p10]; push_cast; ring
    rw [e, rhe_int]
  rw [hr, p10']
  have e : (((D * 10000000000 : ℕ) : ℤ) : ℚ) * (1 / 10000000000) = (D : ℚ) := by
    push_cast; ring
  rw [e, PyFloat.ofMag_small (by norm_num; linarith), roundMag_f64 (isF64_nat (m := D) (by omega))]

example : ∃ t, ddd2dmm (.int (-72)) LN true = .ok t ∧ dmm2ddd t = .ok (.float (.fin false 72)) :=
  C07_int (-72) (by decide) LN true

end Nmea
