import Verif.Spec.Writing
import Verif.Lemmas.Nmea0183
import Verif.Lemmas.DmsText
/-! # Lemmas: how values are written (C76) -/
namespace Props
open Py Nmea Spec Spec.Nmea0183

theorem ascii_isDigits {s : Str} (h : ∀ c ∈ s, isAsciiDigit c = true) : IsDigits s := by
  intro c hc
  have := h c hc
  simpa [isAsciiDigit] using this

/-- The float nearest to `0.0001`. -/
def tenthMilli : ℚ := 7378697629483821 / 73786976294838206464

theorem shortest_tenthMilli : shortest tenthMilli = (1, -4) := by decide +kernel

theorem tenthMilli_f64 : IsF64 tenthMilli := ⟨7378697629483821, -66, by norm_num, by norm_num, by norm_num [tenthMilli]⟩

/-- The decimal point of the shortest text, and the powers of ten around it. -/
theorem decpt_bounds {q : ℚ} (h : IsF64 q) (hq : 0 < q) :
    roundMag (((shortest q).1 : ℚ) * (10 : ℚ) ^ (shortest q).2) = q ∧
    (10 : ℚ) ^ (((digits 10 (shortest q).1).length : ℤ) + (shortest q).2 - 1) ≤
      ((shortest q).1 : ℚ) * (10 : ℚ) ^ (shortest q).2 ∧
    ((shortest q).1 : ℚ) * (10 : ℚ) ^ (shortest q).2 <
      (10 : ℚ) ^ (((digits 10 (shortest q).1).length : ℤ) + (shortest q).2) := by
  have hsp := shortest_spec h hq
  refine ⟨hsp, ?_⟩
  have hd0 : (shortest q).1 ≠ 0 := by
    intro h0
    rw [h0] at hsp
    simp [roundMag_zero] at hsp
    rw [← hsp] at hq; exact absurd hq (lt_irrefl _)
  obtain ⟨d, hd⟩ : ∃ d, (shortest q).1 = d := ⟨_, rfl⟩
  obtain ⟨e, he⟩ : ∃ e, (shortest q).2 = e := ⟨_, rfl⟩
  rw [hd] at hd0
  have hlen : 1 ≤ (digits 10 d).length := by
    have := digits_ne_nil 10 d
    exact List.length_pos_of_ne_nil this
  have hlt : d < 10 ^ (digits 10 d).length := (digits_length_le 10 d _ (by omega) hlen).1 (le_refl _)
  have hge : 10 ^ ((digits 10 d).length - 1) ≤ d := by
    by_cases h1 : (digits 10 d).length = 1
    · rw [h1]; simp; omega
    · by_contra hc
      have := (digits_length_le 10 d ((digits 10 d).length - 1) (by omega) (by omega)).2 (by omega)
      omega
  rw [hd, he]
  generalize hL : (digits 10 d).length = L at *
  have hp : (0 : ℚ) < (10 : ℚ) ^ e := by positivity
  constructor
  · rw [show (L : ℤ) + e - 1 = ((L - 1 : ℕ) : ℤ) + e by omega, zpow_add₀ (by norm_num), zpow_natCast]
    have : (10 : ℚ) ^ (L - 1) ≤ (d : ℚ) := by exact_mod_cast hge
    exact mul_le_mul_of_nonneg_right this hp.le
  · rw [zpow_add₀ (by norm_num), zpow_natCast]
    have : (d : ℚ) < (10 : ℚ) ^ L := by exact_mod_cast hlt
    exact mul_lt_mul_of_pos_right this hp

theorem round_tenthMilli : roundMag (1 / 10 ^ 4 : ℚ) = tenthMilli := by decide +kernel

theorem shortest_large : shortest (10 ^ 16) = (1, 16) := by decide +kernel

theorem large_f64 : IsF64 (10 ^ 16) := ⟨152587890625, 16, by norm_num, by norm_num, by norm_num⟩

/-- The position of the decimal point tells whether a number is very small or very large. -/
theorem decpt_range {q : ℚ} (h : IsF64 q) (hq : 0 < q) :
    (-4 < ((digits 10 (shortest q).1).length : ℤ) + (shortest q).2 ↔ 1 / 10 ^ 4 ≤ q) ∧
      (((digits 10 (shortest q).1).length : ℤ) + (shortest q).2 ≤ 16 ↔ q < 10 ^ 16) := by
  obtain ⟨hsp, lo, up⟩ := decpt_bounds h hq
  have key4 : (10 : ℚ) ^ (-4 : ℤ) = 1 / 10 ^ 4 := by norm_num
  have key16 : (10 : ℚ) ^ (16 : ℤ) = 10 ^ 16 := by norm_num
  constructor
  · constructor
    · intro hc
      have h3 : 1 / 10 ^ 4 ≤ ((shortest q).1 : ℚ) * (10 : ℚ) ^ (shortest q).2 := by
        refine le_trans ?_ lo
        rw [← key4]
        exact zpow_le_zpow_right₀ (by norm_num) (by omega)
      have h4 : tenthMilli ≤ roundMag (((shortest q).1 : ℚ) * (10 : ℚ) ^ (shortest q).2) := by
        rw [← round_tenthMilli]
        exact roundMag_mono h3
      rw [hsp] at h4
      exact le_trans (by norm_num [tenthMilli]) h4
    · intro h1
      by_contra hc
      have h3 : ((shortest q).1 : ℚ) * (10 : ℚ) ^ (shortest q).2 < 1 / 10 ^ 4 := by
        refine lt_of_lt_of_le up ?_
        rw [← key4]
        exact zpow_le_zpow_right₀ (by norm_num) (by omega)
      have h4 : roundMag (((shortest q).1 : ℚ) * (10 : ℚ) ^ (shortest q).2) ≤ tenthMilli :=
        roundMag_le (le_of_lt (lt_of_lt_of_le h3 (by norm_num [tenthMilli]))) tenthMilli_f64
      rw [hsp] at h4
      -- a float of at least 0.0001 is at least the float nearest to it
      have h5 : tenthMilli ≤ q := by
        rw [← round_tenthMilli]
        exact roundMag_le h1 h
      have h6 : q = tenthMilli := le_antisymm h4 h5
      rw [h6, shortest_tenthMilli] at h3
      norm_num at h3
  · constructor
    · intro hc
      by_contra hq16
      have h3 : ((shortest q).1 : ℚ) * (10 : ℚ) ^ (shortest q).2 ≤ 10 ^ 16 := by
        refine le_of_lt (lt_of_lt_of_le up ?_)
        rw [← key16]
        exact zpow_le_zpow_right₀ (by norm_num) (by omega)
      have h4 := roundMag_le h3 large_f64
      rw [hsp] at h4
      have h6 : q = 10 ^ 16 := le_antisymm h4 (not_lt.1 hq16)
      rw [h6, shortest_large] at hc
      exact absurd hc (by decide)
    · intro h2
      by_contra hc
      have h3 : (10 : ℚ) ^ 16 ≤ ((shortest q).1 : ℚ) * (10 : ℚ) ^ (shortest q).2 := by
        refine le_trans ?_ lo
        rw [← key16]
        exact zpow_le_zpow_right₀ (by norm_num) (by omega)
      have h4 := le_roundMag h3 large_f64
      rw [hsp] at h4
      linarith

/-- Without an exponent, `repr` has digits on both sides of a point. -/
theorem reprDigits_plain (ds : List Nat) (h : ∀ d ∈ ds, d < 10) (hne : ds ≠ []) (decpt : Int) (h1 : -4 < decpt)
    (h2 : decpt ≤ 16) : ∃ ip fp, reprDigits ds decpt = ip ++ py!"." ++ fp ∧ ip ≠ [] ∧ fp ≠ [] ∧ IsDigits ip ∧ IsDigits fp := by
  have hc := ascii_isDigits (digits_map_ascii h)
  have hcne : ds.map digitUpper ≠ [] := by simp [hne]
  have hz : ∀ n, IsDigits (List.replicate n 48) := fun n => ascii_isDigits (zeros_ascii n)
  have happ : ∀ a b : Str, IsDigits a → IsDigits b → IsDigits (a ++ b) := by
    intro a b ha hb c hc
    rcases List.mem_append.1 hc with hc | hc
    · exact ha c hc
    · exact hb c hc
  unfold reprDigits
  simp only
  generalize ds.map digitUpper = cs at *
  rw [if_neg (by omega)]
  split
  · exact ⟨[48], List.replicate (-decpt).toNat 48 ++ cs, rfl, by simp, by simp [hcne], by decide, happ _ _ (hz _) hc⟩
  · split
    · refine ⟨cs ++ List.replicate (decpt.toNat - cs.length) 48, [48], by simp, by simp [hcne], by simp,
        happ _ _ hc (hz _), by decide⟩
    · refine ⟨cs.take decpt.toNat, cs.drop decpt.toNat, by simp, ?_, ?_, fun c hx => hc c (List.mem_of_mem_take hx),
        fun c hx => hc c (List.mem_of_mem_drop hx)⟩
      · intro e
        have := congrArg List.length e
        simp only [List.length_take, List.length_nil] at this
        omega
      · intro e
        have := congrArg List.length e
        simp only [List.length_drop, List.length_nil] at this
        omega

/-- Very small and very large numbers have an exponent. -/
theorem exponent_iff (negative : Bool) (a : ℚ) (hx : IsDouble (.fin negative a)) :
    101 ∈ reprFloat (.fin negative a) ↔ a ≠ 0 ∧ (a < 1 / 10 ^ 4 ∨ 10 ^ 16 ≤ a) := by
  have hs : ∀ body : Str, (101 ∈ (if negative then 45 :: body else body)) ↔ 101 ∈ body := by
    intro body; cases negative <;> simp
  unfold reprFloat
  simp only
  rw [hs]
  by_cases h0 : a = 0
  · rw [if_pos h0]
    simp [h0]
  · rw [if_neg h0]
    have hf : IsF64 a := hx.wf.1
    have hq : 0 < a := lt_of_le_of_ne hf.nonneg (Ne.symm h0)
    obtain ⟨r1, r2⟩ := decpt_range hf hq
    have hsub : ∀ d ∈ stripZeros (digits 10 (shortest a).1), d < 10 := by
      intro d hd
      obtain ⟨k, hk⟩ := stripZeros_split (digits 10 (shortest a).1)
      exact digits_lt 10 _ (by omega) d (by rw [hk]; exact List.mem_append_left _ hd)
    have hc := ascii_isDigits (digits_map_ascii hsub)
    have hiff : (a ≠ 0 ∧ (a < 1 / 10 ^ 4 ∨ 10 ^ 16 ≤ a)) ↔ (((digits 10 (shortest a).1).length : ℤ) + (shortest a).2 ≤ -4 ∨
        ((digits 10 (shortest a).1).length : ℤ) + (shortest a).2 > 16) := by
      constructor
      · rintro ⟨_, h | h⟩
        · left
          by_contra hc
          exact absurd (r1.1 (by omega)) (not_le.2 h)
        · right
          by_contra hc
          exact absurd (r2.1 (by omega)) (not_lt.2 h)
      · rintro (h | h)
        · refine ⟨h0, .inl ?_⟩
          by_contra hc
          have := r1.2 (not_lt.1 hc)
          omega
        · refine ⟨h0, .inr ?_⟩
          by_contra hc
          have := r2.2 (not_le.1 hc)
          omega
    rw [hiff]
    unfold reprDigits
    simp only
    generalize (stripZeros (digits 10 (shortest a).1)).map digitUpper = cs at *
    have hcs : 101 ∉ cs := fun h => by have := hc _ h; omega
    by_cases hr : ((digits 10 (shortest a).1).length : ℤ) + (shortest a).2 ≤ -4 ∨
        ((digits 10 (shortest a).1).length : ℤ) + (shortest a).2 > 16
    · rw [if_pos hr]
      exact ⟨fun _ => hr, fun _ => by simp⟩
    · rw [if_neg hr]
      refine ⟨fun h => ?_, fun h => absurd h hr⟩
      exfalso
      split at h
      · simp at h
        exact hcs h
      · split at h
        · simp at h
          exact hcs h
        · simp only [List.mem_append, List.mem_cons] at h
          rcases h with h | h | h
          · exact hcs (List.mem_of_mem_take h)
          · cases h
          · exact hcs (List.mem_of_mem_drop h)

theorem decimal_written (hp negative : Bool) (a : ℚ) (hx : IsDouble (.fin negative a))
    (ha : a = 0 ∨ 1 / 10 ^ 4 ≤ a ∧ a < 10 ^ 16) :
    WrittenAs hp .decimal (.float (.fin negative a)) (reprFloat (.fin negative a)) := by
  have hback := floatOfStr_reprFloat _ hx.wf
  obtain ⟨ip, fp, e, h1, h2, h3, h4⟩ : ∃ ip fp, reprFloat (.fin negative a) = signText negative ++ (ip ++ py!"." ++ fp) ∧
      ip ≠ [] ∧ fp ≠ [] ∧ IsDigits ip ∧ IsDigits fp := by
    have hs : ∀ body : Str, (if negative then 45 :: body else body) = signText negative ++ body := by
      intro body; cases negative <;> rfl
    unfold reprFloat
    simp only
    rw [hs]
    by_cases h0 : a = 0
    · rw [if_pos h0]
      exact ⟨py!"0", py!"0", rfl, by decide, by decide, by decide, by decide⟩
    · rw [if_neg h0]
      obtain ⟨ha1, ha2⟩ := ha.resolve_left h0
      have hf : IsF64 a := hx.wf.1
      have hq : 0 < a := lt_of_lt_of_le (by norm_num) ha1
      have r1 := (decpt_range hf hq).1.2 ha1
      have r2 := (decpt_range hf hq).2.2 ha2
      have hsub : ∀ d ∈ stripZeros (digits 10 (shortest a).1), d < 10 := by
        intro d hd
        obtain ⟨k, hk⟩ := stripZeros_split (digits 10 (shortest a).1)
        exact digits_lt 10 _ (by omega) d (by rw [hk]; exact List.mem_append_left _ hd)
      have hne : stripZeros (digits 10 (shortest a).1) ≠ [] := by
        intro h0
        have hval := stripZeros_value (digits 10 (shortest a).1)
        rw [ofDigits_digits 10 _ (by omega), h0] at hval
        simp [ofDigits] at hval
        have hsp := shortest_spec hf hq
        rw [hval] at hsp
        simp [roundMag_zero] at hsp
        rw [← hsp] at hq; exact absurd hq (lt_irrefl _)
      obtain ⟨ip, fp, e, h⟩ := reprDigits_plain _ hsub hne _ r1 r2
      exact ⟨ip, fp, by rw [e], h⟩
  rw [e, ← List.append_assoc, ← List.append_assoc]
  refine .decimal negative ip fp _ h1 h2 h3 h4 ?_
  rw [e] at hback
  have hr := reads_dot h3 h4 h1
  cases negative with
  | false =>
    rw [show signText false ++ (ip ++ py!"." ++ fp) = ip ++ 46 :: fp by simp [signText], hr.pos] at hback
    exact Except.ok.inj hback
  | true =>
    rw [show signText true ++ (ip ++ py!"." ++ fp) = 45 :: (ip ++ 46 :: fp) by simp [signText], hr.neg] at hback
    exact Except.ok.inj hback

/-- A coordinate as it is written, with the count `k` of units in the last place. -/
theorem coordinate_count (neg : Bool) (a : ℚ) (hx : IsDouble (.fin neg a)) (att : Str) (hp : Bool)
    (ha : a ≤ if att = LA then 90 else 180) :
    ∃ deg min frac, ddd2dmm (.float (.fin neg a)) att hp = .ok (deg ++ min ++ py!"." ++ frac) ∧
      IsDigits deg ∧ IsDigits min ∧ IsDigits frac ∧ deg.length = (if att = LA then 2 else 3) ∧ min.length = 2 ∧
      frac.length = (if hp then 7 else 5) ∧ number min ≤ 60 ∧ |angle deg min frac - a| ≤ resolution hp ∧
      ∃ D k : ℕ, (D : ℤ) = ⌊roundMag (a * 60) / 60⌋ ∧
        (k : ℤ) = roundHalfEven (roundMag (((100 * D : ℕ) : ℚ) + (roundMag (a * 60) - 60 * D)) * 10 ^ minuteDecimals hp) ∧
        100 * D * 10 ^ minuteDecimals hp ≤ k ∧ k ≤ (100 * D + 60) * 10 ^ minuteDecimals hp ∧
        angle deg min frac = D + ((k : ℚ) / 10 ^ minuteDecimals hp - 100 * D) / 60 := by
  have h0 : 0 ≤ a := (hx.wf).1.nonneg
  have ha' : a ≤ 180 := le_trans ha (by split <;> norm_num)
  obtain ⟨D, S, ⟨hDe, hSe⟩, hD, -, hup, hS1, hS2, herr, htext⟩ := ddd2dmm_sum_exact (s := neg) h0 (by linarith) att hp
  set n := minuteDecimals hp with hn
  have hn57 : (if hp then 7 else 5) = n := rfl
  have hw : n + 5 ≤ (if hp then 12 else 10) + (if att = LA then 0 else 1) := by
    rw [hn]; unfold minuteDecimals; split <;> split <;> omega
  have hn1 : 1 ≤ n := by rw [hn]; unfold minuteDecimals; split <;> omega
  rw [hn57] at htext
  obtain ⟨ip, fp, et, h1, h2, hl, hfl, hip, hfp, hlen⟩ := fixed_text n _ S hn1 hw
  have hpow : (0 : ℚ) < 10 ^ n := by positivity
  set K := roundHalfEven (S * 10 ^ n) with hK
  have hD0 : (0 : ℚ) ≤ D := by positivity
  have hKlo : ((100 * D * 10 ^ n : ℕ) : ℤ) ≤ K := rhe_ge (by push_cast; gcongr)
  have hKhi : K ≤ (((100 * D + 60) * 10 ^ n : ℕ) : ℤ) := rhe_le (by push_cast; gcongr)
  have hKerr := rhe_err (S * 10 ^ n)
  rw [← hK] at hKerr
  obtain ⟨k, hk⟩ : ∃ k : ℕ, K = k := ⟨K.toNat, by omega⟩
  rw [hk] at hKlo hKhi hKerr hip hfp hlen
  rw [Int.toNat_natCast] at hip hfp hlen
  have hKlo' : 100 * D * 10 ^ n ≤ k := by exact_mod_cast hKlo
  have hKhi' : k ≤ (100 * D + 60) * 10 ^ n := by exact_mod_cast hKhi
  have hI1 : 100 * D ≤ k / 10 ^ n := (Nat.le_div_iff_mul_le (by positivity)).mpr hKlo'
  have hI2 : k / 10 ^ n ≤ 100 * D + 60 := by
    calc k / 10 ^ n ≤ ((100 * D + 60) * 10 ^ n) / 10 ^ n := Nat.div_le_div_right hKhi'
      _ = _ := Nat.mul_div_cancel _ (by positivity)
  have hDb : D ≤ if att = LA then 90 else 180 := by
    have : (D : ℚ) < (if att = LA then 90 else 180) + 1 := by linarith
    by_cases hla : att = LA
    · rw [if_pos hla] at this ⊢
      have : (D : ℚ) < (91 : ℕ) := by push_cast; linarith
      have : D < 91 := by exact_mod_cast this
      omega
    · rw [if_neg hla] at this ⊢
      have : (D : ℚ) < (181 : ℕ) := by push_cast; linarith
      have : D < 181 := by exact_mod_cast this
      omega
  have h45 : (natDec (k / 10 ^ n)).length ≤ if att = LA then 4 else 5 := by
    apply natDec_length
    · refine lt_of_le_of_lt hI2 ?_
      split at hDb <;> rename_i hla
      · rw [if_pos hla]; omega
      · rw [if_neg hla]; omega
    · split <;> omega
  have h5 : (if hp then 12 else 10) = n + 5 := by rw [hn]; unfold minuteDecimals; split <;> rfl
  have hil : ip.length = (if att = LA then 2 else 3) + 2 := by
    rw [hlen, hfl, h5]
    split at h45 <;> split <;> first | omega | contradiction
  have hdig1 := ascii_isDigits h1
  have hv : number ip = 100 * number (ip.take (ip.length - 2)) + number (ip.drop (ip.length - 2)) := by
    conv_lhs => rw [← List.take_append_drop (ip.length - 2) ip]
    rw [number_eq, number_eq, number_eq, asciiVal_append]
    have : (ip.drop (ip.length - 2)).length = 2 := by rw [List.length_drop]; omega
    rw [this]; ring
  have hm100 : number (ip.drop (ip.length - 2)) < 100 := by
    rw [number_eq]
    have := asciiVal_lt (ip.drop (ip.length - 2)) (fun c hc => h1 c (List.mem_of_mem_drop hc))
    have e : (ip.drop (ip.length - 2)).length = 2 := by rw [List.length_drop]; omega
    rw [e] at this; exact this
  rw [← number_eq] at hip hfp
  rw [hip] at hv
  have hdeg : number (ip.take (ip.length - 2)) = D := by omega
  have hangle : angle (ip.take (ip.length - 2)) (ip.drop (ip.length - 2)) fp = D + ((k : ℚ) / 10 ^ n - 100 * D) / 60 := by
    unfold angle
    rw [hdeg, hfl, hfp]
    have hmin : ((number (ip.drop (ip.length - 2)) : ℕ) : ℚ) = ((k / 10 ^ n : ℕ) : ℚ) - 100 * D := by
      have : ((k / 10 ^ n : ℕ) : ℚ) = 100 * D + (number (ip.drop (ip.length - 2)) : ℕ) := by
        rw [hdeg] at hv
        exact_mod_cast hv
      linarith
    have hdm : ((k / 10 ^ n : ℕ) : ℚ) + ((k % 10 ^ n : ℕ) : ℚ) / 10 ^ n = (k : ℚ) / 10 ^ n := by
      have := Nat.div_add_mod k (10 ^ n)
      have h' : ((10 ^ n : ℕ) : ℚ) * ((k / 10 ^ n : ℕ) : ℚ) + ((k % 10 ^ n : ℕ) : ℚ) = (k : ℚ) := by
        exact_mod_cast this
      push_cast at h' ⊢
      rw [← h']; field_simp
    rw [hmin, show (D : ℚ) + (((k / 10 ^ n : ℕ) : ℚ) - 100 * D + ((k % 10 ^ n : ℕ) : ℚ) / 10 ^ n) / 60 =
      D + ((k : ℚ) / 10 ^ n - 100 * D) / 60 by rw [← hdm]; ring]
  refine ⟨ip.take (ip.length - 2), ip.drop (ip.length - 2), fp, ?_, fun c hc => hdig1 c (List.mem_of_mem_take hc),
    fun c hc => hdig1 c (List.mem_of_mem_drop hc), ascii_isDigits h2, ?_, ?_, hfl, ?_, ?_,
    D, k, hDe, by rw [← hk, hK, hSe], hKlo', hKhi', hangle⟩
  · rw [htext, et, List.take_append_drop]; simp [List.append_assoc]
  · rw [List.length_take]; omega
  · rw [List.length_drop]; omega
  · omega
  · rw [hangle]
    have hSk : |(k : ℚ) / 10 ^ n - S| ≤ 1 / 2 / 10 ^ n := by
      have : (k : ℚ) / 10 ^ n - S = (((k : ℤ) : ℚ) - S * 10 ^ n) / 10 ^ n := by
        push_cast; field_simp
      rw [this, abs_div, abs_of_pos hpow]
      gcongr
    generalize (k : ℚ) / 10 ^ n = y at *
    rw [abs_le] at herr hSk ⊢
    unfold resolution
    cases hp with
    | false =>
      have : (10 : ℚ) ^ n = 100000 := by rw [hn]; norm_num [minuteDecimals]
      rw [this] at hSk
      simp only [Bool.false_eq_true, if_false]
      norm_num
      constructor <;> linarith [herr.1, herr.2, hSk.1, hSk.2]
    | true =>
      have : (10 : ℚ) ^ n = 10000000 := by rw [hn]; norm_num [minuteDecimals]
      rw [this] at hSk
      simp only [if_true]
      norm_num
      constructor <;> linarith [herr.1, herr.2, hSk.1, hSk.2]

/-- A coordinate: `w` digits of degrees. -/
theorem coordinate_text (neg : Bool) (a : ℚ) (hx : IsDouble (.fin neg a)) (att : Str) (hp : Bool)
    (ha : a ≤ if att = LA then 90 else 180) :
    ∃ deg min frac, ddd2dmm (.float (.fin neg a)) att hp = .ok (deg ++ min ++ py!"." ++ frac) ∧
      IsDigits deg ∧ IsDigits min ∧ IsDigits frac ∧ deg.length = (if att = LA then 2 else 3) ∧ min.length = 2 ∧
      frac.length = (if hp then 7 else 5) ∧ number min ≤ 60 ∧ |angle deg min frac - a| ≤ resolution hp := by
  obtain ⟨deg, min, frac, g1, g2, g3, g4, g5, g6, g7, g8, g9, _⟩ := coordinate_count neg a hx att hp ha
  exact ⟨deg, min, frac, g1, g2, g3, g4, g5, g6, g7, g8, g9⟩

theorem whole_coordinate_text (i : ℤ) (att : Str) (hp : Bool) (hi : i.natAbs ≤ if att = LA then 90 else 180) :
    ∃ deg min frac, ddd2dmm (.int i) att hp = .ok (deg ++ min ++ py!"." ++ frac) ∧
      IsDigits deg ∧ IsDigits min ∧ IsDigits frac ∧ deg.length = (if att = LA then 2 else 3) ∧ min.length = 2 ∧
      frac.length = (if hp then 7 else 5) ∧ number min ≤ 60 ∧ angle deg min frac = (i.natAbs : ℚ) := by
  set n := minuteDecimals hp with hn
  have hn57 : (if hp then 7 else 5) = n := rfl
  have hw : n + 5 ≤ (if hp then 12 else 10) + (if att = LA then 0 else 1) := by
    rw [hn]; unfold minuteDecimals; split <;> split <;> omega
  have hn1 : 1 ≤ n := by rw [hn]; unfold minuteDecimals; split <;> omega
  have hi' : i.natAbs ≤ 180 := le_trans hi (by split <;> omega)
  set D := i.natAbs with hD
  have hDq : (D : ℚ) ≤ 180 := by exact_mod_cast hi'
  have h100 : ((100 * D : ℕ) : ℚ) = 100 * D := by push_cast; ring
  have hsum : PyFloat.ofInt (((i.natAbs : ℤ) * 60) / 60 * 100 + ((i.natAbs : ℤ) * 60) % 60) =
      .ok (.fin false ((100 * D : ℕ) : ℚ)) := by
    rw [show ((i.natAbs : ℤ) * 60) / 60 * 100 + ((i.natAbs : ℤ) * 60) % 60 = ((100 * D : ℕ) : ℤ) by omega]
    unfold PyFloat.ofInt
    rw [Int.cast_natCast, PyFloat.ofRat_nonneg (by positivity) (by rw [h100]; norm_num; linarith),
      roundMag_f64 (isF64_nat (by omega))]
  have htext : ddd2dmm (.int i) att hp = .ok (zfill ((if hp then 12 else 10) + (if att = LA then 0 else 1))
      (fmtFixed n (.fin false ((100 * D : ℕ) : ℚ)))) := by
    unfold ddd2dmm
    simp only [PyVal.num?, bind, Except.bind, hsum]
    rfl
  obtain ⟨ip, fp, et, h1, h2, hl, hfl, hip, hfp, hlen⟩ := fixed_text n _ ((100 * D : ℕ) : ℚ) hn1 hw
  have hK : roundHalfEven (((100 * D : ℕ) : ℚ) * 10 ^ n) = ((100 * D * 10 ^ n : ℕ) : ℤ) := by
    have := rhe_int ((100 * D * 10 ^ n : ℕ) : ℤ)
    rw [← this]
    congr 1
    push_cast
    ring
  rw [hK, Int.toNat_natCast, Nat.mul_div_cancel _ (by positivity)] at hip hlen
  rw [hK, Int.toNat_natCast, Nat.mul_mod_left] at hfp
  have h45 : (natDec (100 * D)).length ≤ if att = LA then 4 else 5 := by
    apply natDec_length
    · split at hi <;> rename_i hla
      · rw [if_pos hla]; omega
      · rw [if_neg hla]; omega
    · split <;> omega
  have h5 : (if hp then 12 else 10) = n + 5 := by rw [hn]; unfold minuteDecimals; split <;> rfl
  have hil : ip.length = (if att = LA then 2 else 3) + 2 := by
    rw [hlen, hfl, h5]
    split at h45 <;> split <;> first | omega | contradiction
  have hdig1 := ascii_isDigits h1
  have hv : number ip = 100 * number (ip.take (ip.length - 2)) + number (ip.drop (ip.length - 2)) := by
    conv_lhs => rw [← List.take_append_drop (ip.length - 2) ip]
    rw [number_eq, number_eq, number_eq, asciiVal_append]
    have : (ip.drop (ip.length - 2)).length = 2 := by rw [List.length_drop]; omega
    rw [this]; ring
  have hm100 : number (ip.drop (ip.length - 2)) < 100 := by
    rw [number_eq]
    have := asciiVal_lt (ip.drop (ip.length - 2)) (fun c hc => h1 c (List.mem_of_mem_drop hc))
    have e : (ip.drop (ip.length - 2)).length = 2 := by rw [List.length_drop]; omega
    rw [e] at this; exact this
  rw [← number_eq] at hip hfp
  rw [hip] at hv
  have hdeg : number (ip.take (ip.length - 2)) = D := by omega
  have hmin : number (ip.drop (ip.length - 2)) = 0 := by omega
  refine ⟨ip.take (ip.length - 2), ip.drop (ip.length - 2), fp, ?_, fun c hc => hdig1 c (List.mem_of_mem_take hc),
    fun c hc => hdig1 c (List.mem_of_mem_drop hc), ascii_isDigits h2, ?_, ?_, hfl, ?_, ?_⟩
  · rw [htext, et, List.take_append_drop]; simp [List.append_assoc]
  · rw [List.length_take]; omega
  · rw [List.length_drop]; omega
  · omega
  · unfold angle
    rw [hdeg, hmin, hfp]; simp

/-- Every suitable value is written the way the specification says. -/
theorem value_written {kind : Kind} {ty : Str} {v : PyVal} (hp : Bool) (hk : kindOf ty = some kind) (h : Suits kind v) :
    ∃ text, val2str v ty hp = .ok text ∧ WrittenAs hp kind v text ∧ ∃ val, Denotes kind text val := by
  have hdec : ∀ w n, IsDigits (dec w n) := by
    intro w n c hc
    have := padZero_digit w _ (natDec_digit n) c hc
    simpa [isAsciiDigit] using this
  have hlen : ∀ w n, 0 < w → n < 10 ^ w → (dec w n).length = w := by
    intro w n hw hn
    unfold dec
    rw [padZero_length]
    have := natDec_length n w hn hw
    omega
  have hne : ∀ w n, 0 < w → n < 10 ^ w → dec w n ≠ [] := by
    intro w n hw hn e
    have := hlen w n hw hn
    rw [e] at this
    simp at this
    omega
  have hangle : ∀ deg min frac : Str, |((number deg : ℚ) + ((number min : ℚ) + (number frac : ℚ) / 10 ^ frac.length) / 60) -
      ((number deg : ℚ) + ((number min : ℚ) + (number frac : ℚ) / 10 ^ frac.length) / 60)| ≤ 6 / 10 ^ 11 := by
    intro deg min frac
    rw [sub_self, abs_zero]; norm_num
  have hty := kindOf_cases hk
  have hd2 : ∀ (att : Str) (d : Date), att = DT ∨ att = DM → d.Valid →
      val2str (.date d) att hp = .ok (date2str (.date d) att) ∧ val2str (.str d.str) att hp = .ok (date2str (.date d) att) := by
    intro att d ha hd
    obtain ⟨s, e1, e2, _⟩ := C10_field d hd hp att ha
    have e3 : val2str (.date d) att hp = .ok (date2str (.date d) att) := by rcases ha with rfl | rfl <;> rfl
    rw [e1] at e3
    rw [e1, e2, e3]; exact ⟨rfl, rfl⟩
  cases h with
  | empty =>
    refine ⟨[], ?_, .empty kind, _, .empty kind⟩
    have hempty : ∀ ty' : Str, ty' ∈ [CH, ST, HX, QS, IN, DE, TM, DT, DM, LA, LN, LAD, LND] → ∀ hp,
        val2str (.str []) ty' hp = .ok [] := by decide +kernel
    apply hempty
    rcases hty with ⟨_, h'⟩ | ⟨_, h'⟩ | ⟨_, h'⟩ | ⟨_, h'⟩ | ⟨_, h'⟩ | ⟨_, h'⟩ | ⟨_, h'⟩ | ⟨_, h'⟩ | ⟨_, h'⟩ | ⟨_, h'⟩ <;>
      first
        | (simp only [List.mem_cons, List.not_mem_nil, or_false] at h'; rcases h' with rfl | rfl | rfl | rfl <;> simp)
        | (rw [h']; simp)
  | text s =>
    obtain h' : ty ∈ [CH, ST, HX, QS] := by simpa using hty
    simp only [List.mem_cons, List.not_mem_nil, or_false] at h'
    rcases h' with rfl | rfl | rfl | rfl <;> exact ⟨s, rfl, .text s, _, .text s⟩
  | north s =>
    obtain rfl : ty = LAD := by simpa using hty
    exact ⟨s, rfl, .north s, _, .north s⟩
  | east s =>
    obtain rfl : ty = LND := by simpa using hty
    exact ⟨s, rfl, .east s, _, .east s⟩
  | whole i hi =>
    obtain rfl : ty = IN := by simpa using hty
    refine ⟨signText (decide (i < 0)) ++ natDec i.natAbs, ?_, .whole i _ (natDec_ne_nil _) (natDec_hex _) ?_ ?_,
      _, .whole _ _ (natDec_ne_nil _) (natDec_hex _) (natDec_length i.natAbs 4300 hi (by omega))⟩
    · show strOfInt i = _
      unfold strOfInt
      have := natDec_length i.natAbs 4300 hi (by omega)
      simp only
      rw [if_neg (by unfold maxStrDigits; omega)]
      by_cases h0 : i < 0 <;> simp [h0, signText]
    · intro h0
      by_cases hz : i.natAbs = 0
      · rw [hz]; decide
      · exfalso
        unfold natDec at h0
        have := digits_head_ne_zero 10 i.natAbs (by omega) (by omega)
        cases hd : digits 10 i.natAbs with
        | nil => exact absurd hd (digits_ne_nil _ _)
        | cons a r =>
          rw [hd] at h0 this
          have ha := this a rfl
          simp only [List.map_cons, List.head?_cons, Option.some.injEq, digitUpper] at h0
          split at h0 <;> omega
    · rw [number_eq, asciiVal_natDec]
  | decimal negative a hx ha =>
    obtain rfl : ty = DE := by simpa using hty
    have hw := decimal_written hp negative a hx ha
    refine ⟨_, rfl, hw, ?_⟩
    generalize hg : reprFloat (.fin negative a) = text at hw
    have : val2str (.float (.fin negative a)) DE hp = .ok (reprFloat (.fin negative a)) := rfl
    cases hw with
    | decimal neg ip fp _ h1 h2 h3 h4 h5 => exact ⟨_, Denotes.decimal neg ip fp h1 h3 h4⟩
  | time t ht =>
    obtain rfl : ty = TM := by simpa using hty
    have := WrittenAs.time (hp := hp) t
    have e : time2str (.time t) = _ := hmsf_take ht
    refine ⟨time2str (.time t), rfl, ?_, ?_⟩
    · rw [e]
      simpa using this
    · obtain ⟨t1, t2, t3, t4⟩ := ht
      rw [e]
      have hden := Denotes.fraction t.hour t.minute t.second (dec 2 (t.micro / 10000)) t1 t2 t3 (hdec _ _)
        (hne 2 _ (by omega) (by omega)) (by rw [hlen 2 _ (by omega) (by omega)]; omega)
      simp only [List.append_assoc, List.cons_append, List.nil_append] at hden ⊢
      exact ⟨_, hden⟩
  | timeText colons h m s frac t1 t2 t3 hf hl =>
    obtain rfl : ty = TM := by simpa using hty
    have hw := WrittenAs.timeText (hp := hp) colons h m s frac
    have hd : ∃ val, Denotes .time (dec 2 h ++ dec 2 m ++ dec 2 s ++ (if frac = [] then [] else py!"." ++ frac)) val := by
      split
      · rw [List.append_nil]
        exact ⟨_, Denotes.time h m s t1 t2 t3⟩
      · have hden := Denotes.fraction h m s frac t1 t2 t3 hf (by assumption) hl
        simp only [List.append_assoc, List.cons_append, List.nil_append] at hden ⊢
        exact ⟨_, hden⟩
    suffices e : removeChar 58 (timeText colons h m s frac) = dec 2 h ++ dec 2 m ++ dec 2 s ++
        (if frac = [] then [] else py!"." ++ frac) by
      exact ⟨_, rfl, by rw [← e] at hw; exact hw, by rw [← e] at hd; exact hd⟩
    have hnd : ∀ x : Str, IsDigits x → removeChar 58 x = x := by
      intro x hx
      unfold removeChar
      rw [List.filter_eq_self]
      intro c hc
      have := hx c hc
      simp; omega
    have happ : ∀ a b : Str, removeChar 58 (a ++ b) = removeChar 58 a ++ removeChar 58 b := by
      intro a b; simp [removeChar]
    have hcons : removeChar 58 (py!":") = [] := by decide
    have hnil : removeChar 58 [] = [] := rfl
    have hdot : removeChar 58 (py!".") = py!"." := by decide
    unfold timeText
    cases colons <;> by_cases h0 : frac = [] <;>
      simp only [h0, if_true, if_false, happ, hcons, hnil, hdot, hnd _ (hdec _ _), hnd _ hf, List.append_nil,
        Bool.false_eq_true]
  | date k d hk' hv h0 h1 =>
    rcases hk' with rfl | rfl
    · obtain rfl : ty = DT := by simpa using hty
      exact ⟨_, (hd2 _ d (.inl rfl) hv).1, .date d, _, .date d hv h0 h1⟩
    · obtain rfl : ty = DM := by simpa using hty
      exact ⟨_, (hd2 _ d (.inr rfl) hv).1, .usdate d, _, .usdate d hv h0 h1⟩
  | dateText k hyphens d hk' hv h0 h1 =>
    have hr : removeChar 45 (dateText hyphens d) = removeChar 45 d.str := by
      have happ : ∀ a b : Str, removeChar 45 (a ++ b) = removeChar 45 a ++ removeChar 45 b := by
        intro a b; simp [removeChar]
      have hcons : ∀ a : Str, removeChar 45 (45 :: a) = removeChar 45 a := by
        intro a; simp [removeChar]
      have hnil : removeChar 45 [] = [] := rfl
      unfold dateText Date.str
      cases hyphens <;>
        simp only [happ, hcons, hnil, if_true, Bool.false_eq_true, if_false, List.append_nil, List.append_assoc,
          List.cons_append, List.nil_append]
    rcases hk' with rfl | rfl
    · obtain rfl : ty = DT := by simpa using hty
      have e : val2str (.str (dateText hyphens d)) DT hp = val2str (.str d.str) DT hp := by
        have h' : ∀ x : Str, val2str (.str x) DT hp = .ok (slice (removeChar 45 x) 6 8 ++ slice (removeChar 45 x) 4 6 ++
          slice (removeChar 45 x) 2 4) := fun x => rfl
        rw [h', h', hr]
      exact ⟨_, e.trans (hd2 _ d (.inl rfl) hv).2, .dateText hyphens d, _, .date d hv h0 h1⟩
    · obtain rfl : ty = DM := by simpa using hty
      have e : val2str (.str (dateText hyphens d)) DM hp = val2str (.str d.str) DM hp := by
        have h' : ∀ x : Str, val2str (.str x) DM hp = .ok (slice (removeChar 45 x) 4 6 ++ slice (removeChar 45 x) 6 8 ++
          slice (removeChar 45 x) 2 4) := fun x => rfl
        rw [h', h', hr]
      exact ⟨_, e.trans (hd2 _ d (.inr rfl) hv).2, .usdateText hyphens d, _, .usdate d hv h0 h1⟩
  | latitude _ q hq hb =>
    obtain rfl : ty = LA := by simpa using hty
    cases hq with
    | float negative a hx =>
      have ha : |if negative then -a else a| = a := by
        have := hx.wf.1.nonneg
        cases negative <;> simp [abs_of_nonneg this]
      rw [ha] at hb
      obtain ⟨deg, min, frac, e, h1, h2, h3, h4, h5, h6, h7, h8⟩ := coordinate_text negative a hx LA hp (by simpa using hb)
      exact ⟨_, e, .latitude _ _ deg min frac (.float negative a hx) h1 h2 h3 (by simpa using h4) h5 h6 h7 (by rw [ha]; exact h8),
        _, .latitude deg min frac _ h1 h2 h3 (by simpa using h4) h5 (hangle _ _ _)⟩
    | int i =>
      have ha : |(i : ℚ)| = (i.natAbs : ℚ) := by
        rw [Nat.cast_natAbs, Int.cast_abs]
      rw [ha] at hb
      obtain ⟨deg, min, frac, e, h1, h2, h3, h4, h5, h6, h7, h8⟩ := whole_coordinate_text i LA hp (by
        rw [if_pos rfl]; exact_mod_cast hb)
      exact ⟨_, e, .latitude _ _ deg min frac (.int i) h1 h2 h3 (by simpa using h4) h5 h6 h7 (by
        rw [ha, h8, sub_self, abs_zero]; unfold resolution; split <;> norm_num), _, .latitude deg min frac _ h1 h2 h3 (by simpa using h4) h5 (hangle _ _ _)⟩
  | longitude _ q hq hb =>
    obtain rfl : ty = LN := by simpa using hty
    cases hq with
    | float negative a hx =>
      have ha : |if negative then -a else a| = a := by
        have := hx.wf.1.nonneg
        cases negative <;> simp [abs_of_nonneg this]
      rw [ha] at hb
      obtain ⟨deg, min, frac, e, h1, h2, h3, h4, h5, h6, h7, h8⟩ := coordinate_text negative a hx LN hp (by
        rw [if_neg (by decide)]; exact hb)
      exact ⟨_, e, .longitude _ _ deg min frac (.float negative a hx) h1 h2 h3 (by rw [h4, if_neg (by decide)]) h5 h6 h7
        (by rw [ha]; exact h8), _, .longitude deg min frac _ h1 h2 h3 (by rw [h4, if_neg (by decide)]) h5 (hangle _ _ _)⟩
    | int i =>
      have ha : |(i : ℚ)| = (i.natAbs : ℚ) := by
        rw [Nat.cast_natAbs, Int.cast_abs]
      rw [ha] at hb
      obtain ⟨deg, min, frac, e, h1, h2, h3, h4, h5, h6, h7, h8⟩ := whole_coordinate_text i LN hp (by
        rw [if_neg (by decide)]; exact_mod_cast hb)
      exact ⟨_, e, .longitude _ _ deg min frac (.int i) h1 h2 h3 (by rw [h4, if_neg (by decide)]) h5 h6 h7 (by
        rw [ha, h8, sub_self, abs_zero]; unfold resolution; split <;> norm_num), _,
        .longitude deg min frac _ h1 h2 h3 (by rw [h4, if_neg (by decide)]) h5 (hangle _ _ _)⟩

end Props
