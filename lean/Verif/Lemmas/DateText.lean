import Verif.Py.DateTime
import Verif.Lemmas.Str
import Verif.Lemmas.Dec
import Mathlib.Tactic.IntervalCases
/-!
# Text of dates and times
-/
set_option linter.unusedSimpArgs false
namespace Py

theorem dec_snoc (w n : Nat) (h : n < 10 ^ (w + 1)) (hw : 0 < w) :
    dec (w + 1) n = dec w (n / 10) ++ [48 + n % 10] := by
  unfold dec padZero natDec
  have hdu : ∀ d, d < 10 → digitUpper d = 48 + d := by intro d hd; simp [digitUpper, hd]
  rcases Nat.lt_or_ge n 10 with hn | hn
  · rw [digits_small 10 n hn, Nat.div_eq_of_lt hn, digits_small 10 0 (by omega), Nat.mod_eq_of_lt hn]
    simp only [List.map_cons, List.map_nil, List.length_cons, List.length_nil, hdu n hn,
      hdu 0 (by omega), Nat.zero_add, Nat.add_sub_cancel]
    obtain ⟨v, rfl⟩ : ∃ v, w = v + 1 := ⟨w - 1, by omega⟩
    simp [List.replicate_succ']
  · rw [digits_step 10 n (by omega) hn]
    simp only [List.map_append, List.map_cons, List.map_nil, List.length_append, List.length_cons,
      List.length_nil, Nat.zero_add, Nat.reduceSubDiff]
    rw [hdu _ (Nat.mod_lt _ (by omega)), List.append_assoc]

theorem dec1 (n : Nat) (h : n < 10) : dec 1 n = [48 + n] := by
  unfold dec padZero natDec
  rw [digits_small 10 n h]; simp [digitUpper, h]

theorem dec2 (n : Nat) (h : n < 100) : dec 2 n = [48 + n / 10, 48 + n % 10] := by
  rw [dec_snoc 1 n (by omega) (by omega), dec1 _ (by omega)]; rfl

theorem dec4 (n : Nat) (h : n < 10000) : dec 4 n = dec 2 (n / 100) ++ dec 2 (n % 100) := by
  rw [dec_snoc 3 n (by omega) (by omega), dec_snoc 2 _ (by omega) (by omega), dec2 (n % 100) (by omega)]
  have e1 : n / 10 / 10 = n / 100 := by omega
  have e2 : n / 10 % 10 = n % 100 / 10 := by omega
  have e3 : n % 10 = n % 100 % 10 := by omega
  rw [e1, e2, e3]; simp

theorem dec6 (n : Nat) (h : n < 1000000) : dec 6 n = dec 2 (n / 10000) ++ dec 4 (n % 10000) := by
  rw [dec_snoc 5 n (by omega) (by omega), dec_snoc 4 _ (by omega) (by omega),
    dec_snoc 3 _ (by omega) (by omega), dec_snoc 2 _ (by omega) (by omega), dec4 (n % 10000) (by omega),
    dec2 (n % 10000 / 100) (by omega), dec2 (n % 10000 % 100) (by omega)]
  have e1 : n / 10 / 10 / 10 / 10 = n / 10000 := by omega
  have e2 : n / 10 / 10 / 10 % 10 = n % 10000 / 100 / 10 := by omega
  have e3 : n / 10 / 10 % 10 = n % 10000 / 100 % 10 := by omega
  have e4 : n / 10 % 10 = n % 10000 % 100 / 10 := by omega
  have e5 : n % 10 = n % 10000 % 100 % 10 := by omega
  rw [e1, e2, e3, e4, e5]; simp

/-- `str` of a number of four digits is its padded text. -/
theorem natDec4 (n : Nat) (h0 : 1000 ≤ n) (h1 : n < 10000) : natDec n = dec 4 n := by
  unfold dec padZero
  have : (natDec n).length = 4 := by
    unfold natDec
    rw [List.length_map, digits_step 10 n (by omega) (by omega), digits_step 10 (n / 10) (by omega) (by omega),
      digits_step 10 (n / 10 / 10) (by omega) (by omega), digits_small 10 _ (by omega)]
    rfl
  rw [this]; rfl

/-! ## First matches -/

theorem head_flatMap {α β : Type} (x : α) (xs : List α) (f : α → List β) (y : β) (ys : List β)
    (h : f x = y :: ys) : ∃ zs, (x :: xs).flatMap f = y :: zs := ⟨ys ++ xs.flatMap f, by
  rw [List.flatMap_cons, h]; rfl⟩

theorem digit_val (k : Nat) (h : k < 10) : decimalValue (48 + k) = some k := by
  unfold decimalValue isAsciiDigit
  rw [if_pos (by omega), if_pos (by simp; omega)]
  congr 1; omega

theorem patD_dec (d : Nat) (h0 : 1 ≤ d) (h1 : d ≤ 31) (r : Str) :
    ∃ l, patD (dec 2 d ++ r) = (d, r) :: l := by
  interval_cases d <;> exact ⟨_, rfl⟩

theorem patM_dec (m : Nat) (h0 : 1 ≤ m) (h1 : m ≤ 12) (r : Str) :
    ∃ l, patM (dec 2 m ++ r) = (m, r) :: l := by
  interval_cases m <;> exact ⟨_, rfl⟩

theorem patH_dec (m : Nat) (h1 : m < 24) (r : Str) :
    ∃ l, patH (dec 2 m ++ r) = (m, r) :: l := by
  interval_cases m <;> exact ⟨_, rfl⟩

theorem patMin_dec (m : Nat) (h1 : m < 60) (r : Str) :
    ∃ l, patMin (dec 2 m ++ r) = (m, r) :: l := by
  interval_cases m <;> exact ⟨_, rfl⟩

theorem patS_dec (m : Nat) (h1 : m < 60) (r : Str) :
    ∃ l, patS (dec 2 m ++ r) = (m, r) :: l := by
  interval_cases m <;> exact ⟨_, rfl⟩

theorem pTwo_dec (n : Nat) (h : n < 100) (r : Str) : pTwo pDigit pDigit (dec 2 n ++ r) = [(n, r)] := by
  rw [dec2 n h]
  simp only [pTwo, List.cons_append, List.nil_append, pDigit, digit_val _ (show n / 10 < 10 by omega),
    List.flatMap_cons, List.flatMap_nil, List.append_nil, digit_val _ (show n % 10 < 10 by omega),
    List.map_cons, List.map_nil]
  congr 2; omega

/-- Two-digit years name the years 1969 to 2068. -/
def windowYear (y : Nat) : Nat := if y % 100 ≤ 68 then 2000 + y % 100 else 1900 + y % 100

theorem patY2_dec (n : Nat) (h : n < 100) : patY2 (dec 2 n) = [(windowYear n, [])] := by
  have := pTwo_dec n h []
  rw [List.append_nil] at this
  unfold patY2 windowYear
  rw [this, Nat.mod_eq_of_lt h]; rfl

theorem patY4_dec (n : Nat) (h : n < 10000) : patY4 (dec 4 n) = [(n, [])] := by
  unfold patY4
  rw [dec4 n h, pTwo_dec _ (by omega)]
  have := pTwo_dec (n % 100) (by omega) []
  rw [List.append_nil] at this
  simp only [List.flatMap_cons, List.flatMap_nil, this, List.map_cons, List.map_nil, List.append_nil]
  congr 2; omega

theorem strptime3_of {a b c : Pat} {s r1 r2 : Str} {x y z : Nat} {l1 l2 l3}
    (h1 : a s = (x, r1) :: l1) (h2 : b r1 = (y, r2) :: l2) (h3 : c r2 = (z, []) :: l3) :
    strptime3 a b c s = some (x, y, z) := by
  unfold strptime3
  obtain ⟨l4, h4⟩ := head_flatMap (y, r2) l2
    (fun (q : Nat × Str) => (c q.2).map fun (w : Nat × Str) => ((x, q.1, w.1), w.2))
    ((x, y, z), []) (l3.map fun (w : Nat × Str) => ((x, y, w.1), w.2))
    (by simp only [h3, List.map_cons])
  obtain ⟨l5, h5⟩ := head_flatMap (x, r1) l1
    (fun (p : Nat × Str) => (b p.2).flatMap fun (q : Nat × Str) => (c q.2).map fun (w : Nat × Str) =>
      ((p.1, q.1, w.1), w.2)) ((x, y, z), []) l4 (by simp only [h2]; exact h4)
  simp only [h1]
  rw [h5]

theorem leap_window (y : Nat) : isLeap y = true → isLeap (windowYear y) = true := by
  unfold isLeap windowYear
  intro h
  simp only [Bool.and_eq_true, beq_iff_eq, Bool.or_eq_true, bne_iff_ne, ne_eq] at h ⊢
  split <;> omega

theorem valid_window {d : Date} (h : d.Valid) : Date.Valid ⟨windowYear d.year, d.month, d.day⟩ := by
  obtain ⟨h1, h2, h3, h4, h5, h6⟩ := h
  refine ⟨?_, ?_, h3, h4, h5, ?_⟩
  · show 1 ≤ windowYear d.year; unfold windowYear; split <;> omega
  · show windowYear d.year ≤ 9999; unfold windowYear; split <;> omega
  · refine le_trans h6 ?_
    show daysInMonth _ _ ≤ daysInMonth (windowYear d.year) d.month
    unfold daysInMonth
    split
    · by_cases hl : isLeap d.year = true
      · rw [if_pos hl, if_pos (leap_window _ hl)]
      · rw [if_neg hl]; split <;> omega
    · exact le_refl _

theorem day_le {d : Date} (h : d.Valid) : d.day ≤ 31 := by
  obtain ⟨h1, h2, h3, h4, h5, h6⟩ := h
  refine le_trans h6 ?_
  unfold daysInMonth
  split
  · split <;> omega
  · split <;> omega

theorem windowYear_mod (y : Nat) : windowYear (y % 100) = windowYear y := by
  unfold windowYear; rw [Nat.mod_mod]

theorem dmy_parse {d : Date} (h : d.Valid) :
    strptimeDmy d.dmy = some ⟨windowYear d.year, d.month, d.day⟩ := by
  have hd := day_le h
  obtain ⟨l1, e1⟩ := patD_dec d.day h.2.2.2.2.1 hd (dec 2 d.month ++ dec 2 (d.year % 100))
  obtain ⟨l2, e2⟩ := patM_dec d.month h.2.2.1 h.2.2.2.1 (dec 2 (d.year % 100))
  have e3 := patY2_dec (d.year % 100) (Nat.mod_lt _ (by omega))
  unfold strptimeDmy Date.dmy
  rw [List.append_assoc, strptime3_of e1 e2 e3, windowYear_mod]
  simp [mkDate, valid_window h]

theorem mdy_parse {d : Date} (h : d.Valid) :
    strptimeMdy d.mdy = some ⟨windowYear d.year, d.month, d.day⟩ := by
  have hd := day_le h
  obtain ⟨l1, e1⟩ := patM_dec d.month h.2.2.1 h.2.2.2.1 (dec 2 d.day ++ dec 2 (d.year % 100))
  obtain ⟨l2, e2⟩ := patD_dec d.day h.2.2.2.2.1 hd (dec 2 (d.year % 100))
  have e3 := patY2_dec (d.year % 100) (Nat.mod_lt _ (by omega))
  unfold strptimeMdy Date.mdy
  rw [List.append_assoc, strptime3_of e1 e2 e3, windowYear_mod]
  simp [mkDate, valid_window h]

theorem dmY_parse {d : Date} (h : d.Valid) (hy : 1000 ≤ d.year) : strptimeDmY d.dmY = some d := by
  have hd := day_le h
  obtain ⟨l1, e1⟩ := patD_dec d.day h.2.2.2.2.1 hd (dec 2 d.month ++ dec 4 d.year)
  obtain ⟨l2, e2⟩ := patM_dec d.month h.2.2.1 h.2.2.2.1 (dec 4 d.year)
  have e3 := patY4_dec d.year (by have := h.2.1; omega)
  unfold strptimeDmY Date.dmY
  rw [natDec4 _ hy (by have := h.2.1; omega), List.append_assoc, strptime3_of e1 e2 e3]
  simp [mkDate, h]

/-! ## Times -/

theorem patF_digits (ds : Str) (h : ∀ c ∈ ds, isAsciiDigit c = true) (h0 : ds ≠ []) (h6 : ds.length ≤ 6) :
    patF ds = [(asciiDigitsVal ds * 10 ^ (6 - ds.length), [])] := by
  unfold patF
  have e : ds.takeWhile isAsciiDigit = ds := by
    clear h0 h6
    induction ds with
    | nil => rfl
    | cons c cs ih =>
      rw [List.takeWhile_cons_of_pos (h c (by simp)), ih (fun x hx => h x (by simp [hx]))]
  simp only [e, List.take_of_length_le h6, List.isEmpty_iff, h0, if_false, List.drop_length]
  rfl

theorem hmsf_parse {h m s : Nat} (hh : h < 24) (hm : m < 60) (hs : s < 60) {ds : Str}
    (hd : ∀ c ∈ ds, isAsciiDigit c = true) (h0 : ds ≠ []) (h6 : ds.length ≤ 6) :
    strptimeHmsf (dec 2 h ++ dec 2 m ++ dec 2 s ++ 46 :: ds)
      = some ⟨h, m, s, asciiDigitsVal ds * 10 ^ (6 - ds.length)⟩ := by
  set us := asciiDigitsVal ds * 10 ^ (6 - ds.length) with hus
  have hlt : us < 1000000 := by
    have : asciiDigitsVal ds < 10 ^ ds.length := by
      have := ofDigits_lt 10 (ds.map (· - 48)) (by
        intro d hd'
        obtain ⟨c, hc, rfl⟩ := List.mem_map.mp hd'
        have := hd c hc
        simp [isAsciiDigit] at this
        omega)
      rw [List.length_map] at this
      exact this
    calc us < 10 ^ ds.length * 10 ^ (6 - ds.length) :=
          (Nat.mul_lt_mul_right (by positivity)).mpr this
      _ = 10 ^ 6 := by rw [← pow_add]; congr 1; omega
  obtain ⟨l1, e1⟩ := patH_dec h hh (dec 2 m ++ (dec 2 s ++ 46 :: ds))
  obtain ⟨l2, e2⟩ := patMin_dec m hm (dec 2 s ++ 46 :: ds)
  obtain ⟨l3, e3⟩ := patS_dec s hs (46 :: ds)
  have e4 : pDot patF (46 :: ds) = [(us, [])] := patF_digits ds hd h0 h6
  unfold strptimeHmsf
  simp only [List.append_assoc, e1, List.flatMap_cons, e2, e3, e4, List.map_cons, List.map_nil,
    List.cons_append, List.nil_append]
  rw [if_pos]
  exact ⟨hh, hm, hs, hlt⟩

theorem dec2_digit (n : Nat) : ∀ c ∈ dec 2 n, isAsciiDigit c = true :=
  padZero_digit 2 _ (natDec_digit n)

theorem dec2_length (n : Nat) (h : n < 100) : (dec 2 n).length = 2 := by rw [dec2 n h]; rfl

theorem asciiVal_dec (w n : Nat) : asciiDigitsVal (dec w n) = n := by
  rw [dec, asciiVal_padZero, asciiVal_natDec]

theorem hmsf_take {t : Time} (h : t.Valid) :
    t.hmsf.take 9 = dec 2 t.hour ++ dec 2 t.minute ++ dec 2 t.second ++ 46 :: dec 2 (t.micro / 10000) := by
  obtain ⟨h1, h2, h3, h4⟩ := h
  unfold Time.hmsf
  rw [dec6 _ h4, dec2 t.hour (by omega), dec2 t.minute (by omega), dec2 t.second (by omega),
    dec2 (t.micro / 10000) (by omega)]
  simp

end Py
