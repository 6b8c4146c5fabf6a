import Verif.Lemmas.DateText
import Verif.Model.Values
/-!
# Dates and times on the wire (C10, C11)
-/
set_option linter.unusedSimpArgs false
namespace Nmea
open Py

theorem date2str_DT (d : Date) : date2str (.date d) DT = d.dmy := by
  simp only [date2str]; rw [if_neg (by decide), if_neg (by decide)]
theorem date2str_DM (d : Date) : date2str (.date d) DM = d.mdy := by
  simp only [date2str]; rw [if_pos trivial]
theorem date2str_DTL (d : Date) : date2str (.date d) DTL = d.dmY := by
  simp only [date2str]; rw [if_neg (by decide), if_pos trivial]
theorem date2utc_DT (s : Str) (d : Date) (h : strptimeDmy s = some d) : date2utc s DT = .date d := by
  simp only [date2utc]; rw [if_neg (by decide), if_neg (by decide), h]
theorem date2utc_DM (s : Str) (d : Date) (h : strptimeMdy s = some d) : date2utc s DM = .date d := by
  simp only [date2utc]; rw [if_pos trivial, h]
theorem date2utc_DTL (s : Str) (d : Date) (h : strptimeDmY s = some d) : date2utc s DTL = .date d := by
  simp only [date2utc]; rw [if_neg (by decide), if_pos trivial, h]

/-! ## C10 -/

/-- C10. Writing a date with a two-digit year (formats `DT` = ddmmyy and `DM` = mmddyy) and reading
it back gives, for every valid date, a date with the same day and month and the year between 1969
and 2068 that has the same last two digits; it never fails. -/
theorem C10_window (d : Date) (h : d.Valid) (form : Str) (hf : form = DT ∨ form = DM) :
    ∃ y, date2utc (date2str (.date d) form) form = .date ⟨y, d.month, d.day⟩ ∧
      1969 ≤ y ∧ y ≤ 2068 ∧ y % 100 = d.year % 100 := by
  refine ⟨windowYear d.year, ?_, ?_, ?_, ?_⟩
  · rcases hf with rfl | rfl
    · rw [date2str_DT]; exact date2utc_DT _ _ (dmy_parse h)
    · rw [date2str_DM]; exact date2utc_DM _ _ (mdy_parse h)
  all_goals unfold windowYear; split <;> omega

/-- C10. Inside the window the date itself comes back. -/
theorem C10_round_trip (d : Date) (h : d.Valid) (h0 : 1969 ≤ d.year) (h1 : d.year ≤ 2068)
    (form : Str) (hf : form = DT ∨ form = DM) :
    date2utc (date2str (.date d) form) form = .date d := by
  obtain ⟨y, e, a, b, c⟩ := C10_window d h form hf
  have : y = d.year := by omega
  rw [e, this]

/-- C10. Outside the window it never does. -/
theorem C10_outside (d : Date) (h : d.Valid) (hy : d.year < 1969 ∨ 2068 < d.year)
    (form : Str) (hf : form = DT ∨ form = DM) :
    ∃ d' : Date, date2utc (date2str (.date d) form) form = .date d' ∧ d' ≠ d := by
  obtain ⟨y, e, a, b, c⟩ := C10_window d h form hf
  refine ⟨_, e, ?_⟩
  intro hd
  have := congrArg Date.year hd
  simp only at this
  omega

/-- C10. The long format (ddmmyyyy) is exact for every date from year 1000 on. -/
theorem C10_long (d : Date) (h : d.Valid) (hy : 1000 ≤ d.year) :
    date2utc (date2str (.date d) DTL) DTL = .date d := by
  rw [date2str_DTL]; exact date2utc_DTL _ _ (dmY_parse h hy)

/-- C10. Before year 1000 the long format is wrong: 11 December 123 reads back as 11 January 2123,
and 1 January 1 as no date at all. -/
theorem C10_long_early :
    date2utc (date2str (.date ⟨123, 12, 11⟩) DTL) DTL = .date ⟨2123, 1, 11⟩ ∧
    date2utc (date2str (.date ⟨1, 1, 1⟩) DTL) DTL = .str [] := by
  decide +kernel

/-- C10. The message-level conversions agree with the helper functions, and a date given as ISO text
`yyyy-mm-dd` is written exactly as the date it denotes. -/
theorem C10_field (d : Date) (h : d.Valid) (hp : Bool) (att : Str) (ha : att = DT ∨ att = DM) :
    ∃ s, val2str (.date d) att hp = .ok s ∧ val2str (.str d.str) att hp = .ok s ∧
      str2val s att = .ok (date2utc (date2str (.date d) att) att) := by
  refine ⟨date2str (.date d) att, ?_, ?_, ?_⟩
  · rcases ha with rfl | rfl <;> rfl
  · have hrem : removeChar 45 d.str = dec 4 d.year ++ dec 2 d.month ++ dec 2 d.day := by
      have hno : ∀ w n, removeChar 45 (dec w n) = dec w n := by
        intro w n
        unfold removeChar
        rw [List.filter_eq_self]
        intro c hc
        have := padZero_digit w _ (natDec_digit n) c hc
        simp [isAsciiDigit] at this
        simp; omega
      unfold Date.str
      have happ : ∀ a b : Str, removeChar 45 (a ++ b) = removeChar 45 a ++ removeChar 45 b := by
        intro a b; simp [removeChar]
      have hcons : ∀ a : Str, removeChar 45 (45 :: a) = removeChar 45 a := by
        intro a; simp [removeChar]
      simp only [happ, hcons, hno, List.append_assoc, List.cons_append]
    have hd := day_le h
    have hy : d.year < 10000 := by have := h.2.1; omega
    have hm : d.month < 100 := by have := h.2.2.2.1; omega
    rcases ha with rfl | rfl
    · show Except.ok _ = Except.ok _
      congr 1
      simp only [hrem]
      show _ = d.dmy
      unfold Date.dmy
      rw [dec4 _ hy, dec2 (d.year / 100) (by omega), dec2 (d.year % 100) (by omega), dec2 d.month hm,
        dec2 d.day (by omega)]
      rfl
    · show Except.ok _ = Except.ok _
      congr 1
      simp only [hrem]
      show _ = d.mdy
      unfold Date.mdy
      rw [dec4 _ hy, dec2 (d.year / 100) (by omega), dec2 (d.year % 100) (by omega), dec2 d.month hm,
        dec2 d.day (by omega)]
      rfl
  · rcases ha with rfl | rfl <;> rfl

example : let d : Date := ⟨2024, 2, 29⟩
    d.Valid ∧ date2str (.date d) DT = py!"290224" ∧ date2str (.date d) DM = py!"022924" ∧
    date2utc py!"290224" DT = .date d ∧ date2str (.date d) DTL = py!"29022024" := by
  decide +kernel

/-- C10. Whatever text is read, the result is a valid date or the empty string. -/
theorem C10_valid (s form : Str) :
    (∃ d : Date, d.Valid ∧ date2utc s form = .date d) ∨ date2utc s form = .str [] := by
  have hmk : ∀ (p : Option (Nat × Nat × Nat)) (f : Nat × Nat × Nat → Option Date),
      (∀ x d, f x = some d → d.Valid) → ∀ d, p.bind f = some d → d.Valid := by
    intro p f hf d hd
    cases p with
    | none => simp at hd
    | some x => exact hf x d hd
  have hd : ∀ y m d x, mkDate y m d = some x → x.Valid := by
    intro y m d x hx
    unfold mkDate at hx
    split at hx
    · simp only [Option.some.injEq] at hx; rw [← hx]; assumption
    · simp at hx
  have key : ∀ r : Option Date, (∀ d, r = some d → d.Valid) →
      (∃ d : Date, d.Valid ∧ (match r with | some d => PyVal.date d | none => .str []) = .date d) ∨
      (match r with | some d => PyVal.date d | none => .str []) = .str [] := by
    intro r hr
    cases r with
    | none => right; rfl
    | some d => left; exact ⟨d, hr d rfl, rfl⟩
  unfold date2utc
  apply key
  intro d
  split
  · exact hmk _ _ (fun x d h => hd _ _ _ d h) d
  · split
    · exact hmk _ _ (fun x d h => hd _ _ _ d h) d
    · exact hmk _ _ (fun x d h => hd _ _ _ d h) d

/-! ## C11 -/

/-- C11. Writing a time of day and reading it back truncates it to a hundredth of a second. -/
theorem C11_round_trip (t : Time) (h : t.Valid) :
    time2utc (time2str (.time t)) = .time ⟨t.hour, t.minute, t.second, t.micro / 10000 * 10000⟩ := by
  have hm : t.micro / 10000 < 100 := by have := h.2.2.2; omega
  have hp := hmsf_parse h.1 h.2.1 h.2.2.1 (dec2_digit (t.micro / 10000))
    (by rw [dec2 _ hm]; simp) (by rw [dec2 _ hm]; simp)
  rw [dec2_length _ hm, asciiVal_dec] at hp
  unfold time2utc time2str
  simp only [hmsf_take h]
  have hl : ¬ (dec 2 t.hour ++ dec 2 t.minute ++ dec 2 t.second ++ 46 :: dec 2 (t.micro / 10000)).length = 6 := by
    have := h.1; have := h.2.1; have := h.2.2.1
    simp [dec2_length, *]
    rw [dec2_length _ (by omega), dec2_length _ (by omega), dec2_length _ (by omega)]; omega
  rw [if_neg hl]
  simp only [hp, show 10 ^ (6 - 2) = 10000 from rfl]

/-- C11. Reading the standard notation: two digits each for hours, minutes and seconds, optionally
a point and one to six further digits, denotes that time. -/
theorem C11_reads (h m s : Nat) (hh : h < 24) (hm : m < 60) (hs : s < 60) (frac : Str)
    (hd : ∀ c ∈ frac, 48 ≤ c ∧ c ≤ 57) (h6 : frac.length ≤ 6) :
    time2utc (dec 2 h ++ dec 2 m ++ dec 2 s ++ (if frac = [] then [] else 46 :: frac))
      = .time ⟨h, m, s, asciiDigitsVal frac * 10 ^ (6 - frac.length)⟩ := by
  have hl : (dec 2 h ++ dec 2 m ++ dec 2 s).length = 6 := by
    rw [List.length_append, List.length_append, dec2_length _ (by omega), dec2_length _ (by omega),
      dec2_length _ (by omega)]
  unfold time2utc
  by_cases hf : frac = []
  · subst hf
    simp only [if_true, List.append_nil, hl]
    have := hmsf_parse hh hm hs (ds := py!"00") (by decide) (by simp) (by decide)
    have e : dec 2 h ++ dec 2 m ++ dec 2 s ++ py!".00" = dec 2 h ++ dec 2 m ++ dec 2 s ++ 46 :: py!"00" := rfl
    rw [e, this]; rfl
  · rw [if_neg hf]
    have hne : 0 < frac.length := List.length_pos_iff.mpr hf
    rw [if_neg (by rw [List.length_append, hl]; simp)]
    simp only [hmsf_parse hh hm hs (fun c hc => by have := hd c hc; simp [isAsciiDigit]; omega) hf h6]

/-- C11. Whatever text is read, the result is a valid time or the empty string. -/
theorem C11_valid (s : Str) :
    (∃ t : Time, t.Valid ∧ time2utc s = .time t) ∨ time2utc s = .str [] := by
  unfold time2utc
  generalize (if s.length = 6 then s ++ py!".00" else s) = x
  cases hx : strptimeHmsf x with
  | none => right; simp only [hx]
  | some t =>
    left
    refine ⟨t, ?_, by simp only [hx]⟩
    unfold strptimeHmsf at hx
    simp only at hx
    split at hx
    · split at hx
      · simp only [Option.some.injEq] at hx; rw [← hx]; assumption
      · simp at hx
    · simp at hx

/-- C11. A time given as ISO text `hh:mm:ss[.ffffff]` in a `TM` attribute is written with all its
digits, so it reads back exactly (not truncated). -/
theorem C11_text (t : Time) (h : t.Valid) (hp : Bool) :
    ∃ s, val2str (.str t.str) TM hp = .ok s ∧ str2val s TM = .ok (.time t) := by
  have hno : ∀ w n, removeChar 58 (dec w n) = dec w n := by
    intro w n
    unfold removeChar
    rw [List.filter_eq_self]
    intro c hc
    have := padZero_digit w _ (natDec_digit n) c hc
    simp [isAsciiDigit] at this
    simp; omega
  have happ : ∀ a b : Str, removeChar 58 (a ++ b) = removeChar 58 a ++ removeChar 58 b := by
    intro a b; simp [removeChar]
  have hcons : ∀ a : Str, removeChar 58 (58 :: a) = removeChar 58 a := by
    intro a; simp [removeChar]
  have hdot : ∀ a : Str, removeChar 58 (46 :: a) = 46 :: removeChar 58 a := by
    intro a; simp [removeChar]
  obtain ⟨h1, h2, h3, h4⟩ := h
  refine ⟨removeChar 58 t.str, rfl, ?_⟩
  show Except.ok (time2utc _) = _
  by_cases h0 : t.micro = 0
  · have e : removeChar 58 t.str = dec 2 t.hour ++ dec 2 t.minute ++ dec 2 t.second ++ (if ([] : Str) = [] then [] else 46 :: []) := by
      unfold Time.str
      rw [if_pos h0]
      simp only [happ, hcons, hno, List.append_assoc, List.cons_append, if_true]
      simp [removeChar]
    rw [e, C11_reads _ _ _ h1 h2 h3 [] (by simp) (by simp)]
    rw [show asciiDigitsVal [] = 0 from rfl, Nat.zero_mul, ← h0]
  · have hl6 : (dec 6 t.micro).length = 6 := by
      rw [dec6 _ h4, List.length_append, dec4 _ (by omega), List.length_append, dec2_length _ (by omega),
        dec2_length _ (by omega), dec2_length _ (by omega)]
    have hne : dec 6 t.micro ≠ [] := by intro h; rw [h] at hl6; simp at hl6
    have e : removeChar 58 t.str = dec 2 t.hour ++ dec 2 t.minute ++ dec 2 t.second
        ++ (if dec 6 t.micro = [] then [] else 46 :: dec 6 t.micro) := by
      unfold Time.str
      rw [if_neg h0, if_neg hne]
      simp only [happ, hcons, hno, hdot, List.append_assoc, List.cons_append]
    rw [e, C11_reads _ _ _ h1 h2 h3 (dec 6 t.micro) ?_ (by omega)]
    · rw [asciiVal_dec, hl6]; simp
    · intro c hc
      have := padZero_digit 6 _ (natDec_digit t.micro) c hc
      simp [isAsciiDigit] at this
      omega

example : let t : Time := ⟨9, 27, 25, 123456⟩
    t.Valid ∧ time2str (.time t) = py!"092725.12" ∧ time2utc py!"092725.12" = .time ⟨9, 27, 25, 120000⟩ ∧
    time2utc py!"092725" = .time ⟨9, 27, 25, 0⟩ ∧ time2utc py!"252725" = .str [] := by
  decide +kernel

end Nmea
