import Verif.Spec.Shown
import Verif.Lemmas.Nmea0183
import Verif.Lemmas.DateText
import Verif.Lemmas.Json
import Verif.Props.AnyPayload
/-!
# C52: the texts of values
-/
namespace Props.Shown
open Py Nmea Spec Spec.Nmea0183

theorem number_append (a b : Str) : number (a ++ b) = b.foldl (fun n c => 10 * n + (c - 48)) (number a) := by
  unfold number; rw [List.foldl_append]

theorem natDec_shown (n : Nat) : InDigits (natDec n).length n (natDec n) := by
  refine ⟨fun c hc => ?_, rfl, ?_⟩
  · have := natDec_digit n c hc
    simpa [isAsciiDigit] using this
  · rw [number_eq, asciiVal_natDec]

theorem dec_shown (w n : Nat) (hw : 0 < w) (h : n < 10 ^ w) : InDigits w n (dec w n) := by
  have hl := natDec_length n w h hw
  refine ⟨fun c hc => ?_, ?_, ?_⟩
  · unfold dec padZero at hc
    rcases List.mem_append.1 hc with hc | hc
    · rw [List.mem_replicate] at hc; omega
    · exact (natDec_shown n).1 c hc
  · unfold dec padZero; simp; omega
  · unfold dec padZero
    have hz : ∀ k, number (List.replicate k 48) = 0 := by
      intro k
      induction k with
      | zero => rfl
      | succ k ih => rw [List.replicate_succ', number_append, ih]; rfl
    rw [number_append, hz]
    exact (natDec_shown n).2.2

theorem date_shown (d : Date) (h : d.Valid) : ShowsDate d d.str := by
  obtain ⟨_, h1, _, h2, _, h3⟩ := h
  have h4 : daysInMonth d.year d.month ≤ 31 := by
    unfold daysInMonth; split <;> (try split) <;> (try split) <;> omega
  refine ⟨dec 4 d.year, dec 2 d.month, dec 2 d.day, by simp [Date.str], dec_shown _ _ (by omega) (by omega),
    dec_shown _ _ (by omega) (by omega), dec_shown _ _ (by omega) (by omega)⟩

theorem time_shown (t : Time) (h : t.Valid) : ShowsTime t t.str := by
  obtain ⟨h1, h2, h3, h4⟩ := h
  refine ⟨dec 2 t.hour, dec 2 t.minute, dec 2 t.second, if t.micro = 0 then [] else 46 :: dec 6 t.micro, by simp [Time.str],
    dec_shown _ _ (by omega) (by omega), dec_shown _ _ (by omega) (by omega), dec_shown _ _ (by omega) (by omega), ?_⟩
  by_cases h0 : t.micro = 0
  · exact .inl ⟨h0, by simp [h0]⟩
  · exact .inr ⟨h0, dec 6 t.micro, by simp [h0], dec_shown _ _ (by omega) (by omega)⟩

theorem natDec_head (n : Nat) : natDec n = py!"0" ∨ (natDec n).head? ≠ some 48 := by
  rcases Nat.eq_zero_or_pos n with rfl | hn
  · left; decide
  · right
    unfold natDec
    intro h
    rw [List.head?_map, Option.map_eq_some_iff] at h
    obtain ⟨d, hd, h48⟩ := h
    have h1 := digits_head_ne_zero 10 n (by omega) hn d hd
    have h2 := digits_lt 10 n (by omega) d (List.mem_of_mem_head? hd)
    unfold digitUpper at h48
    split at h48 <;> omega

/-- C52. The text of every value, in `str(msg)`: `None`, `True`, `False`, the text itself, a decimal numeral without superfluous
zeros, a numeral that reads back as the float, and dates and times in ISO format. Only integers of more than 4300 digits have
no text. -/
theorem C52_values (v : PyVal) (hv : Exists v) :
    (∃ s, v.toStr = .ok s ∧ ShowsValue v s) ∨ (v.toStr = .error .value ∧ ∃ i : Int, v = .int i ∧ 10 ^ 4300 ≤ i.natAbs) := by
  cases v with
  | none => exact .inl ⟨_, rfl, .none⟩
  | bool b => cases b <;> exact .inl ⟨_, rfl, by constructor⟩
  | str s => exact .inl ⟨_, rfl, .text s⟩
  | float x => exact .inl ⟨_, rfl, .float x _ (floatOfStr_reprFloat x (IsDouble.wf hv))⟩
  | date d => exact .inl ⟨_, rfl, .date d _ (date_shown d hv)⟩
  | time t => exact .inl ⟨_, rfl, .time t _ (time_shown t hv)⟩
  | datetime t =>
    refine .inl ⟨_, rfl, ?_⟩
    have := ShowsValue.datetime t _ _ (date_shown _ hv.1) (time_shown _ hv.2)
    simpa [DateTime.str] using this
  | int i =>
    show (∃ s, strOfInt i = .ok s ∧ _) ∨ (strOfInt i = .error .value ∧ _)
    unfold strOfInt
    by_cases hl : (natDec i.natAbs).length > maxStrDigits
    · right
      rw [if_pos hl]
      refine ⟨rfl, i, rfl, ?_⟩
      rcases Nat.lt_or_ge i.natAbs (10 ^ 4300) with h | h
      · have := natDec_length _ 4300 h (by omega)
        unfold maxStrDigits at hl; omega
      · exact h
    · left
      rw [if_neg hl]
      by_cases hi : i < 0
      · rw [if_pos hi]
        refine ⟨_, rfl, ?_⟩
        have hh := natDec_head i.natAbs
        have : natDec i.natAbs ≠ py!"0" := by
          intro e
          have := asciiVal_natDec i.natAbs
          rw [e, show asciiDigitsVal py!"0" = 0 by decide] at this
          omega
        have := ShowsValue.negative i.natAbs (natDec i.natAbs) (by omega) (natDec_shown _) (hh.resolve_left this)
        rwa [show -((i.natAbs : Nat) : Int) = i by omega] at this
      · rw [if_neg hi]
        refine ⟨_, rfl, ?_⟩
        have := ShowsValue.natural i.natAbs (natDec i.natAbs) (natDec_shown _) (natDec_ne_nil _) (natDec_head _)
        rwa [show ((i.natAbs : Nat) : Int) = i by omega] at this

/-- C52. The text determines the value, among values of one kind. -/
theorem C52_values_distinct (v w : PyVal) (hv : Exists v) (hw : Exists w) (s : Str) (h1 : v.toStr = .ok s) (h2 : w.toStr = .ok s) :
    (∀ i j, v = .int i → w = .int j → i = j) ∧ (∀ x y, v = .float x → w = .float y → x = y) ∧
      (∀ a b, v = .bool a → w = .bool b → a = b) := by
  refine ⟨?_, ?_, ?_⟩
  · rintro i j rfl rfl
    have e1 := intOfStr_strOfInt i s h1
    have e2 := intOfStr_strOfInt j s h2
    rw [e1] at e2; cases e2; rfl
  · rintro x y rfl rfl
    have e1 := floatOfStr_reprFloat x (IsDouble.wf hv)
    have e2 := floatOfStr_reprFloat y (IsDouble.wf hw)
    cases h1
    rw [show reprFloat y = reprFloat x by simpa [PyVal.toStr] using h2, e1] at e2; cases e2; rfl
  · rintro a b rfl rfl
    revert h1 h2; cases a <;> cases b <;> simp [PyVal.toStr] <;> rintro rfl <;> decide

/-- C52. A text field is generated with the text of the value. -/
theorem C52_text_field (v : PyVal) (hv : Exists v) (hp : Bool) (s : Str) (h : val2str v py!"ST" hp = .ok s) : ShowsValue v s := by
  have h' : v.toStr = .ok s := h
  rcases C52_values v hv with ⟨t, ht, h⟩ | ⟨he, _⟩
  · rw [ht] at h'; cases h'; exact h
  · rw [he] at h'; cases h'

/-- Concrete cases. -/
theorem C52_values_example : ShowsValue (.int (-70)) py!"-70" ∧ ShowsValue (.date ⟨2021, 3, 27⟩) py!"2021-03-27" ∧
    ShowsValue (.time ⟨7, 5, 0, 20000⟩) py!"07:05:00.020000" := by
  refine ⟨?_, ?_, ?_⟩
  · rcases C52_values (.int (-70)) trivial with ⟨t, ht, h⟩ | ⟨he, _⟩
    · cases ht; exact h
    · cases he
  · exact .date _ _ (date_shown ⟨2021, 3, 27⟩ (by decide))
  · exact .time _ _ (time_shown ⟨7, 5, 0, 20000⟩ (by decide))

end Props.Shown
