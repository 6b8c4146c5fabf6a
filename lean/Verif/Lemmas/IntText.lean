import Verif.Lemmas.Dec
import Verif.Model.Values
/-! # Integers to text and back -/
namespace Py

/-- `int(s, 16)` for a `str`. -/
def intOfStr16 (s : Str) : Except Err Int :=
  let (neg, body) := splitSign (stripBy isAsciiSpace (toAsciiNum s))
  match scanDigits 16 false (stripHexPrefix body) with
  | some ds => .ok (applySign neg (ofDigits 16 ds))
  | none => .error .value

theorem toAsciiNum_ascii (s : Str) (h : ∀ c ∈ s, c < 127) : toAsciiNum s = s := by
  unfold toAsciiNum
  conv => rhs; rw [← List.map_id s]
  apply List.map_congr_left
  intro c hc
  simp [h c hc]

theorem digitUpper_range (d : Nat) (h : d < 16) :
    (48 ≤ digitUpper d ∧ digitUpper d ≤ 57) ∨ (65 ≤ digitUpper d ∧ digitUpper d ≤ 70) := by
  unfold digitUpper; split <;> omega

/-- Characters of upper-case digits. -/
def isHexUp (c : Nat) : Prop := (48 ≤ c ∧ c ≤ 57) ∨ (65 ≤ c ∧ c ≤ 70)

theorem scanDigits_map (b : Nat) (hb : b ≤ 16) (ds : List Nat) (h : ∀ d ∈ ds, d < b) (prev : Bool)
    (hne : prev = true ∨ ds ≠ []) : scanDigits b prev (ds.map digitUpper) = some ds := by
  induction ds generalizing prev with
  | nil =>
    rcases hne with rfl | h
    · rfl
    · exact absurd rfl h
  | cons d r ih =>
    have hd : d < b := h d (by simp)
    rw [List.map_cons, scanDigits]
    have hr := digitUpper_range d (by omega)
    rw [if_neg (by omega)]
    have : digitValB b (digitUpper d) = some d := by
      unfold digitValB
      rw [digitVal_digitUpper d (by omega)]
      simp [hd]
    rw [this]
    simp only
    rw [ih (fun x hx => h x (by simp [hx])) true (.inl rfl)]
    rfl

theorem stripBy_id (p : Nat → Bool) (s : Str) (h : ∀ c ∈ s, p c = false) : stripBy p s = s := by
  have := stripBy_of_stripped p [] s [] ⟨fun x hx => h x (List.mem_of_mem_head? hx), fun x hx => h x (List.mem_of_mem_getLast? hx)⟩
    (by simp) (by simp)
  simpa using this

theorem isHexUp_space (c : Nat) (h : isHexUp c) : isAsciiSpace c = false := by
  unfold isHexUp at h; unfold isAsciiSpace
  simp only [Bool.or_eq_false_iff, decide_eq_false_iff_not, Bool.and_eq_false_iff]
  omega

theorem natDec_hex (n : Nat) : ∀ c ∈ natDec n, 48 ≤ c ∧ c ≤ 57 := by
  intro c hc
  have := natDec_digit n c hc
  simpa [isAsciiDigit] using this

theorem natDec_ne_nil (n : Nat) : natDec n ≠ [] := by
  unfold natDec; simp [digits_ne_nil]

theorem splitSign_digit (s : Str) (h : ∀ c ∈ s.head?, c ≠ 45 ∧ c ≠ 43) : splitSign s = (false, s) := by
  cases s with
  | nil => rfl
  | cons c r =>
    have := h c (by simp)
    simp [splitSign, this.1, this.2]

/-- Reading a text of ASCII decimal digits. -/
theorem intOfStr_digits (s : Str) (ds : List Nat) (hs : s = ds.map digitUpper) (h : ∀ d ∈ ds, d < 10)
    (hne : ds ≠ []) (hl : ds.length ≤ maxStrDigits) :
    intOfStr s = .ok (ofDigits 10 ds) ∧ intOfStr (45 :: s) = .ok (-(ofDigits 10 ds : Int)) := by
  have hc : ∀ c ∈ s, 48 ≤ c ∧ c ≤ 57 := by
    intro c hc
    rw [hs] at hc
    obtain ⟨d, hd, rfl⟩ := List.mem_map.1 hc
    have := h d hd
    unfold digitUpper; rw [if_pos this]; omega
  have hsp : ∀ c ∈ s, isAsciiSpace c = false := fun c hc' =>
    isHexUp_space c (.inl (hc c hc'))
  constructor
  · unfold intOfStr
    rw [toAsciiNum_ascii s (fun c hc' => by have := hc c hc'; omega), stripBy_id _ _ hsp,
      splitSign_digit s (fun c hc' => by have := hc c (List.mem_of_mem_head? hc'); omega)]
    simp only
    rw [hs, scanDigits_map 10 (by omega) ds h false (.inr hne)]
    simp only
    rw [if_neg (by omega)]
    rfl
  · unfold intOfStr
    rw [toAsciiNum_ascii _ (fun c hc' => by
        rcases List.mem_cons.1 hc' with rfl | hc'
        · omega
        · have := hc c hc'; omega),
      stripBy_id _ _ (fun c hc' => by
        rcases List.mem_cons.1 hc' with rfl | hc'
        · rfl
        · exact hsp c hc')]
    have : splitSign (45 :: s) = (true, s) := rfl
    rw [this]
    simp only
    rw [hs, scanDigits_map 10 (by omega) ds h false (.inr hne)]
    simp only
    rw [if_neg (by omega)]
    rfl

/-- `int(str(i)) = i`. -/
theorem intOfStr_strOfInt (i : Int) (s : Str) (h : strOfInt i = .ok s) : intOfStr s = .ok i := by
  unfold strOfInt at h
  simp only at h
  split at h
  · cases h
  · rename_i hl
    simp only [Except.ok.injEq] at h
    have hlen : (digits 10 i.natAbs).length ≤ maxStrDigits := by
      simpa [natDec] using hl
    obtain ⟨h1, h2⟩ := intOfStr_digits (natDec i.natAbs) (digits 10 i.natAbs) rfl
      (digits_lt 10 _ (by omega)) (digits_ne_nil 10 _) hlen
    rw [ofDigits_digits 10 _ (by omega)] at h1 h2
    split at h
    · rw [← h, h2]; congr 1; omega
    · rw [← h, h1]; congr 1; omega

theorem strOfInt_ok (i : Int) (h : i.natAbs < 10 ^ 4300) : ∃ s, strOfInt i = .ok s := by
  unfold strOfInt
  have := natDec_length i.natAbs 4300 h (by omega)
  simp only
  rw [if_neg (by unfold maxStrDigits; omega)]
  exact ⟨_, rfl⟩

theorem strOfInt_ne_nil (i : Int) (s : Str) (h : strOfInt i = .ok s) : s ≠ [] := by
  unfold strOfInt at h
  simp only at h
  split at h
  · cases h
  · simp only [Except.ok.injEq] at h
    split at h
    · rw [← h]; simp
    · rw [← h]; exact natDec_ne_nil _

end Py
