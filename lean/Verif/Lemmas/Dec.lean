import Verif.Lemmas.Str
import Verif.Py.Float
/-! # Lemmas: decimal text -/
namespace Py

theorem ofDigits_foldl (b a : Nat) (y : List Nat) :
    y.foldl (fun a d => a * b + d) a = a * b ^ y.length + ofDigits b y := by
  induction y generalizing a with
  | nil => simp [ofDigits]
  | cons d y ih =>
    have e : ofDigits b (d :: y) = y.foldl (fun a d => a * b + d) (0 * b + d) := rfl
    rw [e, List.foldl_cons, ih, ih]
    simp only [List.length_cons, Nat.pow_succ, Nat.zero_mul, Nat.zero_add, Nat.add_mul, Nat.mul_assoc,
      Nat.add_assoc, Nat.mul_comm b]

theorem ofDigits_append (b : Nat) (x y : List Nat) :
    ofDigits b (x ++ y) = ofDigits b x * b ^ y.length + ofDigits b y := by
  have : ofDigits b (x ++ y) = y.foldl (fun a d => a * b + d) (ofDigits b x) := by
    unfold ofDigits; rw [List.foldl_append]
  rw [this, ofDigits_foldl]

theorem ofDigits_zeros (b n : Nat) : ofDigits b (List.replicate n 0) = 0 := by
  induction n with
  | zero => rfl
  | succ n ih =>
    rw [List.replicate_succ', ofDigits_append, ih]; simp [ofDigits]

theorem ofDigits_lt (b : Nat) (x : List Nat) (h : ∀ d ∈ x, d < b) : ofDigits b x < b ^ x.length := by
  induction x with
  | nil => simp [ofDigits]
  | cons d y ih =>
    have e : ofDigits b (d :: y) = d * b ^ y.length + ofDigits b y := by
      have := ofDigits_append b [d] y
      simpa [ofDigits] using this
    rw [e, List.length_cons, Nat.pow_succ, Nat.mul_comm]
    have h1 := ih (fun d hd => h d (by simp [hd]))
    have h2 := h d (by simp)
    have h3 : (d + 1) * b ^ y.length ≤ b * b ^ y.length := Nat.mul_le_mul_right _ h2
    rw [Nat.add_mul] at h3
    rw [Nat.mul_comm (b ^ y.length) d, Nat.mul_comm (b ^ y.length) b]
    omega

theorem natDec_digit (n : Nat) : ∀ c ∈ natDec n, isAsciiDigit c = true := by
  intro c hc
  unfold natDec at hc
  rw [List.mem_map] at hc
  obtain ⟨d, hd, rfl⟩ := hc
  have := digits_lt 10 n (by omega) d hd
  unfold digitUpper isAsciiDigit
  rw [if_pos this]
  simp; omega

theorem asciiVal_map (ds : List Nat) (h : ∀ d ∈ ds, d < 10) :
    asciiDigitsVal (ds.map digitUpper) = ofDigits 10 ds := by
  unfold asciiDigitsVal
  rw [List.map_map]
  congr 1
  conv => rhs; rw [← List.map_id ds]
  apply List.map_congr_left
  intro d hd
  have := h d hd
  simp [digitUpper, this]

theorem asciiVal_natDec (n : Nat) : asciiDigitsVal (natDec n) = n := by
  unfold natDec
  rw [asciiVal_map _ (digits_lt 10 n (by omega)), ofDigits_digits 10 n (by omega)]

theorem asciiVal_append (a b : Str) :
    asciiDigitsVal (a ++ b) = asciiDigitsVal a * 10 ^ b.length + asciiDigitsVal b := by
  unfold asciiDigitsVal
  rw [List.map_append, ofDigits_append, List.length_map]

theorem asciiVal_zeros (n : Nat) : asciiDigitsVal (List.replicate n 48) = 0 := by
  unfold asciiDigitsVal
  rw [List.map_replicate]; exact ofDigits_zeros 10 n

theorem asciiVal_padZero (w : Nat) (s : Str) : asciiDigitsVal (padZero w s) = asciiDigitsVal s := by
  unfold padZero
  rw [asciiVal_append, asciiVal_zeros]; simp

theorem asciiVal_fmt02d (n : Nat) : asciiDigitsVal (fmt02d n) = n := by
  unfold fmt02d; rw [asciiVal_padZero, asciiVal_natDec]

theorem fmt02d_inj (a b : Nat) (h : fmt02d a = fmt02d b) : a = b := by
  rw [← asciiVal_fmt02d a, ← asciiVal_fmt02d b, h]

theorem padZero_digit (w : Nat) (s : Str) (h : ∀ c ∈ s, isAsciiDigit c = true) :
    ∀ c ∈ padZero w s, isAsciiDigit c = true := by
  intro c hc
  unfold padZero at hc
  rw [List.mem_append] at hc
  rcases hc with hc | hc
  · rw [List.mem_replicate] at hc; rw [hc.2]; rfl
  · exact h c hc

theorem padZero_length (w : Nat) (s : Str) : (padZero w s).length = max w s.length := by
  unfold padZero; simp; omega

theorem natDec_length (n k : Nat) (h : n < 10 ^ k) (hk : 0 < k) : (natDec n).length ≤ k := by
  unfold natDec; rw [List.length_map]; exact (digits_length_le 10 n k (by omega) hk).2 h

end Py
