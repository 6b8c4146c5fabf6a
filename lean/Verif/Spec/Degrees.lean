import Verif.Py.Float
import Mathlib.Algebra.Order.Field.Basic
import Mathlib.Data.Rat.Lemmas
/-!
# What degree/minute/second texts look like and mean
-/
namespace Nmea
open Py

/-- A character of a number: a decimal digit of any script, or a full stop. -/
def IsNumberChar (c : Nat) : Prop := c = 46 ∨ (decimalValue c).isSome = true

/-- A number followed by one delimiter: any single character that cannot occur in a number. -/
def IsUnit (num : Str) (delim : Nat) : Prop :=
  num ≠ [] ∧ (∀ c ∈ num, IsNumberChar c) ∧ ¬ IsNumberChar delim

/-- Concatenation of units. -/
def unitsText (us : List (Str × Nat)) : Str := (us.map fun u => u.1 ++ [u.2]).flatten

/-- `s` consists of the given one to three units, an optional hemisphere letter and an optional final
line feed. -/
def IsDms (s : Str) (us : List (Str × Nat)) : Prop :=
  1 ≤ us.length ∧ us.length ≤ 3 ∧ (∀ u ∈ us, IsUnit u.1 u.2) ∧
  ∃ hemi ∈ [[], py!"N", py!"S", py!"E", py!"W"], ∃ lf ∈ [[], [10]], s = unitsText us ++ hemi ++ lf

/-- The hemisphere letter of a position. -/
def hemisphere (south : Bool) (latitude : Bool) : Str :=
  match south, latitude with
  | true, true => py!"S"
  | true, false => py!"W"
  | false, true => py!"N"
  | false, false => py!"E"

/-- Decimal text and the number it denotes: digits, optionally a point and more digits. -/
def IsDecimal (s : Str) (q : ℚ) : Prop :=
  (∀ c ∈ s, c = 46 ∨ (48 ≤ c ∧ c ≤ 57)) ∧
  ((s ≠ [] ∧ (∀ c ∈ s, c ≠ 46) ∧ q = (ofDigits 10 (s.map (· - 48)) : ℚ)) ∨
   ∃ ip fp, s = ip ++ 46 :: fp ∧ ip ≠ [] ∧ (∀ c ∈ ip ++ fp, c ≠ 46) ∧
     q = (ofDigits 10 (ip.map (· - 48)) : ℚ) + (ofDigits 10 (fp.map (· - 48)) : ℚ) / 10 ^ fp.length)

end Nmea
