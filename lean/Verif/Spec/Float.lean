import Verif.Py.Float
import Mathlib.Algebra.Order.Field.Basic
import Mathlib.Data.Rat.Lemmas
/-!
# What a Python float is

Binary64: sign, 53-bit significand, exponent; plus infinities and nan.
-/
namespace Nmea
open Py

/-- `x` is a value that a Python `float` can hold. -/
def IsDouble : PyFloat → Prop
  | .fin _ q => ∃ (m : ℕ) (e : ℤ), m < 2 ^ 53 ∧ -1074 ≤ e ∧ e ≤ 971 ∧ q = (m : ℚ) * (2 : ℚ) ^ e
  | .inf _ => True
  | .nan => True

end Nmea
