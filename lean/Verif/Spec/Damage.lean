import Verif.Spec.Framing
/-!
# Specification: damage to the characters of a text (C91)
-/
namespace Spec
open Py

/-- The number of positions at which two texts differ in bit `j` of the character. -/
def differing (j : Nat) (c c' : Str) : Nat := (List.zipWith (fun x y : Nat => x.testBit j != y.testBit j) c c').count true

/-- The neighbouring characters `x`, `y` became `x'`, `y'` by a change of bits that are consecutive on a line that
carries bits of eight per character: those on one side of bit `b` in the first, and on the other side in the second
character (the lower bits first or last, as the line has it). -/
def Burst (x y x' y' b : Nat) : Prop :=
  ((∀ j < b, x.testBit j = x'.testBit j) ∧ ∀ j, b ≤ j → y.testBit j = y'.testBit j) ∨
  ((∀ j, b ≤ j → x.testBit j = x'.testBit j) ∧ ∀ j < b, y.testBit j = y'.testBit j)

end Spec
