import Verif.Model.GeoFloat
import Mathlib.Analysis.SpecialFunctions.Trigonometric.Inverse
import Mathlib.Analysis.SpecialFunctions.Complex.Arg
/-!
# What is assumed of the C mathematical library

A libm is accurate if its functions are within one unit in the last place of their largest results
(glibc, musl, the Windows and macOS libraries all are), do not leave the range of the function, and follow
C's rules at a few special arguments. Nothing is assumed for infinities and nan, for trigonometric
arguments beyond ten, or about monotonicity.
-/
namespace Nmea.GeoF
open Py

/-- The real number a finite float stands for. -/
noncomputable def val (x : PyFloat) : ℝ := (x.toRat : ℝ)

/-- A finite float. -/
def Finite : PyFloat → Prop
  | .fin _ m => 0 ≤ m
  | _ => False

/-- A finite float within `ε` of the real number `r`. -/
def Near (x : PyFloat) (r ε : ℝ) : Prop := Finite x ∧ |val x - r| ≤ ε

/-- See above. -/
structure Accurate (lib : Libm) : Prop where
  sin : ∀ x, Finite x → |val x| ≤ 10 → Near (lib.sin x) (Real.sin (val x)) (1 / 2 ^ 52) ∧ |val (lib.sin x)| ≤ 1
  cos : ∀ x, Finite x → |val x| ≤ 10 → Near (lib.cos x) (Real.cos (val x)) (1 / 2 ^ 52) ∧ |val (lib.cos x)| ≤ 1
  cos_zero : ∀ x, Finite x → val x = 0 → lib.cos x = .fin false 1
  asin : ∀ x, Finite x → |val x| ≤ 1 → Near (lib.asin x) (Real.arcsin (val x)) (1 / 2 ^ 51)
  asin_domain : ∀ x, Finite x → 1 < |val x| → lib.asin x = .nan
  acos : ∀ x, Finite x → |val x| ≤ 1 → Near (lib.acos x) (Real.arccos (val x)) (1 / 2 ^ 51)
  acos_domain : ∀ x, Finite x → 1 < |val x| → lib.acos x = .nan
  acos_one : lib.acos (.fin false 1) = .fin false 0
  sqrt : ∀ x, Finite x → 0 ≤ val x → Near (lib.sqrt x) (Real.sqrt (val x)) (Real.sqrt (val x) / 2 ^ 52)
  sqrt_domain : ∀ x, Finite x → val x < 0 → lib.sqrt x = .nan
  atan2 : ∀ y x, Finite y → Finite x → ∃ α, -Real.pi ≤ α ∧ α ≤ Real.pi ∧ Near (lib.atan2 y x) α (1 / 2 ^ 51) ∧
    val x = Real.sqrt (val x ^ 2 + val y ^ 2) * Real.cos α ∧ val y = Real.sqrt (val x ^ 2 + val y ^ 2) * Real.sin α
  square : ∀ x, Finite x → |val x| ≤ 10 ^ 100 →
    Near (lib.square x) (val x ^ 2) (val x ^ 2 / 2 ^ 52 + 1 / 10 ^ 70)

end Nmea.GeoF
