import Verif.Py.Base
import Mathlib.Analysis.SpecialFunctions.Trigonometric.Inverse
import Mathlib.Analysis.SpecialFunctions.Complex.Arg
/-!
# Geodesy helpers over the real numbers

Models `src/pynmeagps/nmeahelpers.py`: `area`, `bearing`, `haversine`, `planar`, `llh2ecef`, `ecef2llh`.

Simplification: these functions are transcribed over the *real* numbers, not over IEEE doubles. `math.sin`
and friends have no exact semantics in Python (they are whatever libm returns), so the rounding of these
six functions is outside this model; `Model/GeoFloat.lean` transcribes them over doubles with the C library as a
parameter (C70, C71). What is kept is every operation, branch and failure of the code: a
function of `math` applied outside its domain raises `ValueError`, a division by zero
`ZeroDivisionError`.
-/
namespace Nmea.Geo
open Py Real

/-- `math.acos`: `ValueError` ("math domain error") outside [-1, 1]. -/
noncomputable def acos (x : ℝ) : Except Err ℝ :=
  if -1 ≤ x ∧ x ≤ 1 then .ok (Real.arccos x) else .error .value

/-- `math.asin`: `ValueError` outside [-1, 1]. -/
noncomputable def asin (x : ℝ) : Except Err ℝ :=
  if -1 ≤ x ∧ x ≤ 1 then .ok (Real.arcsin x) else .error .value

/-- `math.sqrt`: `ValueError` below zero. -/
noncomputable def sqrt (x : ℝ) : Except Err ℝ :=
  if 0 ≤ x then .ok (Real.sqrt x) else .error .value

/-- Division: `ZeroDivisionError` by zero. -/
noncomputable def div (x y : ℝ) : Except Err ℝ :=
  if y = 0 then .error .zeroDivision else .ok (x / y)

/-- `math.atan2(y, x)`, in (-π, π]; `atan2(0, 0) = 0`. Signed zeros are not modelled. -/
noncomputable def atan2 (y x : ℝ) : ℝ := Complex.arg (⟨x, y⟩ : ℂ)

/-- Python's `x % m` for positive `m`. -/
noncomputable def pmod (x m : ℝ) : ℝ := x - m * (⌊x / m⌋ : ℝ)

/-- `c * pi / 180`. -/
noncomputable def rad (c : ℝ) : ℝ := c * π / 180

/-- `c * 180 / pi`. -/
noncomputable def deg (c : ℝ) : ℝ := c * 180 / π

/-- `WGS84_SMAJ_AXIS`; src/pynmeagps/nmeatypes_core.py:82. -/
noncomputable def smajAxis : ℝ := 6378137

/-- `WGS84_FLATTENING`; src/pynmeagps/nmeatypes_core.py:84. -/
noncomputable def flattening : ℝ := 298257223563 / 1000000000

/-- `area`; src/pynmeagps/nmeahelpers.py:82-102. The default radius is `smajAxis / 1000`. -/
noncomputable def area (lat1 lon1 lat2 lon2 radius : ℝ) : ℝ :=
  let phi1 := rad lat1
  let phi2 := rad lat2
  radius ^ 2 * π * |sin phi1 - sin phi2| * |lon1 - lon2| / 180

/-- `bearing`; src/pynmeagps/nmeahelpers.py:105-123. -/
noncomputable def bearing (lat1 lon1 lat2 lon2 : ℝ) : ℝ :=
  let phi1 := rad lat1
  let lambda1 := rad lon1
  let phi2 := rad lat2
  let lambda2 := rad lon2
  let y := sin (lambda2 - lambda1) * cos phi2
  let x := cos phi1 * sin phi2 - sin phi1 * cos phi2 * cos (lambda2 - lambda1)
  let theta := atan2 y x
  pmod (theta * 180 / π + 360) 360

/-- `haversine`; src/pynmeagps/nmeahelpers.py:466-493. The default radius is `smajAxis / 1000`. -/
noncomputable def haversine (lat1 lon1 lat2 lon2 radius : ℝ) : Except Err ℝ := do
  let phi1 := rad lat1
  let lambda1 := rad lon1
  let phi2 := rad lat2
  let lambda2 := rad lon2
  let angle ← acos (cos (phi2 - phi1) - cos phi1 * cos phi2 * (1 - cos (lambda2 - lambda1)))
  return radius * angle

/-- `planar`; src/pynmeagps/nmeahelpers.py:670-698. The default radius is `smajAxis`. -/
noncomputable def planar (lat1 lon1 lat2 lon2 radius : ℝ) : Except Err ℝ := do
  let phi1 := rad lat1
  let lambda1 := rad lon1
  let phi2 := rad lat2
  let lambda2 := rad lon2
  let dlambda := (lambda2 - lambda1) * cos phi1
  let dphi := phi2 - phi1
  let d ← sqrt (dlambda * dlambda + dphi * dphi)
  return radius * d

/-- `llh2ecef`; src/pynmeagps/nmeahelpers.py:600-631. The defaults are `a = smajAxis`, `f = flattening`. -/
noncomputable def llh2ecef (lat lon height a f : ℝ) : Except Err (ℝ × ℝ × ℝ) := do
  let lat := rad lat
  let lon := rad lon
  let f ← div 1 f
  let e2 := f * (2 - f)
  let a2 := a ^ 2
  let b2 := a2 * (1 - e2)
  let d ← sqrt (1 - e2 * sin lat ^ 2)
  let N ← div a d
  let x := (N + height) * cos lat * cos lon
  let y := (N + height) * cos lat * sin lon
  let q ← div b2 a2
  let z := (q * N + height) * sin lat
  return (x, y, z)

/-- `ecef2llh`; src/pynmeagps/nmeahelpers.py:332-406. The defaults are `a = smajAxis`, `f = flattening`.
Both uses of the names `f`, `u` and `v` in the code are kept as shadowing. -/
noncomputable def ecef2llh (x y z a f : ℝ) : Except Err (ℝ × ℝ × ℝ) := do
  let f ← div 1 f
  let e2 := f * (2 - f)
  let a1 := a * e2
  let a2 := a1 * a1
  let a3 := a1 * e2 / 2
  let a4 := 5 / 2 * a2
  let a5 := a1 + a3
  let a6 := 1 - e2
  let zp := |z|
  let w2 := x * x + y * y
  let w ← sqrt w2
  let z2 := z * z
  let r2 := w2 + z2
  let r ← sqrt r2
  if r < 100000 then
    return (0, 0, -10000000)
  let lon := atan2 y x
  let s2 ← div z2 r2
  let c2 ← div w2 r2
  let u ← div a2 r
  let a4r ← div a4 r
  let v := a3 - a4r
  let (lat, s, ss, c) ← (if 3 / 10 < c2 then do
      let k ← div (c2 * (a1 + u + s2 * v)) r
      let zr ← div zp r
      let s := zr * (1 + k)
      let lat ← asin s
      let ss := s * s
      let c ← sqrt (1 - ss)
      pure (lat, s, ss, c)
    else do
      let k ← div (s2 * (a5 - u - c2 * v)) r
      let wr ← div w r
      let c := wr * (1 - k)
      let lat ← acos c
      let ss := 1 - c * c
      let s ← sqrt ss
      pure (lat, s, ss, c))
  let g := 1 - e2 * ss
  let sg ← sqrt g
  let rg ← div a sg
  let rf := a6 * rg
  let u := w - rg * c
  let v := zp - rf * s
  let f := c * u + s * v
  let m := c * v - s * u
  let rfg ← div rf g
  let p ← div m (rfg + f)
  let lat := lat + p
  let height := f + m * p / 2
  let lat := if z < 0 then -lat else lat
  return (deg lat, deg lon, height)

end Nmea.Geo
