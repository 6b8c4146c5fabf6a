import Verif.Py.Float
/-!
# Geodesy helpers over IEEE doubles

Models the same functions of `src/pynmeagps/nmeahelpers.py` as `Model/Geo.lean` - `area`, `bearing`,
`haversine`, `planar`, `llh2ecef`, `ecef2llh` - but in floating point, operation by operation, in the order in which
Python evaluates them. The functions of C's libm have no exact semantics, so they are a parameter: `Libm`.
All arguments are floats (an `int` argument would first be converted).
-/
namespace Nmea.GeoF
open Py

/-- The functions of the C library behind `math` and `**`. Nothing is assumed about them here. -/
structure Libm where
  sin : PyFloat → PyFloat
  cos : PyFloat → PyFloat
  asin : PyFloat → PyFloat
  acos : PyFloat → PyFloat
  sqrt : PyFloat → PyFloat
  atan2 : PyFloat → PyFloat → PyFloat
  /-- `pow(x, 2.0)`. -/
  square : PyFloat → PyFloat

/-- CPython `math_1` for functions that cannot overflow: `ValueError` if the result is nan or infinite
without the argument being so. -/
def math1 (f : PyFloat → PyFloat) (x : PyFloat) : Except Err PyFloat :=
  match f x, x with
  | .nan, .nan => .ok .nan
  | .nan, _ => .error .value
  | .inf _, .fin _ _ => .error .value
  | r, _ => .ok r

/-- `x ** 2` and `pow(x, 2)`; CPython `float_pow`: special values are handled first, an infinite result is
an `OverflowError`. -/
def square (lib : Libm) (x : PyFloat) : Except Err PyFloat :=
  match x with
  | .nan => .ok .nan
  | .inf _ => .ok (.inf false)
  | .fin s m =>
    match lib.square (.fin s m) with
    | .inf _ => .error .overflow
    | r => .ok r

/-- `x % y` for a positive finite `y`; CPython `float_rem`: the C remainder, plus `y` if it is negative; a zero
result has the sign of `y`. -/
def pmod (x : PyFloat) (y : Rat) : PyFloat :=
  match x with
  | .fin s m =>
    let md : Rat := m - y * ((m / y).floor : Rat)
    if md = 0 then .fin false 0
    else if s then PyFloat.add (.fin true md) (.fin false y)
    else .fin false md
  | _ => .nan

/-- `x < y` for floats. -/
def lt : PyFloat → PyFloat → Bool
  | .fin s a, .fin t b => decide (PyFloat.toRat (.fin s a) < PyFloat.toRat (.fin t b))
  | .fin _ _, .inf t => !t
  | .inf s, .fin _ _ => s
  | .inf s, .inf t => s && !t
  | _, _ => false

/-- A non-negative literal. -/
def lit (q : Rat) : PyFloat := .fin false q

/-- `math.pi`. -/
def pi : PyFloat := .fin false (884279719003555 / 281474976710656)

/-- `c * pi / 180`. -/
def rad (c : PyFloat) : Except Err PyFloat := PyFloat.div (PyFloat.mul c pi) (lit 180)

/-- `c * 180 / pi`. -/
def deg (c : PyFloat) : Except Err PyFloat := PyFloat.div (PyFloat.mul c (lit 180)) pi

/-- `WGS84_SMAJ_AXIS`; src/pynmeagps/nmeatypes_core.py:82. -/
def smajAxis : PyFloat := lit 6378137

/-- The default of `radius` in kilometres, `WGS84_SMAJ_AXIS / 1000`;
src/pynmeagps/nmeahelpers.py:87, 471. -/
def kmRadius : PyFloat := .ofMag false (6378137 / 1000)

/-- `WGS84_FLATTENING`; src/pynmeagps/nmeatypes_core.py:84. -/
def flattening : PyFloat := .ofMag false (298257223563 / 1000000000)

/-- `area`; src/pynmeagps/nmeahelpers.py:82-102. -/
def area (lib : Libm) (lat1 lon1 lat2 lon2 radius : PyFloat) : Except Err PyFloat := do
  let phi1 ← rad lat1
  let phi2 ← rad lat2
  let r2 ← square lib radius
  let s1 ← math1 lib.sin phi1
  let s2 ← math1 lib.sin phi2
  let p := (r2.mul pi).mul (s1.sub s2).abs
  (p.mul (lon1.sub lon2).abs).div (lit 180)

/-- `bearing`; src/pynmeagps/nmeahelpers.py:105-123. -/
def bearing (lib : Libm) (lat1 lon1 lat2 lon2 : PyFloat) : Except Err PyFloat := do
  let phi1 ← rad lat1
  let lambda1 ← rad lon1
  let phi2 ← rad lat2
  let lambda2 ← rad lon2
  let sd ← math1 lib.sin (lambda2.sub lambda1)
  let c2 ← math1 lib.cos phi2
  let y := sd.mul c2
  let c1 ← math1 lib.cos phi1
  let s2 ← math1 lib.sin phi2
  let s1 ← math1 lib.sin phi1
  let cd ← math1 lib.cos (lambda2.sub lambda1)
  let x := (c1.mul s2).sub ((s1.mul c2).mul cd)
  let theta := lib.atan2 y x
  let q ← (theta.mul (lit 180)).div pi
  return pmod (q.add (lit 360)) 360

/-- `haversine`; src/pynmeagps/nmeahelpers.py:466-493. -/
def haversine (lib : Libm) (lat1 lon1 lat2 lon2 radius : PyFloat) : Except Err PyFloat := do
  let phi1 ← rad lat1
  let lambda1 ← rad lon1
  let phi2 ← rad lat2
  let lambda2 ← rad lon2
  let cd ← math1 lib.cos (phi2.sub phi1)
  let c1 ← math1 lib.cos phi1
  let c2 ← math1 lib.cos phi2
  let cl ← math1 lib.cos (lambda2.sub lambda1)
  let angle ← math1 lib.acos (cd.sub ((c1.mul c2).mul ((lit 1).sub cl)))
  return radius.mul angle

/-- `planar`; src/pynmeagps/nmeahelpers.py:670-698. -/
def planar (lib : Libm) (lat1 lon1 lat2 lon2 radius : PyFloat) : Except Err PyFloat := do
  let phi1 ← rad lat1
  let lambda1 ← rad lon1
  let phi2 ← rad lat2
  let lambda2 ← rad lon2
  let c1 ← math1 lib.cos phi1
  let dlambda := (lambda2.sub lambda1).mul c1
  let dphi := phi2.sub phi1
  let d ← math1 lib.sqrt ((dlambda.mul dlambda).add (dphi.mul dphi))
  return radius.mul d

/-- `llh2ecef`; src/pynmeagps/nmeahelpers.py:600-631. -/
def llh2ecef (lib : Libm) (lat lon height a f : PyFloat) : Except Err (PyFloat × PyFloat × PyFloat) := do
  let lat ← rad lat
  let lon ← rad lon
  let f ← (lit 1).div f
  let e2 := f.mul ((lit 2).sub f)
  let a2 ← square lib a
  let b2 := a2.mul ((lit 1).sub e2)
  let s ← math1 lib.sin lat
  let s2 ← square lib s
  let d ← math1 lib.sqrt ((lit 1).sub (e2.mul s2))
  let N ← a.div d
  let cl ← math1 lib.cos lat
  let co ← math1 lib.cos lon
  let x := ((N.add height).mul cl).mul co
  let so ← math1 lib.sin lon
  let y := ((N.add height).mul cl).mul so
  let q ← b2.div a2
  let z := ((q.mul N).add height).mul s
  return (x, y, z)

/-- `ecef2llh`; src/pynmeagps/nmeahelpers.py:332-406. -/
def ecef2llh (lib : Libm) (x y z a f : PyFloat) : Except Err (PyFloat × PyFloat × PyFloat) := do
  let f ← (lit 1).div f
  let e2 := f.mul ((lit 2).sub f)
  let a1 := a.mul e2
  let a2 := a1.mul a1
  let a3 ← (a1.mul e2).div (lit 2)
  let a4 := (lit (5 / 2)).mul a2
  let a5 := a1.add a3
  let a6 := (lit 1).sub e2
  let zp := z.abs
  let w2 := (x.mul x).add (y.mul y)
  let w ← math1 lib.sqrt w2
  let z2 := z.mul z
  let r2 := w2.add z2
  let r ← math1 lib.sqrt r2
  if lt r (lit 100000) then
    return (lit 0, lit 0, .fin true 10000000)
  let lon := lib.atan2 y x
  let s2 ← z2.div r2
  let c2 ← w2.div r2
  let u ← a2.div r
  let a4r ← a4.div r
  let v := a3.sub a4r
  let (lat, s, ss, c) ← (if lt (.ofMag false (3 / 10)) c2 then do
      let zr ← zp.div r
      let k ← (c2.mul ((a1.add u).add (s2.mul v))).div r
      let s := zr.mul ((lit 1).add k)
      let lat ← math1 lib.asin s
      let ss := s.mul s
      let c ← math1 lib.sqrt ((lit 1).sub ss)
      pure (lat, s, ss, c)
    else do
      let wr ← w.div r
      let k ← (s2.mul ((a5.sub u).sub (c2.mul v))).div r
      let c := wr.mul ((lit 1).sub k)
      let lat ← math1 lib.acos c
      let ss := (lit 1).sub (c.mul c)
      let s ← math1 lib.sqrt ss
      pure (lat, s, ss, c))
  let g := (lit 1).sub (e2.mul ss)
  let sg ← math1 lib.sqrt g
  let rg ← a.div sg
  let rf := a6.mul rg
  let u := w.sub (rg.mul c)
  let v := zp.sub (rf.mul s)
  let f := (c.mul u).add (s.mul v)
  let m := (c.mul v).sub (s.mul u)
  let rfg ← rf.div g
  let p ← m.div (rfg.add f)
  let lat := lat.add p
  let mp ← (m.mul p).div (lit 2)
  let height := f.add mp
  let lat := if z.ltZero then lat.neg else lat
  let lat ← deg lat
  let lon ← deg lon
  return (lat, lon, height)

end Nmea.GeoF
