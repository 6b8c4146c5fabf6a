import Verif.Py.Str
/-!
# Python `float`: IEEE-754 binary64 with round-to-nearest-even

A finite float is a sign and an exact non-negative rational magnitude; every arithmetic result is
the exact result rounded by `roundMag`. CPython built-ins, not pynmeagps code.
-/
namespace Py

/-- `2 ^ e`. -/
def pow2 (e : Int) : Rat :=
  match e with
  | .ofNat n => ((2 ^ n : Nat) : Rat)
  | .negSucc n => 1 / ((2 ^ (n + 1) : Nat) : Rat)

/-- `10 ^ e`. -/
def pow10 (e : Int) : Rat :=
  match e with
  | .ofNat n => ((10 ^ n : Nat) : Rat)
  | .negSucc n => 1 / ((10 ^ (n + 1) : Nat) : Rat)

/-- Round to the nearest integer, ties to even. -/
def roundHalfEven (q : Rat) : Int :=
  let f := q.floor
  let r := q - (f : Rat)
  if r < 1 / 2 then f
  else if 1 / 2 < r then f + 1
  else if f % 2 = 0 then f else f + 1

/-- `⌊log2 q⌋` for `q > 0`. -/
def floorLog2 (q : Rat) : Int :=
  let e : Int := (Nat.log2 q.num.natAbs : Int) - (Nat.log2 q.den : Int)
  if pow2 e ≤ q then e else e - 1

/-- Exponent of the unit in the last place of a binary64 number of magnitude `q > 0`. -/
def ulpExp (q : Rat) : Int := max (floorLog2 q - 52) (-1074)

/-- Round a non-negative rational to binary64 precision (range unbounded above). -/
def roundMag (q : Rat) : Rat :=
  if q ≤ 0 then 0 else (roundHalfEven (q / pow2 (ulpExp q)) : Rat) * pow2 (ulpExp q)

/-- Smallest magnitude that overflows: `2 ^ 1024`. -/
def f64Limit : Rat := pow2 1024

/-- A Python float. -/
inductive PyFloat where
  | fin (neg : Bool) (mag : Rat)
  | inf (neg : Bool)
  | nan
  deriving DecidableEq

namespace PyFloat

/-- Round an exact magnitude with a sign to a float (overflow gives an infinity). -/
def ofMag (neg : Bool) (q : Rat) : PyFloat :=
  let r := roundMag q
  if f64Limit ≤ r then .inf neg else .fin neg r

/-- Round an exact rational to a float; zero is positive. -/
def ofRat (q : Rat) : PyFloat := ofMag (decide (q < 0)) (if q < 0 then -q else q)

/-- Exact signed value of a finite float (`0` otherwise). -/
def toRat : PyFloat → Rat
  | .fin neg m => if neg then -m else m
  | _ => 0

def isFin : PyFloat → Bool
  | .fin _ _ => true
  | _ => false

/-- `abs(x)`. -/
def abs : PyFloat → PyFloat
  | .fin _ m => .fin false m
  | .inf _ => .inf false
  | .nan => .nan

/-- `-x`. -/
def neg : PyFloat → PyFloat
  | .fin s m => .fin (!s) m
  | .inf s => .inf (!s)
  | .nan => .nan

/-- `x < 0`. -/
def ltZero : PyFloat → Bool
  | .fin s m => s && decide (0 < m)
  | .inf s => s
  | .nan => false

/-- `x == 0`. -/
def isZero : PyFloat → Bool
  | .fin _ m => decide (m = 0)
  | _ => false

/-- `x + y`. -/
def add : PyFloat → PyFloat → PyFloat
  | .fin s a, .fin t b =>
    let q := toRat (.fin s a) + toRat (.fin t b)
    if q = 0 then .fin (s && t) 0 else ofRat q
  | .fin _ _, .inf t => .inf t
  | .inf s, .fin _ _ => .inf s
  | .inf s, .inf t => if s = t then .inf s else .nan
  | _, _ => .nan

/-- `x - y`. -/
def sub (x y : PyFloat) : PyFloat := add x (neg y)

/-- `x * y`. -/
def mul : PyFloat → PyFloat → PyFloat
  | .fin s a, .fin t b => ofMag (s != t) (a * b)
  | .fin s a, .inf t => if a = 0 then .nan else .inf (s != t)
  | .inf s, .fin t b => if b = 0 then .nan else .inf (s != t)
  | .inf s, .inf t => .inf (s != t)
  | _, _ => .nan

/-- `x / y` (Python raises `ZeroDivisionError`). -/
def div : PyFloat → PyFloat → Except Err PyFloat
  | x, .fin t b =>
    if b = 0 then .error .zeroDivision
    else .ok (match x with
      | .fin s a => ofMag (s != t) (a / b)
      | .inf s => .inf (s != t)
      | .nan => .nan)
  | .fin s _, .inf t => .ok (.fin (s != t) 0)
  | .inf _, .inf _ => .ok .nan
  | .nan, .inf _ => .ok .nan
  | _, .nan => .ok .nan

/-- `float(i)` for an `int` (`OverflowError` when too large). -/
def ofInt (i : Int) : Except Err PyFloat :=
  match ofRat (i : Rat) with
  | .fin s m => .ok (.fin s m)
  | _ => .error .overflow

/-- `int(x)`: truncation; `ValueError` for nan, `OverflowError` for infinities. -/
def toInt : PyFloat → Except Err Int
  | .fin s m => .ok (if s then -m.floor else m.floor)
  | .inf _ => .error .overflow
  | .nan => .error .value

/-- `math.floor(x)`. -/
def floorInt : PyFloat → Except Err Int
  | .fin s m => .ok (toRat (.fin s m)).floor
  | .inf _ => .error .overflow
  | .nan => .error .value

/-- `divmod(x, y)` for a float `x ≥ +0` (or nan) and a positive finite float `y`
(CPython `float_divmod` with `vx ≥ 0`, `wx > 0`; the sign-correction branches are dead):
`mod = fmod(vx, wx)` is exact, `div = (vx - mod) / wx`, then `floordiv = floor(div)` corrected by
one if `div - floordiv > 0.5`. -/
def divmodPos (x : PyFloat) (y : Rat) : PyFloat × PyFloat :=
  match x with
  | .fin _ m =>
    let md : Rat := m - y * ((m / y).floor : Rat)
    let dv := roundMag (roundMag (m - md) / y)
    let fl : Rat := (dv.floor : Rat)
    let fd := if 1 / 2 < dv - fl then fl + 1 else fl
    (.fin false fd, .fin false md)
  | _ => (.nan, .nan)

/-- `round(x, n)`: nearest multiple of `10^-n` (exact ties to even), then rounded to binary64. -/
def roundTo (x : PyFloat) (n : Int) : Except Err PyFloat :=
  match x with
  | .fin s m =>
    if n > 323 then .ok (.fin s m)
    else if n < -308 then .ok (.fin s 0)
    else match ofMag s ((roundHalfEven (m * pow10 n) : Rat) * pow10 (-n)) with
      | .fin s' m' => .ok (.fin s' m')
      | _ => .error .overflow
  | y => .ok y

end PyFloat

/-! ## Float to text -/

/-- `⌊log10 q⌋` for `q > 0`. -/
def floorLog10 (q : Rat) : Int :=
  let e : Int := ((digits 10 q.num.natAbs).length : Int) - ((digits 10 q.den).length : Int)
  if pow10 e ≤ q then e else e - 1

/-- The `n`-significant-digit decimals around `q`: the one(s) that round back to `q`,
closest first (ties to even). Result `(m, s)` stands for `m * 10^s`. -/
def reprCand (q : Rat) (k : Int) (n : Nat) : Option (Nat × Int) :=
  let s := k - (n : Int) + 1
  let v := q / pow10 s
  let m := v.floor
  let near := roundHalfEven v
  let far := if near = m then m + 1 else m
  let ok (j : Int) : Bool := roundMag ((j : Rat) * pow10 s) = q
  if ok near then some (near.toNat, s)
  else if ok far then some (far.toNat, s)
  else none

/-- Shortest decimal that reads back as `q` (`q > 0`): `(m, s)` for `m * 10^s`. -/
def shortest (q : Rat) : Nat × Int :=
  let k := floorLog10 q
  match (List.range 17).findSome? (fun i => reprCand q k (i + 1)) with
  | some r => r
  | none => (0, 0)

/-- Remove trailing zero digits. -/
def stripZeros (ds : List Nat) : List Nat := (ds.reverse.dropWhile (· == 0)).reverse

/-- `repr` of a decimal with significant digits `ds` and decimal point position `decpt`
(value `0.ds * 10^decpt`), CPython `format_float_short` with code `'r'`. -/
def reprDigits (ds : List Nat) (decpt : Int) : Str :=
  let cs := ds.map digitUpper
  if decpt ≤ -4 ∨ decpt > 16 then
    let e := decpt - 1
    let mant := match cs with
      | [] => []
      | [c] => [c]
      | c :: r => c :: 46 :: r
    mant ++ 101 :: (if e < 0 then 45 else 43) :: fmt02d e.natAbs
  else if decpt ≤ 0 then
    48 :: 46 :: (List.replicate (-decpt).toNat 48 ++ cs)
  else
    let p := decpt.toNat
    if cs.length ≤ p then cs ++ List.replicate (p - cs.length) 48 ++ [46, 48]
    else cs.take p ++ 46 :: cs.drop p

/-- `repr(x)` = `str(x)` of a float. -/
def reprFloat : PyFloat → Str
  | .nan => py!"nan"
  | .inf s => if s then py!"-inf" else py!"inf"
  | .fin s m =>
    let body :=
      if m = 0 then py!"0.0"
      else
        let (d, e) := shortest m
        let ds := digits 10 d
        reprDigits (stripZeros ds) ((ds.length : Int) + e)
    if s then 45 :: body else body

/-- Fixed-point text of a non-negative integer count of `10^-n` units, `n ≥ 1`. -/
def fixedDigits (n : Nat) (k : Nat) : Str :=
  natDec (k / 10 ^ n) ++ 46 :: padZero n (natDec (k % 10 ^ n))

/-- `f"{x:.<n>f}"` for `n ≥ 1`: correctly rounded (exact ties to even). -/
def fmtFixed (n : Nat) : PyFloat → Str
  | .nan => py!"nan"
  | .inf s => if s then py!"-inf" else py!"inf"
  | .fin s m =>
    let body := fixedDigits n (roundHalfEven (m * ((10 ^ n : Nat) : Rat))).toNat
    if s then 45 :: body else body

/-! ## Text to float -/

/-- ASCII lower case. -/
def lowerAscii (c : Nat) : Nat := if 65 ≤ c && c ≤ 90 then c + 32 else c

/-- `_Py_string_to_number_with_underscores`: drop underscores that stand between digits;
`none` if one is misplaced. `prev` is the previous character. -/
def dropUnderscores : Nat → Str → Option Str
  | prev, [] => if prev = 95 then none else some []
  | prev, c :: cs =>
    if c = 95 then (if isAsciiDigit prev then dropUnderscores 95 cs else none)
    else if prev = 95 ∧ ¬ isAsciiDigit c then none
    else (dropUnderscores c cs).map (c :: ·)

/-- Value of a run of ASCII digit characters. -/
def asciiDigitsVal (s : Str) : Nat := ofDigits 10 (s.map (· - 48))

/-- Optional exponent part; must consume everything. -/
def scanExponent : Str → Option Int
  | [] => some 0
  | c :: cs =>
    if c = 101 ∨ c = 69 then
      let (neg, ds) := splitSign cs
      if ds.isEmpty || !ds.all isAsciiDigit then none
      else some (applySign neg (asciiDigitsVal ds))
    else none

/-- Unsigned decimal literal: `(mantissa, exponent)`. -/
def scanDecimal (s : Str) : Option (Nat × Int) :=
  let ip := s.takeWhile isAsciiDigit
  let r := s.dropWhile isAsciiDigit
  let (fp, r2) := match r with
    | 46 :: r' => (r'.takeWhile isAsciiDigit, r'.dropWhile isAsciiDigit)
    | _ => ([], r)
  if ip.isEmpty && fp.isEmpty then none
  else (scanExponent r2).map fun e => (asciiDigitsVal (ip ++ fp), e - (fp.length : Int))

/-- Unsigned float literal with sign already split off. -/
def floatOfBody (neg : Bool) (body : Str) : Option PyFloat :=
  let low := body.map lowerAscii
  if low = py!"inf" ∨ low = py!"infinity" then some (.inf neg)
  else if low = py!"nan" then some .nan
  else (scanDecimal body).map fun (m, e) => PyFloat.ofMag neg ((m : Rat) * pow10 e)

/-- `float(s)` for a `str`. -/
def floatOfStr (s : Str) : Except Err PyFloat :=
  match dropUnderscores 0 (stripBy isAsciiSpace (toAsciiNum s)) with
  | none => .error .value
  | some t =>
    let (neg, body) := splitSign t
    match floatOfBody neg body with
    | some x => .ok x
    | none => .error .value

end Py
