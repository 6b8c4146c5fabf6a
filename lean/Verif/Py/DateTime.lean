import Verif.Py.Str
/-!
# `datetime` values, `strftime` and `strptime` for the formats pynmeagps uses

CPython 3.11 with glibc; naive values only. Not pynmeagps code.
-/
namespace Py

structure Date where
  year : Nat
  month : Nat
  day : Nat
  deriving DecidableEq, Repr

structure Time where
  hour : Nat
  minute : Nat
  second : Nat
  micro : Nat
  deriving DecidableEq, Repr

structure DateTime where
  date : Date
  time : Time
  deriving DecidableEq, Repr

def isLeap (y : Nat) : Bool := y % 4 == 0 && (y % 100 != 0 || y % 400 == 0)

def daysInMonth (y m : Nat) : Nat :=
  if m = 2 then (if isLeap y then 29 else 28)
  else if m = 4 ∨ m = 6 ∨ m = 9 ∨ m = 11 then 30 else 31

/-- `datetime.date(y, m, d)` succeeds. -/
def Date.Valid (d : Date) : Prop :=
  1 ≤ d.year ∧ d.year ≤ 9999 ∧ 1 ≤ d.month ∧ d.month ≤ 12 ∧ 1 ≤ d.day ∧
    d.day ≤ daysInMonth d.year d.month

instance (d : Date) : Decidable d.Valid := by unfold Date.Valid; infer_instance

/-- `datetime.time(h, m, s, us)` succeeds. -/
def Time.Valid (t : Time) : Prop :=
  t.hour < 24 ∧ t.minute < 60 ∧ t.second < 60 ∧ t.micro < 1000000

instance (t : Time) : Decidable t.Valid := by unfold Time.Valid; infer_instance

def DateTime.Valid (t : DateTime) : Prop := t.date.Valid ∧ t.time.Valid

/-- Left-padded decimal. -/
def dec (w n : Nat) : Str := padZero w (natDec n)

/-! ## Text -/

/-- `str(date)`. -/
def Date.str (d : Date) : Str := dec 4 d.year ++ 45 :: dec 2 d.month ++ 45 :: dec 2 d.day

/-- `str(time)`. -/
def Time.str (t : Time) : Str :=
  dec 2 t.hour ++ 58 :: dec 2 t.minute ++ 58 :: dec 2 t.second ++
    (if t.micro = 0 then [] else 46 :: dec 6 t.micro)

/-- `str(datetime)`. -/
def DateTime.str (t : DateTime) : Str := t.date.str ++ 32 :: t.time.str

/-- `strftime("%d%m%y")`. -/
def Date.dmy (d : Date) : Str := dec 2 d.day ++ dec 2 d.month ++ dec 2 (d.year % 100)

/-- `strftime("%m%d%y")`. -/
def Date.mdy (d : Date) : Str := dec 2 d.month ++ dec 2 d.day ++ dec 2 (d.year % 100)

/-- `strftime("%d%m%Y")`; glibc does not pad `%Y`. -/
def Date.dmY (d : Date) : Str := dec 2 d.day ++ dec 2 d.month ++ natDec d.year

/-- `strftime("%H%M%S.%f")`. -/
def Time.hmsf (t : Time) : Str :=
  dec 2 t.hour ++ dec 2 t.minute ++ dec 2 t.second ++ 46 :: dec 6 t.micro

/-! ## `strptime` -/

/-- A regular-expression fragment: all matches as (value, rest of input), in the order in which
Python's `re` tries them. -/
abbrev Pat := Str → List (Nat × Str)

/-- One decimal digit (`\d`, Unicode). -/
def pDigit : Pat
  | [] => []
  | c :: r => match decimalValue c with | some d => [(d, r)] | none => []

/-- One ASCII digit in `[lo-hi]`. -/
def pRange (lo hi : Nat) : Pat
  | [] => []
  | c :: r => if 48 + lo ≤ c ∧ c ≤ 48 + hi then [(c - 48, r)] else []

/-- Sequence of two digits. -/
def pTwo (a b : Pat) : Pat := fun s =>
  (a s).flatMap fun (x, r) => (b r).map fun (y, r') => (10 * x + y, r')

/-- Alternation, in order. -/
def pAlt (l : List Pat) : Pat := fun s => l.flatMap (fun p => p s)

/-- A space, then `p`. -/
def pSpace (p : Pat) : Pat
  | 32 :: r => p r
  | _ => []

/-- `%d`: `3[0-1]|[1-2]\d|0[1-9]|[1-9]| [1-9]`. -/
def patD : Pat :=
  pAlt [pTwo (pRange 3 3) (pRange 0 1), pTwo (pRange 1 2) pDigit, pTwo (pRange 0 0) (pRange 1 9),
    pRange 1 9, pSpace (pRange 1 9)]

/-- `%m`: `1[0-2]|0[1-9]|[1-9]`. -/
def patM : Pat :=
  pAlt [pTwo (pRange 1 1) (pRange 0 2), pTwo (pRange 0 0) (pRange 1 9), pRange 1 9]

/-- `%y`: `\d\d`, mapped to 1969..2068. -/
def patY2 : Pat := fun s =>
  (pTwo pDigit pDigit s).map fun (y, r) => (if y ≤ 68 then 2000 + y else 1900 + y, r)

/-- `%Y`: `\d\d\d\d`. -/
def patY4 : Pat := fun s =>
  (pTwo pDigit pDigit s).flatMap fun (x, r) =>
    (pTwo pDigit pDigit r).map fun (y, r') => (100 * x + y, r')

/-- `%H`: `2[0-3]|[0-1]\d|\d`. -/
def patH : Pat := pAlt [pTwo (pRange 2 2) (pRange 0 3), pTwo (pRange 0 1) pDigit, pDigit]

/-- `%M`: `[0-5]\d|\d`. -/
def patMin : Pat := pAlt [pTwo (pRange 0 5) pDigit, pDigit]

/-- `%S`: `6[0-1]|[0-5]\d|\d`. -/
def patS : Pat := pAlt [pTwo (pRange 6 6) (pRange 0 1), pTwo (pRange 0 5) pDigit, pDigit]

/-- `%f`: `[0-9]{1,6}` greedy, scaled to microseconds. Only used as the last directive, so
shorter matches are never tried. -/
def patF : Pat := fun s =>
  let ds := (s.takeWhile isAsciiDigit).take 6
  if ds.isEmpty then []
  else [(ofDigits 10 (ds.map (· - 48)) * 10 ^ (6 - ds.length), s.drop ds.length)]

/-- Three directives in sequence: the first match, then end of input required. -/
def strptime3 (a b c : Pat) (s : Str) : Option (Nat × Nat × Nat) :=
  let ms := (a s).flatMap fun (x, r) => (b r).flatMap fun (y, r') => (c r').map fun (z, r'') =>
    ((x, y, z), r'')
  match ms with
  | (v, []) :: _ => some v
  | _ => none

/-- Validity check of `datetime.date(...)`. -/
def mkDate (y m d : Nat) : Option Date :=
  if Date.Valid ⟨y, m, d⟩ then some ⟨y, m, d⟩ else none

/-- `datetime.strptime(s, "%d%m%y").date()`; `none` is `ValueError`. -/
def strptimeDmy (s : Str) : Option Date :=
  (strptime3 patD patM patY2 s).bind fun (d, m, y) => mkDate y m d

/-- `datetime.strptime(s, "%m%d%y").date()`. -/
def strptimeMdy (s : Str) : Option Date :=
  (strptime3 patM patD patY2 s).bind fun (m, d, y) => mkDate y m d

/-- `datetime.strptime(s, "%d%m%Y").date()`. -/
def strptimeDmY (s : Str) : Option Date :=
  (strptime3 patD patM patY4 s).bind fun (d, m, y) => mkDate y m d

/-- Literal `.` then `p`. -/
def pDot (p : Pat) : Pat
  | 46 :: r => p r
  | _ => []

/-- `datetime.strptime(s, "%H%M%S.%f").time()`. -/
def strptimeHmsf (s : Str) : Option Time :=
  let ms := (patH s).flatMap fun (h, r) => (patMin r).flatMap fun (mi, r') =>
    (patS r').flatMap fun (sec, r'') => (pDot patF r'').map fun (us, r3) =>
      (Time.mk h mi sec us, r3)
  match ms with
  | (t, []) :: _ => if t.Valid then some t else none
  | _ => none

end Py
