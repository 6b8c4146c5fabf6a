import Verif.Spec.Nmea0183More
/-!
# Specification: the order of field values (C98)
-/
namespace Spec.Order
open Py Nmea Spec Spec.Nmea0183

/-- The seconds since midnight. -/
def clock (h m s : Nat) : ℚ := 3600 * h + 60 * m + s

/-- A date as the number `yyyymmdd`. -/
def calendar (d : Date) : ℚ := 10000 * d.year + 100 * d.month + d.day

/-- `Exactly kind text q`: written in a field of this kind, `text` is the number `q`, exactly (no rounding, no float): a
whole or decimal number, the seconds since midnight, the date as `yyyymmdd`, the degrees of a coordinate with
minutes below 60. -/
inductive Exactly : Kind → Str → ℚ → Prop
  | whole (negative : Bool) (ds : Str) : ds ≠ [] → IsDigits ds → ds.length ≤ 4300 →
      Exactly .whole (signText negative ++ ds) (if negative then -(number ds : ℚ) else number ds)
  | decimal (negative : Bool) (ip fp : Str) : ip ≠ [] → IsDigits ip → IsDigits fp →
      Exactly .decimal (signText negative ++ ip ++ py!"." ++ fp)
        (if negative then -((number (ip ++ fp) : ℚ) / 10 ^ fp.length) else (number (ip ++ fp) : ℚ) / 10 ^ fp.length)
  | integral (negative : Bool) (ip : Str) : ip ≠ [] → IsDigits ip →
      Exactly .decimal (signText negative ++ ip) (if negative then -(number ip : ℚ) else number ip)
  | time (h m s : Nat) : h < 24 → m < 60 → s < 60 →
      Exactly .time (dec 2 h ++ dec 2 m ++ dec 2 s) (clock h m s)
  | fraction (h m s : Nat) (frac : Str) : h < 24 → m < 60 → s < 60 → IsDigits frac → frac ≠ [] → frac.length ≤ 6 →
      Exactly .time (dec 2 h ++ dec 2 m ++ dec 2 s ++ py!"." ++ frac)
        (clock h m s + (number frac : ℚ) / 10 ^ frac.length)
  | date (d : Date) : d.Valid → 1969 ≤ d.year → d.year ≤ 2068 →
      Exactly .date (dec 2 d.day ++ dec 2 d.month ++ dec 2 (d.year % 100)) (calendar d)
  | usdate (d : Date) : d.Valid → 1969 ≤ d.year → d.year ≤ 2068 →
      Exactly .usdate (dec 2 d.month ++ dec 2 d.day ++ dec 2 (d.year % 100)) (calendar d)
  | latitude (deg min frac : Str) : IsDigits deg → IsDigits min → IsDigits frac → deg.length = 2 → min.length = 2 →
      number min < 60 →
      Exactly .latitude (deg ++ min ++ py!"." ++ frac)
        ((number deg : ℚ) + ((number min : ℚ) + (number frac : ℚ) / 10 ^ frac.length) / 60)
  | longitude (deg min frac : Str) : IsDigits deg → IsDigits min → IsDigits frac → deg.length = 3 → min.length = 2 →
      number min < 60 →
      Exactly .longitude (deg ++ min ++ py!"." ++ frac)
        ((number deg : ℚ) + ((number min : ℚ) + (number frac : ℚ) / 10 ^ frac.length) / 60)

/-- Degrees south and west count negatively, as in `oriented`. -/
def signed (kind : Kind) (next : Option Kind) (letter : Option Str) (q : ℚ) : ℚ :=
  if (kind = .latitude ∧ next = some .north ∧ letter = some py!"S") ∨
     (kind = .longitude ∧ next = some .east ∧ letter = some py!"W") then -q else q

/-- Python's `<=` of floats. -/
def FloatLe : PyFloat → PyFloat → Prop
  | .nan, _ => False
  | _, .nan => False
  | .inf true, _ => True
  | _, .inf false => True
  | .inf false, _ => False
  | _, .inf true => False
  | .fin s a, .fin t b => (if s then -a else a) ≤ (if t then -b else b)

/-- Python's `<=` of times: the first difference decides. -/
def TimeLe (a b : Time) : Prop :=
  a.hour < b.hour ∨ a.hour = b.hour ∧ (a.minute < b.minute ∨ a.minute = b.minute ∧
    (a.second < b.second ∨ a.second = b.second ∧ a.micro ≤ b.micro))

/-- Python's `<=` of dates. -/
def DateLe (a b : Date) : Prop :=
  a.year < b.year ∨ a.year = b.year ∧ (a.month < b.month ∨ a.month = b.month ∧ a.day ≤ b.day)

/-- Python's `<=` of two attributes of the same type: numbers, times of day, dates. -/
inductive AtMost : PyVal → PyVal → Prop
  | int (a b : Int) : a ≤ b → AtMost (.int a) (.int b)
  | float (a b : PyFloat) : FloatLe a b → AtMost (.float a) (.float b)
  | time (a b : Time) : TimeLe a b → AtMost (.time a) (.time b)
  | date (a b : Date) : DateLe a b → AtMost (.date a) (.date b)

/-- The standard sentences considered. -/
def Standard (i : Str) (lay : List Item) : Prop := (i, lay) ∈ sentences ∨ (i, lay) ∈ others

end Spec.Order
