import Verif.Spec.Nmea0183
import Verif.Spec.Float
/-!
# How values are written out

Specification only: what `str` makes of a Python value.
-/
namespace Spec
open Py Nmea Nmea0183

/-- The number `n` in `w` decimal digits. -/
def InDigits (w n : Nat) (s : Str) : Prop := IsDigits s ∧ s.length = w ∧ number s = n

/-- The text of a date: year in four digits, month and day in two. -/
def ShowsDate (d : Date) (s : Str) : Prop :=
  ∃ y m t, s = y ++ py!"-" ++ m ++ py!"-" ++ t ∧ InDigits 4 d.year y ∧ InDigits 2 d.month m ∧ InDigits 2 d.day t

/-- The text of a time: hours, minutes and seconds in two digits, and microseconds, if there are any, in six. -/
def ShowsTime (t : Time) (s : Str) : Prop :=
  ∃ h m x f, s = h ++ py!":" ++ m ++ py!":" ++ x ++ f ∧ InDigits 2 t.hour h ∧ InDigits 2 t.minute m ∧ InDigits 2 t.second x ∧
    ((t.micro = 0 ∧ f = []) ∨ (t.micro ≠ 0 ∧ ∃ u, f = py!"." ++ u ∧ InDigits 6 t.micro u))

/-- The text of a value. -/
inductive ShowsValue : PyVal → Str → Prop
  | none : ShowsValue .none py!"None"
  | true : ShowsValue (.bool true) py!"True"
  | false : ShowsValue (.bool false) py!"False"
  | text (s : Str) : ShowsValue (.str s) s
  | natural (n : Nat) (s : Str) : InDigits s.length n s → s ≠ [] → (s = py!"0" ∨ s.head? ≠ some 48) → ShowsValue (.int n) s
  | negative (n : Nat) (s : Str) : 0 < n → InDigits s.length n s → s.head? ≠ some 48 → ShowsValue (.int (-n)) (py!"-" ++ s)
  | float (x : PyFloat) (s : Str) : floatOfStr s = .ok x → ShowsValue (.float x) s
  | date (d : Date) (s : Str) : ShowsDate d s → ShowsValue (.date d) s
  | time (t : Time) (s : Str) : ShowsTime t s → ShowsValue (.time t) s
  | datetime (t : DateTime) (a b : Str) : ShowsDate t.date a → ShowsTime t.time b → ShowsValue (.datetime t) (a ++ py!" " ++ b)

/-- A value that exists: floats are doubles, and dates and times are in range. -/
def Exists : PyVal → Prop
  | .float x => IsDouble x
  | .date d => d.Valid
  | .time t => t.Valid
  | .datetime t => t.date.Valid ∧ t.time.Valid
  | _ => True

end Spec
