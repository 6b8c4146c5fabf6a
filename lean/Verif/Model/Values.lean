import Verif.Model.Helpers
/-!
# Model of the static conversion methods of `NMEAMessage`
(/repo/src/pynmeagps/nmeamessage.py:712-838)
-/
namespace Nmea
open Py

/-- Message modes (/repo/src/pynmeagps/nmeatypes_core.py:21-26). -/
abbrev GET : Nat := 0
@[inherit_doc GET] abbrev SET : Nat := 1
@[inherit_doc GET] abbrev POLL : Nat := 2

/-- `str2val` (/repo/src/pynmeagps/nmeamessage.py:712-744). -/
def str2val (vals att : Str) : Except Err PyVal :=
  if att = CH ∨ att = ST ∨ att = LAD ∨ att = LND ∨ att = QS then .ok (.str vals)
  else if att = HX then .ok (.str vals)
  else if att = DE then
    if vals ≠ [] then (floatOfStr vals).map .float else .ok (.str vals)
  else if att = DT ∨ att = DM then .ok (date2utc vals att)
  else if att = IN then
    if vals ≠ [] then (intOfStr vals).map .int else .ok (.str vals)
  else if att = LA ∨ att = LN then dmm2ddd vals
  else if att = TM then .ok (time2utc vals)
  else .error .nmeaType

/-- `val2str` (/repo/src/pynmeagps/nmeamessage.py:746-799). -/
def val2str (val : PyVal) (att : Str) (hp : Bool) : Except Err Str :=
  if att = CH ∨ att = ST ∨ att = LAD ∨ att = LND ∨ att = QS then val.toStr
  else if att = HX then val.toStr
  else if att = DE then val.toStr
  else if att = IN then val.toStr
  else if att = LA ∨ att = LN then ddd2dmm val att hp
  else if att = TM then
    match val with
    | .str s => .ok (removeChar 58 s)
    | v => .ok (time2str v)
  else if att = DT then
    match val with
    | .str s =>
      let v := removeChar 45 s
      .ok (slice v 6 8 ++ slice v 4 6 ++ slice v 2 4)
    | v => .ok (date2str v att)
  else if att = DTL then
    match val with
    | .str s =>
      let v := removeChar 45 s
      .ok (slice v 6 8 ++ slice v 4 6 ++ slice v 0 4)
    | v => .ok (date2str v att)
  else if att = DM then
    match val with
    | .str s =>
      let v := removeChar 45 s
      .ok (slice v 4 6 ++ slice v 6 8 ++ slice v 2 4)
    | v => .ok (date2str v att)
  else .error .nmeaType

/-- `nomval` (/repo/src/pynmeagps/nmeamessage.py:801-838); `now` is the result of
`datetime.now(timezone.utc)` (the time zone is dropped by `.time()` / `.date()`). -/
def nomval (att : Str) (msgmode : Nat) (now : DateTime) : Except Err PyVal :=
  if att = CH ∨ att = ST ∨ att = LA ∨ att = LN then .ok (.str [])
  else if att = LAD then .ok (.str py!"N")
  else if att = LND then .ok (.str py!"E")
  else if att = HX then .ok (.str py!"0")
  else if att = DE then .ok (.float (.fin false 0))
  else if att = IN then .ok (.int 0)
  else if att = TM then .ok (.time now.time)
  else if att = DT ∨ att = DTL ∨ att = DM then .ok (.date now.date)
  else if att = QS then
    .ok (.str (if msgmode = POLL then py!"R" else if msgmode = SET then py!"W" else py!"OK"))
  else .error .nmeaType

/-- Whether `nomval` reads the clock for this type (nmeamessage.py:824-827). -/
def usesClock (att : Str) : Bool := att == TM || att == DT || att == DTL || att == DM

/-- `abs(v)` for a number (nmeamessage.py:277, 280); other values are not used. -/
def PyVal.absV : PyVal → PyVal
  | .bool b => .int (if b then 1 else 0)
  | .int i => .int i.natAbs
  | .float x => .float x.abs
  | v => v

/-- `-v` for a number (nmeamessage.py:277, 280). -/
def PyVal.negV : PyVal → PyVal
  | .bool b => .int (if b then -1 else 0)
  | .int i => .int (-i)
  | .float x => .float x.neg
  | v => v

/-- `v < 0` for a number (nmeamessage.py:252, 257). -/
def PyVal.ltZero : PyVal → Bool
  | .int i => decide (i < 0)
  | .float x => x.ltZero
  | _ => false

end Nmea
