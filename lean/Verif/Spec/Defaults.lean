import Verif.Spec.Generate
/-!
# Specification: what is put into fields nobody asked for
-/
namespace Spec
open Py Nmea

/-- `Default mode t ty value field`: value and field text of an attribute of type `ty` in a message of
mode `mode` (0 output, 1 command, 2 query) made at time `t`. Texts and coordinates are empty, numbers
zero, hemispheres north and east, times and dates those of the clock, and the status of a Quectel message
is what its mode asks for. -/
inductive Default (mode : Nat) (t : DateTime) : Str → PyVal → Str → Prop
  | character : Default mode t py!"CH" (.str []) []
  | string : Default mode t py!"ST" (.str []) []
  | latitude : Default mode t py!"LA" (.str []) []
  | longitude : Default mode t py!"LN" (.str []) []
  | north : Default mode t py!"LAD" (.str py!"N") py!"N"
  | east : Default mode t py!"LND" (.str py!"E") py!"E"
  | hexadecimal : Default mode t py!"HX" (.str py!"0") py!"0"
  | decimal : Default mode t py!"DE" (.float (.fin false 0)) py!"0.0"
  | whole : Default mode t py!"IN" (.int 0) py!"0"
  | time : Default mode t py!"TM" (.time t.time)
      (dec 2 t.time.hour ++ dec 2 t.time.minute ++ dec 2 t.time.second ++ py!"." ++ dec 2 (t.time.micro / 10000))
  | date : Default mode t py!"DT" (.date t.date)
      (dec 2 t.date.day ++ dec 2 t.date.month ++ dec 2 (t.date.year % 100))
  | monthFirst : Default mode t py!"DM" (.date t.date)
      (dec 2 t.date.month ++ dec 2 t.date.day ++ dec 2 (t.date.year % 100))
  | long : Default mode t py!"DTL" (.date t.date)
      (dec 2 t.date.day ++ dec 2 t.date.month ++ natDec t.date.year)
  | answer : mode = 0 → Default mode t py!"QS" (.str py!"OK") py!"OK"
  | command : mode = 1 → Default mode t py!"QS" (.str py!"W") py!"W"
  | query : mode = 2 → Default mode t py!"QS" (.str py!"R") py!"R"

/-- No keyword determines the attribute: there is none of its name, and it is not the direction of a
coordinate that was written before it. -/
def LeftOpen (kw : List (Str × PyVal)) (pre : List Written) (name ty : Str) : Prop :=
  name ∉ kw.map Prod.fst ∧ ∀ axis negative other, directionOf ty = some (axis, negative, other) → lastValue axis pre = none

end Spec
