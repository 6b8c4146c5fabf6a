import Verif.Py.Float
import Verif.Py.DateTime
/-!
# Data types of the model: attribute values and payload definitions
-/
namespace Nmea
open Py

/-- Attribute type codes (/repo/src/pynmeagps/nmeatypes_core.py:98-111). -/
abbrev CH : Str := py!"CH"
@[inherit_doc CH] abbrev DE : Str := py!"DE"
@[inherit_doc CH] abbrev DT : Str := py!"DT"
@[inherit_doc CH] abbrev DTL : Str := py!"DTL"
@[inherit_doc CH] abbrev DM : Str := py!"DM"
@[inherit_doc CH] abbrev HX : Str := py!"HX"
@[inherit_doc CH] abbrev IN : Str := py!"IN"
@[inherit_doc CH] abbrev LA : Str := py!"LA"
@[inherit_doc CH] abbrev LAD : Str := py!"LAD"
@[inherit_doc CH] abbrev LN : Str := py!"LN"
@[inherit_doc CH] abbrev LND : Str := py!"LND"
@[inherit_doc CH] abbrev QS : Str := py!"QS"
@[inherit_doc CH] abbrev ST : Str := py!"ST"
@[inherit_doc CH] abbrev TM : Str := py!"TM"

/-- The number of repeats of a group in a payload definition: first component of the tuple
handled in /repo/src/pynmeagps/nmeamessage.py:191-205 (an `int`, the text `"None"`, or the name
of an attribute). -/
inductive Rep where
  | fixed (n : Int)
  | indet
  | named (k : Str)
  deriving DecidableEq

/-- A payload definition dictionary in insertion order: each key is bound to a type code or to a
tuple (repeats, nested dictionary)
(/repo/src/pynmeagps/nmeamessage.py:166-174, 191; tables in nmeatypes_*.py). -/
inductive PDict where
  | nil
  | single (key ty : Str) (rest : PDict)
  | group (key : Str) (rep : Rep) (body : PDict) (rest : PDict)
  deriving DecidableEq

/-- `len(d)` of a definition dictionary. -/
def PDict.len : PDict → Nat
  | .nil => 0
  | .single _ _ r => r.len + 1
  | .group _ _ _ r => r.len + 1

/-- Python values that occur as attribute values or keyword arguments. Other Python objects
are not modelled. -/
inductive PyVal where
  | none
  | bool (b : Bool)
  | int (i : Int)
  | float (x : PyFloat)
  | str (s : Str)
  | date (d : Date)
  | time (t : Time)
  | datetime (t : DateTime)
  deriving DecidableEq

/-- `str(v)`. -/
def PyVal.toStr : PyVal → Except Err Str
  | .none => .ok py!"None"
  | .bool b => .ok (if b then py!"True" else py!"False")
  | .int i => strOfInt i
  | .float x => .ok (reprFloat x)
  | .str s => .ok s
  | .date d => .ok d.str
  | .time t => .ok t.str
  | .datetime t => .ok t.str

/-- `v == 0`. -/
def PyVal.eqZero : PyVal → Bool
  | .bool b => !b
  | .int i => i == 0
  | .float x => x.isZero
  | _ => false

end Nmea
