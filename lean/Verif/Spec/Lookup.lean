import Verif.Spec.Layout
/-!
# Specification: which payload definition a received sentence uses
-/
namespace Spec
open Py Nmea

/-- The message id is a standard one. -/
def IsStandard (msgid : Str) : Prop := msgid ∈ NMEA_MSGIDS.map Prod.fst

/-- The message id is a proprietary one: listed, or one of the prefixes whose first field extends
the id. -/
def IsProprietary (msgid : Str) : Prop :=
  msgid ∈ NMEA_MSGIDS_PROP.map Prod.fst ∨ msgid ∈ NMEA_PREFIX_PROP

/-- The message id is defined by the user. -/
def IsUserDefined (u : UDefs) (msgid : Str) : Prop := msgid ∈ u.map Prod.fst

/-- The message id is known from any source. -/
def Recognised (u : UDefs) (msgid : Str) : Prop :=
  IsStandard msgid ∨ IsProprietary msgid ∨ IsUserDefined u msgid

instance (m : Str) : Decidable (IsStandard m) := by unfold IsStandard; infer_instance
instance (m : Str) : Decidable (IsProprietary m) := by unfold IsProprietary; infer_instance
instance (u : UDefs) (m : Str) : Decidable (IsUserDefined u m) := by
  unfold IsUserDefined; infer_instance
instance (u : UDefs) (m : Str) : Decidable (Recognised u m) := by unfold Recognised; infer_instance

/-- Definitions of standard sentences for a mode (0 = GET, 1 = SET, 2 = POLL). -/
def standardDefs (mode : Nat) : List (Str × PDict) :=
  match mode with
  | 2 => NMEA_PAYLOADS_POLL
  | 1 => NMEA_PAYLOADS_SET
  | _ => NMEA_PAYLOADS_GET

/-- Definitions of proprietary sentences for a mode. -/
def proprietaryDefs (mode : Nat) : List (Str × PDict) :=
  match mode with
  | 2 => NMEA_PAYLOADS_POLL_PROP
  | 1 => NMEA_PAYLOADS_SET_PROP
  | _ => NMEA_PAYLOADS_GET_PROP

/-- Sentence types with several layouts, told apart by the number of fields:
(mode, id, number of fields) and the suffix of the layout's name. -/
def layouts : List ((Nat × Str × Nat) × Str) :=
  [((1, py!"QTMCFGUART", 2), py!"_CURRBAUD"), ((1, py!"QTMCFGUART", 3), py!"_BAUD"),
   ((1, py!"QTMCFGUART", 6), py!"_CURR"), ((2, py!"QTMCFGUART", 1), py!"_CURR"),
   ((0, py!"QTMCFGMSGRATE", 3), py!"_NOVER"), ((0, py!"QTMCFGMSGRATE", 5), py!"_INTFNOVER"),
   ((0, py!"QTMCFGMSGRATE", 6), py!"_INTF"),
   ((1, py!"QTMCFGMSGRATE", 3), py!"_NOVER"), ((1, py!"QTMCFGMSGRATE", 5), py!"_INTFNOVER"),
   ((1, py!"QTMCFGMSGRATE", 6), py!"_INTF"),
   ((2, py!"QTMCFGMSGRATE", 2), py!"_NOVER"), ((2, py!"QTMCFGMSGRATE", 4), py!"_INTFNOVER"),
   ((2, py!"QTMCFGMSGRATE", 5), py!"_INTF"),
   ((1, py!"QTMCFGPPS", 3), py!"_DIS"),
   ((0, py!"QTMCFGSAT", 4), py!"_LOW"), ((1, py!"QTMCFGSAT", 4), py!"_LOW"),
   ((0, py!"QTMCFGGEOFENCE", 13), py!"_POLY"), ((1, py!"QTMCFGGEOFENCE", 13), py!"_POLY"),
   ((1, py!"QTMCFGGEOFENCE", 3), py!"_DIS")]

/-- Types that have no generic acknowledgement. -/
def noAck : List Str := [py!"QTMCFGUART", py!"QTMCFGMSGRATE", py!"QTMCFGPPS"]

/-- The generic acknowledgements `OK` and `ERROR,<code>`. -/
def ackName (key : Str) (fields : List Str) : Str :=
  if fields = [py!"OK"] then py!"QTMACK"
  else if fields.length = 2 ∧ fields.head? = some py!"ERROR" then py!"QTMNAK"
  else key

/-- The proprietary types of which several layouts exist and whose layout is selected by a routine with a
parameter of its own named `mode` (/repo/src/pynmeagps/nmeamessage.py:350-363). -/
def variantIds : List Str :=
  [py!"QTMCFGGEOFENCE", py!"QTMCFGMSGRATE", py!"QTMCFGPPS", py!"QTMCFGSAT", py!"QTMCFGUART", py!"QTMSN",
   py!"STMDRSENMSG"]

/-- The name of the proprietary layout used for a sentence with id `key` and the given fields. -/
def layoutName (mode : Nat) (key : Str) (fields : List Str) : Except Err Str :=
  if key = py!"QTMSN" ∧ mode = 0 then
    match fields with
    | [] => .error .index
    | f :: _ => .ok (if isNumeric f then py!"QTMSN_ALT" else py!"QTMSN")
  else if key = py!"STMDRSENMSG" then
    match fields with
    | [] => .error .index
    | f :: _ => .ok (py!"STMDRSENMSG_" ++ f)
  else match layouts.lookup (mode, key, fields.length) with
    | some sfx => .ok (key ++ sfx)
    | none =>
      .ok (if mode = 0 ∧ key.take 3 = py!"QTM" ∧ key ∉ noAck then ackName key fields else key)

/-- The full id of a sentence: proprietary prefixes are extended by the first field (except a
PASHR sentence whose first field has a digit as second character). -/
def fullId (msgid : Str) (fields : List Str) : Except Err Str :=
  if msgid ∈ NMEA_PREFIX_PROP then
    match fields with
    | [] => .error .index
    | f :: _ =>
      if msgid = py!"ASHR" then
        match f with
        | _ :: ch :: _ => .ok (if isDigitChar ch then msgid else msgid ++ f)
        | _ => .error .index
      else .ok (msgid ++ f)
  else .ok msgid

/-- The payload definition used for a received sentence; `ok none` when there is none. -/
def definitionFor (mode : Nat) (u : UDefs) (msgid : Str) (fields : List Str) :
    Except Err (Option PDict) :=
  match fullId msgid fields with
  | .error e => .error e
  | .ok id =>
    if IsStandard msgid then .ok (lookup (upper id) (standardDefs mode))
    else if IsProprietary msgid then
      match layoutName mode (upper id) fields with
      | .error e => .error e
      | .ok name => .ok (lookup name (proprietaryDefs mode))
    else if IsUserDefined u msgid then .ok (lookup (upper id) u)
    else .ok (lookup (upper id) (standardDefs mode))

/-- Sentences whose layout cannot be determined because a field the layout depends on is missing or
too short. -/
def IndexEscape (mode : Nat) (msgid : Str) (fields : List Str) : Prop :=
  (msgid ∈ NMEA_PREFIX_PROP ∧ fields = []) ∨
  (msgid = py!"ASHR" ∧ ∃ f r, fields = f :: r ∧ f.length < 2) ∨
  (msgid = py!"QTMSN" ∧ mode = 0 ∧ fields = []) ∨
  (msgid = py!"STMDRSENMSG" ∧ fields = [])

end Spec
