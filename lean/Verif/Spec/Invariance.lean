import Verif.Spec.Generate
/-!
# Specification: when two messages, or two results of `parse`, are the same to the user
-/
namespace Spec
open Py Nmea

/-- The two messages cannot be told apart: same header, mode, payload, checksum, attributes, printed
form and wire form. -/
structure SameMessage (a b : Msg) : Prop where
  talker : a.talker = b.talker
  msgID : a.msgID = b.msgID
  mode : a.mode = b.mode
  payload : a.payload = b.payload
  checksum : a.checksum = b.checksum
  attrs : a.attrs = b.attrs
  str : a.str = b.str
  serialize : a.serialize = b.serialize

/-- The two calls of `parse` had the same outcome. -/
inductive SameResult : Except Err (Option Msg) → Except Err (Option Msg) → Prop
  | error (e : Err) : SameResult (.error e) (.error e)
  | none : SameResult (.ok none) (.ok none)
  | msg (a b : Msg) : SameMessage a b → SameResult (.ok (some a)) (.ok (some b))

/-- Two dictionaries of user definitions treat the message id `i` alike: it is built in, or defined in
both or neither, with the same definition. -/
def AgreeOn (u u' : UDefs) (i : Str) : Prop :=
  IsStandard i ∨ IsProprietary i ∨
    ((IsUserDefined u i ↔ IsUserDefined u' i) ∧ lookup (upper i) u = lookup (upper i) u')

/-- Every validation flag of `v` is also set in `v'`. -/
def LessStrict (v v' : Nat) : Prop := (ValCksum v → ValCksum v') ∧ (ValMsgid v → ValMsgid v')

/-- Suffixes of attributes inside (nested) groups: `""`, `_01`, `_02`, `_01_01`, ... -/
inductive GroupSfx : Str → Prop
  | nil : GroupSfx []
  | snoc (s : Str) (n : Nat) : GroupSfx s → GroupSfx (s ++ groupSuffix n)

/-- Keywords that select among the variants of a sentence type. -/
def selectorNames : List Str :=
  [py!"msgId", py!"portid", py!"baudrate", py!"databit", py!"porttype", py!"msgver", py!"enable",
   py!"maskhigh", py!"lon1", py!"geofencemode", py!"msgtype"]

/-- The definition has a group repeated as often as the keyword names say. -/
def HasIndet : PDict → Bool
  | .nil => false
  | .single _ _ r => HasIndet r
  | .group _ rep b r => rep == .indet || HasIndet b || HasIndet r

end Spec
