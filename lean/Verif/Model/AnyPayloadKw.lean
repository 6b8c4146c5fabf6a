import Verif.Model.AnyPayload
/-!
# The constructor given any payload and further keywords

`Model/AnyPayload` with the keyword arguments that are passed along (`**kwargs`). With a payload they are only looked at where
their names clash with those of parameters of private methods: `TypeError`.
-/
namespace Nmea
open Py

/-- `_get_dict_prop` and the methods it calls (/repo/src/pynmeagps/nmeamessage.py:340-364): a keyword `key` clashes with a
parameter of `_get_dict_prop`, a keyword `mode` with one of the methods for types with variants. -/
def propKeyWith (c : Ctx) (vs : List PyVal) (others : List (Str × PyVal)) (key : Str) : Except Err Str :=
  if hasKey py!"key" others then .error .type
  else if key = py!"QTMSN" then
    if hasKey py!"mode" others then .error .type
    else if c.mode = GET then
      match vs with
      | [] => .error .index
      | .str f :: _ => .ok (if isNumeric f then key ++ py!"_ALT" else key)
      | _ :: _ => .error .attribute
    else .ok key
  else if key = py!"STMDRSENMSG" then
    if hasKey py!"mode" others then .error .type
    else match vs with
      | [] => .error .index
      | v :: _ => v.toStr.map fun s => key ++ 95 :: s
  else propKey { c with kw := ⟨some (vs.map textOr), others⟩ } key

/-- `_get_dict` (/repo/src/pynmeagps/nmeamessage.py:295-338). -/
def getDictWith (c : Ctx) (vs : List PyVal) (others : List (Str × PyVal)) : Except Err (Option PDict) := do
  let key := upper (← baseKeyAny c.msgID vs)
  let found ← match c.defsource with
    | .prop => do
      let k ← propKeyWith c vs others key
      pure (lookup k (propTable c.mode))
    | .user => pure (lookup key c.udefs)
    | _ => pure (lookup key (stndTable c.mode))
  match found with
  | some d => pure (some d)
  | none => if valMsgid c.validate then .error .nmeaMessage else pure none

/-- `_do_attributes` (/repo/src/pynmeagps/nmeamessage.py:111-151): the first call of `_set_attribute` fails if a keyword has the
name of one of its parameters, or of those of `_set_attribute_group` and `_set_attribute_single`. -/
def doAttributesWith (c : Ctx) (p : Payload) (others : List (Str × PyVal)) (checksum : Option Str) :
    Except Err (Payload × Option Str × List (Str × PyVal)) :=
  wrapErr do
    match ← getDictWith c p.items others with
    | none => pure (p, checksum, nominalAny 1 p.items [])
    | some d =>
      if Kwargs.clash ⟨none, others⟩ && d.len != 0 then .error .type
      else do
        let st ← setPDictAny c p.assignable d [] { pindex := 0, payload := p.items, attrs := [] }
        let ck ← match checksum with
          | some k => pure k
          | none => do
            let fields ← textsOf st.payload
            pure (generateChecksum c.talker c.msgID fields)
        pure (p.withItems st.payload, some ck, st.attrs)

/-- `NMEAMessage(talker, msgID, msgmode, hpnmeamode, validate, userdefined, checksum, payload=p, **others)`
(/repo/src/pynmeagps/nmeamessage.py:42-109). -/
def mkMsgAnyWith (talker msgID : Str) (msgmode : Int) (hp : Bool) (validate : Nat) (udefs : UDefs) (checksum : Option Str) (p : Payload)
    (others : List (Str × PyVal)) : Except Err AnyMsg :=
  if ¬ (msgmode = 0 ∨ msgmode = 1 ∨ msgmode = 2) then .error .nmeaMessage
  else if talker ∉ NMEA_TALKERS ∧ valMsgid validate then .error .nmeaMessage
  else if sourceOf msgID udefs = .unkn ∧ valMsgid validate then .error .nmeaMessage
  else do
    let c : Ctx := { talker := talker, msgID := msgID, mode := msgmode.toNat, hp := hp, validate := validate, udefs := udefs,
                     defsource := sourceOf msgID udefs, kw := ⟨none, []⟩ }
    let (payload, ck, attrs) ← doAttributesWith c p others checksum
    pure { talker := talker, msgID := msgID, mode := c.mode, hp := hp, validate := validate, udefs := udefs,
           defsource := c.defsource, payload := payload, checksum := ck, attrs := attrs }

end Nmea
