import Verif.Model.Message
/-!
# Model of the constructor with a payload that is not a list of texts

`NMEAMessage(talker, msgID, mode, payload=...)` when the payload is a list or tuple of any values of `PyVal`, or one text. Everything
else is as in `Model/Message`; that the two agree on lists of texts is proved (C102). The payload is the only keyword.
-/
namespace Nmea
open Py

/-- The `payload` keyword (/repo/src/pynmeagps/nmeamessage.py:106, 125). -/
inductive Payload where
  | list (vs : List PyVal)
  | tuple (vs : List PyVal)
  | text (s : Str)
  deriving DecidableEq

/-- The items of the payload, as `payload[i]`, `len(payload)` and `for field in payload` see them: those of a text are its
characters. -/
def Payload.items : Payload → List PyVal
  | .list vs => vs
  | .tuple vs => vs
  | .text s => s.map fun c => .str [c]

/-- `payload[i] = v` is allowed for lists only (/repo/src/pynmeagps/nmeamessage.py:243): otherwise `TypeError`. -/
def Payload.assignable : Payload → Bool
  | .list _ => true
  | _ => false

/-- The payload after assignments to its items. -/
def Payload.withItems (p : Payload) (vs : List PyVal) : Payload :=
  match p with
  | .list _ => .list vs
  | p => p

/-- `float(v)` for an object that is not a text. -/
def floatOfVal : PyVal → Except Err PyFloat
  | .bool b => .ok (.fin false (if b then 1 else 0))
  | .int i => PyFloat.ofInt i
  | .float x => .ok x
  | _ => .error .type

/-- `int(v)` for an object that is not a text. -/
def intOfVal : PyVal → Except Err Int
  | .bool b => .ok (if b then 1 else 0)
  | .int i => .ok i
  | .float x => x.toInt
  | _ => .error .type

/-- `str2val` (/repo/src/pynmeagps/nmeamessage.py:712-744) for any object. `date2utc` and `time2utc` return `""` because `strptime`
and `len` raise `TypeError` (/repo/src/pynmeagps/nmeahelpers.py:175-185, 725-731); in `dmm2ddd`, `pos.find` raises an
`AttributeError`, which it does not catch (/repo/src/pynmeagps/nmeahelpers.py:283-291). -/
def str2valAny (v : PyVal) (att : Str) : Except Err PyVal :=
  match v with
  | .str s => str2val s att
  | v =>
    if att = CH ∨ att = ST ∨ att = LAD ∨ att = LND ∨ att = QS then .ok v
    else if att = HX then .ok v
    else if att = DE then (floatOfVal v).map .float
    else if att = DT ∨ att = DM then .ok (.str [])
    else if att = IN then (intOfVal v).map .int
    else if att = LA ∨ att = LN then .error .attribute
    else if att = TM then .ok (.str [])
    else .error .nmeaType

/-- The text of an item; another object is given as the empty text, which like it is different from `"OK"` and `"ERROR"`. -/
def textOr : PyVal → Str
  | .str s => s
  | _ => []

/-- The key before upper-casing (/repo/src/pynmeagps/nmeamessage.py:306-318): only texts can be indexed, and added to a text. -/
def baseKeyAny (msgID : Str) (vs : List PyVal) : Except Err Str :=
  if msgID ∈ NMEA_PREFIX_PROP then
    match vs with
    | [] => .error .index
    | .str f :: _ =>
      if msgID = py!"ASHR" then
        match f with
        | _ :: ch :: _ => .ok (if isDigitChar ch then msgID else msgID ++ f)
        | _ => .error .index
      else .ok (msgID ++ f)
    | _ :: _ => .error .type
  else .ok msgID

/-- `_get_dict_prop` (/repo/src/pynmeagps/nmeamessage.py:340-364). `_get_dict_qtmsn` calls `isnumeric` of the first item (511);
`_get_dict_stmdrsenmsg` formats it (535); the other variants use the length, and compare the first item with texts (550-554). -/
def propKeyAny (c : Ctx) (vs : List PyVal) (key : Str) : Except Err Str :=
  if key = py!"QTMSN" then
    if c.mode = GET then
      match vs with
      | [] => .error .index
      | .str f :: _ => .ok (if isNumeric f then key ++ py!"_ALT" else key)
      | _ :: _ => .error .attribute
    else .ok key
  else if key = py!"STMDRSENMSG" then
    match vs with
    | [] => .error .index
    | v :: _ => v.toStr.map fun s => key ++ 95 :: s
  else propKey { c with kw := ⟨some (vs.map textOr), []⟩ } key

/-- The lookup in `_get_dict` (/repo/src/pynmeagps/nmeamessage.py:303-330), as `findDict`. -/
def findDictAny (c : Ctx) (vs : List PyVal) : Except Err (Option PDict) := do
  let key := upper (← baseKeyAny c.msgID vs)
  match c.defsource with
  | .prop => do
    let k ← propKeyAny c vs key
    pure (lookup k (propTable c.mode))
  | .user => pure (lookup key c.udefs)
  | _ => pure (lookup key (stndTable c.mode))

/-- `_get_dict` (/repo/src/pynmeagps/nmeamessage.py:295-338). -/
def getDictAny (c : Ctx) (vs : List PyVal) : Except Err (Option PDict) := do
  match ← findDictAny c vs with
  | some d => pure (some d)
  | none => if valMsgid c.validate then .error .nmeaMessage else pure none

/-- The changing part of the object during attribute processing. -/
structure AnySt where
  pindex : Nat
  payload : List PyVal
  attrs : List (Str × PyVal)
  deriving DecidableEq

/-- `payload[i] = v`. -/
def setItem : List PyVal → Nat → PyVal → List PyVal
  | [], _, _ => []
  | _ :: r, 0, v => v :: r
  | x :: r, n + 1, v => x :: setItem r n v

/-- Removing the brackets (/repo/src/pynmeagps/nmeamessage.py:242-245): `replace` of something else than a text fails, and so does
the assignment if the payload is not a list. -/
def unbracket (assignable : Bool) (ident : Str) (raw : PyVal) (payload : List PyVal) (i : Nat) : Except Err (PyVal × List PyVal) :=
  if ident = py!"PSSNSNC" then
    match raw with
    | .str s => if assignable then .ok (.str (stripBrackets s), setItem payload i (.str (stripBrackets s))) else .error .type
    | _ => .error .attribute
  else .ok (raw, payload)

/-- `_set_attribute_single` (/repo/src/pynmeagps/nmeamessage.py:217-283, branches 240-247 and 271-283). -/
def setSingleAny (c : Ctx) (assignable : Bool) (key ty : Str) (gindex : List Nat) (st : AnySt) : Except Err AnySt := do
  let ident ← identityOf c.talker c.msgID st.attrs
  match st.payload[st.pindex]? with
  | none => pure st
  | some raw =>
    let (fld, payload) ← unbracket assignable ident raw st.payload st.pindex
    if shadowed st.attrs py!"str2val" then .error .type
    else do
      let val ← str2valAny fld ty
      let attrs ← setAttr st.attrs (suffixed key gindex) val
      pure { pindex := st.pindex + 1, payload := payload, attrs := signOverride ty val attrs }

/-- Number of repeats of a group (/repo/src/pynmeagps/nmeamessage.py:191-205, 557-573), as `repCount`. -/
def repCountAny (c : Ctx) (rep : Rep) (body : PDict) (st : AnySt) : Except Err Int :=
  match rep with
  | .fixed n => .ok n
  | .indet => if body.len = 0 then .error .zeroDivision else .ok ((st.payload.length - st.pindex) / body.len : Nat)
  | .named k => getCount c st.attrs k

/-- `_set_attribute` and `_set_attribute_group` over all keys of a definition
(/repo/src/pynmeagps/nmeamessage.py:131-134, 153-215). -/
def setPDictAny (c : Ctx) (assignable : Bool) : PDict → List Nat → AnySt → Except Err AnySt
  | .nil, _, st => .ok st
  | .single key ty rest, gindex, st => do
    let st ← setSingleAny c assignable key ty gindex st
    setPDictAny c assignable rest gindex st
  | .group _ rep body rest, gindex, st => do
    let n ← repCountAny c rep body st
    let st ← loopFrom (fun i st => setPDictAny c assignable body (gindex ++ [i]) st) n.toNat 1 st
    setPDictAny c assignable rest gindex st

/-- `_set_attribute_nominal` (/repo/src/pynmeagps/nmeamessage.py:285-293). -/
def nominalAny : Nat → List PyVal → List (Str × PyVal) → List (Str × PyVal)
  | _, [], attrs => attrs
  | i, f :: fs, attrs => nominalAny (i + 1) fs (Py.insert (py!"field_" ++ fmt02d i) f attrs)

/-- `str` of each item. -/
def textsOf : List PyVal → Except Err (List Str)
  | [] => .ok []
  | v :: r => do
    let s ← v.toStr
    let t ← textsOf r
    pure (s :: t)

/-- A message whose payload may be anything. -/
structure AnyMsg where
  talker : Str
  msgID : Str
  mode : Nat
  hp : Bool
  validate : Nat
  udefs : UDefs
  defsource : DefSource
  payload : Payload
  checksum : Option Str
  attrs : List (Str × PyVal)
  deriving DecidableEq

/-- `_do_attributes` (/repo/src/pynmeagps/nmeamessage.py:111-151). `generate_checksum` formats each item with `f",{field}"`
(/repo/src/pynmeagps/nmeahelpers.py:420-422). -/
def doAttributesAny (c : Ctx) (p : Payload) (checksum : Option Str) : Except Err (Payload × Option Str × List (Str × PyVal)) :=
  wrapErr do
    match ← getDictAny c p.items with
    | none => pure (p, checksum, nominalAny 1 p.items [])
    | some d => do
      let st ← setPDictAny c p.assignable d [] { pindex := 0, payload := p.items, attrs := [] }
      let ck ← match checksum with
        | some k => pure k
        | none => do
          let fields ← textsOf st.payload
          pure (generateChecksum c.talker c.msgID fields)
      pure (p.withItems st.payload, some ck, st.attrs)

/-- The constructor (/repo/src/pynmeagps/nmeamessage.py:42-109) with the keyword `payload` alone. -/
def mkMsgAny (talker msgID : Str) (msgmode : Int) (hp : Bool) (validate : Nat) (udefs : UDefs) (checksum : Option Str) (p : Payload) :
    Except Err AnyMsg :=
  if ¬ (msgmode = 0 ∨ msgmode = 1 ∨ msgmode = 2) then .error .nmeaMessage
  else if talker ∉ NMEA_TALKERS ∧ valMsgid validate then .error .nmeaMessage
  else if sourceOf msgID udefs = .unkn ∧ valMsgid validate then .error .nmeaMessage
  else do
    let c : Ctx := { talker := talker, msgID := msgID, mode := msgmode.toNat, hp := hp, validate := validate, udefs := udefs,
                     defsource := sourceOf msgID udefs, kw := ⟨none, []⟩ }
    let (payload, ck, attrs) ← doAttributesAny c p checksum
    pure { talker := talker, msgID := msgID, mode := c.mode, hp := hp, validate := validate, udefs := udefs,
           defsource := c.defsource, payload := payload, checksum := ck, attrs := attrs }

/-- The loop of `serialize` (/repo/src/pynmeagps/nmeamessage.py:633-634): `"," + att` is a `TypeError` unless `att` is a text. -/
def addItems : List PyVal → Str → Except Err Str
  | [], out => .ok out
  | .str f :: r, out => addItems r (out ++ 44 :: f)
  | _ :: _, _ => .error .type

/-- `serialize` (/repo/src/pynmeagps/nmeamessage.py:624-636). -/
def AnyMsg.serialize (m : AnyMsg) : Except Err Bytes := do
  let out ← addItems m.payload.items (36 :: (m.talker ++ m.msgID))
  utf8Encode (out ++ 42 :: (m.checksum.getD py!"None" ++ [13, 10]))

end Nmea
