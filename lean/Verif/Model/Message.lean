import Verif.Model.Values
import Verif.Model.TablesGet
import Verif.Model.TablesGetProp
import Verif.Model.TablesPoll
import Verif.Model.TablesPollProp
import Verif.Model.TablesSet
import Verif.Model.TablesSetProp
/-!
# Model of class `NMEAMessage` (/repo/src/pynmeagps/nmeamessage.py)

The object under construction is split into a context that no longer changes once attribute
processing starts (`Ctx`) and the part that does (`St`). Attribute names beginning with an
underscore in user-defined dictionaries (which would overwrite private state) are not modelled.
-/
namespace Nmea
open Py

/-- `_defsource` (/repo/src/pynmeagps/nmeatypes_core.py:47-54; nmeamessage.py:83-96). -/
inductive DefSource where
  | stnd | prop | user | unkn
  deriving DecidableEq, Repr

/-- User-defined payload definitions (`None` is the empty dictionary, nmeamessage.py:73). -/
abbrev UDefs := List (Str × PDict)

/-- Keyword arguments of the constructor: the special `payload` keyword and all others in
keyword order (nmeamessage.py:51). `payload` is a list of strings. -/
structure Kwargs where
  payload : Option (List Str)
  others : List (Str × PyVal)
  deriving DecidableEq

/-- `name in kwargs`. -/
def Kwargs.has (kw : Kwargs) (name : Str) : Bool := hasKey name kw.others

/-- `kwargs.get(name, dflt)`. -/
def Kwargs.get (kw : Kwargs) (name : Str) (dflt : PyVal) : PyVal := (lookup name kw.others).getD dflt

/-- `VALCKSUM` bit test (nmeatypes_core.py:29-34; nmeareader.py:264). -/
def valCksum (v : Nat) : Bool := v &&& 1 != 0

/-- `VALMSGID` bit test (nmeatypes_core.py:29-34; nmeamessage.py:80). -/
def valMsgid (v : Nat) : Bool := v &&& 2 != 0

/-- The fields of the object fixed before attribute processing (nmeamessage.py:71-107). -/
structure Ctx where
  talker : Str
  msgID : Str
  mode : Nat
  hp : Bool
  validate : Nat
  udefs : UDefs
  defsource : DefSource
  kw : Kwargs

/-- `_streaming` (nmeamessage.py:106). -/
def Ctx.streaming (c : Ctx) : Bool := c.kw.payload.isSome

/-- `_payload` as initialised at nmeamessage.py:125. -/
def Ctx.payload0 (c : Ctx) : List Str := c.kw.payload.getD []

/-- The changing part of the object during attribute processing: payload index, payload,
public attributes in `__dict__` order, and the number of clock readings so far. -/
structure St where
  pindex : Nat
  payload : List Str
  attrs : List (Str × PyVal)
  tick : Nat
  deriving DecidableEq

/-! ## Attribute access -/

/-- Read-only properties of the class (nmeamessage.py:638-710): `setattr` raises
`AttributeError`. -/
def propertyNames : List Str :=
  [py!"identity", py!"talker", py!"msgID", py!"msgmode", py!"payload", py!"checksum"]

/-- `setattr(self, name, val)` during initialisation (nmeamessage.py:608-622). -/
def setAttr (attrs : List (Str × PyVal)) (name : Str) (val : PyVal) :
    Except Err (List (Str × PyVal)) :=
  if name ∈ propertyNames then .error .attribute else .ok (Py.insert name val attrs)

/-- `getattr(self, name)` as used for a repeat count (nmeamessage.py:205), followed by
`range(...)` (nmeamessage.py:208): only integers are accepted. `msgmode` is the one property with
an integer value. -/
def getCount (c : Ctx) (attrs : List (Str × PyVal)) (name : Str) : Except Err Int :=
  if name = py!"msgmode" then .ok c.mode
  else if name ∈ propertyNames then .error .type
  else match lookup name attrs with
    | none => .error .attribute
    | some (.int i) => .ok i
    | some (.bool b) => .ok (if b then 1 else 0)
    | some _ => .error .type

/-- `identity` (/repo/src/pynmeagps/nmeamessage.py:638-655). -/
def identityOf (talker msgID : Str) (attrs : List (Str × PyVal)) : Except Err Str :=
  if talker = py!"P" ∧ msgID ∈ NMEA_PREFIX_PROP then
    match lookup py!"msgId" attrs with
    | some (.str s) => .ok (talker ++ msgID ++ s)
    | some _ => .error .type
    | none => .ok (talker ++ msgID)
  else .ok (talker ++ msgID)

/-! ## Payload definition lookup -/

/-- `payload[0]`. -/
def payload0 (p : List Str) : Except Err Str :=
  match p with
  | [] => .error .index
  | f :: _ => .ok f

/-- `_get_dict_qtmacknak` (/repo/src/pynmeagps/nmeamessage.py:538-555). -/
def qtmAckNak (c : Ctx) (key : Str) : Str :=
  if c.mode = GET then
    match c.payload0 with
    | [f] => if f = py!"OK" then py!"QTMACK" else key
    | [f, _] => if f = py!"ERROR" then py!"QTMNAK" else key
    | _ => key
  else key

/-- `_get_dict_qtmcfguart` (/repo/src/pynmeagps/nmeamessage.py:372-398). -/
def qtmCfgUart (c : Ctx) (key : Str) : Str :=
  let lp := c.payload0.length
  let py := c.streaming
  let pt := c.kw.has py!"portid"
  if c.mode = SET then
    let bd := c.kw.has py!"baudrate"
    let db := c.kw.has py!"databit"
    if (py && lp == 2) || (!py && !pt && bd && !db) then key ++ py!"_CURRBAUD"
    else if (py && lp == 3) || (!py && pt && bd && !db) then key ++ py!"_BAUD"
    else if (py && lp == 6) || (!py && !pt && bd && db) then key ++ py!"_CURR"
    else key
  else if c.mode = POLL then
    if (py && lp == 1) || (!py && !pt) then key ++ py!"_CURR" else key
  else key

/-- `_get_dict_qtmcfgmsgrate` (/repo/src/pynmeagps/nmeamessage.py:400-429). -/
def qtmCfgMsgRate (c : Ctx) (key : Str) : Str :=
  let lp := c.payload0.length
  let py := c.streaming
  let mv := c.kw.has py!"msgver"
  let pt := c.kw.has py!"porttype"
  if c.mode = SET ∨ c.mode = GET then
    if (py && lp == 3) || (!py && !pt && !mv) then key ++ py!"_NOVER"
    else if (py && lp == 5) || (!py && pt && !mv) then key ++ py!"_INTFNOVER"
    else if (py && lp == 6) || (!py && pt && mv) then key ++ py!"_INTF"
    else key
  else if c.mode = POLL then
    if (py && lp == 2) || (!py && !pt && !mv) then key ++ py!"_NOVER"
    else if (py && lp == 4) || (!py && pt && !mv) then key ++ py!"_INTFNOVER"
    else if (py && lp == 5) || (!py && pt && mv) then key ++ py!"_INTF"
    else key
  else key

/-- `_get_dict_qtmcfgpps` (/repo/src/pynmeagps/nmeamessage.py:431-447). -/
def qtmCfgPps (c : Ctx) (key : Str) : Str :=
  let lp := c.payload0.length
  let py := c.streaming
  if c.mode = SET then
    if (py && lp == 3) || (!py && (c.kw.get py!"enable" (.int 1)).eqZero) then key ++ py!"_DIS"
    else key
  else key

/-- `_get_dict_qtmcfgsat` (/repo/src/pynmeagps/nmeamessage.py:449-471). -/
def qtmCfgSat (c : Ctx) (key : Str) : Str :=
  let lp := c.payload0.length
  let py := c.streaming
  let mh := c.kw.has py!"maskhigh"
  if c.mode = SET then
    if (py && lp == 4) || (!py && !mh) then key ++ py!"_LOW" else key
  else if c.mode = GET then
    if (py && lp == 4) || (!py && !mh) then key ++ py!"_LOW"
    else if lp = 1 ∨ lp = 2 then qtmAckNak c key
    else key
  else key

/-- `_get_dict_qtmcfggeofence` (/repo/src/pynmeagps/nmeamessage.py:473-497). -/
def qtmCfgGeofence (c : Ctx) (key : Str) : Str :=
  let lp := c.payload0.length
  let py := c.streaming
  let l1 := c.kw.has py!"lon1"
  if c.mode = SET then
    if (py && lp == 13) || (!py && l1) then key ++ py!"_POLY"
    else if (py && lp == 3) || (!py && (c.kw.get py!"geofencemode" (.int 1)).eqZero) then
      key ++ py!"_DIS"
    else key
  else if c.mode = GET then
    if (py && lp == 13) || (!py && l1) then key ++ py!"_POLY"
    else if lp = 1 ∨ lp = 2 then qtmAckNak c key
    else key
  else key

/-- `_get_dict_qtmsn` (/repo/src/pynmeagps/nmeamessage.py:499-514). -/
def qtmSn (c : Ctx) (key : Str) : Except Err Str :=
  if c.mode = GET ∧ c.streaming then do
    let f ← payload0 c.payload0
    pure (if isNumeric f then key ++ py!"_ALT" else key)
  else .ok key

/-- `_get_dict_stmdrsenmsg` (/repo/src/pynmeagps/nmeamessage.py:516-536). -/
def stmDrSenMsg (c : Ctx) (key : Str) : Except Err Str := do
  let msgtype ←
    if c.streaming then payload0 c.payload0
    else match lookup py!"msgtype" c.kw.others with
      | some v => v.toStr
      | none => pure []
  pure (key ++ 95 :: msgtype)

/-- Selection of the definition key in `_get_dict_prop`
(/repo/src/pynmeagps/nmeamessage.py:340-364). A keyword argument named `key` clashes with the
parameter of `_get_dict_prop`, one named `mode` (or `key`) with those of the variant methods:
`TypeError`. -/
def propKey (c : Ctx) (key : Str) : Except Err Str :=
  if c.kw.has py!"key" then .error .type
  else
    let clash := c.kw.has py!"mode"
    let variant (r : Except Err Str) : Except Err Str := if clash then .error .type else r
    if key = py!"QTMCFGGEOFENCE" then variant (.ok (qtmCfgGeofence c key))
    else if key = py!"QTMCFGMSGRATE" then variant (.ok (qtmCfgMsgRate c key))
    else if key = py!"QTMCFGPPS" then variant (.ok (qtmCfgPps c key))
    else if key = py!"QTMCFGSAT" then variant (.ok (qtmCfgSat c key))
    else if key = py!"QTMCFGUART" then variant (.ok (qtmCfgUart c key))
    else if key = py!"QTMSN" then variant (qtmSn c key)
    else if key = py!"STMDRSENMSG" then variant (stmDrSenMsg c key)
    else if key.take 3 = py!"QTM" then .ok (qtmAckNak c key)
    else .ok key

/-- The table used for proprietary messages (/repo/src/pynmeagps/nmeamessage.py:366-370). -/
def propTable (mode : Nat) : List (Str × PDict) :=
  if mode = POLL then NMEA_PAYLOADS_POLL_PROP
  else if mode = SET then NMEA_PAYLOADS_SET_PROP
  else NMEA_PAYLOADS_GET_PROP

/-- The table used for standard messages (/repo/src/pynmeagps/nmeamessage.py:326-331). -/
def stndTable (mode : Nat) : List (Str × PDict) :=
  if mode = POLL then NMEA_PAYLOADS_POLL
  else if mode = SET then NMEA_PAYLOADS_SET
  else NMEA_PAYLOADS_GET

/-- The key before upper-casing (/repo/src/pynmeagps/nmeamessage.py:306-318): message id, extended
by the first payload field or the `msgId` keyword for prefixed proprietary messages. -/
def baseKey (c : Ctx) : Except Err Str :=
  if c.msgID ∈ NMEA_PREFIX_PROP then
    if c.streaming then do
      if c.msgID = py!"ASHR" then
        let f ← payload0 c.payload0
        match f with
        | _ :: ch :: _ => pure (if isDigitChar ch then c.msgID else c.msgID ++ f)
        | _ => .error .index
      else
        let f ← payload0 c.payload0
        pure (c.msgID ++ f)
    else match lookup py!"msgId" c.kw.others with
      | some (.str s) => .ok (c.msgID ++ s)
      | some _ => .error .type
      | none => .error .nmeaMessage
  else .ok c.msgID

/-- Definition lookup up to and including the table access
(/repo/src/pynmeagps/nmeamessage.py:305-331); `none` is the `KeyError`. -/
def findDict (c : Ctx) : Except Err (Option PDict) := do
  let key := upper (← baseKey c)
  match c.defsource with
  | .prop => do
    let k ← propKey c key
    pure (lookup k (propTable c.mode))
  | .user => pure (lookup key c.udefs)
  | _ => pure (lookup key (stndTable c.mode))

/-- `_get_dict` (/repo/src/pynmeagps/nmeamessage.py:295-338). -/
def getDict (c : Ctx) : Except Err (Option PDict) := do
  match ← findDict c with
  | some d => pure (some d)
  | none => if valMsgid c.validate then .error .nmeaMessage else pure none

/-! ## Attribute processing -/

/-- Attribute name with group index suffixes (/repo/src/pynmeagps/nmeamessage.py:232-236). -/
def suffixed (key : Str) (gindex : List Nat) : Str :=
  gindex.foldl (fun k i => if i > 0 then k ++ 95 :: fmt02d i else k) key

/-- Replace the element at a position (`payload[i] = v`). -/
def setAt : List Str → Nat → Str → List Str
  | [], _, _ => []
  | _ :: r, 0, v => v :: r
  | x :: r, n + 1, v => x :: setAt r n v

/-- Remove `[` and `]` (/repo/src/pynmeagps/nmeamessage.py:243-245). -/
def stripBrackets (s : Str) : Str := removeChar 93 (removeChar 91 s)

/-- A name set as an attribute that hides one of the static conversion methods makes the later
call `self.<method>(...)` fail with `TypeError` (nmeamessage.py:247, 261, 262). -/
def shadowed (attrs : List (Str × PyVal)) (method : Str) : Bool := hasKey method attrs

/-- The sign override of `lat`/`lon` (/repo/src/pynmeagps/nmeamessage.py:272-280). -/
def signOverride (ty : Str) (val : PyVal) (attrs : List (Str × PyVal)) : List (Str × PyVal) :=
  if ty = LND then
    match lookup py!"lon" attrs with
    | some v => if v.isNum then
        Py.insert py!"lon" (if val = .str py!"W" then v.absV.negV else v.absV) attrs else attrs
    | none => attrs
  else if ty = LAD then
    match lookup py!"lat" attrs with
    | some v => if v.isNum then
        Py.insert py!"lat" (if val = .str py!"S" then v.absV.negV else v.absV) attrs else attrs
    | none => attrs
  else attrs

/-- `_set_attribute_single` when streaming (/repo/src/pynmeagps/nmeamessage.py:217-283,
branches 240-247 and 271-283). An index past the payload leaves everything unchanged. -/
def setSingleStream (c : Ctx) (key ty : Str) (gindex : List Nat) (st : St) : Except Err St := do
  let keyr := suffixed key gindex
  let ident ← identityOf c.talker c.msgID st.attrs
  match st.payload[st.pindex]? with
  | none => pure st
  | some raw =>
    let fld := if ident = py!"PSSNSNC" then stripBrackets raw else raw
    let payload := if ident = py!"PSSNSNC" then setAt st.payload st.pindex fld else st.payload
    if shadowed st.attrs py!"str2val" then .error .type
    else do
      let val ← str2val fld ty
      let attrs ← setAttr st.attrs keyr val
      pure { st with pindex := st.pindex + 1, payload := payload,
                     attrs := signOverride ty val attrs }

/-- The value of an attribute when generating (/repo/src/pynmeagps/nmeamessage.py:250-261), with
the new clock count. -/
def genValue (c : Ctx) (now : Nat → DateTime) (ty keyr : Str) (st : St) :
    Except Err (PyVal × Nat) :=
  let dflt : Except Err (PyVal × Nat) :=
    if shadowed st.attrs py!"nomval" then .error .type
    else do
      let nv ← nomval ty c.mode (now st.tick)
      pure (c.kw.get keyr nv, if usesClock ty then st.tick + 1 else st.tick)
  if ty = LND then
    match lookup py!"lon" st.attrs with
    | some v => .ok (.str (if v.isNum && v.ltZero then py!"W" else py!"E"), st.tick)
    | none => dflt
  else if ty = LAD then
    match lookup py!"lat" st.attrs with
    | some v => .ok (.str (if v.isNum && v.ltZero then py!"S" else py!"N"), st.tick)
    | none => dflt
  else dflt

/-- `_set_attribute_single` when generating (/repo/src/pynmeagps/nmeamessage.py:217-283,
branches 250-263, 270 and 281-283). -/
def setSingleGen (c : Ctx) (now : Nat → DateTime) (key ty : Str) (gindex : List Nat) (st : St) :
    Except Err St := do
  let keyr := suffixed key gindex
  let (val, tick) ← genValue c now ty keyr st
  if shadowed st.attrs py!"val2str" then .error .type
  else do
    let vals ← val2str val ty c.hp
    let attrs ← setAttr st.attrs keyr val
    pure { pindex := st.pindex + 1, payload := st.payload ++ [vals], attrs := attrs, tick := tick }

/-- `_set_attribute_single` (/repo/src/pynmeagps/nmeamessage.py:217-283). -/
def setSingle (c : Ctx) (now : Nat → DateTime) (key ty : Str) (gindex : List Nat) (st : St) :
    Except Err St :=
  if c.streaming then setSingleStream c key ty gindex st else setSingleGen c now key ty gindex st

/-- Number of repeats of a group (/repo/src/pynmeagps/nmeamessage.py:191-205, 557-573).
`int(lenpayload / lengroup)` is modelled by integer division: the two agree below 2^53 fields,
and `pindex` never exceeds the payload length. An empty group raises `ZeroDivisionError`. -/
def repCount (c : Ctx) (rep : Rep) (body : PDict) (st : St) : Except Err Int :=
  match rep with
  | .fixed n => .ok n
  | .indet =>
    if c.streaming then
      if body.len = 0 then .error .zeroDivision
      else .ok ((st.payload.length - st.pindex) / body.len : Nat)
    else groupsize (c.kw.others.map Prod.fst)
  | .named k => getCount c st.attrs k

/-- `for i in range(n): f(i + 1)` (/repo/src/pynmeagps/nmeamessage.py:208-213). -/
def loopFrom {σ ε} (f : Nat → σ → Except ε σ) : Nat → Nat → σ → Except ε σ
  | 0, _, s => .ok s
  | n + 1, i, s => do
    let s ← f i s
    loopFrom f n (i + 1) s

/-- `_set_attribute` and `_set_attribute_group` over all keys of a definition
(/repo/src/pynmeagps/nmeamessage.py:131-134, 153-215). -/
def setPDict (c : Ctx) (now : Nat → DateTime) : PDict → List Nat → St → Except Err St
  | .nil, _, st => .ok st
  | .single key ty rest, gindex, st => do
    let st ← setSingle c now key ty gindex st
    setPDict c now rest gindex st
  | .group _ rep body rest, gindex, st => do
    let n ← repCount c rep body st
    let st ← loopFrom (fun i st => setPDict c now body (gindex ++ [i]) st) n.toNat 1 st
    setPDict c now rest gindex st

/-- `_set_attribute_nominal` (/repo/src/pynmeagps/nmeamessage.py:285-293); `i` is the index of the
next field, counted from 1. -/
def nominalFrom : Nat → List Str → List (Str × PyVal) → List (Str × PyVal)
  | _, [], attrs => attrs
  | i, f :: fs, attrs => nominalFrom (i + 1) fs (Py.insert (py!"field_" ++ fmt02d i) (.str f) attrs)

/-- Keyword names that clash with parameters of `_set_attribute`, `_set_attribute_group` and
`_set_attribute_single` (nmeamessage.py:153-155, 176-178, 217-219): passing one raises
`TypeError` as soon as an attribute is processed. -/
def reservedNames : List Str := [py!"pindex", py!"pdict", py!"key", py!"gindex", py!"att"]

/-- Some keyword argument has a reserved name. -/
def Kwargs.clash (kw : Kwargs) : Bool := reservedNames.any kw.has

/-- A constructed message. -/
structure Msg where
  talker : Str
  msgID : Str
  mode : Nat
  hp : Bool
  validate : Nat
  udefs : UDefs
  defsource : DefSource
  payload : List Str
  checksum : Option Str
  streaming : Bool
  attrs : List (Str × PyVal)
  immutable : Bool
  deriving DecidableEq

/-- The `except` clause of `_do_attributes` (/repo/src/pynmeagps/nmeamessage.py:142-151). -/
def wrapErr {α} (r : Except Err α) : Except Err α :=
  match r with
  | .error .attribute => .error .nmeaType
  | .error .overflow => .error .nmeaType
  | .error .type => .error .nmeaType
  | .error .value => .error .nmeaType
  | r => r

/-- `_do_attributes` (/repo/src/pynmeagps/nmeamessage.py:111-151): final payload, checksum and
attributes. -/
def doAttributes (c : Ctx) (now : Nat → DateTime) (checksum : Option Str) :
    Except Err (List Str × Option Str × List (Str × PyVal)) :=
  wrapErr do
    match ← getDict c with
    | none =>
      pure (c.payload0, checksum,
        if c.streaming then nominalFrom 1 c.payload0 [] else [])
    | some d =>
      if c.kw.clash && d.len != 0 then .error .type
      else do
        let st ← setPDict c now d [] { pindex := 0, payload := c.payload0, attrs := [], tick := 0 }
        let ck := match checksum with
          | some k => k
          | none => generateChecksum c.talker c.msgID st.payload
        pure (st.payload, some ck, st.attrs)

/-- Where the message id is recognised (/repo/src/pynmeagps/nmeamessage.py:83-90). -/
def sourceOf (msgID : Str) (udefs : UDefs) : DefSource :=
  if hasKey msgID NMEA_MSGIDS then .stnd
  else if hasKey msgID NMEA_MSGIDS_PROP ∨ msgID ∈ NMEA_PREFIX_PROP then .prop
  else if hasKey msgID udefs then .user
  else .unkn

/-- The constructor (/repo/src/pynmeagps/nmeamessage.py:42-109). -/
def mkMsg (now : Nat → DateTime) (talker msgID : Str) (msgmode : Int) (hp : Bool) (validate : Nat)
    (udefs : UDefs) (checksum : Option Str) (kw : Kwargs) : Except Err Msg :=
  if ¬ (msgmode = 0 ∨ msgmode = 1 ∨ msgmode = 2) then .error .nmeaMessage
  else if talker ∉ NMEA_TALKERS ∧ valMsgid validate then .error .nmeaMessage
  else if sourceOf msgID udefs = .unkn ∧ valMsgid validate then .error .nmeaMessage
  else do
    let c : Ctx := { talker := talker, msgID := msgID, mode := msgmode.toNat, hp := hp,
                     validate := validate, udefs := udefs, defsource := sourceOf msgID udefs,
                     kw := kw }
    let (payload, ck, attrs) ← doAttributes c now checksum
    pure { talker := talker, msgID := msgID, mode := c.mode, hp := hp, validate := validate,
           udefs := udefs, defsource := c.defsource, payload := payload, checksum := ck,
           streaming := c.streaming, attrs := attrs, immutable := true }

/-! ## Methods of the finished object -/

/-- `identity` property (/repo/src/pynmeagps/nmeamessage.py:638-655). -/
def Msg.identity (m : Msg) : Except Err Str := identityOf m.talker m.msgID m.attrs

/-- The text built by `serialize` before encoding (/repo/src/pynmeagps/nmeamessage.py:632-635);
a missing checksum is printed as `None`. -/
def Msg.text (m : Msg) : Str :=
  36 :: (contentOf m.talker m.msgID m.payload ++ 42 :: (m.checksum.getD py!"None" ++ [13, 10]))

/-- `serialize` (/repo/src/pynmeagps/nmeamessage.py:624-636). -/
def Msg.serialize (m : Msg) : Except Err Bytes := utf8Encode m.text

/-- The loop of `__str__` (/repo/src/pynmeagps/nmeamessage.py:586-588); `att[0]` of an empty name
raises `IndexError`. -/
def strAttrs : List (Str × PyVal) → Except Err Str
  | [] => .ok []
  | (k, v) :: r =>
    match k with
    | [] => .error .index
    | k0 :: _ => do
      let here ← if k0 = 95 then pure [] else do pure (py!", " ++ k ++ 61 :: (← v.toStr))
      pure (here ++ (← strAttrs r))

/-- `__str__` (/repo/src/pynmeagps/nmeamessage.py:575-591). -/
def Msg.str (m : Msg) : Except Err Str := do
  let id ← m.identity
  let body ← strAttrs m.attrs
  pure (py!"<NMEA(" ++ id ++ (if m.defsource = .unkn then py!", NOMINAL" else []) ++ body ++ py!")>")

/-- `__setattr__` (/repo/src/pynmeagps/nmeamessage.py:608-622), i.e. `msg.name = v`: outcome and
resulting object. Private names (leading underscore) on a still mutable object are not modelled. -/
def Msg.setattr (m : Msg) (name : Str) (v : PyVal) : Except Err Unit × Msg :=
  if m.immutable then (.error .nmeaMessage, m)
  else match setAttr m.attrs name v with
    | .ok attrs => (.ok (), { m with attrs := attrs })
    | .error e => (.error e, m)

/-- `del msg.name`: the class (/repo/src/pynmeagps/nmeamessage.py:39-838) does not override
`__delattr__`, so Python's default applies: remove a public instance attribute, otherwise
`AttributeError`. -/
def Msg.delattr (m : Msg) (name : Str) : Except Err Unit × Msg :=
  if name ∈ propertyNames then (.error .attribute, m)
  else if hasKey name m.attrs then
    (.ok (), { m with attrs := m.attrs.filter (fun kv => kv.1 != name) })
  else (.error .attribute, m)

end Nmea
