import Verif.Model.Reader
import Verif.Model.Repr
/-!
# Model of the texts of the library's exceptions

The functions of `Model/Message` and `Model/Reader` once more, with `str(err)` for the exceptions the library defines
(`none` for other exceptions, whose texts are Python's). That they return and raise the same is proved (C100). A mode with
more than 4300 digits, which cannot be printed, is not modelled (its text is taken to be `none`).
-/
namespace Nmea
open Py

/-- An exception and its text. -/
abbrev TExc := Err × Option Str

/-- An exception whose text is not modelled. -/
def bare (e : Err) : TExc := (e, none)

/-- `('GET', 'SET', 'POLL')[mode]` (/repo/src/pynmeagps/nmeamessage.py:97, 334). -/
def modeWord (mode : Nat) : Str := if mode = POLL then py!"POLL" else if mode = SET then py!"SET" else py!"GET"

/-- `_set_attribute_single` (/repo/src/pynmeagps/nmeamessage.py:217-283): `NMEATypeError` comes from `str2val`, `val2str`
or `nomval` (/repo/src/pynmeagps/nmeamessage.py:743, 798, 837). -/
def setSingleT (c : Ctx) (now : Nat → DateTime) (key ty : Str) (gindex : List Nat) (st : St) : Except TExc St :=
  match setSingle c now key ty gindex st with
  | .ok st => .ok st
  | .error .nmeaType => .error (.nmeaType, some (py!"Unknown attribute type " ++ ty ++ py!"."))
  | .error e => .error (bare e)

/-- `setPDict` (the members of a group, /repo/src/pynmeagps/nmeamessage.py:176-215). -/
def setPDictT (c : Ctx) (now : Nat → DateTime) : PDict → List Nat → St → Except TExc St
  | .nil, _, st => .ok st
  | .single key ty rest, gindex, st => do
    let st ← setSingleT c now key ty gindex st
    setPDictT c now rest gindex st
  | .group _ rep body rest, gindex, st => do
    let n ← (repCount c rep body st).mapError bare
    let st ← loopFrom (fun i st => setPDictT c now body (gindex ++ [i]) st) n.toNat 1 st
    setPDictT c now rest gindex st

/-- The loop of `_do_attributes` (/repo/src/pynmeagps/nmeamessage.py:131-134): an exception comes with the key at which it
happened. -/
def entriesT (c : Ctx) (now : Nat → DateTime) : PDict → St → Except (Str × TExc) St
  | .nil, st => .ok st
  | .single key ty rest, st =>
    match setSingleT c now key ty [] st with
    | .error x => .error (key, x)
    | .ok st => entriesT c now rest st
  | .group key rep body rest, st =>
    match (do
      let n ← (repCount c rep body st).mapError bare
      loopFrom (fun i st => setPDictT c now body [i] st) n.toNat 1 st) with
    | .error x => .error (key, x)
    | .ok st => entriesT c now rest st

/-- The first key of a definition; `""` if it is empty. -/
def firstKey : PDict → Str
  | .nil => []
  | .single k _ _ => k
  | .group k _ _ _ => k

/-- The `except` clause of `_do_attributes` (/repo/src/pynmeagps/nmeamessage.py:142-151). -/
def wrapT (msgID : Str) (key : Str) : TExc → TExc
  | (e, t) =>
    if e ∈ [.attribute, .overflow, .type, .value] then
      (.nmeaType, some (py!"Incorrect type for attribute " ++ key ++ py!" in msgID " ++ msgID ++ py!"."))
    else (e, t)

/-- `_get_dict` (/repo/src/pynmeagps/nmeamessage.py:295-338). -/
def getDictT (c : Ctx) : Except TExc (Option PDict) :=
  match baseKey c with
  | .error .nmeaMessage => .error (.nmeaMessage,
      some (py!"P" ++ c.msgID ++ py!" message definitions must include payload or msgId keyword arguments."))
  | .error e => .error (bare e)
  | .ok key =>
    match findDict c with
    | .error e => .error (bare e)
    | .ok (some d) => .ok (some d)
    | .ok none =>
      if valMsgid c.validate then
        .error (.nmeaMessage, some (py!"Unknown msgID " ++ upper key ++ py!" msgmode " ++ modeWord c.mode ++ py!"."))
      else .ok none

/-- `_do_attributes` (/repo/src/pynmeagps/nmeamessage.py:111-151). -/
def doAttributesT (c : Ctx) (now : Nat → DateTime) (checksum : Option Str) :
    Except TExc (List Str × Option Str × List (Str × PyVal)) :=
  match getDictT c with
  | .error x => .error (wrapT c.msgID [] x)
  | .ok none => .ok (c.payload0, checksum, if c.streaming then nominalFrom 1 c.payload0 [] else [])
  | .ok (some d) =>
    if c.kw.clash && d.len != 0 then .error (wrapT c.msgID (firstKey d) (bare .type))
    else match entriesT c now d { pindex := 0, payload := c.payload0, attrs := [], tick := 0 } with
      | .error (key, x) => .error (wrapT c.msgID key x)
      | .ok st =>
        let ck := match checksum with
          | some k => k
          | none => generateChecksum c.talker c.msgID st.payload
        .ok (st.payload, some ck, st.attrs)

/-- The constructor (/repo/src/pynmeagps/nmeamessage.py:42-109). -/
def mkMsgT (now : Nat → DateTime) (talker msgID : Str) (msgmode : Int) (hp : Bool) (validate : Nat)
    (udefs : UDefs) (checksum : Option Str) (kw : Kwargs) : Except TExc Msg :=
  if ¬ (msgmode = 0 ∨ msgmode = 1 ∨ msgmode = 2) then
    .error (.nmeaMessage, (strOfInt msgmode).toOption.map fun s => py!"Invalid msgmode " ++ s ++ py!" - must be 0, 1 or 2.")
  else if talker ∉ NMEA_TALKERS ∧ valMsgid validate then
    .error (.nmeaMessage, some (py!"Unknown talker " ++ talker ++ py!"."))
  else if sourceOf msgID udefs = .unkn ∧ valMsgid validate then
    .error (.nmeaMessage, some (py!"Unknown msgID " ++ talker ++ msgID ++ py!", msgmode " ++ modeWord msgmode.toNat ++ py!"."))
  else
    let c : Ctx := { talker := talker, msgID := msgID, mode := msgmode.toNat, hp := hp,
                     validate := validate, udefs := udefs, defsource := sourceOf msgID udefs,
                     kw := kw }
    match doAttributesT c now checksum with
    | .error x => .error x
    | .ok (payload, ck, attrs) =>
      .ok { talker := talker, msgID := msgID, mode := c.mode, hp := hp, validate := validate,
            udefs := udefs, defsource := c.defsource, payload := payload, checksum := ck,
            streaming := c.streaming, attrs := attrs, immutable := true }

/-- `__setattr__` (/repo/src/pynmeagps/nmeamessage.py:608-622), as `Msg.setattr`, with the text. -/
def Msg.setattrT (m : Msg) (name : Str) (v : PyVal) : Except TExc Unit × Msg :=
  if m.immutable then
    (.error (.nmeaMessage, some (py!"Object is immutable. Updates to " ++ name ++ py!" not permitted after initialisation.")), m)
  else ((m.setattr name v).1.mapError bare, (m.setattr name v).2)

/-- `str(b)` for bytes: their `repr`. -/
def reprBytes (b : Bytes) : Str := 98 :: reprStr (fun _ => false) (b.map UInt8.toNat)

/-- `get_parts` (/repo/src/pynmeagps/nmeahelpers.py:426-445). In the text, bytes that are UTF-8 have been decoded. An object
that is neither text nor bytes is not modelled. -/
def getPartsT (message : RawMsg) : Except TExc Parts :=
  match getParts message with
  | .ok p => .ok p
  | .error e => .error (e, match message with
    | .str s => some (py!"Badly formed message " ++ s)
    | .bytes b => some (py!"Badly formed message " ++ (utf8Decode b).getD (reprBytes b))
    | .other => none)

/-- `NMEAReader.parse` (/repo/src/pynmeagps/nmeareader.py:236-289). `NMEAParseError(err)` has the text of `err`. -/
def parseT (now : Nat → DateTime) (message : RawMsg) (msgmode : Int) (validate : Nat) (udefs : UDefs) :
    Except TExc (Option Msg) :=
  if ¬ (msgmode = 0 ∨ msgmode = 1 ∨ msgmode = 2) then
    .error (.nmeaParse, (strOfInt msgmode).toOption.map fun s => py!"Invalid parse mode " ++ s ++ py!" - must be 0, 1 or 2.")
  else
    let body : Except TExc Msg := do
      let p ← getPartsT message
      let ccksum := calcChecksum p.content
      if valCksum validate && upper p.cksum != ccksum then
        .error (.nmeaParse, some (py!"Message " ++ p.talker ++ p.msgid ++ py!" invalid checksum " ++ p.cksum ++
          py!" - should be " ++ ccksum ++ py!"."))
      else
        mkMsgT now p.talker p.msgid msgmode false validate udefs (some p.cksum)
          { payload := some p.payload, others := [] }
    match body with
    | .ok m => .ok (some m)
    | .error (.nmeaMessage, t) => if valMsgid validate then .error (.nmeaParse, t) else .ok none
    | .error x => .error x

/-- The text of the exception, if any, of one pass through the loop of `read`
(/repo/src/pynmeagps/nmeareader.py:135-165, 189-206). -/
def stepText {σ} (now : Nat → DateTime) (ops : StreamOps σ) (cfg : RCfg) (s : σ) : Option Str :=
  let (byte1, s1) := ops.read1 s
  if byte1 = [] then none
  else if byte1 ≠ pb!"$" then none
  else
    let (byte2, s2) := ops.read1 s1
    if byte2 = [] then none
    else if byte1 ++ byte2 ∈ NMEA_HDR then
      let (data, _) := ops.readline s2
      if data = [] then none
      else if data.getLast? ≠ some 10 then
        some (py!"Serial stream terminated unexpectedly. Line requested, " ++ natDec data.length ++ py!" bytes returned.")
      else match parseT now (.bytes (byte1 ++ byte2 ++ data)) cfg.mode cfg.validate cfg.udefs with
        | .ok _ => none
        | .error (_, t) => t
    else if cfg.nmeaonly then some (py!"Unknown protocol header " ++ reprBytes (byte1 ++ byte2) ++ py!".")
    else none

/-- `read` (/repo/src/pynmeagps/nmeareader.py:120-167) with `_do_error` (208-223): the result, the text of the exception if
it raises, the exceptions given to the error handler or the log, each with its text, and the stream afterwards. -/
def readMsgT {σ} (now : Nat → DateTime) (ops : StreamOps σ) (cfg : RCfg) (s : σ) :
    ReadResult × Option Str × List TExc × σ :=
  match _h : step now ops cfg s with
  | (.eof, s') => (.none, none, [], s')
  | (.msg raw m, s') => (.item raw m, none, [], s')
  | (.crash e, s') => (.raised e, none, [], s')
  | (.skip, s') => readMsgT now ops cfg s'
  | (.err e, s') =>
    if cfg.quitonerror = 2 then (.raised e, stepText now ops cfg s, [], s')
    else
      let (r, t, log, s'') := readMsgT now ops cfg s'
      (r, t, (if cfg.quitonerror = 1 then (e, stepText now ops cfg s) :: log else log), s'')
termination_by ops.rel.wf.wrap s
decreasing_by
  all_goals
    have h := step_dec now ops cfg s
    simp only [_h, Prod.mk.injEq, reduceCtorEq, false_and, exists_false, false_or] at h
    exact h

end Nmea
