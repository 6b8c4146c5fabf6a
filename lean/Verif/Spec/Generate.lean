import Verif.Spec.Lookup
/-!
# Specification: how a message is generated from keyword arguments
-/
namespace Spec
open Py Nmea

/-- One attribute of a generated message: its name (with group suffixes), type, value and the text
of its payload field. -/
structure Written where
  name : Str
  ty : Str
  val : PyVal
  text : Str
  deriving DecidableEq

/-- The most recent value of an attribute. -/
def lastValue (name : Str) (ws : List Written) : Option PyVal :=
  ((ws.filter (fun w => w.name = name)).getLast?).map Written.val

/-- A negative number. -/
def IsNegative : PyVal → Bool
  | .int i => decide (i < 0)
  | .float x => x.ltZero
  | _ => false

/-- Direction types: the attribute they belong to, the letters for negative and other values. -/
def directionOf (ty : Str) : Option (Str × Str × Str) :=
  if ty = py!"LND" then some (py!"lon", py!"W", py!"E")
  else if ty = py!"LAD" then some (py!"lat", py!"S", py!"N")
  else none

/-- How often the clock was read before: once for each date or time attribute. -/
def clockReads (ws : List Written) : Nat :=
  (ws.filter (fun w => w.ty ∈ [py!"TM", py!"DT", py!"DTL", py!"DM"])).length

/-- The keyword value if there is one, otherwise the default. -/
def keywordOr (kw : List (Str × PyVal)) (name : Str) (dflt : PyVal) : PyVal :=
  match lookup name kw with
  | some v => v
  | none => dflt

/-- The value given to an attribute: directions follow the sign of their attribute, if that has been
set before; everything else is the keyword argument, or the nominal value. -/
def chosen (kw : List (Str × PyVal)) (mode : Nat) (now : Nat → DateTime) (pre : List Written)
    (name ty : Str) : Except Err PyVal :=
  let fromKeyword := (nomval ty mode (now (clockReads pre))).map (keywordOr kw name)
  match directionOf ty with
  | none => fromKeyword
  | some (axis, negative, other) =>
    match lastValue axis pre with
    | none => fromKeyword
    | some v => .ok (.str (if IsNegative v then negative else other))

/-- Repetitions of a group when generating: a constant, the largest index among the keyword names, or
the value of an attribute set before. -/
inductive GenRepeats (kw : List (Str × PyVal)) (mode : Nat) (pre : List Written) : Rep → Nat → Prop
  | fixed (z : Int) : GenRepeats kw mode pre (.fixed z) z.toNat
  | indet (z : Int) : groupsize (kw.map Prod.fst) = .ok z → GenRepeats kw mode pre .indet z.toNat
  | named (k : Str) (z : Int) : k ≠ py!"msgmode" → lastValue k pre = some (.int z) →
      GenRepeats kw mode pre (.named k) z.toNat
  | flag (k : Str) (b : Bool) : k ≠ py!"msgmode" → lastValue k pre = some (.bool b) →
      GenRepeats kw mode pre (.named k) (if b then 1 else 0)
  | mode : GenRepeats kw mode pre (.named py!"msgmode") mode

/-- `Emit kw mode hp now d sfx pre post`: after the attributes `pre`, the definition `d` (inside groups
with suffix `sfx`) writes attributes up to `post`. -/
inductive Emit (kw : List (Str × PyVal)) (mode : Nat) (hp : Bool) (now : Nat → DateTime) :
    PDict → Str → List Written → List Written → Prop
  | nil (sfx pre) : Emit kw mode hp now .nil sfx pre pre
  | single (k t rest sfx pre post v text) :
      chosen kw mode now pre (k ++ sfx) t = .ok v → val2str v t hp = .ok text →
      Emit kw mode hp now rest sfx (pre ++ [⟨k ++ sfx, t, v, text⟩]) post →
      Emit kw mode hp now (.single k t rest) sfx pre post
  | group (k rep body rest sfx pre post) (n : Nat) (at_ : Nat → List Written) :
      GenRepeats kw mode pre rep n → at_ 0 = pre →
      (∀ i < n, Emit kw mode hp now body (sfx ++ groupSuffix (i + 1)) (at_ i) (at_ (i + 1))) →
      Emit kw mode hp now rest sfx (at_ n) post →
      Emit kw mode hp now (.group k rep body rest) sfx pre post

/-- Attribute dictionary: names in order of first writing, with their last values. -/
def attrsOf (ws : List Written) : Attrs := ws.foldl (fun a w => Py.insert w.name w.val a) []

/-- Keyword `x` is present. -/
def Given (kw : List (Str × PyVal)) (x : Str) : Prop := x ∈ kw.map Prod.fst

instance (kw : List (Str × PyVal)) (x : Str) : Decidable (Given kw x) := by unfold Given; infer_instance

/-- Values equal to zero: `0`, `0.0`, `-0.0` and `False`. -/
inductive Zero : PyVal → Prop
  | int : Zero (.int 0)
  | float (neg : Bool) : Zero (.float (.fin neg 0))
  | false : Zero (.bool false)

/-- Keyword `x` is present with a value equal to zero. -/
def GivenZero (kw : List (Str × PyVal)) (x : Str) : Prop := ∃ v, lookup x kw = some v ∧ Zero v

/-- The full id selected by keywords: proprietary prefixes are extended by the keyword `msgId`. -/
def kwFullId (msgid : Str) (kw : List (Str × PyVal)) : Except Err Str :=
  if msgid ∈ NMEA_PREFIX_PROP then
    match lookup py!"msgId" kw with
    | some (.str s) => .ok (msgid ++ s)
    | some _ => .error .type
    | none => .error .nmeaMessage
  else .ok msgid

/-- Layout of a proprietary sentence selected by keywords: which suffix is added to the id, if any.
First matching line; the types not listed have one layout. -/
inductive KwSuffix (kw : List (Str × PyVal)) : Nat → Str → Str → Prop
  | uartCurrBaud : ¬ Given kw py!"portid" → Given kw py!"baudrate" → ¬ Given kw py!"databit" →
      KwSuffix kw 1 py!"QTMCFGUART" py!"_CURRBAUD"
  | uartBaud : Given kw py!"portid" → Given kw py!"baudrate" → ¬ Given kw py!"databit" →
      KwSuffix kw 1 py!"QTMCFGUART" py!"_BAUD"
  | uartCurr : ¬ Given kw py!"portid" → Given kw py!"baudrate" → Given kw py!"databit" →
      KwSuffix kw 1 py!"QTMCFGUART" py!"_CURR"
  | uartPoll : ¬ Given kw py!"portid" → KwSuffix kw 2 py!"QTMCFGUART" py!"_CURR"
  | rateNoVer (mode) : ¬ Given kw py!"porttype" → ¬ Given kw py!"msgver" →
      KwSuffix kw mode py!"QTMCFGMSGRATE" py!"_NOVER"
  | rateIntfNoVer (mode) : Given kw py!"porttype" → ¬ Given kw py!"msgver" →
      KwSuffix kw mode py!"QTMCFGMSGRATE" py!"_INTFNOVER"
  | rateIntf (mode) : Given kw py!"porttype" → Given kw py!"msgver" →
      KwSuffix kw mode py!"QTMCFGMSGRATE" py!"_INTF"
  | pps : GivenZero kw py!"enable" → KwSuffix kw 1 py!"QTMCFGPPS" py!"_DIS"
  | sat (mode) : mode = 0 ∨ mode = 1 → ¬ Given kw py!"maskhigh" → KwSuffix kw mode py!"QTMCFGSAT" py!"_LOW"
  | poly (mode) : mode = 0 ∨ mode = 1 → Given kw py!"lon1" → KwSuffix kw mode py!"QTMCFGGEOFENCE" py!"_POLY"
  | dis : ¬ Given kw py!"lon1" → GivenZero kw py!"geofencemode" →
      KwSuffix kw 1 py!"QTMCFGGEOFENCE" py!"_DIS"
  | drsen (mode) (v : PyVal) (s : Str) : lookup py!"msgtype" kw = some v → v.toStr = .ok s →
      KwSuffix kw mode py!"STMDRSENMSG" (py!"_" ++ s)
  | drsenNone (mode) : ¬ Given kw py!"msgtype" → KwSuffix kw mode py!"STMDRSENMSG" py!"_"

/-- `d` is the payload definition selected by mode, message id and keywords. -/
def KwDefinition (mode : Nat) (u : UDefs) (msgid : Str) (kw : List (Str × PyVal)) (d : PDict) : Prop :=
  ∃ id, kwFullId msgid kw = .ok id ∧
    if IsStandard msgid then lookup (upper id) (standardDefs mode) = some d
    else if IsProprietary msgid then
      ((∃ sfx, KwSuffix kw mode (upper id) sfx ∧ lookup (upper id ++ sfx) (proprietaryDefs mode) = some d) ∨
       ((∀ sfx, ¬ KwSuffix kw mode (upper id) sfx) ∧ upper id ≠ py!"STMDRSENMSG" ∧
        lookup (upper id) (proprietaryDefs mode) = some d))
    else if IsUserDefined u msgid then lookup (upper id) u = some d
    else lookup (upper id) (standardDefs mode) = some d

/-- No attribute of the definition hides a property or a conversion method of the class. -/
def SaneGen (d : PDict) : Prop :=
  ∀ k ∈ allNames d, k ∉ [py!"identity", py!"talker", py!"msgID", py!"msgmode", py!"payload",
    py!"checksum", py!"val2str", py!"nomval"]

instance (d : PDict) : Decidable (SaneGen d) := by unfold SaneGen; infer_instance

end Spec
