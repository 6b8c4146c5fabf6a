import Verif.Py.Utf8
import Verif.Model.Types
import Verif.Model.TablesCore
/-!
# Model of /repo/src/pynmeagps/nmeahelpers.py (text, checksum, date/time and degree helpers)
-/
namespace Nmea
open Py

/-! ## Checksum and framing -/

/-- XOR of the code points: the loop of `calc_checksum` (nmeahelpers.py:135-137). -/
def xorStr (content : Str) : Nat := content.foldl (fun a c => a ^^^ c) 0

/-- `calc_checksum` (/repo/src/pynmeagps/nmeahelpers.py:126-138). -/
def calcChecksum (content : Str) : Str := fmt02X (xorStr content)

/-- The content string built by `generate_checksum` (nmeahelpers.py:420-422) and, with a leading
`$`, by `serialize` (nmeamessage.py:632-634). -/
def contentOf (talker msgID : Str) (payload : List Str) : Str :=
  payload.foldl (fun acc f => acc ++ (44 :: f)) (talker ++ msgID)

/-- `generate_checksum` (/repo/src/pynmeagps/nmeahelpers.py:409-423). -/
def generateChecksum (talker msgID : Str) (payload : List Str) : Str :=
  calcChecksum (contentOf talker msgID payload)

/-- The `message` argument of `get_parts` / `parse`: `bytes`, `str`, or any other object
(on which the `strip` call fails, nmeahelpers.py:439). -/
inductive RawMsg where
  | bytes (b : Bytes)
  | str (s : Str)
  | other
  deriving DecidableEq

/-- Result of `get_parts`. -/
structure Parts where
  content : Str
  talker : Str
  msgid : Str
  payload : List Str
  cksum : Str
  deriving DecidableEq

/-- The characters removed by `strip("$\r\n")` (nmeahelpers.py:439). -/
def isFrame (c : Nat) : Bool := c == 36 || c == 13 || c == 10

/-- `get_parts` on the decoded text (/repo/src/pynmeagps/nmeahelpers.py:439-443);
`none` is the `ValueError` of the two-way unpacking when there is no `*`. -/
def getPartsStr (message : Str) : Option Parts :=
  match splitFirst 42 (stripBy isFrame message) with
  | none => none
  | some (content, cksum) =>
    match splitAll 44 content with
    | [] => none
    | hdr :: payload =>
      let s := if hdr.take 1 = py!"P" then 1 else 2
      some { content := content, talker := hdr.take s, msgid := hdr.drop s,
             payload := payload, cksum := cksum }

/-- `get_parts` (/repo/src/pynmeagps/nmeahelpers.py:426-445). Every exception inside becomes
`NMEAMessageError`. -/
def getParts (message : RawMsg) : Except Err Parts :=
  let text : Option Str := match message with
    | .bytes b => utf8Decode b
    | .str s => some s
    | .other => none
  match text.bind getPartsStr with
  | some p => .ok p
  | none => .error .nmeaMessage

/-- `groupsize` (/repo/src/pynmeagps/nmeahelpers.py:448-463), on the list of keyword names. -/
def groupsize (names : List Str) : Except Err Int :=
  names.foldlM (fun idx a =>
    match splitFirst 95 a with
    | none => .ok idx
    | some (_, sfx) => do
      let n ← intOfStr sfx
      pure (max idx n)) 0

/-! ## Dates and times -/

/-- `date2str` (/repo/src/pynmeagps/nmeahelpers.py:141-161). Values without `strftime` give
`""` (AttributeError caught); a `time` formats as 1 January 1900. -/
def date2str (v : PyVal) (form : Str) : Str :=
  let go (d : Date) : Str := if form = DM then d.mdy else if form = DTL then d.dmY else d.dmy
  match v with
  | .date d => go d
  | .datetime t => go t.date
  | .time _ => go ⟨1900, 1, 1⟩
  | _ => []

/-- `date2utc` (/repo/src/pynmeagps/nmeahelpers.py:164-185). -/
def date2utc (dates form : Str) : PyVal :=
  let r := if form = DM then strptimeMdy dates
    else if form = DTL then strptimeDmY dates else strptimeDmy dates
  match r with
  | some d => .date d
  | none => .str []

/-- `time2str` (/repo/src/pynmeagps/nmeahelpers.py:701-713). A `date` formats as midnight. -/
def time2str (v : PyVal) : Str :=
  match v with
  | .time t => t.hmsf.take 9
  | .datetime t => t.time.hmsf.take 9
  | .date _ => (Time.mk 0 0 0 0).hmsf.take 9
  | _ => []

/-- `time2utc` (/repo/src/pynmeagps/nmeahelpers.py:716-731). -/
def time2utc (times : Str) : PyVal :=
  let times := if times.length = 6 then times ++ py!".00" else times
  match strptimeHmsf times with
  | some t => .time t
  | none => .str []

/-! ## Degrees -/

/-- `except (TypeError, ValueError): return ""` (nmeahelpers.py:218, 243, 269, 290). -/
def catchTV (r : Except Err Str) : Except Err Str :=
  match r with
  | .error .type => .ok []
  | .error .value => .ok []
  | r => r

/-- Numeric argument: `bool` counts as `int`. -/
inductive Num where
  | int (i : Int)
  | float (x : PyFloat)
  deriving DecidableEq

/-- The numbers among the modelled values; anything else makes `abs`, `<`, `*` raise
`TypeError`. -/
def PyVal.num? : PyVal → Option Num
  | .bool b => some (.int (if b then 1 else 0))
  | .int i => some (.int i)
  | .float x => some (.float x)
  | _ => Option.none

/-- `isinstance(v, (int, float))`. -/
def PyVal.isNum (v : PyVal) : Bool := v.num?.isSome

/-- `ddd2dmm` (/repo/src/pynmeagps/nmeahelpers.py:188-219). -/
def ddd2dmm (degrees : PyVal) (att : Str) (hp : Bool) : Except Err Str :=
  catchTV do
    let sum : PyFloat ← match degrees.num? with
      | none => .error .type
      | some (.float x) => do
        let (d, m) := PyFloat.divmodPos (PyFloat.mul x.abs (.fin false 60)) 60
        let di ← (PyFloat.mul d (.fin false 100)).toInt
        let df ← PyFloat.ofInt di
        pure (PyFloat.add df m)
      | some (.int i) => do
        let t := (i.natAbs : Int) * 60
        PyFloat.ofInt ((t / 60) * 100 + t % 60)
    let w := (if hp then 12 else 10) + (if att = LA then 0 else 1)
    pure (zfill w (fmtFixed (if hp then 7 else 5) sum))

/-- `dmm2ddd` (/repo/src/pynmeagps/nmeahelpers.py:273-291). -/
def dmm2ddd (pos : Str) : Except Err PyVal :=
  let r : Except Err PyFloat := do
    match findChar 46 pos with
    | none => .error .value
    | some dp =>
      if dp < 4 then .error .value
      else do
        let d ← floatOfStr (pos.take (dp - 2))
        let m ← floatOfStr (pos.drop (dp - 2))
        let q ← PyFloat.div m (.fin false 60)
        PyFloat.roundTo (PyFloat.add d.abs q) 10
  match r with
  | .ok x => .ok (.float x)
  | .error .value => .ok (.str [])
  | .error .type => .ok (.str [])
  | .error e => .error e

/-- Sign letter chosen in `deg2dmm` / `deg2dms` (nmeahelpers.py:238-241, 264-267). -/
def degSuffix (neg : Bool) (att : Str) : Str :=
  if neg then (if att = LA then py!"S" else py!"W")
  else (if att = LA then py!"N" else py!"E")

/-- `deg2dmm` (/repo/src/pynmeagps/nmeahelpers.py:222-244). -/
def deg2dmm (degrees : PyVal) (att : Str) : Except Err Str :=
  catchTV do
    match degrees.num? with
    | none => .error .type
    | some (.float x) => do
      let (d, m) := PyFloat.divmodPos (PyFloat.mul x.abs (.fin false 60)) 60
      let ds ← strOfInt (← d.toInt)
      let mr ← m.roundTo 7
      pure (ds ++ [0xb0] ++ reprFloat mr ++ [0x2032] ++ degSuffix x.ltZero att)
    | some (.int i) => do
      let t := (i.natAbs : Int) * 60
      let ds ← strOfInt (t / 60)
      let ms ← strOfInt (t % 60)
      pure (ds ++ [0xb0] ++ ms ++ [0x2032] ++ degSuffix (decide (i < 0)) att)

/-- `deg2dms` (/repo/src/pynmeagps/nmeahelpers.py:247-270). -/
def deg2dms (degrees : PyVal) (att : Str) : Except Err Str :=
  catchTV do
    match degrees.num? with
    | none => .error .type
    | some (.float x) => do
      let (m, s) := PyFloat.divmodPos (PyFloat.mul x.abs (.fin false 3600)) 60
      let (d, m) := PyFloat.divmodPos m 60
      let ds ← strOfInt (← d.toInt)
      let ms ← strOfInt (← m.toInt)
      let sr ← s.roundTo 5
      pure (ds ++ [0xb0] ++ ms ++ [0x2032] ++ reprFloat sr ++ [0x2033] ++ degSuffix x.ltZero att)
    | some (.int i) => do
      let t := (i.natAbs : Int) * 3600
      let ds ← strOfInt (t / 60 / 60)
      let ms ← strOfInt (t / 60 % 60)
      let ss ← strOfInt (t % 60)
      pure (ds ++ [0xb0] ++ ms ++ [0x2032] ++ ss ++ [0x2033] ++ degSuffix (decide (i < 0)) att)

/-- `latlon2dmm` (/repo/src/pynmeagps/nmeahelpers.py:534-546). -/
def latlon2dmm (lat lon : PyVal) : Except Err (Str × Str) := do
  pure (← deg2dmm lat LA, ← deg2dmm lon LN)

/-- `latlon2dms` (/repo/src/pynmeagps/nmeahelpers.py:549-561). -/
def latlon2dms (lat lon : PyVal) : Except Err (Str × Str) := do
  pure (← deg2dms lat LA, ← deg2dms lon LN)

/-- Character class `[\d.]` (Unicode decimal digits and `.`). -/
def isDmsChar (c : Nat) : Bool := c == 46 || (decimalValue c).isSome

/-- One unit `[\d.]+[^\d.]` of the regular expression at nmeahelpers.py:317-319: returns the rest
of the text. The run cannot be shortened by backtracking because the next character must lie
outside the class. -/
def dmsUnit (s : Str) : Option Str :=
  if (s.takeWhile isDmsChar).isEmpty then none
  else match s.dropWhile isDmsChar with
    | [] => none
    | _ :: r => some r

/-- The tail `[NSEW]?$` of the regular expression (`$` also matches before a final newline). -/
def dmsTail (s : Str) : Bool :=
  let r := match s with
    | c :: r => if c = 78 ∨ c = 83 ∨ c = 69 ∨ c = 87 then r else s
    | [] => []
  r = [] || r = [10]

/-- `re.match(...)` succeeds (nmeahelpers.py:315-322). Every prefix of units is tried. -/
def dmsMatch (s : Str) : Bool :=
  match dmsUnit s with
  | none => false
  | some r1 =>
    dmsTail r1 || (match dmsUnit r1 with
      | none => false
      | some r2 => dmsTail r2 || (match dmsUnit r2 with
        | none => false
        | some r3 => dmsTail r3))

/-- `re.split(r"[^\d.]", s, maxsplit=n)`. -/
def dmsSplit : Nat → Str → List Str
  | 0, s => [s]
  | _ + 1, [] => [[]]
  | n + 1, c :: cs =>
    if isDmsChar c then
      match dmsSplit (n + 1) cs with
      | [] => [[c]]
      | h :: t => (c :: h) :: t
    else [] :: dmsSplit n cs

/-- The summation loop of `dms2deg` (nmeahelpers.py:327-328); `x` is the index, `ddd` the
accumulator. -/
def dmsSum : Nat → PyFloat → List Str → Except Err PyFloat
  | _, ddd, [] => .ok ddd
  | x, ddd, d :: ds => do
    let t ← if d = [] then pure (.fin false 0)
      else do
        let f ← floatOfStr d
        PyFloat.div f (.fin false ((60 ^ x : Nat) : Rat))
    dmsSum (x + 1) (PyFloat.add ddd t) ds

/-- `dms2deg` (/repo/src/pynmeagps/nmeahelpers.py:294-329). -/
def dms2deg (dmsstr : Str) (rnd : Int) : Except Err PyFloat := do
  let s := removeChar 32 dmsstr
  if !dmsMatch s then .error .value
  else do
    let neg := s.contains 83 || s.contains 87
    let dms := dmsSplit 3 s
    let ddd ← dmsSum 0 (.fin false 0) dms.dropLast
    let signed := PyFloat.mul ddd (.fin neg 1)
    PyFloat.roundTo signed rnd

/-! ## Other formatting helpers -/

/-- Hexadecimal digits of a natural number, as produced by format code `x` and then `upper()`. -/
def hexUpper (n : Nat) : Str := (digits 16 n).map digitUpper

/-- `hex2str` (/repo/src/pynmeagps/nmeahelpers.py:496-508), for `padding ≥ 0`. The format spec is
`f"{padding:02d}x"`: a width below ten keeps its leading zero and pads with zeros after the sign,
a width of ten or more has no leading zero and pads with spaces. -/
def hex2str (num : Int) (padding : Nat) : Str :=
  let sgn : Str := if num < 0 then [45] else []
  let hx := hexUpper num.natAbs
  if padding < 10 then sgn ++ padZero (padding - sgn.length) hx
  else List.replicate (padding - (sgn ++ hx).length) 32 ++ (sgn ++ hx)

/-- `KNOTSCONV` (/repo/src/pynmeagps/nmeahelpers.py:43). -/
def KNOTSCONV : List (Str × Rat) :=
  [(py!"MS", 5144447324 / 10000000000), (py!"FS", 168781084 / 100000000),
   (py!"MPH", 115078 / 100000), (py!"KMPH", 1852001 / 1000000)]

/-- `knots2spd` (/repo/src/pynmeagps/nmeahelpers.py:511-531). -/
def knots2spd (knots : PyVal) (unit : Str) : Except Err PyFloat :=
  match lookup (upper unit) KNOTSCONV with
  | none => .error .key
  | some f =>
    match knots.num? with
    | none => .error .type
    | some (.float x) => .ok (PyFloat.mul x (PyFloat.ofRat f))
    | some (.int i) => do
      let x ← PyFloat.ofInt i
      pure (PyFloat.mul x (PyFloat.ofRat f))

/-- `msgdesc` (/repo/src/pynmeagps/nmeahelpers.py:652-667 in the tables NMEA_MSGIDS(_PROP)). -/
def msgdesc (msgID : Str) : Str :=
  match lookup msgID NMEA_MSGIDS with
  | some d => d
  | none => match lookup msgID NMEA_MSGIDS_PROP with
    | some d => d
    | none => py!"Unknown msgID " ++ msgID

/-- `llh2iso6709` (/repo/src/pynmeagps/nmeahelpers.py:634-649), float arguments. -/
def llh2iso6709 (lat lon alt : PyFloat) (crs : Str) : Str :=
  let sgn (x : PyFloat) : Str := if x.ltZero then py!"-" else py!"+"
  sgn lat ++ reprFloat lat.abs ++ sgn lon ++ reprFloat lon.abs ++ sgn alt ++ reprFloat alt ++
    py!"CRS" ++ crs ++ py!"/"

end Nmea
