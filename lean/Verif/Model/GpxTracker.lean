import Verif.Model.Reader
/-!
# Model of the example program /repo/examples/gpxtracker.py

The program reads a log of NMEA sentences and writes a GPX track. Modelled is what it writes to the track file and the
exception it ends with, if any. Not modelled: the name of the track file, the counters printed at the end, and failing
to open, write or close files. The program reads and writes in turns; since what it writes does not influence
what it reads, the model reads everything first.
-/
namespace Nmea
open Py

/-- `XML_HDR + "<gpx " + GPX_NS + ">"` up to the time in the metadata (/repo/examples/gpxtracker.py:29-40, 133-138). -/
def gpxOpen : Str :=
  py!"<?xml version=\"1.0\" encoding=\"UTF-8\" standalone=\"yes\"?><gpx xmlns=\"http://www.topografix.com/GPX/1/1\" creator=\"pynmeagps\" version=\"1.1\" xmlns:xsi=\"http://www.w3.org/2001/XMLSchema-instance\" xsi:schemaLocation=\"http://www.topografix.com/GPX/1/1 http://www.topografix.com/GPX/1/1/gpx.xsd\"><metadata><link href=\"https://github.com/semuconsulting/pynmeagps\"><text>pynmeagps</text></link><time>"

/-- `datetime.isoformat()`. -/
def isoformat (t : DateTime) : Str := t.date.str ++ 84 :: t.time.str

/-- `write_gpx_hdr` (/repo/examples/gpxtracker.py:123-143). -/
def gpxHeader (now : DateTime) : Str :=
  gpxOpen ++ isoformat now ++ py!"Z" ++ py!"</time></metadata><trk><name>GPX track from NMEA datalog</name><trkseg>"

/-- `write_gpx_tlr` (/repo/examples/gpxtracker.py:184-190). -/
def gpxTrailer : Str := py!"</trkseg></trk></gpx>"

/-- `write_gpx_trkpnt` (/repo/examples/gpxtracker.py:145-182) with the arguments of its only call: the tags of
the arguments, in the order of the tuple of permissible tags. -/
def gpxPoint (lat lon ele time fix hdop : Str) : Str :=
  py!"<trkpt lat=\"" ++ lat ++ py!"\" lon=\"" ++ lon ++ py!"\">" ++ py!"<ele>" ++ ele ++ py!"</ele>" ++
    py!"<time>" ++ time ++ py!"</time>" ++ py!"<fix>" ++ fix ++ py!"</fix>" ++ py!"<hdop>" ++ hdop ++ py!"</hdop>" ++
    py!"</trkpt>"

/-- `msg.name` for an attribute of the payload. -/
def Msg.attr (m : Msg) (name : Str) : Except Err PyVal :=
  match lookup name m.attrs with
  | some v => .ok v
  | none => .error .attribute

/-- `tim.hour`, `tim.minute`, `tim.second`: a value that is not a time has no such attributes. -/
def timeOf : PyVal → Except Err Time
  | .time t => .ok t
  | _ => .error .attribute

/-- The value equals the number `n` (`msg.quality == n`). -/
def PyVal.isNumber (n : Int) : PyVal → Bool
  | .int i => i == n
  | .bool b => (if b then 1 else 0) == n
  | .float (.fin s q) => (if s then -q else q) == n
  | _ => false

/-- The body of the loop of `reader` for a GGA message (/repo/examples/gpxtracker.py:87-114): the text written. -/
def trackPoint (now : DateTime) (m : Msg) : Except Err Str := do
  let tim ← timeOf (← m.attr py!"time")
  let dat := isoformat ⟨now.date, ⟨tim.hour, tim.minute, tim.second, now.time.micro⟩⟩ ++ py!"Z"
  let quality ← m.attr py!"quality"
  let fix := if quality.isNumber 1 then py!"3d" else if quality.isNumber 2 then py!"2d" else py!"none"
  let lat ← m.attr py!"lat"
  let lon ← m.attr py!"lon"
  let alt ← m.attr py!"alt"
  let hdop ← m.attr py!"HDOP"
  pure (gpxPoint (← lat.toStr) (← lon.toStr) (← alt.toStr) dat fix (← hdop.toStr))

/-- The loop of `reader` (/repo/examples/gpxtracker.py:85-119): the text written for the items read and the exception
that ends it. `clock` gives the results of `datetime.now()`, `k` the number of calls so far. Three kinds of exceptions
raised in the body are caught; the one raised by `None.msgID` is not. -/
def track (clock : Nat → DateTime) : Nat → List (Bytes × Option Msg) → Str × Option Err
  | _, [] => ([], none)
  | _, (_, none) :: _ => ([], some .attribute)
  | k, (_, some m) :: r =>
    if m.msgID = py!"GGA" then
      match trackPoint (clock k) m with
      | .ok s => let (t, e) := track clock (k + 1) r; (s ++ t, e)
      | .error .nmeaMessage | .error .nmeaType | .error .nmeaParse => track clock (k + 1) r
      | .error e => ([], some e)
    else track clock k r

/-- The settings of the reader: `NMEAReader(self._infile, validate=False)` (/repo/examples/gpxtracker.py:81). -/
def trackerCfg : RCfg := { mode := 0, validate := 0, nmeaonly := false, quitonerror := 1, udefs := [] }

/-- `reader` (/repo/examples/gpxtracker.py:74-121) for a log file: the contents of the track file and the exception
raised, if any. -/
def gpxTracker (now : Nat → DateTime) (clock : Nat → DateTime) (log : Bytes) : Str × Option Err :=
  let (items, _, fin) := readAll now fileStream trackerCfg log
  match track clock 1 items with
  | (body, some e) => (gpxHeader (clock 0) ++ body, some e)
  | (body, none) =>
    match fin with
    | some e => (gpxHeader (clock 0) ++ body, some e)
    | none => (gpxHeader (clock 0) ++ body ++ gpxTrailer, none)

end Nmea
