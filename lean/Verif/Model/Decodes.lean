import Verif.Model.Values
/-!
# Model of the decode tables (/repo/src/pynmeagps/nmeatypes_decodes.py)

Generated by `tools/gen_decodes.py` from the source text. `d[key]` is modelled by `decodeInt`, `decodeStr` and
`decodePair` for the keys that attributes of messages can be: `int` and `str` (that Python also finds `1` under
`1.0` and `True` is left out).
-/
namespace Nmea
open Py

/-- `FIXTYPE_GGA`, also called `QUALITY` (/repo/src/pynmeagps/nmeatypes_decodes.py:15-23). -/
def FIXTYPE_GGA : List (Int × Str) :=
  [(0, py!"NO FIX"),
   (1, py!"2D"),
   (2, py!"3D"),
   (3, py!"N/A"),
   (4, py!"RTK FIXED"),
   (5, py!"RTK FLOAT"),
   (6, py!"DR ONLY")]

/-- `POSMODE` (/repo/src/pynmeagps/nmeatypes_decodes.py:26-33). -/
def POSMODE : List (Str × Str) :=
  [(py!"A", py!"2D"),
   (py!"N", py!"N/A"),
   (py!"E", py!"DR"),
   (py!"D", py!"3D"),
   (py!"F", py!"RTK FLOAT"),
   (py!"R", py!"RTK FIXED")]

/-- `GNSSLIST` (/repo/src/pynmeagps/nmeatypes_decodes.py:36-45). -/
def GNSSLIST : List (Int × Str) :=
  [(0, py!"GPS"),
   (1, py!"SBAS"),
   (2, py!"Galileo"),
   (3, py!"BeiDou"),
   (4, py!"IMES"),
   (5, py!"QZSS"),
   (6, py!"GLONASS"),
   (7, py!"NAVIC")]

/-- `SYSTEMID` (/repo/src/pynmeagps/nmeatypes_decodes.py:48-55). -/
def SYSTEMID : List (Str × Str) :=
  [(py!"1", py!"GPS"),
   (py!"2", py!"GLONASS"),
   (py!"3", py!"Galileo"),
   (py!"4", py!"Beidou"),
   (py!"5", py!"QZSS"),
   (py!"6", py!"NavIC")]

/-- `SIGNALID` (/repo/src/pynmeagps/nmeatypes_decodes.py:58-80). -/
def SIGNALID : List ((Str × Str) × Str) :=
  [((py!"1", py!"1"), py!"GPS L1C/A2"),
   ((py!"1", py!"6"), py!"GPS L2 CL"),
   ((py!"1", py!"5"), py!"GPS L2 CM"),
   ((py!"1", py!"7"), py!"GPS L5 I"),
   ((py!"1", py!"8"), py!"GPS L5 Q"),
   ((py!"3", py!"7"), py!"Galileo E1 B2/C2"),
   ((py!"3", py!"1"), py!"Galileo E5 aI/aQ"),
   ((py!"3", py!"2"), py!"Galileo E5 bI/bQ"),
   ((py!"4", py!"1"), py!"BeiDou B1I D12/D22"),
   ((py!"4", py!"B"), py!"BeiDou B2I D1/D2"),
   ((py!"4", py!"3"), py!"BeiDou B1 Cp/Cd"),
   ((py!"4", py!"5"), py!"BeiDou B2 ap/ad"),
   ((py!"5", py!"1"), py!"QZSS L1C/A2"),
   ((py!"5", py!"4"), py!"QZSS L1S"),
   ((py!"5", py!"5"), py!"QZSS L2 CM"),
   ((py!"5", py!"6"), py!"QZSS L2 CL"),
   ((py!"5", py!"7"), py!"QZSS L5 I"),
   ((py!"5", py!"8"), py!"QZSS L5 Q"),
   ((py!"2", py!"1"), py!"GLONASS L1 OF"),
   ((py!"2", py!"3"), py!"GLONASS L2 OF"),
   ((py!"6", py!"1"), py!"NavIC L5 A")]

/-- `FMI_STATUS` (/repo/src/pynmeagps/nmeatypes_decodes.py:83-102). -/
def FMI_STATUS : List (Int × (Str × Str)) :=
  [(1, (py!"Finit", py!"Filter uninitialized flag")),
   (2, (py!"Ready", py!"Filter convergence completion flag")),
   (4, (py!"Inaccurate", py!"Filter convergence is in process")),
   (8, (py!"TiltReject", py!"Tilt angle over threshold")),
   (16, (py!"GnssReject", py!"RTK data poor quality")),
   (32, (py!"FReset", py!"Filter reset flag")),
   (64, (py!"FixRlsStage1", py!"Installation angle estimation stage 1")),
   (128, (py!"FixRlsStage2", py!"Installation angle estimation stage 2")),
   (256, (py!"FixRlsStage3", py!"Installation angle estimation stage 3")),
   (512, (py!"FixRlsStage4", py!"Installation angle estimation stage 4")),
   (1024, (py!"FixRlsOK", py!"Installation angle estimation complete")),
   (8192, (py!"Direction1", py!"Shake RTK pole to initialize direction 1")),
   (16384, (py!"Direction2", py!"Shake RTK pole to initialize direction 2")),
   (65536, (py!"GnssLost", py!"Invalid RTK data or RTK data missing")),
   (131072, (py!"FInitOk", py!"Filter initialization completed")),
   (262144, (py!"PPSReady", py!"PPS signal detected")),
   (524288, (py!"SyncReady", py!"Module time synchronized with PPS")),
   (1048576, (py!"GnssConnect", py!"Serial connection with RTK established"))]

/-- `d[v]` for a dictionary with integer keys. -/
def decodeInt {α} (d : List (Int × α)) : PyVal → Except Err α
  | .int n => match d.lookup n with
    | some x => .ok x
    | none => .error .key
  | _ => .error .key

/-- `d[v]` for a dictionary with text keys. -/
def decodeStr {α} (d : List (Str × α)) : PyVal → Except Err α
  | .str s => match d.lookup s with
    | some x => .ok x
    | none => .error .key
  | _ => .error .key

/-- `d[(v, w)]` for a dictionary whose keys are pairs of texts. -/
def decodePair {α} (d : List ((Str × Str) × α)) : PyVal → PyVal → Except Err α
  | .str s, .str t => match d.lookup (s, t) with
    | some x => .ok x
    | none => .error .key
  | _, _ => .error .key

end Nmea
