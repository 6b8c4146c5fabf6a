import Verif.Spec.Layout
import Verif.Spec.Float
import Mathlib.Algebra.Order.Ring.Unbundled.Rat
/-!
# Specification: the fields of the standard NMEA 0183 sentences

What each sentence carries, field by field, written down by hand from the NMEA 0183 standard with the
attribute names documented by the library. It does not refer to the library's own tables.
-/
namespace Spec.Nmea0183
open Py Nmea Spec

/-- What a field holds. -/
inductive Kind where
  /-- any text: names, flags, units, hexadecimal numbers -/
  | text
  /-- a whole number -/
  | whole
  /-- a decimal number -/
  | decimal
  /-- a time of day, `hhmmss` or `hhmmss.ff` -/
  | time
  /-- a date, `ddmmyy` -/
  | date
  /-- a date, `mmddyy` -/
  | usdate
  /-- a latitude, `ddmm.mmm` -/
  | latitude
  /-- a longitude, `dddmm.mmm` -/
  | longitude
  /-- `N` or `S` -/
  | north
  /-- `E` or `W` -/
  | east
  deriving DecidableEq

/-- An element of a sentence: one field, a group of fields repeated a fixed number of times, a group
repeated as often as it fits into the sentence, or a group repeated as often as the field at position `at_`
says. -/
inductive Item where
  | one (name : Str) (kind : Kind)
  | times (n : Nat) (body : List (Str × Kind))
  | many (body : List (Str × Kind))
  | counted (at_ : Nat) (body : List (Str × Kind))
  deriving DecidableEq

/-- A group written out `n` times; the `j`-th repetition of a name is followed by `_` and `j` with at
least two digits. -/
def repeated (n : Nat) (body : List (Str × Kind)) : List (Str × Kind) :=
  (List.range n).flatMap fun j => body.map fun x => (x.1 ++ groupSuffix (j + 1), x.2)

/-- Decimal digits. -/
def IsDigits (s : Str) : Prop := ∀ c ∈ s, 48 ≤ c ∧ c ≤ 57

instance (s : Str) : Decidable (IsDigits s) := by unfold IsDigits; infer_instance

/-- The number written in decimal digits. -/
def number (s : Str) : Nat := s.foldl (fun n c => 10 * n + (c - 48)) 0

/-- The layout of a sentence with the fields `f`, from position `pos` on. -/
def fields (f : List Str) : List Item → (pos : Nat) → List (Str × Kind)
  | [], _ => []
  | .one name kind :: r, pos => (name, kind) :: fields f r (pos + 1)
  | .times n body :: r, pos => repeated n body ++ fields f r (pos + n * body.length)
  | .many body :: r, pos =>
    let n := (f.length - pos) / body.length
    repeated n body ++ fields f r (pos + n * body.length)
  | .counted at_ body :: r, pos =>
    let n := number (f.getD at_ [])
    repeated n body ++ fields f r (pos + n * body.length)

/-- The fields that give the number of repetitions of a group are present and hold a number. -/
def CountsGiven (f : List Str) (lay : List Item) : Prop :=
  ∀ at_ body, Item.counted at_ body ∈ lay → ∃ ds, f[at_]? = some ds ∧ ds ≠ [] ∧ IsDigits ds

/-- A sign and its effect on a number. -/
def signText (negative : Bool) : Str := if negative then py!"-" else []

/-- `Denotes kind text val`: as a field of this kind, `text` is well-formed and means `val`. -/
inductive Denotes : Kind → Str → PyVal → Prop
  /-- an empty field is an empty text, whatever its kind -/
  | empty (k : Kind) : Denotes k [] (.str [])
  | text (s : Str) : Denotes .text s (.str s)
  | north (s : Str) : Denotes .north s (.str s)
  | east (s : Str) : Denotes .east s (.str s)
  | whole (negative : Bool) (ds : Str) : ds ≠ [] → IsDigits ds → ds.length ≤ 4300 →
      Denotes .whole (signText negative ++ ds) (.int (if negative then -(number ds : Int) else number ds))
  /-- a decimal number is the float nearest to it -/
  | decimal (negative : Bool) (ip fp : Str) : ip ≠ [] → IsDigits ip → IsDigits fp →
      Denotes .decimal (signText negative ++ ip ++ py!"." ++ fp)
        (.float (PyFloat.ofMag negative ((number (ip ++ fp) : ℚ) / 10 ^ fp.length)))
  | integral (negative : Bool) (ip : Str) : ip ≠ [] → IsDigits ip →
      Denotes .decimal (signText negative ++ ip) (.float (PyFloat.ofMag negative (number ip : ℚ)))
  | time (h m s : Nat) : h < 24 → m < 60 → s < 60 →
      Denotes .time (dec 2 h ++ dec 2 m ++ dec 2 s) (.time ⟨h, m, s, 0⟩)
  | fraction (h m s : Nat) (frac : Str) : h < 24 → m < 60 → s < 60 → IsDigits frac → frac ≠ [] → frac.length ≤ 6 →
      Denotes .time (dec 2 h ++ dec 2 m ++ dec 2 s ++ py!"." ++ frac)
        (.time ⟨h, m, s, number frac * 10 ^ (6 - frac.length)⟩)
  /-- two-digit years are those from 1969 to 2068 -/
  | date (d : Date) : d.Valid → 1969 ≤ d.year → d.year ≤ 2068 →
      Denotes .date (dec 2 d.day ++ dec 2 d.month ++ dec 2 (d.year % 100)) (.date d)
  | usdate (d : Date) : d.Valid → 1969 ≤ d.year → d.year ≤ 2068 →
      Denotes .usdate (dec 2 d.month ++ dec 2 d.day ++ dec 2 (d.year % 100)) (.date d)
  | latitude (deg min frac : Str) (r : ℚ) : IsDigits deg → IsDigits min → IsDigits frac →
      deg.length = 2 → min.length = 2 →
      |r - ((number deg : ℚ) + ((number min : ℚ) + (number frac : ℚ) / 10 ^ frac.length) / 60)| ≤ 6 / 10 ^ 11 →
      Denotes .latitude (deg ++ min ++ py!"." ++ frac) (.float (.fin false r))
  | longitude (deg min frac : Str) (r : ℚ) : IsDigits deg → IsDigits min → IsDigits frac →
      deg.length = 3 → min.length = 2 →
      |r - ((number deg : ℚ) + ((number min : ℚ) + (number frac : ℚ) / 10 ^ frac.length) / 60)| ≤ 6 / 10 ^ 11 →
      Denotes .longitude (deg ++ min ++ py!"." ++ frac) (.float (.fin false r))

/-- A float with a minus sign. -/
def negated : PyVal → PyVal
  | .float (.fin _ r) => .float (.fin true r)
  | v => v

/-- The value of a field, given what follows it in the sentence: a latitude followed by `S` and a
longitude followed by `W` are negative. -/
def oriented (kind : Kind) (next : Option Kind) (letter : Option Str) (v : PyVal) : PyVal :=
  if (kind = .latitude ∧ next = some .north ∧ letter = some py!"S") ∨
     (kind = .longitude ∧ next = some .east ∧ letter = some py!"W") then negated v else v

/-- The sentences: formatter (the last three letters of the header) and fields. -/
def sentences : List (Str × List Item) :=
  [(py!"AAM", [.one py!"arrce" .text, .one py!"perp" .text, .one py!"crad" .decimal, .one py!"cUnit" .text,
     .one py!"wpt" .text]),
   (py!"APA", [.one py!"LCgwarn" .text, .one py!"LCcwarn" .text, .one py!"ctrkerr" .decimal,
     .one py!"dirs" .text, .one py!"ctrkUnit" .text, .one py!"aalmcirc" .text, .one py!"aalmperp" .text,
     .one py!"bearP2D" .decimal, .one py!"bearP2Du" .text, .one py!"wpt" .text]),
   (py!"APB", [.one py!"LCgwarn" .text, .one py!"LCcwarn" .text, .one py!"ctrkerr" .decimal,
     .one py!"dirs" .text, .one py!"ctrkUnit" .text, .one py!"aalmcirc" .text, .one py!"aalmperp" .text,
     .one py!"bearO2D" .decimal, .one py!"bearO2Du" .text, .one py!"wpt" .text, .one py!"bearD" .decimal,
     .one py!"bearDu" .text, .one py!"bearS" .decimal, .one py!"bearSu" .text, .one py!"mode" .text]),
   (py!"BOD", [.one py!"bearT" .decimal, .one py!"bearTu" .text, .one py!"bearM" .decimal,
     .one py!"bearMu" .text, .one py!"wptD" .text, .one py!"wptO" .text]),
   (py!"BWC", [.one py!"fixutc" .time, .one py!"lat" .latitude, .one py!"NS" .north,
     .one py!"lon" .longitude, .one py!"EW" .east, .one py!"bearT" .decimal, .one py!"bearTu" .text,
     .one py!"bearM" .decimal, .one py!"bearMu" .text, .one py!"dist" .decimal, .one py!"distUnit" .text,
     .one py!"wpt" .text, .one py!"mode" .text]),
   (py!"BWR", [.one py!"fixutc" .time, .one py!"lat" .latitude, .one py!"NS" .north,
     .one py!"lon" .longitude, .one py!"EW" .east, .one py!"bearT" .decimal, .one py!"bearTu" .text,
     .one py!"bearM" .decimal, .one py!"bearMu" .text, .one py!"dist" .decimal, .one py!"distUnit" .text,
     .one py!"wpt" .text, .one py!"mode" .text]),
   (py!"BWW", [.one py!"bearT" .decimal, .one py!"bearTu" .text, .one py!"bearM" .decimal,
     .one py!"bearMu" .text, .one py!"wptto" .text, .one py!"wptfrom" .text]),
   (py!"CUR", [.one py!"valid" .text, .one py!"datasetnum" .whole, .one py!"layernum" .whole,
     .one py!"depth" .decimal, .one py!"direction" .decimal, .one py!"dirTR" .text,
     .one py!"speed" .decimal, .one py!"refdepth" .decimal, .one py!"heading" .decimal,
     .one py!"headingTM" .text, .one py!"speedref" .text]),
   (py!"DBT", [.one py!"depthf" .decimal, .one py!"depthfu" .text, .one py!"depthm" .decimal,
     .one py!"depthmu" .text, .one py!"depthfath" .decimal, .one py!"depthfathu" .text]),
   (py!"DPT", [.one py!"depth" .decimal, .one py!"offset" .decimal, .one py!"rangescale" .decimal]),
   (py!"DSE", [.one py!"numSen" .whole, .one py!"senNum" .whole, .one py!"queryflag" .text,
     .one py!"mmsi" .text, .many [(py!"code", .text), (py!"data", .text)]]),
   (py!"DTM", [.one py!"datum" .text, .one py!"subDatum" .text, .one py!"latOfset" .decimal,
     .one py!"NS" .north, .one py!"lonOfset" .decimal, .one py!"EW" .east, .one py!"alt" .decimal,
     .one py!"refDatum" .text]),
   (py!"GBS", [.one py!"time" .time, .one py!"errLat" .decimal, .one py!"errLon" .decimal,
     .one py!"errAlt" .decimal, .one py!"svid" .whole, .one py!"prob" .decimal, .one py!"bias" .decimal,
     .one py!"stddev" .decimal, .one py!"systemId" .text, .one py!"signalId" .text]),
   (py!"GGA", [.one py!"time" .time, .one py!"lat" .latitude, .one py!"NS" .north,
     .one py!"lon" .longitude, .one py!"EW" .east, .one py!"quality" .whole, .one py!"numSV" .whole,
     .one py!"HDOP" .decimal, .one py!"alt" .decimal, .one py!"altUnit" .text, .one py!"sep" .decimal,
     .one py!"sepUnit" .text, .one py!"diffAge" .decimal, .one py!"diffStation" .whole]),
   (py!"GLL", [.one py!"lat" .latitude, .one py!"NS" .north, .one py!"lon" .longitude, .one py!"EW" .east,
     .one py!"time" .time, .one py!"status" .text, .one py!"posMode" .text]),
   (py!"GNS", [.one py!"time" .time, .one py!"lat" .latitude, .one py!"NS" .north,
     .one py!"lon" .longitude, .one py!"EW" .east, .one py!"posMode" .text, .one py!"numSV" .whole,
     .one py!"HDOP" .decimal, .one py!"alt" .decimal, .one py!"sep" .decimal, .one py!"diffAge" .decimal,
     .one py!"diffStation" .whole, .one py!"navStatus" .text]),
   (py!"GRS", [.one py!"time" .time, .one py!"mode" .whole, .times 12 [(py!"residual", .decimal)],
     .one py!"systemId" .text, .one py!"signalId" .text]),
   (py!"GSA", [.one py!"opMode" .text, .one py!"navMode" .whole, .times 12 [(py!"svid", .whole)],
     .one py!"PDOP" .decimal, .one py!"HDOP" .decimal, .one py!"VDOP" .decimal, .one py!"systemId" .text]),
   (py!"GST", [.one py!"time" .time, .one py!"rangeRms" .decimal, .one py!"stdMajor" .decimal,
     .one py!"stdMinor" .decimal, .one py!"orient" .decimal, .one py!"stdLat" .decimal,
     .one py!"stdLong" .decimal, .one py!"stdAlt" .decimal]),
   (py!"GSV", [.one py!"numMsg" .whole, .one py!"msgNum" .whole, .one py!"numSV" .whole,
     .many [(py!"svid", .whole), (py!"elv", .whole), (py!"az", .whole), (py!"cno", .whole)],
     .one py!"signalID" .text]),
   (py!"HDG", [.one py!"headingM" .decimal, .one py!"deviation" .decimal, .one py!"deviationEW" .east,
     .one py!"variation" .decimal, .one py!"variationEW" .east]),
   (py!"HDM", [.one py!"headingM" .decimal, .one py!"headingMag" .text]),
   (py!"HDT", [.one py!"headingT" .decimal, .one py!"headingTu" .text]),
   (py!"HSC", [.one py!"cmdheadingT" .decimal, .one py!"cmdheadingTu" .text,
     .one py!"cmdheadingM" .decimal, .one py!"cmdheadingMu" .text, .one py!"status" .text]),
   (py!"MOB", [.one py!"emitterid" .text, .one py!"mobstatus" .text, .one py!"timeactivation" .time,
     .one py!"mobpossource" .text, .one py!"dayactivated" .whole, .one py!"timeposition" .time,
     .one py!"lat" .latitude, .one py!"NS" .north, .one py!"lon" .longitude, .one py!"EW" .east,
     .one py!"cog" .decimal, .one py!"sog" .decimal, .one py!"mmsi" .text, .one py!"batterystatus" .text]),
   (py!"MSK", [.one py!"freq" .decimal, .one py!"fmode" .text, .one py!"beacbps" .whole,
     .one py!"bpsmode" .text, .one py!"MMSfreq" .decimal, .one py!"channel" .text, .one py!"status" .text]),
   (py!"MSS", [.one py!"strength" .whole, .one py!"snr" .whole, .one py!"freq" .decimal,
     .one py!"beacbps" .whole, .one py!"channel" .text]),
   (py!"MTW", [.one py!"temp" .decimal, .one py!"tempu" .text]),
   (py!"MWD", [.one py!"dirT" .decimal, .one py!"dirTu" .text, .one py!"dirM" .decimal,
     .one py!"dirMu" .text, .one py!"speedN" .decimal, .one py!"speedNu" .text, .one py!"speedM" .decimal,
     .one py!"speedMu" .text]),
   (py!"MWV", [.one py!"angle" .decimal, .one py!"reference" .text, .one py!"speed" .decimal,
     .one py!"speedu" .text, .one py!"status" .text]),
   (py!"OSD", [.one py!"hdg" .decimal, .one py!"hdgstate" .text, .one py!"course" .decimal,
     .one py!"courseref" .text, .one py!"speed" .decimal, .one py!"speedref" .text, .one py!"set" .decimal,
     .one py!"drift" .decimal, .one py!"speedu" .text]),
   (py!"RMA", [.one py!"status" .text, .one py!"lat" .latitude, .one py!"NS" .north,
     .one py!"lon" .longitude, .one py!"EW" .east, .one py!"reserved1" .text, .one py!"reserved2" .text,
     .one py!"sog" .decimal, .one py!"cog" .decimal, .one py!"var" .decimal, .one py!"dirvar" .text]),
   (py!"RMB", [.one py!"status" .text, .one py!"ctrkerr" .decimal, .one py!"dirs" .text,
     .one py!"wptO" .text, .one py!"wptD" .text, .one py!"lat" .latitude, .one py!"NS" .north,
     .one py!"lon" .longitude, .one py!"EW" .east, .one py!"range" .decimal, .one py!"bearing" .decimal,
     .one py!"velclos" .decimal, .one py!"arrstatus" .text, .one py!"valstatus" .text]),
   (py!"RMC", [.one py!"time" .time, .one py!"status" .text, .one py!"lat" .latitude, .one py!"NS" .north,
     .one py!"lon" .longitude, .one py!"EW" .east, .one py!"spd" .decimal, .one py!"cog" .decimal,
     .one py!"date" .date, .one py!"mv" .decimal, .one py!"mvEW" .text, .one py!"posMode" .text,
     .one py!"navStatus" .text]),
   (py!"ROT", [.one py!"rot" .decimal, .one py!"valid" .text]),
   (py!"RPM", [.one py!"source" .text, .one py!"engineshaftnum" .whole, .one py!"rpm" .decimal,
     .one py!"pitch" .decimal, .one py!"status" .text]),
   (py!"RSA", [.one py!"stbdangle" .decimal, .one py!"stbdstatus" .text, .one py!"portangle" .decimal,
     .one py!"portstatus" .text]),
   (py!"RSD", [.one py!"origin1range" .decimal, .one py!"origin1bearing" .decimal, .one py!"vrm1" .decimal,
     .one py!"ebl1" .decimal, .one py!"origin2range" .decimal, .one py!"origin2bearing" .decimal,
     .one py!"vrm2" .decimal, .one py!"ebl2" .decimal, .one py!"cursorrange" .decimal,
     .one py!"rangebearing" .decimal, .one py!"rangescale" .decimal, .one py!"rangeu" .text,
     .one py!"displayrot" .text]),
   (py!"RTE", [.one py!"numMsg" .whole, .one py!"msgNum" .whole, .one py!"status" .text,
     .one py!"routeid" .text, .many [(py!"wpt", .text)]]),
   (py!"SFI", [.one py!"numSen" .whole, .one py!"senNum" .whole,
     .times 6 [(py!"freq", .whole), (py!"mode", .text)]]),
   (py!"THS", [.one py!"headt" .decimal, .one py!"mi" .text]),
   (py!"TLB", [.many [(py!"targetnum", .whole), (py!"label", .text)]]),
   (py!"TTM", [.one py!"targetnum" .whole, .one py!"targetdist" .decimal, .one py!"targetbearing" .decimal,
     .one py!"targetbearingu" .text, .one py!"targetspeed" .decimal, .one py!"targetcourse" .decimal,
     .one py!"targetcourseu" .text, .one py!"closestapproach" .decimal, .one py!"timetoCPA" .decimal,
     .one py!"speedu" .text, .one py!"targetname" .text, .one py!"targetstatus" .text,
     .one py!"reftarget" .text, .one py!"time" .time, .one py!"acquisitiontype" .text]),
   (py!"TXT", [.one py!"numMsg" .whole, .one py!"msgNum" .whole, .one py!"msgType" .whole,
     .one py!"text" .text]),
   (py!"VBW", [.one py!"longwaterspd" .decimal, .one py!"transwaterspd" .decimal,
     .one py!"waterspdstatus" .text, .one py!"longgroundspd" .decimal, .one py!"transgroundspd" .decimal,
     .one py!"groundspdstatus" .text, .one py!"sterntranswaterspd" .decimal,
     .one py!"sternwaterspdstatus" .text, .one py!"sterntransgroundspd" .decimal,
     .one py!"sterngroundspdstatus" .text]),
   (py!"VDM", [.one py!"numSen" .whole, .one py!"senNum" .whole, .one py!"seqid" .whole,
     .one py!"aischan" .text, .one py!"itumsg" .text, .one py!"fillbits" .whole]),
   (py!"VDO", [.one py!"numSen" .whole, .one py!"senNum" .whole, .one py!"seqid" .whole,
     .one py!"aischan" .text, .one py!"itumsg" .text, .one py!"fillbits" .whole]),
   (py!"VDR", [.one py!"dirT" .decimal, .one py!"dirTu" .text, .one py!"dirM" .decimal,
     .one py!"dirMu" .text, .one py!"spd" .decimal, .one py!"spdu" .text]),
   (py!"VHW", [.one py!"hdgT" .decimal, .one py!"hgdTu" .text, .one py!"hdgM" .decimal,
     .one py!"hgdMu" .text, .one py!"spdN" .decimal, .one py!"spdNu" .text, .one py!"spdK" .decimal,
     .one py!"spdKu" .text]),
   (py!"VLW", [.one py!"twd" .decimal, .one py!"twdUnit" .text, .one py!"wd" .decimal,
     .one py!"wdUnit" .text, .one py!"tgd" .decimal, .one py!"tgdUnit" .text, .one py!"gd" .decimal,
     .one py!"gdUnit" .text]),
   (py!"VPW", [.one py!"spdN" .decimal, .one py!"spdNu" .text, .one py!"spdK" .decimal,
     .one py!"spdKu" .text]),
   (py!"VTG", [.one py!"cogt" .decimal, .one py!"cogtUnit" .text, .one py!"cogm" .decimal,
     .one py!"cogmUnit" .text, .one py!"sogn" .decimal, .one py!"sognUnit" .text, .one py!"sogk" .decimal,
     .one py!"sogkUnit" .text, .one py!"posMode" .text]),
   (py!"WCV", [.one py!"vel" .decimal, .one py!"velu" .text, .one py!"wpt" .text, .one py!"mode" .text]),
   (py!"WNC", [.one py!"distN" .decimal, .one py!"distNu" .text, .one py!"distK" .decimal,
     .one py!"distKu" .text, .one py!"wptto" .text, .one py!"wptfrom" .text]),
   (py!"WPL", [.one py!"lat" .latitude, .one py!"NS" .north, .one py!"lon" .longitude, .one py!"EW" .east,
     .one py!"wpt" .text]),
   (py!"XDR", [
     .many [(py!"tdrtype", .text), (py!"data", .decimal), (py!"dataunit", .text), (py!"tdrid", .text)]]),
   (py!"XTE", [.one py!"gwarn" .text, .one py!"LCcwarn" .text, .one py!"ctrkerr" .decimal,
     .one py!"dirs" .text, .one py!"disUnit" .text, .one py!"mode" .text]),
   (py!"XTR", [.one py!"ctkerr" .decimal, .one py!"steerdir" .text, .one py!"units" .text]),
   (py!"ZDA", [.one py!"time" .time, .one py!"day" .whole, .one py!"month" .whole, .one py!"year" .whole,
     .one py!"ltzh" .text, .one py!"ltzn" .text]),
   (py!"ZFO", [.one py!"observationtime" .time, .one py!"elapsedtime" .time, .one py!"originwpt" .text]),
   (py!"ZTG", [.one py!"observationtime" .time, .one py!"timetogo" .time, .one py!"destwpt" .text]),
   (py!"ABK", [.one py!"mmsi" .text, .one py!"aischan" .text, .one py!"itumsg" .text,
     .one py!"msgSeq" .whole, .one py!"ackType" .whole]),
   (py!"ACK", [.one py!"alarmid" .text]),
   (py!"ALR", [.one py!"timealarmchange" .time, .one py!"alarmnum" .text, .one py!"alarmcond" .text,
     .one py!"alarmstate" .text, .one py!"alarmtext" .text]),
   (py!"HBT", [.one py!"repeatint" .decimal, .one py!"status" .text, .one py!"seqid" .whole]),
   (py!"NRX", [.one py!"numSen" .whole, .one py!"senNum" .whole, .one py!"seqid" .whole,
     .one py!"msgcode" .text, .one py!"freqtable" .text, .one py!"time" .time, .one py!"day" .whole,
     .one py!"month" .whole, .one py!"year" .whole, .one py!"totalchar" .decimal,
     .one py!"totalbad" .decimal, .one py!"status" .text, .one py!"body" .text]),
   (py!"VSD", [.one py!"type" .text, .one py!"draught" .decimal, .one py!"pob" .whole,
     .one py!"destination" .text, .one py!"etatime" .time, .one py!"etaday" .whole,
     .one py!"etamonth" .whole, .one py!"regappflags1" .whole, .one py!"regappflags2" .whole]),
   (py!"SSD", [.one py!"callsign" .text, .one py!"name" .text, .one py!"posAref" .whole,
     .one py!"posBref" .whole, .one py!"posCref" .whole, .one py!"posDref" .whole, .one py!"DTEind" .text,
     .one py!"sourceid" .text]),
   (py!"LR1", [.one py!"seqNum" .whole, .one py!"mmsiresponder" .text, .one py!"mmsirequester" .text,
     .one py!"shipname" .text, .one py!"callsign" .text, .one py!"imonum" .text]),
   (py!"LR3", [.one py!"seqNum" .whole, .one py!"mmsiresponder" .text, .one py!"destination" .text,
     .one py!"etadate" .date, .one py!"etatime" .time, .one py!"draught" .decimal,
     .one py!"cargo" .decimal, .one py!"length" .decimal, .one py!"breadth" .decimal,
     .one py!"type" .decimal, .one py!"persons" .decimal]),
   (py!"TRF", [.one py!"time" .time, .one py!"date" .date, .one py!"lat" .latitude, .one py!"NS" .north,
     .one py!"lon" .longitude, .one py!"EW" .east, .one py!"elangle" .decimal, .one py!"iter" .decimal,
     .one py!"Dopint" .decimal, .one py!"dist" .decimal, .one py!"svid" .whole]),
   (py!"GFA", [.one py!"time" .time, .one py!"hprotlvl" .decimal, .one py!"vprotlvl" .decimal,
     .one py!"semimajstddev" .decimal, .one py!"semiminstddev" .decimal,
     .one py!"semimajorientation" .decimal, .one py!"altstddev" .decimal, .one py!"accuracy" .decimal,
     .one py!"integrity" .text]),
   (py!"RLM", [.one py!"beacon" .text, .one py!"time" .time, .one py!"code" .text, .one py!"body" .text])]

end Spec.Nmea0183
