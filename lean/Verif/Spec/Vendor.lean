import Verif.Spec.Nmea0183
/-!
# Specification: the fields of proprietary sentences

What each sentence carries, field by field, with the attribute names documented by the library. The first 57 of
`sentences` (u-blox, Garmin, Trimble and others) were written down from the manufacturers' descriptions; the others, whose
manuals are not at hand, were transcribed from the library's payload descriptions
(`/repo/src/pynmeagps/nmeatypes_get_prop.py`) and say what the library promises.
-/
namespace Spec.Vendor
open Py Nmea Spec Spec.Nmea0183

/-- Which sentences with a given id a layout is for. -/
inductive Select where
  /-- all of them -/
  | always
  /-- those whose first field is this word -/
  | word (w : Str)
  /-- those whose first field is a time -/
  | time
  /-- those which are not a bare acknowledgement `OK` or `ERROR,<code>` -/
  | data
  deriving DecidableEq

/-- A sentence is selected. -/
def Selects : Select → List Str → Prop
  | .always, _ => True
  | .word w, f => f.head? = some w
  | .time, f => ∃ a b r, f.head? = some (a :: b :: r) ∧ 48 ≤ b ∧ b ≤ 57
  | .data, f => f ≠ [py!"OK"] ∧ ¬ (f.length = 2 ∧ f.head? = some py!"ERROR")

/-- The sentences: id (the header without its leading `P`), which of them, and their fields. -/
def sentences : List (Str × Select × List Item) :=
   -- u-blox receiver description, PUBX
  [(py!"UBX", (.word py!"00"), [.one py!"msgId" .text, .one py!"time" .time, .one py!"lat" .latitude,
     .one py!"NS" .north, .one py!"lon" .longitude, .one py!"EW" .east, .one py!"altRef" .decimal,
     .one py!"navStat" .text, .one py!"hAcc" .decimal, .one py!"vAcc" .decimal, .one py!"SOG" .decimal,
     .one py!"COG" .decimal, .one py!"vVel" .decimal, .one py!"diffAge" .decimal, .one py!"HDOP" .decimal,
     .one py!"VDOP" .decimal, .one py!"TDOP" .decimal, .one py!"numSVs" .whole, .one py!"reserved" .whole,
     .one py!"DR" .whole]),
   (py!"UBX", (.word py!"03"), [.one py!"msgId" .text, .one py!"numSv" .whole,
     .counted 1 [(py!"svid", .whole), (py!"status", .text), (py!"azi", .decimal), (py!"ele", .decimal), (py!"cno", .whole), (py!"lck", .whole)]]),
   (py!"UBX", (.word py!"04"), [.one py!"msgId" .text, .one py!"time" .time, .one py!"date" .date,
     .one py!"utcTow" .text, .one py!"utcWk" .text, .one py!"leapSec" .text, .one py!"clkBias" .decimal,
     .one py!"clkDrift" .decimal, .one py!"tpGran" .whole]),
   (py!"UBX", (.word py!"05"), [.one py!"msgId" .text, .one py!"pulses" .whole, .one py!"period" .whole,
     .one py!"gyroMean" .whole, .one py!"temperature" .decimal, .one py!"direction" .text,
     .one py!"pulseScaleCS" .whole, .one py!"gyroScaleCS" .whole, .one py!"gyroBiasCS" .whole,
     .one py!"pulseScale" .decimal, .one py!"gyroBias" .decimal, .one py!"gyroScale" .decimal,
     .one py!"pulseScaleAcc" .whole, .one py!"gyroBiasAcc" .whole, .one py!"gyroScaleAcc" .whole,
     .one py!"measUsed" .text]),
   -- Garmin proprietary NMEA 0183 sentences
   (py!"GRME", .always, [.one py!"HPE" .decimal, .one py!"HPEUnit" .text, .one py!"VPE" .decimal,
     .one py!"VPEUnit" .text, .one py!"EPE" .decimal, .one py!"EPEUnit" .text]),
   (py!"GRMF", .always, [.one py!"week" .whole, .one py!"secs" .whole, .one py!"date" .date,
     .one py!"time" .time, .one py!"leapsec" .whole, .one py!"lat" .latitude, .one py!"NS" .north,
     .one py!"lon" .longitude, .one py!"EW" .east, .one py!"mode" .text, .one py!"fix" .whole,
     .one py!"spd" .decimal, .one py!"course" .whole, .one py!"PDOP" .decimal, .one py!"TDOP" .decimal]),
   (py!"GRMH", .always, [.one py!"status" .text, .one py!"vspd" .decimal, .one py!"verr" .decimal,
     .one py!"spdtgt" .decimal, .one py!"spdwpt" .decimal, .one py!"height" .decimal, .one py!"trk" .decimal,
     .one py!"course" .decimal]),
   (py!"GRMM", .always, [.one py!"dtm" .text]),
   (py!"GRMT", .always, [.one py!"ver" .text, .one py!"ROMtest" .text, .one py!"rcvrtest" .text,
     .one py!"stortest" .text, .one py!"rtctest" .text, .one py!"osctest" .text, .one py!"datatest" .text,
     .one py!"temp" .decimal, .one py!"cfgdata" .text]),
   (py!"GRMV", .always, [.one py!"velE" .decimal, .one py!"velN" .decimal, .one py!"velZ" .decimal]),
   (py!"GRMZ", .always, [.one py!"alt" .decimal, .one py!"altUnit" .text, .one py!"fix" .whole]),
   (py!"GRMB", .always, [.one py!"freq" .decimal, .one py!"bps" .whole, .one py!"snr" .whole,
     .one py!"quality" .whole, .one py!"dist" .decimal, .one py!"status" .whole, .one py!"fixsrc" .text,
     .one py!"mode" .text]),
   -- Kenwood and Magellan waypoints
   (py!"KWDWPL", .always, [.one py!"time" .time, .one py!"status" .text, .one py!"lat" .latitude,
     .one py!"NS" .north, .one py!"lon" .longitude, .one py!"EW" .east, .one py!"sog" .decimal,
     .one py!"cog" .decimal, .one py!"date" .date, .one py!"alt" .decimal, .one py!"wpt" .text,
     .one py!"ts" .text]),
   (py!"KLSH", .always, [.one py!"lat" .latitude, .one py!"NS" .north, .one py!"lon" .longitude,
     .one py!"EW" .east, .one py!"time" .time, .one py!"status" .text, .one py!"fleetId" .text,
     .one py!"deviceId" .text]),
   (py!"KNSH", .always, [.one py!"lat" .latitude, .one py!"NS" .north, .one py!"lon" .longitude,
     .one py!"EW" .east, .one py!"time" .time, .one py!"status" .text, .one py!"senderid" .text]),
   (py!"KLDS", .always, [.one py!"time" .time, .one py!"status" .text, .one py!"lat" .latitude,
     .one py!"NS" .north, .one py!"lon" .longitude, .one py!"EW" .east, .one py!"sog" .decimal,
     .one py!"cog" .decimal, .one py!"dat" .date, .one py!"declination" .decimal, .one py!"dec_dir" .text,
     .one py!"fleet" .decimal, .one py!"senderid" .text, .one py!"senderstatus" .decimal,
     .one py!"reserved" .decimal]),
   (py!"KNDS", .always, [.one py!"time" .time, .one py!"status" .text, .one py!"lat" .latitude,
     .one py!"NS" .north, .one py!"lon" .longitude, .one py!"EW" .east, .one py!"sog" .decimal,
     .one py!"cog" .decimal, .one py!"date" .date, .one py!"declination" .decimal, .one py!"dec_dir" .text,
     .one py!"senderid" .text, .one py!"senderstatus" .decimal, .one py!"reserved" .decimal]),
   (py!"MGNWPL", .always, [.one py!"lat" .latitude, .one py!"NS" .north, .one py!"lon" .longitude,
     .one py!"EW" .east, .one py!"alt" .decimal, .one py!"alt_unit" .text, .one py!"wpt" .text,
     .one py!"comment" .text, .one py!"icon" .text, .one py!"type" .text]),
   -- Ashtech / Trimble PASHR
   (py!"ASHR", .time, [.one py!"utctime" .time, .one py!"trueHdg" .decimal, .one py!"trueHdgInd" .text,
     .one py!"roll" .decimal, .one py!"pitch" .decimal, .one py!"reserved" .text, .one py!"rollAcc" .decimal,
     .one py!"pitchAcc" .decimal, .one py!"hdgAcc" .decimal, .one py!"gnssQual" .whole,
     .one py!"imuAlign" .whole]),
   (py!"ASHR", (.word py!"POS"), [.one py!"msgId" .text, .one py!"solnType" .whole, .one py!"sip" .whole,
     .one py!"utctime" .time, .one py!"lat" .latitude, .one py!"NS" .north, .one py!"lon" .longitude,
     .one py!"EW" .east, .one py!"alt" .decimal, .one py!"corrAge" .decimal, .one py!"trueTrk" .decimal,
     .one py!"sog" .decimal, .one py!"vertVel" .decimal, .one py!"PDOP" .decimal, .one py!"HDOP" .decimal,
     .one py!"VDOP" .decimal, .one py!"TDOP" .decimal, .one py!"baseId" .text]),
   (py!"ASHR", (.word py!"ATT"), [.one py!"msgId" .text, .one py!"weekTime" .decimal,
     .one py!"trueHdg" .decimal, .one py!"pitch" .decimal, .one py!"roll" .decimal,
     .one py!"carrierRmsErr" .decimal, .one py!"baselineRmsErr" .decimal, .one py!"ambiguity" .whole]),
   (py!"ASHR", (.word py!"CPO"), [.one py!"msgId" .text, .one py!"lat" .latitude, .one py!"NS" .north,
     .one py!"lon" .longitude, .one py!"EW" .east, .one py!"height" .decimal]),
   (py!"ASHR", (.word py!"LTN"), [.one py!"msgId" .text, .one py!"latency" .decimal]),
   (py!"ASHR", (.word py!"THS"), [.one py!"msgId" .text, .one py!"lastComputedHdg" .decimal,
     .one py!"solnStatus" .text]),
   (py!"ASHR", (.word py!"TTT"), [.one py!"msgId" .text, .one py!"dow" .whole, .one py!"timeTag" .time]),
   (py!"ASHR", (.word py!"VEL"), [.one py!"msgId" .text, .one py!"velE" .decimal, .one py!"velN" .decimal,
     .one py!"velV" .decimal, .one py!"velERmsErr" .decimal, .one py!"velNRmsErr" .decimal,
     .one py!"velVRmsErr" .decimal, .one py!"velSmoothInt" .whole]),
   (py!"ASHR", (.word py!"BTS"), [.one py!"msgId" .text,
     .times 3 [(py!"port", .text), (py!"connected", .whole), (py!"name", .text), (py!"addr", .text), (py!"linkQual", .whole)]]),
   (py!"ASHR", (.word py!"SGA"), [.one py!"msgId" .text, .one py!"siv" .whole,
     .counted 1 [(py!"prn", .whole), (py!"azi", .decimal), (py!"ele", .decimal), (py!"snrE1", .decimal), (py!"snrE5b", .decimal), (py!"snrE5a", .decimal), (py!"usageStatus", .text), (py!"corrStatus", .text)]]),
   (py!"ASHR", (.word py!"SGL"), [.one py!"msgId" .text, .one py!"siv" .whole,
     .counted 1 [(py!"prn", .whole), (py!"azi", .decimal), (py!"ele", .decimal), (py!"snrL1", .decimal), (py!"snrL2", .decimal), (py!"snrL3", .decimal), (py!"usageStatus", .text), (py!"corrStatus", .text)]]),
   (py!"ASHR", (.word py!"SGP"), [.one py!"msgId" .text, .one py!"siv" .whole,
     .counted 1 [(py!"prn", .whole), (py!"azi", .decimal), (py!"ele", .decimal), (py!"snrL1", .decimal), (py!"snrL2", .decimal), (py!"snrL3", .decimal), (py!"usageStatus", .text), (py!"corrStatus", .text)]]),
   (py!"ASHR", (.word py!"SBD"), [.one py!"msgId" .text, .one py!"siv" .whole,
     .counted 1 [(py!"prn", .whole), (py!"azi", .decimal), (py!"ele", .decimal), (py!"snrB1", .decimal), (py!"snrB2", .decimal), (py!"snrB3", .decimal), (py!"usageStatus", .text), (py!"corrStatus", .text)]]),
   (py!"ASHR", (.word py!"ALR"), [.one py!"msgId" .text, .one py!"alarmCode" .whole,
     .one py!"alarmSubcode" .whole, .one py!"streamId" .text, .one py!"alarmCat" .text,
     .one py!"alarmLevel" .whole, .one py!"desc" .text]),
   (py!"ASHR", (.word py!"ARA"), [.one py!"msgId" .text, .one py!"valid" .text, .one py!"utctime" .time,
     .one py!"hdgSpeed" .decimal, .one py!"pitchSpeed" .decimal, .one py!"rollSpeed" .decimal,
     .one py!"hdgAcc" .decimal, .one py!"pitchAcc" .decimal, .one py!"rollAcc" .decimal,
     .one py!"reserved" .text]),
   (py!"ASHR", (.word py!"ARR"), [.one py!"msgId" .text, .one py!"vectNum" .whole, .one py!"vectMode" .whole,
     .one py!"sip" .whole, .one py!"utctime" .time, .one py!"antEcefX" .decimal, .one py!"antEcefY" .decimal,
     .one py!"antEcefZ" .decimal, .one py!"coord1std" .decimal, .one py!"coord2std" .decimal,
     .one py!"coord3std" .decimal, .one py!"coord12corr" .decimal, .one py!"coord13corr" .decimal,
     .one py!"coord23corr" .decimal, .one py!"refId" .text, .one py!"vectFrame" .whole,
     .one py!"vectOpt" .whole, .one py!"clkAssum" .whole]),
   (py!"ASHR", (.word py!"CAP"), [.one py!"msgId" .text, .one py!"name" .text, .one py!"L1Noffset" .decimal,
     .one py!"L1Eoffset" .decimal, .one py!"L1Voffset" .decimal, .one py!"L2Noffset" .decimal,
     .one py!"L2Eoffset" .decimal, .one py!"L2Voffset" .decimal]),
   (py!"ASHR", (.word py!"CPA"), [.one py!"msgId" .text, .one py!"antHeight" .decimal,
     .one py!"antRadius" .decimal, .one py!"vertOffset" .decimal, .one py!"horAzi" .decimal,
     .one py!"horDist" .decimal, .one py!"reserved1" .text, .one py!"reserved2" .text,
     .one py!"reserved3" .text, .one py!"reserved4" .text]),
   (py!"ASHR", (.word py!"DDM"), [.one py!"msgId" .text, .one py!"corrPort" .text,
     .one py!"msgTransport" .text, .one py!"msgIdent" .text, .one py!"count" .whole, .one py!"baseId" .text,
     .one py!"timeLag" .decimal, .one py!"corrAge" .decimal, .one py!"attr" .text]),
   (py!"ASHR", (.word py!"DDS"), [.one py!"msgId" .text, .one py!"diffDecodeNum" .whole,
     .one py!"timeTag" .time, .one py!"numMsgDecoded" .whole, .one py!"port" .text, .one py!"prot" .text,
     .one py!"timeWindow" .whole, .one py!"percLinkQual" .whole, .one py!"percDeselectInfo" .whole,
     .one py!"percCrc" .whole, .one py!"latencyStd" .whole, .one py!"latencyMean" .whole,
     .one py!"epochIntMean" .whole, .one py!"epochIntMin" .whole, .one py!"numMsgDetected" .whole,
     .one py!"msgType" .text, .one py!"lastMsgInt" .decimal, .one py!"lastMsgAge" .decimal]),
   (py!"ASHR", (.word py!"HPR"), [.one py!"msgId" .text, .one py!"utctime" .time, .one py!"trueHdg" .decimal,
     .one py!"pitch" .decimal, .one py!"roll" .decimal, .one py!"carrierRmsErr" .decimal,
     .one py!"baselineRmsErr" .decimal, .one py!"ambiguity" .whole, .one py!"attStatus" .whole,
     .one py!"antBaseline" .text, .one py!"PDOP" .decimal]),
   (py!"ASHR", (.word py!"MDM"), [.one py!"msgId" .text, .one py!"port" .text, .one py!"baud" .whole,
     .one py!"state" .text, .one py!"powerMode" .text, .one py!"pinCode" .text, .one py!"protocol" .whole,
     .one py!"csdMode" .whole, .one py!"accessPoint" .text, .one py!"login" .text, .one py!"password" .text,
     .one py!"phoneNum" .text, .one py!"autoDial" .text, .one py!"maxRedial" .whole, .one py!"model" .text,
     .one py!"selMode" .whole, .one py!"gsmAnt" .text]),
   (py!"ASHR", (.word py!"PBN"), [.one py!"msgId" .text, .one py!"gpsWeek" .decimal, .one py!"siteName" .text,
     .one py!"navX" .decimal, .one py!"navY" .decimal, .one py!"navT" .decimal, .one py!"navXdot" .decimal,
     .one py!"navYdot" .decimal, .one py!"navTdot" .decimal, .one py!"PDOP" .decimal]),
   (py!"ASHR", (.word py!"PTT"), [.one py!"msgId" .text, .one py!"dow" .whole, .one py!"timeTag" .text]),
   (py!"ASHR", (.word py!"PWR"), [.one py!"msgId" .text, .one py!"powerSource" .whole,
     .one py!"voltsOut" .decimal, .one py!"reserved1" .text, .one py!"percRemaining" .whole,
     .one py!"reserved2" .text, .one py!"voltsIn" .decimal, .one py!"chargeStatus" .whole,
     .one py!"reserved3" .text, .one py!"tempInt" .decimal, .one py!"tempBatt" .decimal]),
   (py!"ASHR", (.word py!"RCS"), [.one py!"msgId" .text, .one py!"recordStatus" .text, .one py!"memory" .whole,
     .one py!"fileName" .text, .one py!"recordRate" .whole, .one py!"occupationType" .whole,
     .one py!"occupationState" .whole, .one py!"occupationName" .text]),
   (py!"ASHR", (.word py!"SGO"), [.one py!"msgId" .text, .one py!"siv" .whole,
     .counted 1 [(py!"prn", .whole), (py!"azi", .decimal), (py!"ele", .decimal), (py!"snrE1", .decimal), (py!"snrE5b", .decimal), (py!"snrE5a", .decimal), (py!"snrE6", .decimal), (py!"reserved", .text), (py!"usageStatus", .text), (py!"corrStatus", .text)]]),
   (py!"ASHR", (.word py!"SIR"), [.one py!"msgId" .text, .one py!"siv" .whole,
     .counted 1 [(py!"prn", .whole), (py!"azi", .decimal), (py!"ele", .decimal), (py!"reserved2", .text), (py!"reserved3", .text), (py!"snrL5", .decimal), (py!"usageStatus", .text), (py!"corrStatus", .text)]]),
   (py!"ASHR", (.word py!"SLB"), [.one py!"msgId" .text, .one py!"siv" .whole,
     .counted 1 [(py!"satNum", .whole), (py!"contTrkInt", .decimal), (py!"azi", .decimal), (py!"ele", .decimal), (py!"snr", .decimal)]]),
   (py!"ASHR", (.word py!"SQZ"), [.one py!"msgId" .text, .one py!"siv" .whole,
     .counted 1 [(py!"prn", .whole), (py!"azi", .decimal), (py!"ele", .decimal), (py!"snrL1", .decimal), (py!"snrL2", .decimal), (py!"snrL3", .decimal), (py!"usageStatus", .text), (py!"corrStatus", .text)]]),
   (py!"ASHR", (.word py!"SSB"), [.one py!"msgId" .text, .one py!"siv" .whole,
     .counted 1 [(py!"prn", .whole), (py!"azi", .decimal), (py!"ele", .decimal), (py!"snrL1", .decimal), (py!"reserved", .text), (py!"snrL5", .decimal), (py!"usageStatus", .text), (py!"corrStatus", .text)]]),
   (py!"ASHR", (.word py!"TEM"), [.one py!"msgId" .text, .one py!"temp" .decimal]),
   (py!"ASHR", (.word py!"VCR"), [.one py!"msgId" .text, .one py!"baselineNum" .whole,
     .one py!"baselineMode" .whole, .one py!"sip" .whole, .one py!"utctime" .time, .one py!"antEcefX" .decimal,
     .one py!"antEcefY" .decimal, .one py!"antEcefZ" .decimal, .one py!"coord1std" .decimal,
     .one py!"coord2std" .decimal, .one py!"coord3std" .decimal, .one py!"coord12corr" .decimal,
     .one py!"coord13corr" .decimal, .one py!"coord23corr" .decimal, .one py!"baseId" .text,
     .one py!"baselineCoordId" .text]),
   (py!"ASHR", (.word py!"VCT"), [.one py!"msgId" .text, .one py!"baselineMode" .whole, .one py!"sip" .whole,
     .one py!"utctime" .time, .one py!"antEcefX" .decimal, .one py!"antEcefY" .decimal,
     .one py!"antEcefZ" .decimal, .one py!"coord1std" .decimal, .one py!"coord2std" .decimal,
     .one py!"coord3std" .decimal, .one py!"coord12corr" .decimal, .one py!"coord13corr" .decimal,
     .one py!"coord23corr" .decimal, .one py!"baseId" .text, .one py!"baselineCoordId" .text,
     .one py!"baselineNum" .whole, .one py!"vrs" .whole, .one py!"staticModeAssumption" .whole]),
   -- Trimble PTNL
   (py!"TNL", (.word py!"AVR"), [.one py!"msgId" .text, .one py!"utctime" .time, .one py!"yaw" .decimal,
     .one py!"yawc" .text, .one py!"tilt" .decimal, .one py!"tiltc" .text, .one py!"roll" .decimal,
     .one py!"rollc" .text, .one py!"range" .decimal, .one py!"gpsQual" .whole, .one py!"PDOP" .decimal,
     .one py!"sip" .whole]),
   (py!"TNL", (.word py!"EVT"), [.one py!"msgId" .text, .one py!"utctime" .time, .one py!"port" .whole,
     .one py!"numEvents" .whole, .one py!"wno" .whole, .one py!"dow" .whole, .one py!"leaps" .whole]),
   (py!"TNL", (.word py!"PJT"), [.one py!"msgId" .text, .one py!"coordName" .text, .one py!"projName" .text]),
   (py!"TNL", (.word py!"VGK"), [.one py!"msgId" .text, .one py!"utctime" .time, .one py!"utcdate" .usdate,
     .one py!"vectE" .decimal, .one py!"vectN" .decimal, .one py!"vectV" .decimal, .one py!"gpsQual" .whole,
     .one py!"sip" .whole, .one py!"DOP" .decimal, .one py!"vunit" .text]),
   (py!"TNL", (.word py!"VHD"), [.one py!"msgId" .text, .one py!"utctime" .time, .one py!"utcdate" .usdate,
     .one py!"azi" .decimal, .one py!"aziRate" .decimal, .one py!"ele" .decimal, .one py!"eleRate" .decimal,
     .one py!"range" .decimal, .one py!"rangeRate" .decimal, .one py!"gpsQual" .whole, .one py!"sip" .whole,
     .one py!"PDOP" .decimal, .one py!"unit" .text]),
   (py!"GPPADV", (.word py!"110"), [.one py!"msgId" .text, .one py!"lat" .decimal, .one py!"lon" .decimal,
     .one py!"height" .decimal, .one py!"ele" .decimal, .one py!"azi" .decimal]),
   -- Fugro and Furuno
   (py!"FUGDP", .always, [.one py!"type" .text, .one py!"utctime" .time, .one py!"lat" .latitude,
     .one py!"NS" .north, .one py!"lon" .longitude, .one py!"EW" .east, .one py!"siv" .whole,
     .one py!"dpvoaQual" .text, .one py!"dgnssMode" .text, .one py!"smajErr" .decimal,
     .one py!"sminErr" .decimal, .one py!"dirErr" .whole]),
   (py!"FEC", (.word py!"GPatt"), [.one py!"msgId" .text, .one py!"yaw" .decimal, .one py!"pitch" .decimal,
     .one py!"roll" .decimal]),
   (py!"FEC", (.word py!"GPhve"), [.one py!"msgId" .text, .one py!"heave" .decimal, .one py!"status" .text]),
   -- Septentrio PSSN
   (py!"SSN", (.word py!"HRP"), [.one py!"msgId" .text, .one py!"utc" .time, .one py!"date" .date,
     .one py!"hdg" .decimal, .one py!"roll" .decimal, .one py!"pitch" .decimal, .one py!"hdgstd" .decimal,
     .one py!"rollstd" .decimal, .one py!"pitchstd" .decimal, .one py!"sip" .whole, .one py!"attmode" .text,
     .one py!"magvar" .decimal, .one py!"magvardir" .east]),
   (py!"SSN", (.word py!"RBD"), [.one py!"msgId" .text, .one py!"utc" .time, .one py!"date" .date,
     .one py!"azi" .decimal, .one py!"ele" .decimal, .one py!"sip" .whole, .one py!"quality" .text,
     .one py!"basemode" .text, .one py!"corrage" .decimal, .one py!"roverserial" .text, .one py!"baseid" .text]),
   (py!"SSN", (.word py!"RBP"), [.one py!"msgId" .text, .one py!"utc" .time, .one py!"date" .date,
     .one py!"baseN" .decimal, .one py!"baseE" .decimal, .one py!"baseU" .decimal, .one py!"sip" .whole,
     .one py!"quality" .text, .one py!"basemode" .text, .one py!"corrage" .decimal,
     .one py!"roverserial" .text, .one py!"baseid" .text]),
   (py!"SSN", (.word py!"RBV"), [.one py!"msgId" .text, .one py!"utc" .time, .one py!"date" .date,
     .one py!"baserocN" .decimal, .one py!"baserocE" .decimal, .one py!"baserocU" .decimal,
     .one py!"sip" .whole, .one py!"quality" .text, .one py!"basemode" .text, .one py!"corrage" .decimal,
     .one py!"roverserial" .text, .one py!"baseid" .text]),
   (py!"SSN", (.word py!"TFM"), [.one py!"msgId" .text, .one py!"utc" .time, .one py!"heightind" .text,
     .one py!"usage2122" .text, .one py!"usage2324" .text, .one py!"usage252627" .text]),
   -- Quectel PQTM, PAIR
   (py!"QTMDOP", .data, [.one py!"msgver" .whole, .one py!"tow" .whole, .one py!"gdop" .decimal,
     .one py!"pdop" .decimal, .one py!"tdop" .decimal, .one py!"vdop" .decimal, .one py!"hdop" .decimal,
     .one py!"ndop" .decimal, .one py!"edop" .decimal]),
   (py!"QTMEPE", .data, [.one py!"msgver" .whole, .one py!"epenorth" .decimal, .one py!"epeeast" .decimal,
     .one py!"epedown" .decimal, .one py!"epe2d" .decimal, .one py!"epe3d" .decimal]),
   (py!"QTMVEL", .data, [.one py!"msgver" .whole, .one py!"time" .time, .one py!"veln" .decimal,
     .one py!"vele" .decimal, .one py!"veld" .decimal, .one py!"gndspd" .decimal, .one py!"spd" .decimal,
     .one py!"hdg" .decimal, .one py!"gndspdacc" .decimal, .one py!"spdacc" .decimal,
     .one py!"hdgacc" .decimal]),
   (py!"QTMODO", .data, [.one py!"msgver" .whole, .one py!"time" .time, .one py!"state" .whole,
     .one py!"dist" .decimal]),
   (py!"QTMPVT", .data, [.one py!"msgver" .whole, .one py!"tow" .whole, .one py!"date" .text,
     .one py!"time" .time, .one py!"reserved" .whole, .one py!"fixtype" .whole, .one py!"numsv" .whole,
     .one py!"leaps" .whole, .one py!"lat" .decimal, .one py!"lon" .decimal, .one py!"alt" .decimal,
     .one py!"sep" .decimal, .one py!"veln" .decimal, .one py!"vele" .decimal, .one py!"veld" .decimal,
     .one py!"spd" .decimal, .one py!"hdg" .decimal, .one py!"hdop" .decimal, .one py!"pdop" .decimal]),
   (py!"QTMSVINSTATUS", .data, [.one py!"msgver" .whole, .one py!"tow" .whole, .one py!"valid" .whole,
     .one py!"reserved0" .whole, .one py!"reserved1" .whole, .one py!"obs" .whole, .one py!"cfgdur" .whole,
     .one py!"meanx" .decimal, .one py!"meany" .decimal, .one py!"meanz" .decimal, .one py!"meanacc" .decimal]),
   (py!"QTMTAR", .data, [.one py!"msgver" .whole, .one py!"time" .decimal, .one py!"quality" .decimal,
     .one py!"res" .decimal, .one py!"length" .decimal, .one py!"pitch" .decimal, .one py!"roll" .decimal,
     .one py!"heading" .decimal, .one py!"accpitch" .decimal, .one py!"accroll" .decimal,
     .one py!"accheading" .decimal, .one py!"usedsv" .whole]),
   (py!"QTMVEHATT", .data, [.one py!"msgver" .whole, .one py!"timestamp" .whole, .one py!"roll" .decimal,
     .one py!"pitch" .decimal, .one py!"heading" .decimal, .one py!"acc_Roll" .decimal,
     .one py!"acc_Pitch" .decimal, .one py!"acc_Heading" .decimal]),
   (py!"QTMGEOFENCESTATUS", .data, [.one py!"msgver" .whole, .one py!"time" .time,
     .times 4 [(py!"staten", .whole)]]),
   (py!"QTMVERNO", .data, [.one py!"verstr" .text, .one py!"builddate" .text, .one py!"buildtime" .text]),
   (py!"QTMIMU", .data, [.one py!"timestamp" .whole, .one py!"accX" .decimal, .one py!"accY" .decimal,
     .one py!"accZ" .decimal, .one py!"angrateX" .decimal, .one py!"angrateY" .decimal,
     .one py!"angrateZ" .decimal, .one py!"wheeltick" .whole, .one py!"last_tick_timestamp" .whole]),
   (py!"QTMGPS", .data, [.one py!"timestamp" .whole, .one py!"tow" .whole, .one py!"lat" .decimal,
     .one py!"lon" .decimal, .one py!"alt" .decimal, .one py!"speed" .decimal, .one py!"heading" .decimal,
     .one py!"accuracy" .decimal, .one py!"HDOP" .decimal, .one py!"PDOP" .decimal, .one py!"numSv" .whole,
     .one py!"fixMode" .whole]),
   (py!"AIR001", .always, [.one py!"commandid" .whole, .one py!"result" .whole]),
   (py!"AIR010", .always, [.one py!"type" .whole, .one py!"subsystem" .whole, .one py!"wno" .whole,
     .one py!"tow" .whole]),
   (py!"AIR051", .always, [.one py!"time" .whole]),
   (py!"AIR059", .always, [.one py!"minsnr" .whole]),
   (py!"AIR063", .always, [.one py!"type" .whole, .one py!"rate" .whole]),
   (py!"AIR067", .always, [.one py!"gpsEnabled" .whole, .one py!"glonassEnabled" .whole,
     .one py!"galileoEnabled" .whole, .one py!"bdsEnabled" .whole, .one py!"qzssEnabled" .whole,
     .one py!"navicEnabled" .whole]),
   (py!"AIR071", .always, [.one py!"speedThreshold" .decimal]),
   (py!"AIR073", .always, [.one py!"degree" .whole]),
   (py!"AIR075", .always, [.one py!"enabled" .whole]),
   (py!"AIR081", .always, [.one py!"navMode" .whole]),
   (py!"AIR087", .always, [.one py!"status" .whole]),
   (py!"AIR101", .always, [.one py!"nmeaMode" .whole, .one py!"reserved" .whole]),
   (py!"AIR105", .always, [.one py!"dualBandEnabled" .whole]),
   (py!"AIR391", .always, [.one py!"cmdType" .whole]),
   (py!"AIR401", .always, [.one py!"mode" .whole]),
   (py!"AIR411", .always, [.one py!"enabled" .whole]),
   (py!"AIR421", .always, [.one py!"enabled" .whole]),
   (py!"AIR433", .always, [.one py!"mode" .whole]),
   (py!"AIR435", .always, [.one py!"enabled" .whole]),
   (py!"AIR436", .always, [.one py!"enabled" .whole]),
   (py!"AIR437", .always, [.one py!"enabled" .whole]),
   (py!"AIR491", .always, [.one py!"enabled" .whole]),
   (py!"AIR650", .always, [.one py!"second" .whole]),
   (py!"AIR865", .always, [.one py!"baudrate" .whole]),
   (py!"AIR867", .always, [.one py!"flowControl" .whole]),
   (py!"AIR6011", .always, [.one py!"type" .whole, .one py!"rate" .whole]),
   (py!"AIRSPF", .always, [.one py!"status" .whole]),
   (py!"AIRSPF5", .always, [.one py!"status" .whole]),
   (py!"QTMANTENNASTATUS", .data, [.one py!"msgver" .whole, .one py!"antennastatus" .whole,
     .one py!"antennapowerind" .whole]),
   (py!"QTMCFGEINSMSG", .data, [.one py!"type" .whole, .one py!"ins_enabled" .whole,
     .one py!"imu_enabled" .whole, .one py!"gps_enabled" .whole, .one py!"rate" .whole]),
   (py!"QTMDRCAL", .data, [.one py!"msgver" .whole, .one py!"calstate" .whole, .one py!"navtype" .whole]),
   (py!"QTMDRPVA", .data, [.one py!"msgver" .whole, .one py!"timestamp" .whole, .one py!"time" .decimal,
     .one py!"solType" .whole, .one py!"lat" .decimal, .one py!"lon" .decimal, .one py!"alt" .decimal,
     .one py!"sep" .decimal, .one py!"velN" .decimal, .one py!"velE" .decimal, .one py!"velD" .decimal,
     .one py!"speed" .decimal, .one py!"roll" .decimal, .one py!"pitch" .decimal, .one py!"heading" .decimal]),
   (py!"QTMJAMMINGSTATUS", .data, [.one py!"msgver" .whole, .one py!"jammingstatus" .whole]),
   (py!"QTMIMUTYPE", .data, [.one py!"msgver" .whole, .one py!"imustatus" .whole]),
   (py!"QTMINS", .data, [.one py!"timestamp" .whole, .one py!"soltype" .whole, .one py!"lat" .decimal,
     .one py!"lon" .decimal, .one py!"height" .decimal, .one py!"velN" .decimal, .one py!"velE" .decimal,
     .one py!"velD" .decimal, .one py!"roll" .decimal, .one py!"pitch" .decimal, .one py!"yaw" .decimal]),
   (py!"QTMLS", .data, [.one py!"msgver" .whole, .one py!"tow" .whole, .one py!"lsRef" .text,
     .one py!"wno" .whole, .one py!"leapsecond" .whole, .one py!"flag" .whole, .one py!"lsfRef" .text,
     .one py!"reserved" .text, .one py!"wnlsf" .whole, .one py!"dn" .whole, .one py!"lsf" .whole]),
   (py!"QTMPL", .data, [.one py!"msgver" .whole, .one py!"tow" .whole, .one py!"pul" .decimal,
     .one py!"reserved1" .whole, .one py!"reserved2" .whole, .one py!"plposn" .decimal,
     .one py!"plpose" .decimal, .one py!"plposd" .decimal, .one py!"plveln" .decimal,
     .one py!"plvele" .decimal, .one py!"plveld" .decimal, .one py!"reserved3" .whole,
     .one py!"reserved4" .whole, .one py!"pltime" .whole]),
   (py!"QTMTXT", .data, [.one py!"msgver" .whole, .one py!"totalsennum" .whole, .one py!"sennum" .whole,
     .one py!"textid" .whole, .one py!"text" .text]),
   (py!"QTMVER", .data, [.one py!"msgver" .whole, .one py!"vername" .text, .one py!"verstr" .text,
     .one py!"builddate" .text, .one py!"buildtime" .text]),
   -- STMicroelectronics Teseo, PSTM
   (py!"STMCPU", .always, [.one py!"cpuusage" .decimal, .one py!"pllonoff" .whole, .one py!"cpuspeed" .text]),
   (py!"STMSBAS", .always, [.one py!"status" .whole, .one py!"sattrk" .whole, .one py!"satid" .whole,
     .one py!"elev" .decimal, .one py!"azim" .decimal, .one py!"satcn0" .decimal]),
   (py!"STMDRGPS", .always, [.one py!"lat" .decimal, .one py!"lon" .decimal, .one py!"vn" .decimal,
     .one py!"ve" .decimal, .one py!"pdop" .decimal, .one py!"hdop" .decimal, .one py!"vdop" .decimal,
     .one py!"rmsposresidual" .decimal, .one py!"rmsvelresidual" .decimal, .one py!"vup" .decimal,
     .one py!"height" .decimal]),
   (py!"STMPPSDATA", .always, [.one py!"onoff" .whole, .one py!"ppsvalid" .whole, .one py!"syncvalid" .whole,
     .one py!"outmode" .whole, .one py!"reftime" .whole, .one py!"refconst" .whole,
     .one py!"pulseduration" .decimal, .one py!"pulsedelay" .decimal, .one py!"gpsdelay" .decimal,
     .one py!"reserved1" .text, .one py!"bdsdelay" .decimal, .one py!"galileodelay" .decimal,
     .one py!"invertedpolarity" .whole, .one py!"fixcond" .whole, .one py!"satth" .decimal,
     .one py!"elevmask" .decimal, .one py!"constmask" .whole, .one py!"refsec" .decimal,
     .one py!"fixstatus" .decimal, .one py!"usedsats" .decimal, .one py!"gpsutcdeltas" .decimal,
     .one py!"gpsutcdeltans" .decimal, .one py!"reserved2" .text, .one py!"galileoutcdeltans" .decimal,
     .one py!"quantizationerror" .decimal, .one py!"ppsclockfreq" .decimal, .one py!"tcxoclockfreq" .decimal,
     .one py!"bdsutcdeltatimes" .decimal]),
   (py!"STMTG", .always, [.one py!"wno" .whole, .one py!"tow" .decimal, .one py!"reserved1" .text,
     .one py!"cputime" .decimal, .one py!"timevalid" .whole, .one py!"nco" .decimal,
     .one py!"configstatus" .text, .one py!"constmask" .whole, .one py!"timebestsattype" .whole,
     .one py!"timemastersattype" .whole, .one py!"timemasterwn" .whole, .one py!"timemastertow" .decimal,
     .one py!"timemastervalidity" .decimal, .one py!"tgauxflags" .whole, .one py!"clockbias" .decimal,
     .one py!"mfreqconfigmask" .decimal, .one py!"leapsec" .whole, .one py!"ppsedge" .decimal,
     .one py!"mtbms" .decimal, .one py!"mtbtimestamp" .decimal]),
   (py!"STMTS", .always, [.one py!"dspdat" .whole, .one py!"satid" .whole, .one py!"psr" .decimal,
     .one py!"freq" .decimal, .one py!"cp" .decimal, .one py!"dspflags" .whole, .one py!"satcn0" .decimal,
     .one py!"ttim" .decimal, .one py!"codenoise" .decimal, .one py!"phasenoise" .decimal,
     .one py!"cycleslipcnt" .decimal, .one py!"reserved1" .text, .one py!"elev" .decimal]),
   (py!"STMTEMP", .always, [.one py!"temperature" .decimal, .one py!"rawtemperature" .decimal,
     .one py!"calibration" .whole]),
   (py!"STMDRCONFID", .always, [.one py!"latstddev" .decimal, .one py!"lonstddev" .decimal,
     .one py!"headingstddev" .decimal, .one py!"reserved1" .text, .one py!"gyrobiasstddev" .decimal,
     .one py!"odoscalestddev" .decimal, .one py!"reserved2" .text, .one py!"accoffsetstddev" .decimal,
     .one py!"heightstddev" .decimal, .one py!"majorsemiaxis" .decimal, .one py!"minorsemiaxis" .decimal,
     .one py!"ellipseangle" .decimal, .one py!"speedstddev" .decimal]),
   (py!"STMDRBSD", .always, [.one py!"timestamp" .decimal, .one py!"cputime" .whole,
     .one py!"gyroxbiassd" .decimal, .one py!"gyroybiassd" .decimal, .one py!"gyrozbiassd" .decimal,
     .one py!"accxbiassd" .decimal, .one py!"accybiassd" .decimal, .one py!"acczbiassd" .decimal]),
   (py!"STMDRPVA", .always, [.one py!"timestamp" .decimal, .one py!"cputime" .whole,
     .one py!"latitude" .decimal, .one py!"longitude" .decimal, .one py!"height" .decimal,
     .one py!"vnorth" .decimal, .one py!"veast" .decimal, .one py!"vup" .decimal, .one py!"pitch" .decimal,
     .one py!"roll" .decimal, .one py!"heading" .decimal]),
   (py!"STMDRPVASD", .always, [.one py!"timestamp" .decimal, .one py!"cputime" .whole,
     .one py!"latitudesd" .decimal, .one py!"longitudesd" .decimal, .one py!"heightsd" .decimal,
     .one py!"vnorthsd" .decimal, .one py!"veastsd" .decimal, .one py!"vupsd" .decimal,
     .one py!"pitchsd" .decimal, .one py!"rollsd" .decimal, .one py!"headingsd" .decimal,
     .one py!"pnesd" .decimal, .one py!"pnusd" .decimal, .one py!"peusd" .decimal, .one py!"vnesd" .decimal,
     .one py!"vnusd" .decimal, .one py!"veusd" .decimal]),
   (py!"STMDRSINT", .always, [.one py!"gyrosamplecount" .whole, .one py!"accsamplecount" .whole,
     .one py!"pressamplecount" .whole, .one py!"odometercount" .whole, .one py!"gyrointtime" .decimal,
     .one py!"accinttime" .decimal, .one py!"pressureinttime" .decimal, .one py!"gyroxavg" .decimal,
     .one py!"gyroyavg" .decimal, .one py!"gyrozavg" .decimal, .one py!"accxavg" .decimal,
     .one py!"accyavg" .decimal, .one py!"acczavg" .decimal, .one py!"presavg" .decimal]),
   (py!"STMDRSVF", .always, [.one py!"timestamp" .decimal, .one py!"cputime" .whole,
     .one py!"xacceleration" .decimal, .one py!"yacceleration" .decimal, .one py!"zacceleration" .decimal,
     .one py!"xangularrate" .decimal, .one py!"yangularrate" .decimal, .one py!"zangularrate" .decimal]),
   (py!"STMDRSTYPE", .always, [.one py!"sensortype" .whole]),
   (py!"STMDRCAL", .always, [.one py!"driscalib" .whole, .one py!"odoiscalib" .whole,
     .one py!"gyrosensitivityiscalib" .whole, .one py!"gyrobiasiscalib" .whole, .one py!"imuflag" .text,
     .one py!"gyrointegrityflag" .whole, .one py!"accintegrity" .whole, .one py!"calstate" .text]),
   (py!"STMDR1", .always, [.one py!"mpitch" .decimal, .one py!"mroll" .decimal, .one py!"myaw" .decimal,
     .one py!"gsz" .decimal, .one py!"gbx" .decimal, .one py!"gby" .decimal, .one py!"gbz" .decimal,
     .one py!"abx" .decimal, .one py!"aby" .decimal, .one py!"abz" .decimal, .one py!"odometerscale" .decimal,
     .one py!"res1baro" .decimal, .one py!"res2baro" .decimal]),
   (py!"STMDR2", .always, [.one py!"imucal" .text, .one py!"ascal" .text, .one py!"motionstatus" .whole,
     .one py!"errcode" .whole, .one py!"sysready" .whole, .one py!"crosstrackerror" .decimal,
     .one py!"alongtrackerror" .decimal, .one py!"sysaligned" .whole, .one py!"vrows" .decimal,
     .one py!"vrost" .whole]),
   (py!"STMDREPE", .always, [.one py!"ehpe" .decimal, .one py!"reserved1" .text]),
   (py!"STMDRDEBUG", .always, [.one py!"laterror" .decimal, .one py!"lonerror" .decimal,
     .one py!"headingerror" .decimal, .one py!"speederror" .decimal, .one py!"heighterror" .decimal,
     .one py!"vverror" .decimal]),
   (py!"STMDRMMFBKF", .always, [.one py!"cputime" .decimal, .one py!"elapsedtime" .decimal,
     .one py!"utcdeltaseconds" .decimal, .one py!"utcdeltams" .decimal, .one py!"posaccepted" .decimal,
     .one py!"reserved1" .text, .one py!"reserved2" .text, .one py!"measurementnoiselat" .decimal,
     .one py!"posmeasurementnoiselon" .decimal, .one py!"reserved3" .text, .one py!"reserved4" .text,
     .one py!"headingaccepted" .decimal, .one py!"reserved5" .text, .one py!"headingmeasurementnoise" .decimal,
     .one py!"reserved6" .text]),
   (py!"STMSETPAROK", .always, [.one py!"msgId" .text, .one py!"status1" .text, .one py!"status2" .text,
     .one py!"status3" .text]),
   (py!"STMINITGPSERROR", .always, []),
   (py!"STMINITGPSOK", .always, []),
   (py!"STMINITTIMEERROR", .always, []),
   (py!"STMINITTIMEOK", .always, []),
   -- Locosys and Inventek
   (py!"LSR", .always, [.one py!"msgType" .text, .one py!"value" .whole, .one py!"response" .text]),
   (py!"LSVD", .always, [.one py!"velE" .decimal, .one py!"velN" .decimal, .one py!"velD" .decimal,
     .one py!"velEdev" .decimal, .one py!"velNdev" .decimal, .one py!"velDdev" .decimal]),
   (py!"INVMINR", .always, [.one py!"status" .text]),
   (py!"INVMSTR", .always, [.one py!"value" .whole]),
   (py!"INVMSLOPE", .always, [.one py!"slope" .decimal, .one py!"altDiff" .decimal,
     .one py!"moveDist" .decimal, .one py!"slopeAccu" .decimal, .one py!"altDiffAccu" .decimal,
     .one py!"moveDistAccu" .decimal]),
   (py!"INVMIMU", .always, [.one py!"timeSecond" .decimal, .one py!"accelX" .decimal,
     .one py!"accelY" .decimal, .one py!"accelZ" .decimal, .one py!"gyroX" .decimal, .one py!"gyroY" .decimal,
     .one py!"gyroZ" .decimal]),
   (py!"INVMATTIT", .always, [.one py!"roll" .decimal, .one py!"pitch" .decimal, .one py!"yaw" .decimal])]

/-- Further sentences: the answers of a Quectel module, which begin with its verdict, and raw data. -/
def others : List (Str × Select × List Item) :=
   -- Quectel: answers to queries
  [(py!"QTMCFGAIC", .data, [.one py!"status" .text, .one py!"state" .whole]),
   (py!"QTMCFGANTDELTA", .data, [.one py!"status" .text, .one py!"east" .decimal, .one py!"north" .decimal,
     .one py!"height" .decimal]),
   (py!"QTMCFGANTINF", .data, [.one py!"status" .text, .one py!"antennadesc" .text,
     .one py!"antennasetupid" .whole, .one py!"antennasn" .text]),
   (py!"QTMCFGBLD", .data, [.one py!"status" .text, .one py!"distance" .decimal]),
   (py!"QTMCFGCNST", .data, [.one py!"status" .text, .one py!"gps" .whole, .one py!"glonass" .whole,
     .one py!"galileo" .whole, .one py!"beidou" .whole, .one py!"qzss" .whole, .one py!"navic" .whole]),
   (py!"QTMCFGDR", .data, [.one py!"status" .text, .one py!"drstate" .whole]),
   (py!"QTMCFGDRHOT", .data, [.one py!"status" .text, .one py!"mode" .whole]),
   (py!"QTMCFGDRRTD", .data, [.one py!"status" .text, .one py!"time" .whole, .one py!"distance" .whole]),
   (py!"QTMCFGELETHD", .data, [.one py!"status" .text, .one py!"elevation" .decimal]),
   (py!"QTMCFGFIXRATE", .data, [.one py!"status" .text, .one py!"fixinterval" .whole]),
   (py!"QTMCFGGEOSEP", .data, [.one py!"status" .text, .one py!"mode" .whole, .one py!"geosep" .decimal]),
   (py!"QTMCFGIMUINT", .data, [.one py!"status" .text, .one py!"index" .whole, .one py!"mode" .whole,
     .one py!"reserved" .whole, .one py!"actLevel" .whole]),
   (py!"QTMCFGIMUTC", .data, [.one py!"status" .text, .one py!"imustatus" .whole]),
   (py!"QTMCFGLA", .data, [.one py!"status" .text, .one py!"type" .whole, .one py!"laX" .decimal,
     .one py!"laY" .decimal, .one py!"laZ" .decimal]),
   (py!"QTMCFGLAM", .data, [.one py!"status" .text, .one py!"mode" .whole]),
   (py!"QTMCFGNAVMODE", .data, [.one py!"status" .text, .one py!"mode" .whole]),
   (py!"QTMCFGNMEADP", .data, [.one py!"status" .text, .one py!"utcdp" .whole, .one py!"posdp" .whole,
     .one py!"altdp" .whole, .one py!"dopdp" .whole, .one py!"spddp" .whole, .one py!"cogdp" .whole]),
   (py!"QTMCFGNMEATID", .data, [.one py!"status" .text, .one py!"mainTalker" .text, .one py!"gsvTalker" .text]),
   (py!"QTMCFGODO", .data, [.one py!"status" .text, .one py!"state" .whole, .one py!"initdist" .decimal]),
   (py!"QTMCFGPROT", .data, [.one py!"status" .text, .one py!"porttype" .whole, .one py!"portid" .whole,
     .one py!"inputprot" .text, .one py!"outputprot" .text]),
   (py!"QTMCFGRCVRMODE", .data, [.one py!"status" .text, .one py!"rcvrmode" .whole]),
   (py!"QTMCFGRSID", .data, [.one py!"status" .text, .one py!"rsid" .whole]),
   (py!"QTMCFGRTCM", .data, [.one py!"status" .text, .one py!"msmtype" .whole, .one py!"msmmode" .whole,
     .one py!"msmelevthd" .decimal, .one py!"reserved1" .text, .one py!"reserved2" .text,
     .one py!"ephmode" .whole, .one py!"ephinterval" .whole]),
   (py!"QTMCFGRTK", .data, [.one py!"status" .text, .one py!"diffmode" .whole, .one py!"relmode" .whole]),
   (py!"QTMCFGRTKSRCTYPE", .data, [.one py!"status" .text, .one py!"srctype" .whole]),
   (py!"QTMMCFGRTKSRCTYPE", .data, [.one py!"status" .text, .one py!"srctype" .whole]),
   (py!"QTMCFGSBAS", .data, [.one py!"status" .text, .one py!"value" .text]),
   (py!"QTMCFGSIGGRP", .data, [.one py!"status" .text, .one py!"siggrpnum" .whole]),
   (py!"QTMCFGSIGNAL", .data, [.one py!"status" .text, .one py!"gpssig" .text, .one py!"glonasssig" .text,
     .one py!"galileosig" .text, .one py!"beidousig" .text, .one py!"qzsssig" .text, .one py!"navicsig" .text]),
   (py!"QTMCFGSIGNAL2", .data, [.one py!"status" .text, .one py!"gpssig" .text, .one py!"glonasssig" .text,
     .one py!"galileosig" .text, .one py!"beidousig" .text, .one py!"qzsssig" .text, .one py!"navicsig" .text]),
   (py!"QTMCFGSTATICHOLD", .data, [.one py!"status" .text, .one py!"shstate" .whole]),
   (py!"QTMCFGSVIN", .data, [.one py!"status" .text, .one py!"svinmode" .whole, .one py!"cfgcnt" .whole,
     .one py!"acclimit" .decimal, .one py!"ecefx" .decimal, .one py!"ecefy" .decimal, .one py!"ecefz" .decimal]),
   (py!"QTMCFGVEHMOT", .data, [.one py!"status" .text, .one py!"mode" .whole, .one py!"vehtype" .whole]),
   (py!"QTMCFGWN", .data, [.one py!"status" .text, .one py!"weekno" .whole]),
   (py!"QTMGETUTC", .data, [.one py!"status" .text, .one py!"year" .whole, .one py!"month" .whole,
     .one py!"day" .whole, .one py!"hour" .whole, .one py!"minute" .whole, .one py!"second" .whole,
     .one py!"millisecond" .whole, .one py!"reserved" .text, .one py!"leapsecond" .whole]),
   (py!"QTMQVER", .data, [.one py!"status" .text, .one py!"msgver" .whole, .one py!"description" .text,
     .one py!"version" .text, .one py!"buildDate" .text, .one py!"buildTime" .text]),
   (py!"QTMUNIQID", .data, [.one py!"status" .text, .one py!"length" .whole, .one py!"ID" .text]),
   (py!"STMDRUPD", .always, [.many [(py!"data", .text)]]),
   -- Quectel: messages put out by themselves
   (py!"QTMEOE", .data, [.one py!"msgver" .whole, .one py!"utc" .decimal, .one py!"Date" .whole,
     .one py!"WN" .whole, .one py!"TOW" .whole]),
   (py!"QTMNAV", .data, [.one py!"msgver" .whole, .one py!"timestatus" .whole, .one py!"timeref" .whole,
     .one py!"utc" .decimal, .one py!"date" .whole, .one py!"tow" .whole, .one py!"wn" .whole,
     .one py!"leapsec" .whole, .one py!"reserved1" .text, .one py!"reserved2" .text,
     .one py!"soltype" .whole, .one py!"reserved3" .whole, .one py!"lat" .decimal, .one py!"lon" .decimal,
     .one py!"alt" .decimal, .one py!"sep" .decimal, .one py!"reserved4" .text, .one py!"reserved5" .text,
     .one py!"latstd" .decimal, .one py!"lonstd" .decimal, .one py!"altstd" .decimal,
     .one py!"reserved6" .text, .one py!"reserved7" .text, .one py!"diffid" .decimal,
     .one py!"diffAge" .decimal, .one py!"reserved8" .text, .one py!"siv" .whole, .one py!"sip" .whole,
     .one py!"reserved9" .text, .one py!"reserved10" .text, .one py!"reserved11" .text,
     .one py!"reserved12" .text, .one py!"reserved13" .text, .one py!"reserved14" .text,
     .one py!"hvel" .decimal, .one py!"vvel" .decimal, .one py!"hvelstd" .decimal,
     .one py!"vvelstd" .decimal, .one py!"reserved15" .text, .one py!"reserved16" .text,
     .one py!"cog" .decimal, .one py!"reserved17" .text, .one py!"reserved18" .text]),
   (py!"QTMSTD", .data, [.one py!"reserved" .text, .one py!"utc" .time, .one py!"wno" .whole,
     .one py!"tow" .whole, .one py!"stdLat" .text, .one py!"stdLon" .text, .one py!"stdAlt" .text,
     .one py!"stdSep" .text, .one py!"stdVelN" .text, .one py!"stdVelE" .text, .one py!"stdVelD" .text,
     .one py!"stdSpd" .text, .one py!"stdRoll" .text, .one py!"stdPitch" .text, .one py!"stdHeading" .text]),
   (py!"QTMSENMSG", .data, [.one py!"msgver" .whole, .one py!"timestamp" .whole,
     .many [(py!"sensor_info", .decimal)]]),
   (py!"QTMVEHMOT", .data, [.one py!"msgver" .whole, .many [(py!"vehicle_info", .decimal)]]),
   (py!"QTMVEHMSG", .data, [.one py!"msgver" .whole, .one py!"timestamp" .whole,
     .many [(py!"vehicle_info", .decimal)]]),
   -- Trimble: beacon, and position with errors
   (py!"TNL", (.word py!"DG"), [.one py!"msgId" .text, .one py!"strength" .decimal, .one py!"snr" .decimal,
     .one py!"freq" .decimal, .one py!"bitRate" .whole, .one py!"chan" .whole, .one py!"trkStatus" .text,
     .one py!"trkPerf" .whole]),
   (py!"TNL", (.word py!"REX"), [.one py!"msgId" .text, .one py!"utctime" .time, .one py!"constUsed" .text,
     .one py!"sip" .whole, .one py!"lat" .latitude, .one py!"NS" .north, .one py!"lon" .longitude,
     .one py!"EW" .east, .one py!"alt" .decimal, .one py!"latSigmaErr" .decimal,
     .one py!"lonSigmaErr" .decimal, .one py!"heightSigmaErr" .decimal, .one py!"vectE" .decimal,
     .one py!"vectN" .decimal, .one py!"vectV" .decimal, .one py!"vectESigmaErr" .decimal,
     .one py!"vectNSigmaErr" .decimal, .one py!"vectVSigmaErr" .decimal, .one py!"corrSource" .text])]

/-- What tells apart sentences with the same id but different layouts. -/
inductive Variant where
  /-- the number of fields -/
  | count (n : Nat)
  /-- the first field -/
  | first (w : Str)
  deriving DecidableEq

/-- A sentence is of this variant. -/
def IsVariant : Variant → List Str → Prop
  | .count n, f => f.length = n
  | .first w, f => f.head? = some w

/-- Sentences of which there are variants. -/
def variants : List (Str × Variant × List Item) :=
   -- Quectel: rate of a message, without and with its version, on a given port without and with its version
  [(py!"QTMCFGMSGRATE", (.count 3), [.one py!"status" .text, .one py!"msgname" .text, .one py!"rate" .whole]),
   (py!"QTMCFGMSGRATE", (.count 4), [.one py!"status" .text, .one py!"msgname" .text, .one py!"rate" .whole,
     .one py!"msgver" .whole]),
   (py!"QTMCFGMSGRATE", (.count 5), [.one py!"status" .text, .one py!"porttype" .whole,
     .one py!"portid" .whole, .one py!"msgname" .text, .one py!"rate" .whole]),
   (py!"QTMCFGMSGRATE", (.count 6), [.one py!"status" .text, .one py!"porttype" .whole,
     .one py!"portid" .whole, .one py!"msgname" .text, .one py!"rate" .whole, .one py!"msgver" .whole]),
   -- satellites, with one and two masks
   (py!"QTMCFGSAT", (.count 4), [.one py!"status" .text, .one py!"systemid" .whole, .one py!"signalid" .text,
     .one py!"masklow" .text]),
   (py!"QTMCFGSAT", (.count 5), [.one py!"status" .text, .one py!"systemid" .whole, .one py!"signalid" .text,
     .one py!"masklow" .text, .one py!"maskhigh" .text]),
   -- geofences: disabled (only the first three fields are sent), circle, quadrangle
   (py!"QTMCFGGEOFENCE", (.count 3), [.one py!"status" .text, .one py!"geofenceindex" .whole,
     .one py!"geofencemode" .whole, .one py!"reserved" .whole, .one py!"shape" .whole, .one py!"lat0" .decimal,
     .one py!"lon0" .decimal, .one py!"radiuslat1" .decimal]),
   (py!"QTMCFGGEOFENCE", (.count 8), [.one py!"status" .text, .one py!"geofenceindex" .whole,
     .one py!"geofencemode" .whole, .one py!"reserved" .whole, .one py!"shape" .whole, .one py!"lat0" .decimal,
     .one py!"lon0" .decimal, .one py!"radiuslat1" .decimal]),
   (py!"QTMCFGGEOFENCE", (.count 13), [.one py!"status" .text, .one py!"geofenceindex" .whole,
     .one py!"geofencemode" .whole, .one py!"reserved" .whole, .one py!"shape" .whole, .one py!"lat0" .decimal,
     .one py!"lon0" .decimal, .one py!"radiuslat1" .decimal, .one py!"lon1" .decimal, .one py!"lat2" .decimal,
     .one py!"lon2" .decimal, .one py!"lat3" .decimal, .one py!"lon3" .decimal]),
   -- ports and pulses
   (py!"QTMCFGUART", (.count 7), [.one py!"status" .text, .one py!"portid" .whole, .one py!"baudrate" .whole,
     .one py!"databit" .whole, .one py!"parity" .whole, .one py!"stopbit" .whole, .one py!"flowctrl" .whole]),
   (py!"QTMCFGPPS", (.count 7), [.one py!"status" .text, .one py!"ppsindex" .whole, .one py!"enable" .whole,
     .one py!"duration" .whole, .one py!"ppsmode" .whole, .one py!"polarity" .whole, .one py!"reserved" .whole]),
   -- serial numbers
   (py!"QTMSN", (.first py!"OK"), [.one py!"status" .text, .one py!"snid" .whole, .one py!"length" .whole,
     .one py!"serialno" .text]),
   (py!"QTMSN", (.first py!"1"), [.one py!"snid" .whole, .one py!"length" .whole, .one py!"status" .text,
     .one py!"serialno" .text]),
   -- STMicroelectronics: messages of the sensors, told apart by their type
   (py!"STMDRSENMSG", (.first py!"3"), [.one py!"msgtype" .whole, .one py!"timestamp" .whole,
     .one py!"odometer" .decimal, .one py!"reverse" .whole]),
   (py!"STMDRSENMSG", (.first py!"24"), [.one py!"msgtype" .whole, .one py!"timestamp" .whole,
     .one py!"temperature" .decimal, .one py!"validity" .whole]),
   (py!"STMDRSENMSG", (.first py!"30"), [.one py!"msgtype" .whole, .one py!"timestamp" .whole,
     .one py!"xacc" .decimal, .one py!"yacc" .decimal, .one py!"zacc" .decimal]),
   (py!"STMDRSENMSG", (.first py!"31"), [.one py!"msgtype" .whole, .one py!"timestamp" .whole,
     .one py!"xgyro" .decimal, .one py!"ygyro" .decimal, .one py!"zgyro" .decimal])]

/-- Septentrio `PSSN,SNC`, the status of NTRIP connections: lists of fields in square brackets,
`[<revision>,<time>,<week>,[<connection>,<status>,<error>,<info>],...]`. -/
def connections : List Item :=
  [.one py!"msgId" .text, .one py!"rev" .text, .one py!"tim" .whole, .one py!"week" .whole,
   .many [(py!"cdidx", .text), (py!"status", .text), (py!"errcode", .text), (py!"info", .text)]]

/-- A field without its square brackets. -/
def unbracketed (s : Str) : Str := s.filter (fun ch => ch != 0x5B && ch != 0x5D)

end Spec.Vendor
