import Verif.Spec.Vendor
import Verif.Spec.Generate
/-!
# Specification: commands and queries

The fields of the commands and queries that receivers of several manufacturers understand, with the attribute
names documented by the library. The manufacturers' manuals are not at hand: the layouts were transcribed from the
library's payload descriptions (`/repo/src/pynmeagps/nmeatypes_set_prop.py`, `nmeatypes_poll_prop.py`). So this table
says what the library promises; how the library finds, reads and writes it is not taken from there.
-/
namespace Spec.Commands
open Py Nmea Spec Spec.Nmea0183 Spec.Vendor

/-- Commands: id (the header without its leading `P`), which of the sentences with this id, and their fields.
The first field of a Quectel command is `W`, for "write". -/
def commands : List (Str × Select × List Item) :=
   -- Airoha
  [(py!"AIR002", .always, []),
   (py!"AIR003", .always, []),
   (py!"AIR004", .always, []),
   (py!"AIR005", .always, []),
   (py!"AIR006", .always, []),
   (py!"AIR007", .always, []),
   (py!"AIR050", .always, [.one py!"time" .whole]),
   (py!"AIR058", .always, [.one py!"minsnr" .whole]),
   (py!"AIR062", .always, [.one py!"type" .whole, .one py!"rate" .whole]),
   (py!"AIR066", .always, [.one py!"gpsEnabled" .whole, .one py!"glonassEnabled" .whole,
     .one py!"galileoEnabled" .whole, .one py!"bdsEnabled" .whole, .one py!"qzssEnabled" .whole,
     .one py!"navicEnabled" .whole]),
   (py!"AIR070", .always, [.one py!"speedThreshold" .whole]),
   (py!"AIR072", .always, [.one py!"degree" .whole]),
   (py!"AIR074", .always, [.one py!"enabled" .whole]),
   (py!"AIR080", .always, [.one py!"navMode" .whole]),
   (py!"AIR086", .always, [.one py!"status" .whole]),
   (py!"AIR100", .always, [.one py!"nmeaMode" .whole, .one py!"reserved" .whole]),
   (py!"AIR104", .always, [.one py!"dualBandEnabled" .whole]),
   (py!"AIR382", .always, [.one py!"enabled" .whole]),
   (py!"AIR391", .always, [.one py!"cmdType" .whole]),
   (py!"AIR400", .always, [.one py!"mode" .whole]),
   (py!"AIR410", .always, [.one py!"enabled" .whole]),
   (py!"AIR420", .always, [.one py!"enabled" .whole]),
   (py!"AIR432", .always, [.one py!"mode" .whole]),
   (py!"AIR434", .always, [.one py!"enabled" .whole]),
   (py!"AIR436", .always, [.one py!"enabled" .whole]),
   (py!"AIR437", .always, []),
   (py!"AIR490", .always, [.one py!"enabled" .whole]),
   (py!"AIR511", .always, []),
   (py!"AIR512", .always, []),
   (py!"AIR513", .always, []),
   (py!"AIR650", .always, [.one py!"second" .whole]),
   (py!"AIR752", .always, [.one py!"ppsType" .whole]),
   (py!"AIR864", .always, [.one py!"portType" .whole, .one py!"portIndex" .whole, .one py!"baudrate" .whole]),
   (py!"AIR866", .always, [.one py!"portType" .whole, .one py!"portIndex" .whole, .one py!"flowControl" .whole]),
   (py!"AIR6010", .always, [.one py!"type" .whole, .one py!"rate" .whole]),
   -- Garmin
   (py!"GRMI", .always, [.one py!"lat" .latitude, .one py!"NS" .north, .one py!"lon" .longitude,
     .one py!"EW" .east, .one py!"date" .date, .one py!"time" .time, .one py!"rcvr_cmd" .text]),
   (py!"GRMC", .always, [.one py!"fix" .text, .one py!"alt" .decimal, .one py!"dtm" .text,
     .one py!"smAxis" .decimal, .one py!"iffac" .decimal, .one py!"xecc" .decimal, .one py!"yecc" .decimal,
     .one py!"zecc" .decimal, .one py!"diff" .text, .one py!"baudRate" .whole, .one py!"vfilt" .whole,
     .one py!"reserved1" .text, .one py!"reserved2" .text, .one py!"drtime" .whole]),
   (py!"GRMC1", .always, [.one py!"nmeatim" .whole, .one py!"bphase" .whole, .one py!"autopos" .whole,
     .one py!"dgpsfr" .decimal, .one py!"dgpsbr" .whole, .one py!"dgpssc" .whole, .one py!"nmeaver" .whole,
     .one py!"dgpsmod" .text, .one py!"pwrsave" .text, .one py!"attran" .whole, .one py!"autopwr" .whole,
     .one py!"extpwr" .whole]),
   (py!"GRMO", .always, [.one py!"msgId" .text, .one py!"tgtmode" .whole]),
   (py!"GRMW", .always, [.one py!"wptId" .text, .one py!"alt" .decimal, .one py!"symnum" .text,
     .one py!"comment" .text]),
   -- Inventek
   (py!"INVCRES", .always, [.one py!"value" .whole]),
   (py!"INVCSTR", .always, [.one py!"value" .whole]),
   (py!"INVMSLOPE", .always, [.one py!"status" .whole]),
   -- Locosys
   (py!"LSC", .always, [.one py!"msgType" .text, .one py!"value" .whole]),
   -- Quectel
   (py!"QTMBKP", .always, [.one py!"second" .whole]),
   (py!"QTMCFGAIC", .always, [.one py!"status" .text, .one py!"state" .whole]),
   (py!"QTMCFGANTDELTA", .always, [.one py!"status" .text, .one py!"east" .decimal, .one py!"north" .decimal,
     .one py!"height" .decimal]),
   (py!"QTMCFGANTINF", .always, [.one py!"status" .text, .one py!"antennadesc" .text,
     .one py!"antennasetupid" .whole, .one py!"antennasn" .text]),
   (py!"QTMCFGBLD", .always, [.one py!"status" .text, .one py!"distance" .decimal]),
   (py!"QTMCFGCNST", .always, [.one py!"status" .text, .one py!"gps" .whole, .one py!"glonass" .whole,
     .one py!"galileo" .whole, .one py!"beidou" .whole, .one py!"qzss" .whole, .one py!"navic" .whole]),
   (py!"QTMCFGDR", .always, [.one py!"status" .text, .one py!"drstate" .whole]),
   (py!"QTMCFGDRHOT", .always, [.one py!"status" .text, .one py!"mode" .whole]),
   (py!"QTMCFGDRRTD", .always, [.one py!"status" .text, .one py!"time" .whole, .one py!"distance" .whole]),
   (py!"QTMCFGEINSMSG", .always, [.one py!"type" .whole, .one py!"ins_enabled" .whole,
     .one py!"imu_enabled" .whole, .one py!"gps_enabled" .whole, .one py!"rate" .whole]),
   (py!"QTMCFGELETHD", .always, [.one py!"status" .text, .one py!"elevation" .decimal]),
   (py!"QTMCFGFIXRATE", .always, [.one py!"status" .text, .one py!"fixinterval" .whole]),
   (py!"QTMCFGGEOSEP", .always, [.one py!"status" .text, .one py!"mode" .whole, .one py!"geosep" .decimal]),
   (py!"QTMCFGIMUINT", .always, [.one py!"status" .text, .one py!"index" .whole, .one py!"mode" .whole,
     .one py!"reserved" .whole, .one py!"actLevel" .whole]),
   (py!"QTMCFGIMUTC", .always, [.one py!"status" .text, .one py!"imustatus" .whole]),
   (py!"QTMCFGLA", .always, [.one py!"status" .text, .one py!"type" .whole, .one py!"laX" .decimal,
     .one py!"laY" .decimal, .one py!"laZ" .decimal]),
   (py!"QTMCFGLAM", .always, [.one py!"status" .text, .one py!"mode" .whole]),
   (py!"QTMCFGNAVMODE", .always, [.one py!"status" .text, .one py!"mode" .whole]),
   (py!"QTMCFGNMEADP", .always, [.one py!"status" .text, .one py!"utcdp" .whole, .one py!"posdp" .whole,
     .one py!"altdp" .whole, .one py!"dopdp" .whole, .one py!"spddp" .whole, .one py!"cogdp" .whole]),
   (py!"QTMCFGNMEATID", .always, [.one py!"status" .text, .one py!"mainTalker" .text,
     .one py!"gsvTalker" .text]),
   (py!"QTMCFGODO", .always, [.one py!"status" .text, .one py!"state" .whole, .one py!"initdist" .decimal]),
   (py!"QTMCFGSBAS", .always, [.one py!"status" .text, .one py!"value" .text]),
   (py!"QTMCFGSIGGRP", .always, [.one py!"status" .text, .one py!"siggrpnum" .whole]),
   (py!"QTMCFGPROT", .always, [.one py!"status" .text, .one py!"porttype" .whole, .one py!"portid" .whole,
     .one py!"inputprot" .text, .one py!"outputprot" .text]),
   (py!"QTMCFGRCVRMODE", .always, [.one py!"status" .text, .one py!"rcvrmode" .whole]),
   (py!"QTMCFGRSID", .always, [.one py!"status" .text, .one py!"rsid" .whole]),
   (py!"QTMCFGRTCM", .always, [.one py!"status" .text, .one py!"msmtype" .whole, .one py!"msmmode" .whole,
     .one py!"msmelevthd" .decimal, .one py!"reserved1" .text, .one py!"reserved2" .text,
     .one py!"ephmode" .whole, .one py!"ephinterval" .whole]),
   (py!"QTMCFGRTK", .always, [.one py!"status" .text, .one py!"diffmode" .whole, .one py!"relmode" .whole]),
   (py!"QTMCFGRTKSRCTYPE", .always, [.one py!"status" .text, .one py!"srctype" .whole]),
   (py!"QTMCFGSIGNAL", .always, [.one py!"status" .text, .one py!"gpssig" .text, .one py!"glonasssig" .text,
     .one py!"galileosig" .text, .one py!"beidousig" .text, .one py!"qzsssig" .text, .one py!"navicsig" .text]),
   (py!"QTMCFGSIGNAL2", .always, [.one py!"status" .text, .one py!"gpssig" .text, .one py!"glonasssig" .text,
     .one py!"galileosig" .text, .one py!"beidousig" .text, .one py!"qzsssig" .text, .one py!"navicsig" .text]),
   (py!"QTMCFGSTATICHOLD", .always, [.one py!"status" .text, .one py!"shstate" .whole]),
   (py!"QTMCFGSVIN", .always, [.one py!"status" .text, .one py!"svinmode" .whole, .one py!"cfgcnt" .whole,
     .one py!"acclimit" .decimal, .one py!"ecefx" .decimal, .one py!"ecefy" .decimal, .one py!"ecefz" .decimal]),
   (py!"QTMCFGWN", .always, [.one py!"status" .text, .one py!"weekno" .whole]),
   (py!"QTMCFGVEHMOT", .always, [.one py!"status" .text, .one py!"mode" .whole, .one py!"vehtype" .whole]),
   (py!"QTMCOLD", .always, []),
   (py!"QTMDEBUGOFF", .always, []),
   (py!"QTMDEBUGON", .always, []),
   (py!"QTMDRCLR", .always, []),
   (py!"QTMDRSAVE", .always, []),
   (py!"QTMGNSSSTART", .always, []),
   (py!"QTMGNSSSTOP", .always, []),
   (py!"QTMHOT", .always, []),
   (py!"QTMRESETODO", .always, []),
   (py!"QTMRESTOREPAR", .always, []),
   (py!"QTMSAVEPAR", .always, []),
   (py!"QTMSRR", .always, []),
   (py!"QTMWARM", .always, []),
   -- STMicroelectronics Teseo
   (py!"STMCOLD", .always, []),
   (py!"STMWARM", .always, []),
   (py!"STMEPHEM", .always, [.one py!"satID" .whole, .one py!"ephdatalen" .whole, .one py!"ephdata" .text]),
   (py!"STMHOT", .always, []),
   (py!"STMSRR", .always, []),
   (py!"STMSAVEPAR", .always, []),
   (py!"STMRESTOREPAR", .always, []),
   (py!"STMIMUSELFTESTCMD", .always, [.one py!"imucat" .whole]),
   (py!"STMINITGPS", .always, [.one py!"lat" .latitude, .one py!"NS" .north, .one py!"lon" .longitude,
     .one py!"EW" .east, .one py!"alt" .decimal, .one py!"day" .whole, .one py!"month" .whole,
     .one py!"year" .whole, .one py!"hour" .whole, .one py!"minute" .whole, .one py!"second" .whole]),
   (py!"STMINITTIME", .always, [.one py!"day" .whole, .one py!"month" .whole, .one py!"year" .whole,
     .one py!"hour" .whole, .one py!"minute" .whole, .one py!"second" .whole]),
   (py!"STMDRMMFB", .always, [.one py!"timestamp" .decimal, .one py!"latval" .whole, .one py!"lonval" .whole,
     .one py!"heightval" .whole, .one py!"headingval" .whole, .one py!"lat" .decimal, .one py!"lon" .decimal,
     .one py!"height" .decimal, .one py!"heading" .decimal, .one py!"laterr" .decimal,
     .one py!"lonerr" .decimal, .one py!"heighterr" .decimal, .one py!"headingerr" .decimal]),
   -- u-blox
   (py!"UBX", (.word py!"40"), [.one py!"msgId" .text, .one py!"id" .text, .one py!"rddc" .whole,
     .one py!"rus1" .whole, .one py!"rus2" .whole, .one py!"rusb" .whole, .one py!"rspi" .whole,
     .one py!"reserved" .whole]),
   (py!"UBX", (.word py!"41"), [.one py!"msgId" .text, .one py!"portId" .whole, .one py!"inProto" .text,
     .one py!"outProto" .text, .one py!"baudRate" .whole, .one py!"autobauding" .whole])]

/-- Queries. The first field of a Quectel query is `R`, for "read". -/
def queries : List (Str × Select × List Item) :=
   -- Airoha
  [(py!"AIR051", .always, []),
   (py!"AIR059", .always, []),
   (py!"AIR063", .always, [.one py!"type" .whole]),
   (py!"AIR067", .always, []),
   (py!"AIR071", .always, []),
   (py!"AIR073", .always, []),
   (py!"AIR075", .always, []),
   (py!"AIR081", .always, []),
   (py!"AIR087", .always, []),
   (py!"AIR101", .always, []),
   (py!"AIR105", .always, []),
   (py!"AIR401", .always, []),
   (py!"AIR411", .always, []),
   (py!"AIR421", .always, []),
   (py!"AIR433", .always, []),
   (py!"AIR435", .always, []),
   (py!"AIR491", .always, []),
   (py!"AIR865", .always, [.one py!"portType" .whole, .one py!"portIndex" .whole]),
   (py!"AIR867", .always, [.one py!"portType" .whole, .one py!"portIndex" .whole]),
   (py!"AIR6011", .always, [.one py!"type" .whole]),
   -- Quectel
   (py!"QTMCFGAIC", .always, [.one py!"status" .text]),
   (py!"QTMCFGANTDELTA", .always, [.one py!"status" .text]),
   (py!"QTMCFGANTINF", .always, [.one py!"status" .text]),
   (py!"QTMCFGBLD", .always, [.one py!"status" .text]),
   (py!"QTMCFGCNST", .always, [.one py!"status" .text]),
   (py!"QTMCFGDR", .always, [.one py!"status" .text]),
   (py!"QTMCFGELETHD", .always, [.one py!"status" .text]),
   (py!"QTMCFGFIXRATE", .always, [.one py!"status" .text]),
   (py!"QTMCFGGEOFENCE", .always, [.one py!"status" .text, .one py!"geofenceindex" .whole]),
   (py!"QTMCFGGEOSEP", .always, [.one py!"status" .text]),
   (py!"QTMCFGIMUINT", .always, [.one py!"status" .text]),
   (py!"QTMCFGLA", .always, [.one py!"status" .text]),
   (py!"QTMCFGLAM", .always, [.one py!"status" .text]),
   (py!"QTMCFGNAVMODE", .always, [.one py!"status" .text]),
   (py!"QTMCFGNMEADP", .always, [.one py!"status" .text]),
   (py!"QTMCFGNMEATID", .always, [.one py!"status" .text]),
   (py!"QTMCFGODO", .always, [.one py!"status" .text]),
   (py!"QTMCFGPPS", .always, [.one py!"status" .text, .one py!"ppsindex" .whole]),
   (py!"QTMCFGPROT", .always, [.one py!"status" .text, .one py!"porttype" .whole, .one py!"portid" .whole]),
   (py!"QTMCFGRCVRMODE", .always, [.one py!"status" .text]),
   (py!"QTMCFGRSID", .always, [.one py!"status" .text]),
   (py!"QTMCFGRTCM", .always, [.one py!"status" .text]),
   (py!"QTMCFGRTK", .always, [.one py!"status" .text]),
   (py!"QTMCFGRTKSRCTYPE", .always, [.one py!"status" .text]),
   (py!"QTMCFGSAT", .always, [.one py!"status" .text, .one py!"systemid" .whole, .one py!"signalid" .text]),
   (py!"QTMCFGSBAS", .always, [.one py!"status" .text]),
   (py!"QTMCFGSIGGRP", .always, [.one py!"status" .text]),
   (py!"QTMCFGSIGNAL", .always, [.one py!"status" .text]),
   (py!"QTMCFGSIGNAL2", .always, [.one py!"status" .text]),
   (py!"QTMCFGSTATICHOLD", .always, [.one py!"status" .text]),
   (py!"QTMCFGSVIN", .always, [.one py!"status" .text]),
   (py!"QTMCFGVEHMOT", .always, [.one py!"status" .text]),
   (py!"QTMCFGWN", .always, [.one py!"status" .text]),
   (py!"QTMGETUTC", .always, []),
   (py!"QTMQVER", .always, [.one py!"msgver" .whole]),
   (py!"QTMSN", .always, []),
   (py!"QTMUNIQID", .always, []),
   (py!"QTMVEHATT", .always, []),
   (py!"QTMVERNO", .always, [])]

/-- Conditions on keywords. -/
inductive When where
  | given (k : Str)
  | absent (k : Str)
  /-- given with the value zero -/
  | zero (k : Str)
  /-- omitted, or with another value -/
  | notZero (k : Str)
  deriving DecidableEq

/-- A condition is met. -/
def When.Met (kw : List (Str × PyVal)) : When → Prop
  | .given k => Given kw k
  | .absent k => ¬ Given kw k
  | .zero k => GivenZero kw k
  | .notZero k => ¬ GivenZero kw k

/-- Commands of which there are variants: the conditions on the keywords that choose the variant, and its
fields. In a received command, the variant is told by the number of fields. -/
def commandVariants : List (Str × List When × List Item) :=
   -- the current port, its speed only; a given port, its speed only; the current port; a given port
  [(py!"QTMCFGUART", [.absent py!"portid", .given py!"baudrate", .absent py!"databit"], [
     .one py!"status" .text, .one py!"baudrate" .whole]),
   (py!"QTMCFGUART", [.given py!"portid", .given py!"baudrate", .absent py!"databit"], [.one py!"status" .text,
     .one py!"portid" .whole, .one py!"baudrate" .whole]),
   (py!"QTMCFGUART", [.absent py!"portid", .given py!"baudrate", .given py!"databit"], [.one py!"status" .text,
     .one py!"baudrate" .whole, .one py!"databit" .whole, .one py!"parity" .whole, .one py!"stopbit" .whole,
     .one py!"flowctrl" .whole]),
   (py!"QTMCFGUART", [.given py!"portid", .given py!"baudrate", .given py!"databit"], [.one py!"status" .text,
     .one py!"portid" .whole, .one py!"baudrate" .whole, .one py!"databit" .whole, .one py!"parity" .whole,
     .one py!"stopbit" .whole, .one py!"flowctrl" .whole]),
   -- rate of a message: on the current port, on a given port, both without and with version
   (py!"QTMCFGMSGRATE", [.absent py!"porttype", .absent py!"msgver"], [.one py!"status" .text,
     .one py!"msgname" .text, .one py!"rate" .whole]),
   (py!"QTMCFGMSGRATE", [.absent py!"porttype", .given py!"msgver"], [.one py!"status" .text,
     .one py!"msgname" .text, .one py!"rate" .whole, .one py!"msgver" .whole]),
   (py!"QTMCFGMSGRATE", [.given py!"porttype", .absent py!"msgver"], [.one py!"status" .text,
     .one py!"porttype" .whole, .one py!"portid" .whole, .one py!"msgname" .text, .one py!"rate" .whole]),
   (py!"QTMCFGMSGRATE", [.given py!"porttype", .given py!"msgver"], [.one py!"status" .text,
     .one py!"porttype" .whole, .one py!"portid" .whole, .one py!"msgname" .text, .one py!"rate" .whole,
     .one py!"msgver" .whole]),
   -- pulses off and on
   (py!"QTMCFGPPS", [.zero py!"enable"], [.one py!"status" .text, .one py!"ppsindex" .whole,
     .one py!"enable" .whole]),
   (py!"QTMCFGPPS", [.notZero py!"enable"], [.one py!"status" .text, .one py!"ppsindex" .whole,
     .one py!"enable" .whole, .one py!"duration" .whole, .one py!"ppsmode" .whole, .one py!"polarity" .whole,
     .one py!"reserved" .whole]),
   -- satellites with one and two masks
   (py!"QTMCFGSAT", [.absent py!"maskhigh"], [.one py!"status" .text, .one py!"systemid" .whole,
     .one py!"signalid" .text, .one py!"masklow" .text]),
   (py!"QTMCFGSAT", [.given py!"maskhigh"], [.one py!"status" .text, .one py!"systemid" .whole,
     .one py!"signalid" .text, .one py!"masklow" .text, .one py!"maskhigh" .text]),
   -- geofences: quadrangle, disabled, circle
   (py!"QTMCFGGEOFENCE", [.given py!"lon1"], [.one py!"status" .text, .one py!"geofenceindex" .whole,
     .one py!"geofencemode" .whole, .one py!"reserved" .whole, .one py!"shape" .whole, .one py!"lat0" .decimal,
     .one py!"lon0" .decimal, .one py!"radiuslat1" .decimal, .one py!"lon1" .decimal, .one py!"lat2" .decimal,
     .one py!"lon2" .decimal, .one py!"lat3" .decimal, .one py!"lon3" .decimal]),
   (py!"QTMCFGGEOFENCE", [.absent py!"lon1", .zero py!"geofencemode"], [.one py!"status" .text,
     .one py!"geofenceindex" .whole, .one py!"geofencemode" .whole]),
   (py!"QTMCFGGEOFENCE", [.absent py!"lon1", .notZero py!"geofencemode"], [.one py!"status" .text,
     .one py!"geofenceindex" .whole, .one py!"geofencemode" .whole, .one py!"reserved" .whole,
     .one py!"shape" .whole, .one py!"lat0" .decimal, .one py!"lon0" .decimal, .one py!"radiuslat1" .decimal])]

/-- The same for queries. -/
def queryVariants : List (Str × List When × List Item) :=
   -- the current port, a given port
  [(py!"QTMCFGUART", [.absent py!"portid"], [.one py!"status" .text]),
   (py!"QTMCFGUART", [.given py!"portid"], [.one py!"status" .text, .one py!"portid" .whole]),
   -- rate of a message
   (py!"QTMCFGMSGRATE", [.absent py!"porttype", .absent py!"msgver"], [.one py!"status" .text,
     .one py!"msgname" .text]),
   (py!"QTMCFGMSGRATE", [.absent py!"porttype", .given py!"msgver"], [.one py!"status" .text,
     .one py!"msgname" .text, .one py!"msgver" .whole]),
   (py!"QTMCFGMSGRATE", [.given py!"porttype", .absent py!"msgver"], [.one py!"status" .text,
     .one py!"porttype" .whole, .one py!"portid" .whole, .one py!"msgname" .text]),
   (py!"QTMCFGMSGRATE", [.given py!"porttype", .given py!"msgver"], [.one py!"status" .text,
     .one py!"porttype" .whole, .one py!"portid" .whole, .one py!"msgname" .text, .one py!"msgver" .whole])]

/-- Commands (mode 1) and queries (mode 2). -/
def known (mode : Int) : List (Str × Select × List Item) := if mode = 1 then commands else queries

/-- Variants of commands (mode 1) and queries (mode 2). -/
def variants (mode : Int) : List (Str × List When × List Item) := if mode = 1 then commandVariants else queryVariants

/-- What a Quectel command or query begins with. -/
def verb (mode : Int) : Str := if mode = 1 then py!"W" else py!"R"

end Spec.Commands
