import Verif.Spec.Nmea0183
/-!
# Specification: the other standard sentences

The layouts of the sentences that are not in `Spec/Nmea0183`, transcribed from the descriptions of the payloads in the
library (`nmeatypes_get.py`), with kinds of fields instead of the library's types. Sentences with coordinates whose
hemisphere the library leaves to the caller are listed apart.
-/
namespace Spec.Nmea0183
open Py Nmea Spec

/-- The rest of the standard sentences, and the extended sentences of Unicore receivers. -/
def others : List (Str × List Item) :=
  [(py!"ABM", [.one py!"numSen" .whole, .one py!"senNum" .whole, .one py!"mmsi" .text, .one py!"aischan" .text,
     .one py!"ituMsg" .text, .one py!"data" .text, .one py!"fillbits" .whole]),
   (py!"ACN", [.one py!"time" .time, .one py!"mfrcode" .text, .one py!"alertid" .text,
     .one py!"alertnum" .whole, .one py!"alertcmd" .text, .one py!"status" .text]),
   (py!"ACS", [.one py!"seqNum" .whole, .one py!"mmsi" .text, .one py!"utc" .time, .one py!"day" .whole,
     .one py!"month" .whole, .one py!"year" .whole]),
   (py!"AIR", [.one py!"mmsi1" .text, .one py!"mmsi1msg1" .text, .one py!"mmsi1msg1sub" .text,
     .one py!"mmsi1msg2" .text, .one py!"mmsi1msg2sub" .text, .one py!"mmsi2" .text, .one py!"mmsi2msg1" .text,
     .one py!"mmsi2msg1sub" .text, .one py!"channel" .text, .one py!"mid11" .text, .one py!"mid12" .text,
     .one py!"mid21" .text]),
   (py!"AKD", [.one py!"acktime" .time, .one py!"srcsystem" .text, .one py!"srcsubsysytem" .text,
     .one py!"srcinstance" .text, .one py!"alarmtype" .text, .one py!"acksystem" .text,
     .one py!"acksubsystem" .text, .one py!"ackinstance" .text]),
   (py!"ALA", [.one py!"evttime" .time, .one py!"srcsystem" .text, .one py!"srcsubsysytem" .text,
     .one py!"srcinstance" .text, .one py!"alarmtype" .text, .one py!"alarmcond" .text,
     .one py!"alarmackstate" .text, .one py!"alarmtext" .text]),
   (py!"ALC", [.one py!"numSen" .whole, .one py!"senNum" .whole, .one py!"seqmid" .whole,
     .one py!"numAlerts" .whole,
     .counted 3 [(py!"mfrcode", .text), (py!"alertid", .text), (py!"revisionctr", .text)]]),
   (py!"ALF", [.one py!"numSen" .whole, .one py!"senNum" .whole, .one py!"seqmid" .whole,
     .one py!"timelastchange" .time, .one py!"alertcat" .text, .one py!"alertpriority" .text,
     .one py!"alertstate" .text, .one py!"mfrcode" .text, .one py!"alertid" .text, .one py!"alertinst" .text,
     .one py!"revisionctr" .text, .one py!"escalationctr" .text, .one py!"alerttxt" .text]),
   (py!"ARC", [.one py!"time" .time, .one py!"mfrcode" .text, .one py!"alertid" .text,
     .one py!"alertinst" .whole, .one py!"alertcmd" .text]),
   (py!"BBM", [.one py!"numSen" .whole, .one py!"senNum" .whole, .one py!"seqmid" .whole,
     .one py!"aischan" .text, .one py!"itumsg" .text, .one py!"data" .text, .one py!"fillbits" .whole]),
   (py!"DDC", [.one py!"preset" .text, .one py!"brightness" .whole, .one py!"palette" .text,
     .one py!"status" .text]),
   (py!"DOR", [.one py!"msgtype" .text, .one py!"time" .time, .one py!"doormontype" .text,
     .one py!"div1ind" .text, .one py!"div2ind" .text, .one py!"doorcount" .whole, .one py!"doorstatus" .text,
     .one py!"watertightdoorsetting" .text, .one py!"msgtext" .text]),
   (py!"DSC", [.one py!"format" .text, .one py!"address" .text, .one py!"category" .text,
     .one py!"distresstype" .text, .one py!"commtype" .text, .one py!"channel" .text,
     .one py!"timetelno" .text, .one py!"mmsi" .text, .one py!"distressnature" .text,
     .one py!"acknowledgement" .text, .one py!"expansionind" .text]),
   (py!"EPV", [.one py!"status" .text, .one py!"equipmenttype" .text, .one py!"equipmentid" .text,
     .one py!"propertyid" .text, .one py!"value" .text]),
   (py!"ETL", [.one py!"time" .time, .one py!"msgtype" .text, .one py!"engtelposind" .text,
     .one py!"engsubtelposind" .text, .one py!"operatinglocind" .text, .one py!"enginenum" .text]),
   (py!"EVE", [.one py!"time" .time, .one py!"tagcode" .text, .one py!"eventtext" .text]),
   (py!"FIR", [.one py!"msgtype" .text, .one py!"time" .time, .one py!"fdstype" .text, .one py!"div1ind" .text,
     .one py!"div2ind" .text, .one py!"fdsnum" .text, .one py!"condition" .text, .one py!"alarmackstate" .text,
     .one py!"text" .text]),
   (py!"FMI", [.one py!"time" .time, .one py!"lat" .decimal, .one py!"lon" .decimal, .one py!"alt" .decimal,
     .one py!"roll" .decimal, .one py!"pitch" .decimal, .one py!"yaw" .decimal, .one py!"hrms" .decimal,
     .one py!"numSV" .whole, .one py!"diffAge" .whole, .one py!"navmod" .whole, .one py!"status" .text]),
   (py!"FSI", [.one py!"txfreq" .text, .one py!"rxfreq" .text, .one py!"opmode" .text, .one py!"power" .whole,
     .one py!"status" .text]),
   (py!"GEN", [.one py!"index" .text, .one py!"time" .time, .many [(py!"data", .text)]]),
   (py!"GMP", [.one py!"utctime" .time, .one py!"mapProjection" .text, .one py!"mapZone" .text,
     .one py!"gridN" .decimal, .one py!"gridE" .decimal, .one py!"modeInd" .text, .one py!"sip" .whole,
     .one py!"HDOP" .decimal, .one py!"alt" .decimal, .one py!"geoidSep" .decimal, .one py!"corrAge" .decimal,
     .one py!"baseId" .text]),
   (py!"HCR", [.one py!"headingt" .decimal, .one py!"mode" .text, .one py!"corrstate" .text,
     .one py!"corrvalue" .decimal]),
   (py!"HMR", [.one py!"sensor1id" .text, .one py!"sensor2id" .text, .one py!"setdiff" .decimal,
     .one py!"actualdiff" .decimal, .one py!"warning" .text, .one py!"sensor1hdg" .decimal,
     .one py!"sensor1status" .text, .one py!"sensor1u" .text, .one py!"sensor1dev" .decimal,
     .one py!"sensor1EW" .east, .one py!"sensor2hdg" .decimal, .one py!"sensor2status" .text,
     .one py!"sensor2u" .text, .one py!"sensor2dev" .decimal, .one py!"sensor2EW" .east,
     .one py!"variation" .decimal, .one py!"variationEW" .east]),
   (py!"HMS", [.one py!"sensor1id" .text, .one py!"sensor2id" .text, .one py!"setdiff" .decimal]),
   (py!"HRM", [.one py!"heel" .decimal, .one py!"rollperiod" .decimal, .one py!"rollamplitudeport" .decimal,
     .one py!"rollamplitduestbd" .decimal, .one py!"status" .text, .one py!"rollpeakport" .decimal,
     .one py!"rollpeakstbd" .decimal, .one py!"peakholdresettime" .time, .one py!"peakholdresetdat" .whole,
     .one py!"peakholdresetmonth" .whole]),
   (py!"HSS", [.one py!"measpointid" .text, .one py!"value" .decimal, .one py!"status" .text]),
   (py!"HTC", [.one py!"override" .text, .one py!"cmdrudderang" .decimal, .one py!"cmdrudderdir" .text,
     .one py!"steermode" .text, .one py!"turnmode" .text, .one py!"cmdrudderlimit" .decimal,
     .one py!"cmdoffheadinglimit" .decimal, .one py!"cmdturnradius" .decimal, .one py!"cmdturnrate" .decimal,
     .one py!"cmdheading" .decimal, .one py!"cmdofftracklimit" .decimal, .one py!"cmdtrack" .decimal,
     .one py!"headingref" .text, .one py!"status" .text]),
   (py!"HTD", [.one py!"override" .text, .one py!"cmdrudderang" .decimal, .one py!"cmdrudderdir" .text,
     .one py!"steermode" .text, .one py!"turnmode" .text, .one py!"cmdrudderlimit" .decimal,
     .one py!"cmdoffheadinglimit" .decimal, .one py!"cmdturnradius" .decimal, .one py!"cmdturnrate" .decimal,
     .one py!"cmdheading" .decimal, .one py!"cmdofftracklimit" .decimal, .one py!"cmdtrack" .decimal,
     .one py!"headingref" .text, .one py!"rudderstatus" .text, .one py!"offheadingstatus" .text,
     .one py!"offtrackstatus" .text, .one py!"vesselheading" .decimal]),
   (py!"LRF", [.one py!"seqNum" .whole, .one py!"mmsirequestor" .text, .one py!"namerequestor" .text,
     .one py!"function" .text, .one py!"replystatus" .text]),
   (py!"LLQ", [.one py!"utctime" .time, .one py!"utcdate" .date, .one py!"easting" .decimal,
     .one py!"eunit" .text, .one py!"northing" .decimal, .one py!"nunit" .text, .one py!"gpsQual" .whole,
     .one py!"sip" .whole, .one py!"posQual" .decimal, .one py!"height" .decimal, .one py!"hunit" .text]),
   (py!"NAK", [.one py!"talkerid" .text, .one py!"formatter" .text, .one py!"identifier" .text,
     .one py!"reason" .text, .one py!"text" .text]),
   (py!"NRM", [.one py!"function" .text, .one py!"freqtable" .text, .one py!"txcovermask" .text,
     .one py!"msgtypemask" .text, .one py!"status" .text]),
   (py!"NSR", [.one py!"hdgintegrity" .text, .one py!"hdgplausibility" .text, .one py!"posintegrity" .text,
     .one py!"posplausibility" .text, .one py!"stwintegrity" .text, .one py!"stwplausibility" .text,
     .one py!"sogcogintegrity" .text, .one py!"sogcogplausibility" .text, .one py!"depthintegrity" .text,
     .one py!"depthplausibility" .text, .one py!"stwmode" .text, .one py!"timeintegrity" .text,
     .one py!"timeplausibility" .text]),
   (py!"POS", [.one py!"equipmentid" .text, .one py!"equipmentnum" .whole, .one py!"posvalidity" .text,
     .one py!"posx" .decimal, .one py!"posy" .decimal, .one py!"posz" .decimal, .one py!"shipdimvalid" .text,
     .one py!"width" .decimal, .one py!"length" .decimal, .one py!"status" .text]),
   (py!"PRC", [.one py!"leverdmdpos" .decimal, .one py!"leverdmdstatus" .text, .one py!"rpmdemand" .decimal,
     .one py!"rpmdemandstatus" .text, .one py!"pitchdmd" .decimal, .one py!"pitchmode" .text,
     .one py!"operatinglocind" .text, .one py!"engineshaftnum" .whole]),
   (py!"ROR", [.one py!"stbdrudderorder" .decimal, .one py!"stbdrudderstatus" .text,
     .one py!"portrudderorder" .decimal, .one py!"portrudderstatus" .text, .one py!"operatinglocind" .text]),
   (py!"RRT", [.one py!"tfrtype" .text, .one py!"tfrroutename" .text, .one py!"tfrroutever" .text,
     .one py!"wptid" .text, .one py!"filestatus" .text, .one py!"appstatus" .text]),
   (py!"SM1", [.one py!"MSIstatus" .text, .one py!"msgnum" .whole, .one py!"LESseqnum" .whole,
     .one py!"LESid" .whole, .one py!"oceanregioncode" .whole, .one py!"prioritycode" .whole,
     .one py!"servicecode" .whole, .one py!"presentationcode" .whole, .one py!"year" .whole,
     .one py!"month" .whole, .one py!"day" .whole, .one py!"hour" .whole, .one py!"minute" .whole,
     .one py!"addresscode" .whole]),
   (py!"SM2", [.one py!"MSIstatus" .text, .one py!"msgnum" .whole, .one py!"LESseqnum" .whole,
     .one py!"LESid" .whole, .one py!"oceanregioncode" .whole, .one py!"prioritycode" .whole,
     .one py!"servicecode" .whole, .one py!"presentationcode" .whole, .one py!"year" .whole,
     .one py!"month" .whole, .one py!"day" .whole, .one py!"hour" .whole, .one py!"minute" .whole,
     .one py!"coastalwarnnavarea" .whole, .one py!"coastalwarnarea" .text,
     .one py!"coastalwarnsubjectind" .text]),
   (py!"SMB", [.one py!"numSen" .whole, .one py!"senNum" .whole, .one py!"seqid" .whole,
     .one py!"msgnum" .whole, .one py!"body" .text]),
   (py!"SPW", [.one py!"pwdprotectsentence" .text, .one py!"id" .text, .one py!"pwdlevel" .whole,
     .one py!"password" .text]),
   (py!"STN", [.one py!"talkerId" .text]),
   (py!"TRA", [.one py!"time" .time, .one py!"heading" .decimal, .one py!"pitch" .decimal,
     .one py!"roll" .decimal, .one py!"quality" .whole, .one py!"svid" .whole, .one py!"diffAge" .decimal,
     .one py!"stationID" .text]),
   (py!"TRC", [.one py!"thrusternum" .whole, .one py!"dmdrpm" .decimal, .one py!"rpmmode" .text,
     .one py!"dmdpitch" .decimal, .one py!"pitchmode" .text, .one py!"dmdazimuth" .decimal,
     .one py!"operatinglocind" .text, .one py!"status" .text]),
   (py!"TRD", [.one py!"thrusternum" .whole, .one py!"rpmresponse" .whole, .one py!"rpmmode" .text,
     .one py!"pitchresponse" .whole, .one py!"pitchmode" .text, .one py!"azimuthresponse" .whole]),
   (py!"TRL", [.one py!"totlognum" .whole, .one py!"lognum" .whole, .one py!"seqid" .whole,
     .one py!"switchoffdate" .text, .one py!"switchofftime" .time, .one py!"switchondate" .text,
     .one py!"switchontime" .time, .one py!"reasoncode" .whole]),
   (py!"TTD", [.one py!"numSen" .whole, .one py!"senNum" .whole, .one py!"seqid" .whole, .one py!"data" .text,
     .one py!"fillbits" .whole]),
   (py!"TUT", [.one py!"sourceid" .text, .one py!"numSen" .text, .one py!"senNum" .text,
     .one py!"seqid" .whole, .one py!"translationcode" .text, .one py!"text" .text]),
   (py!"UID", [.one py!"uid1" .text, .one py!"uid2" .text]),
   (py!"VER", [.one py!"numSen" .whole, .one py!"senNum" .whole, .one py!"devicetype" .text,
     .one py!"vendorid" .text, .one py!"uid" .text, .one py!"mfrserial" .text, .one py!"model" .text,
     .one py!"software" .text, .one py!"hardware" .text, .one py!"seqid" .whole]),
   (py!"WAT", [.one py!"msgtype" .text, .one py!"time" .time, .one py!"alarmtype" .text,
     .one py!"loc1ind" .whole, .one py!"loc2ind" .whole, .one py!"detectionpoint" .whole,
     .one py!"alarmcondition" .text, .one py!"overridesetting" .text, .one py!"text" .text]),
   (py!"ZDL", [.one py!"time" .time, .one py!"dist" .decimal, .one py!"type" .text]),
   (py!"GGAH", [.one py!"time" .time, .one py!"lat" .latitude, .one py!"NS" .north, .one py!"lon" .longitude,
     .one py!"EW" .east, .one py!"quality" .whole, .one py!"numSV" .whole, .one py!"HDOP" .decimal,
     .one py!"alt" .decimal, .one py!"altUnit" .text, .one py!"sep" .decimal, .one py!"sepUnit" .text,
     .one py!"diffAge" .decimal, .one py!"diffStation" .whole]),
   (py!"GLLH", [.one py!"lat" .latitude, .one py!"NS" .north, .one py!"lon" .longitude, .one py!"EW" .east,
     .one py!"time" .time, .one py!"status" .text, .one py!"posMode" .text]),
   (py!"GNSH", [.one py!"time" .time, .one py!"lat" .latitude, .one py!"NS" .north, .one py!"lon" .longitude,
     .one py!"EW" .east, .one py!"posMode" .text, .one py!"numSV" .whole, .one py!"HDOP" .decimal,
     .one py!"alt" .decimal, .one py!"sep" .decimal, .one py!"diffAge" .decimal, .one py!"diffStation" .whole,
     .one py!"navStatus" .text]),
   (py!"GRSH", [.one py!"time" .time, .one py!"mode" .whole, .times 12 [(py!"residual", .decimal)],
     .one py!"systemId" .text, .one py!"signalId" .text]),
   (py!"GSAH", [.one py!"opMode" .text, .one py!"navMode" .whole, .times 12 [(py!"svid", .whole)],
     .one py!"PDOP" .decimal, .one py!"HDOP" .decimal, .one py!"VDOP" .decimal, .one py!"systemId" .text]),
   (py!"GSTH", [.one py!"time" .time, .one py!"rangeRms" .decimal, .one py!"stdMajor" .decimal,
     .one py!"stdMinor" .decimal, .one py!"orient" .decimal, .one py!"stdLat" .decimal,
     .one py!"stdLong" .decimal, .one py!"stdAlt" .decimal]),
   (py!"GSVH", [.one py!"numMsg" .whole, .one py!"msgNum" .whole, .one py!"numSV" .whole,
     .many [(py!"svid", .whole), (py!"elv", .whole), (py!"az", .whole), (py!"cno", .whole)],
     .one py!"signalID" .text]),
   (py!"RMCH", [.one py!"time" .time, .one py!"status" .text, .one py!"lat" .latitude, .one py!"NS" .north,
     .one py!"lon" .longitude, .one py!"EW" .east, .one py!"spd" .decimal, .one py!"cog" .decimal,
     .one py!"date" .date, .one py!"mv" .decimal, .one py!"mvEW" .text, .one py!"posMode" .text,
     .one py!"navStatus" .text]),
   (py!"VTGH", [.one py!"cogt" .decimal, .one py!"cogtUnit" .text, .one py!"cogm" .decimal,
     .one py!"cogmUnit" .text, .one py!"sogn" .decimal, .one py!"sognUnit" .text, .one py!"sogk" .decimal,
     .one py!"sogkUnit" .text, .one py!"posMode" .text]),
   (py!"THS2", [.one py!"headt" .decimal, .one py!"mi" .text]),
   (py!"HPR", [.one py!"time" .time, .one py!"heading" .decimal, .one py!"pitch" .decimal,
     .one py!"roll" .decimal, .one py!"quality" .whole, .one py!"svid" .whole, .one py!"diffAge" .decimal,
     .one py!"stationID" .text]),
   (py!"HPR2", [.one py!"time" .time, .one py!"heading" .decimal, .one py!"pitch" .decimal,
     .one py!"roll" .decimal, .one py!"quality" .whole, .one py!"svid" .whole, .one py!"diffAge" .decimal,
     .one py!"stationID" .text]),
   (py!"TRA2", [.one py!"time" .time, .one py!"heading" .decimal, .one py!"pitch" .decimal,
     .one py!"roll" .decimal, .one py!"quality" .whole, .one py!"svid" .whole, .one py!"diffAge" .decimal,
     .one py!"stationID" .text]),
   (py!"ROT2", [.one py!"rot" .decimal, .one py!"valid" .text]),
   (py!"HPD", [.one py!"wno" .whole, .one py!"tow" .decimal, .one py!"heading" .decimal,
     .one py!"pitch" .decimal, .one py!"cog" .decimal, .one py!"lat" .decimal, .one py!"lon" .decimal,
     .one py!"alt" .decimal, .one py!"velE" .decimal, .one py!"velN" .decimal, .one py!"velU" .decimal,
     .one py!"veldeltaE" .decimal, .one py!"veldeltaN" .decimal, .one py!"veldeltaU" .decimal,
     .one py!"baseline" .decimal, .one py!"sivmain" .whole, .one py!"sivsecond" .whole])]

/-- Sentences whose coordinates have names other than `lat` and `lon`. -/
def unsigned : List (Str × List Item) :=
  [(py!"ACA", [.one py!"seqNum" .whole, .one py!"latne" .latitude, .one py!"latneNS" .north,
     .one py!"lonne" .longitude, .one py!"lonneEW" .east, .one py!"latsw" .latitude, .one py!"latswNS" .north,
     .one py!"lonswq" .longitude, .one py!"lonswEW" .east, .one py!"tranZoneSize" .text, .one py!"chanA" .text,
     .one py!"chanAbw" .text, .one py!"chanB" .text, .one py!"chanBbw" .text, .one py!"txrxMode" .whole,
     .one py!"pwrLevelCtl" .whole, .one py!"infoSource" .text, .one py!"inuse" .whole,
     .one py!"inuseTime" .time]),
   (py!"BEC", [.one py!"utc" .time, .one py!"wptlat" .latitude, .one py!"wptNS" .north,
     .one py!"wptlon" .longitude, .one py!"wptEW" .east, .one py!"bearT" .decimal, .one py!"bearTu" .text,
     .one py!"bearM" .decimal, .one py!"bearMu" .text, .one py!"dist" .decimal, .one py!"distu" .text,
     .one py!"wpt" .text]),
   (py!"LRI", [.one py!"seqNum" .whole, .one py!"controlflag" .text, .one py!"mmsirequestor" .text,
     .one py!"mmsidestination" .text, .one py!"latne" .latitude, .one py!"NSne" .north,
     .one py!"lonne" .longitude, .one py!"EWne" .east, .one py!"latsw" .latitude, .one py!"NSsw" .north,
     .one py!"lonsw" .longitude, .one py!"EWsw" .east]),
   (py!"SM3", [.one py!"MSIstatus" .text, .one py!"msgnum" .whole, .one py!"LESseqnum" .whole,
     .one py!"LESid" .whole, .one py!"oceanregioncode" .whole, .one py!"prioritycode" .whole,
     .one py!"servicecode" .whole, .one py!"presentationcode" .whole, .one py!"year" .whole,
     .one py!"month" .whole, .one py!"day" .whole, .one py!"hour" .whole, .one py!"minute" .whole,
     .one py!"circarealat" .latitude, .one py!"circareaNS" .north, .one py!"circarealon" .longitude,
     .one py!"circareaEW" .east, .one py!"circarearadius" .whole]),
   (py!"SM4", [.one py!"MSIstatus" .text, .one py!"msgnum" .whole, .one py!"LESseqnum" .whole,
     .one py!"LESid" .whole, .one py!"oceanregioncode" .whole, .one py!"prioritycode" .whole,
     .one py!"servicecode" .whole, .one py!"presentationcode" .whole, .one py!"year" .whole,
     .one py!"month" .whole, .one py!"day" .whole, .one py!"hour" .whole, .one py!"minute" .whole,
     .one py!"redareaswlat" .latitude, .one py!"recareaswNS" .north, .one py!"redareaswlon" .longitude,
     .one py!"recareaswEW" .east, .one py!"recareaextentN" .whole, .one py!"recareaextentE" .whole]),
   (py!"TLL", [.one py!"targetnum" .whole, .one py!"targetlat" .latitude, .one py!"targetlatNS" .north,
     .one py!"targetlon" .longitude, .one py!"targetlonEW" .east, .one py!"targetname" .text,
     .one py!"time" .time, .one py!"status" .text, .one py!"reftarget" .text])]

end Spec.Nmea0183
