import Verif.Model.Types
/- Generated by tools/gen_tables.py from the source text of /repo/src/pynmeagps. -/
namespace Nmea
open Py

/-- `NMEA_PAYLOADS_GET["AAM"]` (/repo/src/pynmeagps/nmeatypes_get.py:38-44). -/
def GET.AAM : PDict := .single py!"arrce" CH <| .single py!"perp" CH <| .single py!"crad" DE <| .single py!"cUnit" CH <| .single py!"wpt" ST <| .nil

/-- `NMEA_PAYLOADS_GET["ABK"]` (/repo/src/pynmeagps/nmeatypes_get.py:45-51). -/
def GET.ABK : PDict := .single py!"mmsi" ST <| .single py!"aischan" CH <| .single py!"itumsg" ST <| .single py!"msgSeq" IN <| .single py!"ackType" IN <| .nil

/-- `NMEA_PAYLOADS_GET["ABM"]` (/repo/src/pynmeagps/nmeatypes_get.py:52-60). -/
def GET.ABM : PDict := .single py!"numSen" IN <| .single py!"senNum" IN <| .single py!"mmsi" ST <| .single py!"aischan" CH <| .single py!"ituMsg" ST <| .single py!"data" ST <| .single py!"fillbits" IN <| .nil

/-- `NMEA_PAYLOADS_GET["ACA"]` (/repo/src/pynmeagps/nmeatypes_get.py:61-81). -/
def GET.ACA : PDict := .single py!"seqNum" IN <| .single py!"latne" LA <| .single py!"latneNS" LAD <| .single py!"lonne" LN <| .single py!"lonneEW" LND <| .single py!"latsw" LA <| .single py!"latswNS" LAD <| .single py!"lonswq" LN <| .single py!"lonswEW" LND <| .single py!"tranZoneSize" CH <| .single py!"chanA" CH <| .single py!"chanAbw" CH <| .single py!"chanB" CH <| .single py!"chanBbw" CH <| .single py!"txrxMode" IN <| .single py!"pwrLevelCtl" IN <| .single py!"infoSource" CH <| .single py!"inuse" IN <| .single py!"inuseTime" TM <| .nil

/-- `NMEA_PAYLOADS_GET["ACK"]` (/repo/src/pynmeagps/nmeatypes_get.py:82-84). -/
def GET.ACK : PDict := .single py!"alarmid" ST <| .nil

/-- `NMEA_PAYLOADS_GET["ACN"]` (/repo/src/pynmeagps/nmeatypes_get.py:85-92). -/
def GET.ACN : PDict := .single py!"time" TM <| .single py!"mfrcode" ST <| .single py!"alertid" ST <| .single py!"alertnum" IN <| .single py!"alertcmd" ST <| .single py!"status" CH <| .nil

/-- `NMEA_PAYLOADS_GET["ACS"]` (/repo/src/pynmeagps/nmeatypes_get.py:93-100). -/
def GET.ACS : PDict := .single py!"seqNum" IN <| .single py!"mmsi" ST <| .single py!"utc" TM <| .single py!"day" IN <| .single py!"month" IN <| .single py!"year" IN <| .nil

/-- `NMEA_PAYLOADS_GET["AIR"]` (/repo/src/pynmeagps/nmeatypes_get.py:101-114). -/
def GET.AIR : PDict := .single py!"mmsi1" ST <| .single py!"mmsi1msg1" ST <| .single py!"mmsi1msg1sub" ST <| .single py!"mmsi1msg2" ST <| .single py!"mmsi1msg2sub" CH <| .single py!"mmsi2" ST <| .single py!"mmsi2msg1" ST <| .single py!"mmsi2msg1sub" ST <| .single py!"channel" ST <| .single py!"mid11" ST <| .single py!"mid12" ST <| .single py!"mid21" ST <| .nil

/-- `NMEA_PAYLOADS_GET["AKD"]` (/repo/src/pynmeagps/nmeatypes_get.py:115-124). -/
def GET.AKD : PDict := .single py!"acktime" TM <| .single py!"srcsystem" ST <| .single py!"srcsubsysytem" ST <| .single py!"srcinstance" ST <| .single py!"alarmtype" ST <| .single py!"acksystem" ST <| .single py!"acksubsystem" ST <| .single py!"ackinstance" ST <| .nil

/-- `NMEA_PAYLOADS_GET["ALA"]` (/repo/src/pynmeagps/nmeatypes_get.py:125-134). -/
def GET.ALA : PDict := .single py!"evttime" TM <| .single py!"srcsystem" ST <| .single py!"srcsubsysytem" ST <| .single py!"srcinstance" ST <| .single py!"alarmtype" ST <| .single py!"alarmcond" ST <| .single py!"alarmackstate" ST <| .single py!"alarmtext" ST <| .nil

/-- `NMEA_PAYLOADS_GET["ALC"]` (/repo/src/pynmeagps/nmeatypes_get.py:135-148). -/
def GET.ALC : PDict := .single py!"numSen" IN <| .single py!"senNum" IN <| .single py!"seqmid" IN <| .single py!"numAlerts" IN <| .group py!"alertgroup" (.named py!"numAlerts") (.single py!"mfrcode" ST <| .single py!"alertid" ST <| .single py!"revisionctr" ST <| .nil) <| .nil

/-- `NMEA_PAYLOADS_GET["ALF"]` (/repo/src/pynmeagps/nmeatypes_get.py:149-163). -/
def GET.ALF : PDict := .single py!"numSen" IN <| .single py!"senNum" IN <| .single py!"seqmid" IN <| .single py!"timelastchange" TM <| .single py!"alertcat" CH <| .single py!"alertpriority" CH <| .single py!"alertstate" CH <| .single py!"mfrcode" ST <| .single py!"alertid" ST <| .single py!"alertinst" ST <| .single py!"revisionctr" ST <| .single py!"escalationctr" ST <| .single py!"alerttxt" ST <| .nil

/-- `NMEA_PAYLOADS_GET["ALR"]` (/repo/src/pynmeagps/nmeatypes_get.py:164-170). -/
def GET.ALR : PDict := .single py!"timealarmchange" TM <| .single py!"alarmnum" ST <| .single py!"alarmcond" ST <| .single py!"alarmstate" ST <| .single py!"alarmtext" ST <| .nil

/-- `NMEA_PAYLOADS_GET["APA"]` (/repo/src/pynmeagps/nmeatypes_get.py:171-182). -/
def GET.APA : PDict := .single py!"LCgwarn" CH <| .single py!"LCcwarn" CH <| .single py!"ctrkerr" DE <| .single py!"dirs" CH <| .single py!"ctrkUnit" CH <| .single py!"aalmcirc" CH <| .single py!"aalmperp" CH <| .single py!"bearP2D" DE <| .single py!"bearP2Du" CH <| .single py!"wpt" ST <| .nil

/-- `NMEA_PAYLOADS_GET["APB"]` (/repo/src/pynmeagps/nmeatypes_get.py:183-199). -/
def GET.APB : PDict := .single py!"LCgwarn" CH <| .single py!"LCcwarn" CH <| .single py!"ctrkerr" DE <| .single py!"dirs" CH <| .single py!"ctrkUnit" CH <| .single py!"aalmcirc" CH <| .single py!"aalmperp" CH <| .single py!"bearO2D" DE <| .single py!"bearO2Du" CH <| .single py!"wpt" ST <| .single py!"bearD" DE <| .single py!"bearDu" CH <| .single py!"bearS" DE <| .single py!"bearSu" CH <| .single py!"mode" CH <| .nil

/-- `NMEA_PAYLOADS_GET["ARC"]` (/repo/src/pynmeagps/nmeatypes_get.py:200-206). -/
def GET.ARC : PDict := .single py!"time" TM <| .single py!"mfrcode" ST <| .single py!"alertid" ST <| .single py!"alertinst" IN <| .single py!"alertcmd" ST <| .nil

/-- `NMEA_PAYLOADS_GET["BBM"]` (/repo/src/pynmeagps/nmeatypes_get.py:207-215). -/
def GET.BBM : PDict := .single py!"numSen" IN <| .single py!"senNum" IN <| .single py!"seqmid" IN <| .single py!"aischan" CH <| .single py!"itumsg" ST <| .single py!"data" ST <| .single py!"fillbits" IN <| .nil

/-- `NMEA_PAYLOADS_GET["BEC"]` (/repo/src/pynmeagps/nmeatypes_get.py:216-229). -/
def GET.BEC : PDict := .single py!"utc" TM <| .single py!"wptlat" LA <| .single py!"wptNS" LAD <| .single py!"wptlon" LN <| .single py!"wptEW" LND <| .single py!"bearT" DE <| .single py!"bearTu" CH <| .single py!"bearM" DE <| .single py!"bearMu" CH <| .single py!"dist" DE <| .single py!"distu" CH <| .single py!"wpt" ST <| .nil

/-- `NMEA_PAYLOADS_GET["BOD"]` (/repo/src/pynmeagps/nmeatypes_get.py:230-237). -/
def GET.BOD : PDict := .single py!"bearT" DE <| .single py!"bearTu" CH <| .single py!"bearM" DE <| .single py!"bearMu" CH <| .single py!"wptD" ST <| .single py!"wptO" ST <| .nil

/-- `NMEA_PAYLOADS_GET["BWC"]` (/repo/src/pynmeagps/nmeatypes_get.py:238-252). -/
def GET.BWC : PDict := .single py!"fixutc" TM <| .single py!"lat" LA <| .single py!"NS" LAD <| .single py!"lon" LN <| .single py!"EW" LND <| .single py!"bearT" DE <| .single py!"bearTu" CH <| .single py!"bearM" DE <| .single py!"bearMu" CH <| .single py!"dist" DE <| .single py!"distUnit" CH <| .single py!"wpt" ST <| .single py!"mode" CH <| .nil

/-- `NMEA_PAYLOADS_GET["BWR"]` (/repo/src/pynmeagps/nmeatypes_get.py:253-267). -/
def GET.BWR : PDict := .single py!"fixutc" TM <| .single py!"lat" LA <| .single py!"NS" LAD <| .single py!"lon" LN <| .single py!"EW" LND <| .single py!"bearT" DE <| .single py!"bearTu" CH <| .single py!"bearM" DE <| .single py!"bearMu" CH <| .single py!"dist" DE <| .single py!"distUnit" CH <| .single py!"wpt" ST <| .single py!"mode" CH <| .nil

/-- `NMEA_PAYLOADS_GET["BWW"]` (/repo/src/pynmeagps/nmeatypes_get.py:268-275). -/
def GET.BWW : PDict := .single py!"bearT" DE <| .single py!"bearTu" CH <| .single py!"bearM" DE <| .single py!"bearMu" CH <| .single py!"wptto" ST <| .single py!"wptfrom" ST <| .nil

/-- `NMEA_PAYLOADS_GET["CUR"]` (/repo/src/pynmeagps/nmeatypes_get.py:276-288). -/
def GET.CUR : PDict := .single py!"valid" CH <| .single py!"datasetnum" IN <| .single py!"layernum" IN <| .single py!"depth" DE <| .single py!"direction" DE <| .single py!"dirTR" CH <| .single py!"speed" DE <| .single py!"refdepth" DE <| .single py!"heading" DE <| .single py!"headingTM" CH <| .single py!"speedref" CH <| .nil

/-- `NMEA_PAYLOADS_GET["DBT"]` (/repo/src/pynmeagps/nmeatypes_get.py:289-296). -/
def GET.DBT : PDict := .single py!"depthf" DE <| .single py!"depthfu" CH <| .single py!"depthm" DE <| .single py!"depthmu" CH <| .single py!"depthfath" DE <| .single py!"depthfathu" CH <| .nil

/-- `NMEA_PAYLOADS_GET["DDC"]` (/repo/src/pynmeagps/nmeatypes_get.py:297-302). -/
def GET.DDC : PDict := .single py!"preset" CH <| .single py!"brightness" IN <| .single py!"palette" CH <| .single py!"status" CH <| .nil

/-- `NMEA_PAYLOADS_GET["DOR"]` (/repo/src/pynmeagps/nmeatypes_get.py:303-313). -/
def GET.DOR : PDict := .single py!"msgtype" CH <| .single py!"time" TM <| .single py!"doormontype" ST <| .single py!"div1ind" ST <| .single py!"div2ind" ST <| .single py!"doorcount" IN <| .single py!"doorstatus" CH <| .single py!"watertightdoorsetting" CH <| .single py!"msgtext" ST <| .nil

/-- `NMEA_PAYLOADS_GET["DPT"]` (/repo/src/pynmeagps/nmeatypes_get.py:314-318). -/
def GET.DPT : PDict := .single py!"depth" DE <| .single py!"offset" DE <| .single py!"rangescale" DE <| .nil

/-- `NMEA_PAYLOADS_GET["DSC"]` (/repo/src/pynmeagps/nmeatypes_get.py:319-331). -/
def GET.DSC : PDict := .single py!"format" ST <| .single py!"address" ST <| .single py!"category" ST <| .single py!"distresstype" ST <| .single py!"commtype" ST <| .single py!"channel" ST <| .single py!"timetelno" ST <| .single py!"mmsi" ST <| .single py!"distressnature" ST <| .single py!"acknowledgement" CH <| .single py!"expansionind" CH <| .nil

/-- `NMEA_PAYLOADS_GET["DSE"]` (/repo/src/pynmeagps/nmeatypes_get.py:332-344). -/
def GET.DSE : PDict := .single py!"numSen" IN <| .single py!"senNum" IN <| .single py!"queryflag" CH <| .single py!"mmsi" ST <| .group py!"datagroup" .indet (.single py!"code" ST <| .single py!"data" ST <| .nil) <| .nil

/-- `NMEA_PAYLOADS_GET["DTM"]` (/repo/src/pynmeagps/nmeatypes_get.py:345-354). -/
def GET.DTM : PDict := .single py!"datum" ST <| .single py!"subDatum" ST <| .single py!"latOfset" DE <| .single py!"NS" LAD <| .single py!"lonOfset" DE <| .single py!"EW" LND <| .single py!"alt" DE <| .single py!"refDatum" ST <| .nil

/-- `NMEA_PAYLOADS_GET["EPV"]` (/repo/src/pynmeagps/nmeatypes_get.py:355-361). -/
def GET.EPV : PDict := .single py!"status" CH <| .single py!"equipmenttype" ST <| .single py!"equipmentid" ST <| .single py!"propertyid" ST <| .single py!"value" ST <| .nil

/-- `NMEA_PAYLOADS_GET["ETL"]` (/repo/src/pynmeagps/nmeatypes_get.py:362-369). -/
def GET.ETL : PDict := .single py!"time" TM <| .single py!"msgtype" CH <| .single py!"engtelposind" ST <| .single py!"engsubtelposind" ST <| .single py!"operatinglocind" CH <| .single py!"enginenum" CH <| .nil

/-- `NMEA_PAYLOADS_GET["EVE"]` (/repo/src/pynmeagps/nmeatypes_get.py:370-374). -/
def GET.EVE : PDict := .single py!"time" TM <| .single py!"tagcode" ST <| .single py!"eventtext" ST <| .nil

/-- `NMEA_PAYLOADS_GET["FIR"]` (/repo/src/pynmeagps/nmeatypes_get.py:375-385). -/
def GET.FIR : PDict := .single py!"msgtype" CH <| .single py!"time" TM <| .single py!"fdstype" ST <| .single py!"div1ind" ST <| .single py!"div2ind" ST <| .single py!"fdsnum" ST <| .single py!"condition" CH <| .single py!"alarmackstate" CH <| .single py!"text" ST <| .nil

/-- `NMEA_PAYLOADS_GET["FMI"]` (/repo/src/pynmeagps/nmeatypes_get.py:387-400). -/
def GET.FMI : PDict := .single py!"time" TM <| .single py!"lat" DE <| .single py!"lon" DE <| .single py!"alt" DE <| .single py!"roll" DE <| .single py!"pitch" DE <| .single py!"yaw" DE <| .single py!"hrms" DE <| .single py!"numSV" IN <| .single py!"diffAge" IN <| .single py!"navmod" IN <| .single py!"status" HX <| .nil

/-- `NMEA_PAYLOADS_GET["FSI"]` (/repo/src/pynmeagps/nmeatypes_get.py:401-407). -/
def GET.FSI : PDict := .single py!"txfreq" ST <| .single py!"rxfreq" ST <| .single py!"opmode" ST <| .single py!"power" IN <| .single py!"status" CH <| .nil

/-- `NMEA_PAYLOADS_GET["GBS"]` (/repo/src/pynmeagps/nmeatypes_get.py:408-419). -/
def GET.GBS : PDict := .single py!"time" TM <| .single py!"errLat" DE <| .single py!"errLon" DE <| .single py!"errAlt" DE <| .single py!"svid" IN <| .single py!"prob" DE <| .single py!"bias" DE <| .single py!"stddev" DE <| .single py!"systemId" HX <| .single py!"signalId" HX <| .nil

/-- `NMEA_PAYLOADS_GET["GEN"]` (/repo/src/pynmeagps/nmeatypes_get.py:420-424). -/
def GET.GEN : PDict := .single py!"index" HX <| .single py!"time" TM <| .group py!"group" .indet (.single py!"data" HX <| .nil) <| .nil

/-- `NMEA_PAYLOADS_GET["GFA"]` (/repo/src/pynmeagps/nmeatypes_get.py:425-435). -/
def GET.GFA : PDict := .single py!"time" TM <| .single py!"hprotlvl" DE <| .single py!"vprotlvl" DE <| .single py!"semimajstddev" DE <| .single py!"semiminstddev" DE <| .single py!"semimajorientation" DE <| .single py!"altstddev" DE <| .single py!"accuracy" DE <| .single py!"integrity" ST <| .nil

/-- `NMEA_PAYLOADS_GET["GGA"]` (/repo/src/pynmeagps/nmeatypes_get.py:436-451). -/
def GET.GGA : PDict := .single py!"time" TM <| .single py!"lat" LA <| .single py!"NS" LAD <| .single py!"lon" LN <| .single py!"EW" LND <| .single py!"quality" IN <| .single py!"numSV" IN <| .single py!"HDOP" DE <| .single py!"alt" DE <| .single py!"altUnit" CH <| .single py!"sep" DE <| .single py!"sepUnit" CH <| .single py!"diffAge" DE <| .single py!"diffStation" IN <| .nil

/-- `NMEA_PAYLOADS_GET["GLL"]` (/repo/src/pynmeagps/nmeatypes_get.py:452-460). -/
def GET.GLL : PDict := .single py!"lat" LA <| .single py!"NS" LAD <| .single py!"lon" LN <| .single py!"EW" LND <| .single py!"time" TM <| .single py!"status" ST <| .single py!"posMode" ST <| .nil

/-- `NMEA_PAYLOADS_GET["GMP"]` (/repo/src/pynmeagps/nmeatypes_get.py:461-474). -/
def GET.GMP : PDict := .single py!"utctime" TM <| .single py!"mapProjection" ST <| .single py!"mapZone" ST <| .single py!"gridN" DE <| .single py!"gridE" DE <| .single py!"modeInd" CH <| .single py!"sip" IN <| .single py!"HDOP" DE <| .single py!"alt" DE <| .single py!"geoidSep" DE <| .single py!"corrAge" DE <| .single py!"baseId" ST <| .nil

/-- `NMEA_PAYLOADS_GET["GNS"]` (/repo/src/pynmeagps/nmeatypes_get.py:475-489). -/
def GET.GNS : PDict := .single py!"time" TM <| .single py!"lat" LA <| .single py!"NS" LAD <| .single py!"lon" LN <| .single py!"EW" LND <| .single py!"posMode" ST <| .single py!"numSV" IN <| .single py!"HDOP" DE <| .single py!"alt" DE <| .single py!"sep" DE <| .single py!"diffAge" DE <| .single py!"diffStation" IN <| .single py!"navStatus" CH <| .nil

/-- `NMEA_PAYLOADS_GET["GRS"]` (/repo/src/pynmeagps/nmeatypes_get.py:490-501). -/
def GET.GRS : PDict := .single py!"time" TM <| .single py!"mode" IN <| .group py!"groupSV" (.fixed 12) (.single py!"residual" DE <| .nil) <| .single py!"systemId" HX <| .single py!"signalId" HX <| .nil

/-- `NMEA_PAYLOADS_GET["GSA"]` (/repo/src/pynmeagps/nmeatypes_get.py:502-515). -/
def GET.GSA : PDict := .single py!"opMode" CH <| .single py!"navMode" IN <| .group py!"groupSV" (.fixed 12) (.single py!"svid" IN <| .nil) <| .single py!"PDOP" DE <| .single py!"HDOP" DE <| .single py!"VDOP" DE <| .single py!"systemId" HX <| .nil

/-- `NMEA_PAYLOADS_GET["GST"]` (/repo/src/pynmeagps/nmeatypes_get.py:516-525). -/
def GET.GST : PDict := .single py!"time" TM <| .single py!"rangeRms" DE <| .single py!"stdMajor" DE <| .single py!"stdMinor" DE <| .single py!"orient" DE <| .single py!"stdLat" DE <| .single py!"stdLong" DE <| .single py!"stdAlt" DE <| .nil

/-- `NMEA_PAYLOADS_GET["GSV"]` (/repo/src/pynmeagps/nmeatypes_get.py:526-540). -/
def GET.GSV : PDict := .single py!"numMsg" IN <| .single py!"msgNum" IN <| .single py!"numSV" IN <| .group py!"group_sv" .indet (.single py!"svid" IN <| .single py!"elv" IN <| .single py!"az" IN <| .single py!"cno" IN <| .nil) <| .single py!"signalID" HX <| .nil

/-- `NMEA_PAYLOADS_GET["HBT"]` (/repo/src/pynmeagps/nmeatypes_get.py:541-545). -/
def GET.HBT : PDict := .single py!"repeatint" DE <| .single py!"status" CH <| .single py!"seqid" IN <| .nil

/-- `NMEA_PAYLOADS_GET["HCR"]` (/repo/src/pynmeagps/nmeatypes_get.py:546-551). -/
def GET.HCR : PDict := .single py!"headingt" DE <| .single py!"mode" CH <| .single py!"corrstate" CH <| .single py!"corrvalue" DE <| .nil

/-- `NMEA_PAYLOADS_GET["HDG"]` (/repo/src/pynmeagps/nmeatypes_get.py:552-558). -/
def GET.HDG : PDict := .single py!"headingM" DE <| .single py!"deviation" DE <| .single py!"deviationEW" LND <| .single py!"variation" DE <| .single py!"variationEW" LND <| .nil

/-- `NMEA_PAYLOADS_GET["HDM"]` (/repo/src/pynmeagps/nmeatypes_get.py:559-562). -/
def GET.HDM : PDict := .single py!"headingM" DE <| .single py!"headingMag" CH <| .nil

/-- `NMEA_PAYLOADS_GET["HDT"]` (/repo/src/pynmeagps/nmeatypes_get.py:563-566). -/
def GET.HDT : PDict := .single py!"headingT" DE <| .single py!"headingTu" CH <| .nil

/-- `NMEA_PAYLOADS_GET["HMR"]` (/repo/src/pynmeagps/nmeatypes_get.py:567-585). -/
def GET.HMR : PDict := .single py!"sensor1id" ST <| .single py!"sensor2id" ST <| .single py!"setdiff" DE <| .single py!"actualdiff" DE <| .single py!"warning" CH <| .single py!"sensor1hdg" DE <| .single py!"sensor1status" CH <| .single py!"sensor1u" CH <| .single py!"sensor1dev" DE <| .single py!"sensor1EW" LND <| .single py!"sensor2hdg" DE <| .single py!"sensor2status" CH <| .single py!"sensor2u" CH <| .single py!"sensor2dev" DE <| .single py!"sensor2EW" LND <| .single py!"variation" DE <| .single py!"variationEW" LND <| .nil

/-- `NMEA_PAYLOADS_GET["HMS"]` (/repo/src/pynmeagps/nmeatypes_get.py:586-590). -/
def GET.HMS : PDict := .single py!"sensor1id" ST <| .single py!"sensor2id" ST <| .single py!"setdiff" DE <| .nil

/-- `NMEA_PAYLOADS_GET["HRM"]` (/repo/src/pynmeagps/nmeatypes_get.py:591-602). -/
def GET.HRM : PDict := .single py!"heel" DE <| .single py!"rollperiod" DE <| .single py!"rollamplitudeport" DE <| .single py!"rollamplitduestbd" DE <| .single py!"status" CH <| .single py!"rollpeakport" DE <| .single py!"rollpeakstbd" DE <| .single py!"peakholdresettime" TM <| .single py!"peakholdresetdat" IN <| .single py!"peakholdresetmonth" IN <| .nil

/-- `NMEA_PAYLOADS_GET["HSC"]` (/repo/src/pynmeagps/nmeatypes_get.py:603-609). -/
def GET.HSC : PDict := .single py!"cmdheadingT" DE <| .single py!"cmdheadingTu" CH <| .single py!"cmdheadingM" DE <| .single py!"cmdheadingMu" CH <| .single py!"status" CH <| .nil

/-- `NMEA_PAYLOADS_GET["HSS"]` (/repo/src/pynmeagps/nmeatypes_get.py:610-614). -/
def GET.HSS : PDict := .single py!"measpointid" ST <| .single py!"value" DE <| .single py!"status" CH <| .nil

/-- `NMEA_PAYLOADS_GET["HTC"]` (/repo/src/pynmeagps/nmeatypes_get.py:615-630). -/
def GET.HTC : PDict := .single py!"override" CH <| .single py!"cmdrudderang" DE <| .single py!"cmdrudderdir" CH <| .single py!"steermode" CH <| .single py!"turnmode" CH <| .single py!"cmdrudderlimit" DE <| .single py!"cmdoffheadinglimit" DE <| .single py!"cmdturnradius" DE <| .single py!"cmdturnrate" DE <| .single py!"cmdheading" DE <| .single py!"cmdofftracklimit" DE <| .single py!"cmdtrack" DE <| .single py!"headingref" CH <| .single py!"status" CH <| .nil

/-- `NMEA_PAYLOADS_GET["HTD"]` (/repo/src/pynmeagps/nmeatypes_get.py:631-649). -/
def GET.HTD : PDict := .single py!"override" CH <| .single py!"cmdrudderang" DE <| .single py!"cmdrudderdir" CH <| .single py!"steermode" CH <| .single py!"turnmode" CH <| .single py!"cmdrudderlimit" DE <| .single py!"cmdoffheadinglimit" DE <| .single py!"cmdturnradius" DE <| .single py!"cmdturnrate" DE <| .single py!"cmdheading" DE <| .single py!"cmdofftracklimit" DE <| .single py!"cmdtrack" DE <| .single py!"headingref" CH <| .single py!"rudderstatus" CH <| .single py!"offheadingstatus" CH <| .single py!"offtrackstatus" CH <| .single py!"vesselheading" DE <| .nil

/-- `NMEA_PAYLOADS_GET["LR1"]` (/repo/src/pynmeagps/nmeatypes_get.py:650-657). -/
def GET.LR1 : PDict := .single py!"seqNum" IN <| .single py!"mmsiresponder" ST <| .single py!"mmsirequester" ST <| .single py!"shipname" ST <| .single py!"callsign" ST <| .single py!"imonum" ST <| .nil

/-- `NMEA_PAYLOADS_GET["LR2"]` (/repo/src/pynmeagps/nmeatypes_get.py:658-671). -/
def GET.LR2 : PDict := .single py!"seqNum" IN <| .single py!"mmsiresponder" ST <| .single py!"date" DTL <| .single py!"time" TM <| .single py!"lat" LA <| .single py!"NS" LAD <| .single py!"lon" LN <| .single py!"EW" LND <| .single py!"cog" DE <| .single py!"cogT" CH <| .single py!"sog" DE <| .single py!"sogu" CH <| .nil

/-- `NMEA_PAYLOADS_GET["LR3"]` (/repo/src/pynmeagps/nmeatypes_get.py:672-684). -/
def GET.LR3 : PDict := .single py!"seqNum" IN <| .single py!"mmsiresponder" ST <| .single py!"destination" ST <| .single py!"etadate" DT <| .single py!"etatime" TM <| .single py!"draught" DE <| .single py!"cargo" DE <| .single py!"length" DE <| .single py!"breadth" DE <| .single py!"type" DE <| .single py!"persons" DE <| .nil

/-- `NMEA_PAYLOADS_GET["LRF"]` (/repo/src/pynmeagps/nmeatypes_get.py:685-691). -/
def GET.LRF : PDict := .single py!"seqNum" IN <| .single py!"mmsirequestor" ST <| .single py!"namerequestor" ST <| .single py!"function" ST <| .single py!"replystatus" ST <| .nil

/-- `NMEA_PAYLOADS_GET["LRI"]` (/repo/src/pynmeagps/nmeatypes_get.py:692-705). -/
def GET.LRI : PDict := .single py!"seqNum" IN <| .single py!"controlflag" CH <| .single py!"mmsirequestor" ST <| .single py!"mmsidestination" ST <| .single py!"latne" LA <| .single py!"NSne" LAD <| .single py!"lonne" LN <| .single py!"EWne" LND <| .single py!"latsw" LA <| .single py!"NSsw" LAD <| .single py!"lonsw" LN <| .single py!"EWsw" LND <| .nil

/-- `NMEA_PAYLOADS_GET["LLQ"]` (/repo/src/pynmeagps/nmeatypes_get.py:706-718). -/
def GET.LLQ : PDict := .single py!"utctime" TM <| .single py!"utcdate" DT <| .single py!"easting" DE <| .single py!"eunit" CH <| .single py!"northing" DE <| .single py!"nunit" CH <| .single py!"gpsQual" IN <| .single py!"sip" IN <| .single py!"posQual" DE <| .single py!"height" DE <| .single py!"hunit" CH <| .nil

/-- `NMEA_PAYLOADS_GET["MOB"]` (/repo/src/pynmeagps/nmeatypes_get.py:719-734). -/
def GET.MOB : PDict := .single py!"emitterid" ST <| .single py!"mobstatus" CH <| .single py!"timeactivation" TM <| .single py!"mobpossource" CH <| .single py!"dayactivated" IN <| .single py!"timeposition" TM <| .single py!"lat" LA <| .single py!"NS" LAD <| .single py!"lon" LN <| .single py!"EW" LND <| .single py!"cog" DE <| .single py!"sog" DE <| .single py!"mmsi" ST <| .single py!"batterystatus" CH <| .nil

/-- `NMEA_PAYLOADS_GET["MSK"]` (/repo/src/pynmeagps/nmeatypes_get.py:735-743). -/
def GET.MSK : PDict := .single py!"freq" DE <| .single py!"fmode" CH <| .single py!"beacbps" IN <| .single py!"bpsmode" CH <| .single py!"MMSfreq" DE <| .single py!"channel" CH <| .single py!"status" CH <| .nil

/-- `NMEA_PAYLOADS_GET["MSS"]` (/repo/src/pynmeagps/nmeatypes_get.py:744-750). -/
def GET.MSS : PDict := .single py!"strength" IN <| .single py!"snr" IN <| .single py!"freq" DE <| .single py!"beacbps" IN <| .single py!"channel" CH <| .nil

/-- `NMEA_PAYLOADS_GET["MTW"]` (/repo/src/pynmeagps/nmeatypes_get.py:751-754). -/
def GET.MTW : PDict := .single py!"temp" DE <| .single py!"tempu" CH <| .nil

/-- `NMEA_PAYLOADS_GET["MWD"]` (/repo/src/pynmeagps/nmeatypes_get.py:755-764). -/
def GET.MWD : PDict := .single py!"dirT" DE <| .single py!"dirTu" CH <| .single py!"dirM" DE <| .single py!"dirMu" CH <| .single py!"speedN" DE <| .single py!"speedNu" CH <| .single py!"speedM" DE <| .single py!"speedMu" CH <| .nil

/-- `NMEA_PAYLOADS_GET["MWV"]` (/repo/src/pynmeagps/nmeatypes_get.py:765-771). -/
def GET.MWV : PDict := .single py!"angle" DE <| .single py!"reference" CH <| .single py!"speed" DE <| .single py!"speedu" CH <| .single py!"status" CH <| .nil

/-- `NMEA_PAYLOADS_GET["NAK"]` (/repo/src/pynmeagps/nmeatypes_get.py:772-778). -/
def GET.NAK : PDict := .single py!"talkerid" ST <| .single py!"formatter" ST <| .single py!"identifier" ST <| .single py!"reason" ST <| .single py!"text" ST <| .nil

/-- `NMEA_PAYLOADS_GET["NRM"]` (/repo/src/pynmeagps/nmeatypes_get.py:779-785). -/
def GET.NRM : PDict := .single py!"function" CH <| .single py!"freqtable" CH <| .single py!"txcovermask" HX <| .single py!"msgtypemask" HX <| .single py!"status" CH <| .nil

/-- `NMEA_PAYLOADS_GET["NRX"]` (/repo/src/pynmeagps/nmeatypes_get.py:786-800). -/
def GET.NRX : PDict := .single py!"numSen" IN <| .single py!"senNum" IN <| .single py!"seqid" IN <| .single py!"msgcode" CH <| .single py!"freqtable" CH <| .single py!"time" TM <| .single py!"day" IN <| .single py!"month" IN <| .single py!"year" IN <| .single py!"totalchar" DE <| .single py!"totalbad" DE <| .single py!"status" CH <| .single py!"body" ST <| .nil

/-- `NMEA_PAYLOADS_GET["NSR"]` (/repo/src/pynmeagps/nmeatypes_get.py:801-815). -/
def GET.NSR : PDict := .single py!"hdgintegrity" CH <| .single py!"hdgplausibility" CH <| .single py!"posintegrity" CH <| .single py!"posplausibility" CH <| .single py!"stwintegrity" CH <| .single py!"stwplausibility" CH <| .single py!"sogcogintegrity" CH <| .single py!"sogcogplausibility" CH <| .single py!"depthintegrity" CH <| .single py!"depthplausibility" CH <| .single py!"stwmode" CH <| .single py!"timeintegrity" CH <| .single py!"timeplausibility" CH <| .nil

/-- `NMEA_PAYLOADS_GET["OSD"]` (/repo/src/pynmeagps/nmeatypes_get.py:816-826). -/
def GET.OSD : PDict := .single py!"hdg" DE <| .single py!"hdgstate" CH <| .single py!"course" DE <| .single py!"courseref" CH <| .single py!"speed" DE <| .single py!"speedref" CH <| .single py!"set" DE <| .single py!"drift" DE <| .single py!"speedu" CH <| .nil

/-- `NMEA_PAYLOADS_GET["POS"]` (/repo/src/pynmeagps/nmeatypes_get.py:827-838). -/
def GET.POS : PDict := .single py!"equipmentid" ST <| .single py!"equipmentnum" IN <| .single py!"posvalidity" CH <| .single py!"posx" DE <| .single py!"posy" DE <| .single py!"posz" DE <| .single py!"shipdimvalid" CH <| .single py!"width" DE <| .single py!"length" DE <| .single py!"status" CH <| .nil

/-- `NMEA_PAYLOADS_GET["PRC"]` (/repo/src/pynmeagps/nmeatypes_get.py:839-848). -/
def GET.PRC : PDict := .single py!"leverdmdpos" DE <| .single py!"leverdmdstatus" CH <| .single py!"rpmdemand" DE <| .single py!"rpmdemandstatus" CH <| .single py!"pitchdmd" DE <| .single py!"pitchmode" CH <| .single py!"operatinglocind" CH <| .single py!"engineshaftnum" IN <| .nil

/-- `NMEA_PAYLOADS_GET["RLM"]` (/repo/src/pynmeagps/nmeatypes_get.py:849-854). -/
def GET.RLM : PDict := .single py!"beacon" HX <| .single py!"time" TM <| .single py!"code" CH <| .single py!"body" HX <| .nil

/-- `NMEA_PAYLOADS_GET["RMA"]` (/repo/src/pynmeagps/nmeatypes_get.py:855-867). -/
def GET.RMA : PDict := .single py!"status" CH <| .single py!"lat" LA <| .single py!"NS" LAD <| .single py!"lon" LN <| .single py!"EW" LND <| .single py!"reserved1" ST <| .single py!"reserved2" ST <| .single py!"sog" DE <| .single py!"cog" DE <| .single py!"var" DE <| .single py!"dirvar" CH <| .nil

/-- `NMEA_PAYLOADS_GET["RMB"]` (/repo/src/pynmeagps/nmeatypes_get.py:868-883). -/
def GET.RMB : PDict := .single py!"status" CH <| .single py!"ctrkerr" DE <| .single py!"dirs" CH <| .single py!"wptO" CH <| .single py!"wptD" CH <| .single py!"lat" LA <| .single py!"NS" LAD <| .single py!"lon" LN <| .single py!"EW" LND <| .single py!"range" DE <| .single py!"bearing" DE <| .single py!"velclos" DE <| .single py!"arrstatus" CH <| .single py!"valstatus" CH <| .nil

/-- `NMEA_PAYLOADS_GET["RMC"]` (/repo/src/pynmeagps/nmeatypes_get.py:884-898). -/
def GET.RMC : PDict := .single py!"time" TM <| .single py!"status" CH <| .single py!"lat" LA <| .single py!"NS" LAD <| .single py!"lon" LN <| .single py!"EW" LND <| .single py!"spd" DE <| .single py!"cog" DE <| .single py!"date" DT <| .single py!"mv" DE <| .single py!"mvEW" ST <| .single py!"posMode" CH <| .single py!"navStatus" CH <| .nil

/-- `NMEA_PAYLOADS_GET["ROR"]` (/repo/src/pynmeagps/nmeatypes_get.py:899-905). -/
def GET.ROR : PDict := .single py!"stbdrudderorder" DE <| .single py!"stbdrudderstatus" CH <| .single py!"portrudderorder" DE <| .single py!"portrudderstatus" CH <| .single py!"operatinglocind" CH <| .nil

/-- `NMEA_PAYLOADS_GET["ROT"]` (/repo/src/pynmeagps/nmeatypes_get.py:906-909). -/
def GET.ROT : PDict := .single py!"rot" DE <| .single py!"valid" CH <| .nil

/-- `NMEA_PAYLOADS_GET["RRT"]` (/repo/src/pynmeagps/nmeatypes_get.py:910-917). -/
def GET.RRT : PDict := .single py!"tfrtype" CH <| .single py!"tfrroutename" ST <| .single py!"tfrroutever" ST <| .single py!"wptid" ST <| .single py!"filestatus" CH <| .single py!"appstatus" CH <| .nil

/-- `NMEA_PAYLOADS_GET["RPM"]` (/repo/src/pynmeagps/nmeatypes_get.py:918-924). -/
def GET.RPM : PDict := .single py!"source" CH <| .single py!"engineshaftnum" IN <| .single py!"rpm" DE <| .single py!"pitch" DE <| .single py!"status" CH <| .nil

/-- `NMEA_PAYLOADS_GET["RSA"]` (/repo/src/pynmeagps/nmeatypes_get.py:925-930). -/
def GET.RSA : PDict := .single py!"stbdangle" DE <| .single py!"stbdstatus" CH <| .single py!"portangle" DE <| .single py!"portstatus" CH <| .nil

/-- `NMEA_PAYLOADS_GET["RSD"]` (/repo/src/pynmeagps/nmeatypes_get.py:931-945). -/
def GET.RSD : PDict := .single py!"origin1range" DE <| .single py!"origin1bearing" DE <| .single py!"vrm1" DE <| .single py!"ebl1" DE <| .single py!"origin2range" DE <| .single py!"origin2bearing" DE <| .single py!"vrm2" DE <| .single py!"ebl2" DE <| .single py!"cursorrange" DE <| .single py!"rangebearing" DE <| .single py!"rangescale" DE <| .single py!"rangeu" CH <| .single py!"displayrot" CH <| .nil

/-- `NMEA_PAYLOADS_GET["RTE"]` (/repo/src/pynmeagps/nmeatypes_get.py:946-957). -/
def GET.RTE : PDict := .single py!"numMsg" IN <| .single py!"msgNum" IN <| .single py!"status" CH <| .single py!"routeid" ST <| .group py!"group_wp" .indet (.single py!"wpt" ST <| .nil) <| .nil

/-- `NMEA_PAYLOADS_GET["SFI"]` (/repo/src/pynmeagps/nmeatypes_get.py:958-968). -/
def GET.SFI : PDict := .single py!"numSen" IN <| .single py!"senNum" IN <| .group py!"freqgroup" (.fixed 6) (.single py!"freq" IN <| .single py!"mode" ST <| .nil) <| .nil

/-- `NMEA_PAYLOADS_GET["SM1"]` (/repo/src/pynmeagps/nmeatypes_get.py:969-984). -/
def GET.SM1 : PDict := .single py!"MSIstatus" CH <| .single py!"msgnum" IN <| .single py!"LESseqnum" IN <| .single py!"LESid" IN <| .single py!"oceanregioncode" IN <| .single py!"prioritycode" IN <| .single py!"servicecode" IN <| .single py!"presentationcode" IN <| .single py!"year" IN <| .single py!"month" IN <| .single py!"day" IN <| .single py!"hour" IN <| .single py!"minute" IN <| .single py!"addresscode" IN <| .nil

/-- `NMEA_PAYLOADS_GET["SM2"]` (/repo/src/pynmeagps/nmeatypes_get.py:985-1002). -/
def GET.SM2 : PDict := .single py!"MSIstatus" CH <| .single py!"msgnum" IN <| .single py!"LESseqnum" IN <| .single py!"LESid" IN <| .single py!"oceanregioncode" IN <| .single py!"prioritycode" IN <| .single py!"servicecode" IN <| .single py!"presentationcode" IN <| .single py!"year" IN <| .single py!"month" IN <| .single py!"day" IN <| .single py!"hour" IN <| .single py!"minute" IN <| .single py!"coastalwarnnavarea" IN <| .single py!"coastalwarnarea" CH <| .single py!"coastalwarnsubjectind" CH <| .nil

/-- `NMEA_PAYLOADS_GET["SM3"]` (/repo/src/pynmeagps/nmeatypes_get.py:1003-1022). -/
def GET.SM3 : PDict := .single py!"MSIstatus" CH <| .single py!"msgnum" IN <| .single py!"LESseqnum" IN <| .single py!"LESid" IN <| .single py!"oceanregioncode" IN <| .single py!"prioritycode" IN <| .single py!"servicecode" IN <| .single py!"presentationcode" IN <| .single py!"year" IN <| .single py!"month" IN <| .single py!"day" IN <| .single py!"hour" IN <| .single py!"minute" IN <| .single py!"circarealat" LA <| .single py!"circareaNS" LAD <| .single py!"circarealon" LN <| .single py!"circareaEW" LND <| .single py!"circarearadius" IN <| .nil

/-- `NMEA_PAYLOADS_GET["SM4"]` (/repo/src/pynmeagps/nmeatypes_get.py:1023-1043). -/
def GET.SM4 : PDict := .single py!"MSIstatus" CH <| .single py!"msgnum" IN <| .single py!"LESseqnum" IN <| .single py!"LESid" IN <| .single py!"oceanregioncode" IN <| .single py!"prioritycode" IN <| .single py!"servicecode" IN <| .single py!"presentationcode" IN <| .single py!"year" IN <| .single py!"month" IN <| .single py!"day" IN <| .single py!"hour" IN <| .single py!"minute" IN <| .single py!"redareaswlat" LA <| .single py!"recareaswNS" LAD <| .single py!"redareaswlon" LN <| .single py!"recareaswEW" LND <| .single py!"recareaextentN" IN <| .single py!"recareaextentE" IN <| .nil

/-- `NMEA_PAYLOADS_GET["SMB"]` (/repo/src/pynmeagps/nmeatypes_get.py:1044-1044). -/
def GET.SMB : PDict := .single py!"numSen" IN <| .single py!"senNum" IN <| .single py!"seqid" IN <| .single py!"msgnum" IN <| .single py!"body" ST <| .nil

/-- `NMEA_PAYLOADS_GET["SPW"]` (/repo/src/pynmeagps/nmeatypes_get.py:1045-1050). -/
def GET.SPW : PDict := .single py!"pwdprotectsentence" ST <| .single py!"id" ST <| .single py!"pwdlevel" IN <| .single py!"password" ST <| .nil

/-- `NMEA_PAYLOADS_GET["SSD"]` (/repo/src/pynmeagps/nmeatypes_get.py:1051-1060). -/
def GET.SSD : PDict := .single py!"callsign" ST <| .single py!"name" ST <| .single py!"posAref" IN <| .single py!"posBref" IN <| .single py!"posCref" IN <| .single py!"posDref" IN <| .single py!"DTEind" ST <| .single py!"sourceid" ST <| .nil

/-- `NMEA_PAYLOADS_GET["STN"]` (/repo/src/pynmeagps/nmeatypes_get.py:1061-1063). -/
def GET.STN : PDict := .single py!"talkerId" ST <| .nil

/-- `NMEA_PAYLOADS_GET["THS"]` (/repo/src/pynmeagps/nmeatypes_get.py:1064-1067). -/
def GET.THS : PDict := .single py!"headt" DE <| .single py!"mi" CH <| .nil

/-- `NMEA_PAYLOADS_GET["TLB"]` (/repo/src/pynmeagps/nmeatypes_get.py:1068-1076). -/
def GET.TLB : PDict := .group py!"group" .indet (.single py!"targetnum" IN <| .single py!"label" ST <| .nil) <| .nil

/-- `NMEA_PAYLOADS_GET["TLL"]` (/repo/src/pynmeagps/nmeatypes_get.py:1077-1087). -/
def GET.TLL : PDict := .single py!"targetnum" IN <| .single py!"targetlat" LA <| .single py!"targetlatNS" LAD <| .single py!"targetlon" LN <| .single py!"targetlonEW" LND <| .single py!"targetname" ST <| .single py!"time" TM <| .single py!"status" CH <| .single py!"reftarget" CH <| .nil

/-- `NMEA_PAYLOADS_GET["TRA"]` (/repo/src/pynmeagps/nmeatypes_get.py:1088-1097). -/
def GET.TRA : PDict := .single py!"time" TM <| .single py!"heading" DE <| .single py!"pitch" DE <| .single py!"roll" DE <| .single py!"quality" IN <| .single py!"svid" IN <| .single py!"diffAge" DE <| .single py!"stationID" ST <| .nil

/-- `NMEA_PAYLOADS_GET["TRC"]` (/repo/src/pynmeagps/nmeatypes_get.py:1098-1107). -/
def GET.TRC : PDict := .single py!"thrusternum" IN <| .single py!"dmdrpm" DE <| .single py!"rpmmode" CH <| .single py!"dmdpitch" DE <| .single py!"pitchmode" CH <| .single py!"dmdazimuth" DE <| .single py!"operatinglocind" CH <| .single py!"status" CH <| .nil

/-- `NMEA_PAYLOADS_GET["TRD"]` (/repo/src/pynmeagps/nmeatypes_get.py:1108-1115). -/
def GET.TRD : PDict := .single py!"thrusternum" IN <| .single py!"rpmresponse" IN <| .single py!"rpmmode" CH <| .single py!"pitchresponse" IN <| .single py!"pitchmode" CH <| .single py!"azimuthresponse" IN <| .nil

/-- `NMEA_PAYLOADS_GET["TRL"]` (/repo/src/pynmeagps/nmeatypes_get.py:1116-1125). -/
def GET.TRL : PDict := .single py!"totlognum" IN <| .single py!"lognum" IN <| .single py!"seqid" IN <| .single py!"switchoffdate" ST <| .single py!"switchofftime" TM <| .single py!"switchondate" ST <| .single py!"switchontime" TM <| .single py!"reasoncode" IN <| .nil

/-- `NMEA_PAYLOADS_GET["TRF"]` (/repo/src/pynmeagps/nmeatypes_get.py:1126-1138). -/
def GET.TRF : PDict := .single py!"time" TM <| .single py!"date" DT <| .single py!"lat" LA <| .single py!"NS" LAD <| .single py!"lon" LN <| .single py!"EW" LND <| .single py!"elangle" DE <| .single py!"iter" DE <| .single py!"Dopint" DE <| .single py!"dist" DE <| .single py!"svid" IN <| .nil

/-- `NMEA_PAYLOADS_GET["TTD"]` (/repo/src/pynmeagps/nmeatypes_get.py:1139-1145). -/
def GET.TTD : PDict := .single py!"numSen" IN <| .single py!"senNum" IN <| .single py!"seqid" IN <| .single py!"data" ST <| .single py!"fillbits" IN <| .nil

/-- `NMEA_PAYLOADS_GET["TTM"]` (/repo/src/pynmeagps/nmeatypes_get.py:1146-1162). -/
def GET.TTM : PDict := .single py!"targetnum" IN <| .single py!"targetdist" DE <| .single py!"targetbearing" DE <| .single py!"targetbearingu" CH <| .single py!"targetspeed" DE <| .single py!"targetcourse" DE <| .single py!"targetcourseu" CH <| .single py!"closestapproach" DE <| .single py!"timetoCPA" DE <| .single py!"speedu" CH <| .single py!"targetname" ST <| .single py!"targetstatus" CH <| .single py!"reftarget" ST <| .single py!"time" TM <| .single py!"acquisitiontype" CH <| .nil

/-- `NMEA_PAYLOADS_GET["TUT"]` (/repo/src/pynmeagps/nmeatypes_get.py:1163-1170). -/
def GET.TUT : PDict := .single py!"sourceid" ST <| .single py!"numSen" HX <| .single py!"senNum" HX <| .single py!"seqid" IN <| .single py!"translationcode" ST <| .single py!"text" ST <| .nil

/-- `NMEA_PAYLOADS_GET["TXT"]` (/repo/src/pynmeagps/nmeatypes_get.py:1171-1176). -/
def GET.TXT : PDict := .single py!"numMsg" IN <| .single py!"msgNum" IN <| .single py!"msgType" IN <| .single py!"text" ST <| .nil

/-- `NMEA_PAYLOADS_GET["UID"]` (/repo/src/pynmeagps/nmeatypes_get.py:1177-1180). -/
def GET.UID : PDict := .single py!"uid1" ST <| .single py!"uid2" ST <| .nil

/-- `NMEA_PAYLOADS_GET["VBW"]` (/repo/src/pynmeagps/nmeatypes_get.py:1181-1192). -/
def GET.VBW : PDict := .single py!"longwaterspd" DE <| .single py!"transwaterspd" DE <| .single py!"waterspdstatus" CH <| .single py!"longgroundspd" DE <| .single py!"transgroundspd" DE <| .single py!"groundspdstatus" CH <| .single py!"sterntranswaterspd" DE <| .single py!"sternwaterspdstatus" CH <| .single py!"sterntransgroundspd" DE <| .single py!"sterngroundspdstatus" CH <| .nil

/-- `NMEA_PAYLOADS_GET["VDM"]` (/repo/src/pynmeagps/nmeatypes_get.py:1193-1200). -/
def GET.VDM : PDict := .single py!"numSen" IN <| .single py!"senNum" IN <| .single py!"seqid" IN <| .single py!"aischan" ST <| .single py!"itumsg" ST <| .single py!"fillbits" IN <| .nil

/-- `NMEA_PAYLOADS_GET["VDO"]` (/repo/src/pynmeagps/nmeatypes_get.py:1201-1208). -/
def GET.VDO : PDict := .single py!"numSen" IN <| .single py!"senNum" IN <| .single py!"seqid" IN <| .single py!"aischan" ST <| .single py!"itumsg" ST <| .single py!"fillbits" IN <| .nil

/-- `NMEA_PAYLOADS_GET["VDR"]` (/repo/src/pynmeagps/nmeatypes_get.py:1209-1216). -/
def GET.VDR : PDict := .single py!"dirT" DE <| .single py!"dirTu" CH <| .single py!"dirM" DE <| .single py!"dirMu" CH <| .single py!"spd" DE <| .single py!"spdu" CH <| .nil

/-- `NMEA_PAYLOADS_GET["VER"]` (/repo/src/pynmeagps/nmeatypes_get.py:1217-1228). -/
def GET.VER : PDict := .single py!"numSen" IN <| .single py!"senNum" IN <| .single py!"devicetype" ST <| .single py!"vendorid" ST <| .single py!"uid" ST <| .single py!"mfrserial" ST <| .single py!"model" ST <| .single py!"software" ST <| .single py!"hardware" ST <| .single py!"seqid" IN <| .nil

/-- `NMEA_PAYLOADS_GET["VHW"]` (/repo/src/pynmeagps/nmeatypes_get.py:1229-1238). -/
def GET.VHW : PDict := .single py!"hdgT" DE <| .single py!"hgdTu" CH <| .single py!"hdgM" DE <| .single py!"hgdMu" CH <| .single py!"spdN" DE <| .single py!"spdNu" CH <| .single py!"spdK" DE <| .single py!"spdKu" CH <| .nil

/-- `NMEA_PAYLOADS_GET["VLW"]` (/repo/src/pynmeagps/nmeatypes_get.py:1239-1248). -/
def GET.VLW : PDict := .single py!"twd" DE <| .single py!"twdUnit" CH <| .single py!"wd" DE <| .single py!"wdUnit" CH <| .single py!"tgd" DE <| .single py!"tgdUnit" CH <| .single py!"gd" DE <| .single py!"gdUnit" CH <| .nil

/-- `NMEA_PAYLOADS_GET["VPW"]` (/repo/src/pynmeagps/nmeatypes_get.py:1249-1254). -/
def GET.VPW : PDict := .single py!"spdN" DE <| .single py!"spdNu" CH <| .single py!"spdK" DE <| .single py!"spdKu" CH <| .nil

/-- `NMEA_PAYLOADS_GET["VSD"]` (/repo/src/pynmeagps/nmeatypes_get.py:1255-1265). -/
def GET.VSD : PDict := .single py!"type" ST <| .single py!"draught" DE <| .single py!"pob" IN <| .single py!"destination" ST <| .single py!"etatime" TM <| .single py!"etaday" IN <| .single py!"etamonth" IN <| .single py!"regappflags1" IN <| .single py!"regappflags2" IN <| .nil

/-- `NMEA_PAYLOADS_GET["VTG"]` (/repo/src/pynmeagps/nmeatypes_get.py:1266-1276). -/
def GET.VTG : PDict := .single py!"cogt" DE <| .single py!"cogtUnit" CH <| .single py!"cogm" DE <| .single py!"cogmUnit" CH <| .single py!"sogn" DE <| .single py!"sognUnit" CH <| .single py!"sogk" DE <| .single py!"sogkUnit" CH <| .single py!"posMode" CH <| .nil

/-- `NMEA_PAYLOADS_GET["WAT"]` (/repo/src/pynmeagps/nmeatypes_get.py:1277-1287). -/
def GET.WAT : PDict := .single py!"msgtype" CH <| .single py!"time" TM <| .single py!"alarmtype" ST <| .single py!"loc1ind" IN <| .single py!"loc2ind" IN <| .single py!"detectionpoint" IN <| .single py!"alarmcondition" CH <| .single py!"overridesetting" CH <| .single py!"text" ST <| .nil

/-- `NMEA_PAYLOADS_GET["WCV"]` (/repo/src/pynmeagps/nmeatypes_get.py:1288-1293). -/
def GET.WCV : PDict := .single py!"vel" DE <| .single py!"velu" CH <| .single py!"wpt" ST <| .single py!"mode" CH <| .nil

/-- `NMEA_PAYLOADS_GET["WNC"]` (/repo/src/pynmeagps/nmeatypes_get.py:1294-1301). -/
def GET.WNC : PDict := .single py!"distN" DE <| .single py!"distNu" CH <| .single py!"distK" DE <| .single py!"distKu" CH <| .single py!"wptto" ST <| .single py!"wptfrom" ST <| .nil

/-- `NMEA_PAYLOADS_GET["WPL"]` (/repo/src/pynmeagps/nmeatypes_get.py:1302-1308). -/
def GET.WPL : PDict := .single py!"lat" LA <| .single py!"NS" LAD <| .single py!"lon" LN <| .single py!"EW" LND <| .single py!"wpt" ST <| .nil

/-- `NMEA_PAYLOADS_GET["XDR"]` (/repo/src/pynmeagps/nmeatypes_get.py:1309-1324). -/
def GET.XDR : PDict := .group py!"group" .indet (.single py!"tdrtype" CH <| .single py!"data" DE <| .single py!"dataunit" CH <| .single py!"tdrid" ST <| .nil) <| .nil

/-- `NMEA_PAYLOADS_GET["XTE"]` (/repo/src/pynmeagps/nmeatypes_get.py:1325-1332). -/
def GET.XTE : PDict := .single py!"gwarn" CH <| .single py!"LCcwarn" CH <| .single py!"ctrkerr" DE <| .single py!"dirs" CH <| .single py!"disUnit" CH <| .single py!"mode" CH <| .nil

/-- `NMEA_PAYLOADS_GET["XTR"]` (/repo/src/pynmeagps/nmeatypes_get.py:1333-1337). -/
def GET.XTR : PDict := .single py!"ctkerr" DE <| .single py!"steerdir" CH <| .single py!"units" CH <| .nil

/-- `NMEA_PAYLOADS_GET["ZDA"]` (/repo/src/pynmeagps/nmeatypes_get.py:1338-1345). -/
def GET.ZDA : PDict := .single py!"time" TM <| .single py!"day" IN <| .single py!"month" IN <| .single py!"year" IN <| .single py!"ltzh" ST <| .single py!"ltzn" ST <| .nil

/-- `NMEA_PAYLOADS_GET["ZDL"]` (/repo/src/pynmeagps/nmeatypes_get.py:1346-1350). -/
def GET.ZDL : PDict := .single py!"time" TM <| .single py!"dist" DE <| .single py!"type" CH <| .nil

/-- `NMEA_PAYLOADS_GET["ZFO"]` (/repo/src/pynmeagps/nmeatypes_get.py:1351-1355). -/
def GET.ZFO : PDict := .single py!"observationtime" TM <| .single py!"elapsedtime" TM <| .single py!"originwpt" ST <| .nil

/-- `NMEA_PAYLOADS_GET["ZTG"]` (/repo/src/pynmeagps/nmeatypes_get.py:1356-1360). -/
def GET.ZTG : PDict := .single py!"observationtime" TM <| .single py!"timetogo" TM <| .single py!"destwpt" ST <| .nil

/-- `NMEA_PAYLOADS_GET["FOO"]` (/repo/src/pynmeagps/nmeatypes_get.py:1364-1364). -/
def GET.FOO : PDict := .single py!"spam" py!"Z2" <| .single py!"eggs" py!"Y1" <| .nil

/-- `NMEA_PAYLOADS_GET_UNICORE["GGAH"]` (/repo/src/pynmeagps/nmeatypes_get.py:1371-1371). -/
def GET.GGAH : PDict := .single py!"time" TM <| .single py!"lat" LA <| .single py!"NS" LAD <| .single py!"lon" LN <| .single py!"EW" LND <| .single py!"quality" IN <| .single py!"numSV" IN <| .single py!"HDOP" DE <| .single py!"alt" DE <| .single py!"altUnit" CH <| .single py!"sep" DE <| .single py!"sepUnit" CH <| .single py!"diffAge" DE <| .single py!"diffStation" IN <| .nil

/-- `NMEA_PAYLOADS_GET_UNICORE["GLLH"]` (/repo/src/pynmeagps/nmeatypes_get.py:1372-1372). -/
def GET.GLLH : PDict := .single py!"lat" LA <| .single py!"NS" LAD <| .single py!"lon" LN <| .single py!"EW" LND <| .single py!"time" TM <| .single py!"status" ST <| .single py!"posMode" ST <| .nil

/-- `NMEA_PAYLOADS_GET_UNICORE["GNSH"]` (/repo/src/pynmeagps/nmeatypes_get.py:1373-1373). -/
def GET.GNSH : PDict := .single py!"time" TM <| .single py!"lat" LA <| .single py!"NS" LAD <| .single py!"lon" LN <| .single py!"EW" LND <| .single py!"posMode" ST <| .single py!"numSV" IN <| .single py!"HDOP" DE <| .single py!"alt" DE <| .single py!"sep" DE <| .single py!"diffAge" DE <| .single py!"diffStation" IN <| .single py!"navStatus" CH <| .nil

/-- `NMEA_PAYLOADS_GET_UNICORE["GRSH"]` (/repo/src/pynmeagps/nmeatypes_get.py:1374-1374). -/
def GET.GRSH : PDict := .single py!"time" TM <| .single py!"mode" IN <| .group py!"groupSV" (.fixed 12) (.single py!"residual" DE <| .nil) <| .single py!"systemId" HX <| .single py!"signalId" HX <| .nil

/-- `NMEA_PAYLOADS_GET_UNICORE["GSAH"]` (/repo/src/pynmeagps/nmeatypes_get.py:1375-1375). -/
def GET.GSAH : PDict := .single py!"opMode" CH <| .single py!"navMode" IN <| .group py!"groupSV" (.fixed 12) (.single py!"svid" IN <| .nil) <| .single py!"PDOP" DE <| .single py!"HDOP" DE <| .single py!"VDOP" DE <| .single py!"systemId" HX <| .nil

/-- `NMEA_PAYLOADS_GET_UNICORE["GSTH"]` (/repo/src/pynmeagps/nmeatypes_get.py:1376-1376). -/
def GET.GSTH : PDict := .single py!"time" TM <| .single py!"rangeRms" DE <| .single py!"stdMajor" DE <| .single py!"stdMinor" DE <| .single py!"orient" DE <| .single py!"stdLat" DE <| .single py!"stdLong" DE <| .single py!"stdAlt" DE <| .nil

/-- `NMEA_PAYLOADS_GET_UNICORE["GSVH"]` (/repo/src/pynmeagps/nmeatypes_get.py:1377-1377). -/
def GET.GSVH : PDict := .single py!"numMsg" IN <| .single py!"msgNum" IN <| .single py!"numSV" IN <| .group py!"group_sv" .indet (.single py!"svid" IN <| .single py!"elv" IN <| .single py!"az" IN <| .single py!"cno" IN <| .nil) <| .single py!"signalID" HX <| .nil

/-- `NMEA_PAYLOADS_GET_UNICORE["RMCH"]` (/repo/src/pynmeagps/nmeatypes_get.py:1378-1378). -/
def GET.RMCH : PDict := .single py!"time" TM <| .single py!"status" CH <| .single py!"lat" LA <| .single py!"NS" LAD <| .single py!"lon" LN <| .single py!"EW" LND <| .single py!"spd" DE <| .single py!"cog" DE <| .single py!"date" DT <| .single py!"mv" DE <| .single py!"mvEW" ST <| .single py!"posMode" CH <| .single py!"navStatus" CH <| .nil

/-- `NMEA_PAYLOADS_GET_UNICORE["VTGH"]` (/repo/src/pynmeagps/nmeatypes_get.py:1379-1379). -/
def GET.VTGH : PDict := .single py!"cogt" DE <| .single py!"cogtUnit" CH <| .single py!"cogm" DE <| .single py!"cogmUnit" CH <| .single py!"sogn" DE <| .single py!"sognUnit" CH <| .single py!"sogk" DE <| .single py!"sogkUnit" CH <| .single py!"posMode" CH <| .nil

/-- `NMEA_PAYLOADS_GET_UNICORE["THS2"]` (/repo/src/pynmeagps/nmeatypes_get.py:1380-1380). -/
def GET.THS2 : PDict := .single py!"headt" DE <| .single py!"mi" CH <| .nil

/-- `NMEA_PAYLOADS_GET_UNICORE["HPR"]` (/repo/src/pynmeagps/nmeatypes_get.py:1381-1390). -/
def GET.HPR : PDict := .single py!"time" TM <| .single py!"heading" DE <| .single py!"pitch" DE <| .single py!"roll" DE <| .single py!"quality" IN <| .single py!"svid" IN <| .single py!"diffAge" DE <| .single py!"stationID" ST <| .nil

/-- `NMEA_PAYLOADS_GET_UNICORE["HPR2"]` (/repo/src/pynmeagps/nmeatypes_get.py:1391-1400). -/
def GET.HPR2 : PDict := .single py!"time" TM <| .single py!"heading" DE <| .single py!"pitch" DE <| .single py!"roll" DE <| .single py!"quality" IN <| .single py!"svid" IN <| .single py!"diffAge" DE <| .single py!"stationID" ST <| .nil

/-- `NMEA_PAYLOADS_GET_UNICORE["TRA2"]` (/repo/src/pynmeagps/nmeatypes_get.py:1401-1401). -/
def GET.TRA2 : PDict := .single py!"time" TM <| .single py!"heading" DE <| .single py!"pitch" DE <| .single py!"roll" DE <| .single py!"quality" IN <| .single py!"svid" IN <| .single py!"diffAge" DE <| .single py!"stationID" ST <| .nil

/-- `NMEA_PAYLOADS_GET_UNICORE["ROT2"]` (/repo/src/pynmeagps/nmeatypes_get.py:1402-1402). -/
def GET.ROT2 : PDict := .single py!"rot" DE <| .single py!"valid" CH <| .nil

/-- `NMEA_PAYLOADS_GET_UNICORE["HPD"]` (/repo/src/pynmeagps/nmeatypes_get.py:1403-1421). -/
def GET.HPD : PDict := .single py!"wno" IN <| .single py!"tow" DE <| .single py!"heading" DE <| .single py!"pitch" DE <| .single py!"cog" DE <| .single py!"lat" DE <| .single py!"lon" DE <| .single py!"alt" DE <| .single py!"velE" DE <| .single py!"velN" DE <| .single py!"velU" DE <| .single py!"veldeltaE" DE <| .single py!"veldeltaN" DE <| .single py!"veldeltaU" DE <| .single py!"baseline" DE <| .single py!"sivmain" IN <| .single py!"sivsecond" IN <| .nil

/-- `NMEA_PAYLOADS_GET` (/repo/src/pynmeagps/nmeatypes_get.py:1424-1424, with the UNICORE block merged at nmeatypes_get.py:1424). -/
def NMEA_PAYLOADS_GET : List (Str × PDict) := [
  (py!"AAM", GET.AAM),
  (py!"ABK", GET.ABK),
  (py!"ABM", GET.ABM),
  (py!"ACA", GET.ACA),
  (py!"ACK", GET.ACK),
  (py!"ACN", GET.ACN),
  (py!"ACS", GET.ACS),
  (py!"AIR", GET.AIR),
  (py!"AKD", GET.AKD),
  (py!"ALA", GET.ALA),
  (py!"ALC", GET.ALC),
  (py!"ALF", GET.ALF),
  (py!"ALR", GET.ALR),
  (py!"APA", GET.APA),
  (py!"APB", GET.APB),
  (py!"ARC", GET.ARC),
  (py!"BBM", GET.BBM),
  (py!"BEC", GET.BEC),
  (py!"BOD", GET.BOD),
  (py!"BWC", GET.BWC),
  (py!"BWR", GET.BWR),
  (py!"BWW", GET.BWW),
  (py!"CUR", GET.CUR),
  (py!"DBT", GET.DBT),
  (py!"DDC", GET.DDC),
  (py!"DOR", GET.DOR),
  (py!"DPT", GET.DPT),
  (py!"DSC", GET.DSC),
  (py!"DSE", GET.DSE),
  (py!"DTM", GET.DTM),
  (py!"EPV", GET.EPV),
  (py!"ETL", GET.ETL),
  (py!"EVE", GET.EVE),
  (py!"FIR", GET.FIR),
  (py!"FMI", GET.FMI),
  (py!"FSI", GET.FSI),
  (py!"GBS", GET.GBS),
  (py!"GEN", GET.GEN),
  (py!"GFA", GET.GFA),
  (py!"GGA", GET.GGA),
  (py!"GLL", GET.GLL),
  (py!"GMP", GET.GMP),
  (py!"GNS", GET.GNS),
  (py!"GRS", GET.GRS),
  (py!"GSA", GET.GSA),
  (py!"GST", GET.GST),
  (py!"GSV", GET.GSV),
  (py!"HBT", GET.HBT),
  (py!"HCR", GET.HCR),
  (py!"HDG", GET.HDG),
  (py!"HDM", GET.HDM),
  (py!"HDT", GET.HDT),
  (py!"HMR", GET.HMR),
  (py!"HMS", GET.HMS),
  (py!"HRM", GET.HRM),
  (py!"HSC", GET.HSC),
  (py!"HSS", GET.HSS),
  (py!"HTC", GET.HTC),
  (py!"HTD", GET.HTD),
  (py!"LR1", GET.LR1),
  (py!"LR2", GET.LR2),
  (py!"LR3", GET.LR3),
  (py!"LRF", GET.LRF),
  (py!"LRI", GET.LRI),
  (py!"LLQ", GET.LLQ),
  (py!"MOB", GET.MOB),
  (py!"MSK", GET.MSK),
  (py!"MSS", GET.MSS),
  (py!"MTW", GET.MTW),
  (py!"MWD", GET.MWD),
  (py!"MWV", GET.MWV),
  (py!"NAK", GET.NAK),
  (py!"NRM", GET.NRM),
  (py!"NRX", GET.NRX),
  (py!"NSR", GET.NSR),
  (py!"OSD", GET.OSD),
  (py!"POS", GET.POS),
  (py!"PRC", GET.PRC),
  (py!"RLM", GET.RLM),
  (py!"RMA", GET.RMA),
  (py!"RMB", GET.RMB),
  (py!"RMC", GET.RMC),
  (py!"ROR", GET.ROR),
  (py!"ROT", GET.ROT),
  (py!"RRT", GET.RRT),
  (py!"RPM", GET.RPM),
  (py!"RSA", GET.RSA),
  (py!"RSD", GET.RSD),
  (py!"RTE", GET.RTE),
  (py!"SFI", GET.SFI),
  (py!"SM1", GET.SM1),
  (py!"SM2", GET.SM2),
  (py!"SM3", GET.SM3),
  (py!"SM4", GET.SM4),
  (py!"SMB", GET.SMB),
  (py!"SPW", GET.SPW),
  (py!"SSD", GET.SSD),
  (py!"STN", GET.STN),
  (py!"THS", GET.THS),
  (py!"TLB", GET.TLB),
  (py!"TLL", GET.TLL),
  (py!"TRA", GET.TRA),
  (py!"TRC", GET.TRC),
  (py!"TRD", GET.TRD),
  (py!"TRL", GET.TRL),
  (py!"TRF", GET.TRF),
  (py!"TTD", GET.TTD),
  (py!"TTM", GET.TTM),
  (py!"TUT", GET.TUT),
  (py!"TXT", GET.TXT),
  (py!"UID", GET.UID),
  (py!"VBW", GET.VBW),
  (py!"VDM", GET.VDM),
  (py!"VDO", GET.VDO),
  (py!"VDR", GET.VDR),
  (py!"VER", GET.VER),
  (py!"VHW", GET.VHW),
  (py!"VLW", GET.VLW),
  (py!"VPW", GET.VPW),
  (py!"VSD", GET.VSD),
  (py!"VTG", GET.VTG),
  (py!"WAT", GET.WAT),
  (py!"WCV", GET.WCV),
  (py!"WNC", GET.WNC),
  (py!"WPL", GET.WPL),
  (py!"XDR", GET.XDR),
  (py!"XTE", GET.XTE),
  (py!"XTR", GET.XTR),
  (py!"ZDA", GET.ZDA),
  (py!"ZDL", GET.ZDL),
  (py!"ZFO", GET.ZFO),
  (py!"ZTG", GET.ZTG),
  (py!"FOO", GET.FOO),
  (py!"GGAH", GET.GGAH),
  (py!"GLLH", GET.GLLH),
  (py!"GNSH", GET.GNSH),
  (py!"GRSH", GET.GRSH),
  (py!"GSAH", GET.GSAH),
  (py!"GSTH", GET.GSTH),
  (py!"GSVH", GET.GSVH),
  (py!"RMCH", GET.RMCH),
  (py!"VTGH", GET.VTGH),
  (py!"THS2", GET.THS2),
  (py!"HPR", GET.HPR),
  (py!"HPR2", GET.HPR2),
  (py!"TRA2", GET.TRA2),
  (py!"ROT2", GET.ROT2),
  (py!"HPD", GET.HPD)]

end Nmea
