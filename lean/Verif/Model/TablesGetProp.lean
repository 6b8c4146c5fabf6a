import Verif.Model.Types
/- Generated by tools/gen_tables.py from the source text of /repo/src/pynmeagps. -/
namespace Nmea
open Py

/-- `NMEA_PAYLOADS_GET_PROP["KLDS"]` (/repo/src/pynmeagps/nmeatypes_get_prop.py:52-68). -/
def GET_PROP.KLDS : PDict := .single py!"time" TM <| .single py!"status" CH <| .single py!"lat" LA <| .single py!"NS" LAD <| .single py!"lon" LN <| .single py!"EW" LND <| .single py!"sog" DE <| .single py!"cog" DE <| .single py!"dat" DT <| .single py!"declination" DE <| .single py!"dec_dir" CH <| .single py!"fleet" DE <| .single py!"senderid" ST <| .single py!"senderstatus" DE <| .single py!"reserved" DE <| .nil

/-- `NMEA_PAYLOADS_GET_PROP["KLSH"]` (/repo/src/pynmeagps/nmeatypes_get_prop.py:69-78). -/
def GET_PROP.KLSH : PDict := .single py!"lat" LA <| .single py!"NS" LAD <| .single py!"lon" LN <| .single py!"EW" LND <| .single py!"time" TM <| .single py!"status" CH <| .single py!"fleetId" ST <| .single py!"deviceId" ST <| .nil

/-- `NMEA_PAYLOADS_GET_PROP["KNDS"]` (/repo/src/pynmeagps/nmeatypes_get_prop.py:79-94). -/
def GET_PROP.KNDS : PDict := .single py!"time" TM <| .single py!"status" CH <| .single py!"lat" LA <| .single py!"NS" LAD <| .single py!"lon" LN <| .single py!"EW" LND <| .single py!"sog" DE <| .single py!"cog" DE <| .single py!"date" DT <| .single py!"declination" DE <| .single py!"dec_dir" CH <| .single py!"senderid" ST <| .single py!"senderstatus" DE <| .single py!"reserved" DE <| .nil

/-- `NMEA_PAYLOADS_GET_PROP["KNSH"]` (/repo/src/pynmeagps/nmeatypes_get_prop.py:95-103). -/
def GET_PROP.KNSH : PDict := .single py!"lat" LA <| .single py!"NS" LAD <| .single py!"lon" LN <| .single py!"EW" LND <| .single py!"time" TM <| .single py!"status" CH <| .single py!"senderid" ST <| .nil

/-- `NMEA_PAYLOADS_GET_PROP["KWDWPL"]` (/repo/src/pynmeagps/nmeatypes_get_prop.py:104-117). -/
def GET_PROP.KWDWPL : PDict := .single py!"time" TM <| .single py!"status" CH <| .single py!"lat" LA <| .single py!"NS" LAD <| .single py!"lon" LN <| .single py!"EW" LND <| .single py!"sog" DE <| .single py!"cog" DE <| .single py!"date" DT <| .single py!"alt" DE <| .single py!"wpt" ST <| .single py!"ts" ST <| .nil

/-- `NMEA_PAYLOADS_GET_PROP["MGNWPL"]` (/repo/src/pynmeagps/nmeatypes_get_prop.py:121-132). -/
def GET_PROP.MGNWPL : PDict := .single py!"lat" LA <| .single py!"NS" LAD <| .single py!"lon" LN <| .single py!"EW" LND <| .single py!"alt" DE <| .single py!"alt_unit" CH <| .single py!"wpt" ST <| .single py!"comment" ST <| .single py!"icon" ST <| .single py!"type" ST <| .nil

/-- `NMEA_PAYLOADS_GET_PROP["GRME"]` (/repo/src/pynmeagps/nmeatypes_get_prop.py:136-143). -/
def GET_PROP.GRME : PDict := .single py!"HPE" DE <| .single py!"HPEUnit" CH <| .single py!"VPE" DE <| .single py!"VPEUnit" CH <| .single py!"EPE" DE <| .single py!"EPEUnit" CH <| .nil

/-- `NMEA_PAYLOADS_GET_PROP["GRMF"]` (/repo/src/pynmeagps/nmeatypes_get_prop.py:144-160). -/
def GET_PROP.GRMF : PDict := .single py!"week" IN <| .single py!"secs" IN <| .single py!"date" DT <| .single py!"time" TM <| .single py!"leapsec" IN <| .single py!"lat" LA <| .single py!"NS" LAD <| .single py!"lon" LN <| .single py!"EW" LND <| .single py!"mode" CH <| .single py!"fix" IN <| .single py!"spd" DE <| .single py!"course" IN <| .single py!"PDOP" DE <| .single py!"TDOP" DE <| .nil

/-- `NMEA_PAYLOADS_GET_PROP["GRMH"]` (/repo/src/pynmeagps/nmeatypes_get_prop.py:161-170). -/
def GET_PROP.GRMH : PDict := .single py!"status" CH <| .single py!"vspd" DE <| .single py!"verr" DE <| .single py!"spdtgt" DE <| .single py!"spdwpt" DE <| .single py!"height" DE <| .single py!"trk" DE <| .single py!"course" DE <| .nil

/-- `NMEA_PAYLOADS_GET_PROP["GRMM"]` (/repo/src/pynmeagps/nmeatypes_get_prop.py:171-173). -/
def GET_PROP.GRMM : PDict := .single py!"dtm" ST <| .nil

/-- `NMEA_PAYLOADS_GET_PROP["GRMT"]` (/repo/src/pynmeagps/nmeatypes_get_prop.py:174-184). -/
def GET_PROP.GRMT : PDict := .single py!"ver" ST <| .single py!"ROMtest" CH <| .single py!"rcvrtest" CH <| .single py!"stortest" CH <| .single py!"rtctest" CH <| .single py!"osctest" CH <| .single py!"datatest" CH <| .single py!"temp" DE <| .single py!"cfgdata" CH <| .nil

/-- `NMEA_PAYLOADS_GET_PROP["GRMV"]` (/repo/src/pynmeagps/nmeatypes_get_prop.py:185-189). -/
def GET_PROP.GRMV : PDict := .single py!"velE" DE <| .single py!"velN" DE <| .single py!"velZ" DE <| .nil

/-- `NMEA_PAYLOADS_GET_PROP["GRMZ"]` (/repo/src/pynmeagps/nmeatypes_get_prop.py:190-194). -/
def GET_PROP.GRMZ : PDict := .single py!"alt" DE <| .single py!"altUnit" CH <| .single py!"fix" IN <| .nil

/-- `NMEA_PAYLOADS_GET_PROP["GRMB"]` (/repo/src/pynmeagps/nmeatypes_get_prop.py:195-204). -/
def GET_PROP.GRMB : PDict := .single py!"freq" DE <| .single py!"bps" IN <| .single py!"snr" IN <| .single py!"quality" IN <| .single py!"dist" DE <| .single py!"status" IN <| .single py!"fixsrc" CH <| .single py!"mode" CH <| .nil

/-- `NMEA_PAYLOADS_GET_PROP["UBX00"]` (/repo/src/pynmeagps/nmeatypes_get_prop.py:208-229). -/
def GET_PROP.UBX00 : PDict := .single py!"msgId" ST <| .single py!"time" TM <| .single py!"lat" LA <| .single py!"NS" LAD <| .single py!"lon" LN <| .single py!"EW" LND <| .single py!"altRef" DE <| .single py!"navStat" ST <| .single py!"hAcc" DE <| .single py!"vAcc" DE <| .single py!"SOG" DE <| .single py!"COG" DE <| .single py!"vVel" DE <| .single py!"diffAge" DE <| .single py!"HDOP" DE <| .single py!"VDOP" DE <| .single py!"TDOP" DE <| .single py!"numSVs" IN <| .single py!"reserved" IN <| .single py!"DR" IN <| .nil

/-- `NMEA_PAYLOADS_GET_PROP["UBX03"]` (/repo/src/pynmeagps/nmeatypes_get_prop.py:230-244). -/
def GET_PROP.UBX03 : PDict := .single py!"msgId" ST <| .single py!"numSv" IN <| .group py!"groupSV" (.named py!"numSv") (.single py!"svid" IN <| .single py!"status" CH <| .single py!"azi" DE <| .single py!"ele" DE <| .single py!"cno" IN <| .single py!"lck" IN <| .nil) <| .nil

/-- `NMEA_PAYLOADS_GET_PROP["UBX04"]` (/repo/src/pynmeagps/nmeatypes_get_prop.py:245-255). -/
def GET_PROP.UBX04 : PDict := .single py!"msgId" ST <| .single py!"time" TM <| .single py!"date" DT <| .single py!"utcTow" ST <| .single py!"utcWk" ST <| .single py!"leapSec" ST <| .single py!"clkBias" DE <| .single py!"clkDrift" DE <| .single py!"tpGran" IN <| .nil

/-- `NMEA_PAYLOADS_GET_PROP["UBX05"]` (/repo/src/pynmeagps/nmeatypes_get_prop.py:256-273). -/
def GET_PROP.UBX05 : PDict := .single py!"msgId" ST <| .single py!"pulses" IN <| .single py!"period" IN <| .single py!"gyroMean" IN <| .single py!"temperature" DE <| .single py!"direction" CH <| .single py!"pulseScaleCS" IN <| .single py!"gyroScaleCS" IN <| .single py!"gyroBiasCS" IN <| .single py!"pulseScale" DE <| .single py!"gyroBias" DE <| .single py!"gyroScale" DE <| .single py!"pulseScaleAcc" IN <| .single py!"gyroBiasAcc" IN <| .single py!"gyroScaleAcc" IN <| .single py!"measUsed" HX <| .nil

/-- `NMEA_PAYLOADS_GET_PROP["ASHR"]` (/repo/src/pynmeagps/nmeatypes_get_prop.py:278-290). -/
def GET_PROP.ASHR : PDict := .single py!"utctime" TM <| .single py!"trueHdg" DE <| .single py!"trueHdgInd" CH <| .single py!"roll" DE <| .single py!"pitch" DE <| .single py!"reserved" ST <| .single py!"rollAcc" DE <| .single py!"pitchAcc" DE <| .single py!"hdgAcc" DE <| .single py!"gnssQual" IN <| .single py!"imuAlign" IN <| .nil

/-- `NMEA_PAYLOADS_GET_PROP["ASHRALR"]` (/repo/src/pynmeagps/nmeatypes_get_prop.py:291-299). -/
def GET_PROP.ASHRALR : PDict := .single py!"msgId" ST <| .single py!"alarmCode" IN <| .single py!"alarmSubcode" IN <| .single py!"streamId" CH <| .single py!"alarmCat" ST <| .single py!"alarmLevel" IN <| .single py!"desc" ST <| .nil

/-- `NMEA_PAYLOADS_GET_PROP["ASHRARA"]` (/repo/src/pynmeagps/nmeatypes_get_prop.py:300-311). -/
def GET_PROP.ASHRARA : PDict := .single py!"msgId" ST <| .single py!"valid" CH <| .single py!"utctime" TM <| .single py!"hdgSpeed" DE <| .single py!"pitchSpeed" DE <| .single py!"rollSpeed" DE <| .single py!"hdgAcc" DE <| .single py!"pitchAcc" DE <| .single py!"rollAcc" DE <| .single py!"reserved" ST <| .nil

/-- `NMEA_PAYLOADS_GET_PROP["ASHRARR"]` (/repo/src/pynmeagps/nmeatypes_get_prop.py:312-331). -/
def GET_PROP.ASHRARR : PDict := .single py!"msgId" ST <| .single py!"vectNum" IN <| .single py!"vectMode" IN <| .single py!"sip" IN <| .single py!"utctime" TM <| .single py!"antEcefX" DE <| .single py!"antEcefY" DE <| .single py!"antEcefZ" DE <| .single py!"coord1std" DE <| .single py!"coord2std" DE <| .single py!"coord3std" DE <| .single py!"coord12corr" DE <| .single py!"coord13corr" DE <| .single py!"coord23corr" DE <| .single py!"refId" CH <| .single py!"vectFrame" IN <| .single py!"vectOpt" IN <| .single py!"clkAssum" IN <| .nil

/-- `NMEA_PAYLOADS_GET_PROP["ASHRATT"]` (/repo/src/pynmeagps/nmeatypes_get_prop.py:332-341). -/
def GET_PROP.ASHRATT : PDict := .single py!"msgId" ST <| .single py!"weekTime" DE <| .single py!"trueHdg" DE <| .single py!"pitch" DE <| .single py!"roll" DE <| .single py!"carrierRmsErr" DE <| .single py!"baselineRmsErr" DE <| .single py!"ambiguity" IN <| .nil

/-- `NMEA_PAYLOADS_GET_PROP["ASHRBTS"]` (/repo/src/pynmeagps/nmeatypes_get_prop.py:342-354). -/
def GET_PROP.ASHRBTS : PDict := .single py!"msgId" ST <| .group py!"portgroup" (.fixed 3) (.single py!"port" CH <| .single py!"connected" IN <| .single py!"name" ST <| .single py!"addr" ST <| .single py!"linkQual" IN <| .nil) <| .nil

/-- `NMEA_PAYLOADS_GET_PROP["ASHRCAP"]` (/repo/src/pynmeagps/nmeatypes_get_prop.py:355-364). -/
def GET_PROP.ASHRCAP : PDict := .single py!"msgId" ST <| .single py!"name" ST <| .single py!"L1Noffset" DE <| .single py!"L1Eoffset" DE <| .single py!"L1Voffset" DE <| .single py!"L2Noffset" DE <| .single py!"L2Eoffset" DE <| .single py!"L2Voffset" DE <| .nil

/-- `NMEA_PAYLOADS_GET_PROP["ASHRCPA"]` (/repo/src/pynmeagps/nmeatypes_get_prop.py:365-376). -/
def GET_PROP.ASHRCPA : PDict := .single py!"msgId" ST <| .single py!"antHeight" DE <| .single py!"antRadius" DE <| .single py!"vertOffset" DE <| .single py!"horAzi" DE <| .single py!"horDist" DE <| .single py!"reserved1" ST <| .single py!"reserved2" ST <| .single py!"reserved3" ST <| .single py!"reserved4" ST <| .nil

/-- `NMEA_PAYLOADS_GET_PROP["ASHRCPO"]` (/repo/src/pynmeagps/nmeatypes_get_prop.py:377-384). -/
def GET_PROP.ASHRCPO : PDict := .single py!"msgId" ST <| .single py!"lat" LA <| .single py!"NS" LAD <| .single py!"lon" LN <| .single py!"EW" LND <| .single py!"height" DE <| .nil

/-- `NMEA_PAYLOADS_GET_PROP["ASHRDDM"]` (/repo/src/pynmeagps/nmeatypes_get_prop.py:385-395). -/
def GET_PROP.ASHRDDM : PDict := .single py!"msgId" ST <| .single py!"corrPort" CH <| .single py!"msgTransport" ST <| .single py!"msgIdent" ST <| .single py!"count" IN <| .single py!"baseId" ST <| .single py!"timeLag" DE <| .single py!"corrAge" DE <| .single py!"attr" ST <| .nil

/-- `NMEA_PAYLOADS_GET_PROP["ASHRDDS"]` (/repo/src/pynmeagps/nmeatypes_get_prop.py:396-415). -/
def GET_PROP.ASHRDDS : PDict := .single py!"msgId" ST <| .single py!"diffDecodeNum" IN <| .single py!"timeTag" TM <| .single py!"numMsgDecoded" IN <| .single py!"port" CH <| .single py!"prot" ST <| .single py!"timeWindow" IN <| .single py!"percLinkQual" IN <| .single py!"percDeselectInfo" IN <| .single py!"percCrc" IN <| .single py!"latencyStd" IN <| .single py!"latencyMean" IN <| .single py!"epochIntMean" IN <| .single py!"epochIntMin" IN <| .single py!"numMsgDetected" IN <| .single py!"msgType" ST <| .single py!"lastMsgInt" DE <| .single py!"lastMsgAge" DE <| .nil

/-- `NMEA_PAYLOADS_GET_PROP["ASHRHPR"]` (/repo/src/pynmeagps/nmeatypes_get_prop.py:416-428). -/
def GET_PROP.ASHRHPR : PDict := .single py!"msgId" ST <| .single py!"utctime" TM <| .single py!"trueHdg" DE <| .single py!"pitch" DE <| .single py!"roll" DE <| .single py!"carrierRmsErr" DE <| .single py!"baselineRmsErr" DE <| .single py!"ambiguity" IN <| .single py!"attStatus" IN <| .single py!"antBaseline" ST <| .single py!"PDOP" DE <| .nil

/-- `NMEA_PAYLOADS_GET_PROP["ASHRLTN"]` (/repo/src/pynmeagps/nmeatypes_get_prop.py:429-432). -/
def GET_PROP.ASHRLTN : PDict := .single py!"msgId" ST <| .single py!"latency" DE <| .nil

/-- `NMEA_PAYLOADS_GET_PROP["ASHRMDM"]` (/repo/src/pynmeagps/nmeatypes_get_prop.py:433-451). -/
def GET_PROP.ASHRMDM : PDict := .single py!"msgId" ST <| .single py!"port" ST <| .single py!"baud" IN <| .single py!"state" ST <| .single py!"powerMode" ST <| .single py!"pinCode" ST <| .single py!"protocol" IN <| .single py!"csdMode" IN <| .single py!"accessPoint" ST <| .single py!"login" ST <| .single py!"password" ST <| .single py!"phoneNum" ST <| .single py!"autoDial" CH <| .single py!"maxRedial" IN <| .single py!"model" ST <| .single py!"selMode" IN <| .single py!"gsmAnt" ST <| .nil

/-- `NMEA_PAYLOADS_GET_PROP["ASHRPBN"]` (/repo/src/pynmeagps/nmeatypes_get_prop.py:452-463). -/
def GET_PROP.ASHRPBN : PDict := .single py!"msgId" ST <| .single py!"gpsWeek" DE <| .single py!"siteName" ST <| .single py!"navX" DE <| .single py!"navY" DE <| .single py!"navT" DE <| .single py!"navXdot" DE <| .single py!"navYdot" DE <| .single py!"navTdot" DE <| .single py!"PDOP" DE <| .nil

/-- `NMEA_PAYLOADS_GET_PROP["ASHRPOS"]` (/repo/src/pynmeagps/nmeatypes_get_prop.py:464-483). -/
def GET_PROP.ASHRPOS : PDict := .single py!"msgId" ST <| .single py!"solnType" IN <| .single py!"sip" IN <| .single py!"utctime" TM <| .single py!"lat" LA <| .single py!"NS" LAD <| .single py!"lon" LN <| .single py!"EW" LND <| .single py!"alt" DE <| .single py!"corrAge" DE <| .single py!"trueTrk" DE <| .single py!"sog" DE <| .single py!"vertVel" DE <| .single py!"PDOP" DE <| .single py!"HDOP" DE <| .single py!"VDOP" DE <| .single py!"TDOP" DE <| .single py!"baseId" ST <| .nil

/-- `NMEA_PAYLOADS_GET_PROP["ASHRPTT"]` (/repo/src/pynmeagps/nmeatypes_get_prop.py:484-488). -/
def GET_PROP.ASHRPTT : PDict := .single py!"msgId" ST <| .single py!"dow" IN <| .single py!"timeTag" ST <| .nil

/-- `NMEA_PAYLOADS_GET_PROP["ASHRPWR"]` (/repo/src/pynmeagps/nmeatypes_get_prop.py:489-501). -/
def GET_PROP.ASHRPWR : PDict := .single py!"msgId" ST <| .single py!"powerSource" IN <| .single py!"voltsOut" DE <| .single py!"reserved1" ST <| .single py!"percRemaining" IN <| .single py!"reserved2" ST <| .single py!"voltsIn" DE <| .single py!"chargeStatus" IN <| .single py!"reserved3" ST <| .single py!"tempInt" DE <| .single py!"tempBatt" DE <| .nil

/-- `NMEA_PAYLOADS_GET_PROP["ASHRRCS"]` (/repo/src/pynmeagps/nmeatypes_get_prop.py:502-511). -/
def GET_PROP.ASHRRCS : PDict := .single py!"msgId" ST <| .single py!"recordStatus" CH <| .single py!"memory" IN <| .single py!"fileName" ST <| .single py!"recordRate" IN <| .single py!"occupationType" IN <| .single py!"occupationState" IN <| .single py!"occupationName" ST <| .nil

/-- `NMEA_PAYLOADS_GET_PROP["ASHRSBD"]` (/repo/src/pynmeagps/nmeatypes_get_prop.py:512-528). -/
def GET_PROP.ASHRSBD : PDict := .single py!"msgId" ST <| .single py!"siv" IN <| .group py!"satgroup" (.named py!"siv") (.single py!"prn" IN <| .single py!"azi" DE <| .single py!"ele" DE <| .single py!"snrB1" DE <| .single py!"snrB2" DE <| .single py!"snrB3" DE <| .single py!"usageStatus" ST <| .single py!"corrStatus" ST <| .nil) <| .nil

/-- `NMEA_PAYLOADS_GET_PROP["ASHRSGA"]` (/repo/src/pynmeagps/nmeatypes_get_prop.py:529-545). -/
def GET_PROP.ASHRSGA : PDict := .single py!"msgId" ST <| .single py!"siv" IN <| .group py!"satgroup" (.named py!"siv") (.single py!"prn" IN <| .single py!"azi" DE <| .single py!"ele" DE <| .single py!"snrE1" DE <| .single py!"snrE5b" DE <| .single py!"snrE5a" DE <| .single py!"usageStatus" ST <| .single py!"corrStatus" ST <| .nil) <| .nil

/-- `NMEA_PAYLOADS_GET_PROP["ASHRSGL"]` (/repo/src/pynmeagps/nmeatypes_get_prop.py:546-562). -/
def GET_PROP.ASHRSGL : PDict := .single py!"msgId" ST <| .single py!"siv" IN <| .group py!"satgroup" (.named py!"siv") (.single py!"prn" IN <| .single py!"azi" DE <| .single py!"ele" DE <| .single py!"snrL1" DE <| .single py!"snrL2" DE <| .single py!"snrL3" DE <| .single py!"usageStatus" ST <| .single py!"corrStatus" ST <| .nil) <| .nil

/-- `NMEA_PAYLOADS_GET_PROP["ASHRSGO"]` (/repo/src/pynmeagps/nmeatypes_get_prop.py:563-581). -/
def GET_PROP.ASHRSGO : PDict := .single py!"msgId" ST <| .single py!"siv" IN <| .group py!"satgroup" (.named py!"siv") (.single py!"prn" IN <| .single py!"azi" DE <| .single py!"ele" DE <| .single py!"snrE1" DE <| .single py!"snrE5b" DE <| .single py!"snrE5a" DE <| .single py!"snrE6" DE <| .single py!"reserved" ST <| .single py!"usageStatus" ST <| .single py!"corrStatus" ST <| .nil) <| .nil

/-- `NMEA_PAYLOADS_GET_PROP["ASHRSGP"]` (/repo/src/pynmeagps/nmeatypes_get_prop.py:582-598). -/
def GET_PROP.ASHRSGP : PDict := .single py!"msgId" ST <| .single py!"siv" IN <| .group py!"satgroup" (.named py!"siv") (.single py!"prn" IN <| .single py!"azi" DE <| .single py!"ele" DE <| .single py!"snrL1" DE <| .single py!"snrL2" DE <| .single py!"snrL3" DE <| .single py!"usageStatus" ST <| .single py!"corrStatus" ST <| .nil) <| .nil

/-- `NMEA_PAYLOADS_GET_PROP["ASHRSIR"]` (/repo/src/pynmeagps/nmeatypes_get_prop.py:599-615). -/
def GET_PROP.ASHRSIR : PDict := .single py!"msgId" ST <| .single py!"siv" IN <| .group py!"satgroup" (.named py!"siv") (.single py!"prn" IN <| .single py!"azi" DE <| .single py!"ele" DE <| .single py!"reserved2" ST <| .single py!"reserved3" ST <| .single py!"snrL5" DE <| .single py!"usageStatus" ST <| .single py!"corrStatus" ST <| .nil) <| .nil

/-- `NMEA_PAYLOADS_GET_PROP["ASHRSLB"]` (/repo/src/pynmeagps/nmeatypes_get_prop.py:616-629). -/
def GET_PROP.ASHRSLB : PDict := .single py!"msgId" ST <| .single py!"siv" IN <| .group py!"satgroup" (.named py!"siv") (.single py!"satNum" IN <| .single py!"contTrkInt" DE <| .single py!"azi" DE <| .single py!"ele" DE <| .single py!"snr" DE <| .nil) <| .nil

/-- `NMEA_PAYLOADS_GET_PROP["ASHRSQZ"]` (/repo/src/pynmeagps/nmeatypes_get_prop.py:630-646). -/
def GET_PROP.ASHRSQZ : PDict := .single py!"msgId" ST <| .single py!"siv" IN <| .group py!"satgroup" (.named py!"siv") (.single py!"prn" IN <| .single py!"azi" DE <| .single py!"ele" DE <| .single py!"snrL1" DE <| .single py!"snrL2" DE <| .single py!"snrL3" DE <| .single py!"usageStatus" ST <| .single py!"corrStatus" ST <| .nil) <| .nil

/-- `NMEA_PAYLOADS_GET_PROP["ASHRSSB"]` (/repo/src/pynmeagps/nmeatypes_get_prop.py:647-663). -/
def GET_PROP.ASHRSSB : PDict := .single py!"msgId" ST <| .single py!"siv" IN <| .group py!"satgroup" (.named py!"siv") (.single py!"prn" IN <| .single py!"azi" DE <| .single py!"ele" DE <| .single py!"snrL1" DE <| .single py!"reserved" ST <| .single py!"snrL5" DE <| .single py!"usageStatus" ST <| .single py!"corrStatus" ST <| .nil) <| .nil

/-- `NMEA_PAYLOADS_GET_PROP["ASHRTEM"]` (/repo/src/pynmeagps/nmeatypes_get_prop.py:664-667). -/
def GET_PROP.ASHRTEM : PDict := .single py!"msgId" ST <| .single py!"temp" DE <| .nil

/-- `NMEA_PAYLOADS_GET_PROP["ASHRTHS"]` (/repo/src/pynmeagps/nmeatypes_get_prop.py:668-672). -/
def GET_PROP.ASHRTHS : PDict := .single py!"msgId" ST <| .single py!"lastComputedHdg" DE <| .single py!"solnStatus" CH <| .nil

/-- `NMEA_PAYLOADS_GET_PROP["ASHRTTT"]` (/repo/src/pynmeagps/nmeatypes_get_prop.py:673-677). -/
def GET_PROP.ASHRTTT : PDict := .single py!"msgId" ST <| .single py!"dow" IN <| .single py!"timeTag" TM <| .nil

/-- `NMEA_PAYLOADS_GET_PROP["ASHRVCR"]` (/repo/src/pynmeagps/nmeatypes_get_prop.py:678-695). -/
def GET_PROP.ASHRVCR : PDict := .single py!"msgId" ST <| .single py!"baselineNum" IN <| .single py!"baselineMode" IN <| .single py!"sip" IN <| .single py!"utctime" TM <| .single py!"antEcefX" DE <| .single py!"antEcefY" DE <| .single py!"antEcefZ" DE <| .single py!"coord1std" DE <| .single py!"coord2std" DE <| .single py!"coord3std" DE <| .single py!"coord12corr" DE <| .single py!"coord13corr" DE <| .single py!"coord23corr" DE <| .single py!"baseId" ST <| .single py!"baselineCoordId" ST <| .nil

/-- `NMEA_PAYLOADS_GET_PROP["ASHRVCT"]` (/repo/src/pynmeagps/nmeatypes_get_prop.py:696-715). -/
def GET_PROP.ASHRVCT : PDict := .single py!"msgId" ST <| .single py!"baselineMode" IN <| .single py!"sip" IN <| .single py!"utctime" TM <| .single py!"antEcefX" DE <| .single py!"antEcefY" DE <| .single py!"antEcefZ" DE <| .single py!"coord1std" DE <| .single py!"coord2std" DE <| .single py!"coord3std" DE <| .single py!"coord12corr" DE <| .single py!"coord13corr" DE <| .single py!"coord23corr" DE <| .single py!"baseId" ST <| .single py!"baselineCoordId" ST <| .single py!"baselineNum" IN <| .single py!"vrs" IN <| .single py!"staticModeAssumption" IN <| .nil

/-- `NMEA_PAYLOADS_GET_PROP["ASHRVEL"]` (/repo/src/pynmeagps/nmeatypes_get_prop.py:716-725). -/
def GET_PROP.ASHRVEL : PDict := .single py!"msgId" ST <| .single py!"velE" DE <| .single py!"velN" DE <| .single py!"velV" DE <| .single py!"velERmsErr" DE <| .single py!"velNRmsErr" DE <| .single py!"velVRmsErr" DE <| .single py!"velSmoothInt" IN <| .nil

/-- `NMEA_PAYLOADS_GET_PROP["FUGDP"]` (/repo/src/pynmeagps/nmeatypes_get_prop.py:726-739). -/
def GET_PROP.FUGDP : PDict := .single py!"type" ST <| .single py!"utctime" TM <| .single py!"lat" LA <| .single py!"NS" LAD <| .single py!"lon" LN <| .single py!"EW" LND <| .single py!"siv" IN <| .single py!"dpvoaQual" ST <| .single py!"dgnssMode" ST <| .single py!"smajErr" DE <| .single py!"sminErr" DE <| .single py!"dirErr" IN <| .nil

/-- `NMEA_PAYLOADS_GET_PROP["GPPADV110"]` (/repo/src/pynmeagps/nmeatypes_get_prop.py:740-747). -/
def GET_PROP.GPPADV110 : PDict := .single py!"msgId" ST <| .single py!"lat" DE <| .single py!"lon" DE <| .single py!"height" DE <| .single py!"ele" DE <| .single py!"azi" DE <| .nil

/-- `NMEA_PAYLOADS_GET_PROP["GPPADV120"]` (/repo/src/pynmeagps/nmeatypes_get_prop.py:748-758). -/
def GET_PROP.GPPADV120 : PDict := .single py!"msgId" ST <| .group py!"satgrp" (.fixed 2) (.single py!"prn" IN <| .single py!"ele" DE <| .single py!"azi" DE <| .nil) <| .nil

/-- `NMEA_PAYLOADS_GET_PROP["TNLAVR"]` (/repo/src/pynmeagps/nmeatypes_get_prop.py:759-772). -/
def GET_PROP.TNLAVR : PDict := .single py!"msgId" ST <| .single py!"utctime" TM <| .single py!"yaw" DE <| .single py!"yawc" ST <| .single py!"tilt" DE <| .single py!"tiltc" ST <| .single py!"roll" DE <| .single py!"rollc" ST <| .single py!"range" DE <| .single py!"gpsQual" IN <| .single py!"PDOP" DE <| .single py!"sip" IN <| .nil

/-- `NMEA_PAYLOADS_GET_PROP["TNLBPQ"]` (/repo/src/pynmeagps/nmeatypes_get_prop.py:773-784). -/
def GET_PROP.TNLBPQ : PDict := .single py!"msgId" ST <| .single py!"utctime" TM <| .single py!"utcdate" DT <| .single py!"lat" LA <| .single py!"NS" LAD <| .single py!"lon" LN <| .single py!"EW" LND <| .single py!"height" ST <| .single py!"hunit" CH <| .single py!"gpsQual" IN <| .nil

/-- `NMEA_PAYLOADS_GET_PROP["TNLDG"]` (/repo/src/pynmeagps/nmeatypes_get_prop.py:785-794). -/
def GET_PROP.TNLDG : PDict := .single py!"msgId" ST <| .single py!"strength" DE <| .single py!"snr" DE <| .single py!"freq" DE <| .single py!"bitRate" IN <| .single py!"chan" IN <| .single py!"trkStatus" CH <| .single py!"trkPerf" IN <| .nil

/-- `NMEA_PAYLOADS_GET_PROP["TNLEVT"]` (/repo/src/pynmeagps/nmeatypes_get_prop.py:795-803). -/
def GET_PROP.TNLEVT : PDict := .single py!"msgId" ST <| .single py!"utctime" TM <| .single py!"port" IN <| .single py!"numEvents" IN <| .single py!"wno" IN <| .single py!"dow" IN <| .single py!"leaps" IN <| .nil

/-- `NMEA_PAYLOADS_GET_PROP["TNLGGK"]` (/repo/src/pynmeagps/nmeatypes_get_prop.py:804-817). -/
def GET_PROP.TNLGGK : PDict := .single py!"msgId" ST <| .single py!"utctime" TM <| .single py!"utcdate" DT <| .single py!"lat" LA <| .single py!"NS" LAD <| .single py!"lon" LN <| .single py!"EW" LND <| .single py!"gpsQual" IN <| .single py!"sip" IN <| .single py!"DOP" DE <| .single py!"height" ST <| .single py!"hunit" CH <| .nil

/-- `NMEA_PAYLOADS_GET_PROP["TNLGGKx"]` (/repo/src/pynmeagps/nmeatypes_get_prop.py:818-835). -/
def GET_PROP.TNLGGKx : PDict := .single py!"msgId" ST <| .single py!"utctime" TM <| .single py!"utcdate" DT <| .single py!"lat" LA <| .single py!"NS" LAD <| .single py!"lon" LN <| .single py!"EW" LND <| .single py!"posType" IN <| .single py!"sip" IN <| .single py!"PDOP" DE <| .single py!"height" DE <| .single py!"numExt" IN <| .single py!"sigmaE" DE <| .single py!"sigmaN" DE <| .single py!"sigmaV" DE <| .single py!"propogationAge" DE <| .nil

/-- `NMEA_PAYLOADS_GET_PROP["TNLPJK"]` (/repo/src/pynmeagps/nmeatypes_get_prop.py:836-849). -/
def GET_PROP.TNLPJK : PDict := .single py!"msgId" ST <| .single py!"utctime" TM <| .single py!"utcdate" DT <| .single py!"northing" DE <| .single py!"nunit" CH <| .single py!"easting" DE <| .single py!"eunit" CH <| .single py!"gpsQual" IN <| .single py!"sip" IN <| .single py!"DOP" DE <| .single py!"height" ST <| .single py!"hunit" CH <| .nil

/-- `NMEA_PAYLOADS_GET_PROP["TNLPJT"]` (/repo/src/pynmeagps/nmeatypes_get_prop.py:850-854). -/
def GET_PROP.TNLPJT : PDict := .single py!"msgId" ST <| .single py!"coordName" ST <| .single py!"projName" ST <| .nil

/-- `NMEA_PAYLOADS_GET_PROP["TNLREX"]` (/repo/src/pynmeagps/nmeatypes_get_prop.py:855-875). -/
def GET_PROP.TNLREX : PDict := .single py!"msgId" ST <| .single py!"utctime" TM <| .single py!"constUsed" ST <| .single py!"sip" IN <| .single py!"lat" LA <| .single py!"NS" LAD <| .single py!"lon" LN <| .single py!"EW" LND <| .single py!"alt" DE <| .single py!"latSigmaErr" DE <| .single py!"lonSigmaErr" DE <| .single py!"heightSigmaErr" DE <| .single py!"vectE" DE <| .single py!"vectN" DE <| .single py!"vectV" DE <| .single py!"vectESigmaErr" DE <| .single py!"vectNSigmaErr" DE <| .single py!"vectVSigmaErr" DE <| .single py!"corrSource" ST <| .nil

/-- `NMEA_PAYLOADS_GET_PROP["TNLVGK"]` (/repo/src/pynmeagps/nmeatypes_get_prop.py:876-887). -/
def GET_PROP.TNLVGK : PDict := .single py!"msgId" ST <| .single py!"utctime" TM <| .single py!"utcdate" DM <| .single py!"vectE" DE <| .single py!"vectN" DE <| .single py!"vectV" DE <| .single py!"gpsQual" IN <| .single py!"sip" IN <| .single py!"DOP" DE <| .single py!"vunit" CH <| .nil

/-- `NMEA_PAYLOADS_GET_PROP["TNLVHD"]` (/repo/src/pynmeagps/nmeatypes_get_prop.py:888-902). -/
def GET_PROP.TNLVHD : PDict := .single py!"msgId" ST <| .single py!"utctime" TM <| .single py!"utcdate" DM <| .single py!"azi" DE <| .single py!"aziRate" DE <| .single py!"ele" DE <| .single py!"eleRate" DE <| .single py!"range" DE <| .single py!"rangeRate" DE <| .single py!"gpsQual" IN <| .single py!"sip" IN <| .single py!"PDOP" DE <| .single py!"unit" CH <| .nil

/-- `NMEA_PAYLOADS_GET_PROP["FECGPATT"]` (/repo/src/pynmeagps/nmeatypes_get_prop.py:907-912). -/
def GET_PROP.FECGPATT : PDict := .single py!"msgId" ST <| .single py!"yaw" DE <| .single py!"pitch" DE <| .single py!"roll" DE <| .nil

/-- `NMEA_PAYLOADS_GET_PROP["FECGPHVE"]` (/repo/src/pynmeagps/nmeatypes_get_prop.py:913-917). -/
def GET_PROP.FECGPHVE : PDict := .single py!"msgId" ST <| .single py!"heave" DE <| .single py!"status" CH <| .nil

/-- `NMEA_PAYLOADS_GET_PROP["LSR"]` (/repo/src/pynmeagps/nmeatypes_get_prop.py:922-926). -/
def GET_PROP.LSR : PDict := .single py!"msgType" ST <| .single py!"value" IN <| .single py!"response" ST <| .nil

/-- `NMEA_PAYLOADS_GET_PROP["LSVD"]` (/repo/src/pynmeagps/nmeatypes_get_prop.py:927-934). -/
def GET_PROP.LSVD : PDict := .single py!"velE" DE <| .single py!"velN" DE <| .single py!"velD" DE <| .single py!"velEdev" DE <| .single py!"velNdev" DE <| .single py!"velDdev" DE <| .nil

/-- `NMEA_PAYLOADS_GET_PROP["INVMINR"]` (/repo/src/pynmeagps/nmeatypes_get_prop.py:935-937). -/
def GET_PROP.INVMINR : PDict := .single py!"status" CH <| .nil

/-- `NMEA_PAYLOADS_GET_PROP["INVMSTR"]` (/repo/src/pynmeagps/nmeatypes_get_prop.py:938-940). -/
def GET_PROP.INVMSTR : PDict := .single py!"value" IN <| .nil

/-- `NMEA_PAYLOADS_GET_PROP["INVMSLOPE"]` (/repo/src/pynmeagps/nmeatypes_get_prop.py:941-948). -/
def GET_PROP.INVMSLOPE : PDict := .single py!"slope" DE <| .single py!"altDiff" DE <| .single py!"moveDist" DE <| .single py!"slopeAccu" DE <| .single py!"altDiffAccu" DE <| .single py!"moveDistAccu" DE <| .nil

/-- `NMEA_PAYLOADS_GET_PROP["INVMIMU"]` (/repo/src/pynmeagps/nmeatypes_get_prop.py:949-957). -/
def GET_PROP.INVMIMU : PDict := .single py!"timeSecond" DE <| .single py!"accelX" DE <| .single py!"accelY" DE <| .single py!"accelZ" DE <| .single py!"gyroX" DE <| .single py!"gyroY" DE <| .single py!"gyroZ" DE <| .nil

/-- `NMEA_PAYLOADS_GET_PROP["INVMATTIT"]` (/repo/src/pynmeagps/nmeatypes_get_prop.py:958-962). -/
def GET_PROP.INVMATTIT : PDict := .single py!"roll" DE <| .single py!"pitch" DE <| .single py!"yaw" DE <| .nil

/-- `NMEA_PAYLOADS_GET_PROP["AIR001"]` (/repo/src/pynmeagps/nmeatypes_get_prop.py:968-971). -/
def GET_PROP.AIR001 : PDict := .single py!"commandid" IN <| .single py!"result" IN <| .nil

/-- `NMEA_PAYLOADS_GET_PROP["AIR010"]` (/repo/src/pynmeagps/nmeatypes_get_prop.py:972-977). -/
def GET_PROP.AIR010 : PDict := .single py!"type" IN <| .single py!"subsystem" IN <| .single py!"wno" IN <| .single py!"tow" IN <| .nil

/-- `NMEA_PAYLOADS_GET_PROP["AIR051"]` (/repo/src/pynmeagps/nmeatypes_get_prop.py:978-980). -/
def GET_PROP.AIR051 : PDict := .single py!"time" IN <| .nil

/-- `NMEA_PAYLOADS_GET_PROP["AIR059"]` (/repo/src/pynmeagps/nmeatypes_get_prop.py:981-983). -/
def GET_PROP.AIR059 : PDict := .single py!"minsnr" IN <| .nil

/-- `NMEA_PAYLOADS_GET_PROP["AIR063"]` (/repo/src/pynmeagps/nmeatypes_get_prop.py:984-987). -/
def GET_PROP.AIR063 : PDict := .single py!"type" IN <| .single py!"rate" IN <| .nil

/-- `NMEA_PAYLOADS_GET_PROP["AIR067"]` (/repo/src/pynmeagps/nmeatypes_get_prop.py:988-995). -/
def GET_PROP.AIR067 : PDict := .single py!"gpsEnabled" IN <| .single py!"glonassEnabled" IN <| .single py!"galileoEnabled" IN <| .single py!"bdsEnabled" IN <| .single py!"qzssEnabled" IN <| .single py!"navicEnabled" IN <| .nil

/-- `NMEA_PAYLOADS_GET_PROP["AIR071"]` (/repo/src/pynmeagps/nmeatypes_get_prop.py:996-998). -/
def GET_PROP.AIR071 : PDict := .single py!"speedThreshold" DE <| .nil

/-- `NMEA_PAYLOADS_GET_PROP["AIR073"]` (/repo/src/pynmeagps/nmeatypes_get_prop.py:999-1001). -/
def GET_PROP.AIR073 : PDict := .single py!"degree" IN <| .nil

/-- `NMEA_PAYLOADS_GET_PROP["AIR075"]` (/repo/src/pynmeagps/nmeatypes_get_prop.py:1002-1004). -/
def GET_PROP.AIR075 : PDict := .single py!"enabled" IN <| .nil

/-- `NMEA_PAYLOADS_GET_PROP["AIR081"]` (/repo/src/pynmeagps/nmeatypes_get_prop.py:1005-1007). -/
def GET_PROP.AIR081 : PDict := .single py!"navMode" IN <| .nil

/-- `NMEA_PAYLOADS_GET_PROP["AIR087"]` (/repo/src/pynmeagps/nmeatypes_get_prop.py:1008-1010). -/
def GET_PROP.AIR087 : PDict := .single py!"status" IN <| .nil

/-- `NMEA_PAYLOADS_GET_PROP["AIR101"]` (/repo/src/pynmeagps/nmeatypes_get_prop.py:1011-1014). -/
def GET_PROP.AIR101 : PDict := .single py!"nmeaMode" IN <| .single py!"reserved" IN <| .nil

/-- `NMEA_PAYLOADS_GET_PROP["AIR105"]` (/repo/src/pynmeagps/nmeatypes_get_prop.py:1015-1017). -/
def GET_PROP.AIR105 : PDict := .single py!"dualBandEnabled" IN <| .nil

/-- `NMEA_PAYLOADS_GET_PROP["AIR391"]` (/repo/src/pynmeagps/nmeatypes_get_prop.py:1018-1020). -/
def GET_PROP.AIR391 : PDict := .single py!"cmdType" IN <| .nil

/-- `NMEA_PAYLOADS_GET_PROP["AIR401"]` (/repo/src/pynmeagps/nmeatypes_get_prop.py:1021-1023). -/
def GET_PROP.AIR401 : PDict := .single py!"mode" IN <| .nil

/-- `NMEA_PAYLOADS_GET_PROP["AIR411"]` (/repo/src/pynmeagps/nmeatypes_get_prop.py:1024-1026). -/
def GET_PROP.AIR411 : PDict := .single py!"enabled" IN <| .nil

/-- `NMEA_PAYLOADS_GET_PROP["AIR421"]` (/repo/src/pynmeagps/nmeatypes_get_prop.py:1027-1029). -/
def GET_PROP.AIR421 : PDict := .single py!"enabled" IN <| .nil

/-- `NMEA_PAYLOADS_GET_PROP["AIR433"]` (/repo/src/pynmeagps/nmeatypes_get_prop.py:1030-1032). -/
def GET_PROP.AIR433 : PDict := .single py!"mode" IN <| .nil

/-- `NMEA_PAYLOADS_GET_PROP["AIR435"]` (/repo/src/pynmeagps/nmeatypes_get_prop.py:1033-1035). -/
def GET_PROP.AIR435 : PDict := .single py!"enabled" IN <| .nil

/-- `NMEA_PAYLOADS_GET_PROP["AIR436"]` (/repo/src/pynmeagps/nmeatypes_get_prop.py:1036-1038). -/
def GET_PROP.AIR436 : PDict := .single py!"enabled" IN <| .nil

/-- `NMEA_PAYLOADS_GET_PROP["AIR437"]` (/repo/src/pynmeagps/nmeatypes_get_prop.py:1039-1039). -/
def GET_PROP.AIR437 : PDict := .single py!"enabled" IN <| .nil

/-- `NMEA_PAYLOADS_GET_PROP["AIR491"]` (/repo/src/pynmeagps/nmeatypes_get_prop.py:1040-1042). -/
def GET_PROP.AIR491 : PDict := .single py!"enabled" IN <| .nil

/-- `NMEA_PAYLOADS_GET_PROP["AIR650"]` (/repo/src/pynmeagps/nmeatypes_get_prop.py:1043-1045). -/
def GET_PROP.AIR650 : PDict := .single py!"second" IN <| .nil

/-- `NMEA_PAYLOADS_GET_PROP["AIR865"]` (/repo/src/pynmeagps/nmeatypes_get_prop.py:1046-1048). -/
def GET_PROP.AIR865 : PDict := .single py!"baudrate" IN <| .nil

/-- `NMEA_PAYLOADS_GET_PROP["AIR867"]` (/repo/src/pynmeagps/nmeatypes_get_prop.py:1049-1051). -/
def GET_PROP.AIR867 : PDict := .single py!"flowControl" IN <| .nil

/-- `NMEA_PAYLOADS_GET_PROP["AIR6011"]` (/repo/src/pynmeagps/nmeatypes_get_prop.py:1052-1055). -/
def GET_PROP.AIR6011 : PDict := .single py!"type" IN <| .single py!"rate" IN <| .nil

/-- `NMEA_PAYLOADS_GET_PROP["AIRSPF"]` (/repo/src/pynmeagps/nmeatypes_get_prop.py:1056-1058). -/
def GET_PROP.AIRSPF : PDict := .single py!"status" IN <| .nil

/-- `NMEA_PAYLOADS_GET_PROP["AIRSPF5"]` (/repo/src/pynmeagps/nmeatypes_get_prop.py:1059-1061). -/
def GET_PROP.AIRSPF5 : PDict := .single py!"status" IN <| .nil

/-- `NMEA_PAYLOADS_GET_PROP["QTMACK"]` (/repo/src/pynmeagps/nmeatypes_get_prop.py:1072-1074). -/
def GET_PROP.QTMACK : PDict := .single py!"status" QS <| .nil

/-- `NMEA_PAYLOADS_GET_PROP["QTMNAK"]` (/repo/src/pynmeagps/nmeatypes_get_prop.py:1075-1078). -/
def GET_PROP.QTMNAK : PDict := .single py!"status" QS <| .single py!"errcode" IN <| .nil

/-- `NMEA_PAYLOADS_GET_PROP["QTMANTENNASTATUS"]` (/repo/src/pynmeagps/nmeatypes_get_prop.py:1079-1083). -/
def GET_PROP.QTMANTENNASTATUS : PDict := .single py!"msgver" IN <| .single py!"antennastatus" IN <| .single py!"antennapowerind" IN <| .nil

/-- `NMEA_PAYLOADS_GET_PROP["QTMCFGAIC"]` (/repo/src/pynmeagps/nmeatypes_get_prop.py:1084-1087). -/
def GET_PROP.QTMCFGAIC : PDict := .single py!"status" QS <| .single py!"state" IN <| .nil

/-- `NMEA_PAYLOADS_GET_PROP["QTMCFGANTDELTA"]` (/repo/src/pynmeagps/nmeatypes_get_prop.py:1088-1093). -/
def GET_PROP.QTMCFGANTDELTA : PDict := .single py!"status" QS <| .single py!"east" DE <| .single py!"north" DE <| .single py!"height" DE <| .nil

/-- `NMEA_PAYLOADS_GET_PROP["QTMCFGANTINF"]` (/repo/src/pynmeagps/nmeatypes_get_prop.py:1094-1099). -/
def GET_PROP.QTMCFGANTINF : PDict := .single py!"status" QS <| .single py!"antennadesc" ST <| .single py!"antennasetupid" IN <| .single py!"antennasn" ST <| .nil

/-- `NMEA_PAYLOADS_GET_PROP["QTMCFGBLD"]` (/repo/src/pynmeagps/nmeatypes_get_prop.py:1100-1103). -/
def GET_PROP.QTMCFGBLD : PDict := .single py!"status" QS <| .single py!"distance" DE <| .nil

/-- `NMEA_PAYLOADS_GET_PROP["QTMCFGCNST"]` (/repo/src/pynmeagps/nmeatypes_get_prop.py:1104-1112). -/
def GET_PROP.QTMCFGCNST : PDict := .single py!"status" QS <| .single py!"gps" IN <| .single py!"glonass" IN <| .single py!"galileo" IN <| .single py!"beidou" IN <| .single py!"qzss" IN <| .single py!"navic" IN <| .nil

/-- `NMEA_PAYLOADS_GET_PROP["QTMCFGDR"]` (/repo/src/pynmeagps/nmeatypes_get_prop.py:1113-1116). -/
def GET_PROP.QTMCFGDR : PDict := .single py!"status" QS <| .single py!"drstate" IN <| .nil

/-- `NMEA_PAYLOADS_GET_PROP["QTMCFGDRHOT"]` (/repo/src/pynmeagps/nmeatypes_get_prop.py:1117-1117). -/
def GET_PROP.QTMCFGDRHOT : PDict := .single py!"status" QS <| .single py!"mode" IN <| .nil

/-- `NMEA_PAYLOADS_GET_PROP["QTMCFGDRRTD"]` (/repo/src/pynmeagps/nmeatypes_get_prop.py:1118-1118). -/
def GET_PROP.QTMCFGDRRTD : PDict := .single py!"status" QS <| .single py!"time" IN <| .single py!"distance" IN <| .nil

/-- `NMEA_PAYLOADS_GET_PROP["QTMCFGEINSMSG"]` (/repo/src/pynmeagps/nmeatypes_get_prop.py:1119-1125). -/
def GET_PROP.QTMCFGEINSMSG : PDict := .single py!"type" IN <| .single py!"ins_enabled" IN <| .single py!"imu_enabled" IN <| .single py!"gps_enabled" IN <| .single py!"rate" IN <| .nil

/-- `NMEA_PAYLOADS_GET_PROP["QTMCFGELETHD"]` (/repo/src/pynmeagps/nmeatypes_get_prop.py:1126-1129). -/
def GET_PROP.QTMCFGELETHD : PDict := .single py!"status" QS <| .single py!"elevation" DE <| .nil

/-- `NMEA_PAYLOADS_GET_PROP["QTMCFGFIXRATE"]` (/repo/src/pynmeagps/nmeatypes_get_prop.py:1130-1133). -/
def GET_PROP.QTMCFGFIXRATE : PDict := .single py!"status" QS <| .single py!"fixinterval" IN <| .nil

/-- `NMEA_PAYLOADS_GET_PROP["QTMCFGGEOFENCE"]` (/repo/src/pynmeagps/nmeatypes_get_prop.py:1134-1143). -/
def GET_PROP.QTMCFGGEOFENCE : PDict := .single py!"status" QS <| .single py!"geofenceindex" IN <| .single py!"geofencemode" IN <| .single py!"reserved" IN <| .single py!"shape" IN <| .single py!"lat0" DE <| .single py!"lon0" DE <| .single py!"radiuslat1" DE <| .nil

/-- `NMEA_PAYLOADS_GET_PROP["QTMCFGGEOFENCE_DIS"]` (/repo/src/pynmeagps/nmeatypes_get_prop.py:1144-1148). -/
def GET_PROP.QTMCFGGEOFENCE_DIS : PDict := .single py!"status" QS <| .single py!"geofenceindex" IN <| .single py!"geofencemode" IN <| .nil

/-- `NMEA_PAYLOADS_GET_PROP["QTMCFGGEOFENCE_POLY"]` (/repo/src/pynmeagps/nmeatypes_get_prop.py:1149-1163). -/
def GET_PROP.QTMCFGGEOFENCE_POLY : PDict := .single py!"status" QS <| .single py!"geofenceindex" IN <| .single py!"geofencemode" IN <| .single py!"reserved" IN <| .single py!"shape" IN <| .single py!"lat0" DE <| .single py!"lon0" DE <| .single py!"radiuslat1" DE <| .single py!"lon1" DE <| .single py!"lat2" DE <| .single py!"lon2" DE <| .single py!"lat3" DE <| .single py!"lon3" DE <| .nil

/-- `NMEA_PAYLOADS_GET_PROP["QTMCFGGEOSEP"]` (/repo/src/pynmeagps/nmeatypes_get_prop.py:1164-1168). -/
def GET_PROP.QTMCFGGEOSEP : PDict := .single py!"status" QS <| .single py!"mode" IN <| .single py!"geosep" DE <| .nil

/-- `NMEA_PAYLOADS_GET_PROP["QTMCFGIMUINT"]` (/repo/src/pynmeagps/nmeatypes_get_prop.py:1169-1175). -/
def GET_PROP.QTMCFGIMUINT : PDict := .single py!"status" QS <| .single py!"index" IN <| .single py!"mode" IN <| .single py!"reserved" IN <| .single py!"actLevel" IN <| .nil

/-- `NMEA_PAYLOADS_GET_PROP["QTMCFGIMUTC"]` (/repo/src/pynmeagps/nmeatypes_get_prop.py:1176-1179). -/
def GET_PROP.QTMCFGIMUTC : PDict := .single py!"status" QS <| .single py!"imustatus" IN <| .nil

/-- `NMEA_PAYLOADS_GET_PROP["QTMCFGLA"]` (/repo/src/pynmeagps/nmeatypes_get_prop.py:1180-1186). -/
def GET_PROP.QTMCFGLA : PDict := .single py!"status" QS <| .single py!"type" IN <| .single py!"laX" DE <| .single py!"laY" DE <| .single py!"laZ" DE <| .nil

/-- `NMEA_PAYLOADS_GET_PROP["QTMCFGLAM"]` (/repo/src/pynmeagps/nmeatypes_get_prop.py:1187-1190). -/
def GET_PROP.QTMCFGLAM : PDict := .single py!"status" QS <| .single py!"mode" IN <| .nil

/-- `NMEA_PAYLOADS_GET_PROP["QTMCFGMSGRATE"]` (/repo/src/pynmeagps/nmeatypes_get_prop.py:1191-1196). -/
def GET_PROP.QTMCFGMSGRATE : PDict := .single py!"status" QS <| .single py!"msgname" ST <| .single py!"rate" IN <| .single py!"msgver" IN <| .nil

/-- `NMEA_PAYLOADS_GET_PROP["QTMCFGMSGRATE_NOVER"]` (/repo/src/pynmeagps/nmeatypes_get_prop.py:1197-1201). -/
def GET_PROP.QTMCFGMSGRATE_NOVER : PDict := .single py!"status" QS <| .single py!"msgname" ST <| .single py!"rate" IN <| .nil

/-- `NMEA_PAYLOADS_GET_PROP["QTMCFGMSGRATE_INTF"]` (/repo/src/pynmeagps/nmeatypes_get_prop.py:1202-1209). -/
def GET_PROP.QTMCFGMSGRATE_INTF : PDict := .single py!"status" QS <| .single py!"porttype" IN <| .single py!"portid" IN <| .single py!"msgname" ST <| .single py!"rate" IN <| .single py!"msgver" IN <| .nil

/-- `NMEA_PAYLOADS_GET_PROP["QTMCFGMSGRATE_INTFNOVER"]` (/repo/src/pynmeagps/nmeatypes_get_prop.py:1210-1216). -/
def GET_PROP.QTMCFGMSGRATE_INTFNOVER : PDict := .single py!"status" QS <| .single py!"porttype" IN <| .single py!"portid" IN <| .single py!"msgname" ST <| .single py!"rate" IN <| .nil

/-- `NMEA_PAYLOADS_GET_PROP["QTMCFGNAVMODE"]` (/repo/src/pynmeagps/nmeatypes_get_prop.py:1217-1220). -/
def GET_PROP.QTMCFGNAVMODE : PDict := .single py!"status" QS <| .single py!"mode" IN <| .nil

/-- `NMEA_PAYLOADS_GET_PROP["QTMCFGNMEADP"]` (/repo/src/pynmeagps/nmeatypes_get_prop.py:1221-1229). -/
def GET_PROP.QTMCFGNMEADP : PDict := .single py!"status" QS <| .single py!"utcdp" IN <| .single py!"posdp" IN <| .single py!"altdp" IN <| .single py!"dopdp" IN <| .single py!"spddp" IN <| .single py!"cogdp" IN <| .nil

/-- `NMEA_PAYLOADS_GET_PROP["QTMCFGNMEATID"]` (/repo/src/pynmeagps/nmeatypes_get_prop.py:1230-1234). -/
def GET_PROP.QTMCFGNMEATID : PDict := .single py!"status" QS <| .single py!"mainTalker" ST <| .single py!"gsvTalker" ST <| .nil

/-- `NMEA_PAYLOADS_GET_PROP["QTMCFGODO"]` (/repo/src/pynmeagps/nmeatypes_get_prop.py:1235-1239). -/
def GET_PROP.QTMCFGODO : PDict := .single py!"status" QS <| .single py!"state" IN <| .single py!"initdist" DE <| .nil

/-- `NMEA_PAYLOADS_GET_PROP["QTMCFGPPS"]` (/repo/src/pynmeagps/nmeatypes_get_prop.py:1240-1248). -/
def GET_PROP.QTMCFGPPS : PDict := .single py!"status" QS <| .single py!"ppsindex" IN <| .single py!"enable" IN <| .single py!"duration" IN <| .single py!"ppsmode" IN <| .single py!"polarity" IN <| .single py!"reserved" IN <| .nil

/-- `NMEA_PAYLOADS_GET_PROP["QTMCFGPROT"]` (/repo/src/pynmeagps/nmeatypes_get_prop.py:1249-1255). -/
def GET_PROP.QTMCFGPROT : PDict := .single py!"status" QS <| .single py!"porttype" IN <| .single py!"portid" IN <| .single py!"inputprot" ST <| .single py!"outputprot" ST <| .nil

/-- `NMEA_PAYLOADS_GET_PROP["QTMCFGRCVRMODE"]` (/repo/src/pynmeagps/nmeatypes_get_prop.py:1256-1259). -/
def GET_PROP.QTMCFGRCVRMODE : PDict := .single py!"status" QS <| .single py!"rcvrmode" IN <| .nil

/-- `NMEA_PAYLOADS_GET_PROP["QTMCFGRSID"]` (/repo/src/pynmeagps/nmeatypes_get_prop.py:1260-1263). -/
def GET_PROP.QTMCFGRSID : PDict := .single py!"status" QS <| .single py!"rsid" IN <| .nil

/-- `NMEA_PAYLOADS_GET_PROP["QTMCFGRTCM"]` (/repo/src/pynmeagps/nmeatypes_get_prop.py:1264-1273). -/
def GET_PROP.QTMCFGRTCM : PDict := .single py!"status" QS <| .single py!"msmtype" IN <| .single py!"msmmode" IN <| .single py!"msmelevthd" DE <| .single py!"reserved1" ST <| .single py!"reserved2" ST <| .single py!"ephmode" IN <| .single py!"ephinterval" IN <| .nil

/-- `NMEA_PAYLOADS_GET_PROP["QTMCFGRTK"]` (/repo/src/pynmeagps/nmeatypes_get_prop.py:1274-1278). -/
def GET_PROP.QTMCFGRTK : PDict := .single py!"status" QS <| .single py!"diffmode" IN <| .single py!"relmode" IN <| .nil

/-- `NMEA_PAYLOADS_GET_PROP["QTMCFGRTKSRCTYPE"]` (/repo/src/pynmeagps/nmeatypes_get_prop.py:1279-1282). -/
def GET_PROP.QTMCFGRTKSRCTYPE : PDict := .single py!"status" QS <| .single py!"srctype" IN <| .nil

/-- `NMEA_PAYLOADS_GET_PROP["QTMMCFGRTKSRCTYPE"]` (/repo/src/pynmeagps/nmeatypes_get_prop.py:1283-1286). -/
def GET_PROP.QTMMCFGRTKSRCTYPE : PDict := .single py!"status" QS <| .single py!"srctype" IN <| .nil

/-- `NMEA_PAYLOADS_GET_PROP["QTMCFGSAT"]` (/repo/src/pynmeagps/nmeatypes_get_prop.py:1287-1293). -/
def GET_PROP.QTMCFGSAT : PDict := .single py!"status" QS <| .single py!"systemid" IN <| .single py!"signalid" ST <| .single py!"masklow" ST <| .single py!"maskhigh" ST <| .nil

/-- `NMEA_PAYLOADS_GET_PROP["QTMCFGSAT_LOW"]` (/repo/src/pynmeagps/nmeatypes_get_prop.py:1294-1299). -/
def GET_PROP.QTMCFGSAT_LOW : PDict := .single py!"status" QS <| .single py!"systemid" IN <| .single py!"signalid" ST <| .single py!"masklow" ST <| .nil

/-- `NMEA_PAYLOADS_GET_PROP["QTMCFGSBAS"]` (/repo/src/pynmeagps/nmeatypes_get_prop.py:1300-1303). -/
def GET_PROP.QTMCFGSBAS : PDict := .single py!"status" QS <| .single py!"value" HX <| .nil

/-- `NMEA_PAYLOADS_GET_PROP["QTMCFGSIGGRP"]` (/repo/src/pynmeagps/nmeatypes_get_prop.py:1304-1307). -/
def GET_PROP.QTMCFGSIGGRP : PDict := .single py!"status" QS <| .single py!"siggrpnum" IN <| .nil

/-- `NMEA_PAYLOADS_GET_PROP["QTMCFGSIGNAL"]` (/repo/src/pynmeagps/nmeatypes_get_prop.py:1308-1316). -/
def GET_PROP.QTMCFGSIGNAL : PDict := .single py!"status" QS <| .single py!"gpssig" ST <| .single py!"glonasssig" ST <| .single py!"galileosig" ST <| .single py!"beidousig" ST <| .single py!"qzsssig" ST <| .single py!"navicsig" ST <| .nil

/-- `NMEA_PAYLOADS_GET_PROP["QTMCFGSIGNAL2"]` (/repo/src/pynmeagps/nmeatypes_get_prop.py:1317-1325). -/
def GET_PROP.QTMCFGSIGNAL2 : PDict := .single py!"status" QS <| .single py!"gpssig" ST <| .single py!"glonasssig" ST <| .single py!"galileosig" ST <| .single py!"beidousig" ST <| .single py!"qzsssig" ST <| .single py!"navicsig" ST <| .nil

/-- `NMEA_PAYLOADS_GET_PROP["QTMCFGSTATICHOLD"]` (/repo/src/pynmeagps/nmeatypes_get_prop.py:1326-1329). -/
def GET_PROP.QTMCFGSTATICHOLD : PDict := .single py!"status" QS <| .single py!"shstate" IN <| .nil

/-- `NMEA_PAYLOADS_GET_PROP["QTMCFGSVIN"]` (/repo/src/pynmeagps/nmeatypes_get_prop.py:1330-1338). -/
def GET_PROP.QTMCFGSVIN : PDict := .single py!"status" QS <| .single py!"svinmode" IN <| .single py!"cfgcnt" IN <| .single py!"acclimit" DE <| .single py!"ecefx" DE <| .single py!"ecefy" DE <| .single py!"ecefz" DE <| .nil

/-- `NMEA_PAYLOADS_GET_PROP["QTMCFGUART"]` (/repo/src/pynmeagps/nmeatypes_get_prop.py:1339-1347). -/
def GET_PROP.QTMCFGUART : PDict := .single py!"status" QS <| .single py!"portid" IN <| .single py!"baudrate" IN <| .single py!"databit" IN <| .single py!"parity" IN <| .single py!"stopbit" IN <| .single py!"flowctrl" IN <| .nil

/-- `NMEA_PAYLOADS_GET_PROP["QTMCFGVEHMOT"]` (/repo/src/pynmeagps/nmeatypes_get_prop.py:1348-1352). -/
def GET_PROP.QTMCFGVEHMOT : PDict := .single py!"status" QS <| .single py!"mode" IN <| .single py!"vehtype" IN <| .nil

/-- `NMEA_PAYLOADS_GET_PROP["QTMCFGWN"]` (/repo/src/pynmeagps/nmeatypes_get_prop.py:1353-1356). -/
def GET_PROP.QTMCFGWN : PDict := .single py!"status" QS <| .single py!"weekno" IN <| .nil

/-- `NMEA_PAYLOADS_GET_PROP["QTMDEBUGON"]` (/repo/src/pynmeagps/nmeatypes_get_prop.py:1357-1357). -/
def GET_PROP.QTMDEBUGON : PDict := .single py!"status" QS <| .nil

/-- `NMEA_PAYLOADS_GET_PROP["QTMDEBUGOFF"]` (/repo/src/pynmeagps/nmeatypes_get_prop.py:1358-1358). -/
def GET_PROP.QTMDEBUGOFF : PDict := .single py!"status" QS <| .nil

/-- `NMEA_PAYLOADS_GET_PROP["QTMDOP"]` (/repo/src/pynmeagps/nmeatypes_get_prop.py:1359-1369). -/
def GET_PROP.QTMDOP : PDict := .single py!"msgver" IN <| .single py!"tow" IN <| .single py!"gdop" DE <| .single py!"pdop" DE <| .single py!"tdop" DE <| .single py!"vdop" DE <| .single py!"hdop" DE <| .single py!"ndop" DE <| .single py!"edop" DE <| .nil

/-- `NMEA_PAYLOADS_GET_PROP["QTMDRCAL"]` (/repo/src/pynmeagps/nmeatypes_get_prop.py:1370-1374). -/
def GET_PROP.QTMDRCAL : PDict := .single py!"msgver" IN <| .single py!"calstate" IN <| .single py!"navtype" IN <| .nil

/-- `NMEA_PAYLOADS_GET_PROP["QTMDRCLR"]` (/repo/src/pynmeagps/nmeatypes_get_prop.py:1375-1375). -/
def GET_PROP.QTMDRCLR : PDict := .single py!"status" QS <| .nil

/-- `NMEA_PAYLOADS_GET_PROP["QTMDRPVA"]` (/repo/src/pynmeagps/nmeatypes_get_prop.py:1376-1392). -/
def GET_PROP.QTMDRPVA : PDict := .single py!"msgver" IN <| .single py!"timestamp" IN <| .single py!"time" DE <| .single py!"solType" IN <| .single py!"lat" DE <| .single py!"lon" DE <| .single py!"alt" DE <| .single py!"sep" DE <| .single py!"velN" DE <| .single py!"velE" DE <| .single py!"velD" DE <| .single py!"speed" DE <| .single py!"roll" DE <| .single py!"pitch" DE <| .single py!"heading" DE <| .nil

/-- `NMEA_PAYLOADS_GET_PROP["QTMDRSAVE"]` (/repo/src/pynmeagps/nmeatypes_get_prop.py:1393-1393). -/
def GET_PROP.QTMDRSAVE : PDict := .single py!"status" QS <| .nil

/-- `NMEA_PAYLOADS_GET_PROP["QTMEOE"]` (/repo/src/pynmeagps/nmeatypes_get_prop.py:1394-1400). -/
def GET_PROP.QTMEOE : PDict := .single py!"msgver" IN <| .single py!"utc" DE <| .single py!"Date" IN <| .single py!"WN" IN <| .single py!"TOW" IN <| .nil

/-- `NMEA_PAYLOADS_GET_PROP["QTMEPE"]` (/repo/src/pynmeagps/nmeatypes_get_prop.py:1401-1408). -/
def GET_PROP.QTMEPE : PDict := .single py!"msgver" IN <| .single py!"epenorth" DE <| .single py!"epeeast" DE <| .single py!"epedown" DE <| .single py!"epe2d" DE <| .single py!"epe3d" DE <| .nil

/-- `NMEA_PAYLOADS_GET_PROP["QTMGEOFENCESTATUS"]` (/repo/src/pynmeagps/nmeatypes_get_prop.py:1409-1409). -/
def GET_PROP.QTMGEOFENCESTATUS : PDict := .single py!"msgver" IN <| .single py!"time" TM <| .group py!"group" (.fixed 4) (.single py!"staten" IN <| .nil) <| .nil

/-- `NMEA_PAYLOADS_GET_PROP["QTMGETUTC"]` (/repo/src/pynmeagps/nmeatypes_get_prop.py:1410-1421). -/
def GET_PROP.QTMGETUTC : PDict := .single py!"status" QS <| .single py!"year" IN <| .single py!"month" IN <| .single py!"day" IN <| .single py!"hour" IN <| .single py!"minute" IN <| .single py!"second" IN <| .single py!"millisecond" IN <| .single py!"reserved" ST <| .single py!"leapsecond" IN <| .nil

/-- `NMEA_PAYLOADS_GET_PROP["QTMGNSSSTART"]` (/repo/src/pynmeagps/nmeatypes_get_prop.py:1422-1422). -/
def GET_PROP.QTMGNSSSTART : PDict := .single py!"status" QS <| .nil

/-- `NMEA_PAYLOADS_GET_PROP["QTMGNSSSTOP"]` (/repo/src/pynmeagps/nmeatypes_get_prop.py:1423-1423). -/
def GET_PROP.QTMGNSSSTOP : PDict := .single py!"status" QS <| .nil

/-- `NMEA_PAYLOADS_GET_PROP["QTMGPS"]` (/repo/src/pynmeagps/nmeatypes_get_prop.py:1424-1437). -/
def GET_PROP.QTMGPS : PDict := .single py!"timestamp" IN <| .single py!"tow" IN <| .single py!"lat" DE <| .single py!"lon" DE <| .single py!"alt" DE <| .single py!"speed" DE <| .single py!"heading" DE <| .single py!"accuracy" DE <| .single py!"HDOP" DE <| .single py!"PDOP" DE <| .single py!"numSv" IN <| .single py!"fixMode" IN <| .nil

/-- `NMEA_PAYLOADS_GET_PROP["QTMJAMMINGSTATUS"]` (/repo/src/pynmeagps/nmeatypes_get_prop.py:1438-1441). -/
def GET_PROP.QTMJAMMINGSTATUS : PDict := .single py!"msgver" IN <| .single py!"jammingstatus" IN <| .nil

/-- `NMEA_PAYLOADS_GET_PROP["QTMIMU"]` (/repo/src/pynmeagps/nmeatypes_get_prop.py:1442-1452). -/
def GET_PROP.QTMIMU : PDict := .single py!"timestamp" IN <| .single py!"accX" DE <| .single py!"accY" DE <| .single py!"accZ" DE <| .single py!"angrateX" DE <| .single py!"angrateY" DE <| .single py!"angrateZ" DE <| .single py!"wheeltick" IN <| .single py!"last_tick_timestamp" IN <| .nil

/-- `NMEA_PAYLOADS_GET_PROP["QTMIMUTYPE"]` (/repo/src/pynmeagps/nmeatypes_get_prop.py:1453-1456). -/
def GET_PROP.QTMIMUTYPE : PDict := .single py!"msgver" IN <| .single py!"imustatus" IN <| .nil

/-- `NMEA_PAYLOADS_GET_PROP["QTMINS"]` (/repo/src/pynmeagps/nmeatypes_get_prop.py:1457-1469). -/
def GET_PROP.QTMINS : PDict := .single py!"timestamp" IN <| .single py!"soltype" IN <| .single py!"lat" DE <| .single py!"lon" DE <| .single py!"height" DE <| .single py!"velN" DE <| .single py!"velE" DE <| .single py!"velD" DE <| .single py!"roll" DE <| .single py!"pitch" DE <| .single py!"yaw" DE <| .nil

/-- `NMEA_PAYLOADS_GET_PROP["QTMLS"]` (/repo/src/pynmeagps/nmeatypes_get_prop.py:1470-1482). -/
def GET_PROP.QTMLS : PDict := .single py!"msgver" IN <| .single py!"tow" IN <| .single py!"lsRef" HX <| .single py!"wno" IN <| .single py!"leapsecond" IN <| .single py!"flag" IN <| .single py!"lsfRef" HX <| .single py!"reserved" ST <| .single py!"wnlsf" IN <| .single py!"dn" IN <| .single py!"lsf" IN <| .nil

/-- `NMEA_PAYLOADS_GET_PROP["QTMNAV"]` (/repo/src/pynmeagps/nmeatypes_get_prop.py:1483-1527). -/
def GET_PROP.QTMNAV : PDict := .single py!"msgver" IN <| .single py!"timestatus" IN <| .single py!"timeref" IN <| .single py!"utc" DE <| .single py!"date" IN <| .single py!"tow" IN <| .single py!"wn" IN <| .single py!"leapsec" IN <| .single py!"reserved1" ST <| .single py!"reserved2" ST <| .single py!"soltype" IN <| .single py!"reserved3" IN <| .single py!"lat" DE <| .single py!"lon" DE <| .single py!"alt" DE <| .single py!"sep" DE <| .single py!"reserved4" ST <| .single py!"reserved5" ST <| .single py!"latstd" DE <| .single py!"lonstd" DE <| .single py!"altstd" DE <| .single py!"reserved6" ST <| .single py!"reserved7" ST <| .single py!"diffid" DE <| .single py!"diffAge" DE <| .single py!"reserved8" ST <| .single py!"siv" IN <| .single py!"sip" IN <| .single py!"reserved9" ST <| .single py!"reserved10" ST <| .single py!"reserved11" ST <| .single py!"reserved12" ST <| .single py!"reserved13" ST <| .single py!"reserved14" ST <| .single py!"hvel" DE <| .single py!"vvel" DE <| .single py!"hvelstd" DE <| .single py!"vvelstd" DE <| .single py!"reserved15" ST <| .single py!"reserved16" ST <| .single py!"cog" DE <| .single py!"reserved17" ST <| .single py!"reserved18" ST <| .nil

/-- `NMEA_PAYLOADS_GET_PROP["QTMODO"]` (/repo/src/pynmeagps/nmeatypes_get_prop.py:1528-1533). -/
def GET_PROP.QTMODO : PDict := .single py!"msgver" IN <| .single py!"time" TM <| .single py!"state" IN <| .single py!"dist" DE <| .nil

/-- `NMEA_PAYLOADS_GET_PROP["QTMPL"]` (/repo/src/pynmeagps/nmeatypes_get_prop.py:1534-1549). -/
def GET_PROP.QTMPL : PDict := .single py!"msgver" IN <| .single py!"tow" IN <| .single py!"pul" DE <| .single py!"reserved1" IN <| .single py!"reserved2" IN <| .single py!"plposn" DE <| .single py!"plpose" DE <| .single py!"plposd" DE <| .single py!"plveln" DE <| .single py!"plvele" DE <| .single py!"plveld" DE <| .single py!"reserved3" IN <| .single py!"reserved4" IN <| .single py!"pltime" IN <| .nil

/-- `NMEA_PAYLOADS_GET_PROP["QTMPVT"]` (/repo/src/pynmeagps/nmeatypes_get_prop.py:1550-1570). -/
def GET_PROP.QTMPVT : PDict := .single py!"msgver" IN <| .single py!"tow" IN <| .single py!"date" ST <| .single py!"time" TM <| .single py!"reserved" IN <| .single py!"fixtype" IN <| .single py!"numsv" IN <| .single py!"leaps" IN <| .single py!"lat" DE <| .single py!"lon" DE <| .single py!"alt" DE <| .single py!"sep" DE <| .single py!"veln" DE <| .single py!"vele" DE <| .single py!"veld" DE <| .single py!"spd" DE <| .single py!"hdg" DE <| .single py!"hdop" DE <| .single py!"pdop" DE <| .nil

/-- `NMEA_PAYLOADS_GET_PROP["QTMQVER"]` (/repo/src/pynmeagps/nmeatypes_get_prop.py:1571-1578). -/
def GET_PROP.QTMQVER : PDict := .single py!"status" QS <| .single py!"msgver" IN <| .single py!"description" ST <| .single py!"version" ST <| .single py!"buildDate" ST <| .single py!"buildTime" ST <| .nil

/-- `NMEA_PAYLOADS_GET_PROP["QTMRESETODO"]` (/repo/src/pynmeagps/nmeatypes_get_prop.py:1579-1579). -/
def GET_PROP.QTMRESETODO : PDict := .single py!"status" QS <| .nil

/-- `NMEA_PAYLOADS_GET_PROP["QTMRESTOREPAR"]` (/repo/src/pynmeagps/nmeatypes_get_prop.py:1580-1580). -/
def GET_PROP.QTMRESTOREPAR : PDict := .single py!"status" QS <| .nil

/-- `NMEA_PAYLOADS_GET_PROP["QTMSAVEPAR"]` (/repo/src/pynmeagps/nmeatypes_get_prop.py:1581-1581). -/
def GET_PROP.QTMSAVEPAR : PDict := .single py!"status" QS <| .nil

/-- `NMEA_PAYLOADS_GET_PROP["QTMSENMSG"]` (/repo/src/pynmeagps/nmeatypes_get_prop.py:1582-1591). -/
def GET_PROP.QTMSENMSG : PDict := .single py!"msgver" IN <| .single py!"timestamp" IN <| .group py!"group" .indet (.single py!"sensor_info" DE <| .nil) <| .nil

/-- `NMEA_PAYLOADS_GET_PROP["QTMSN"]` (/repo/src/pynmeagps/nmeatypes_get_prop.py:1592-1597). -/
def GET_PROP.QTMSN : PDict := .single py!"status" QS <| .single py!"snid" IN <| .single py!"length" IN <| .single py!"serialno" ST <| .nil

/-- `NMEA_PAYLOADS_GET_PROP["QTMSN_ALT"]` (/repo/src/pynmeagps/nmeatypes_get_prop.py:1598-1603). -/
def GET_PROP.QTMSN_ALT : PDict := .single py!"snid" IN <| .single py!"length" IN <| .single py!"status" QS <| .single py!"serialno" ST <| .nil

/-- `NMEA_PAYLOADS_GET_PROP["QTMSTD"]` (/repo/src/pynmeagps/nmeatypes_get_prop.py:1604-1620). -/
def GET_PROP.QTMSTD : PDict := .single py!"reserved" ST <| .single py!"utc" TM <| .single py!"wno" IN <| .single py!"tow" IN <| .single py!"stdLat" ST <| .single py!"stdLon" ST <| .single py!"stdAlt" ST <| .single py!"stdSep" ST <| .single py!"stdVelN" ST <| .single py!"stdVelE" ST <| .single py!"stdVelD" ST <| .single py!"stdSpd" ST <| .single py!"stdRoll" ST <| .single py!"stdPitch" ST <| .single py!"stdHeading" ST <| .nil

/-- `NMEA_PAYLOADS_GET_PROP["QTMSVINSTATUS"]` (/repo/src/pynmeagps/nmeatypes_get_prop.py:1621-1633). -/
def GET_PROP.QTMSVINSTATUS : PDict := .single py!"msgver" IN <| .single py!"tow" IN <| .single py!"valid" IN <| .single py!"reserved0" IN <| .single py!"reserved1" IN <| .single py!"obs" IN <| .single py!"cfgdur" IN <| .single py!"meanx" DE <| .single py!"meany" DE <| .single py!"meanz" DE <| .single py!"meanacc" DE <| .nil

/-- `NMEA_PAYLOADS_GET_PROP["QTMTAR"]` (/repo/src/pynmeagps/nmeatypes_get_prop.py:1634-1647). -/
def GET_PROP.QTMTAR : PDict := .single py!"msgver" IN <| .single py!"time" DE <| .single py!"quality" DE <| .single py!"res" DE <| .single py!"length" DE <| .single py!"pitch" DE <| .single py!"roll" DE <| .single py!"heading" DE <| .single py!"accpitch" DE <| .single py!"accroll" DE <| .single py!"accheading" DE <| .single py!"usedsv" IN <| .nil

/-- `NMEA_PAYLOADS_GET_PROP["QTMTXT"]` (/repo/src/pynmeagps/nmeatypes_get_prop.py:1648-1654). -/
def GET_PROP.QTMTXT : PDict := .single py!"msgver" IN <| .single py!"totalsennum" IN <| .single py!"sennum" IN <| .single py!"textid" IN <| .single py!"text" ST <| .nil

/-- `NMEA_PAYLOADS_GET_PROP["QTMUNIQID"]` (/repo/src/pynmeagps/nmeatypes_get_prop.py:1655-1659). -/
def GET_PROP.QTMUNIQID : PDict := .single py!"status" QS <| .single py!"length" IN <| .single py!"ID" HX <| .nil

/-- `NMEA_PAYLOADS_GET_PROP["QTMVEHATT"]` (/repo/src/pynmeagps/nmeatypes_get_prop.py:1660-1669). -/
def GET_PROP.QTMVEHATT : PDict := .single py!"msgver" IN <| .single py!"timestamp" IN <| .single py!"roll" DE <| .single py!"pitch" DE <| .single py!"heading" DE <| .single py!"acc_Roll" DE <| .single py!"acc_Pitch" DE <| .single py!"acc_Heading" DE <| .nil

/-- `NMEA_PAYLOADS_GET_PROP["QTMVEHMOT"]` (/repo/src/pynmeagps/nmeatypes_get_prop.py:1670-1678). -/
def GET_PROP.QTMVEHMOT : PDict := .single py!"msgver" IN <| .group py!"group" .indet (.single py!"vehicle_info" DE <| .nil) <| .nil

/-- `NMEA_PAYLOADS_GET_PROP["QTMVEHMSG"]` (/repo/src/pynmeagps/nmeatypes_get_prop.py:1679-1688). -/
def GET_PROP.QTMVEHMSG : PDict := .single py!"msgver" IN <| .single py!"timestamp" IN <| .group py!"group" .indet (.single py!"vehicle_info" DE <| .nil) <| .nil

/-- `NMEA_PAYLOADS_GET_PROP["QTMVEL"]` (/repo/src/pynmeagps/nmeatypes_get_prop.py:1689-1701). -/
def GET_PROP.QTMVEL : PDict := .single py!"msgver" IN <| .single py!"time" TM <| .single py!"veln" DE <| .single py!"vele" DE <| .single py!"veld" DE <| .single py!"gndspd" DE <| .single py!"spd" DE <| .single py!"hdg" DE <| .single py!"gndspdacc" DE <| .single py!"spdacc" DE <| .single py!"hdgacc" DE <| .nil

/-- `NMEA_PAYLOADS_GET_PROP["QTMVER"]` (/repo/src/pynmeagps/nmeatypes_get_prop.py:1702-1708). -/
def GET_PROP.QTMVER : PDict := .single py!"msgver" IN <| .single py!"vername" ST <| .single py!"verstr" ST <| .single py!"builddate" ST <| .single py!"buildtime" ST <| .nil

/-- `NMEA_PAYLOADS_GET_PROP["QTMVERNO"]` (/repo/src/pynmeagps/nmeatypes_get_prop.py:1709-1713). -/
def GET_PROP.QTMVERNO : PDict := .single py!"verstr" ST <| .single py!"builddate" ST <| .single py!"buildtime" ST <| .nil

/-- `NMEA_PAYLOADS_GET_PROP["STMPPSDATA"]` (/repo/src/pynmeagps/nmeatypes_get_prop.py:1718-1747). -/
def GET_PROP.STMPPSDATA : PDict := .single py!"onoff" IN <| .single py!"ppsvalid" IN <| .single py!"syncvalid" IN <| .single py!"outmode" IN <| .single py!"reftime" IN <| .single py!"refconst" IN <| .single py!"pulseduration" DE <| .single py!"pulsedelay" DE <| .single py!"gpsdelay" DE <| .single py!"reserved1" ST <| .single py!"bdsdelay" DE <| .single py!"galileodelay" DE <| .single py!"invertedpolarity" IN <| .single py!"fixcond" IN <| .single py!"satth" DE <| .single py!"elevmask" DE <| .single py!"constmask" IN <| .single py!"refsec" DE <| .single py!"fixstatus" DE <| .single py!"usedsats" DE <| .single py!"gpsutcdeltas" DE <| .single py!"gpsutcdeltans" DE <| .single py!"reserved2" ST <| .single py!"galileoutcdeltans" DE <| .single py!"quantizationerror" DE <| .single py!"ppsclockfreq" DE <| .single py!"tcxoclockfreq" DE <| .single py!"bdsutcdeltatimes" DE <| .nil

/-- `NMEA_PAYLOADS_GET_PROP["STMCPU"]` (/repo/src/pynmeagps/nmeatypes_get_prop.py:1748-1752). -/
def GET_PROP.STMCPU : PDict := .single py!"cpuusage" DE <| .single py!"pllonoff" IN <| .single py!"cpuspeed" HX <| .nil

/-- `NMEA_PAYLOADS_GET_PROP["STMTG"]` (/repo/src/pynmeagps/nmeatypes_get_prop.py:1753-1774). -/
def GET_PROP.STMTG : PDict := .single py!"wno" IN <| .single py!"tow" DE <| .single py!"reserved1" ST <| .single py!"cputime" DE <| .single py!"timevalid" IN <| .single py!"nco" DE <| .single py!"configstatus" HX <| .single py!"constmask" IN <| .single py!"timebestsattype" IN <| .single py!"timemastersattype" IN <| .single py!"timemasterwn" IN <| .single py!"timemastertow" DE <| .single py!"timemastervalidity" DE <| .single py!"tgauxflags" IN <| .single py!"clockbias" DE <| .single py!"mfreqconfigmask" DE <| .single py!"leapsec" IN <| .single py!"ppsedge" DE <| .single py!"mtbms" DE <| .single py!"mtbtimestamp" DE <| .nil

/-- `NMEA_PAYLOADS_GET_PROP["STMTS"]` (/repo/src/pynmeagps/nmeatypes_get_prop.py:1775-1789). -/
def GET_PROP.STMTS : PDict := .single py!"dspdat" IN <| .single py!"satid" IN <| .single py!"psr" DE <| .single py!"freq" DE <| .single py!"cp" DE <| .single py!"dspflags" IN <| .single py!"satcn0" DE <| .single py!"ttim" DE <| .single py!"codenoise" DE <| .single py!"phasenoise" DE <| .single py!"cycleslipcnt" DE <| .single py!"reserved1" ST <| .single py!"elev" DE <| .nil

/-- `NMEA_PAYLOADS_GET_PROP["STMSBAS"]` (/repo/src/pynmeagps/nmeatypes_get_prop.py:1790-1797). -/
def GET_PROP.STMSBAS : PDict := .single py!"status" IN <| .single py!"sattrk" IN <| .single py!"satid" IN <| .single py!"elev" DE <| .single py!"azim" DE <| .single py!"satcn0" DE <| .nil

/-- `NMEA_PAYLOADS_GET_PROP["STMTEMP"]` (/repo/src/pynmeagps/nmeatypes_get_prop.py:1798-1802). -/
def GET_PROP.STMTEMP : PDict := .single py!"temperature" DE <| .single py!"rawtemperature" DE <| .single py!"calibration" IN <| .nil

/-- `NMEA_PAYLOADS_GET_PROP["STMDRCONFID"]` (/repo/src/pynmeagps/nmeatypes_get_prop.py:1803-1817). -/
def GET_PROP.STMDRCONFID : PDict := .single py!"latstddev" DE <| .single py!"lonstddev" DE <| .single py!"headingstddev" DE <| .single py!"reserved1" ST <| .single py!"gyrobiasstddev" DE <| .single py!"odoscalestddev" DE <| .single py!"reserved2" ST <| .single py!"accoffsetstddev" DE <| .single py!"heightstddev" DE <| .single py!"majorsemiaxis" DE <| .single py!"minorsemiaxis" DE <| .single py!"ellipseangle" DE <| .single py!"speedstddev" DE <| .nil

/-- `NMEA_PAYLOADS_GET_PROP["STMDRBSD"]` (/repo/src/pynmeagps/nmeatypes_get_prop.py:1818-1827). -/
def GET_PROP.STMDRBSD : PDict := .single py!"timestamp" DE <| .single py!"cputime" IN <| .single py!"gyroxbiassd" DE <| .single py!"gyroybiassd" DE <| .single py!"gyrozbiassd" DE <| .single py!"accxbiassd" DE <| .single py!"accybiassd" DE <| .single py!"acczbiassd" DE <| .nil

/-- `NMEA_PAYLOADS_GET_PROP["STMDRGPS"]` (/repo/src/pynmeagps/nmeatypes_get_prop.py:1828-1840). -/
def GET_PROP.STMDRGPS : PDict := .single py!"lat" DE <| .single py!"lon" DE <| .single py!"vn" DE <| .single py!"ve" DE <| .single py!"pdop" DE <| .single py!"hdop" DE <| .single py!"vdop" DE <| .single py!"rmsposresidual" DE <| .single py!"rmsvelresidual" DE <| .single py!"vup" DE <| .single py!"height" DE <| .nil

/-- `NMEA_PAYLOADS_GET_PROP["STMDRPVA"]` (/repo/src/pynmeagps/nmeatypes_get_prop.py:1841-1853). -/
def GET_PROP.STMDRPVA : PDict := .single py!"timestamp" DE <| .single py!"cputime" IN <| .single py!"latitude" DE <| .single py!"longitude" DE <| .single py!"height" DE <| .single py!"vnorth" DE <| .single py!"veast" DE <| .single py!"vup" DE <| .single py!"pitch" DE <| .single py!"roll" DE <| .single py!"heading" DE <| .nil

/-- `NMEA_PAYLOADS_GET_PROP["STMDRPVASD"]` (/repo/src/pynmeagps/nmeatypes_get_prop.py:1854-1872). -/
def GET_PROP.STMDRPVASD : PDict := .single py!"timestamp" DE <| .single py!"cputime" IN <| .single py!"latitudesd" DE <| .single py!"longitudesd" DE <| .single py!"heightsd" DE <| .single py!"vnorthsd" DE <| .single py!"veastsd" DE <| .single py!"vupsd" DE <| .single py!"pitchsd" DE <| .single py!"rollsd" DE <| .single py!"headingsd" DE <| .single py!"pnesd" DE <| .single py!"pnusd" DE <| .single py!"peusd" DE <| .single py!"vnesd" DE <| .single py!"vnusd" DE <| .single py!"veusd" DE <| .nil

/-- `NMEA_PAYLOADS_GET_PROP["STMDRSINT"]` (/repo/src/pynmeagps/nmeatypes_get_prop.py:1873-1888). -/
def GET_PROP.STMDRSINT : PDict := .single py!"gyrosamplecount" IN <| .single py!"accsamplecount" IN <| .single py!"pressamplecount" IN <| .single py!"odometercount" IN <| .single py!"gyrointtime" DE <| .single py!"accinttime" DE <| .single py!"pressureinttime" DE <| .single py!"gyroxavg" DE <| .single py!"gyroyavg" DE <| .single py!"gyrozavg" DE <| .single py!"accxavg" DE <| .single py!"accyavg" DE <| .single py!"acczavg" DE <| .single py!"presavg" DE <| .nil

/-- `NMEA_PAYLOADS_GET_PROP["STMDRSVF"]` (/repo/src/pynmeagps/nmeatypes_get_prop.py:1889-1898). -/
def GET_PROP.STMDRSVF : PDict := .single py!"timestamp" DE <| .single py!"cputime" IN <| .single py!"xacceleration" DE <| .single py!"yacceleration" DE <| .single py!"zacceleration" DE <| .single py!"xangularrate" DE <| .single py!"yangularrate" DE <| .single py!"zangularrate" DE <| .nil

/-- `NMEA_PAYLOADS_GET_PROP["STMDRUPD"]` (/repo/src/pynmeagps/nmeatypes_get_prop.py:1899-1899). -/
def GET_PROP.STMDRUPD : PDict := .group py!"group" .indet (.single py!"data" HX <| .nil) <| .nil

/-- `NMEA_PAYLOADS_GET_PROP["STMDRSTYPE"]` (/repo/src/pynmeagps/nmeatypes_get_prop.py:1900-1902). -/
def GET_PROP.STMDRSTYPE : PDict := .single py!"sensortype" IN <| .nil

/-- `NMEA_PAYLOADS_GET_PROP["STMDRCAL"]` (/repo/src/pynmeagps/nmeatypes_get_prop.py:1903-1912). -/
def GET_PROP.STMDRCAL : PDict := .single py!"driscalib" IN <| .single py!"odoiscalib" IN <| .single py!"gyrosensitivityiscalib" IN <| .single py!"gyrobiasiscalib" IN <| .single py!"imuflag" HX <| .single py!"gyrointegrityflag" IN <| .single py!"accintegrity" IN <| .single py!"calstate" ST <| .nil

/-- `NMEA_PAYLOADS_GET_PROP["STMDR1"]` (/repo/src/pynmeagps/nmeatypes_get_prop.py:1913-1927). -/
def GET_PROP.STMDR1 : PDict := .single py!"mpitch" DE <| .single py!"mroll" DE <| .single py!"myaw" DE <| .single py!"gsz" DE <| .single py!"gbx" DE <| .single py!"gby" DE <| .single py!"gbz" DE <| .single py!"abx" DE <| .single py!"aby" DE <| .single py!"abz" DE <| .single py!"odometerscale" DE <| .single py!"res1baro" DE <| .single py!"res2baro" DE <| .nil

/-- `NMEA_PAYLOADS_GET_PROP["STMDR2"]` (/repo/src/pynmeagps/nmeatypes_get_prop.py:1928-1939). -/
def GET_PROP.STMDR2 : PDict := .single py!"imucal" ST <| .single py!"ascal" ST <| .single py!"motionstatus" IN <| .single py!"errcode" IN <| .single py!"sysready" IN <| .single py!"crosstrackerror" DE <| .single py!"alongtrackerror" DE <| .single py!"sysaligned" IN <| .single py!"vrows" DE <| .single py!"vrost" IN <| .nil

/-- `NMEA_PAYLOADS_GET_PROP["STMDREPE"]` (/repo/src/pynmeagps/nmeatypes_get_prop.py:1940-1943). -/
def GET_PROP.STMDREPE : PDict := .single py!"ehpe" DE <| .single py!"reserved1" ST <| .nil

/-- `NMEA_PAYLOADS_GET_PROP["STMDRDEBUG"]` (/repo/src/pynmeagps/nmeatypes_get_prop.py:1944-1951). -/
def GET_PROP.STMDRDEBUG : PDict := .single py!"laterror" DE <| .single py!"lonerror" DE <| .single py!"headingerror" DE <| .single py!"speederror" DE <| .single py!"heighterror" DE <| .single py!"vverror" DE <| .nil

/-- `NMEA_PAYLOADS_GET_PROP["STMDRSENMSG_3"]` (/repo/src/pynmeagps/nmeatypes_get_prop.py:1952-1957). -/
def GET_PROP.STMDRSENMSG_3 : PDict := .single py!"msgtype" IN <| .single py!"timestamp" IN <| .single py!"odometer" DE <| .single py!"reverse" IN <| .nil

/-- `NMEA_PAYLOADS_GET_PROP["STMDRSENMSG_24"]` (/repo/src/pynmeagps/nmeatypes_get_prop.py:1958-1963). -/
def GET_PROP.STMDRSENMSG_24 : PDict := .single py!"msgtype" IN <| .single py!"timestamp" IN <| .single py!"temperature" DE <| .single py!"validity" IN <| .nil

/-- `NMEA_PAYLOADS_GET_PROP["STMDRSENMSG_30"]` (/repo/src/pynmeagps/nmeatypes_get_prop.py:1964-1970). -/
def GET_PROP.STMDRSENMSG_30 : PDict := .single py!"msgtype" IN <| .single py!"timestamp" IN <| .single py!"xacc" DE <| .single py!"yacc" DE <| .single py!"zacc" DE <| .nil

/-- `NMEA_PAYLOADS_GET_PROP["STMDRSENMSG_31"]` (/repo/src/pynmeagps/nmeatypes_get_prop.py:1971-1977). -/
def GET_PROP.STMDRSENMSG_31 : PDict := .single py!"msgtype" IN <| .single py!"timestamp" IN <| .single py!"xgyro" DE <| .single py!"ygyro" DE <| .single py!"zgyro" DE <| .nil

/-- `NMEA_PAYLOADS_GET_PROP["STMDRMMFBKF"]` (/repo/src/pynmeagps/nmeatypes_get_prop.py:1978-1994). -/
def GET_PROP.STMDRMMFBKF : PDict := .single py!"cputime" DE <| .single py!"elapsedtime" DE <| .single py!"utcdeltaseconds" DE <| .single py!"utcdeltams" DE <| .single py!"posaccepted" DE <| .single py!"reserved1" ST <| .single py!"reserved2" ST <| .single py!"measurementnoiselat" DE <| .single py!"posmeasurementnoiselon" DE <| .single py!"reserved3" ST <| .single py!"reserved4" ST <| .single py!"headingaccepted" DE <| .single py!"reserved5" ST <| .single py!"headingmeasurementnoise" DE <| .single py!"reserved6" ST <| .nil

/-- `NMEA_PAYLOADS_GET_PROP["SSNHRP"]` (/repo/src/pynmeagps/nmeatypes_get_prop.py:1999-2013). -/
def GET_PROP.SSNHRP : PDict := .single py!"msgId" ST <| .single py!"utc" TM <| .single py!"date" DT <| .single py!"hdg" DE <| .single py!"roll" DE <| .single py!"pitch" DE <| .single py!"hdgstd" DE <| .single py!"rollstd" DE <| .single py!"pitchstd" DE <| .single py!"sip" IN <| .single py!"attmode" CH <| .single py!"magvar" DE <| .single py!"magvardir" LND <| .nil

/-- `NMEA_PAYLOADS_GET_PROP["SSNRBD"]` (/repo/src/pynmeagps/nmeatypes_get_prop.py:2014-2026). -/
def GET_PROP.SSNRBD : PDict := .single py!"msgId" ST <| .single py!"utc" TM <| .single py!"date" DT <| .single py!"azi" DE <| .single py!"ele" DE <| .single py!"sip" IN <| .single py!"quality" CH <| .single py!"basemode" CH <| .single py!"corrage" DE <| .single py!"roverserial" ST <| .single py!"baseid" ST <| .nil

/-- `NMEA_PAYLOADS_GET_PROP["SSNRBP"]` (/repo/src/pynmeagps/nmeatypes_get_prop.py:2027-2040). -/
def GET_PROP.SSNRBP : PDict := .single py!"msgId" ST <| .single py!"utc" TM <| .single py!"date" DT <| .single py!"baseN" DE <| .single py!"baseE" DE <| .single py!"baseU" DE <| .single py!"sip" IN <| .single py!"quality" CH <| .single py!"basemode" CH <| .single py!"corrage" DE <| .single py!"roverserial" ST <| .single py!"baseid" ST <| .nil

/-- `NMEA_PAYLOADS_GET_PROP["SSNRBV"]` (/repo/src/pynmeagps/nmeatypes_get_prop.py:2041-2054). -/
def GET_PROP.SSNRBV : PDict := .single py!"msgId" ST <| .single py!"utc" TM <| .single py!"date" DT <| .single py!"baserocN" DE <| .single py!"baserocE" DE <| .single py!"baserocU" DE <| .single py!"sip" IN <| .single py!"quality" CH <| .single py!"basemode" CH <| .single py!"corrage" DE <| .single py!"roverserial" ST <| .single py!"baseid" ST <| .nil

/-- `NMEA_PAYLOADS_GET_PROP["SSNSNC"]` (/repo/src/pynmeagps/nmeatypes_get_prop.py:2055-2073). -/
def GET_PROP.SSNSNC : PDict := .single py!"msgId" ST <| .single py!"rev" CH <| .single py!"tim" IN <| .single py!"week" IN <| .group py!"group" .indet (.single py!"cdidx" ST <| .single py!"status" QS <| .single py!"errcode" ST <| .single py!"info" ST <| .nil) <| .nil

/-- `NMEA_PAYLOADS_GET_PROP["SSNTFM"]` (/repo/src/pynmeagps/nmeatypes_get_prop.py:2074-2081). -/
def GET_PROP.SSNTFM : PDict := .single py!"msgId" ST <| .single py!"utc" TM <| .single py!"heightind" ST <| .single py!"usage2122" ST <| .single py!"usage2324" ST <| .single py!"usage252627" ST <| .nil

/-- `NMEA_PAYLOADS_GET_PROP["STMSETPAROK"]` (/repo/src/pynmeagps/nmeatypes_get_prop.py:2082-2087). -/
def GET_PROP.STMSETPAROK : PDict := .single py!"msgId" ST <| .single py!"status1" ST <| .single py!"status2" ST <| .single py!"status3" ST <| .nil

/-- `NMEA_PAYLOADS_GET_PROP["STMINITGPSERROR"]` (/repo/src/pynmeagps/nmeatypes_get_prop.py:2088-2088). -/
def GET_PROP.STMINITGPSERROR : PDict := .nil

/-- `NMEA_PAYLOADS_GET_PROP["STMINITGPSOK"]` (/repo/src/pynmeagps/nmeatypes_get_prop.py:2089-2089). -/
def GET_PROP.STMINITGPSOK : PDict := .nil

/-- `NMEA_PAYLOADS_GET_PROP["STMINITTIMEERROR"]` (/repo/src/pynmeagps/nmeatypes_get_prop.py:2090-2090). -/
def GET_PROP.STMINITTIMEERROR : PDict := .nil

/-- `NMEA_PAYLOADS_GET_PROP["STMINITTIMEOK"]` (/repo/src/pynmeagps/nmeatypes_get_prop.py:2091-2091). -/
def GET_PROP.STMINITTIMEOK : PDict := .nil

/-- `NMEA_PAYLOADS_GET_PROP` (/repo/src/pynmeagps/nmeatypes_get_prop.py:48-2092). -/
def NMEA_PAYLOADS_GET_PROP : List (Str × PDict) := [
  (py!"KLDS", GET_PROP.KLDS),
  (py!"KLSH", GET_PROP.KLSH),
  (py!"KNDS", GET_PROP.KNDS),
  (py!"KNSH", GET_PROP.KNSH),
  (py!"KWDWPL", GET_PROP.KWDWPL),
  (py!"MGNWPL", GET_PROP.MGNWPL),
  (py!"GRME", GET_PROP.GRME),
  (py!"GRMF", GET_PROP.GRMF),
  (py!"GRMH", GET_PROP.GRMH),
  (py!"GRMM", GET_PROP.GRMM),
  (py!"GRMT", GET_PROP.GRMT),
  (py!"GRMV", GET_PROP.GRMV),
  (py!"GRMZ", GET_PROP.GRMZ),
  (py!"GRMB", GET_PROP.GRMB),
  (py!"UBX00", GET_PROP.UBX00),
  (py!"UBX03", GET_PROP.UBX03),
  (py!"UBX04", GET_PROP.UBX04),
  (py!"UBX05", GET_PROP.UBX05),
  (py!"ASHR", GET_PROP.ASHR),
  (py!"ASHRALR", GET_PROP.ASHRALR),
  (py!"ASHRARA", GET_PROP.ASHRARA),
  (py!"ASHRARR", GET_PROP.ASHRARR),
  (py!"ASHRATT", GET_PROP.ASHRATT),
  (py!"ASHRBTS", GET_PROP.ASHRBTS),
  (py!"ASHRCAP", GET_PROP.ASHRCAP),
  (py!"ASHRCPA", GET_PROP.ASHRCPA),
  (py!"ASHRCPO", GET_PROP.ASHRCPO),
  (py!"ASHRDDM", GET_PROP.ASHRDDM),
  (py!"ASHRDDS", GET_PROP.ASHRDDS),
  (py!"ASHRHPR", GET_PROP.ASHRHPR),
  (py!"ASHRLTN", GET_PROP.ASHRLTN),
  (py!"ASHRMDM", GET_PROP.ASHRMDM),
  (py!"ASHRPBN", GET_PROP.ASHRPBN),
  (py!"ASHRPOS", GET_PROP.ASHRPOS),
  (py!"ASHRPTT", GET_PROP.ASHRPTT),
  (py!"ASHRPWR", GET_PROP.ASHRPWR),
  (py!"ASHRRCS", GET_PROP.ASHRRCS),
  (py!"ASHRSBD", GET_PROP.ASHRSBD),
  (py!"ASHRSGA", GET_PROP.ASHRSGA),
  (py!"ASHRSGL", GET_PROP.ASHRSGL),
  (py!"ASHRSGO", GET_PROP.ASHRSGO),
  (py!"ASHRSGP", GET_PROP.ASHRSGP),
  (py!"ASHRSIR", GET_PROP.ASHRSIR),
  (py!"ASHRSLB", GET_PROP.ASHRSLB),
  (py!"ASHRSQZ", GET_PROP.ASHRSQZ),
  (py!"ASHRSSB", GET_PROP.ASHRSSB),
  (py!"ASHRTEM", GET_PROP.ASHRTEM),
  (py!"ASHRTHS", GET_PROP.ASHRTHS),
  (py!"ASHRTTT", GET_PROP.ASHRTTT),
  (py!"ASHRVCR", GET_PROP.ASHRVCR),
  (py!"ASHRVCT", GET_PROP.ASHRVCT),
  (py!"ASHRVEL", GET_PROP.ASHRVEL),
  (py!"FUGDP", GET_PROP.FUGDP),
  (py!"GPPADV110", GET_PROP.GPPADV110),
  (py!"GPPADV120", GET_PROP.GPPADV120),
  (py!"TNLAVR", GET_PROP.TNLAVR),
  (py!"TNLBPQ", GET_PROP.TNLBPQ),
  (py!"TNLDG", GET_PROP.TNLDG),
  (py!"TNLEVT", GET_PROP.TNLEVT),
  (py!"TNLGGK", GET_PROP.TNLGGK),
  (py!"TNLGGKx", GET_PROP.TNLGGKx),
  (py!"TNLPJK", GET_PROP.TNLPJK),
  (py!"TNLPJT", GET_PROP.TNLPJT),
  (py!"TNLREX", GET_PROP.TNLREX),
  (py!"TNLVGK", GET_PROP.TNLVGK),
  (py!"TNLVHD", GET_PROP.TNLVHD),
  (py!"FECGPATT", GET_PROP.FECGPATT),
  (py!"FECGPHVE", GET_PROP.FECGPHVE),
  (py!"LSR", GET_PROP.LSR),
  (py!"LSVD", GET_PROP.LSVD),
  (py!"INVMINR", GET_PROP.INVMINR),
  (py!"INVMSTR", GET_PROP.INVMSTR),
  (py!"INVMSLOPE", GET_PROP.INVMSLOPE),
  (py!"INVMIMU", GET_PROP.INVMIMU),
  (py!"INVMATTIT", GET_PROP.INVMATTIT),
  (py!"AIR001", GET_PROP.AIR001),
  (py!"AIR010", GET_PROP.AIR010),
  (py!"AIR051", GET_PROP.AIR051),
  (py!"AIR059", GET_PROP.AIR059),
  (py!"AIR063", GET_PROP.AIR063),
  (py!"AIR067", GET_PROP.AIR067),
  (py!"AIR071", GET_PROP.AIR071),
  (py!"AIR073", GET_PROP.AIR073),
  (py!"AIR075", GET_PROP.AIR075),
  (py!"AIR081", GET_PROP.AIR081),
  (py!"AIR087", GET_PROP.AIR087),
  (py!"AIR101", GET_PROP.AIR101),
  (py!"AIR105", GET_PROP.AIR105),
  (py!"AIR391", GET_PROP.AIR391),
  (py!"AIR401", GET_PROP.AIR401),
  (py!"AIR411", GET_PROP.AIR411),
  (py!"AIR421", GET_PROP.AIR421),
  (py!"AIR433", GET_PROP.AIR433),
  (py!"AIR435", GET_PROP.AIR435),
  (py!"AIR436", GET_PROP.AIR436),
  (py!"AIR437", GET_PROP.AIR437),
  (py!"AIR491", GET_PROP.AIR491),
  (py!"AIR650", GET_PROP.AIR650),
  (py!"AIR865", GET_PROP.AIR865),
  (py!"AIR867", GET_PROP.AIR867),
  (py!"AIR6011", GET_PROP.AIR6011),
  (py!"AIRSPF", GET_PROP.AIRSPF),
  (py!"AIRSPF5", GET_PROP.AIRSPF5),
  (py!"QTMACK", GET_PROP.QTMACK),
  (py!"QTMNAK", GET_PROP.QTMNAK),
  (py!"QTMANTENNASTATUS", GET_PROP.QTMANTENNASTATUS),
  (py!"QTMCFGAIC", GET_PROP.QTMCFGAIC),
  (py!"QTMCFGANTDELTA", GET_PROP.QTMCFGANTDELTA),
  (py!"QTMCFGANTINF", GET_PROP.QTMCFGANTINF),
  (py!"QTMCFGBLD", GET_PROP.QTMCFGBLD),
  (py!"QTMCFGCNST", GET_PROP.QTMCFGCNST),
  (py!"QTMCFGDR", GET_PROP.QTMCFGDR),
  (py!"QTMCFGDRHOT", GET_PROP.QTMCFGDRHOT),
  (py!"QTMCFGDRRTD", GET_PROP.QTMCFGDRRTD),
  (py!"QTMCFGEINSMSG", GET_PROP.QTMCFGEINSMSG),
  (py!"QTMCFGELETHD", GET_PROP.QTMCFGELETHD),
  (py!"QTMCFGFIXRATE", GET_PROP.QTMCFGFIXRATE),
  (py!"QTMCFGGEOFENCE", GET_PROP.QTMCFGGEOFENCE),
  (py!"QTMCFGGEOFENCE_DIS", GET_PROP.QTMCFGGEOFENCE_DIS),
  (py!"QTMCFGGEOFENCE_POLY", GET_PROP.QTMCFGGEOFENCE_POLY),
  (py!"QTMCFGGEOSEP", GET_PROP.QTMCFGGEOSEP),
  (py!"QTMCFGIMUINT", GET_PROP.QTMCFGIMUINT),
  (py!"QTMCFGIMUTC", GET_PROP.QTMCFGIMUTC),
  (py!"QTMCFGLA", GET_PROP.QTMCFGLA),
  (py!"QTMCFGLAM", GET_PROP.QTMCFGLAM),
  (py!"QTMCFGMSGRATE", GET_PROP.QTMCFGMSGRATE),
  (py!"QTMCFGMSGRATE_NOVER", GET_PROP.QTMCFGMSGRATE_NOVER),
  (py!"QTMCFGMSGRATE_INTF", GET_PROP.QTMCFGMSGRATE_INTF),
  (py!"QTMCFGMSGRATE_INTFNOVER", GET_PROP.QTMCFGMSGRATE_INTFNOVER),
  (py!"QTMCFGNAVMODE", GET_PROP.QTMCFGNAVMODE),
  (py!"QTMCFGNMEADP", GET_PROP.QTMCFGNMEADP),
  (py!"QTMCFGNMEATID", GET_PROP.QTMCFGNMEATID),
  (py!"QTMCFGODO", GET_PROP.QTMCFGODO),
  (py!"QTMCFGPPS", GET_PROP.QTMCFGPPS),
  (py!"QTMCFGPROT", GET_PROP.QTMCFGPROT),
  (py!"QTMCFGRCVRMODE", GET_PROP.QTMCFGRCVRMODE),
  (py!"QTMCFGRSID", GET_PROP.QTMCFGRSID),
  (py!"QTMCFGRTCM", GET_PROP.QTMCFGRTCM),
  (py!"QTMCFGRTK", GET_PROP.QTMCFGRTK),
  (py!"QTMCFGRTKSRCTYPE", GET_PROP.QTMCFGRTKSRCTYPE),
  (py!"QTMMCFGRTKSRCTYPE", GET_PROP.QTMMCFGRTKSRCTYPE),
  (py!"QTMCFGSAT", GET_PROP.QTMCFGSAT),
  (py!"QTMCFGSAT_LOW", GET_PROP.QTMCFGSAT_LOW),
  (py!"QTMCFGSBAS", GET_PROP.QTMCFGSBAS),
  (py!"QTMCFGSIGGRP", GET_PROP.QTMCFGSIGGRP),
  (py!"QTMCFGSIGNAL", GET_PROP.QTMCFGSIGNAL),
  (py!"QTMCFGSIGNAL2", GET_PROP.QTMCFGSIGNAL2),
  (py!"QTMCFGSTATICHOLD", GET_PROP.QTMCFGSTATICHOLD),
  (py!"QTMCFGSVIN", GET_PROP.QTMCFGSVIN),
  (py!"QTMCFGUART", GET_PROP.QTMCFGUART),
  (py!"QTMCFGVEHMOT", GET_PROP.QTMCFGVEHMOT),
  (py!"QTMCFGWN", GET_PROP.QTMCFGWN),
  (py!"QTMDEBUGON", GET_PROP.QTMDEBUGON),
  (py!"QTMDEBUGOFF", GET_PROP.QTMDEBUGOFF),
  (py!"QTMDOP", GET_PROP.QTMDOP),
  (py!"QTMDRCAL", GET_PROP.QTMDRCAL),
  (py!"QTMDRCLR", GET_PROP.QTMDRCLR),
  (py!"QTMDRPVA", GET_PROP.QTMDRPVA),
  (py!"QTMDRSAVE", GET_PROP.QTMDRSAVE),
  (py!"QTMEOE", GET_PROP.QTMEOE),
  (py!"QTMEPE", GET_PROP.QTMEPE),
  (py!"QTMGEOFENCESTATUS", GET_PROP.QTMGEOFENCESTATUS),
  (py!"QTMGETUTC", GET_PROP.QTMGETUTC),
  (py!"QTMGNSSSTART", GET_PROP.QTMGNSSSTART),
  (py!"QTMGNSSSTOP", GET_PROP.QTMGNSSSTOP),
  (py!"QTMGPS", GET_PROP.QTMGPS),
  (py!"QTMJAMMINGSTATUS", GET_PROP.QTMJAMMINGSTATUS),
  (py!"QTMIMU", GET_PROP.QTMIMU),
  (py!"QTMIMUTYPE", GET_PROP.QTMIMUTYPE),
  (py!"QTMINS", GET_PROP.QTMINS),
  (py!"QTMLS", GET_PROP.QTMLS),
  (py!"QTMNAV", GET_PROP.QTMNAV),
  (py!"QTMODO", GET_PROP.QTMODO),
  (py!"QTMPL", GET_PROP.QTMPL),
  (py!"QTMPVT", GET_PROP.QTMPVT),
  (py!"QTMQVER", GET_PROP.QTMQVER),
  (py!"QTMRESETODO", GET_PROP.QTMRESETODO),
  (py!"QTMRESTOREPAR", GET_PROP.QTMRESTOREPAR),
  (py!"QTMSAVEPAR", GET_PROP.QTMSAVEPAR),
  (py!"QTMSENMSG", GET_PROP.QTMSENMSG),
  (py!"QTMSN", GET_PROP.QTMSN),
  (py!"QTMSN_ALT", GET_PROP.QTMSN_ALT),
  (py!"QTMSTD", GET_PROP.QTMSTD),
  (py!"QTMSVINSTATUS", GET_PROP.QTMSVINSTATUS),
  (py!"QTMTAR", GET_PROP.QTMTAR),
  (py!"QTMTXT", GET_PROP.QTMTXT),
  (py!"QTMUNIQID", GET_PROP.QTMUNIQID),
  (py!"QTMVEHATT", GET_PROP.QTMVEHATT),
  (py!"QTMVEHMOT", GET_PROP.QTMVEHMOT),
  (py!"QTMVEHMSG", GET_PROP.QTMVEHMSG),
  (py!"QTMVEL", GET_PROP.QTMVEL),
  (py!"QTMVER", GET_PROP.QTMVER),
  (py!"QTMVERNO", GET_PROP.QTMVERNO),
  (py!"STMPPSDATA", GET_PROP.STMPPSDATA),
  (py!"STMCPU", GET_PROP.STMCPU),
  (py!"STMTG", GET_PROP.STMTG),
  (py!"STMTS", GET_PROP.STMTS),
  (py!"STMSBAS", GET_PROP.STMSBAS),
  (py!"STMTEMP", GET_PROP.STMTEMP),
  (py!"STMDRCONFID", GET_PROP.STMDRCONFID),
  (py!"STMDRBSD", GET_PROP.STMDRBSD),
  (py!"STMDRGPS", GET_PROP.STMDRGPS),
  (py!"STMDRPVA", GET_PROP.STMDRPVA),
  (py!"STMDRPVASD", GET_PROP.STMDRPVASD),
  (py!"STMDRSINT", GET_PROP.STMDRSINT),
  (py!"STMDRSVF", GET_PROP.STMDRSVF),
  (py!"STMDRUPD", GET_PROP.STMDRUPD),
  (py!"STMDRSTYPE", GET_PROP.STMDRSTYPE),
  (py!"STMDRCAL", GET_PROP.STMDRCAL),
  (py!"STMDR1", GET_PROP.STMDR1),
  (py!"STMDR2", GET_PROP.STMDR2),
  (py!"STMDREPE", GET_PROP.STMDREPE),
  (py!"STMDRDEBUG", GET_PROP.STMDRDEBUG),
  (py!"STMDRSENMSG_3", GET_PROP.STMDRSENMSG_3),
  (py!"STMDRSENMSG_24", GET_PROP.STMDRSENMSG_24),
  (py!"STMDRSENMSG_30", GET_PROP.STMDRSENMSG_30),
  (py!"STMDRSENMSG_31", GET_PROP.STMDRSENMSG_31),
  (py!"STMDRMMFBKF", GET_PROP.STMDRMMFBKF),
  (py!"SSNHRP", GET_PROP.SSNHRP),
  (py!"SSNRBD", GET_PROP.SSNRBD),
  (py!"SSNRBP", GET_PROP.SSNRBP),
  (py!"SSNRBV", GET_PROP.SSNRBV),
  (py!"SSNSNC", GET_PROP.SSNSNC),
  (py!"SSNTFM", GET_PROP.SSNTFM),
  (py!"STMSETPAROK", GET_PROP.STMSETPAROK),
  (py!"STMINITGPSERROR", GET_PROP.STMINITGPSERROR),
  (py!"STMINITGPSOK", GET_PROP.STMINITGPSOK),
  (py!"STMINITTIMEERROR", GET_PROP.STMINITTIMEERROR),
  (py!"STMINITTIMEOK", GET_PROP.STMINITTIMEOK)]

end Nmea
