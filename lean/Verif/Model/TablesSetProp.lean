import Verif.Model.Types
/- Generated by tools/gen_tables.py from the source text of /repo/src/pynmeagps. -/
namespace Nmea
open Py

/-- `NMEA_PAYLOADS_SET_PROP["AIR002"]` (/repo/src/pynmeagps/nmeatypes_set_prop.py:39-39). -/
def SET_PROP.AIR002 : PDict := .nil

/-- `NMEA_PAYLOADS_SET_PROP["AIR003"]` (/repo/src/pynmeagps/nmeatypes_set_prop.py:40-40). -/
def SET_PROP.AIR003 : PDict := .nil

/-- `NMEA_PAYLOADS_SET_PROP["AIR004"]` (/repo/src/pynmeagps/nmeatypes_set_prop.py:41-41). -/
def SET_PROP.AIR004 : PDict := .nil

/-- `NMEA_PAYLOADS_SET_PROP["AIR005"]` (/repo/src/pynmeagps/nmeatypes_set_prop.py:42-42). -/
def SET_PROP.AIR005 : PDict := .nil

/-- `NMEA_PAYLOADS_SET_PROP["AIR006"]` (/repo/src/pynmeagps/nmeatypes_set_prop.py:43-43). -/
def SET_PROP.AIR006 : PDict := .nil

/-- `NMEA_PAYLOADS_SET_PROP["AIR007"]` (/repo/src/pynmeagps/nmeatypes_set_prop.py:44-44). -/
def SET_PROP.AIR007 : PDict := .nil

/-- `NMEA_PAYLOADS_SET_PROP["AIR050"]` (/repo/src/pynmeagps/nmeatypes_set_prop.py:45-47). -/
def SET_PROP.AIR050 : PDict := .single py!"time" IN <| .nil

/-- `NMEA_PAYLOADS_SET_PROP["AIR058"]` (/repo/src/pynmeagps/nmeatypes_set_prop.py:48-50). -/
def SET_PROP.AIR058 : PDict := .single py!"minsnr" IN <| .nil

/-- `NMEA_PAYLOADS_SET_PROP["AIR062"]` (/repo/src/pynmeagps/nmeatypes_set_prop.py:51-54). -/
def SET_PROP.AIR062 : PDict := .single py!"type" IN <| .single py!"rate" IN <| .nil

/-- `NMEA_PAYLOADS_SET_PROP["AIR066"]` (/repo/src/pynmeagps/nmeatypes_set_prop.py:55-62). -/
def SET_PROP.AIR066 : PDict := .single py!"gpsEnabled" IN <| .single py!"glonassEnabled" IN <| .single py!"galileoEnabled" IN <| .single py!"bdsEnabled" IN <| .single py!"qzssEnabled" IN <| .single py!"navicEnabled" IN <| .nil

/-- `NMEA_PAYLOADS_SET_PROP["AIR070"]` (/repo/src/pynmeagps/nmeatypes_set_prop.py:63-65). -/
def SET_PROP.AIR070 : PDict := .single py!"speedThreshold" IN <| .nil

/-- `NMEA_PAYLOADS_SET_PROP["AIR072"]` (/repo/src/pynmeagps/nmeatypes_set_prop.py:66-68). -/
def SET_PROP.AIR072 : PDict := .single py!"degree" IN <| .nil

/-- `NMEA_PAYLOADS_SET_PROP["AIR074"]` (/repo/src/pynmeagps/nmeatypes_set_prop.py:69-71). -/
def SET_PROP.AIR074 : PDict := .single py!"enabled" IN <| .nil

/-- `NMEA_PAYLOADS_SET_PROP["AIR080"]` (/repo/src/pynmeagps/nmeatypes_set_prop.py:72-74). -/
def SET_PROP.AIR080 : PDict := .single py!"navMode" IN <| .nil

/-- `NMEA_PAYLOADS_SET_PROP["AIR086"]` (/repo/src/pynmeagps/nmeatypes_set_prop.py:75-77). -/
def SET_PROP.AIR086 : PDict := .single py!"status" IN <| .nil

/-- `NMEA_PAYLOADS_SET_PROP["AIR100"]` (/repo/src/pynmeagps/nmeatypes_set_prop.py:78-81). -/
def SET_PROP.AIR100 : PDict := .single py!"nmeaMode" IN <| .single py!"reserved" IN <| .nil

/-- `NMEA_PAYLOADS_SET_PROP["AIR104"]` (/repo/src/pynmeagps/nmeatypes_set_prop.py:82-84). -/
def SET_PROP.AIR104 : PDict := .single py!"dualBandEnabled" IN <| .nil

/-- `NMEA_PAYLOADS_SET_PROP["AIR382"]` (/repo/src/pynmeagps/nmeatypes_set_prop.py:85-87). -/
def SET_PROP.AIR382 : PDict := .single py!"enabled" IN <| .nil

/-- `NMEA_PAYLOADS_SET_PROP["AIR391"]` (/repo/src/pynmeagps/nmeatypes_set_prop.py:88-90). -/
def SET_PROP.AIR391 : PDict := .single py!"cmdType" IN <| .nil

/-- `NMEA_PAYLOADS_SET_PROP["AIR400"]` (/repo/src/pynmeagps/nmeatypes_set_prop.py:91-93). -/
def SET_PROP.AIR400 : PDict := .single py!"mode" IN <| .nil

/-- `NMEA_PAYLOADS_SET_PROP["AIR410"]` (/repo/src/pynmeagps/nmeatypes_set_prop.py:94-96). -/
def SET_PROP.AIR410 : PDict := .single py!"enabled" IN <| .nil

/-- `NMEA_PAYLOADS_SET_PROP["AIR420"]` (/repo/src/pynmeagps/nmeatypes_set_prop.py:97-99). -/
def SET_PROP.AIR420 : PDict := .single py!"enabled" IN <| .nil

/-- `NMEA_PAYLOADS_SET_PROP["AIR432"]` (/repo/src/pynmeagps/nmeatypes_set_prop.py:100-102). -/
def SET_PROP.AIR432 : PDict := .single py!"mode" IN <| .nil

/-- `NMEA_PAYLOADS_SET_PROP["AIR434"]` (/repo/src/pynmeagps/nmeatypes_set_prop.py:103-105). -/
def SET_PROP.AIR434 : PDict := .single py!"enabled" IN <| .nil

/-- `NMEA_PAYLOADS_SET_PROP["AIR436"]` (/repo/src/pynmeagps/nmeatypes_set_prop.py:106-108). -/
def SET_PROP.AIR436 : PDict := .single py!"enabled" IN <| .nil

/-- `NMEA_PAYLOADS_SET_PROP["AIR437"]` (/repo/src/pynmeagps/nmeatypes_set_prop.py:109-109). -/
def SET_PROP.AIR437 : PDict := .nil

/-- `NMEA_PAYLOADS_SET_PROP["AIR490"]` (/repo/src/pynmeagps/nmeatypes_set_prop.py:110-112). -/
def SET_PROP.AIR490 : PDict := .single py!"enabled" IN <| .nil

/-- `NMEA_PAYLOADS_SET_PROP["AIR511"]` (/repo/src/pynmeagps/nmeatypes_set_prop.py:113-113). -/
def SET_PROP.AIR511 : PDict := .nil

/-- `NMEA_PAYLOADS_SET_PROP["AIR512"]` (/repo/src/pynmeagps/nmeatypes_set_prop.py:114-114). -/
def SET_PROP.AIR512 : PDict := .nil

/-- `NMEA_PAYLOADS_SET_PROP["AIR513"]` (/repo/src/pynmeagps/nmeatypes_set_prop.py:115-115). -/
def SET_PROP.AIR513 : PDict := .nil

/-- `NMEA_PAYLOADS_SET_PROP["AIR650"]` (/repo/src/pynmeagps/nmeatypes_set_prop.py:116-118). -/
def SET_PROP.AIR650 : PDict := .single py!"second" IN <| .nil

/-- `NMEA_PAYLOADS_SET_PROP["AIR752"]` (/repo/src/pynmeagps/nmeatypes_set_prop.py:119-121). -/
def SET_PROP.AIR752 : PDict := .single py!"ppsType" IN <| .nil

/-- `NMEA_PAYLOADS_SET_PROP["AIR864"]` (/repo/src/pynmeagps/nmeatypes_set_prop.py:122-126). -/
def SET_PROP.AIR864 : PDict := .single py!"portType" IN <| .single py!"portIndex" IN <| .single py!"baudrate" IN <| .nil

/-- `NMEA_PAYLOADS_SET_PROP["AIR866"]` (/repo/src/pynmeagps/nmeatypes_set_prop.py:127-131). -/
def SET_PROP.AIR866 : PDict := .single py!"portType" IN <| .single py!"portIndex" IN <| .single py!"flowControl" IN <| .nil

/-- `NMEA_PAYLOADS_SET_PROP["AIR6010"]` (/repo/src/pynmeagps/nmeatypes_set_prop.py:132-135). -/
def SET_PROP.AIR6010 : PDict := .single py!"type" IN <| .single py!"rate" IN <| .nil

/-- `NMEA_PAYLOADS_SET_PROP["GRMI"]` (/repo/src/pynmeagps/nmeatypes_set_prop.py:139-147). -/
def SET_PROP.GRMI : PDict := .single py!"lat" LA <| .single py!"NS" LAD <| .single py!"lon" LN <| .single py!"EW" LND <| .single py!"date" DT <| .single py!"time" TM <| .single py!"rcvr_cmd" CH <| .nil

/-- `NMEA_PAYLOADS_SET_PROP["GRMC"]` (/repo/src/pynmeagps/nmeatypes_set_prop.py:148-163). -/
def SET_PROP.GRMC : PDict := .single py!"fix" CH <| .single py!"alt" DE <| .single py!"dtm" ST <| .single py!"smAxis" DE <| .single py!"iffac" DE <| .single py!"xecc" DE <| .single py!"yecc" DE <| .single py!"zecc" DE <| .single py!"diff" CH <| .single py!"baudRate" IN <| .single py!"vfilt" IN <| .single py!"reserved1" ST <| .single py!"reserved2" ST <| .single py!"drtime" IN <| .nil

/-- `NMEA_PAYLOADS_SET_PROP["GRMC1"]` (/repo/src/pynmeagps/nmeatypes_set_prop.py:164-177). -/
def SET_PROP.GRMC1 : PDict := .single py!"nmeatim" IN <| .single py!"bphase" IN <| .single py!"autopos" IN <| .single py!"dgpsfr" DE <| .single py!"dgpsbr" IN <| .single py!"dgpssc" IN <| .single py!"nmeaver" IN <| .single py!"dgpsmod" CH <| .single py!"pwrsave" CH <| .single py!"attran" IN <| .single py!"autopwr" IN <| .single py!"extpwr" IN <| .nil

/-- `NMEA_PAYLOADS_SET_PROP["GRMO"]` (/repo/src/pynmeagps/nmeatypes_set_prop.py:178-181). -/
def SET_PROP.GRMO : PDict := .single py!"msgId" ST <| .single py!"tgtmode" IN <| .nil

/-- `NMEA_PAYLOADS_SET_PROP["GRMW"]` (/repo/src/pynmeagps/nmeatypes_set_prop.py:182-187). -/
def SET_PROP.GRMW : PDict := .single py!"wptId" ST <| .single py!"alt" DE <| .single py!"symnum" HX <| .single py!"comment" ST <| .nil

/-- `NMEA_PAYLOADS_SET_PROP["INVCRES"]` (/repo/src/pynmeagps/nmeatypes_set_prop.py:205-207). -/
def SET_PROP.INVCRES : PDict := .single py!"value" IN <| .nil

/-- `NMEA_PAYLOADS_SET_PROP["INVCSTR"]` (/repo/src/pynmeagps/nmeatypes_set_prop.py:208-210). -/
def SET_PROP.INVCSTR : PDict := .single py!"value" IN <| .nil

/-- `NMEA_PAYLOADS_SET_PROP["INVMSLOPE"]` (/repo/src/pynmeagps/nmeatypes_set_prop.py:211-213). -/
def SET_PROP.INVMSLOPE : PDict := .single py!"status" IN <| .nil

/-- `NMEA_PAYLOADS_SET_PROP["LSC"]` (/repo/src/pynmeagps/nmeatypes_set_prop.py:214-217). -/
def SET_PROP.LSC : PDict := .single py!"msgType" ST <| .single py!"value" IN <| .nil

/-- `NMEA_PAYLOADS_SET_PROP["QTMBKP"]` (/repo/src/pynmeagps/nmeatypes_set_prop.py:222-224). -/
def SET_PROP.QTMBKP : PDict := .single py!"second" IN <| .nil

/-- `NMEA_PAYLOADS_SET_PROP["QTMCFGAIC"]` (/repo/src/pynmeagps/nmeatypes_set_prop.py:225-225). -/
def SET_PROP.QTMCFGAIC : PDict := .single py!"status" QS <| .single py!"state" IN <| .nil

/-- `NMEA_PAYLOADS_SET_PROP["QTMCFGANTDELTA"]` (/repo/src/pynmeagps/nmeatypes_set_prop.py:226-226). -/
def SET_PROP.QTMCFGANTDELTA : PDict := .single py!"status" QS <| .single py!"east" DE <| .single py!"north" DE <| .single py!"height" DE <| .nil

/-- `NMEA_PAYLOADS_SET_PROP["QTMCFGANTINF"]` (/repo/src/pynmeagps/nmeatypes_set_prop.py:227-227). -/
def SET_PROP.QTMCFGANTINF : PDict := .single py!"status" QS <| .single py!"antennadesc" ST <| .single py!"antennasetupid" IN <| .single py!"antennasn" ST <| .nil

/-- `NMEA_PAYLOADS_SET_PROP["QTMCFGBLD"]` (/repo/src/pynmeagps/nmeatypes_set_prop.py:228-228). -/
def SET_PROP.QTMCFGBLD : PDict := .single py!"status" QS <| .single py!"distance" DE <| .nil

/-- `NMEA_PAYLOADS_SET_PROP["QTMCFGCNST"]` (/repo/src/pynmeagps/nmeatypes_set_prop.py:229-229). -/
def SET_PROP.QTMCFGCNST : PDict := .single py!"status" QS <| .single py!"gps" IN <| .single py!"glonass" IN <| .single py!"galileo" IN <| .single py!"beidou" IN <| .single py!"qzss" IN <| .single py!"navic" IN <| .nil

/-- `NMEA_PAYLOADS_SET_PROP["QTMCFGDR"]` (/repo/src/pynmeagps/nmeatypes_set_prop.py:230-230). -/
def SET_PROP.QTMCFGDR : PDict := .single py!"status" QS <| .single py!"drstate" IN <| .nil

/-- `NMEA_PAYLOADS_SET_PROP["QTMCFGDRHOT"]` (/repo/src/pynmeagps/nmeatypes_set_prop.py:231-231). -/
def SET_PROP.QTMCFGDRHOT : PDict := .single py!"status" QS <| .single py!"mode" IN <| .nil

/-- `NMEA_PAYLOADS_SET_PROP["QTMCFGDRRTD"]` (/repo/src/pynmeagps/nmeatypes_set_prop.py:232-232). -/
def SET_PROP.QTMCFGDRRTD : PDict := .single py!"status" QS <| .single py!"time" IN <| .single py!"distance" IN <| .nil

/-- `NMEA_PAYLOADS_SET_PROP["QTMCFGEINSMSG"]` (/repo/src/pynmeagps/nmeatypes_set_prop.py:233-233). -/
def SET_PROP.QTMCFGEINSMSG : PDict := .single py!"type" IN <| .single py!"ins_enabled" IN <| .single py!"imu_enabled" IN <| .single py!"gps_enabled" IN <| .single py!"rate" IN <| .nil

/-- `NMEA_PAYLOADS_SET_PROP["QTMCFGELETHD"]` (/repo/src/pynmeagps/nmeatypes_set_prop.py:234-234). -/
def SET_PROP.QTMCFGELETHD : PDict := .single py!"status" QS <| .single py!"elevation" DE <| .nil

/-- `NMEA_PAYLOADS_SET_PROP["QTMCFGFIXRATE"]` (/repo/src/pynmeagps/nmeatypes_set_prop.py:235-235). -/
def SET_PROP.QTMCFGFIXRATE : PDict := .single py!"status" QS <| .single py!"fixinterval" IN <| .nil

/-- `NMEA_PAYLOADS_SET_PROP["QTMCFGGEOFENCE_DIS"]` (/repo/src/pynmeagps/nmeatypes_set_prop.py:236-236). -/
def SET_PROP.QTMCFGGEOFENCE_DIS : PDict := .single py!"status" QS <| .single py!"geofenceindex" IN <| .single py!"geofencemode" IN <| .nil

/-- `NMEA_PAYLOADS_SET_PROP["QTMCFGGEOFENCE_POLY"]` (/repo/src/pynmeagps/nmeatypes_set_prop.py:237-237). -/
def SET_PROP.QTMCFGGEOFENCE_POLY : PDict := .single py!"status" QS <| .single py!"geofenceindex" IN <| .single py!"geofencemode" IN <| .single py!"reserved" IN <| .single py!"shape" IN <| .single py!"lat0" DE <| .single py!"lon0" DE <| .single py!"radiuslat1" DE <| .single py!"lon1" DE <| .single py!"lat2" DE <| .single py!"lon2" DE <| .single py!"lat3" DE <| .single py!"lon3" DE <| .nil

/-- `NMEA_PAYLOADS_SET_PROP["QTMCFGGEOFENCE"]` (/repo/src/pynmeagps/nmeatypes_set_prop.py:238-238). -/
def SET_PROP.QTMCFGGEOFENCE : PDict := .single py!"status" QS <| .single py!"geofenceindex" IN <| .single py!"geofencemode" IN <| .single py!"reserved" IN <| .single py!"shape" IN <| .single py!"lat0" DE <| .single py!"lon0" DE <| .single py!"radiuslat1" DE <| .nil

/-- `NMEA_PAYLOADS_SET_PROP["QTMCFGGEOSEP"]` (/repo/src/pynmeagps/nmeatypes_set_prop.py:239-239). -/
def SET_PROP.QTMCFGGEOSEP : PDict := .single py!"status" QS <| .single py!"mode" IN <| .single py!"geosep" DE <| .nil

/-- `NMEA_PAYLOADS_SET_PROP["QTMCFGIMUINT"]` (/repo/src/pynmeagps/nmeatypes_set_prop.py:240-240). -/
def SET_PROP.QTMCFGIMUINT : PDict := .single py!"status" QS <| .single py!"index" IN <| .single py!"mode" IN <| .single py!"reserved" IN <| .single py!"actLevel" IN <| .nil

/-- `NMEA_PAYLOADS_SET_PROP["QTMCFGIMUTC"]` (/repo/src/pynmeagps/nmeatypes_set_prop.py:241-241). -/
def SET_PROP.QTMCFGIMUTC : PDict := .single py!"status" QS <| .single py!"imustatus" IN <| .nil

/-- `NMEA_PAYLOADS_SET_PROP["QTMCFGLA"]` (/repo/src/pynmeagps/nmeatypes_set_prop.py:242-242). -/
def SET_PROP.QTMCFGLA : PDict := .single py!"status" QS <| .single py!"type" IN <| .single py!"laX" DE <| .single py!"laY" DE <| .single py!"laZ" DE <| .nil

/-- `NMEA_PAYLOADS_SET_PROP["QTMCFGLAM"]` (/repo/src/pynmeagps/nmeatypes_set_prop.py:243-243). -/
def SET_PROP.QTMCFGLAM : PDict := .single py!"status" QS <| .single py!"mode" IN <| .nil

/-- `NMEA_PAYLOADS_SET_PROP["QTMCFGMSGRATE"]` (/repo/src/pynmeagps/nmeatypes_set_prop.py:244-244). -/
def SET_PROP.QTMCFGMSGRATE : PDict := .single py!"status" QS <| .single py!"msgname" ST <| .single py!"rate" IN <| .single py!"msgver" IN <| .nil

/-- `NMEA_PAYLOADS_SET_PROP["QTMCFGMSGRATE_NOVER"]` (/repo/src/pynmeagps/nmeatypes_set_prop.py:245-245). -/
def SET_PROP.QTMCFGMSGRATE_NOVER : PDict := .single py!"status" QS <| .single py!"msgname" ST <| .single py!"rate" IN <| .nil

/-- `NMEA_PAYLOADS_SET_PROP["QTMCFGMSGRATE_INTF"]` (/repo/src/pynmeagps/nmeatypes_set_prop.py:246-246). -/
def SET_PROP.QTMCFGMSGRATE_INTF : PDict := .single py!"status" QS <| .single py!"porttype" IN <| .single py!"portid" IN <| .single py!"msgname" ST <| .single py!"rate" IN <| .single py!"msgver" IN <| .nil

/-- `NMEA_PAYLOADS_SET_PROP["QTMCFGMSGRATE_INTFNOVER"]` (/repo/src/pynmeagps/nmeatypes_set_prop.py:247-247). -/
def SET_PROP.QTMCFGMSGRATE_INTFNOVER : PDict := .single py!"status" QS <| .single py!"porttype" IN <| .single py!"portid" IN <| .single py!"msgname" ST <| .single py!"rate" IN <| .nil

/-- `NMEA_PAYLOADS_SET_PROP["QTMCFGNAVMODE"]` (/repo/src/pynmeagps/nmeatypes_set_prop.py:248-248). -/
def SET_PROP.QTMCFGNAVMODE : PDict := .single py!"status" QS <| .single py!"mode" IN <| .nil

/-- `NMEA_PAYLOADS_SET_PROP["QTMCFGNMEADP"]` (/repo/src/pynmeagps/nmeatypes_set_prop.py:249-249). -/
def SET_PROP.QTMCFGNMEADP : PDict := .single py!"status" QS <| .single py!"utcdp" IN <| .single py!"posdp" IN <| .single py!"altdp" IN <| .single py!"dopdp" IN <| .single py!"spddp" IN <| .single py!"cogdp" IN <| .nil

/-- `NMEA_PAYLOADS_SET_PROP["QTMCFGNMEATID"]` (/repo/src/pynmeagps/nmeatypes_set_prop.py:250-250). -/
def SET_PROP.QTMCFGNMEATID : PDict := .single py!"status" QS <| .single py!"mainTalker" ST <| .single py!"gsvTalker" ST <| .nil

/-- `NMEA_PAYLOADS_SET_PROP["QTMCFGODO"]` (/repo/src/pynmeagps/nmeatypes_set_prop.py:251-251). -/
def SET_PROP.QTMCFGODO : PDict := .single py!"status" QS <| .single py!"state" IN <| .single py!"initdist" DE <| .nil

/-- `NMEA_PAYLOADS_SET_PROP["QTMCFGPPS"]` (/repo/src/pynmeagps/nmeatypes_set_prop.py:252-252). -/
def SET_PROP.QTMCFGPPS : PDict := .single py!"status" QS <| .single py!"ppsindex" IN <| .single py!"enable" IN <| .single py!"duration" IN <| .single py!"ppsmode" IN <| .single py!"polarity" IN <| .single py!"reserved" IN <| .nil

/-- `NMEA_PAYLOADS_SET_PROP["QTMCFGSBAS"]` (/repo/src/pynmeagps/nmeatypes_set_prop.py:253-253). -/
def SET_PROP.QTMCFGSBAS : PDict := .single py!"status" QS <| .single py!"value" HX <| .nil

/-- `NMEA_PAYLOADS_SET_PROP["QTMCFGSIGGRP"]` (/repo/src/pynmeagps/nmeatypes_set_prop.py:254-254). -/
def SET_PROP.QTMCFGSIGGRP : PDict := .single py!"status" QS <| .single py!"siggrpnum" IN <| .nil

/-- `NMEA_PAYLOADS_SET_PROP["QTMCFGPPS_DIS"]` (/repo/src/pynmeagps/nmeatypes_set_prop.py:255-259). -/
def SET_PROP.QTMCFGPPS_DIS : PDict := .single py!"status" QS <| .single py!"ppsindex" IN <| .single py!"enable" IN <| .nil

/-- `NMEA_PAYLOADS_SET_PROP["QTMCFGPROT"]` (/repo/src/pynmeagps/nmeatypes_set_prop.py:260-260). -/
def SET_PROP.QTMCFGPROT : PDict := .single py!"status" QS <| .single py!"porttype" IN <| .single py!"portid" IN <| .single py!"inputprot" ST <| .single py!"outputprot" ST <| .nil

/-- `NMEA_PAYLOADS_SET_PROP["QTMCFGRCVRMODE"]` (/repo/src/pynmeagps/nmeatypes_set_prop.py:261-261). -/
def SET_PROP.QTMCFGRCVRMODE : PDict := .single py!"status" QS <| .single py!"rcvrmode" IN <| .nil

/-- `NMEA_PAYLOADS_SET_PROP["QTMCFGRSID"]` (/repo/src/pynmeagps/nmeatypes_set_prop.py:262-262). -/
def SET_PROP.QTMCFGRSID : PDict := .single py!"status" QS <| .single py!"rsid" IN <| .nil

/-- `NMEA_PAYLOADS_SET_PROP["QTMCFGRTCM"]` (/repo/src/pynmeagps/nmeatypes_set_prop.py:263-263). -/
def SET_PROP.QTMCFGRTCM : PDict := .single py!"status" QS <| .single py!"msmtype" IN <| .single py!"msmmode" IN <| .single py!"msmelevthd" DE <| .single py!"reserved1" ST <| .single py!"reserved2" ST <| .single py!"ephmode" IN <| .single py!"ephinterval" IN <| .nil

/-- `NMEA_PAYLOADS_SET_PROP["QTMCFGRTK"]` (/repo/src/pynmeagps/nmeatypes_set_prop.py:264-264). -/
def SET_PROP.QTMCFGRTK : PDict := .single py!"status" QS <| .single py!"diffmode" IN <| .single py!"relmode" IN <| .nil

/-- `NMEA_PAYLOADS_SET_PROP["QTMCFGRTKSRCTYPE"]` (/repo/src/pynmeagps/nmeatypes_set_prop.py:265-265). -/
def SET_PROP.QTMCFGRTKSRCTYPE : PDict := .single py!"status" QS <| .single py!"srctype" IN <| .nil

/-- `NMEA_PAYLOADS_SET_PROP["QTMCFGSAT_LOW"]` (/repo/src/pynmeagps/nmeatypes_set_prop.py:266-266). -/
def SET_PROP.QTMCFGSAT_LOW : PDict := .single py!"status" QS <| .single py!"systemid" IN <| .single py!"signalid" ST <| .single py!"masklow" ST <| .nil

/-- `NMEA_PAYLOADS_SET_PROP["QTMCFGSAT"]` (/repo/src/pynmeagps/nmeatypes_set_prop.py:267-267). -/
def SET_PROP.QTMCFGSAT : PDict := .single py!"status" QS <| .single py!"systemid" IN <| .single py!"signalid" ST <| .single py!"masklow" ST <| .single py!"maskhigh" ST <| .nil

/-- `NMEA_PAYLOADS_SET_PROP["QTMCFGSIGNAL"]` (/repo/src/pynmeagps/nmeatypes_set_prop.py:268-268). -/
def SET_PROP.QTMCFGSIGNAL : PDict := .single py!"status" QS <| .single py!"gpssig" ST <| .single py!"glonasssig" ST <| .single py!"galileosig" ST <| .single py!"beidousig" ST <| .single py!"qzsssig" ST <| .single py!"navicsig" ST <| .nil

/-- `NMEA_PAYLOADS_SET_PROP["QTMCFGSIGNAL2"]` (/repo/src/pynmeagps/nmeatypes_set_prop.py:269-269). -/
def SET_PROP.QTMCFGSIGNAL2 : PDict := .single py!"status" QS <| .single py!"gpssig" ST <| .single py!"glonasssig" ST <| .single py!"galileosig" ST <| .single py!"beidousig" ST <| .single py!"qzsssig" ST <| .single py!"navicsig" ST <| .nil

/-- `NMEA_PAYLOADS_SET_PROP["QTMCFGSTATICHOLD"]` (/repo/src/pynmeagps/nmeatypes_set_prop.py:270-270). -/
def SET_PROP.QTMCFGSTATICHOLD : PDict := .single py!"status" QS <| .single py!"shstate" IN <| .nil

/-- `NMEA_PAYLOADS_SET_PROP["QTMCFGSVIN"]` (/repo/src/pynmeagps/nmeatypes_set_prop.py:271-271). -/
def SET_PROP.QTMCFGSVIN : PDict := .single py!"status" QS <| .single py!"svinmode" IN <| .single py!"cfgcnt" IN <| .single py!"acclimit" DE <| .single py!"ecefx" DE <| .single py!"ecefy" DE <| .single py!"ecefz" DE <| .nil

/-- `NMEA_PAYLOADS_SET_PROP["QTMCFGWN"]` (/repo/src/pynmeagps/nmeatypes_set_prop.py:272-272). -/
def SET_PROP.QTMCFGWN : PDict := .single py!"status" QS <| .single py!"weekno" IN <| .nil

/-- `NMEA_PAYLOADS_SET_PROP["QTMCFGUART"]` (/repo/src/pynmeagps/nmeatypes_set_prop.py:274-274). -/
def SET_PROP.QTMCFGUART : PDict := .single py!"status" QS <| .single py!"portid" IN <| .single py!"baudrate" IN <| .single py!"databit" IN <| .single py!"parity" IN <| .single py!"stopbit" IN <| .single py!"flowctrl" IN <| .nil

/-- `NMEA_PAYLOADS_SET_PROP["QTMCFGVEHMOT"]` (/repo/src/pynmeagps/nmeatypes_set_prop.py:275-275). -/
def SET_PROP.QTMCFGVEHMOT : PDict := .single py!"status" QS <| .single py!"mode" IN <| .single py!"vehtype" IN <| .nil

/-- `NMEA_PAYLOADS_SET_PROP["QTMCFGUART_BAUD"]` (/repo/src/pynmeagps/nmeatypes_set_prop.py:277-281). -/
def SET_PROP.QTMCFGUART_BAUD : PDict := .single py!"status" QS <| .single py!"portid" IN <| .single py!"baudrate" IN <| .nil

/-- `NMEA_PAYLOADS_SET_PROP["QTMCFGUART_CURR"]` (/repo/src/pynmeagps/nmeatypes_set_prop.py:283-290). -/
def SET_PROP.QTMCFGUART_CURR : PDict := .single py!"status" QS <| .single py!"baudrate" IN <| .single py!"databit" IN <| .single py!"parity" IN <| .single py!"stopbit" IN <| .single py!"flowctrl" IN <| .nil

/-- `NMEA_PAYLOADS_SET_PROP["QTMCFGUART_CURRBAUD"]` (/repo/src/pynmeagps/nmeatypes_set_prop.py:292-295). -/
def SET_PROP.QTMCFGUART_CURRBAUD : PDict := .single py!"status" QS <| .single py!"baudrate" IN <| .nil

/-- `NMEA_PAYLOADS_SET_PROP["QTMCOLD"]` (/repo/src/pynmeagps/nmeatypes_set_prop.py:296-296). -/
def SET_PROP.QTMCOLD : PDict := .nil

/-- `NMEA_PAYLOADS_SET_PROP["QTMDEBUGOFF"]` (/repo/src/pynmeagps/nmeatypes_set_prop.py:297-297). -/
def SET_PROP.QTMDEBUGOFF : PDict := .nil

/-- `NMEA_PAYLOADS_SET_PROP["QTMDEBUGON"]` (/repo/src/pynmeagps/nmeatypes_set_prop.py:298-298). -/
def SET_PROP.QTMDEBUGON : PDict := .nil

/-- `NMEA_PAYLOADS_SET_PROP["QTMDRCLR"]` (/repo/src/pynmeagps/nmeatypes_set_prop.py:299-299). -/
def SET_PROP.QTMDRCLR : PDict := .nil

/-- `NMEA_PAYLOADS_SET_PROP["QTMDRSAVE"]` (/repo/src/pynmeagps/nmeatypes_set_prop.py:300-300). -/
def SET_PROP.QTMDRSAVE : PDict := .nil

/-- `NMEA_PAYLOADS_SET_PROP["QTMGNSSSTART"]` (/repo/src/pynmeagps/nmeatypes_set_prop.py:301-301). -/
def SET_PROP.QTMGNSSSTART : PDict := .nil

/-- `NMEA_PAYLOADS_SET_PROP["QTMGNSSSTOP"]` (/repo/src/pynmeagps/nmeatypes_set_prop.py:302-302). -/
def SET_PROP.QTMGNSSSTOP : PDict := .nil

/-- `NMEA_PAYLOADS_SET_PROP["QTMHOT"]` (/repo/src/pynmeagps/nmeatypes_set_prop.py:303-303). -/
def SET_PROP.QTMHOT : PDict := .nil

/-- `NMEA_PAYLOADS_SET_PROP["QTMRESETODO"]` (/repo/src/pynmeagps/nmeatypes_set_prop.py:304-304). -/
def SET_PROP.QTMRESETODO : PDict := .nil

/-- `NMEA_PAYLOADS_SET_PROP["QTMRESTOREPAR"]` (/repo/src/pynmeagps/nmeatypes_set_prop.py:305-305). -/
def SET_PROP.QTMRESTOREPAR : PDict := .nil

/-- `NMEA_PAYLOADS_SET_PROP["QTMSAVEPAR"]` (/repo/src/pynmeagps/nmeatypes_set_prop.py:306-306). -/
def SET_PROP.QTMSAVEPAR : PDict := .nil

/-- `NMEA_PAYLOADS_SET_PROP["QTMSRR"]` (/repo/src/pynmeagps/nmeatypes_set_prop.py:307-307). -/
def SET_PROP.QTMSRR : PDict := .nil

/-- `NMEA_PAYLOADS_SET_PROP["QTMWARM"]` (/repo/src/pynmeagps/nmeatypes_set_prop.py:308-308). -/
def SET_PROP.QTMWARM : PDict := .nil

/-- `NMEA_PAYLOADS_SET_PROP["STMCOLD"]` (/repo/src/pynmeagps/nmeatypes_set_prop.py:313-313). -/
def SET_PROP.STMCOLD : PDict := .nil

/-- `NMEA_PAYLOADS_SET_PROP["STMWARM"]` (/repo/src/pynmeagps/nmeatypes_set_prop.py:314-314). -/
def SET_PROP.STMWARM : PDict := .nil

/-- `NMEA_PAYLOADS_SET_PROP["STMEPHEM"]` (/repo/src/pynmeagps/nmeatypes_set_prop.py:315-319). -/
def SET_PROP.STMEPHEM : PDict := .single py!"satID" IN <| .single py!"ephdatalen" IN <| .single py!"ephdata" HX <| .nil

/-- `NMEA_PAYLOADS_SET_PROP["STMHOT"]` (/repo/src/pynmeagps/nmeatypes_set_prop.py:320-320). -/
def SET_PROP.STMHOT : PDict := .nil

/-- `NMEA_PAYLOADS_SET_PROP["STMSRR"]` (/repo/src/pynmeagps/nmeatypes_set_prop.py:321-321). -/
def SET_PROP.STMSRR : PDict := .nil

/-- `NMEA_PAYLOADS_SET_PROP["STMSAVEPAR"]` (/repo/src/pynmeagps/nmeatypes_set_prop.py:322-322). -/
def SET_PROP.STMSAVEPAR : PDict := .nil

/-- `NMEA_PAYLOADS_SET_PROP["STMRESTOREPAR"]` (/repo/src/pynmeagps/nmeatypes_set_prop.py:323-323). -/
def SET_PROP.STMRESTOREPAR : PDict := .nil

/-- `NMEA_PAYLOADS_SET_PROP["STMSETPAR"]` (/repo/src/pynmeagps/nmeatypes_set_prop.py:324-330). -/
def SET_PROP.STMSETPAR : PDict := .single py!"parm1" IN <| .single py!"parm2" IN <| .single py!"parm3" IN <| .single py!"parm4" IN <| .single py!"parm5" ST <| .nil

/-- `NMEA_PAYLOADS_SET_PROP["STMIMUSELFTESTCMD"]` (/repo/src/pynmeagps/nmeatypes_set_prop.py:331-331). -/
def SET_PROP.STMIMUSELFTESTCMD : PDict := .single py!"imucat" IN <| .nil

/-- `NMEA_PAYLOADS_SET_PROP["STMINITGPS"]` (/repo/src/pynmeagps/nmeatypes_set_prop.py:332-344). -/
def SET_PROP.STMINITGPS : PDict := .single py!"lat" LA <| .single py!"NS" LAD <| .single py!"lon" LN <| .single py!"EW" LND <| .single py!"alt" DE <| .single py!"day" IN <| .single py!"month" IN <| .single py!"year" IN <| .single py!"hour" IN <| .single py!"minute" IN <| .single py!"second" IN <| .nil

/-- `NMEA_PAYLOADS_SET_PROP["STMINITTIME"]` (/repo/src/pynmeagps/nmeatypes_set_prop.py:345-352). -/
def SET_PROP.STMINITTIME : PDict := .single py!"day" IN <| .single py!"month" IN <| .single py!"year" IN <| .single py!"hour" IN <| .single py!"minute" IN <| .single py!"second" IN <| .nil

/-- `NMEA_PAYLOADS_SET_PROP["STMDRMMFB"]` (/repo/src/pynmeagps/nmeatypes_set_prop.py:353-367). -/
def SET_PROP.STMDRMMFB : PDict := .single py!"timestamp" DE <| .single py!"latval" IN <| .single py!"lonval" IN <| .single py!"heightval" IN <| .single py!"headingval" IN <| .single py!"lat" DE <| .single py!"lon" DE <| .single py!"height" DE <| .single py!"heading" DE <| .single py!"laterr" DE <| .single py!"lonerr" DE <| .single py!"heighterr" DE <| .single py!"headingerr" DE <| .nil

/-- `NMEA_PAYLOADS_SET_PROP["UBX40"]` (/repo/src/pynmeagps/nmeatypes_set_prop.py:371-380). -/
def SET_PROP.UBX40 : PDict := .single py!"msgId" ST <| .single py!"id" ST <| .single py!"rddc" IN <| .single py!"rus1" IN <| .single py!"rus2" IN <| .single py!"rusb" IN <| .single py!"rspi" IN <| .single py!"reserved" IN <| .nil

/-- `NMEA_PAYLOADS_SET_PROP["UBX41"]` (/repo/src/pynmeagps/nmeatypes_set_prop.py:381-388). -/
def SET_PROP.UBX41 : PDict := .single py!"msgId" ST <| .single py!"portId" IN <| .single py!"inProto" HX <| .single py!"outProto" HX <| .single py!"baudRate" IN <| .single py!"autobauding" IN <| .nil

/-- `NMEA_PAYLOADS_SET_PROP` (/repo/src/pynmeagps/nmeatypes_set_prop.py:33-389). -/
def NMEA_PAYLOADS_SET_PROP : List (Str × PDict) := [
  (py!"AIR002", SET_PROP.AIR002),
  (py!"AIR003", SET_PROP.AIR003),
  (py!"AIR004", SET_PROP.AIR004),
  (py!"AIR005", SET_PROP.AIR005),
  (py!"AIR006", SET_PROP.AIR006),
  (py!"AIR007", SET_PROP.AIR007),
  (py!"AIR050", SET_PROP.AIR050),
  (py!"AIR058", SET_PROP.AIR058),
  (py!"AIR062", SET_PROP.AIR062),
  (py!"AIR066", SET_PROP.AIR066),
  (py!"AIR070", SET_PROP.AIR070),
  (py!"AIR072", SET_PROP.AIR072),
  (py!"AIR074", SET_PROP.AIR074),
  (py!"AIR080", SET_PROP.AIR080),
  (py!"AIR086", SET_PROP.AIR086),
  (py!"AIR100", SET_PROP.AIR100),
  (py!"AIR104", SET_PROP.AIR104),
  (py!"AIR382", SET_PROP.AIR382),
  (py!"AIR391", SET_PROP.AIR391),
  (py!"AIR400", SET_PROP.AIR400),
  (py!"AIR410", SET_PROP.AIR410),
  (py!"AIR420", SET_PROP.AIR420),
  (py!"AIR432", SET_PROP.AIR432),
  (py!"AIR434", SET_PROP.AIR434),
  (py!"AIR436", SET_PROP.AIR436),
  (py!"AIR437", SET_PROP.AIR437),
  (py!"AIR490", SET_PROP.AIR490),
  (py!"AIR511", SET_PROP.AIR511),
  (py!"AIR512", SET_PROP.AIR512),
  (py!"AIR513", SET_PROP.AIR513),
  (py!"AIR650", SET_PROP.AIR650),
  (py!"AIR752", SET_PROP.AIR752),
  (py!"AIR864", SET_PROP.AIR864),
  (py!"AIR866", SET_PROP.AIR866),
  (py!"AIR6010", SET_PROP.AIR6010),
  (py!"GRMI", SET_PROP.GRMI),
  (py!"GRMC", SET_PROP.GRMC),
  (py!"GRMC1", SET_PROP.GRMC1),
  (py!"GRMO", SET_PROP.GRMO),
  (py!"GRMW", SET_PROP.GRMW),
  (py!"INVCRES", SET_PROP.INVCRES),
  (py!"INVCSTR", SET_PROP.INVCSTR),
  (py!"INVMSLOPE", SET_PROP.INVMSLOPE),
  (py!"LSC", SET_PROP.LSC),
  (py!"QTMBKP", SET_PROP.QTMBKP),
  (py!"QTMCFGAIC", SET_PROP.QTMCFGAIC),
  (py!"QTMCFGANTDELTA", SET_PROP.QTMCFGANTDELTA),
  (py!"QTMCFGANTINF", SET_PROP.QTMCFGANTINF),
  (py!"QTMCFGBLD", SET_PROP.QTMCFGBLD),
  (py!"QTMCFGCNST", SET_PROP.QTMCFGCNST),
  (py!"QTMCFGDR", SET_PROP.QTMCFGDR),
  (py!"QTMCFGDRHOT", SET_PROP.QTMCFGDRHOT),
  (py!"QTMCFGDRRTD", SET_PROP.QTMCFGDRRTD),
  (py!"QTMCFGEINSMSG", SET_PROP.QTMCFGEINSMSG),
  (py!"QTMCFGELETHD", SET_PROP.QTMCFGELETHD),
  (py!"QTMCFGFIXRATE", SET_PROP.QTMCFGFIXRATE),
  (py!"QTMCFGGEOFENCE_DIS", SET_PROP.QTMCFGGEOFENCE_DIS),
  (py!"QTMCFGGEOFENCE_POLY", SET_PROP.QTMCFGGEOFENCE_POLY),
  (py!"QTMCFGGEOFENCE", SET_PROP.QTMCFGGEOFENCE),
  (py!"QTMCFGGEOSEP", SET_PROP.QTMCFGGEOSEP),
  (py!"QTMCFGIMUINT", SET_PROP.QTMCFGIMUINT),
  (py!"QTMCFGIMUTC", SET_PROP.QTMCFGIMUTC),
  (py!"QTMCFGLA", SET_PROP.QTMCFGLA),
  (py!"QTMCFGLAM", SET_PROP.QTMCFGLAM),
  (py!"QTMCFGMSGRATE", SET_PROP.QTMCFGMSGRATE),
  (py!"QTMCFGMSGRATE_NOVER", SET_PROP.QTMCFGMSGRATE_NOVER),
  (py!"QTMCFGMSGRATE_INTF", SET_PROP.QTMCFGMSGRATE_INTF),
  (py!"QTMCFGMSGRATE_INTFNOVER", SET_PROP.QTMCFGMSGRATE_INTFNOVER),
  (py!"QTMCFGNAVMODE", SET_PROP.QTMCFGNAVMODE),
  (py!"QTMCFGNMEADP", SET_PROP.QTMCFGNMEADP),
  (py!"QTMCFGNMEATID", SET_PROP.QTMCFGNMEATID),
  (py!"QTMCFGODO", SET_PROP.QTMCFGODO),
  (py!"QTMCFGPPS", SET_PROP.QTMCFGPPS),
  (py!"QTMCFGSBAS", SET_PROP.QTMCFGSBAS),
  (py!"QTMCFGSIGGRP", SET_PROP.QTMCFGSIGGRP),
  (py!"QTMCFGPPS_DIS", SET_PROP.QTMCFGPPS_DIS),
  (py!"QTMCFGPROT", SET_PROP.QTMCFGPROT),
  (py!"QTMCFGRCVRMODE", SET_PROP.QTMCFGRCVRMODE),
  (py!"QTMCFGRSID", SET_PROP.QTMCFGRSID),
  (py!"QTMCFGRTCM", SET_PROP.QTMCFGRTCM),
  (py!"QTMCFGRTK", SET_PROP.QTMCFGRTK),
  (py!"QTMCFGRTKSRCTYPE", SET_PROP.QTMCFGRTKSRCTYPE),
  (py!"QTMCFGSAT_LOW", SET_PROP.QTMCFGSAT_LOW),
  (py!"QTMCFGSAT", SET_PROP.QTMCFGSAT),
  (py!"QTMCFGSIGNAL", SET_PROP.QTMCFGSIGNAL),
  (py!"QTMCFGSIGNAL2", SET_PROP.QTMCFGSIGNAL2),
  (py!"QTMCFGSTATICHOLD", SET_PROP.QTMCFGSTATICHOLD),
  (py!"QTMCFGSVIN", SET_PROP.QTMCFGSVIN),
  (py!"QTMCFGWN", SET_PROP.QTMCFGWN),
  (py!"QTMCFGUART", SET_PROP.QTMCFGUART),
  (py!"QTMCFGVEHMOT", SET_PROP.QTMCFGVEHMOT),
  (py!"QTMCFGUART_BAUD", SET_PROP.QTMCFGUART_BAUD),
  (py!"QTMCFGUART_CURR", SET_PROP.QTMCFGUART_CURR),
  (py!"QTMCFGUART_CURRBAUD", SET_PROP.QTMCFGUART_CURRBAUD),
  (py!"QTMCOLD", SET_PROP.QTMCOLD),
  (py!"QTMDEBUGOFF", SET_PROP.QTMDEBUGOFF),
  (py!"QTMDEBUGON", SET_PROP.QTMDEBUGON),
  (py!"QTMDRCLR", SET_PROP.QTMDRCLR),
  (py!"QTMDRSAVE", SET_PROP.QTMDRSAVE),
  (py!"QTMGNSSSTART", SET_PROP.QTMGNSSSTART),
  (py!"QTMGNSSSTOP", SET_PROP.QTMGNSSSTOP),
  (py!"QTMHOT", SET_PROP.QTMHOT),
  (py!"QTMRESETODO", SET_PROP.QTMRESETODO),
  (py!"QTMRESTOREPAR", SET_PROP.QTMRESTOREPAR),
  (py!"QTMSAVEPAR", SET_PROP.QTMSAVEPAR),
  (py!"QTMSRR", SET_PROP.QTMSRR),
  (py!"QTMWARM", SET_PROP.QTMWARM),
  (py!"STMCOLD", SET_PROP.STMCOLD),
  (py!"STMWARM", SET_PROP.STMWARM),
  (py!"STMEPHEM", SET_PROP.STMEPHEM),
  (py!"STMHOT", SET_PROP.STMHOT),
  (py!"STMSRR", SET_PROP.STMSRR),
  (py!"STMSAVEPAR", SET_PROP.STMSAVEPAR),
  (py!"STMRESTOREPAR", SET_PROP.STMRESTOREPAR),
  (py!"STMSETPAR", SET_PROP.STMSETPAR),
  (py!"STMIMUSELFTESTCMD", SET_PROP.STMIMUSELFTESTCMD),
  (py!"STMINITGPS", SET_PROP.STMINITGPS),
  (py!"STMINITTIME", SET_PROP.STMINITTIME),
  (py!"STMDRMMFB", SET_PROP.STMDRMMFB),
  (py!"UBX40", SET_PROP.UBX40),
  (py!"UBX41", SET_PROP.UBX41)]

end Nmea
