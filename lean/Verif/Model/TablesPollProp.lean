import Verif.Model.Types
/- Generated by tools/gen_tables.py from the source text of /repo/src/pynmeagps. -/
namespace Nmea
open Py

/-- `NMEA_PAYLOADS_POLL_PROP["AIR051"]` (/repo/src/pynmeagps/nmeatypes_poll_prop.py:25-25). -/
def POLL_PROP.AIR051 : PDict := .nil

/-- `NMEA_PAYLOADS_POLL_PROP["AIR059"]` (/repo/src/pynmeagps/nmeatypes_poll_prop.py:26-26). -/
def POLL_PROP.AIR059 : PDict := .nil

/-- `NMEA_PAYLOADS_POLL_PROP["AIR063"]` (/repo/src/pynmeagps/nmeatypes_poll_prop.py:27-27). -/
def POLL_PROP.AIR063 : PDict := .single py!"type" IN <| .nil

/-- `NMEA_PAYLOADS_POLL_PROP["AIR067"]` (/repo/src/pynmeagps/nmeatypes_poll_prop.py:28-28). -/
def POLL_PROP.AIR067 : PDict := .nil

/-- `NMEA_PAYLOADS_POLL_PROP["AIR071"]` (/repo/src/pynmeagps/nmeatypes_poll_prop.py:29-29). -/
def POLL_PROP.AIR071 : PDict := .nil

/-- `NMEA_PAYLOADS_POLL_PROP["AIR073"]` (/repo/src/pynmeagps/nmeatypes_poll_prop.py:30-30). -/
def POLL_PROP.AIR073 : PDict := .nil

/-- `NMEA_PAYLOADS_POLL_PROP["AIR075"]` (/repo/src/pynmeagps/nmeatypes_poll_prop.py:31-31). -/
def POLL_PROP.AIR075 : PDict := .nil

/-- `NMEA_PAYLOADS_POLL_PROP["AIR081"]` (/repo/src/pynmeagps/nmeatypes_poll_prop.py:32-32). -/
def POLL_PROP.AIR081 : PDict := .nil

/-- `NMEA_PAYLOADS_POLL_PROP["AIR087"]` (/repo/src/pynmeagps/nmeatypes_poll_prop.py:33-33). -/
def POLL_PROP.AIR087 : PDict := .nil

/-- `NMEA_PAYLOADS_POLL_PROP["AIR101"]` (/repo/src/pynmeagps/nmeatypes_poll_prop.py:34-34). -/
def POLL_PROP.AIR101 : PDict := .nil

/-- `NMEA_PAYLOADS_POLL_PROP["AIR105"]` (/repo/src/pynmeagps/nmeatypes_poll_prop.py:35-35). -/
def POLL_PROP.AIR105 : PDict := .nil

/-- `NMEA_PAYLOADS_POLL_PROP["AIR401"]` (/repo/src/pynmeagps/nmeatypes_poll_prop.py:36-36). -/
def POLL_PROP.AIR401 : PDict := .nil

/-- `NMEA_PAYLOADS_POLL_PROP["AIR411"]` (/repo/src/pynmeagps/nmeatypes_poll_prop.py:37-37). -/
def POLL_PROP.AIR411 : PDict := .nil

/-- `NMEA_PAYLOADS_POLL_PROP["AIR421"]` (/repo/src/pynmeagps/nmeatypes_poll_prop.py:38-38). -/
def POLL_PROP.AIR421 : PDict := .nil

/-- `NMEA_PAYLOADS_POLL_PROP["AIR433"]` (/repo/src/pynmeagps/nmeatypes_poll_prop.py:39-39). -/
def POLL_PROP.AIR433 : PDict := .nil

/-- `NMEA_PAYLOADS_POLL_PROP["AIR435"]` (/repo/src/pynmeagps/nmeatypes_poll_prop.py:40-40). -/
def POLL_PROP.AIR435 : PDict := .nil

/-- `NMEA_PAYLOADS_POLL_PROP["AIR491"]` (/repo/src/pynmeagps/nmeatypes_poll_prop.py:41-41). -/
def POLL_PROP.AIR491 : PDict := .nil

/-- `NMEA_PAYLOADS_POLL_PROP["AIR865"]` (/repo/src/pynmeagps/nmeatypes_poll_prop.py:42-45). -/
def POLL_PROP.AIR865 : PDict := .single py!"portType" IN <| .single py!"portIndex" IN <| .nil

/-- `NMEA_PAYLOADS_POLL_PROP["AIR867"]` (/repo/src/pynmeagps/nmeatypes_poll_prop.py:46-49). -/
def POLL_PROP.AIR867 : PDict := .single py!"portType" IN <| .single py!"portIndex" IN <| .nil

/-- `NMEA_PAYLOADS_POLL_PROP["AIR6011"]` (/repo/src/pynmeagps/nmeatypes_poll_prop.py:50-52). -/
def POLL_PROP.AIR6011 : PDict := .single py!"type" IN <| .nil

/-- `NMEA_PAYLOADS_POLL_PROP["QTMCFGAIC"]` (/repo/src/pynmeagps/nmeatypes_poll_prop.py:59-59). -/
def POLL_PROP.QTMCFGAIC : PDict := .single py!"status" QS <| .nil

/-- `NMEA_PAYLOADS_POLL_PROP["QTMCFGANTDELTA"]` (/repo/src/pynmeagps/nmeatypes_poll_prop.py:60-60). -/
def POLL_PROP.QTMCFGANTDELTA : PDict := .single py!"status" QS <| .nil

/-- `NMEA_PAYLOADS_POLL_PROP["QTMCFGANTINF"]` (/repo/src/pynmeagps/nmeatypes_poll_prop.py:61-61). -/
def POLL_PROP.QTMCFGANTINF : PDict := .single py!"status" QS <| .nil

/-- `NMEA_PAYLOADS_POLL_PROP["QTMCFGBLD"]` (/repo/src/pynmeagps/nmeatypes_poll_prop.py:62-62). -/
def POLL_PROP.QTMCFGBLD : PDict := .single py!"status" QS <| .nil

/-- `NMEA_PAYLOADS_POLL_PROP["QTMCFGCNST"]` (/repo/src/pynmeagps/nmeatypes_poll_prop.py:63-63). -/
def POLL_PROP.QTMCFGCNST : PDict := .single py!"status" QS <| .nil

/-- `NMEA_PAYLOADS_POLL_PROP["QTMCFGDR"]` (/repo/src/pynmeagps/nmeatypes_poll_prop.py:64-64). -/
def POLL_PROP.QTMCFGDR : PDict := .single py!"status" QS <| .nil

/-- `NMEA_PAYLOADS_POLL_PROP["QTMCFGELETHD"]` (/repo/src/pynmeagps/nmeatypes_poll_prop.py:65-65). -/
def POLL_PROP.QTMCFGELETHD : PDict := .single py!"status" QS <| .nil

/-- `NMEA_PAYLOADS_POLL_PROP["QTMCFGFIXRATE"]` (/repo/src/pynmeagps/nmeatypes_poll_prop.py:66-66). -/
def POLL_PROP.QTMCFGFIXRATE : PDict := .single py!"status" QS <| .nil

/-- `NMEA_PAYLOADS_POLL_PROP["QTMCFGGEOFENCE"]` (/repo/src/pynmeagps/nmeatypes_poll_prop.py:67-67). -/
def POLL_PROP.QTMCFGGEOFENCE : PDict := .single py!"status" QS <| .single py!"geofenceindex" IN <| .nil

/-- `NMEA_PAYLOADS_POLL_PROP["QTMCFGGEOSEP"]` (/repo/src/pynmeagps/nmeatypes_poll_prop.py:68-68). -/
def POLL_PROP.QTMCFGGEOSEP : PDict := .single py!"status" QS <| .nil

/-- `NMEA_PAYLOADS_POLL_PROP["QTMCFGIMUINT"]` (/repo/src/pynmeagps/nmeatypes_poll_prop.py:69-69). -/
def POLL_PROP.QTMCFGIMUINT : PDict := .single py!"status" QS <| .nil

/-- `NMEA_PAYLOADS_POLL_PROP["QTMCFGLA"]` (/repo/src/pynmeagps/nmeatypes_poll_prop.py:70-70). -/
def POLL_PROP.QTMCFGLA : PDict := .single py!"status" QS <| .nil

/-- `NMEA_PAYLOADS_POLL_PROP["QTMCFGLAM"]` (/repo/src/pynmeagps/nmeatypes_poll_prop.py:71-71). -/
def POLL_PROP.QTMCFGLAM : PDict := .single py!"status" QS <| .nil

/-- `NMEA_PAYLOADS_POLL_PROP["QTMCFGMSGRATE"]` (/repo/src/pynmeagps/nmeatypes_poll_prop.py:72-72). -/
def POLL_PROP.QTMCFGMSGRATE : PDict := .single py!"status" QS <| .single py!"msgname" ST <| .single py!"msgver" IN <| .nil

/-- `NMEA_PAYLOADS_POLL_PROP["QTMCFGMSGRATE_NOVER"]` (/repo/src/pynmeagps/nmeatypes_poll_prop.py:73-73). -/
def POLL_PROP.QTMCFGMSGRATE_NOVER : PDict := .single py!"status" QS <| .single py!"msgname" ST <| .nil

/-- `NMEA_PAYLOADS_POLL_PROP["QTMCFGMSGRATE_INTF"]` (/repo/src/pynmeagps/nmeatypes_poll_prop.py:74-80). -/
def POLL_PROP.QTMCFGMSGRATE_INTF : PDict := .single py!"status" QS <| .single py!"porttype" IN <| .single py!"portid" IN <| .single py!"msgname" ST <| .single py!"msgver" IN <| .nil

/-- `NMEA_PAYLOADS_POLL_PROP["QTMCFGMSGRATE_INTFNOVER"]` (/repo/src/pynmeagps/nmeatypes_poll_prop.py:81-86). -/
def POLL_PROP.QTMCFGMSGRATE_INTFNOVER : PDict := .single py!"status" QS <| .single py!"porttype" IN <| .single py!"portid" IN <| .single py!"msgname" ST <| .nil

/-- `NMEA_PAYLOADS_POLL_PROP["QTMCFGNAVMODE"]` (/repo/src/pynmeagps/nmeatypes_poll_prop.py:87-87). -/
def POLL_PROP.QTMCFGNAVMODE : PDict := .single py!"status" QS <| .nil

/-- `NMEA_PAYLOADS_POLL_PROP["QTMCFGNMEADP"]` (/repo/src/pynmeagps/nmeatypes_poll_prop.py:88-88). -/
def POLL_PROP.QTMCFGNMEADP : PDict := .single py!"status" QS <| .nil

/-- `NMEA_PAYLOADS_POLL_PROP["QTMCFGNMEATID"]` (/repo/src/pynmeagps/nmeatypes_poll_prop.py:89-89). -/
def POLL_PROP.QTMCFGNMEATID : PDict := .single py!"status" QS <| .nil

/-- `NMEA_PAYLOADS_POLL_PROP["QTMCFGODO"]` (/repo/src/pynmeagps/nmeatypes_poll_prop.py:90-90). -/
def POLL_PROP.QTMCFGODO : PDict := .single py!"status" QS <| .nil

/-- `NMEA_PAYLOADS_POLL_PROP["QTMCFGPPS"]` (/repo/src/pynmeagps/nmeatypes_poll_prop.py:91-91). -/
def POLL_PROP.QTMCFGPPS : PDict := .single py!"status" QS <| .single py!"ppsindex" IN <| .nil

/-- `NMEA_PAYLOADS_POLL_PROP["QTMCFGPROT"]` (/repo/src/pynmeagps/nmeatypes_poll_prop.py:92-92). -/
def POLL_PROP.QTMCFGPROT : PDict := .single py!"status" QS <| .single py!"porttype" IN <| .single py!"portid" IN <| .nil

/-- `NMEA_PAYLOADS_POLL_PROP["QTMCFGRCVRMODE"]` (/repo/src/pynmeagps/nmeatypes_poll_prop.py:93-93). -/
def POLL_PROP.QTMCFGRCVRMODE : PDict := .single py!"status" QS <| .nil

/-- `NMEA_PAYLOADS_POLL_PROP["QTMCFGRSID"]` (/repo/src/pynmeagps/nmeatypes_poll_prop.py:94-94). -/
def POLL_PROP.QTMCFGRSID : PDict := .single py!"status" QS <| .nil

/-- `NMEA_PAYLOADS_POLL_PROP["QTMCFGRTCM"]` (/repo/src/pynmeagps/nmeatypes_poll_prop.py:95-95). -/
def POLL_PROP.QTMCFGRTCM : PDict := .single py!"status" QS <| .nil

/-- `NMEA_PAYLOADS_POLL_PROP["QTMCFGRTK"]` (/repo/src/pynmeagps/nmeatypes_poll_prop.py:96-96). -/
def POLL_PROP.QTMCFGRTK : PDict := .single py!"status" QS <| .nil

/-- `NMEA_PAYLOADS_POLL_PROP["QTMCFGRTKSRCTYPE"]` (/repo/src/pynmeagps/nmeatypes_poll_prop.py:97-97). -/
def POLL_PROP.QTMCFGRTKSRCTYPE : PDict := .single py!"status" QS <| .nil

/-- `NMEA_PAYLOADS_POLL_PROP["QTMCFGSAT"]` (/repo/src/pynmeagps/nmeatypes_poll_prop.py:98-98). -/
def POLL_PROP.QTMCFGSAT : PDict := .single py!"status" QS <| .single py!"systemid" IN <| .single py!"signalid" ST <| .nil

/-- `NMEA_PAYLOADS_POLL_PROP["QTMCFGSBAS"]` (/repo/src/pynmeagps/nmeatypes_poll_prop.py:99-99). -/
def POLL_PROP.QTMCFGSBAS : PDict := .single py!"status" QS <| .nil

/-- `NMEA_PAYLOADS_POLL_PROP["QTMCFGSIGGRP"]` (/repo/src/pynmeagps/nmeatypes_poll_prop.py:100-100). -/
def POLL_PROP.QTMCFGSIGGRP : PDict := .single py!"status" QS <| .nil

/-- `NMEA_PAYLOADS_POLL_PROP["QTMCFGSIGNAL"]` (/repo/src/pynmeagps/nmeatypes_poll_prop.py:101-101). -/
def POLL_PROP.QTMCFGSIGNAL : PDict := .single py!"status" QS <| .nil

/-- `NMEA_PAYLOADS_POLL_PROP["QTMCFGSIGNAL2"]` (/repo/src/pynmeagps/nmeatypes_poll_prop.py:102-102). -/
def POLL_PROP.QTMCFGSIGNAL2 : PDict := .single py!"status" QS <| .nil

/-- `NMEA_PAYLOADS_POLL_PROP["QTMCFGSTATICHOLD"]` (/repo/src/pynmeagps/nmeatypes_poll_prop.py:103-103). -/
def POLL_PROP.QTMCFGSTATICHOLD : PDict := .single py!"status" QS <| .nil

/-- `NMEA_PAYLOADS_POLL_PROP["QTMCFGSVIN"]` (/repo/src/pynmeagps/nmeatypes_poll_prop.py:104-104). -/
def POLL_PROP.QTMCFGSVIN : PDict := .single py!"status" QS <| .nil

/-- `NMEA_PAYLOADS_POLL_PROP["QTMCFGUART_CURR"]` (/repo/src/pynmeagps/nmeatypes_poll_prop.py:105-105). -/
def POLL_PROP.QTMCFGUART_CURR : PDict := .single py!"status" QS <| .nil

/-- `NMEA_PAYLOADS_POLL_PROP["QTMCFGUART"]` (/repo/src/pynmeagps/nmeatypes_poll_prop.py:106-106). -/
def POLL_PROP.QTMCFGUART : PDict := .single py!"status" QS <| .single py!"portid" IN <| .nil

/-- `NMEA_PAYLOADS_POLL_PROP["QTMCFGVEHMOT"]` (/repo/src/pynmeagps/nmeatypes_poll_prop.py:107-107). -/
def POLL_PROP.QTMCFGVEHMOT : PDict := .single py!"status" QS <| .nil

/-- `NMEA_PAYLOADS_POLL_PROP["QTMCFGWN"]` (/repo/src/pynmeagps/nmeatypes_poll_prop.py:108-108). -/
def POLL_PROP.QTMCFGWN : PDict := .single py!"status" QS <| .nil

/-- `NMEA_PAYLOADS_POLL_PROP["QTMGETUTC"]` (/repo/src/pynmeagps/nmeatypes_poll_prop.py:109-109). -/
def POLL_PROP.QTMGETUTC : PDict := .nil

/-- `NMEA_PAYLOADS_POLL_PROP["QTMQVER"]` (/repo/src/pynmeagps/nmeatypes_poll_prop.py:110-110). -/
def POLL_PROP.QTMQVER : PDict := .single py!"msgver" IN <| .nil

/-- `NMEA_PAYLOADS_POLL_PROP["QTMSN"]` (/repo/src/pynmeagps/nmeatypes_poll_prop.py:111-111). -/
def POLL_PROP.QTMSN : PDict := .nil

/-- `NMEA_PAYLOADS_POLL_PROP["QTMUNIQID"]` (/repo/src/pynmeagps/nmeatypes_poll_prop.py:112-112). -/
def POLL_PROP.QTMUNIQID : PDict := .nil

/-- `NMEA_PAYLOADS_POLL_PROP["QTMVEHATT"]` (/repo/src/pynmeagps/nmeatypes_poll_prop.py:113-113). -/
def POLL_PROP.QTMVEHATT : PDict := .nil

/-- `NMEA_PAYLOADS_POLL_PROP["QTMVERNO"]` (/repo/src/pynmeagps/nmeatypes_poll_prop.py:114-114). -/
def POLL_PROP.QTMVERNO : PDict := .nil

/-- `NMEA_PAYLOADS_POLL_PROP` (/repo/src/pynmeagps/nmeatypes_poll_prop.py:20-115). -/
def NMEA_PAYLOADS_POLL_PROP : List (Str × PDict) := [
  (py!"AIR051", POLL_PROP.AIR051),
  (py!"AIR059", POLL_PROP.AIR059),
  (py!"AIR063", POLL_PROP.AIR063),
  (py!"AIR067", POLL_PROP.AIR067),
  (py!"AIR071", POLL_PROP.AIR071),
  (py!"AIR073", POLL_PROP.AIR073),
  (py!"AIR075", POLL_PROP.AIR075),
  (py!"AIR081", POLL_PROP.AIR081),
  (py!"AIR087", POLL_PROP.AIR087),
  (py!"AIR101", POLL_PROP.AIR101),
  (py!"AIR105", POLL_PROP.AIR105),
  (py!"AIR401", POLL_PROP.AIR401),
  (py!"AIR411", POLL_PROP.AIR411),
  (py!"AIR421", POLL_PROP.AIR421),
  (py!"AIR433", POLL_PROP.AIR433),
  (py!"AIR435", POLL_PROP.AIR435),
  (py!"AIR491", POLL_PROP.AIR491),
  (py!"AIR865", POLL_PROP.AIR865),
  (py!"AIR867", POLL_PROP.AIR867),
  (py!"AIR6011", POLL_PROP.AIR6011),
  (py!"QTMCFGAIC", POLL_PROP.QTMCFGAIC),
  (py!"QTMCFGANTDELTA", POLL_PROP.QTMCFGANTDELTA),
  (py!"QTMCFGANTINF", POLL_PROP.QTMCFGANTINF),
  (py!"QTMCFGBLD", POLL_PROP.QTMCFGBLD),
  (py!"QTMCFGCNST", POLL_PROP.QTMCFGCNST),
  (py!"QTMCFGDR", POLL_PROP.QTMCFGDR),
  (py!"QTMCFGELETHD", POLL_PROP.QTMCFGELETHD),
  (py!"QTMCFGFIXRATE", POLL_PROP.QTMCFGFIXRATE),
  (py!"QTMCFGGEOFENCE", POLL_PROP.QTMCFGGEOFENCE),
  (py!"QTMCFGGEOSEP", POLL_PROP.QTMCFGGEOSEP),
  (py!"QTMCFGIMUINT", POLL_PROP.QTMCFGIMUINT),
  (py!"QTMCFGLA", POLL_PROP.QTMCFGLA),
  (py!"QTMCFGLAM", POLL_PROP.QTMCFGLAM),
  (py!"QTMCFGMSGRATE", POLL_PROP.QTMCFGMSGRATE),
  (py!"QTMCFGMSGRATE_NOVER", POLL_PROP.QTMCFGMSGRATE_NOVER),
  (py!"QTMCFGMSGRATE_INTF", POLL_PROP.QTMCFGMSGRATE_INTF),
  (py!"QTMCFGMSGRATE_INTFNOVER", POLL_PROP.QTMCFGMSGRATE_INTFNOVER),
  (py!"QTMCFGNAVMODE", POLL_PROP.QTMCFGNAVMODE),
  (py!"QTMCFGNMEADP", POLL_PROP.QTMCFGNMEADP),
  (py!"QTMCFGNMEATID", POLL_PROP.QTMCFGNMEATID),
  (py!"QTMCFGODO", POLL_PROP.QTMCFGODO),
  (py!"QTMCFGPPS", POLL_PROP.QTMCFGPPS),
  (py!"QTMCFGPROT", POLL_PROP.QTMCFGPROT),
  (py!"QTMCFGRCVRMODE", POLL_PROP.QTMCFGRCVRMODE),
  (py!"QTMCFGRSID", POLL_PROP.QTMCFGRSID),
  (py!"QTMCFGRTCM", POLL_PROP.QTMCFGRTCM),
  (py!"QTMCFGRTK", POLL_PROP.QTMCFGRTK),
  (py!"QTMCFGRTKSRCTYPE", POLL_PROP.QTMCFGRTKSRCTYPE),
  (py!"QTMCFGSAT", POLL_PROP.QTMCFGSAT),
  (py!"QTMCFGSBAS", POLL_PROP.QTMCFGSBAS),
  (py!"QTMCFGSIGGRP", POLL_PROP.QTMCFGSIGGRP),
  (py!"QTMCFGSIGNAL", POLL_PROP.QTMCFGSIGNAL),
  (py!"QTMCFGSIGNAL2", POLL_PROP.QTMCFGSIGNAL2),
  (py!"QTMCFGSTATICHOLD", POLL_PROP.QTMCFGSTATICHOLD),
  (py!"QTMCFGSVIN", POLL_PROP.QTMCFGSVIN),
  (py!"QTMCFGUART_CURR", POLL_PROP.QTMCFGUART_CURR),
  (py!"QTMCFGUART", POLL_PROP.QTMCFGUART),
  (py!"QTMCFGVEHMOT", POLL_PROP.QTMCFGVEHMOT),
  (py!"QTMCFGWN", POLL_PROP.QTMCFGWN),
  (py!"QTMGETUTC", POLL_PROP.QTMGETUTC),
  (py!"QTMQVER", POLL_PROP.QTMQVER),
  (py!"QTMSN", POLL_PROP.QTMSN),
  (py!"QTMUNIQID", POLL_PROP.QTMUNIQID),
  (py!"QTMVEHATT", POLL_PROP.QTMVEHATT),
  (py!"QTMVERNO", POLL_PROP.QTMVERNO)]

end Nmea
