import Verif.Model.Types
/- Generated by tools/gen_tables.py from the source text of /repo/src/pynmeagps. -/
namespace Nmea
open Py

/-- `NMEA_PAYLOADS_POLL["GAQ"]` (/repo/src/pynmeagps/nmeatypes_poll.py:24-26). -/
def POLL.GAQ : PDict := .single py!"msgId" ST <| .nil

/-- `NMEA_PAYLOADS_POLL["GBQ"]` (/repo/src/pynmeagps/nmeatypes_poll.py:27-29). -/
def POLL.GBQ : PDict := .single py!"msgId" ST <| .nil

/-- `NMEA_PAYLOADS_POLL["GLQ"]` (/repo/src/pynmeagps/nmeatypes_poll.py:30-32). -/
def POLL.GLQ : PDict := .single py!"msgId" ST <| .nil

/-- `NMEA_PAYLOADS_POLL["GNQ"]` (/repo/src/pynmeagps/nmeatypes_poll.py:33-35). -/
def POLL.GNQ : PDict := .single py!"msgId" ST <| .nil

/-- `NMEA_PAYLOADS_POLL["GPQ"]` (/repo/src/pynmeagps/nmeatypes_poll.py:36-38). -/
def POLL.GPQ : PDict := .single py!"msgId" ST <| .nil

/-- `NMEA_PAYLOADS_POLL["GQQ"]` (/repo/src/pynmeagps/nmeatypes_poll.py:39-41). -/
def POLL.GQQ : PDict := .single py!"msgId" ST <| .nil

/-- `NMEA_PAYLOADS_POLL["UBX00"]` (/repo/src/pynmeagps/nmeatypes_poll.py:46-48). -/
def POLL.UBX00 : PDict := .single py!"msgId" ST <| .nil

/-- `NMEA_PAYLOADS_POLL["UBX03"]` (/repo/src/pynmeagps/nmeatypes_poll.py:49-51). -/
def POLL.UBX03 : PDict := .single py!"msgId" ST <| .nil

/-- `NMEA_PAYLOADS_POLL["UBX04"]` (/repo/src/pynmeagps/nmeatypes_poll.py:52-54). -/
def POLL.UBX04 : PDict := .single py!"msgId" ST <| .nil

/-- `NMEA_PAYLOADS_POLL["UBX05"]` (/repo/src/pynmeagps/nmeatypes_poll.py:55-57). -/
def POLL.UBX05 : PDict := .single py!"msgId" ST <| .nil

/-- `NMEA_PAYLOADS_POLL["UBX06"]` (/repo/src/pynmeagps/nmeatypes_poll.py:58-60). -/
def POLL.UBX06 : PDict := .single py!"msgId" ST <| .nil

/-- `NMEA_PAYLOADS_POLL["GRMB"]` (/repo/src/pynmeagps/nmeatypes_poll.py:62-62). -/
def POLL.GRMB : PDict := .nil

/-- `NMEA_PAYLOADS_POLL["GRMC"]` (/repo/src/pynmeagps/nmeatypes_poll.py:63-63). -/
def POLL.GRMC : PDict := .nil

/-- `NMEA_PAYLOADS_POLL["GRMC1"]` (/repo/src/pynmeagps/nmeatypes_poll.py:64-64). -/
def POLL.GRMC1 : PDict := .nil

/-- `NMEA_PAYLOADS_POLL["GRME"]` (/repo/src/pynmeagps/nmeatypes_poll.py:65-65). -/
def POLL.GRME : PDict := .nil

/-- `NMEA_PAYLOADS_POLL["GRMF"]` (/repo/src/pynmeagps/nmeatypes_poll.py:66-66). -/
def POLL.GRMF : PDict := .nil

/-- `NMEA_PAYLOADS_POLL["GRMH"]` (/repo/src/pynmeagps/nmeatypes_poll.py:67-67). -/
def POLL.GRMH : PDict := .nil

/-- `NMEA_PAYLOADS_POLL["GRMI"]` (/repo/src/pynmeagps/nmeatypes_poll.py:68-68). -/
def POLL.GRMI : PDict := .nil

/-- `NMEA_PAYLOADS_POLL["GRMM"]` (/repo/src/pynmeagps/nmeatypes_poll.py:69-69). -/
def POLL.GRMM : PDict := .nil

/-- `NMEA_PAYLOADS_POLL["GRMO"]` (/repo/src/pynmeagps/nmeatypes_poll.py:70-70). -/
def POLL.GRMO : PDict := .nil

/-- `NMEA_PAYLOADS_POLL["GRMT"]` (/repo/src/pynmeagps/nmeatypes_poll.py:71-71). -/
def POLL.GRMT : PDict := .nil

/-- `NMEA_PAYLOADS_POLL["GRMV"]` (/repo/src/pynmeagps/nmeatypes_poll.py:72-72). -/
def POLL.GRMV : PDict := .nil

/-- `NMEA_PAYLOADS_POLL["GRMW"]` (/repo/src/pynmeagps/nmeatypes_poll.py:73-73). -/
def POLL.GRMW : PDict := .nil

/-- `NMEA_PAYLOADS_POLL["GRMZ"]` (/repo/src/pynmeagps/nmeatypes_poll.py:74-74). -/
def POLL.GRMZ : PDict := .nil

/-- `NMEA_PAYLOADS_POLL["ASHRALR"]` (/repo/src/pynmeagps/nmeatypes_poll.py:76-78). -/
def POLL.ASHRALR : PDict := .single py!"msgId" ST <| .nil

/-- `NMEA_PAYLOADS_POLL["ASHRARA"]` (/repo/src/pynmeagps/nmeatypes_poll.py:79-81). -/
def POLL.ASHRARA : PDict := .single py!"msgId" ST <| .nil

/-- `NMEA_PAYLOADS_POLL["ASHRARR"]` (/repo/src/pynmeagps/nmeatypes_poll.py:82-84). -/
def POLL.ASHRARR : PDict := .single py!"msgId" ST <| .nil

/-- `NMEA_PAYLOADS_POLL["ASHRATT"]` (/repo/src/pynmeagps/nmeatypes_poll.py:85-87). -/
def POLL.ASHRATT : PDict := .single py!"msgId" ST <| .nil

/-- `NMEA_PAYLOADS_POLL["ASHRBTS"]` (/repo/src/pynmeagps/nmeatypes_poll.py:88-90). -/
def POLL.ASHRBTS : PDict := .single py!"msgId" ST <| .nil

/-- `NMEA_PAYLOADS_POLL["ASHRCAP"]` (/repo/src/pynmeagps/nmeatypes_poll.py:91-93). -/
def POLL.ASHRCAP : PDict := .single py!"msgId" ST <| .nil

/-- `NMEA_PAYLOADS_POLL["ASHRCPA"]` (/repo/src/pynmeagps/nmeatypes_poll.py:94-96). -/
def POLL.ASHRCPA : PDict := .single py!"msgId" ST <| .nil

/-- `NMEA_PAYLOADS_POLL["ASHRCPO"]` (/repo/src/pynmeagps/nmeatypes_poll.py:97-99). -/
def POLL.ASHRCPO : PDict := .single py!"msgId" ST <| .nil

/-- `NMEA_PAYLOADS_POLL["ASHRDDM"]` (/repo/src/pynmeagps/nmeatypes_poll.py:100-102). -/
def POLL.ASHRDDM : PDict := .single py!"msgId" ST <| .nil

/-- `NMEA_PAYLOADS_POLL["ASHRDDS"]` (/repo/src/pynmeagps/nmeatypes_poll.py:103-105). -/
def POLL.ASHRDDS : PDict := .single py!"msgId" ST <| .nil

/-- `NMEA_PAYLOADS_POLL["ASHRHPR"]` (/repo/src/pynmeagps/nmeatypes_poll.py:106-108). -/
def POLL.ASHRHPR : PDict := .single py!"msgId" ST <| .nil

/-- `NMEA_PAYLOADS_POLL["ASHRHR"]` (/repo/src/pynmeagps/nmeatypes_poll.py:109-111). -/
def POLL.ASHRHR : PDict := .single py!"msgId" ST <| .nil

/-- `NMEA_PAYLOADS_POLL["ASHRLTN"]` (/repo/src/pynmeagps/nmeatypes_poll.py:112-114). -/
def POLL.ASHRLTN : PDict := .single py!"msgId" ST <| .nil

/-- `NMEA_PAYLOADS_POLL["ASHRMDM"]` (/repo/src/pynmeagps/nmeatypes_poll.py:115-117). -/
def POLL.ASHRMDM : PDict := .single py!"msgId" ST <| .nil

/-- `NMEA_PAYLOADS_POLL["ASHRPOS"]` (/repo/src/pynmeagps/nmeatypes_poll.py:118-120). -/
def POLL.ASHRPOS : PDict := .single py!"msgId" ST <| .nil

/-- `NMEA_PAYLOADS_POLL["ASHRPBN"]` (/repo/src/pynmeagps/nmeatypes_poll.py:121-123). -/
def POLL.ASHRPBN : PDict := .single py!"msgId" ST <| .nil

/-- `NMEA_PAYLOADS_POLL["ASHRPTT"]` (/repo/src/pynmeagps/nmeatypes_poll.py:124-126). -/
def POLL.ASHRPTT : PDict := .single py!"msgId" ST <| .nil

/-- `NMEA_PAYLOADS_POLL["ASHRPWR"]` (/repo/src/pynmeagps/nmeatypes_poll.py:127-129). -/
def POLL.ASHRPWR : PDict := .single py!"msgId" ST <| .nil

/-- `NMEA_PAYLOADS_POLL["ASHRRCS"]` (/repo/src/pynmeagps/nmeatypes_poll.py:130-132). -/
def POLL.ASHRRCS : PDict := .single py!"msgId" ST <| .nil

/-- `NMEA_PAYLOADS_POLL["ASHRSBD"]` (/repo/src/pynmeagps/nmeatypes_poll.py:133-135). -/
def POLL.ASHRSBD : PDict := .single py!"msgId" ST <| .nil

/-- `NMEA_PAYLOADS_POLL["ASHRSGA"]` (/repo/src/pynmeagps/nmeatypes_poll.py:136-138). -/
def POLL.ASHRSGA : PDict := .single py!"msgId" ST <| .nil

/-- `NMEA_PAYLOADS_POLL["ASHRSGL"]` (/repo/src/pynmeagps/nmeatypes_poll.py:139-141). -/
def POLL.ASHRSGL : PDict := .single py!"msgId" ST <| .nil

/-- `NMEA_PAYLOADS_POLL["ASHRSGO"]` (/repo/src/pynmeagps/nmeatypes_poll.py:142-144). -/
def POLL.ASHRSGO : PDict := .single py!"msgId" ST <| .nil

/-- `NMEA_PAYLOADS_POLL["ASHRSGP"]` (/repo/src/pynmeagps/nmeatypes_poll.py:145-147). -/
def POLL.ASHRSGP : PDict := .single py!"msgId" ST <| .nil

/-- `NMEA_PAYLOADS_POLL["ASHRSIR"]` (/repo/src/pynmeagps/nmeatypes_poll.py:148-150). -/
def POLL.ASHRSIR : PDict := .single py!"msgId" ST <| .nil

/-- `NMEA_PAYLOADS_POLL["ASHRSLB"]` (/repo/src/pynmeagps/nmeatypes_poll.py:151-153). -/
def POLL.ASHRSLB : PDict := .single py!"msgId" ST <| .nil

/-- `NMEA_PAYLOADS_POLL["ASHRSQZ"]` (/repo/src/pynmeagps/nmeatypes_poll.py:154-156). -/
def POLL.ASHRSQZ : PDict := .single py!"msgId" ST <| .nil

/-- `NMEA_PAYLOADS_POLL["ASHRSSB"]` (/repo/src/pynmeagps/nmeatypes_poll.py:157-159). -/
def POLL.ASHRSSB : PDict := .single py!"msgId" ST <| .nil

/-- `NMEA_PAYLOADS_POLL["ASHRTEM"]` (/repo/src/pynmeagps/nmeatypes_poll.py:160-162). -/
def POLL.ASHRTEM : PDict := .single py!"msgId" ST <| .nil

/-- `NMEA_PAYLOADS_POLL["ASHRTHS"]` (/repo/src/pynmeagps/nmeatypes_poll.py:163-165). -/
def POLL.ASHRTHS : PDict := .single py!"msgId" ST <| .nil

/-- `NMEA_PAYLOADS_POLL["ASHRTTT"]` (/repo/src/pynmeagps/nmeatypes_poll.py:166-168). -/
def POLL.ASHRTTT : PDict := .single py!"msgId" ST <| .nil

/-- `NMEA_PAYLOADS_POLL["ASHRVCR"]` (/repo/src/pynmeagps/nmeatypes_poll.py:169-171). -/
def POLL.ASHRVCR : PDict := .single py!"msgId" ST <| .nil

/-- `NMEA_PAYLOADS_POLL["ASHRVCT"]` (/repo/src/pynmeagps/nmeatypes_poll.py:172-174). -/
def POLL.ASHRVCT : PDict := .single py!"msgId" ST <| .nil

/-- `NMEA_PAYLOADS_POLL["ASHRVEL"]` (/repo/src/pynmeagps/nmeatypes_poll.py:175-177). -/
def POLL.ASHRVEL : PDict := .single py!"msgId" ST <| .nil

/-- `NMEA_PAYLOADS_POLL["FUGDP"]` (/repo/src/pynmeagps/nmeatypes_poll.py:178-178). -/
def POLL.FUGDP : PDict := .nil

/-- `NMEA_PAYLOADS_POLL["GPPADV110"]` (/repo/src/pynmeagps/nmeatypes_poll.py:179-181). -/
def POLL.GPPADV110 : PDict := .single py!"msgId" ST <| .nil

/-- `NMEA_PAYLOADS_POLL["GPPADV120"]` (/repo/src/pynmeagps/nmeatypes_poll.py:182-184). -/
def POLL.GPPADV120 : PDict := .single py!"msgId" ST <| .nil

/-- `NMEA_PAYLOADS_POLL["TNLAVR"]` (/repo/src/pynmeagps/nmeatypes_poll.py:185-187). -/
def POLL.TNLAVR : PDict := .single py!"msgId" ST <| .nil

/-- `NMEA_PAYLOADS_POLL["TNLBPQ"]` (/repo/src/pynmeagps/nmeatypes_poll.py:188-190). -/
def POLL.TNLBPQ : PDict := .single py!"msgId" ST <| .nil

/-- `NMEA_PAYLOADS_POLL["TNLDG"]` (/repo/src/pynmeagps/nmeatypes_poll.py:191-193). -/
def POLL.TNLDG : PDict := .single py!"msgId" ST <| .nil

/-- `NMEA_PAYLOADS_POLL["TNLEVT"]` (/repo/src/pynmeagps/nmeatypes_poll.py:194-196). -/
def POLL.TNLEVT : PDict := .single py!"msgId" ST <| .nil

/-- `NMEA_PAYLOADS_POLL["TNLGGK"]` (/repo/src/pynmeagps/nmeatypes_poll.py:197-199). -/
def POLL.TNLGGK : PDict := .single py!"msgId" ST <| .nil

/-- `NMEA_PAYLOADS_POLL["TNLGGKx"]` (/repo/src/pynmeagps/nmeatypes_poll.py:200-202). -/
def POLL.TNLGGKx : PDict := .single py!"msgId" ST <| .nil

/-- `NMEA_PAYLOADS_POLL["TNLPJK"]` (/repo/src/pynmeagps/nmeatypes_poll.py:203-205). -/
def POLL.TNLPJK : PDict := .single py!"msgId" ST <| .nil

/-- `NMEA_PAYLOADS_POLL["TNLPJT"]` (/repo/src/pynmeagps/nmeatypes_poll.py:206-208). -/
def POLL.TNLPJT : PDict := .single py!"msgId" ST <| .nil

/-- `NMEA_PAYLOADS_POLL["TNLREX"]` (/repo/src/pynmeagps/nmeatypes_poll.py:209-211). -/
def POLL.TNLREX : PDict := .single py!"msgId" ST <| .nil

/-- `NMEA_PAYLOADS_POLL["TNLVGK"]` (/repo/src/pynmeagps/nmeatypes_poll.py:212-214). -/
def POLL.TNLVGK : PDict := .single py!"msgId" ST <| .nil

/-- `NMEA_PAYLOADS_POLL["TNLVHD"]` (/repo/src/pynmeagps/nmeatypes_poll.py:215-217). -/
def POLL.TNLVHD : PDict := .single py!"msgId" ST <| .nil

/-- `NMEA_PAYLOADS_POLL` (/repo/src/pynmeagps/nmeatypes_poll.py:20-218). -/
def NMEA_PAYLOADS_POLL : List (Str × PDict) := [
  (py!"GAQ", POLL.GAQ),
  (py!"GBQ", POLL.GBQ),
  (py!"GLQ", POLL.GLQ),
  (py!"GNQ", POLL.GNQ),
  (py!"GPQ", POLL.GPQ),
  (py!"GQQ", POLL.GQQ),
  (py!"UBX00", POLL.UBX00),
  (py!"UBX03", POLL.UBX03),
  (py!"UBX04", POLL.UBX04),
  (py!"UBX05", POLL.UBX05),
  (py!"UBX06", POLL.UBX06),
  (py!"GRMB", POLL.GRMB),
  (py!"GRMC", POLL.GRMC),
  (py!"GRMC1", POLL.GRMC1),
  (py!"GRME", POLL.GRME),
  (py!"GRMF", POLL.GRMF),
  (py!"GRMH", POLL.GRMH),
  (py!"GRMI", POLL.GRMI),
  (py!"GRMM", POLL.GRMM),
  (py!"GRMO", POLL.GRMO),
  (py!"GRMT", POLL.GRMT),
  (py!"GRMV", POLL.GRMV),
  (py!"GRMW", POLL.GRMW),
  (py!"GRMZ", POLL.GRMZ),
  (py!"ASHRALR", POLL.ASHRALR),
  (py!"ASHRARA", POLL.ASHRARA),
  (py!"ASHRARR", POLL.ASHRARR),
  (py!"ASHRATT", POLL.ASHRATT),
  (py!"ASHRBTS", POLL.ASHRBTS),
  (py!"ASHRCAP", POLL.ASHRCAP),
  (py!"ASHRCPA", POLL.ASHRCPA),
  (py!"ASHRCPO", POLL.ASHRCPO),
  (py!"ASHRDDM", POLL.ASHRDDM),
  (py!"ASHRDDS", POLL.ASHRDDS),
  (py!"ASHRHPR", POLL.ASHRHPR),
  (py!"ASHRHR", POLL.ASHRHR),
  (py!"ASHRLTN", POLL.ASHRLTN),
  (py!"ASHRMDM", POLL.ASHRMDM),
  (py!"ASHRPOS", POLL.ASHRPOS),
  (py!"ASHRPBN", POLL.ASHRPBN),
  (py!"ASHRPTT", POLL.ASHRPTT),
  (py!"ASHRPWR", POLL.ASHRPWR),
  (py!"ASHRRCS", POLL.ASHRRCS),
  (py!"ASHRSBD", POLL.ASHRSBD),
  (py!"ASHRSGA", POLL.ASHRSGA),
  (py!"ASHRSGL", POLL.ASHRSGL),
  (py!"ASHRSGO", POLL.ASHRSGO),
  (py!"ASHRSGP", POLL.ASHRSGP),
  (py!"ASHRSIR", POLL.ASHRSIR),
  (py!"ASHRSLB", POLL.ASHRSLB),
  (py!"ASHRSQZ", POLL.ASHRSQZ),
  (py!"ASHRSSB", POLL.ASHRSSB),
  (py!"ASHRTEM", POLL.ASHRTEM),
  (py!"ASHRTHS", POLL.ASHRTHS),
  (py!"ASHRTTT", POLL.ASHRTTT),
  (py!"ASHRVCR", POLL.ASHRVCR),
  (py!"ASHRVCT", POLL.ASHRVCT),
  (py!"ASHRVEL", POLL.ASHRVEL),
  (py!"FUGDP", POLL.FUGDP),
  (py!"GPPADV110", POLL.GPPADV110),
  (py!"GPPADV120", POLL.GPPADV120),
  (py!"TNLAVR", POLL.TNLAVR),
  (py!"TNLBPQ", POLL.TNLBPQ),
  (py!"TNLDG", POLL.TNLDG),
  (py!"TNLEVT", POLL.TNLEVT),
  (py!"TNLGGK", POLL.TNLGGK),
  (py!"TNLGGKx", POLL.TNLGGKx),
  (py!"TNLPJK", POLL.TNLPJK),
  (py!"TNLPJT", POLL.TNLPJT),
  (py!"TNLREX", POLL.TNLREX),
  (py!"TNLVGK", POLL.TNLVGK),
  (py!"TNLVHD", POLL.TNLVHD)]

end Nmea
