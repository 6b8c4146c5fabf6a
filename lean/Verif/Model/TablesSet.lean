import Verif.Model.Types
/- Generated by tools/gen_tables.py from the source text of /repo/src/pynmeagps. -/
namespace Nmea
open Py

/-- `NMEA_PAYLOADS_SET` (/repo/src/pynmeagps/nmeatypes_set.py:30-35). -/
def NMEA_PAYLOADS_SET : List (Str × PDict) := []

end Nmea
