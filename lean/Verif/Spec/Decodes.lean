import Verif.Spec.Nmea0183
/-!
# Specification: coded fields

The codes NMEA 0183 (4.11) uses in some fields, and where these fields are. Positions count from zero.
-/
namespace Spec.Decodes
open Py

/-- Satellite systems and their codes. -/
def systems : List (Str × Str) :=
  [(py!"1", py!"GPS"), (py!"2", py!"GLONASS"), (py!"3", py!"Galileo"), (py!"4", py!"Beidou"), (py!"5", py!"QZSS"),
   (py!"6", py!"NavIC")]

/-- The sentences with the code of a satellite system, and the position of this field. -/
def systemFields : List (Str × Nat) := [(py!"GBS", 8), (py!"GRS", 14), (py!"GSA", 17)]

/-- The sentences with the codes of a system and of one of its signals, and the position of the former; the latter
follows it. -/
def signalFields : List (Str × Nat) := [(py!"GBS", 8), (py!"GRS", 14)]

/-- The sentences with a one-letter mode indicator, and its position. -/
def modeFields : List (Str × Nat) := [(py!"GLL", 6), (py!"RMC", 11), (py!"VTG", 8)]

/-- Mode indicators of NMEA 0183: autonomous, differential, estimated, real time kinematic with float and with fixed
integers, manual, not valid, precise, simulator. -/
def modes : List Str := [py!"A", py!"D", py!"E", py!"F", py!"R", py!"M", py!"N", py!"P", py!"S"]

/-- Signals of GPS by their codes: L1 C/A, L1 P(Y), L1 M, L2 P(Y), L2C-M, L2C-L, L5-I, L5-Q. -/
def gpsSignals : List Str := [py!"1", py!"2", py!"3", py!"4", py!"5", py!"6", py!"7", py!"8"]

end Spec.Decodes
