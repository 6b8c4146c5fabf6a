import Verif.Model.GpxTracker
import Verif.Spec.Nmea0183
/-!
# Specification: tracks (for the example program gpxtracker.py)
-/
namespace Spec.Gpx
open Py Nmea

/-- `s` is the track point of a message: its position, height, time of day (with the date, and the fraction of a
second, at which the program runs), fix and dilution of precision. -/
def IsPoint (today : DateTime) (m : Msg) (s : Str) : Prop :=
  ∃ time quality lat lon alt hdop tlat tlon talt thdop,
    lookup py!"time" m.attrs = some (.time time) ∧ lookup py!"quality" m.attrs = some quality ∧
    lookup py!"lat" m.attrs = some lat ∧ lookup py!"lon" m.attrs = some lon ∧ lookup py!"alt" m.attrs = some alt ∧
    lookup py!"HDOP" m.attrs = some hdop ∧ lat.toStr = .ok tlat ∧ lon.toStr = .ok tlon ∧ alt.toStr = .ok talt ∧
    hdop.toStr = .ok thdop ∧
    s = py!"<trkpt lat=\"" ++ tlat ++ py!"\" lon=\"" ++ tlon ++ py!"\"><ele>" ++ talt ++ py!"</ele><time>" ++
      today.date.str ++ py!"T" ++ (⟨time.hour, time.minute, time.second, today.time.micro⟩ : Time).str ++
      py!"Z</time><fix>" ++
      (if quality.isNumber 1 then py!"3d" else if quality.isNumber 2 then py!"2d" else py!"none") ++
      py!"</fix><hdop>" ++ thdop ++ py!"</hdop></trkpt>"

/-- `Points clock k items points`: the items are messages; `points` are the track points of the GGA messages
among them, in order. `k` is the number of readings of the clock so far. -/
inductive Points (clock : Nat → DateTime) : Nat → List (Bytes × Option Msg) → List Str → Prop
  | nil (k) : Points clock k [] []
  | other (k raw m items points) : m.msgID ≠ py!"GGA" → Points clock k items points →
      Points clock k ((raw, some m) :: items) points
  | point (k raw m s items points) : m.msgID = py!"GGA" → IsPoint (clock k) m s → Points clock (k + 1) items points →
      Points clock k ((raw, some m) :: items) (s :: points)

end Spec.Gpx
