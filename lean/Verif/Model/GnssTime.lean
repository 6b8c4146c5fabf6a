import Verif.Model.Types
/-!
# Model of the GNSS time functions (/repo/src/pynmeagps/nmeahelpers.py:44-77, 564-597, 734-853)

An instant is the integer number of microseconds since `LEAPS0` = 1900-01-01T00:00:00 UTC.
A naive `datetime` counts as UTC (nmeahelpers.py:586-587, 759-760), so time zones play no role.
-/
namespace Nmea
open Py

/-- Microseconds per second / day. -/
abbrev usSec : Int := 1000000
abbrev usDay : Int := 86400000000

/-- `datetime.min` (0001-01-01) and `datetime.max` (9999-12-31T23:59:59.999999). -/
def minInstant : Int := -693595 * usDay
def maxInstant : Int := 2958464 * usDay - 1

/-- Result of `datetime` arithmetic: `OverflowError` outside the supported years. -/
def mkInstant (t : Int) : Except Err Int :=
  if minInstant ≤ t ∧ t ≤ maxInstant then .ok t else .error .overflow

/-- `LEAPSECONDS` (/repo/src/pynmeagps/nmeahelpers.py:45-74): (seconds since 1900, TAI-UTC). -/
def LEAPSECONDS : List (Int × Int) :=
  [(2272060800, 10), (2287785600, 11), (2303683200, 12), (2335219200, 13), (2366755200, 14),
   (2398291200, 15), (2429913600, 16), (2461449600, 17), (2492985600, 18), (2524521600, 19),
   (2571782400, 20), (2603318400, 21), (2634854400, 22), (2698012800, 23), (2776982400, 24),
   (2840140800, 25), (2871676800, 26), (2918937600, 27), (2950473600, 28), (2982009600, 29),
   (3029443200, 30), (3076704000, 31), (3124137600, 32), (3345062400, 33), (3439756800, 34),
   (3550089600, 35), (3644697600, 36), (3692217600, 37)]

/-- GNSS letters (/repo/src/pynmeagps/nmeatypes_core.py:87-93). -/
inductive Gnss where
  | gps | gal | bds | qzs | irn | glo | sba
  deriving DecidableEq, Repr

/-- `EPOCH0_*` (/repo/src/pynmeagps/nmeatypes_core.py:68-75): 1980-01-06, 1999-08-22, 2006-01-01. -/
def EPOCH0_GPS : Int := 29224 * usDay
@[inherit_doc EPOCH0_GPS] def EPOCH0_GAL : Int := 36392 * usDay
@[inherit_doc EPOCH0_GPS] def EPOCH0_IRN : Int := 36392 * usDay
@[inherit_doc EPOCH0_GPS] def EPOCH0_BEIDOU : Int := 38716 * usDay

/-- `timedelta.total_seconds()`: correctly rounded quotient by 10^6 (an exact rational here). -/
def totalSeconds (us : Int) : Rat := (PyFloat.ofRat ((us : Rat) / 1000000)).toRat

/-- `max(val for key, val in LEAPSECONDS if key <= totsec(dt))` (nmeahelpers.py:596); `none` is
the `ValueError` of `max` on an empty sequence. -/
def lastLeap (t : Int) : Option Int :=
  ((LEAPSECONDS.filter fun kv => decide ((kv.1 : Rat) ≤ totalSeconds t)).map Prod.snd).max?

/-- `leapsecond` (/repo/src/pynmeagps/nmeahelpers.py:564-597). -/
def leapsecond (t : Int) (g : Gnss) : Except Err Int :=
  let ep0 := if g = .bds then EPOCH0_BEIDOU else EPOCH0_GPS
  if totalSeconds t < 2272060800 then .ok 0
  else match lastLeap t, lastLeap ep0 with
    | some a, some b => .ok (a - b)
    | _, _ => .error .value

/-- Epoch and week-number rollover of a GNSS (nmeahelpers.py:762-773, 827-838). -/
def epochOf (g : Gnss) : Int × Int :=
  match g with
  | .bds => (EPOCH0_BEIDOU, 8192)
  | .gal => (EPOCH0_GAL, 4096)
  | .irn => (EPOCH0_IRN, 1024)
  | _ => (EPOCH0_GPS, 1024)

/-- `utc2wnotow` (/repo/src/pynmeagps/nmeahelpers.py:734-780): (wno, tow, leap seconds). Float
steps: `total_seconds`, `+ ls`, `* 1000`, `days / 7`, `ts - wno * 604800000`; each is rounded. -/
def utc2wnotow (utc : Int) (g : Gnss) (modwno : Bool) : Except Err (Int × Int × Int) := do
  let (ep0, rollover) := epochOf g
  let ls ← if g = .glo then pure 0 else leapsecond utc g
  let ts := PyFloat.mul (PyFloat.add (PyFloat.ofRat (totalSeconds (utc - ep0))) (PyFloat.ofRat (ls : Rat)))
    (.fin false 1000)
  let days := (utc - ep0) / usDay
  let wno := (PyFloat.ofRat ((days : Rat) / 7)).toRat.floor
  let wnom := wno % rollover
  let tow ← (PyFloat.sub ts (PyFloat.ofRat ((wno * 604800000 : Int) : Rat))).toInt
  pure (if modwno then wnom else wno, tow, ls)

/-- One evaluation of the loop body of `wnotow2utc` (nmeahelpers.py:844-847) for rollover count
`i`. -/
def wnoCandidate (ep0 rollover wno tow : Int) (ls : Option Int) (g : Gnss) (i : Nat) :
    Except Err Int := do
  let utc ← mkInstant (ep0 + (wno + i * rollover) * 7 * usDay + tow * 1000)
  if g = .glo then pure utc
  else do
    let lps ← match ls with
      | some l => pure l
      | none => leapsecond utc g
    mkInstant (utc - lps * usSec)

/-- The `while` loop of `wnotow2utc` with `autoroll` (nmeahelpers.py:842-852), from rollover
count `i`. -/
def wnoLoop (ep0 rollover wno tow : Int) (ls : Option Int) (g : Gnss) (now : Int)
    (hr : 0 < rollover) (i : Nat) : Except Err Int :=
  match wnoCandidate ep0 rollover wno tow ls g i with
  | .error e => .error e
  | .ok utc =>
    if _h : ep0 + (wno + i * rollover) * 7 * usDay + tow * 1000 ≤ maxInstant then
      match mkInstant (utc + rollover * 7 * usDay) with
      | .error e => .error e
      | .ok next => if next > now then .ok utc else wnoLoop ep0 rollover wno tow ls g now hr (i + 1)
    else .error .overflow
termination_by (maxInstant + 1 - (ep0 + (wno + i * rollover) * 7 * usDay + tow * 1000)).toNat
decreasing_by
  have hi : ((i + 1 : Nat) : Int) = (i : Int) + 1 := by simp
  have e : (wno + ((i : Int) + 1) * rollover) * 7 * usDay
      = (wno + i * rollover) * 7 * usDay + rollover * 7 * usDay := by
    rw [Int.add_mul, Int.add_mul, Int.add_mul, Int.one_mul, Int.add_mul, Int.add_mul, Int.add_mul,
      Int.add_mul, Int.add_assoc]
  have hp : 0 < rollover * 7 * usDay := Int.mul_pos (Int.mul_pos hr (by decide)) (by decide)
  rw [hi, e]
  omega

/-- Rollover is positive. -/
theorem epochOf_pos (g : Gnss) : 0 < (epochOf g).2 := by cases g <;> decide

/-- `wnotow2utc` (/repo/src/pynmeagps/nmeahelpers.py:783-853); `now` is the current time, read
once (line 841). The test `_h` in `wnoLoop` restates that the candidate did not overflow. -/
def wnotow2utc (wno tow : Int) (ls : Option Int) (g : Gnss) (autoroll modwno : Bool) (now : Int) :
    Except Err Int :=
  let ep0 := (epochOf g).1
  let rollover := (epochOf g).2
  let wno := if modwno then wno % rollover else wno
  let tow := tow % 604800000
  if autoroll then wnoLoop ep0 rollover wno tow ls g now (epochOf_pos g) 0
  else wnoCandidate ep0 rollover wno tow ls g 0

end Nmea
