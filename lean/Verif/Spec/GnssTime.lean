import Verif.Model.GnssTime
/-!
# Specification vocabulary for GNSS time (C36–C39)

Independent of the code: leap seconds by calendar month, weeks by plain integer arithmetic.
Instants are integer microseconds since 1900-01-01T00:00 UTC.
-/
namespace Nmea

/-- Midnight at the start of 1 January (`m = 1`) or 1 July (`m = 7`) of a year 1901–2099. -/
def midnight (y : Int) (m : Nat) : Int :=
  let jan1 := 365 * (y - 1900) + (y - 1901) / 4
  let leapYear := if y % 4 = 0 then 1 else 0
  (if m = 7 then jan1 + 181 + leapYear else jan1) * 86400 * 1000000

/-- The dates from which TAI−UTC was stepped up by a second: 10 s from 1972-01-01, one more at
each later date (IERS Bulletin C). -/
def leapDates : List (Int × Nat) :=
  [(1972, 1), (1972, 7), (1973, 1), (1974, 1), (1975, 1), (1976, 1), (1977, 1), (1978, 1),
   (1979, 1), (1980, 1), (1981, 7), (1982, 7), (1983, 7), (1985, 7), (1988, 1), (1990, 1),
   (1991, 1), (1992, 7), (1993, 7), (1994, 7), (1996, 1), (1997, 7), (1999, 1), (2006, 1),
   (2009, 1), (2012, 7), (2015, 7), (2017, 1)]

/-- TAI−UTC in seconds at an instant from 1972 on: 9 plus the number of steps so far. -/
def taiUtc (t : Int) : Int := 9 + (leapDates.filter fun d => midnight d.1 d.2 ≤ t).length

/-- TAI minus the time scale of a GNSS: 33 s for BeiDou, 19 s for every other one. -/
def taiMinus (g : Gnss) : Int := if g = .bds then 33 else 19

/-- The instants `datetime` can hold. -/
def IsDatetime (t : Int) : Prop := minInstant ≤ t ∧ t ≤ maxInstant

/-- A week in microseconds. -/
def weekUs : Int := 7 * 24 * 60 * 60 * 1000000

/-- First instant of the week count of a GNSS (1980-01-06; Galileo and NavIC 1999-08-22; BeiDou
2006-01-01). -/
def weekZero (g : Gnss) : Int :=
  match g with
  | .bds => midnight 2006 1
  | .gal | .irn => midnight 1999 7 + 52 * 86400 * 1000000
  | _ => midnight 1980 1 + 5 * 86400 * 1000000

/-- Number of weeks after which the broadcast week number repeats. -/
def weekCycle (g : Gnss) : Int :=
  match g with
  | .bds => 8192
  | .gal => 4096
  | _ => 1024

/-- Whole weeks since the first instant of the week count. -/
def weekOf (g : Gnss) (t : Int) : Int := (t - weekZero g) / weekUs

/-- Microseconds since the start of that week. -/
def intoWeek (g : Gnss) (t : Int) : Int := (t - weekZero g) % weekUs

/-- Seconds by which the GNSS time scale is ahead of UTC (GLONASS follows UTC). -/
def ahead (g : Gnss) (t : Int) : Int := if g = .glo then 0 else taiUtc t - taiMinus g

end Nmea
