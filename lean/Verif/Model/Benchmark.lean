import Verif.Model.Reader
/-!
# Model of the example program /repo/examples/benchmark.py

Modelled: the progress bar, the loop over the messages, and the two rates computed at the end, given how long it took.
Not modelled: the other lines printed and the command line.
-/
namespace Nmea
open Py

/-- `NMEAMESSAGES` (/repo/examples/benchmark.py:21-52). -/
def benchMessages : List Bytes :=
  [pb!"$GNDTM,W84,,0.0,N,0.0,E,0.0,W84*71",
   pb!"$GNRMC,103607.00,A,5327.03942,N,10214.42462,W,0.046,,060321,,,A,V*0E",
   pb!"$GPRTE,2,1,c,0,PBRCPK,PBRTO,PTELGR,PPLAND,PYAMBU,PPFAIR,PWARRN,PMORTL,PLISMR*73",
   pb!"$GNRLM,00000078A9FBAD5,083559.00,3,C45B*06",
   pb!"$GNVTG,,T,,M,0.046,N,0.085,K,A*32",
   pb!"$GNGNS,103607.00,5327.03942,N,00214.42462,W,AANN,06,5.88,56.0,48.5,,,V*34",
   pb!"$GNGGA,103607.00,5327.03942,N,00214.42462,W,1,06,5.88,56.0,M,48.5,M,,*64",
   pb!"$GNGSA,A,3,23,24,20,12,,,,,,,,,9.62,5.88,7.62,1*0C",
   pb!"$GNGSA,A,3,66,76,,,,,,,,,,,9.62,5.88,7.62,2*08",
   pb!"$GNGSA,A,3,,,,,,,,,,,,,9.62,5.88,7.62,3*08",
   pb!"$GNGSA,A,3,,,,,,,,,,,,,9.62,5.88,7.62,4*0F",
   pb!"$GPGSV,3,1,11,01,06,014,08,12,43,207,28,14,06,049,,15,44,171,23,1*6B",
   pb!"$GPGSV,3,2,11,17,32,064,16,19,33,094,,20,20,251,31,21,04,354,,1*63",
   pb!"$GPGSV,3,3,11,23,27,251,31,24,89,268,26,25,05,223,,1*5A",
   pb!"$GLGSV,3,1,10,65,07,176,,66,57,223,35,67,42,315,23,68,00,341,29,1*7A",
   pb!"$GLGSV,3,2,10,75,37,057,,76,78,303,18,77,27,253,21,84,19,018,,B*07",
   pb!"$GLGSV,3,3,10,85,22,078,,86,01,121,,1*76",
   pb!"$GAGSV,1,1,00,7*73",
   pb!"$GBGSV,1,1,02,21,,,15,25,,,28,1*7E",
   pb!"$GNGLL,5327.03942,N,00214.42462,W,103607.00,A,A*68",
   pb!"$GNGRS,103607.00,1,-2.1,0.2,2.7,-0.4,,,,,,,,,1,1*53",
   pb!"$GNGRS,103607.00,1,0.6,5.1,,,,,,,,,,,2,1*52",
   pb!"$GNGRS,103607.00,1,,,,,,,,,,,,,3,7*57",
   pb!"$GNGRS,103607.00,1,,,,,,,,,,,,,4,1*56",
   pb!"$GNGST,103607.00,38,60,38,89,15,24,31*63",
   pb!"$GNZDA,103607.00,06,03,2021,00,00*7F",
   pb!"$GNGBS,103607.00,15.1,24.2,31.0,,,,,,*6F",
   pb!"$GNVLW,,N,,N,0.000,N,0.000,N*44",
   pb!"$PUBX,00,103607.00,5327.03942,N,00214.42462,W,104.461,G3,29,31,0.085,39.63,-0.007,,5.88,7.62,8.09,6,0,0*69",
   pb!"$PUBX,03,23,1,-,014,06,08,000,12,U,207,43,28,009,14,-,049,06,,000,15,-,171,44,23,000,17,-,064,32,16,000,19,-,094,33,,000,20,U,251,20,31,038,21,-,354,04,,000,23,U,251,27,31,064,24,U,268,89,26,000,25,-,223,05,,000,48,-,,,15,000,52,-,,,28,013,65,-,176,07,,000,66,U,223,57,35,064,67,-,315,42,23,000,68,-,341,00,29,000,75,-,057,37,,000,76,U,303,78,18,000,77,-,253,27,21,000,84,-,018,19,,000,85,-,078,22,,000,86,-,121,01,,000*02"]

/-- `a / b` for integers: the float nearest to the quotient; `OverflowError` if there is none. -/
def trueDiv (a b : Int) : Except Err PyFloat :=
  if b = 0 then .error .zeroDivision
  else match PyFloat.ofRat ((a : Rat) / b) with
    | .fin s m => .ok (.fin s m)
    | _ => .error .overflow

/-- `progbar` (/repo/examples/benchmark.py:55-70): what is printed, if anything. `%` is Python's, hence `fmod`. The
number before the percent sign is at least 0 here (`i` is). -/
def progbar (i lim inc : Int) : Except Err (Option Str) := do
  let i := min i lim
  let pct ← (← trueDiv (i * inc) lim).toInt
  let every ← (← trueDiv lim inc).toInt
  if every = 0 then .error .zeroDivision
  else if i.fmod every = 0 then
    let p ← (← trueDiv (pct * 100) inc).toInt
    pure (some (fmt02d p.toNat ++ py!"% " ++ List.replicate pct.toNat 0x2593 ++
      List.replicate (inc - pct).toNat 0x2591 ++ py!"\r"))
  else pure none

/-- State of the benchmark: the bars printed, the number of messages parsed, `msglen`. -/
structure Bench where
  bars : List Str
  parsed : Nat
  msglen : Nat
  deriving DecidableEq

/-- One cycle over the messages (/repo/examples/benchmark.py:100-102), with the state if an exception ends it. -/
def benchCycle (now : Nat → DateTime) : List Bytes → Bench → Except (Err × Bench) Bench
  | [], b => .ok b
  | m :: r, b =>
    let b' := { b with msglen := b.msglen + m.length }
    match parse now (.bytes m) 0 1 [] with
    | .ok _ => benchCycle now r { b' with parsed := b'.parsed + 1 }
    | .error e => .error (e, b')

/-- The loop (/repo/examples/benchmark.py:98-102): `k` cycles remain, beginning with number `i`. -/
def benchLoop (now : Nat → DateTime) (cyc : Int) : Nat → Int → Bench → Except (Err × Bench) Bench
  | 0, _, b => .ok b
  | k + 1, i, b =>
    match progbar i cyc 20 with
    | .error e => .error (e, b)
    | .ok bar =>
      match benchCycle now benchMessages { b with bars := b.bars ++ bar.toList } with
      | .error x => .error x
      | .ok b' => benchLoop now cyc k (i + 1) b'

/-- The rates (/repo/examples/benchmark.py:106-107): transactions and kilobytes per second. -/
def rates (txnt msglen duration : Int) : Except Err (PyFloat × PyFloat) := do
  let ns ← PyFloat.ofInt 1000000000
  let txs ← (← PyFloat.div (PyFloat.mul (← PyFloat.ofInt txnt) ns) (← PyFloat.ofInt duration)).roundTo 2
  let kbs ← (← PyFloat.div (← PyFloat.div (PyFloat.mul (← PyFloat.ofInt msglen) ns) (← PyFloat.ofInt duration))
    (.fin false 1024)).roundTo 2
  pure (txs, kbs)

/-- `benchmark(cycles=cyc)` (/repo/examples/benchmark.py:73-113), if it takes `duration` nanoseconds: the state at the end
and the result or the exception. -/
def benchmark (now : Nat → DateTime) (cyc duration : Int) : Bench × Except Err (PyFloat × PyFloat) :=
  match benchLoop now cyc cyc.toNat 0 ⟨[], 0, 0⟩ with
  | .error (e, b) => (b, .error e)
  | .ok b => (b, rates (benchMessages.length * cyc) b.msglen duration)

end Nmea
