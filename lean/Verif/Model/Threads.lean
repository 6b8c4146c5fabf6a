import Verif.Model.Reader
/-!
# Several threads calling `read()` of one `NMEAReader`

`read()` (/repo/src/pynmeagps/nmeareader.py:120-167) as a machine that performs one operation of the stream -
`read(1)` (179) or `readline()` (198) - at a time. Between two operations another thread may run. A single
operation of the stream is taken as atomic, as it is for Python's binary files. The other fields of the reader
are not changed after construction (54-98), and the local variables of a call are its own.
-/
namespace Nmea
open Py

/-- Where a call of `read()` is (/repo/src/pynmeagps/nmeareader.py:135-165): about to read the first byte, about to read
the second byte, about to read the rest of the line after `$` and this second byte. -/
inductive At where
  | first
  | second
  | line (byte2 : Bytes)
  deriving DecidableEq

/-- What one operation leads to. -/
inductive Tick where
  /-- the call goes on; perhaps an error was passed to the handler or the log (208-223) -/
  | go (next : At) (reported : List Err)
  /-- the call ends (return or exception) -/
  | ret (r : ReadResult)

/-- `_do_error` (/repo/src/pynmeagps/nmeareader.py:208-223, called in 157-165). -/
def tickError (cfg : RCfg) (e : Err) : Tick :=
  if cfg.quitonerror = 2 then .ret (.raised e) else .go .first (if cfg.quitonerror = 1 then [e] else [])

/-- One operation of a call of `read()` (/repo/src/pynmeagps/nmeareader.py:135-206): what it leads to, the bytes the
stream gave, and the stream afterwards. -/
def tick {σ} (now : Nat → DateTime) (ops : StreamOps σ) (cfg : RCfg) (pc : At) (s : σ) : Tick × Bytes × σ :=
  match pc with
  | .first =>
    let (byte1, s1) := ops.read1 s
    (if byte1 = [] then .ret .none else if byte1 ≠ pb!"$" then .go .first [] else .go .second [], byte1, s1)
  | .second =>
    let (byte2, s2) := ops.read1 s
    (if byte2 = [] then .ret .none
      else if pb!"$" ++ byte2 ∈ NMEA_HDR then .go (.line byte2) []
      else if cfg.nmeaonly then tickError cfg .nmeaParse
      else .go .first [], byte2, s2)
  | .line byte2 =>
    let (data, s3) := ops.readline s
    (if data = [] then .ret .none
      else if data.getLast? ≠ some 10 then tickError cfg .nmeaStream
      else
        let raw := pb!"$" ++ byte2 ++ data
        match parse now (.bytes raw) cfg.mode cfg.validate cfg.udefs with
        | .ok m => .ret (.item raw m)
        | .error .nmeaMessage => tickError cfg .nmeaMessage
        | .error .nmeaType => tickError cfg .nmeaType
        | .error .nmeaParse => tickError cfg .nmeaParse
        | .error .nmeaStream => tickError cfg .nmeaStream
        | .error e => .ret (.raised e), data, s3)

/-- Where a thread that calls `read()` again and again is next (nmeareader.py:135). -/
def Tick.next : Tick → At
  | .go pc _ => pc
  | .ret _ => .first

/-- What happened in one operation: the thread, the bytes it got, and what it led to. -/
structure Happening where
  thread : Nat
  bytes : Bytes
  tick : Tick

/-- Threads that call `read()` again and again without a lock, on one reader: `pcs` is where each of them is,
the schedule says which thread performs the next operation. -/
def race {σ} (now : Nat → DateTime) (ops : StreamOps σ) (cfg : RCfg) :
    List Nat → (Nat → At) → σ → List Happening × (Nat → At) × σ
  | [], pcs, s => ([], pcs, s)
  | t :: sched, pcs, s =>
    let (k, b, s') := tick now ops cfg (pcs t) s
    let (hs, pcs', s'') := race now ops cfg sched (fun i => if i = t then k.next else pcs i) s'
    (⟨t, b, k⟩ :: hs, pcs', s'')

/-- Where the thread goes on if it is scheduled (nmeareader.py:135): at the beginning of a call if the lock is
free, in its own call if it holds the lock, nowhere otherwise. -/
def turn (t : Nat) : Option (Nat × At) → Option At
  | none => some .first
  | some (t', pc) => if t' = t then some pc else none

/-- Threads that call `read()` again and again, each holding a lock from the beginning of the call to its
end. `holder` is the thread in a call and where it is. A thread scheduled while another holds the lock waits. -/
def locked {σ} (now : Nat → DateTime) (ops : StreamOps σ) (cfg : RCfg) :
    List Nat → Option (Nat × At) → σ → List Happening × Option (Nat × At) × σ
  | [], holder, s => ([], holder, s)
  | t :: sched, holder, s =>
    match turn t holder with
    | none => locked now ops cfg sched holder s
    | some pc =>
      let (k, b, s') := tick now ops cfg pc s
      let holder' := match k with
        | .go pc' _ => some (t, pc')
        | .ret _ => none
      let (hs, h', s'') := locked now ops cfg sched holder' s'
      (⟨t, b, k⟩ :: hs, h', s'')

/-- The calls that ended, with the threads that made them. -/
def returned (hs : List Happening) : List (Nat × ReadResult) :=
  hs.filterMap fun h => match h.tick with
    | .go _ _ => none
    | .ret r => some (h.thread, r)

/-- The errors passed to the handler or log. -/
def reportedIn (hs : List Happening) : List Err :=
  hs.flatMap fun h => match h.tick with
    | .go _ es => es
    | .ret _ => []

end Nmea
