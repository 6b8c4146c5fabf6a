import Verif.Model.Reader
/-!
# Model of the example program /repo/examples/nmeapoller.py

Two threads and two queues: the pattern the project recommends for reading and writing concurrently. A thread performs
one operation at a time; every operation on a queue or on the event `stop` is one step, and so is a call of `read()`
(no other thread uses the reader or the stream) and a call of `write()`. The main thread is represented by what it
does to the others: it puts messages on the send queue and sets `stop`, at any time.
Not modelled: printing (but what is printed), and `BaseException`s.
-/
namespace Nmea
open Py

/-- Where the I/O thread is (/repo/examples/nmeapoller.py:42-71). -/
inductive IoAt where
  /-- before `while not stop.is_set()` (57) -/
  | top
  /-- before `nmr.read()` (59) -/
  | read
  /-- before `readqueue.put(...)` (61) -/
  | put (raw : Bytes) (m : Msg)
  /-- before `while not sendqueue.empty()` (63) -/
  | empty
  /-- before `sendqueue.get(False)` (64) -/
  | get
  /-- before `if data is not None` (65-66) -/
  | write (d : Option Msg)
  /-- before `sendqueue.task_done()` (67) -/
  | task
  /-- the thread has ended -/
  | ended

/-- Where the processing thread is (/repo/examples/nmeapoller.py:74-84). -/
inductive PrAt where
  /-- before `while not stop.is_set()` (80) -/
  | top
  /-- before `queue.empty()` (81) -/
  | empty
  /-- before `queue.get()` (82) -/
  | get
  /-- before `print(parsed)` (83) -/
  | show (m : Msg)
  /-- before `queue.task_done()` (84) -/
  | task
  /-- the thread has ended -/
  | ended
  /-- `task_done()` has raised `ValueError` -/
  | died

/-- The state of the program. `readOpen` and `sendOpen` are the counters behind `task_done()`: it raises `ValueError` if
called more often than there were items put. `shown` are the messages printed, `sent` the data the device got, one
entry per call of `write()`. -/
structure Poller (σ : Type) where
  stream : σ
  readq : List (Bytes × Msg) := []
  sendq : List (Option Msg) := []
  readOpen : Nat := 0
  sendOpen : Nat := 0
  stop : Bool := false
  io : IoAt := .top
  pr : PrAt := .top
  shown : List Msg := []
  sent : List Bytes := []

/-- Who does something. -/
inductive Act where
  | io
  | process
  /-- `send_queue.put(data)` (136) -/
  | put (d : Option Msg)
  /-- `stop_event.set()` (139, 143) -/
  | stop
  deriving DecidableEq

/-- The `k`-th call of `write()`: `none` if it succeeds, `some n` if it raises an exception after `n` bytes. -/
abbrev Writes := Nat → Option Nat

/-- A step of the I/O thread. All exceptions lead back to the top (69-71). -/
def ioStep {σ} (now : Nat → DateTime) (ops : StreamOps σ) (cfg : RCfg) (wr : Writes) (p : Poller σ) : Poller σ :=
  match p.io with
  | .top => if p.stop then { p with io := .ended } else { p with io := .read }
  | .read =>
    match readMsg now ops cfg p.stream with
    | (.item raw (some m), _, s) => { p with stream := s, io := .put raw m }
    | (.item _ none, _, s) => { p with stream := s, io := .empty }
    | (.none, _, s) => { p with stream := s, io := .empty }
    | (.raised _, _, s) => { p with stream := s, io := .top }
  | .put raw m => { p with readq := p.readq ++ [(raw, m)], readOpen := p.readOpen + 1, io := .empty }
  | .empty => if p.sendq = [] then { p with io := .top } else { p with io := .get }
  | .get =>
    match p.sendq with
    | [] => { p with io := .top }
    | d :: r => { p with sendq := r, io := .write d }
  | .write none => { p with io := .task }
  | .write (some m) =>
    match m.serialize with
    | .error _ => { p with io := .top }
    | .ok b =>
      match wr p.sent.length with
      | none => { p with sent := p.sent ++ [b], io := .task }
      | some n => { p with sent := p.sent ++ [b.take n], io := .top }
  | .task => if p.sendOpen = 0 then { p with io := .top } else { p with sendOpen := p.sendOpen - 1, io := .empty }
  | .ended => p

/-- A step of the processing thread. `get()` waits if the queue is empty. -/
def processStep {σ} (p : Poller σ) : Poller σ :=
  match p.pr with
  | .top => if p.stop then { p with pr := .ended } else { p with pr := .empty }
  | .empty => if p.readq = [] then { p with pr := .top } else { p with pr := .get }
  | .get =>
    match p.readq with
    | [] => p
    | (_, m) :: r => { p with readq := r, pr := .show m }
  | .show m => { p with shown := p.shown ++ [m], pr := .task }
  | .task => if p.readOpen = 0 then { p with pr := .died } else { p with readOpen := p.readOpen - 1, pr := .top }
  | .ended => p
  | .died => p

/-- One step of the program. -/
def Poller.step {σ} (now : Nat → DateTime) (ops : StreamOps σ) (cfg : RCfg) (wr : Writes) (p : Poller σ) : Act → Poller σ
  | .io => ioStep now ops cfg wr p
  | .process => processStep p
  | .put d => { p with sendq := p.sendq ++ [d], sendOpen := p.sendOpen + 1 }
  | .stop => { p with stop := true }

/-- The program after a schedule. -/
def Poller.run {σ} (now : Nat → DateTime) (ops : StreamOps σ) (cfg : RCfg) (wr : Writes) (p : Poller σ) (sched : List Act) :
    Poller σ :=
  sched.foldl (Poller.step now ops cfg wr) p

/-- The messages the main thread puts on the send queue (/repo/examples/nmeapoller.py:131-136):
`NMEAMessage("EI", "GNQ", POLL, msgId=msgid)` for every standard id. -/
def pollerQuery (now : Nat → DateTime) (msgid : Str) : Except Err Msg :=
  mkMsg now py!"EI" py!"GNQ" 2 false 1 [] none ⟨none, [(py!"msgId", .str msgid)]⟩

end Nmea
