import Verif.Model.Poller
/-!
# Specification: the program nmeapoller.py
-/
namespace Spec.Poller
open Py Nmea

/-- The messages among the outcomes of reads. -/
def messages : List ReadResult → List Msg
  | [] => []
  | .item _ (some m) :: r => m :: messages r
  | _ :: r => messages r

/-- The number of reads that raised an exception. -/
def raising : List ReadResult → Nat
  | [] => 0
  | .raised _ :: r => raising r + 1
  | _ :: r => raising r

/-- What a message taken from the send queue does with the device, if `k` writes were made before: the data of the write
(if there is one), and whether it failed. -/
def delivery (wr : Writes) (k : Nat) : Option Msg → List Bytes × Bool
  | none => ([], false)
  | some m =>
    match m.serialize, wr k with
    | .error _, _ => ([], true)
    | .ok b, none => ([b], false)
    | .ok b, some n => ([b.take n], true)

/-- What the device gets from messages handled in this order, if `k` writes were made before, and the number of failures. -/
def deliver (wr : Writes) : Nat → List (Option Msg) → List Bytes × Nat
  | _, [] => ([], 0)
  | k, d :: r =>
    let (b, bad) := delivery wr k d
    let (bs, n) := deliver wr (k + b.length) r
    (b ++ bs, n + if bad then 1 else 0)

/-- What is put on the send queue in a schedule. -/
def puts : List Act → List (Option Msg)
  | [] => []
  | .put d :: r => d :: puts r
  | _ :: r => puts r

/-- The message the processing thread has taken from its queue and not printed yet. -/
def unshown : PrAt → List Msg
  | .show m => [m]
  | _ => []

/-- The message the I/O thread has read and not put on the queue yet. -/
def unqueued : IoAt → List Msg
  | .put _ m => [m]
  | _ => []

/-- The message the I/O thread has taken from the send queue and not written yet. -/
def unwritten : IoAt → List (Option Msg)
  | .write d => [d]
  | _ => []

/-- The outcomes of the reads made while the program runs from state `p` according to a schedule. -/
def readsMade {σ} (now : Nat → DateTime) (ops : StreamOps σ) (cfg : RCfg) (wr : Writes) : Poller σ → List Act → List ReadResult
  | _, [] => []
  | p, .io :: r =>
    match p.io with
    | .read => (readMsg now ops cfg p.stream).1 :: readsMade now ops cfg wr (p.step now ops cfg wr .io) r
    | _ => readsMade now ops cfg wr (p.step now ops cfg wr .io) r
  | p, a :: r => readsMade now ops cfg wr (p.step now ops cfg wr a) r

/-- The program at its start. -/
def start {σ} (s : σ) : Poller σ := { stream := s }

end Spec.Poller
