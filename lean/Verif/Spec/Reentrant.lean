import Verif.Model.Reentrant
import Verif.Spec.ReaderExc
/-!
# Specification: a reader shared by a program and its error handler
-/
namespace Spec.Reentrant
open Py Nmea

/-- The same done by one program that calls `read()` of a reader that raises its errors, and takes bytes from the stream
itself: it gets `tr`. -/
inductive Timeline {σ} (now : Nat → DateTime) (ops : StreamOps σ) (cfg : RCfg) : σ → List Happens → σ → Prop
  | nil (s) : Timeline now ops cfg s [] s
  | call (s r log s1 tr s2) : readMsg now ops (withPolicy cfg 2) s = (r, log, s1) → Timeline now ops cfg s1 tr s2 →
      Timeline now ops cfg s (.came r :: tr) s2
  | take (s tr s2) : Timeline now ops cfg (ops.read1 s).2 tr s2 → Timeline now ops cfg s (.taken (ops.read1 s).1 :: tr) s2
  | line (s tr s2) : Timeline now ops cfg (ops.readline s).2 tr s2 →
      Timeline now ops cfg s (.taken (ops.readline s).1 :: tr) s2

/-- The outcomes among the happenings. -/
def outcomes : List Happens → List ReadResult
  | [] => []
  | .came r :: tr => r :: outcomes tr
  | .taken _ :: tr => outcomes tr

/-- The sentences among the happenings. -/
def sentences : List Happens → List (Bytes × Option Msg)
  | [] => []
  | .came (.item raw m) :: tr => (raw, m) :: sentences tr
  | _ :: tr => sentences tr

/-- The library errors among the happenings. -/
def errors : List Happens → List Err
  | [] => []
  | .came (.raised e) :: tr => if LibraryError e then e :: errors tr else errors tr
  | _ :: tr => errors tr

/-- The bytes handed out, as sentences or to the handler. -/
def slices : List Happens → List Bytes
  | [] => []
  | .came (.item raw _) :: tr => raw :: slices tr
  | .came _ :: tr => slices tr
  | .taken b :: tr => b :: slices tr

/-- The sentences the handler got. -/
def sentencesSeen : List Seen → List (Bytes × Option Msg)
  | [] => []
  | .got (.item raw m) :: r => (raw, m) :: sentencesSeen r
  | _ :: r => sentencesSeen r

/-- The errors the handler was called with. -/
def errorsSeen : List Seen → List Err
  | [] => []
  | .error e :: r => e :: errorsSeen r
  | _ :: r => errorsSeen r

/-- The bytes the handler took. -/
def bytesSeen : List Seen → List Bytes
  | [] => []
  | .bytes b :: r => b :: bytesSeen r
  | _ :: r => bytesSeen r

/-- The bytes taken among the happenings. -/
def bytesTaken : List Happens → List Bytes
  | [] => []
  | .taken b :: tr => b :: bytesTaken tr
  | _ :: tr => bytesTaken tr

/-- `c` consists of the elements of `a` and of `b`, each in their order. -/
inductive Shuffle {α} : List α → List α → List α → Prop
  | nil : Shuffle [] [] []
  | left (x a b c) : Shuffle a b c → Shuffle (x :: a) b (x :: c)
  | right (x a b c) : Shuffle a b c → Shuffle a (x :: b) (x :: c)

/-- The handler knows when to stop: having come to the end of the stream it returns or raises. -/
def StopsAtEnd (h : Reenter) : Prop :=
  ∀ seen, (h (seen ++ [.got .none]) = .done ∨ ∃ x, h (seen ++ [.got .none]) = .raise x) ∧
    (h (seen ++ [.bytes []]) = .done ∨ ∃ x, h (seen ++ [.bytes []]) = .raise x)

/-- The stream has finitely much to give, whatever is asked of it: nothing brings anything back, and what gives data uses
something up. -/
def RunsOut {σ} (ops : StreamOps σ) : Prop :=
  ∀ s, ((ops.read1 s).2 = s ∨ ops.rel.rel (ops.read1 s).2 s) ∧ ((ops.readline s).1 ≠ [] → ops.rel.rel (ops.readline s).2 s)

end Spec.Reentrant
