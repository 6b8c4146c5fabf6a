import Verif.Model.ReaderExc
import Verif.Spec.Stream
/-!
# Specification: exceptions from the stream object and from the error handler
-/
namespace Spec
open Py Nmea

/-- Successive calls of `read()`, each going on where the last one stopped, whatever its outcome: the
outcomes, and what the error handler has been called with and the stream before and after. -/
inductive Calls {σ} (now : Nat → DateTime) (ops : XStream σ) (cfg : RCfg) (handler : Handler) :
    List Err → σ → List XResult → List Err → σ → Prop
  | nil (hist s) : Calls now ops cfg handler hist s [] hist s
  | cons (hist s r hist1 s1 rs hist2 s2) : readX now ops cfg handler hist s = (r, hist1, s1) →
      Calls now ops cfg handler hist1 s1 rs hist2 s2 → Calls now ops cfg handler hist s (r :: rs) hist2 s2

/-- The library error raised by a call, if that is its outcome. -/
def libraryError? : XResult → Option Err
  | .raised (.py e) => if LibraryError e then some e else none
  | _ => none

/-- Outcomes as they become when every library error is given to a handler instead: if the handler
returns, the call goes on to the next outcome; if it raises, its exception takes the error's place.
`hist` is what the handler has been called with before. -/
def handled (handler : Handler) : List Err → List XResult → List XResult
  | _, [] => []
  | hist, r :: rs =>
    match libraryError? r with
    | none => r :: handled handler hist rs
    | some e =>
      match handler (hist ++ [e]) with
      | none => handled handler (hist ++ [e]) rs
      | some x => .raised x :: handled handler (hist ++ [e]) rs

/-- Parts of what comes from a port. -/
inductive Segment where
  /-- bytes outside of sentences -/
  | junk (b : Bytes)
  /-- a line -/
  | line (raw : Bytes)
  /-- an exception, after the first bytes `p` of a line -/
  | fault (p : Bytes) (x : Exc)

/-- Junk has no `$`; lines are complete; an exception occurs before a line, or inside it: before its
last byte. -/
def Segment.Proper : Segment → Prop
  | .junk b => 36 ∉ b
  | .line raw => CompleteLine raw
  | .fault p _ => ∃ q, q ≠ [] ∧ CompleteLine (p ++ q)

/-- How a segment appears on the port. -/
def Segment.onPort : Segment → FaultLine
  | .junk b => b.map .inl
  | .line raw => raw.map .inl
  | .fault p x => p.map .inl ++ [.inr x]

/-- What the reader answers to a segment when errors are raised: nothing to junk; to a line its parsed
message or the error of `parse`; to an exception this exception - but `(None, None)` to `EOFError`. -/
def answerTo (now : Nat → DateTime) (cfg : RCfg) : Segment → Option XResult
  | .junk _ => none
  | .line raw =>
    match parse now (.bytes raw) cfg.mode cfg.validate cfg.udefs with
    | .ok m => some (.item raw m)
    | .error e => some (.raised (.py e))
  | .fault _ x => if x = .py .eof then some .none else some (.raised x)

/-- The outcome of a call of the reader for streams that do not raise, as an outcome here. -/
def asX : ReadResult → XResult
  | .item raw m => .item raw m
  | .none => .none
  | .raised e => .raised (.py e)

/-- The message delivered by a call, if any. -/
def itemOf : XResult → Option (Bytes × Option Msg)
  | .item raw m => some (raw, m)
  | _ => none

end Spec
