import Verif.Model.ReaderExc
/-!
# Error handlers that use the reader or its stream themselves
(/repo/src/pynmeagps/nmeareader.py:120-223)

With `quitonerror=ERR_LOG` the error handler is called from inside `read()`. A handler may call `read()` of the same reader
again - which may call the handler again - or read from the stream, any number of times, before it returns or raises.
The reader has no state of its own that a call changes, so all calls work on the same stream. Under the other policies the
handler is not called. Python's limit on the depth of recursion is not modelled.
-/
namespace Nmea
open Py

/-- What a handler may do next. -/
inductive HAct where
  /-- return -/
  | done
  | raise (x : Exc)
  /-- `reader.read()` -/
  | read
  /-- `reader.datastream.read(1)` -/
  | take
  /-- `reader.datastream.readline()` -/
  | line

/-- What a handler has seen: the errors it was called with, the outcomes of its own calls of `read()` (in which it may have
been called again), and what it read from the stream. -/
inductive Seen where
  | error (e : Err)
  | got (r : XResult)
  | bytes (b : Bytes)

/-- A handler: what it does next, given all it has seen since the beginning, the newest last. -/
abbrev Reenter := List Seen → HAct

/-- What happens, in the order of time, whoever it happens to. -/
inductive Happens where
  /-- A call of `read()`, at whatever depth, comes to a sentence, to an error, or to the end of the stream. -/
  | came (r : ReadResult)
  /-- The handler gets bytes from the stream. -/
  | taken (b : Bytes)

mutual
/-- One call of `read()` (/repo/src/pynmeagps/nmeareader.py:120-167): `NRead now ops cfg h seen s tr r seen' s'`. The
handler has seen `seen` before and `seen'` afterwards, the stream goes from `s` to `s'`, the happenings are `tr` and the
outcome is `r`. -/
inductive NRead {σ} (now : Nat → DateTime) (ops : StreamOps σ) (cfg : RCfg) (h : Reenter) :
    List Seen → σ → List Happens → XResult → List Seen → σ → Prop
  | eof (seen s s') : step now ops cfg s = (.eof, s') → NRead now ops cfg h seen s [.came .none] .none seen s'
  | item (seen s s' raw m) : step now ops cfg s = (.msg raw m, s') →
      NRead now ops cfg h seen s [.came (.item raw m)] (.item raw m) seen s'
  | crash (seen s s' e) : step now ops cfg s = (.crash e, s') →
      NRead now ops cfg h seen s [.came (.raised e)] (.raised (.py e)) seen s'
  | skip (seen s s1 tr r seen' s') : step now ops cfg s = (.skip, s1) → NRead now ops cfg h seen s1 tr r seen' s' →
      NRead now ops cfg h seen s tr r seen' s'
  /-- The handler returns: the loop goes on (`continue`, 165). -/
  | handled (seen s e s1 tr1 seen1 s2 tr2 r seen2 s3) : step now ops cfg s = (.err e, s1) →
      NHandle now ops cfg h (seen ++ [.error e]) s1 tr1 none seen1 s2 → NRead now ops cfg h seen1 s2 tr2 r seen2 s3 →
      NRead now ops cfg h seen s (.came (.raised e) :: (tr1 ++ tr2)) r seen2 s3
  /-- The handler raises: the exception leaves `read()`. -/
  | escaped (seen s e s1 tr1 x seen1 s2) : step now ops cfg s = (.err e, s1) →
      NHandle now ops cfg h (seen ++ [.error e]) s1 tr1 (some x) seen1 s2 →
      NRead now ops cfg h seen s (.came (.raised e) :: tr1) (.raised x) seen1 s2

/-- A handler at work (`self._errorhandler(err)`, /repo/src/pynmeagps/nmeareader.py:223), until it returns (`none`) or
raises. -/
inductive NHandle {σ} (now : Nat → DateTime) (ops : StreamOps σ) (cfg : RCfg) (h : Reenter) :
    List Seen → σ → List Happens → Option Exc → List Seen → σ → Prop
  | done (seen s) : h seen = .done → NHandle now ops cfg h seen s [] none seen s
  | raise (seen s x) : h seen = .raise x → NHandle now ops cfg h seen s [] (some x) seen s
  | read (seen s tr1 r seen1 s1 tr2 o seen2 s2) : h seen = .read → NRead now ops cfg h seen s tr1 r seen1 s1 →
      NHandle now ops cfg h (seen1 ++ [.got r]) s1 tr2 o seen2 s2 → NHandle now ops cfg h seen s (tr1 ++ tr2) o seen2 s2
  | take (seen s tr o seen2 s2) : h seen = .take →
      NHandle now ops cfg h (seen ++ [.bytes (ops.read1 s).1]) (ops.read1 s).2 tr o seen2 s2 →
      NHandle now ops cfg h seen s (.taken (ops.read1 s).1 :: tr) o seen2 s2
  | line (seen s tr o seen2 s2) : h seen = .line →
      NHandle now ops cfg h (seen ++ [.bytes (ops.readline s).1]) (ops.readline s).2 tr o seen2 s2 →
      NHandle now ops cfg h seen s (.taken (ops.readline s).1 :: tr) o seen2 s2
end

/-- The calls of the user's program, one after the other, whatever their outcomes. -/
inductive NCalls {σ} (now : Nat → DateTime) (ops : StreamOps σ) (cfg : RCfg) (h : Reenter) :
    List Seen → σ → List Happens → List XResult → List Seen → σ → Prop
  | nil (seen s) : NCalls now ops cfg h seen s [] [] seen s
  | cons (seen s tr1 r seen1 s1 tr2 rs seen2 s2) : NRead now ops cfg h seen s tr1 r seen1 s1 →
      NCalls now ops cfg h seen1 s1 tr2 rs seen2 s2 → NCalls now ops cfg h seen s (tr1 ++ tr2) (r :: rs) seen2 s2

end Nmea
