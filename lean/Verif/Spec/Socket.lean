import Verif.Model.Socket
import Verif.Spec.Stream
/-!
# Specification: what a socket delivers
-/
namespace Spec
open Py Nmea

/-- What one `recv` of a socket without transfer encoding delivers: bytes, or a failure (`none`): a timeout, an error, or no data because
the connection is closed. -/
def delivered : RecvEv → List (Option UInt8)
  | .fail => [none]
  | .data d => if d = [] then [none] else d.map some

/-- What the wrapper gets out of the future `recv` results: bytes and failures in order. With chunked
transfer encoding, the segments are decoded (`dechunk`; see `C33` to `C35` for what that means), each
together with the data `p` left over from the segments before. Segment boundaries are not visible in
the result. -/
def deliveries (z : Zlib) (enc : Nat) : Bytes → List RecvEv → List (Option UInt8)
  | _, [] => []
  | p, .fail :: r => none :: deliveries z enc p r
  | p, .data d :: r =>
    if d = [] then none :: deliveries z enc p r
    else if encChunked enc then
      (dechunk z enc (p ++ d)).1.map some ++ deliveries z enc (dechunk z enc (p ++ d)).2 r
    else d.map some ++ deliveries z enc p r

/-- What a wrapper has to deliver: the bytes buffered, then bytes and failures in order. -/
def wire (z : Zlib) (enc : Nat) (s : Sock) : List (Option UInt8) :=
  s.buffer.map some ++ deliveries z enc s.pending s.script

/-- The bytes in it. -/
def content (z : Zlib) (enc : Nat) (s : Sock) : Bytes := (wire z enc s).filterMap id

/-- A call on a `SocketWrapper`. -/
inductive Call where
  | read (n : Nat)
  | readline

/-- Make one call. -/
def call (z : Zlib) (enc : Nat) (s : Sock) : Call → Bytes × Sock
  | .read n => s.read z enc n
  | .readline => s.readline z enc

/-- Make calls one after the other: the values returned, and the state afterwards. -/
def calls (z : Zlib) (enc : Nat) (s : Sock) : List Call → List Bytes × Sock
  | [] => ([], s)
  | c :: cs => ((call z enc s c).1 :: (calls z enc (call z enc s c).2 cs).1, (calls z enc (call z enc s c).2 cs).2)

/-- `b` contains CR LF. -/
def HasCrLf (b : Bytes) : Prop := ∃ x y, b = x ++ 13 :: 10 :: y

/-- Every LF in `b` is preceded by CR. -/
def LfAfterCr (b : Bytes) : Prop := ∀ x y, b = x ++ 10 :: y → x.getLast? = some 13

end Spec
