import Verif.Model.Socket
import Verif.Spec.Socket
/-!
# Specification: how often a socket is asked for data
-/
namespace Spec
open Py Nmea

/-- The wrapper after `k` further calls of the socket's `recv`, if nothing were read from it in between: its buffer has all
the bytes received by then and not read. -/
def recvs (z : Zlib) (enc : Nat) : Nat → Sock → Sock
  | 0, s => s
  | k + 1, s => (Sock.recv z enc (recvs z enc k s)).2

/-- From `s` to `s'` exactly `k` calls of `recv` were made and `u` bytes were read. -/
def Took (z : Zlib) (enc : Nat) (s s' : Sock) (k u : Nat) : Prop :=
  u ≤ (recvs z enc k s).buffer.length ∧ s' = { recvs z enc k s with buffer := (recvs z enc k s).buffer.drop u }

end Spec
