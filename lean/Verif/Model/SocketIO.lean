import Verif.Model.Socket
/-!
# Model of writing through a `SocketWrapper`, and of opening a reader on a socket

A connection has two independent directions. What the peer sends is the script of `Sock`; what `send` does
with data to be written is a script of its own: it accepts some of the bytes, or raises `OSError`.
-/
namespace Nmea
open Py

/-- Result of one `socket.send` call (/repo/src/pynmeagps/socketwrapper.py:128): it accepts up to so many of the
bytes given, or raises `OSError`. -/
inductive SendEv where
  | room (n : Nat)
  | fail
  deriving DecidableEq

/-- A wrapper, what its socket will do with data written, and what the peer has got.
(/repo/src/pynmeagps/socketwrapper.py:36-57) -/
structure Duplex where
  sock : Sock
  sends : List SendEv
  peer : Bytes
  deriving DecidableEq

/-- `write` (/repo/src/pynmeagps/socketwrapper.py:120-128): one `send`, whose value, the number of bytes
accepted, is returned and whose exception (`none`) is not handled. After the script, the connection is
broken: `send` raises. -/
def Duplex.write (d : Duplex) (data : Bytes) : Option Nat × Duplex :=
  match d.sends with
  | [] => (none, d)
  | .fail :: r => (none, { d with sends := r })
  | .room n :: r => (some (min n data.length), { d with sends := r, peer := d.peer ++ data.take n })

/-- What a program does with a reader (/repo/src/pynmeagps/nmeareader.py:120-167) and its `datastream` (225-233), a
wrapper: `read(n)`, `readline()`, `in_waiting()`, `write(data)`, or `read()` of the reader. -/
inductive Action where
  | read (n : Nat)
  | readline
  | waiting
  | message
  | write (data : Bytes)
  deriving DecidableEq

/-- What an action returns. -/
inductive Answer where
  | bytes (b : Bytes)
  | count (n : Nat)
  | message (r : ReadResult) (reported : List Err)
  /-- number of bytes accepted, or `OSError` -/
  | written (n : Option Nat)

/-- One action (socketwrapper.py:81-138, nmeareader.py:120-167). -/
def Duplex.act (now : Nat → DateTime) (z : Zlib) (enc : Nat) (cfg : RCfg) (d : Duplex) : Action → Answer × Duplex
  | .read n => (.bytes (d.sock.read z enc n).1, { d with sock := (d.sock.read z enc n).2 })
  | .readline => (.bytes (d.sock.readline z enc).1, { d with sock := (d.sock.readline z enc).2 })
  | .waiting => (.count d.sock.inWaiting, d)
  | .message =>
    let r := readMsg now (sockStream z enc) cfg d.sock
    (.message r.1 r.2.1, { d with sock := r.2.2 })
  | .write data => (.written (d.write data).1, (d.write data).2)

/-- Actions one after the other. -/
def Duplex.acts (now : Nat → DateTime) (z : Zlib) (enc : Nat) (cfg : RCfg) :
    Duplex → List Action → List Answer × Duplex
  | d, [] => ([], d)
  | d, a :: as =>
    ((d.act now z enc cfg a).1 :: (Duplex.acts now z enc cfg (d.act now z enc cfg a).2 as).1,
      (Duplex.acts now z enc cfg (d.act now z enc cfg a).2 as).2)

/-- The constructor of `NMEAReader` given a socket (/repo/src/pynmeagps/nmeareader.py:83-90): the wrapper is
made first, which receives (socketwrapper.py:57), and the mode is checked afterwards. Second component: what
the socket will deliver to the next one who asks it. -/
def openReader (z : Zlib) (enc : Nat) (mode : Int) (script : List RecvEv) : Except Err Sock × List RecvEv :=
  let s := Sock.open z enc script
  (if mode = 0 ∨ mode = 1 ∨ mode = 2 then .ok s else .error .nmeaParse, s.script)

end Nmea
