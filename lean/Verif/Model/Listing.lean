import Verif.Model.Socket
/-!
# Model of the example programs /repo/examples/nmeafile.py and /repo/examples/nmeasocket.py

Both read a stream with an iterator and print every message. Modelled is what they print, the errors given to the
error handler or the log, and the exception they end with, if any. Not modelled: the command line, opening the file or
connecting the socket, failing to print, the traceback printed for an exception, and, in nmeasocket.py, what Ctrl-C prints.
-/
namespace Nmea
open Py

/-- What a program printed, what it reported (to the error handler, or to the log), and the exception it ended with. -/
structure Listing where
  text : Str
  reported : List Err
  failed : Option Err

/-- `print(parsed_data)`: `str` of the message, or of `None`, and a line end. -/
def printed : Option Msg → Except Err Str
  | none => .ok py!"None\n"
  | some m => do pure ((← m.str) ++ py!"\n")

/-- The body of the loops (/repo/examples/nmeafile.py:41-43, /repo/examples/nmeasocket.py:38-40): the text printed, the
count, and the exception that ended the loop, `fin` being the one raised by the iterator after the last item. -/
def printAll (fin : Option Err) : List (Bytes × Option Msg) → Str × Nat × Option Err
  | [] => ([], 0, fin)
  | (_, m) :: r =>
    match printed m with
    | .ok s => let (t, n, e) := printAll fin r; (s ++ t, n + 1, e)
    | .error e => ([], 0, some e)

/-- The reader of nmeafile.py: `nmeaonly=False, quitonerror=False` (/repo/examples/nmeafile.py:38-40); `False` is
`ERR_IGNORE`. The other settings have their default values (/repo/src/pynmeagps/nmeareader.py:54-65). -/
def fileCfg : RCfg := { mode := 0, validate := 1, nmeaonly := false, quitonerror := 0, udefs := [] }

/-- `main` of nmeafile.py (/repo/examples/nmeafile.py:29-47), for the file `name` with content `b`. -/
def nmeaFile (now : Nat → DateTime) (name : Str) (b : Bytes) : Listing :=
  let (items, log, fin) := readAll now fileStream fileCfg b
  let (text, count, e) := printAll fin items
  let start := py!"\nOpening file " ++ name ++ py!"...\n\n"
  match e with
  | some e => ⟨start ++ text, log, some e⟩
  | none => ⟨start ++ text ++ py!"\n" ++ natDec count ++ py!" messages read.\n\n" ++ py!"\nProcessing Complete\n", log, none⟩

/-- The reader of nmeasocket.py: `NMEAReader(stream)` (/repo/examples/nmeasocket.py:37). -/
def socketCfg : RCfg := { mode := 0, validate := 1, nmeaonly := false, quitonerror := 1, udefs := [] }

/-- `main` of nmeasocket.py (/repo/examples/nmeasocket.py:23-49), for a socket whose `recv` gives `script`; nobody presses
Ctrl-C. -/
def nmeaSocket (now : Nat → DateTime) (z : Zlib) (address : Str) (port : Nat) (script : List RecvEv) : Listing :=
  let (items, log, fin) := readAll now (sockStream z 0) socketCfg (Sock.open z 0 script)
  let (text, _, e) := printAll fin items
  ⟨py!"Opening socket " ++ address ++ py!":" ++ natDec port ++ py!"...\n" ++ py!"Starting NMEA reader...\n" ++ text, log, e⟩

end Nmea
