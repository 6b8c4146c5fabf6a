import Verif.Model.Poller
/-!
# Model of the example program /repo/examples/quecteldemo.py

The I/O thread is that of nmeapoller.py (`ioStep`; here `sendqueue.get()` would wait where there `get(False)` would
raise, but it is only called when the queue is not empty). The processing thread prints only some of the messages. The main
thread executes a list of statements, which make messages and put them on the send queue, until Ctrl-C is pressed.
Not modelled: the delays (`sleep`), printing (but what is printed), Ctrl-C inside a statement.
-/
namespace Nmea
open Py

/-- A step of the processing thread (/repo/examples/quecteldemo.py:99-110). With `qtmonly`, `parsed.identity` is
looked at (108); should it raise, the thread dies. -/
def demoProcessStep {σ} (qtmonly : Bool) (p : Poller σ) : Poller σ :=
  match p.pr with
  | .top => if p.stop then { p with pr := .ended } else { p with pr := .empty }
  | .empty => if p.readq = [] then { p with pr := .top } else { p with pr := .get }
  | .get =>
    match p.readq with
    | [] => p
    | (_, m) :: r => { p with readq := r, pr := .show m }
  | .show m =>
    if qtmonly then
      match m.identity with
      | .error _ => { p with pr := .died }
      | .ok id =>
        if py!"QTM" <:+: id then { p with shown := p.shown ++ [m], pr := .task } else { p with pr := .task }
    else { p with shown := p.shown ++ [m], pr := .task }
  | .task => if p.readOpen = 0 then { p with pr := .died } else { p with readOpen := p.readOpen - 1, pr := .top }
  | .ended => p
  | .died => p

/-- A statement of the main thread: `x = NMEAMessage("P", id, mode, **kw)` (or without `x =`), and
`send(send_queue, x)` (/repo/examples/quecteldemo.py:113-120). -/
inductive DemoStmt where
  | make (x : Option Str) (id : Str) (mode : Int) (kw : List (Str × PyVal))
  | send (x : Str)

/-- `LG290P_STANDARD_MESSAGES` (/repo/examples/quecteldemo.py:43-50). -/
def lgStandard : List Str := [py!"GGA", py!"GLL", py!"GSA", py!"GSV", py!"RMC", py!"VTG"]

/-- `LG290P_PROPRIETARY_MESSAGES` (/repo/examples/quecteldemo.py:54-64). -/
def lgProprietary : List (Str × Int) :=
  [(py!"PQTMDOP", 1), (py!"PQTMEPE", 2), (py!"PQTMGEOFENCESTATUS", 1), (py!"PQTMODO", 1), (py!"PQTMPL", 1),
   (py!"PQTMPVT", 1), (py!"PQTMSVINSTATUS", 1), (py!"PQTMTXT", 1), (py!"PQTMVEL", 1)]

/-- The statements of the `try` block of `main` (/repo/examples/quecteldemo.py:163-383). The variable of the loops
`for msg in msgs` (321, 368) is left out: what they send is named directly. -/
def demoMain : List DemoStmt :=
  -- 171-200
  [.make (some py!"msg") py!"QTMVERNO" 2 [], .send py!"msg",
   .make (some py!"msg") py!"QTMRESTOREPAR" 1 [], .send py!"msg",
   .make (some py!"msg") py!"QTMCFGRCVRMODE" 2 [], .send py!"msg",
   .make (some py!"msg") py!"QTMCFGFIXRATE" 1 [(py!"fixinterval", .int 1000)], .send py!"msg",
   .make (some py!"msg") py!"QTMCFGFIXRATE" 2 [], .send py!"msg",
  -- 207-239
   .make none py!"QTMCFGUART" 1 [(py!"baudrate", .int 460800)], .send py!"msg",
   .make none py!"QTMCFGUART" 1 [(py!"portid", .int 2), (py!"baudrate", .int 115200)], .send py!"msg",
   .make none py!"QTMCFGUART" 1 [(py!"baudrate", .int 460800), (py!"databit", .int 8), (py!"parity", .int 0),
     (py!"stopbit", .int 1), (py!"flowctrl", .int 0)], .send py!"msg",
   .make none py!"QTMCFGUART" 1 [(py!"portid", .int 2), (py!"baudrate", .int 115200), (py!"databit", .int 8),
     (py!"parity", .int 0), (py!"stopbit", .int 1), (py!"flowctrl", .int 0)], .send py!"msg"] ++
  -- 242-246
  [1, 2, 3].flatMap (fun portid =>
    [.make (some py!"msg") py!"QTMCFGUART" 2 [(py!"portid", .int portid)], .send py!"msg",
     .make (some py!"msg") py!"QTMCFGPROT" 2 [(py!"porttype", .int 1), (py!"portid", .int portid)], .send py!"msg"]) ++
  -- 265-287
  [.make none py!"QTMCFGSAT" 1 [(py!"systemid", .int 1), (py!"signalid", .int 1),
     (py!"masklow", .str (hex2str 0xFFFFFFFF 8))], .send py!"msg",
   .make none py!"QTMCFGSIGNAL" 1 [(py!"gpssig", .str (hex2str 0x07 0)), (py!"glonasssig", .str (hex2str 0x03 0)),
     (py!"galileosig", .str (hex2str 0x0F 0)), (py!"beidousig", .str (hex2str 0x3F 0)),
     (py!"qzsssig", .str (hex2str 0x07 0)), (py!"navicsig", .str (hex2str 0x01 0))], .send py!"msg"] ++
  -- 290-292
  lgStandard.flatMap (fun n =>
    [.make (some py!"msg") py!"QTMCFGMSGRATE" 1 [(py!"msgname", .str n), (py!"rate", .int 0)], .send py!"msg"]) ++
  -- 295-299
  lgProprietary.flatMap (fun nv =>
    [.make (some py!"msg") py!"QTMCFGMSGRATE" 1 [(py!"msgname", .str nv.1), (py!"rate", .int 1), (py!"msgver", .int nv.2)],
     .send py!"msg"]) ++
  -- 306-322
  [.make (some py!"msg1") py!"QTMCFGRCVRMODE" 1 [(py!"rcvrmode", .int 2)],
   .make (some py!"msg2") py!"QTMCFGSVIN" 1 [(py!"svinmode", .int 1), (py!"cfgcnt", .int 60), (py!"acclimit", .int 3000)],
   .make (some py!"msg3") py!"QTMSAVEPAR" 1 [],
   .make (some py!"msg4") py!"QTMSRR" 1 [],
   .send py!"msg1", .send py!"msg2", .send py!"msg3", .send py!"msg4",
  -- 356-369
   .make (some py!"msg1") py!"QTMCFGRCVRMODE" 1 [(py!"rcvrmode", .int 1)],
   .make (some py!"msg2") py!"QTMSAVEPAR" 1 [],
   .make (some py!"msg3") py!"QTMSRR" 1 [],
   .send py!"msg1", .send py!"msg2", .send py!"msg3",
  -- 382-383
   .make (some py!"msg") py!"QTMHOT" 1 [], .send py!"msg"]

/-- The state of the program: the two other threads, the variables and the remaining statements of the main thread, and
whether it has raised an exception other than `KeyboardInterrupt`. -/
structure Demo (σ : Type) where
  threads : Poller σ
  vars : List (Str × Msg) := []
  rest : List DemoStmt
  failed : Bool := false

/-- Who does something; `ctrlC`: the user presses Ctrl-C. -/
inductive DemoAct where
  | io
  | process
  | main
  | ctrlC
  deriving DecidableEq

/-- One statement of the main thread. With no statement left it sleeps, or waits for the other threads
(/repo/examples/quecteldemo.py:385-396). -/
def demoMainStep {σ} (now : Nat → DateTime) (d : Demo σ) : Demo σ :=
  match d.rest with
  | [] => d
  | .make x id mode kw :: r =>
    match mkMsg now py!"P" id mode false 1 [] none ⟨none, kw⟩ with
    | .error _ => { d with rest := [], failed := true }
    | .ok m => { d with rest := r, vars := match x with | none => d.vars | some x => Py.insert x m d.vars }
  | .send x :: r =>
    match lookup x d.vars with
    | none => { d with rest := [], failed := true }
    | some m =>
      { d with rest := r, threads := { d.threads with sendq := d.threads.sendq ++ [some m], sendOpen := d.threads.sendOpen + 1 } }

/-- One step of the program. Ctrl-C ends the main thread's statements and sets `stop` (388-390). -/
def Demo.step {σ} (now : Nat → DateTime) (ops : StreamOps σ) (cfg : RCfg) (wr : Writes) (qtmonly : Bool) (d : Demo σ) :
    DemoAct → Demo σ
  | .io => { d with threads := ioStep now ops cfg wr d.threads }
  | .process => { d with threads := demoProcessStep qtmonly d.threads }
  | .main => demoMainStep now d
  | .ctrlC => { d with rest := [], threads := { d.threads with stop := true } }

/-- The program after a schedule. -/
def Demo.run {σ} (now : Nat → DateTime) (ops : StreamOps σ) (cfg : RCfg) (wr : Writes) (qtmonly : Bool) (d : Demo σ)
    (sched : List DemoAct) : Demo σ :=
  sched.foldl (Demo.step now ops cfg wr qtmonly) d

end Nmea
