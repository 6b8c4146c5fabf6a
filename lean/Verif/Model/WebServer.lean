import Verif.Model.GpxTracker
/-!
# Model of the example program /repo/examples/webserver/nmeaserver.py

A thread reads messages and stores some of their attributes in a dictionary; a web server answers requests with this
dictionary as JSON, at any time. Every assignment to the dictionary is one step, and so is a call of `read()`, of
`in_waiting`, and an answer (`json.dumps` of a dictionary of texts and numbers runs no Python code, so no other thread
runs in between).
Not modelled: opening and closing the serial port, the other pages of the web server, `BaseException`s, printing.
-/
namespace Nmea
open Py

/-- The initial dictionary (/repo/examples/webserver/nmeaserver.py:58-71). -/
def gpsStart : List (Str × PyVal) :=
  [(py!"date", .str py!"1900-01-01"), (py!"time", .str py!"00.00.00"), (py!"latitude", .float (.fin false 0)),
    (py!"longitude", .float (.fin false 0)), (py!"elevation", .float (.fin false 0)), (py!"speed", .float (.fin false 0)),
    (py!"track", .int 0), (py!"siv", .int 0), (py!"pdop", .int 99), (py!"hdop", .int 99), (py!"vdop", .int 99),
    (py!"fix", .int 0)]

/-- One statement of `set_data`: `self.gpsdata[entry] = parsed_data.attr`, with or without `str(...)`. -/
structure Assign where
  entry : Str
  attr : Str
  asText : Bool
  deriving DecidableEq, Repr

/-- The statements of `set_data` for a message id (/repo/examples/webserver/nmeaserver.py:161-185). -/
def assigns (msgID : Str) : List Assign :=
  if msgID = py!"RMC" then
    [⟨py!"date", py!"date", true⟩, ⟨py!"time", py!"time", true⟩, ⟨py!"latitude", py!"lat", false⟩,
      ⟨py!"longitude", py!"lon", false⟩, ⟨py!"speed", py!"spd", false⟩, ⟨py!"track", py!"cog", false⟩]
  else if msgID = py!"GGA" then
    [⟨py!"time", py!"time", true⟩, ⟨py!"latitude", py!"lat", false⟩, ⟨py!"longitude", py!"lon", false⟩,
      ⟨py!"elevation", py!"alt", false⟩, ⟨py!"siv", py!"numSV", false⟩, ⟨py!"hdop", py!"HDOP", false⟩]
  else if msgID = py!"GSA" then
    [⟨py!"fix", py!"navMode", false⟩, ⟨py!"pdop", py!"PDOP", false⟩, ⟨py!"hdop", py!"HDOP", false⟩,
      ⟨py!"vdop", py!"VDOP", false⟩]
  else []

/-- The value a statement stores, or the exception it raises. -/
def Assign.value (a : Assign) (m : Msg) : Except Err PyVal := do
  let v ← m.attr a.attr
  if a.asText then pure (.str (← v.toStr)) else pure v

/-! ## `json.dumps` (CPython's json, default arguments) -/

/-- `"\\u{0:04x}"`. -/
def jsonHex (n : Nat) : Str :=
  92 :: 117 :: padZero 4 ((digits 16 n).map (fun d => if d < 10 then 48 + d else 87 + d))

/-- `py_encode_basestring_ascii`: one character. -/
def jsonChar (c : Nat) : Str :=
  if c = 34 then py!"\\\"" else if c = 92 then py!"\\\\" else if c = 10 then py!"\\n" else if c = 13 then py!"\\r"
  else if c = 9 then py!"\\t" else if c = 12 then py!"\\f" else if c = 8 then py!"\\b"
  else if 32 ≤ c ∧ c ≤ 126 then [c]
  else if c < 65536 then jsonHex c
  else jsonHex (55296 + (c - 65536) / 1024) ++ jsonHex (56320 + (c - 65536) % 1024)

def jsonString (s : Str) : Str := 34 :: (s.flatMap jsonChar ++ [34])

/-- A value. Of the other kinds of values none is ever stored (C87); their exact treatment is not modelled. -/
def jsonValue : PyVal → Except Err Str
  | .str s => .ok (jsonString s)
  | .int i => strOfInt i
  | .float .nan => .ok py!"NaN"
  | .float (.inf s) => .ok (if s then py!"-Infinity" else py!"Infinity")
  | .float x => .ok (reprFloat x)
  | _ => .error .type

/-- The members of a dictionary. -/
def jsonMembers : List (Str × PyVal) → Except Err (List Str)
  | [] => .ok []
  | (k, v) :: r => do
    let t ← jsonValue v
    let ts ← jsonMembers r
    pure ((jsonString k ++ py!": " ++ t) :: ts)

/-- `get_data` (/repo/examples/webserver/nmeaserver.py:187-195). -/
def getData (d : List (Str × PyVal)) : Except Err Str := do
  let ms ← jsonMembers d
  pure (123 :: (List.intercalate py!", " ms ++ [125]))

/-! ## The threads -/

/-- Where the reading thread is (/repo/examples/webserver/nmeaserver.py:140-159). -/
inductive WebAt where
  /-- before `while not stopevent.is_set()` (146) -/
  | top
  /-- before `if self._serial_object.in_waiting` (147) -/
  | waiting
  /-- before `self._nmeareader.read()` (149) -/
  | read
  /-- in `set_data` for this message, with these statements to go (161-185) -/
  | store (m : Msg) (todo : List Assign)
  /-- the thread has ended -/
  | ended
  /-- an exception ended the thread -/
  | died (e : Err)

/-- The state. `polls` counts the uses of `in_waiting`; `answers` are the answers to the requests so far. -/
structure Web (σ : Type) where
  stream : σ
  data : List (Str × PyVal) := gpsStart
  at_ : WebAt := .top
  stop : Bool := false
  polls : Nat := 0
  answers : List (Except Err Str) := []

/-- Who does something: the reading thread, a request for `/gps`, or `stop_read_thread`. -/
inductive WebAct where
  | thread
  | request
  | stop
  deriving DecidableEq

/-- The exceptions caught around `read()` and `set_data()` (/repo/examples/webserver/nmeaserver.py:152-159). -/
def webCatches : Err → Bool
  | .nmeaStream | .nmeaMessage | .nmeaType | .nmeaParse => true
  | _ => false

/-- A step of the reading thread. `inw k` is the truth of the `k`-th use of `in_waiting`. -/
def webThread {σ} (now : Nat → DateTime) (ops : StreamOps σ) (cfg : RCfg) (inw : Nat → Bool) (w : Web σ) : Web σ :=
  match w.at_ with
  | .top => if w.stop then { w with at_ := .ended } else { w with at_ := .waiting }
  | .waiting => { w with polls := w.polls + 1, at_ := if inw w.polls then .read else .top }
  | .read =>
    match readMsg now ops cfg w.stream with
    | (.item _ (some m), _, s) => { w with stream := s, at_ := .store m (assigns m.msgID) }
    | (.item _ none, _, s) => { w with stream := s, at_ := .top }
    | (.none, _, s) => { w with stream := s, at_ := .top }
    | (.raised e, _, s) => { w with stream := s, at_ := if webCatches e then .top else .died e }
  | .store _ [] => { w with at_ := .top }
  | .store m (a :: r) =>
    match a.value m with
    | .ok v => { w with data := Py.insert a.entry v w.data, at_ := .store m r }
    | .error e => { w with at_ := if webCatches e then .top else .died e }
  | .ended => w
  | .died _ => w

/-- One step of the program. -/
def Web.step {σ} (now : Nat → DateTime) (ops : StreamOps σ) (cfg : RCfg) (inw : Nat → Bool) (w : Web σ) : WebAct → Web σ
  | .thread => webThread now ops cfg inw w
  | .request => { w with answers := w.answers ++ [getData w.data] }
  | .stop => { w with stop := true }

/-- The program after a schedule. -/
def Web.run {σ} (now : Nat → DateTime) (ops : StreamOps σ) (cfg : RCfg) (inw : Nat → Bool) (w : Web σ) (sched : List WebAct) :
    Web σ :=
  sched.foldl (Web.step now ops cfg inw) w

/-- The settings of the reader (/repo/examples/webserver/nmeaserver.py:43, 92-97). -/
def webCfg : RCfg := { mode := 0, validate := 1, nmeaonly := false, quitonerror := 1, udefs := [] }

end Nmea
