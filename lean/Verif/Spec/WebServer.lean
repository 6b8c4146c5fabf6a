import Verif.Model.WebServer
import Verif.Spec.Poller
import Verif.Spec.Repr
import Mathlib.Data.List.Forall2
/-!
# Specification: the data of the example web server, and JSON texts
-/
namespace Spec.Web
open Py Nmea

/-- An entry of the web page: its name, what it shows before the first message, whether it is shown as text, and the
attributes it shows: ids of messages and names of attributes. -/
structure Entry where
  name : Str
  initial : PyVal
  asText : Bool
  sources : List (Str × Str)

/-- The page. -/
def page : List Entry :=
  [⟨py!"date", .str py!"1900-01-01", true, [(py!"RMC", py!"date")]⟩,
    ⟨py!"time", .str py!"00.00.00", true, [(py!"RMC", py!"time"), (py!"GGA", py!"time")]⟩,
    ⟨py!"latitude", .float (.fin false 0), false, [(py!"RMC", py!"lat"), (py!"GGA", py!"lat")]⟩,
    ⟨py!"longitude", .float (.fin false 0), false, [(py!"RMC", py!"lon"), (py!"GGA", py!"lon")]⟩,
    ⟨py!"elevation", .float (.fin false 0), false, [(py!"GGA", py!"alt")]⟩,
    ⟨py!"speed", .float (.fin false 0), false, [(py!"RMC", py!"spd")]⟩,
    ⟨py!"track", .int 0, false, [(py!"RMC", py!"cog")]⟩,
    ⟨py!"siv", .int 0, false, [(py!"GGA", py!"numSV")]⟩,
    ⟨py!"pdop", .int 99, false, [(py!"GSA", py!"PDOP")]⟩,
    ⟨py!"hdop", .int 99, false, [(py!"GGA", py!"HDOP"), (py!"GSA", py!"HDOP")]⟩,
    ⟨py!"vdop", .int 99, false, [(py!"GSA", py!"VDOP")]⟩,
    ⟨py!"fix", .int 0, false, [(py!"GSA", py!"navMode")]⟩]

/-- The message concerns the entry. -/
def Concerns (m : Msg) (e : Entry) : Prop := ∃ attr, (m.msgID, attr) ∈ e.sources

/-- The message gives the entry the value `v`. -/
def Gives (m : Msg) (e : Entry) (v : PyVal) : Prop :=
  ∃ attr x, (m.msgID, attr) ∈ e.sources ∧ lookup attr m.attrs = some x ∧
    (if e.asText then ∃ s, x.toStr = .ok s ∧ v = .str s else v = x)

/-- `v` is the value that the last of the messages `ms` which concerns the entry gives it; its initial value if there
is none. -/
def Newest (ms : List Msg) (e : Entry) (v : PyVal) : Prop :=
  ((∀ m ∈ ms, ¬ Concerns m e) ∧ v = e.initial) ∨
    ∃ before m after, ms = before ++ m :: after ∧ (∀ x ∈ after, ¬ Concerns x e) ∧ Gives m e v

/-- The message can be stored: it has a value for every entry it concerns. -/
def Storable (m : Msg) : Prop := ∀ e ∈ page, Concerns m e → ∃ v, Gives m e v

/-- The dictionary has the entries of the page, in order, with the newest values of the messages. -/
def Shows (ms : List Msg) (data : List (Str × PyVal)) : Prop :=
  List.Forall₂ (fun (d : Str × PyVal) e => d.1 = e.name ∧ Newest ms e d.2) data page

/-- The program at its start. -/
def start {σ} (s : σ) : Web σ := { stream := s }

/-- The outcomes of the reads made while the program runs according to a schedule. -/
def readsMade {σ} (now : Nat → DateTime) (ops : StreamOps σ) (cfg : RCfg) (inw : Nat → Bool) : Web σ → List WebAct → List ReadResult
  | _, [] => []
  | w, .thread :: r =>
    match w.at_ with
    | .read => (readMsg now ops cfg w.stream).1 :: readsMade now ops cfg inw (w.step now ops cfg inw .thread) r
    | _ => readsMade now ops cfg inw (w.step now ops cfg inw .thread) r
  | w, a :: r => readsMade now ops cfg inw (w.step now ops cfg inw a) r

/-! ## JSON (RFC 8259) -/

/-- One or more digits. -/
def Digits (s : Str) : Prop := s ≠ [] ∧ ∀ c ∈ s, 48 ≤ c ∧ c ≤ 57

/-- RFC 8259, section 6: `number = [ minus ] int [ frac ] [ exp ]`. -/
def IsNumber (s : Str) : Prop :=
  ∃ minus int frac exp, s = minus ++ int ++ frac ++ exp ∧ (minus = [] ∨ minus = py!"-") ∧
    Digits int ∧ (int = py!"0" ∨ int.head? ≠ some 48) ∧
    (frac = [] ∨ ∃ ds, Digits ds ∧ frac = py!"." ++ ds) ∧
    (exp = [] ∨ ∃ e sign ds, (e = py!"e" ∨ e = py!"E") ∧ (sign = [] ∨ sign = py!"+" ∨ sign = py!"-") ∧ Digits ds ∧
      exp = e ++ sign ++ ds)

/-- The text is the JSON of the value: a string (of characters that need no escape) or a number that reads back as the
same number. -/
def IsJson (s : Str) : PyVal → Prop
  | .str t => (∀ c ∈ t, 32 ≤ c ∧ c ≤ 126 ∧ c ≠ 34 ∧ c ≠ 92) ∧ s = py!"\"" ++ t ++ py!"\""
  | .int i => IsNumber s ∧ intOfStr s = .ok i
  | .float x => IsNumber s ∧ floatOfStr s = .ok x
  | _ => False

/-- A JSON object with these members. -/
def IsObject (s : Str) (members : List (Str × PyVal)) : Prop :=
  ∃ texts, List.Forall₂ (fun t (m : Str × PyVal) => ∃ v, IsJson v m.2 ∧ t = py!"\"" ++ m.1 ++ py!"\": " ++ v) texts members ∧
    s = py!"{" ++ List.intercalate py!", " texts ++ py!"}"

/-- The words Python writes for values that JSON has no text for (its readers accept them, browsers do not). -/
def PythonWord : PyVal → Option Str
  | .float .nan => some py!"NaN"
  | .float (.inf false) => some py!"Infinity"
  | .float (.inf true) => some py!"-Infinity"
  | _ => none

/-- An object as in `IsObject`, except for the values that JSON has no text for. -/
def IsPythonObject (s : Str) (members : List (Str × PyVal)) : Prop :=
  ∃ texts, List.Forall₂ (fun t (m : Str × PyVal) => ∃ v, (match PythonWord m.2 with | some w => v = w | none => IsJson v m.2) ∧
      t = py!"\"" ++ m.1 ++ py!"\": " ++ v) texts members ∧
    s = py!"{" ++ List.intercalate py!", " texts ++ py!"}"

/-- UTF-16 code units of a text. -/
def utf16 (s : Str) : List Nat :=
  s.flatMap fun c => if c < 0x10000 then [c] else [0xD800 + (c - 0x10000) / 0x400, 0xDC00 + (c - 0x10000) % 0x400]

/-- RFC 8259, section 7: the two-character escapes and what they stand for. -/
def jsonEscapes : List (Nat × Nat) := [(34, 34), (92, 92), (47, 47), (98, 8), (102, 12), (110, 10), (114, 13), (116, 9)]

/-- RFC 8259, section 7: the text between the quotes (ASCII only) and the UTF-16 units it stands for. -/
inductive JsonBody : Str → List Nat → Prop
  | nil : JsonBody [] []
  | plain (c : Nat) (s : Str) (u : List Nat) : 32 ≤ c → c ≤ 126 → c ≠ 34 → c ≠ 92 → JsonBody s u → JsonBody (c :: s) (c :: u)
  | escape (e c : Nat) (s : Str) (u : List Nat) : (e, c) ∈ jsonEscapes → JsonBody s u → JsonBody (92 :: e :: s) (c :: u)
  | unit (h : Str) (n : Nat) (s : Str) (u : List Nat) : h.length = 4 → Spec.hexNum 0 h = some n → JsonBody s u →
      JsonBody (92 :: 117 :: (h ++ s)) (n :: u)

/-- A float that is a number. -/
def IsFiniteFloat : PyVal → Prop
  | .float .nan => False
  | .float (.inf _) => False
  | _ => True

end Spec.Web
