import Verif.Model.Reader
/-!
# Specification: sentences in a byte stream
-/
namespace Spec
open Py Nmea

/-- A byte that may follow `$` in a sentence: the first letter of a known talker. -/
def TalkerLetter (h : UInt8) : Prop := ∃ t ∈ NMEA_TALKERS, t.head? = some h.toNat

instance (h : UInt8) : Decidable (TalkerLetter h) := by unfold TalkerLetter; infer_instance

/-- Pieces of a byte stream. -/
inductive Piece where
  /-- a byte other than `$`, outside of sentences -/
  | junk (b : UInt8)
  /-- `$` and a byte that is not a talker letter -/
  | foreign (h : UInt8)
  /-- a line: `$`, a talker letter, and everything up to and including the next LF -/
  | line (raw : Bytes)
  /-- a line cut off by the end of the stream -/
  | cut (raw : Bytes)
  deriving DecidableEq

/-- `Pieces b ps`: the bytes `b`, read from the beginning, fall into the pieces `ps`. A `$` at the
very end, or `$` and a talker letter at the very end, make no piece. -/
inductive Pieces : Bytes → List Piece → Prop
  | nil : Pieces [] []
  | junk (b : UInt8) (r : Bytes) (ps : List Piece) : b ≠ 36 → Pieces r ps → Pieces (b :: r) (.junk b :: ps)
  | foreign (h : UInt8) (r : Bytes) (ps : List Piece) : ¬ TalkerLetter h → Pieces r ps →
      Pieces (36 :: h :: r) (.foreign h :: ps)
  | line (h : UInt8) (body r : Bytes) (ps : List Piece) : TalkerLetter h → 10 ∉ body → Pieces r ps →
      Pieces (36 :: h :: (body ++ 10 :: r)) (.line (36 :: h :: (body ++ [10])) :: ps)
  | dollar : Pieces [36] []
  | letter (h : UInt8) : TalkerLetter h → Pieces [36, h] []
  | cut (h : UInt8) (body : Bytes) : TalkerLetter h → body ≠ [] → 10 ∉ body →
      Pieces (36 :: h :: body) [.cut (36 :: h :: body)]

/-- The errors defined by the library. -/
def LibraryError (e : Err) : Prop := e = .nmeaMessage ∨ e = .nmeaType ∨ e = .nmeaParse ∨ e = .nmeaStream

instance (e : Err) : Decidable (LibraryError e) := by unfold LibraryError; infer_instance

/-- What the reader does with one piece when errors are raised: return a sentence, raise an error,
or nothing. -/
def reply (now : Nat → DateTime) (cfg : RCfg) : Piece → Option ReadResult
  | .junk _ => none
  | .foreign _ => if cfg.nmeaonly then some (.raised .nmeaParse) else none
  | .line raw =>
    match parse now (.bytes raw) cfg.mode cfg.validate cfg.udefs with
    | .ok m => some (.item raw m)
    | .error e => some (.raised e)
  | .cut _ => some (.raised .nmeaStream)

/-- A session: `read()` is called again and again until it returns `(None, None)`. Each entry has the
errors reported to the error handler (or log) during the call, and the outcome of the call. -/
inductive Session {σ} (now : Nat → DateTime) (ops : StreamOps σ) (cfg : RCfg) :
    σ → List (List Err × ReadResult) → Prop
  | last (s s' log) : readMsg now ops cfg s = (.none, log, s') → Session now ops cfg s [(log, .none)]
  | more (s s' r log rest) : readMsg now ops cfg s = (r, log, s') → r ≠ .none →
      Session now ops cfg s' rest → Session now ops cfg s ((log, r) :: rest)

/-- The settings with another error policy. -/
def withPolicy (cfg : RCfg) (q : Nat) : RCfg := { cfg with quitonerror := q }

/-- A transcript in which logged errors are listed like raised ones. -/
def transcript (entries : List (List Err × ReadResult)) : List ReadResult :=
  entries.flatMap fun e => e.1.map .raised ++ [e.2]

/-- `rs` are disjoint slices of `b`, in order. -/
inductive SlicesOf : Bytes → List Bytes → Prop
  | nil (b) : SlicesOf b []
  | cons (gap raw b rs) : SlicesOf b rs → SlicesOf (gap ++ raw ++ b) (raw :: rs)

/-- The raw data among results. -/
def rawOf : List ReadResult → List Bytes
  | [] => []
  | .item raw _ :: r => raw :: rawOf r
  | _ :: r => rawOf r

/-- What a `for` loop over the reader makes of the outcomes of successive reads: the items up to the
first exception or the end, everything logged until then, and the exception, if any. -/
def loopOver : List (List Err × ReadResult) → List (Bytes × Option Msg) × List Err × Option Err
  | [] => ([], [], none)
  | (log, .none) :: _ => ([], log, none)
  | (log, .raised e) :: _ => ([], log, some e)
  | (log, .item raw m) :: es => ((raw, m) :: (loopOver es).1, log ++ (loopOver es).2.1, (loopOver es).2.2)

/-- A complete line: `$`, a talker letter, bytes other than LF, and LF. -/
def CompleteLine (x : Bytes) : Prop :=
  ∃ h body, TalkerLetter h ∧ 10 ∉ body ∧ x = 36 :: h :: (body ++ [10])

/-- A stream object that hands out its content in order, without loss: `content` is what it still
has to give. -/
def Lossless {σ} (ops : StreamOps σ) (content : σ → Bytes) : Prop :=
  ∀ s, (ops.read1 s).1 ++ content (ops.read1 s).2 = content s ∧
    (ops.readline s).1 ++ content (ops.readline s).2 = content s

/-- Outcomes that are library errors. -/
def isLibraryError : ReadResult → Bool
  | .raised e => decide (LibraryError e)
  | _ => false

end Spec
