import Verif.Model.Serial
import Verif.Spec.Stream
/-!
# Specification: bursts of data separated by read timeouts
-/
namespace Spec
open Py Nmea

/-- Bursts of bytes with one timeout between any two of them (empty bursts stand for repeated
timeouts). -/
def withTimeouts : List Bytes → Line
  | [] => []
  | [b] => b.map some
  | b :: bs => b.map some ++ none :: withTimeouts bs

/-- Successive calls of `read()`: what each reported and returned, and the stream afterwards. Unlike a
`Session` it goes on after `(None, None)`. -/
inductive Polled {σ} (now : Nat → DateTime) (ops : StreamOps σ) (cfg : RCfg) :
    σ → List (List Err × ReadResult) → σ → Prop
  | nil (s) : Polled now ops cfg s [] s
  | cons (s s1 s2 r log es) : readMsg now ops cfg s = (r, log, s1) → Polled now ops cfg s1 es s2 →
      Polled now ops cfg s ((log, r) :: es) s2

/-- The burst ends inside a line, after its third byte. -/
def EndsInLine (ps : List Piece) : Prop := ∃ raw, .cut raw ∈ ps

/-- `Answers ... bs rs`: what successive calls of `read()` give for the bursts `bs` when errors are
raised: for each burst the replies to its pieces, then `(None, None)` - unless the burst ended inside a
line, for which an error was raised instead; at the end always `(None, None)`. -/
inductive Answers (now : Nat → DateTime) (cfg : RCfg) : List Bytes → List ReadResult → Prop
  | last (b ps) : Pieces b ps → Answers now cfg [b] (ps.filterMap (reply now cfg) ++ [.none])
  | quiet (b ps bs rs) : bs ≠ [] → Pieces b ps → ¬ EndsInLine ps → Answers now cfg bs rs →
      Answers now cfg (b :: bs) (ps.filterMap (reply now cfg) ++ .none :: rs)
  | inLine (b ps bs rs) : bs ≠ [] → Pieces b ps → EndsInLine ps → Answers now cfg bs rs →
      Answers now cfg (b :: bs) (ps.filterMap (reply now cfg) ++ rs)

/-- Every LF in a burst is its first byte or is preceded by CR. -/
def LfInPlace (b : Bytes) : Prop := ∀ x y, b = x ++ 10 :: y → x = [] ∨ x.getLast? = some 13

end Spec
