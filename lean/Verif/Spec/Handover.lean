import Verif.Model.Reader
import Verif.Spec.Stream
import Verif.Spec.Socket
/-!
# Specification: one stream, several readers

An `NMEAReader` keeps nothing between calls of `read()` but its settings and its stream
(`/repo/src/pynmeagps/nmeareader.py:54-98`). So a program that makes a new `NMEAReader` with other
settings on the same stream object, or changes the settings of the one it has, makes the next call of
`read()` with those settings.
-/
namespace Spec
open Py Nmea

/-- Call `read()` once for each of the settings given, on the same stream object: the outcomes, and
the stream object afterwards. -/
def relay {σ} (now : Nat → DateTime) (ops : StreamOps σ) : List RCfg → σ → List ReadResult × σ
  | [], s => ([], s)
  | cfg :: cfgs, s =>
    ((readMsg now ops cfg s).1 :: (relay now ops cfgs (readMsg now ops cfg s).2.2).1,
      (relay now ops cfgs (readMsg now ops cfg s).2.2).2)

/-- With these settings `read()` passes over the piece: there is nothing to return or to raise, or an
error that the settings say not to raise. -/
def PassedOver (now : Nat → DateTime) (cfg : RCfg) (p : Piece) : Prop :=
  reply now cfg p = none ∨
    (cfg.quitonerror ≠ 2 ∧ ∃ e, reply now cfg p = some (.raised e) ∧ LibraryError e)

/-- `Relayed now ps cfgs rs left`: from the pieces `ps`, one `read()` with each of `cfgs` gives the
outcomes `rs` and leaves the pieces `left`: each `read()` begins where the one before left off, passes
over pieces according to its own settings, and gives the outcome of the first piece it does not pass
over, or `(None, None)` when it has passed over them all. -/
inductive Relayed (now : Nat → DateTime) : List Piece → List RCfg → List ReadResult → List Piece → Prop
  | done (ps) : Relayed now ps [] [] ps
  | next (passed p ps cfg cfgs r rs left) : (∀ q ∈ passed, PassedOver now cfg q) →
      ¬ PassedOver now cfg p → reply now cfg p = some r → Relayed now ps cfgs rs left →
      Relayed now (passed ++ p :: ps) (cfg :: cfgs) (r :: rs) left
  | ended (ps cfg cfgs rs left) : (∀ q ∈ ps, PassedOver now cfg q) → Relayed now [] cfgs rs left →
      Relayed now ps (cfg :: cfgs) (.none :: rs) left

/-- The lines among pieces. -/
def linesOf : List Piece → List Bytes
  | [] => []
  | .line raw :: ps => raw :: linesOf ps
  | _ :: ps => linesOf ps

end Spec
