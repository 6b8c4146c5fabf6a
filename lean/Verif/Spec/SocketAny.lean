import Verif.Spec.Serial
import Verif.Spec.Socket
/-!
# Specification: what arrives on a socket, whatever the bytes

On a socket a line ends with CR LF, not with LF alone: a line takes everything up to the first CR LF, or up to a failure of
the connection.
-/
namespace Spec
open Py Nmea

/-- `SocketPieces b ps inLine`: the bytes `b`, received between two failures, fall into the pieces `ps`; `inLine` says that
the reader is inside a line when they end. A line that has no CR LF is complete if its last byte is LF, and cut off
otherwise. -/
inductive SocketPieces : Bytes → List Piece → Bool → Prop
  | nil : SocketPieces [] [] false
  | junk (b : UInt8) (r : Bytes) (ps i) : b ≠ 36 → SocketPieces r ps i → SocketPieces (b :: r) (.junk b :: ps) i
  | foreign (h : UInt8) (r : Bytes) (ps i) : ¬ TalkerLetter h → SocketPieces r ps i →
      SocketPieces (36 :: h :: r) (.foreign h :: ps) i
  | line (h : UInt8) (body r : Bytes) (ps i) : TalkerLetter h → ¬ HasCrLf (body ++ [13]) → SocketPieces r ps i →
      SocketPieces (36 :: h :: (body ++ [13, 10] ++ r)) (.line (36 :: h :: (body ++ [13, 10])) :: ps) i
  | dollar : SocketPieces [36] [] false
  | letter (h : UInt8) : TalkerLetter h → SocketPieces [36, h] [] false
  | lf (h : UInt8) (body : Bytes) : TalkerLetter h → ¬ HasCrLf (body ++ [10]) →
      SocketPieces (36 :: h :: (body ++ [10])) [.line (36 :: h :: (body ++ [10]))] true
  | cut (h : UInt8) (body : Bytes) : TalkerLetter h → body ≠ [] → ¬ HasCrLf body → body.getLast? ≠ some 10 →
      SocketPieces (36 :: h :: body) [.cut (36 :: h :: body)] true

/-- What successive calls of `read()` give, errors being raised, when the bytes `bs` arrive with failures between them: the
replies to the pieces, then `(None, None)` - unless the failure came inside a line; at the end always `(None, None)`. -/
inductive SocketAnswers (now : Nat → DateTime) (cfg : RCfg) : List Bytes → List ReadResult → Prop
  | last (b ps i) : SocketPieces b ps i → SocketAnswers now cfg [b] (ps.filterMap (reply now cfg) ++ [.none])
  | quiet (b ps bs rs) : bs ≠ [] → SocketPieces b ps false → SocketAnswers now cfg bs rs →
      SocketAnswers now cfg (b :: bs) (ps.filterMap (reply now cfg) ++ .none :: rs)
  | inLine (b ps bs rs) : bs ≠ [] → SocketPieces b ps true → SocketAnswers now cfg bs rs →
      SocketAnswers now cfg (b :: bs) (ps.filterMap (reply now cfg) ++ rs)

end Spec
