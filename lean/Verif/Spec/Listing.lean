import Verif.Model.Listing
import Verif.Spec.Framing
import Verif.Spec.SocketAny
/-!
# Specification: listings of the messages in a stream (nmeafile.py and nmeasocket.py)
-/
namespace Spec
open Py Nmea

/-- `Listed now ps texts errs fatal`: from the pieces `ps` of a stream, in order: each accepted sentence is listed as its
`str`; a complete line that is no sentence (not text, or without `*`) is listed as `None`; for a rejected line and a
cut-off line there is an error; a sentence for which `parse` raises `IndexError` (see C13) ends the list. Everything
else is passed over. -/
inductive Listed (now : Nat → DateTime) : List Piece → List Str → List Err → Option Err → Prop
  | nil : Listed now [] [] [] none
  | message (raw m s ps ts es f) : parse now (.bytes raw) 0 1 [] = .ok (some m) → m.str = .ok s →
      Listed now ps ts es f → Listed now (.line raw :: ps) (s :: ts) es f
  | noSentence (raw ps ts es f) : (¬ ∃ c t i fs k, IsSentence (.bytes raw) c t i fs k) →
      Listed now ps ts es f → Listed now (.line raw :: ps) (py!"None" :: ts) es f
  | rejected (raw e ps ts es f) : parse now (.bytes raw) 0 1 [] = .error e → e = .nmeaParse ∨ e = .nmeaType →
      Listed now ps ts es f → Listed now (.line raw :: ps) ts (e :: es) f
  | fatal (raw ps) : parse now (.bytes raw) 0 1 [] = .error .index → Listed now (.line raw :: ps) [] [] (some .index)
  | cut (raw ps ts es f) : Listed now ps ts es f → Listed now (.cut raw :: ps) ts (.nmeaStream :: es) f
  | junk (x ps ts es f) : Listed now ps ts es f → Listed now (.junk x :: ps) ts es f
  | foreign (x ps ts es f) : Listed now ps ts es f → Listed now (.foreign x :: ps) ts es f

/-- `Heard bs ps`: of the bytes `bs` that arrive on a socket with failures between them, the pieces `ps` reach a program
that stops when `read()` returns `(None, None)`: up to the first failure that does not come inside a line. -/
inductive Heard : List Bytes → List Piece → Prop
  | last (b ps i) : SocketPieces b ps i → Heard [b] ps
  | quiet (b ps bs) : bs ≠ [] → SocketPieces b ps false → Heard (b :: bs) ps
  | inLine (b ps bs qs) : bs ≠ [] → SocketPieces b ps true → Heard bs qs → Heard (b :: bs) (ps ++ qs)

/-- Lines of text. -/
def textLines (ts : List Str) : Str := ts.flatMap fun t => t ++ [10]

end Spec
