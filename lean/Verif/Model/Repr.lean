import Verif.Model.Message
/-!
# Model of `__repr__`
-/
namespace Nmea
open Py

/-- `n` in lower-case hexadecimal, padded with zeros to width `w`. -/
def hexLower (w n : Nat) : Str := padZero w ((digits 16 n).map digitLower)

/-- One character in the `repr` of a string, as CPython's `unicode_repr` writes it. Which characters
outside ASCII are printable depends on the Unicode version: `printable` is a parameter. -/
def escChar (printable : Nat → Bool) (q c : Nat) : Str :=
  if c = q ∨ c = 92 then [92, c]
  else if c = 9 then py!"\\t"
  else if c = 10 then py!"\\n"
  else if c = 13 then py!"\\r"
  else if c < 32 ∨ c = 127 then py!"\\x" ++ hexLower 2 c
  else if c < 127 then [c]
  else if printable c then [c]
  else if c < 256 then py!"\\x" ++ hexLower 2 c
  else if c < 65536 then py!"\\u" ++ hexLower 4 c
  else py!"\\U" ++ hexLower 8 c

/-- The quote used by `repr`: `'`, unless the string contains `'` and no `"`. -/
def quoteFor (s : Str) : Nat := if 39 ∈ s ∧ 34 ∉ s then 34 else 39

/-- `repr(s)` of a string. -/
def reprStr (printable : Nat → Bool) (s : Str) : Str :=
  quoteFor s :: (s.flatMap (escChar printable (quoteFor s)) ++ [quoteFor s])

/-- The elements of a list, separated by comma and space. -/
def reprItems (printable : Nat → Bool) : List Str → Str
  | [] => []
  | [s] => reprStr printable s
  | s :: r => reprStr printable s ++ py!", " ++ reprItems printable r

/-- `str(l)` of a list of strings. -/
def reprList (printable : Nat → Bool) (l : List Str) : Str := py!"[" ++ reprItems printable l ++ py!"]"

/-- `__repr__` (/repo/src/pynmeagps/nmeamessage.py:593-606). -/
def Msg.repr (printable : Nat → Bool) (m : Msg) : Str :=
  py!"NMEAMessage('" ++ m.talker ++ py!"','" ++ m.msgID ++ py!"', " ++ natDec m.mode ++ py!", payload=" ++
    reprList printable m.payload ++ py!")"

end Nmea
