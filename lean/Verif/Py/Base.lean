import Lean.Elab.Term
/-!
# Python base types

* a Python `str` is the list of its code points (`Str`), a `bytes` object a list of `UInt8`;
* `py!"..."` / `pb!"..."` are the literals for both;
* exceptions are values (`Err`), raising is `Except.error`.

This file is part of the Python-semantics layer: it models CPython built-ins, not pynmeagps code.
-/

deriving instance DecidableEq for Except

namespace Py

/-- Python `str`: sequence of code points. -/
abbrev Str := List Nat

/-- Python `bytes`. -/
abbrev Bytes := List UInt8

/-- The exceptions that can occur in the modelled code.
`eof`, `index`, `key`, `type`, `value`, `attribute`, `overflow`, `zeroDivision` are Python's
built-in `EOFError`, `IndexError`, `KeyError`, `TypeError`, `ValueError` (and its subclasses
`UnicodeDecodeError`, `UnicodeEncodeError`), `AttributeError`, `OverflowError`,
`ZeroDivisionError`; the other four are the library's own classes
(/repo/src/pynmeagps/exceptions.py:11-35). Exception texts are not modelled. -/
inductive Err where
  | nmeaParse | nmeaStream | nmeaMessage | nmeaType
  | eof | index | key | type | value | attribute | overflow | zeroDivision
  deriving DecidableEq, Repr

section Literals
open Lean Elab

/-- `py!"abc"` is the Python string `"abc"` as a list of code points. -/
syntax:max (name := pyLit) "py!" str : term

/-- `pb!"abc"` is the Python bytes literal `b"abc"` (characters below 256). -/
syntax:max (name := pbLit) "pb!" str : term

@[term_elab pyLit] def elabPyLit : Term.TermElab := fun stx _ => do
  let some s := stx[1].isStrLit? | throwUnsupportedSyntax
  let nat := mkConst ``Nat
  return s.toList.foldr (init := mkApp (mkConst ``List.nil [Level.zero]) nat) fun c acc =>
    mkApp3 (mkConst ``List.cons [Level.zero]) nat (mkNatLit c.toNat) acc

@[term_elab pbLit] def elabPbLit : Term.TermElab := fun stx _ => do
  let some s := stx[1].isStrLit? | throwUnsupportedSyntax
  let ty := mkConst ``UInt8
  let nil := mkApp (mkConst ``List.nil [Level.zero]) ty
  return s.toList.foldr (init := nil) fun c acc =>
    let lit := mkApp3 (mkConst ``OfNat.ofNat [Level.zero]) ty (mkRawNatLit c.toNat)
      (mkApp (mkConst ``UInt8.instOfNat) (mkRawNatLit c.toNat))
    mkApp3 (mkConst ``List.cons [Level.zero]) ty lit acc
end Literals

/-- Convert a model string to a Lean `String` (only used for `#eval`/debugging). -/
def Str.show (s : Str) : String := String.ofList (s.map Char.ofNat)

/-- Convert a Lean `String` to a model string (only used for `#eval`/debugging). -/
def Str.of (s : String) : Str := s.toList.map Char.toNat

example : py!"A,$" = [65, 44, 36] := rfl
example : pb!"$G\r\n" = [36, 71, 13, 10] := rfl

end Py
