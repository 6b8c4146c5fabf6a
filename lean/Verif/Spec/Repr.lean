import Verif.Py.Str
/-!
# Specification: Python string literals and constructor calls

What Python's evaluator makes of string literals (without prefix, in single quotes of either kind), of
lists of them, and of a call `NMEAMessage('..','..', mode, payload=[..])`. Octal escapes, `\N{..}` and
line continuations are left out: texts using them are not literals here.
-/
namespace Spec
open Py

/-- Value of a hexadecimal digit. -/
def hexDigit (c : Nat) : Option Nat :=
  if 48 ≤ c ∧ c ≤ 57 then some (c - 48)
  else if 97 ≤ c ∧ c ≤ 102 then some (c - 87)
  else if 65 ≤ c ∧ c ≤ 70 then some (c - 55)
  else none

/-- Value of a hexadecimal text, after digits of value `a`. -/
def hexNum : Nat → Str → Option Nat
  | a, [] => some a
  | a, c :: r => (hexDigit c).bind fun d => hexNum (16 * a + d) r

/-- Escapes of one letter: the letter after the backslash, and the character meant. -/
def simpleEscapes : List (Nat × Nat) :=
  [(92, 92), (39, 39), (34, 34), (97, 7), (98, 8), (102, 12), (110, 10), (114, 13), (116, 9), (118, 11)]

/-- Escapes with hexadecimal digits: the letter, and the number of digits. -/
def hexEscapes : List (Nat × Nat) := [(120, 2), (117, 4), (85, 8)]

/-- `LitBody q text value`: between quotes `q`, the text stands for the value. -/
inductive LitBody (q : Nat) : Str → Str → Prop
  | nil : LitBody q [] []
  | plain (c : Nat) (s v : Str) : c ≠ q → c ≠ 92 → c ≠ 10 → c ≠ 13 → LitBody q s v → LitBody q (c :: s) (c :: v)
  | simple (e c : Nat) (s v : Str) : (e, c) ∈ simpleEscapes → LitBody q s v → LitBody q (92 :: e :: s) (c :: v)
  | hex (e k n : Nat) (ds s v : Str) : (e, k) ∈ hexEscapes → ds.length = k → hexNum 0 ds = some n → n ≤ 0x10FFFF →
      LitBody q s v → LitBody q (92 :: e :: (ds ++ s)) (n :: v)

/-- A string literal and its value. -/
inductive Literal : Str → Str → Prop
  | mk (q : Nat) (b v : Str) : q = 39 ∨ q = 34 → LitBody q b v → Literal (q :: (b ++ [q])) v

/-- The elements of a list display. -/
inductive ItemsText : Str → List Str → Prop
  | nil : ItemsText [] []
  | one (l v : Str) : Literal l v → ItemsText l [v]
  | cons (l v r v' : Str) (vs : List Str) : Literal l v → ItemsText r (v' :: vs) →
      ItemsText (l ++ py!", " ++ r) (v :: v' :: vs)

/-- A call of the constructor, and its arguments: talker, message id, mode, payload. -/
inductive CallText : Str → Str → Str → Nat → List Str → Prop
  | mk (lt li items t i : Str) (mode : Nat) (p : List Str) : Literal lt t → Literal li i → ItemsText items p →
      CallText (py!"NMEAMessage(" ++ lt ++ py!"," ++ li ++ py!", " ++ natDec mode ++ py!", payload=[" ++ items ++ py!"])")
        t i mode p

end Spec
