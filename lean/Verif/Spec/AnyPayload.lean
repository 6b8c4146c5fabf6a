import Verif.Model.AnyPayload
import Verif.Spec.Layout
import Verif.Spec.Float
import Mathlib.Data.List.Forall2
/-!
# Specification: payloads that are not lists of texts
-/
namespace Spec
open Py Nmea

/-- `ItemReads v ty w`: the item `v` in a field of type `ty` gives the attribute value `w`. Texts are converted as always. Other
objects are kept in character, text, direction, status and hexadecimal fields; converted by `float` and `int` in number fields;
and forgotten in date and time fields. There is no value in latitude and longitude fields. -/
inductive ItemReads : PyVal → Str → PyVal → Prop
  | text (s ty w) : str2val s ty = .ok w → ItemReads (.str s) ty w
  | kept (v ty) : (∀ s, v ≠ .str s) → ty ∈ [py!"CH", py!"ST", py!"LAD", py!"LND", py!"QS", py!"HX"] → ItemReads v ty v
  | float (x) : ItemReads (.float x) py!"DE" (.float x)
  | floatOfInt (i x) : PyFloat.ofInt i = .ok x → ItemReads (.int i) py!"DE" (.float x)
  | floatOfBool (b) : ItemReads (.bool b) py!"DE" (.float (.fin false (if b then 1 else 0)))
  | int (i) : ItemReads (.int i) py!"IN" (.int i)
  | intOfFloat (x i) : x.toInt = .ok i → ItemReads (.float x) py!"IN" (.int i)
  | intOfBool (b) : ItemReads (.bool b) py!"IN" (.int (if b then 1 else 0))
  | forgotten (v ty) : (∀ s, v ≠ .str s) → ty ∈ [py!"DT", py!"DM", py!"TM"] → ItemReads v ty (.str [])

/-- Reading slots against items, position by position, until either runs out. -/
inductive ReadItems : List Slot → List PyVal → Attrs → Attrs → Prop
  | done (vs a) : ReadItems [] vs a a
  | short (s ss a) : ReadItems (s :: ss) [] a a
  | item (n ty ss v vs w a a') : ItemReads v ty w → ReadItems ss vs (hemisphere ty w (Py.insert n w a)) a' →
      ReadItems ((n, ty) :: ss) (v :: vs) a a'

/-- The checksum is the one given, or that of the sentence in which every item is written as `str` writes it. -/
def ChecksumFor (talker msgid : Str) (given : Option Str) (vs : List PyVal) (k : Str) : Prop :=
  match given with
  | some g => k = g
  | none => ∃ ts, List.Forall₂ (fun v s => PyVal.toStr v = .ok s) vs ts ∧ k = generateChecksum talker msgid ts

/-- `StandsFor ty v s`: the item `v` stands for the text `s` in a field of type `ty`: it is that text, an `int` in an integer
field, or a `float` in a decimal field, and `str` writes it as `s`. -/
inductive StandsFor : Str → PyVal → Str → Prop
  | text (ty s) : StandsFor ty (.str s) s
  | int (i s) : strOfInt i = .ok s → StandsFor py!"IN" (.int i) s
  | float (x) : IsDouble x → StandsFor py!"DE" (.float x) (reprFloat x)

/-- How often a group of `size` members is repeated that follows the slots `pre`, as `Repeats`; a number that is kept as an object
in a text field counts too, and so does a truth value. -/
inductive RepeatsItems (mode : Nat) (vs : List PyVal) (pre : List Slot) (size : Nat) : Rep → Nat → Prop
  | fixed (z : Int) : RepeatsItems mode vs pre size (.fixed z) z.toNat
  | indet : size ≠ 0 → RepeatsItems mode vs pre size .indet ((vs.length - pre.length) / size)
  | named (k : Str) (attrs : Attrs) (z : Int) : ReadItems pre vs [] attrs →
      k ≠ py!"msgmode" → lookup k attrs = some (.int z) → RepeatsItems mode vs pre size (.named k) z.toNat
  | flag (k : Str) (attrs : Attrs) (b : Bool) : ReadItems pre vs [] attrs →
      k ≠ py!"msgmode" → lookup k attrs = some (.bool b) → RepeatsItems mode vs pre size (.named k) (if b then 1 else 0)
  | mode : RepeatsItems mode vs pre size (.named py!"msgmode") mode

/-- Writing out the groups of a definition, as `Expand`, when the fields are any objects. -/
inductive ExpandItems (mode : Nat) (vs : List PyVal) : PDict → Str → List Slot → List Slot → Prop
  | nil (sfx pre) : ExpandItems mode vs .nil sfx pre pre
  | single (k t rest sfx pre post) : ExpandItems mode vs rest sfx (pre ++ [(k ++ sfx, t)]) post →
      ExpandItems mode vs (.single k t rest) sfx pre post
  | group (k rep body rest sfx pre post) (n : Nat) (at_ : Nat → List Slot) :
      RepeatsItems mode vs pre (keysOf body).length rep n → at_ 0 = pre →
      (∀ i < n, ExpandItems mode vs body (sfx ++ groupSuffix (i + 1)) (at_ i) (at_ (i + 1))) →
      ExpandItems mode vs rest sfx (at_ n) post →
      ExpandItems mode vs (.group k rep body rest) sfx pre post

/-- The item if it is a text, otherwise the empty text: the definition of a sentence depends on the first field only if that is a text,
and on the number of fields. -/
def asText : PyVal → Str
  | .str s => s
  | _ => []

end Spec
