import Verif.Spec.Framing
/-!
# Specification: how a payload definition is laid out over the payload fields
-/
namespace Spec
open Py Nmea

/-- A slot: attribute name (with group suffixes) and attribute type. -/
abbrev Slot := Str × Str

/-- Attribute values in the order they were set. -/
abbrev Attrs := List (Str × PyVal)

/-- The suffix of the `i`-th repetition of a group: underscore and at least two digits. -/
def groupSuffix (i : Nat) : Str := py!"_" ++ fmt02d i

/-- Attribute `name`, if it holds a number, gets the sign `negative`; otherwise unchanged. -/
def withSign (name : Str) (negative : Bool) (attrs : Attrs) : Attrs :=
  match lookup name attrs with
  | some (.int i) => Py.insert name (.int (if negative then -(i.natAbs : Int) else i.natAbs)) attrs
  | some (.float x) => Py.insert name (.float (if negative then x.abs.neg else x.abs)) attrs
  | some (.bool b) =>
    Py.insert name (.int (if b then (if negative then -1 else 1) else 0)) attrs
  | _ => attrs

/-- The hemisphere rule: a longitude direction determines the sign of `lon`, a latitude direction
that of `lat`. -/
def hemisphere (ty : Str) (v : PyVal) (attrs : Attrs) : Attrs :=
  if ty = py!"LND" then withSign py!"lon" (decide (v = .str py!"W")) attrs
  else if ty = py!"LAD" then withSign py!"lat" (decide (v = .str py!"S")) attrs
  else attrs

/-- Reading slots against fields, position by position, until either runs out: each value is the
field converted by `str2val`; a repeated name overwrites. -/
def readSlots : List Slot → List Str → Attrs → Except Err Attrs
  | [], _, attrs => .ok attrs
  | _ :: _, [], attrs => .ok attrs
  | (name, ty) :: ss, f :: fs, attrs =>
    match str2val f ty with
    | .error e => .error e
    | .ok v => readSlots ss fs (hemisphere ty v (Py.insert name v attrs))

/-- The number of repetitions of a group with `size` members whose first slot follows the slots
`pre`: a constant; as many whole groups as fit the remaining fields; or the integer value of an
attribute read before (`msgmode` counts as an attribute). -/
inductive Repeats (mode : Nat) (fields : List Str) (pre : List Slot) (size : Nat) : Rep → Nat → Prop
  | fixed (z : Int) : Repeats mode fields pre size (.fixed z) z.toNat
  | indet : size ≠ 0 → Repeats mode fields pre size .indet ((fields.length - pre.length) / size)
  | named (k : Str) (attrs : Attrs) (z : Int) : readSlots pre fields [] = .ok attrs →
      k ≠ py!"msgmode" → lookup k attrs = some (.int z) → Repeats mode fields pre size (.named k) z.toNat
  | mode : Repeats mode fields pre size (.named py!"msgmode") mode

/-- The members of a group: its own attributes and groups, not those of the groups inside. -/
def keysOf : PDict → List Str
  | .nil => []
  | .single k _ r => k :: keysOf r
  | .group k _ _ r => k :: keysOf r

/-- `Expand mode fields d sfx pre post`: starting after the slots `pre`, the definition `d` (inside
groups with suffix `sfx`) adds slots up to `post`. Groups are repeated, the `i`-th repetition with
its own suffix. -/
inductive Expand (mode : Nat) (fields : List Str) : PDict → Str → List Slot → List Slot → Prop
  | nil (sfx pre) : Expand mode fields .nil sfx pre pre
  | single (k t rest sfx pre post) : Expand mode fields rest sfx (pre ++ [(k ++ sfx, t)]) post →
      Expand mode fields (.single k t rest) sfx pre post
  | group (k rep body rest sfx pre post) (n : Nat) (at_ : Nat → List Slot) :
      Repeats mode fields pre (keysOf body).length rep n → at_ 0 = pre →
      (∀ i < n, Expand mode fields body (sfx ++ groupSuffix (i + 1)) (at_ i) (at_ (i + 1))) →
      Expand mode fields rest sfx (at_ n) post →
      Expand mode fields (.group k rep body rest) sfx pre post

/-- The definition has no repeating groups at all. -/
def IsFlat : PDict → Bool
  | .nil => true
  | .single _ _ r => IsFlat r
  | .group _ _ _ _ => false

/-- The definition has no repeating groups other than those repeated a constant number of times. -/
def IsStatic : PDict → Bool
  | .nil => true
  | .single _ _ r => IsStatic r
  | .group _ (.fixed _) b r => IsStatic b && IsStatic r
  | .group _ _ _ _ => false

/-- The definition has no groups repeated as often as an attribute says. -/
def NoNamed : PDict → Bool
  | .nil => true
  | .single _ _ r => NoNamed r
  | .group _ (.named _) _ _ => false
  | .group _ _ b r => NoNamed b && NoNamed r

/-- Slots of a static definition: groups are written out, with suffixes `_01`, `_02`, ... -/
def slotsOf : PDict → Str → List Slot
  | .nil, _ => []
  | .single k t r, sfx => (k ++ sfx, t) :: slotsOf r sfx
  | .group _ rep b r, sfx =>
    (List.range (match rep with | .fixed z => z.toNat | _ => 0)).flatMap
      (fun i => slotsOf b (sfx ++ groupSuffix (i + 1))) ++ slotsOf r sfx

/-- Names of a definition, at every depth. -/
def allNames : PDict → List Str
  | .nil => []
  | .single k _ r => k :: allNames r
  | .group _ _ b r => allNames b ++ allNames r

/-- No attribute of the definition hides a property or the conversion method of the class. -/
def SaneNames (d : PDict) : Prop :=
  ∀ k ∈ allNames d, k ∉ [py!"identity", py!"talker", py!"msgID", py!"msgmode", py!"payload",
    py!"checksum", py!"str2val"]

instance (d : PDict) : Decidable (SaneNames d) := by unfold SaneNames; infer_instance

/-- The definition has an indeterminate group without members (such a group cannot be repeated a
definite number of times). -/
def EmptyGroup : PDict → Bool
  | .nil => false
  | .single _ _ r => EmptyGroup r
  | .group _ rep b r => (rep == .indet && keysOf b == []) || (EmptyGroup b || EmptyGroup r)

/-- Text without square brackets. -/
def noBrackets (f : Str) : Str := f.filter fun c => c != 91 && c != 93

/-- The sentence is of the bracketed type `PSSNSNC`. -/
def IsSnc (talker msgid : Str) (fields : List Str) : Prop :=
  talker ++ msgid = py!"PSSNSNC" ∨
    (talker = py!"P" ∧ msgid = py!"SSN" ∧ fields.head? = some py!"SNC")

instance (t m : Str) (f : List Str) : Decidable (IsSnc t m f) := by unfold IsSnc; infer_instance

/-- The field texts that are converted: brackets are dropped in `PSSNSNC` sentences (header
`PSSNSNC`, or header `P` + `SSN` and first field `SNC`, which is itself kept as it is). -/
def fieldTexts (talker msgid : Str) (fields : List Str) : List Str :=
  if talker ++ msgid = py!"PSSNSNC" then fields.map noBrackets
  else if talker = py!"P" ∧ msgid = py!"SSN" ∧ fields.head? = some py!"SNC" then
    py!"SNC" :: fields.tail.map noBrackets
  else fields

/-- A number with its sign replaced; other values unchanged. -/
def resign (negative : Bool) : PyVal → PyVal
  | .int i => .int (if negative then -(i.natAbs : Int) else i.natAbs)
  | .float x => .float (if negative then x.abs.neg else x.abs)
  | .bool b => .int (if b then (if negative then -1 else 1) else 0)
  | v => v

/-- `Governs dty name letter`: a direction attribute of type `dty` decides the sign of the attribute
`name`, which is negative if the direction is `letter`. -/
inductive Governs : Str → Str → Str → Prop
  | lon : Governs py!"LND" py!"lon" py!"W"
  | lat : Governs py!"LAD" py!"lat" py!"S"

/-- Values differing at most in sign. -/
def UpToSign (v w : PyVal) : Prop := w = v ∨ ∃ b, w = resign b v

end Spec
