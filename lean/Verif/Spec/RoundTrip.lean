import Verif.Spec.Invariance
import Verif.Lemmas.SetPDict
import Verif.Spec.Float
import Mathlib.Algebra.Order.Ring.Rat
import Verif.Py.DateTime
/-!
# Specification: what happens to a value on the wire
-/
namespace Spec
open Py Nmea

/-- The layout of a message can be told from its fields: groups are repeated a constant number of
times, or as often as an attribute says, or (only the last group, without groups inside) as often as
fits the number of fields, and then fewer fields follow than one repetition has. -/
def Determinate : PDict → Bool
  | .nil => true
  | .single _ _ r => Determinate r
  | .group _ (.fixed _) b r => IsStatic b && Determinate r
  | .group _ (.named _) b r => IsStatic b && Determinate r
  | .group _ .indet b r => IsFlat b && IsStatic r && decide ((slotsOf r []).length < (keysOf b).length)

/-- Types of text attributes. -/
def textTypes : List Str := [py!"CH", py!"ST", py!"LAD", py!"LND", py!"QS", py!"HX"]

/-- Types whose values can be read from a sentence: all but the long date. -/
def wireTypes : List Str :=
  textTypes ++ [py!"DE", py!"IN", py!"LA", py!"LN", py!"TM", py!"DT", py!"DM"]

/-- Values suitable for an attribute of the given type: any text for text types; integers of at most
4300 digits; floats; dates from 1969 to 2068, as `date` or ISO text; times, as `time` or ISO text; up
to 180 degrees, as `float` or `int`; and for every type the empty text. -/
inductive Natural : Str → PyVal → Prop
  | blank (ty : Str) : ty ∈ wireTypes → Natural ty (.str [])
  | text (ty s : Str) : ty ∈ textTypes → Natural ty (.str s)
  | int (i : Int) : i.natAbs < 10 ^ 4300 → Natural py!"IN" (.int i)
  | decimal (x : PyFloat) : IsDouble x → Natural py!"DE" (.float x)
  | date (ty : Str) (d : Date) : ty = py!"DT" ∨ ty = py!"DM" → d.Valid → 1969 ≤ d.year → d.year ≤ 2068 →
      Natural ty (.date d)
  | dateText (ty : Str) (d : Date) : ty = py!"DT" ∨ ty = py!"DM" → d.Valid → 1969 ≤ d.year → d.year ≤ 2068 →
      Natural ty (.str d.str)
  | time (t : Time) : t.Valid → Natural py!"TM" (.time t)
  | timeText (t : Time) : t.Valid → Natural py!"TM" (.str t.str)
  | degrees (ty : Str) (neg : Bool) (a : ℚ) : ty = py!"LA" ∨ ty = py!"LN" → IsDouble (.fin neg a) → a ≤ 180 →
      Natural ty (.float (.fin neg a))
  | wholeDegrees (ty : Str) (i : Int) : ty = py!"LA" ∨ ty = py!"LN" → i.natAbs ≤ 180 → Natural ty (.int i)

/-- `Survives hp ty v w`: the value `v` of an attribute of type `ty` is read from the wire as `w`,
disregarding the sign of coordinates, which is carried by another field. -/
inductive Survives (hp : Bool) : Str → PyVal → PyVal → Prop
  | blank (ty : Str) : ty ∈ wireTypes → Survives hp ty (.str []) (.str [])
  | text (ty s : Str) : ty ∈ textTypes → Survives hp ty (.str s) (.str s)
  | int (i : Int) : Survives hp py!"IN" (.int i) (.int i)
  | decimal (x : PyFloat) : Survives hp py!"DE" (.float x) (.float x)
  | date (ty : Str) (d : Date) : ty = py!"DT" ∨ ty = py!"DM" → Survives hp ty (.date d) (.date d)
  | dateText (ty : Str) (d : Date) : ty = py!"DT" ∨ ty = py!"DM" → Survives hp ty (.str d.str) (.date d)
  | time (t : Time) : Survives hp py!"TM" (.time t) (.time ⟨t.hour, t.minute, t.second, t.micro / 10000 * 10000⟩)
  | timeText (t : Time) : Survives hp py!"TM" (.str t.str) (.time t)
  | degrees (ty : Str) (neg : Bool) (a r : ℚ) : ty = py!"LA" ∨ ty = py!"LN" → 0 ≤ a →
      |r - a| < (if hp then 1 / 10 ^ 9 else 1 / 10 ^ 7) →
      Survives hp ty (.float (.fin neg a)) (.float (.fin false r))
  | wholeDegrees (ty : Str) (i : Int) : ty = py!"LA" ∨ ty = py!"LN" →
      Survives hp ty (.int i) (.float (.fin false (i.natAbs : ℚ)))

/-- Every keyword that sets an attribute of the definition has a suitable value. -/
def NaturalKeywords (d : PDict) (kw : List (Str × PyVal)) : Prop :=
  ∀ k ty, (k, ty) ∈ d.entries → ∀ sfx, GroupSfx sfx → ∀ v, lookup (k ++ sfx) kw = some v → Natural ty v

/-- The definition can be read from the wire: all attribute types can, the layout can be told from the
fields, and the counts of groups are integers. -/
def Readable (d : PDict) : Prop :=
  (∀ e ∈ d.entries, e.2 ∈ wireTypes) ∧ Determinate d = true ∧
    ∀ g ∈ d.groups, ∀ k ∈ (match g.1 with | .named k => some k | _ => none),
      ∀ e ∈ d.entries, e.1 <+: k → e.2 = py!"IN"

instance (d : PDict) : Decidable (Readable d) := by unfold Readable; infer_instance

/-- The clock shows a valid date and time between 1969 and 2068. -/
def ClockOk (now : Nat → DateTime) : Prop :=
  ∀ n, (now n).date.Valid ∧ (now n).time.Valid ∧ 1969 ≤ (now n).date.year ∧ (now n).date.year ≤ 2068

/-- The sign of the attribute in slot `p` is carried by a later slot: a direction for `lat` or `lon`. -/
def SignCarried (slots : List Slot) (p : Nat) (name : Str) : Prop :=
  ∃ (q : Nat) (dname dty letter : Str), p < q ∧ slots[q]? = some (dname, dty) ∧ Governs dty name letter

/-- Slot `p` is the last one for its attribute. -/
def LastFor (slots : List Slot) (p : Nat) (name : Str) : Prop :=
  ∀ (q : Nat) (s : Slot), p < q → slots[q]? = some s → s.1 ≠ name

/-- Every attribute of `m` is an attribute of `m'`, in the same order, and has come back: `m'` has the
value read from the wire, with the sign of the original value if the sign was carried. -/
def CameBack (hp : Bool) (slots : List Slot) (m m' : Msg) : Prop :=
  m'.attrs.map Prod.fst = m.attrs.map Prod.fst ∧
  ∀ (p : Nat) (name ty : Str), slots[p]? = some (name, ty) → LastFor slots p name →
    ∃ x w x', lookup name m.attrs = some x ∧ lookup name m'.attrs = some x' ∧ Survives hp ty x w ∧
      (SignCarried slots p name → x' = resign (IsNegative x) w) ∧
      (¬ SignCarried slots p name → x' = w)

end Spec
