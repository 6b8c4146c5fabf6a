import Verif.Spec.Generate
import Verif.Spec.ErrorText
/-!
# Specification: what the constructor says about the keywords it is given
-/
namespace Spec
open Py Nmea

/-- The attribute types a written field can have: those of received fields, and the date with four-digit year. -/
def writtenTypes : List Str := py!"DTL" :: receivedTypes

/-- The definition can be written with the keywords. -/
def Writable (kw : List (Str × PyVal)) (mode : Nat) (hp : Bool) (now : Nat → DateTime) (d : PDict) : Prop :=
  ∃ ws, Emit kw mode hp now d [] [] ws

/-- The entry number `n` (from 0) of a definition, named `k`, is the first that cannot be written with the keywords. -/
structure FirstUnwritable (kw : List (Str × PyVal)) (mode : Nat) (hp : Bool) (now : Nat → DateTime) (d : PDict) (n : Nat)
    (k : Str) : Prop where
  name : entryName d n = some k
  before : ∀ m ≤ n, Writable kw mode hp now (firstEntries m d)
  after : ¬ Writable kw mode hp now (firstEntries (n + 1) d)

/-- The texts of the exceptions of the constructor and of assignments to attributes: those of `parse`, and four more. -/
inductive MadeText
  | msgmode (mode : Str)
  | needsName (msgid : Str)
  | selector (msgid : Str)
  | immutable (name : Str)
  | common (t : ErrorText)

/-- An exception's text in full. -/
def MadeText.text : MadeText → Str
  | .msgmode m => py!"Invalid msgmode " ++ m ++ py!" - must be 0, 1 or 2."
  | .needsName i => py!"P" ++ i ++ py!" message definitions must include payload or msgId keyword arguments."
  | .selector i => py!"Incorrect type for attribute  in msgID " ++ i ++ py!"."
  | .immutable n => py!"Object is immutable. Updates to " ++ n ++ py!" not permitted after initialisation."
  | .common t => t.text

/-- The texts of `NMEATypeError`; the others are of `NMEAMessageError`. -/
def MadeText.isType : MadeText → Bool
  | .selector _ => true
  | .common t => t.isType
  | _ => false

/-- A keyword that selects the layout cannot be used: the name of a proprietary sentence is not a text, or the message
type of `STMDRSENMSG` is a number of more than 4300 digits. -/
inductive BadSelector (i : Str) (kw : List (Str × PyVal)) : Prop
  | name (x : PyVal) : i ∈ NMEA_PREFIX_PROP → lookup py!"msgId" kw = some x → (∀ s, x ≠ .str s) → BadSelector i kw
  | drsen (z : Int) : i = py!"STMDRSENMSG" → lookup py!"msgtype" kw = some (.int z) → 10 ^ 4300 ≤ z.natAbs → BadSelector i kw

/-- What is wrong with the arguments of the constructor, when it raises an exception with the given text. -/
inductive MadeExplains (now : Nat → DateTime) (t i : Str) (mode : Int) (hp : Bool) (v : Nat) (u : UDefs)
    (kw : List (Str × PyVal)) : MadeText → Prop
  /-- The mode is not one of the three. -/
  | msgmode (s : Str) : ¬ (mode = 0 ∨ mode = 1 ∨ mode = 2) → strOfInt mode = .ok s →
      MadeExplains now t i mode hp v u kw (.msgmode s)
  /-- The talker is unknown. -/
  | talker : (mode = 0 ∨ mode = 1 ∨ mode = 2) → ValMsgid v → t ∉ NMEA_TALKERS →
      MadeExplains now t i mode hp v u kw (.common (.talker t))
  /-- The message type is unknown. -/
  | msgid : (mode = 0 ∨ mode = 1 ∨ mode = 2) → ValMsgid v → t ∈ NMEA_TALKERS → ¬ Recognised u i →
      MadeExplains now t i mode hp v u kw (.common (.msgid t i (modeName mode)))
  /-- The sentence is one of a family of proprietary sentences, and it is not said which. -/
  | needsName : (mode = 0 ∨ mode = 1 ∨ mode = 2) → (ValMsgid v → t ∈ NMEA_TALKERS ∧ Recognised u i) → i ∈ NMEA_PREFIX_PROP →
      ¬ Given kw py!"msgId" → MadeExplains now t i mode hp v u kw (.needsName i)
  /-- A keyword that selects the layout cannot be used. -/
  | selector : (mode = 0 ∨ mode = 1 ∨ mode = 2) → (ValMsgid v → t ∈ NMEA_TALKERS ∧ Recognised u i) → BadSelector i kw →
      MadeExplains now t i mode hp v u kw (.selector i)
  /-- The message type is known, but not in this mode, or not with these keywords. -/
  | definition (id : Str) : (mode = 0 ∨ mode = 1 ∨ mode = 2) → ValMsgid v → t ∈ NMEA_TALKERS → Recognised u i →
      kwFullId i kw = .ok id → ¬ BadSelector i kw → (∀ d, ¬ KwDefinition mode.toNat u i kw d) →
      MadeExplains now t i mode hp v u kw (.common (.definition (upper id) (modeName mode)))
  /-- The named entry of the definition is the first that cannot be written. -/
  | attribute (d : PDict) (n : Nat) (name : Str) : (mode = 0 ∨ mode = 1 ∨ mode = 2) →
      (ValMsgid v → t ∈ NMEA_TALKERS ∧ Recognised u i) → KwDefinition mode.toNat u i kw d →
      FirstUnwritable kw mode.toNat hp now d n name → MadeExplains now t i mode hp v u kw (.common (.attribute name i))
  /-- A definition of the user's has an attribute of a type that does not exist. -/
  | type (d : PDict) (n : Nat) (name ty : Str) : (mode = 0 ∨ mode = 1 ∨ mode = 2) →
      (ValMsgid v → t ∈ NMEA_TALKERS ∧ Recognised u i) → KwDefinition mode.toNat u i kw d →
      FirstUnwritable kw mode.toNat hp now d n name → ty ∈ allTypes d → ty ∉ writtenTypes →
      MadeExplains now t i mode hp v u kw (.common (.type ty))

/-- The keyword for the attribute number `n` of a definition without groups, named `name`, has a value that cannot be written
with the type of the attribute. (A direction after its coordinate is not taken from its keyword.) -/
def BadKeyword (kw : List (Str × PyVal)) (hp : Bool) (d : PDict) (n : Nat) (name : Str) : Prop :=
  ∃ ty val e, (slotsOf d [])[n]? = some (name, ty) ∧ lookup name kw = some val ∧ val2str val ty hp = .error e ∧
    ∀ axis neg pos, directionOf ty = some (axis, neg, pos) → ∀ m < n, ∀ ty', (slotsOf d [])[m]? ≠ some (axis, ty')

/-- A value of ordinary size: an integer of up to 300 digits, as latitude or longitude a finite float up to 999; anything that
is not a number. -/
def Ordinary (ty : Str) : PyVal → Prop
  | .int z => z.natAbs ≤ 10 ^ 300
  | .float (.fin _ a) => ty = py!"LA" ∨ ty = py!"LN" → 0 ≤ a ∧ a ≤ 999
  | _ => True

/-- The keywords without the given one. -/
def without (name : Str) (kw : List (Str × PyVal)) : List (Str × PyVal) := kw.filter fun p => p.1 ≠ name

end Spec
