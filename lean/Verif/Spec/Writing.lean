import Verif.Spec.Nmea0183
import Verif.Spec.Generate
import Verif.Spec.Vendor
/-!
# Specification: writing the fields of a sentence

How the value of each kind of field is written according to NMEA 0183 (and to the number of decimals of
minutes announced by the library's documentation). It does not refer to the library's conversions.
-/
namespace Spec.Nmea0183
open Py Nmea Spec

/-- A number of degrees, with its sign. -/
inductive Degrees : PyVal → ℚ → Prop
  | float (negative : Bool) (a : ℚ) : IsDouble (.fin negative a) →
      Degrees (.float (.fin negative a)) (if negative then -a else a)
  | int (i : Int) : Degrees (.int i) i

/-- A date as text, with or without hyphens. -/
def dateText (hyphens : Bool) (d : Date) : Str :=
  let sep := if hyphens then py!"-" else []
  dec 4 d.year ++ sep ++ dec 2 d.month ++ sep ++ dec 2 d.day

/-- A time of day as text, with or without colons, with any number of decimals of the second. -/
def timeText (colons : Bool) (h m s : Nat) (frac : Str) : Str :=
  let sep := if colons then py!":" else []
  dec 2 h ++ sep ++ dec 2 m ++ sep ++ dec 2 s ++ (if frac = [] then [] else py!"." ++ frac)

/-- Values a user gives for a field of this kind. Decimal numbers are those that can be written without an
exponent. -/
inductive Suits : Kind → PyVal → Prop
  | empty (k : Kind) : Suits k (.str [])
  | text (s : Str) : Suits .text (.str s)
  | north (s : Str) : Suits .north (.str s)
  | east (s : Str) : Suits .east (.str s)
  | whole (i : Int) : i.natAbs < 10 ^ 4300 → Suits .whole (.int i)
  | decimal (negative : Bool) (a : ℚ) : IsDouble (.fin negative a) → a = 0 ∨ 1 / 10 ^ 4 ≤ a ∧ a < 10 ^ 16 →
      Suits .decimal (.float (.fin negative a))
  | time (t : Time) : t.Valid → Suits .time (.time t)
  | timeText (colons : Bool) (h m s : Nat) (frac : Str) : h < 24 → m < 60 → s < 60 → IsDigits frac → frac.length ≤ 6 →
      Suits .time (.str (timeText colons h m s frac))
  | date (k : Kind) (d : Date) : k = .date ∨ k = .usdate → d.Valid → 1969 ≤ d.year → d.year ≤ 2068 → Suits k (.date d)
  | dateText (k : Kind) (hyphens : Bool) (d : Date) : k = .date ∨ k = .usdate → d.Valid → 1969 ≤ d.year →
      d.year ≤ 2068 → Suits k (.str (dateText hyphens d))
  | latitude (v : PyVal) (q : ℚ) : Degrees v q → |q| ≤ 90 → Suits .latitude v
  | longitude (v : PyVal) (q : ℚ) : Degrees v q → |q| ≤ 180 → Suits .longitude v

/-- Half a unit in the last decimal of the minutes (five decimals, or seven), in degrees, with a margin of
eight percent for the arithmetic. -/
def resolution (hp : Bool) : ℚ := if hp then 9 / 10 ^ 10 else 9 / 10 ^ 8

/-- `deg` degrees and `min.frac` minutes. -/
def angle (deg min frac : Str) : ℚ :=
  (number deg : ℚ) + ((number min : ℚ) + (number frac : ℚ) / 10 ^ frac.length) / 60

/-- `WrittenAs hp kind v text`: as a field of this kind, the value `v` is written `text`. -/
inductive WrittenAs (hp : Bool) : Kind → PyVal → Str → Prop
  /-- nothing is written as an empty field -/
  | empty (k : Kind) : WrittenAs hp k (.str []) []
  | text (s : Str) : WrittenAs hp .text (.str s) s
  | north (s : Str) : WrittenAs hp .north (.str s) s
  | east (s : Str) : WrittenAs hp .east (.str s) s
  /-- a minus sign if negative, and the digits, without leading zeros -/
  | whole (i : Int) (ds : Str) : ds ≠ [] → IsDigits ds → (ds.head? = some 48 → ds = py!"0") → number ds = i.natAbs →
      WrittenAs hp .whole (.int i) (signText (decide (i < 0)) ++ ds)
  /-- a minus sign if negative, digits on both sides of the point; the float nearest to this is the value -/
  | decimal (negative : Bool) (ip fp : Str) (x : PyFloat) : ip ≠ [] → fp ≠ [] → IsDigits ip → IsDigits fp →
      PyFloat.ofMag negative ((number (ip ++ fp) : ℚ) / 10 ^ fp.length) = x →
      WrittenAs hp .decimal (.float x) (signText negative ++ ip ++ py!"." ++ fp)
  /-- with hundredths of a second, cut -/
  | time (t : Time) : WrittenAs hp .time (.time t)
      (dec 2 t.hour ++ dec 2 t.minute ++ dec 2 t.second ++ py!"." ++ dec 2 (t.micro / 10000))
  /-- a time given as text is written with all its digits, without colons -/
  | timeText (colons : Bool) (h m s : Nat) (frac : Str) : WrittenAs hp .time (.str (timeText colons h m s frac))
      (dec 2 h ++ dec 2 m ++ dec 2 s ++ (if frac = [] then [] else py!"." ++ frac))
  | date (d : Date) : WrittenAs hp .date (.date d) (dec 2 d.day ++ dec 2 d.month ++ dec 2 (d.year % 100))
  | dateText (hyphens : Bool) (d : Date) : WrittenAs hp .date (.str (dateText hyphens d))
      (dec 2 d.day ++ dec 2 d.month ++ dec 2 (d.year % 100))
  | usdate (d : Date) : WrittenAs hp .usdate (.date d) (dec 2 d.month ++ dec 2 d.day ++ dec 2 (d.year % 100))
  | usdateText (hyphens : Bool) (d : Date) : WrittenAs hp .usdate (.str (dateText hyphens d))
      (dec 2 d.month ++ dec 2 d.day ++ dec 2 (d.year % 100))
  /-- two digits of degrees, two of minutes up to sixty, a point, five or seven decimals; the sign is not written -/
  | latitude (v : PyVal) (q : ℚ) (deg min frac : Str) : Degrees v q → IsDigits deg → IsDigits min → IsDigits frac →
      deg.length = 2 → min.length = 2 → frac.length = (if hp then 7 else 5) → number min ≤ 60 →
      |angle deg min frac - abs q| ≤ resolution hp →
      WrittenAs hp .latitude v (deg ++ min ++ py!"." ++ frac)
  /-- the same with three digits of degrees -/
  | longitude (v : PyVal) (q : ℚ) (deg min frac : Str) : Degrees v q → IsDigits deg → IsDigits min → IsDigits frac →
      deg.length = 3 → min.length = 2 → frac.length = (if hp then 7 else 5) → number min ≤ 60 →
      |angle deg min frac - abs q| ≤ resolution hp →
      WrittenAs hp .longitude v (deg ++ min ++ py!"." ++ frac)

/-- Values of fields for which there is no keyword, by the kind of the field and the mode of the message. -/
inductive Unset (mode : Nat) (now : Nat → DateTime) : Kind → PyVal → Prop
  | text : Unset mode now .text (.str [])
  | hexadecimal : Unset mode now .text (.str py!"0")
  | status : Unset mode now .text (.str (if mode = 2 then py!"R" else if mode = 1 then py!"W" else py!"OK"))
  | whole : Unset mode now .whole (.int 0)
  | decimal : Unset mode now .decimal (.float (.fin false 0))
  | time (n : Nat) : Unset mode now .time (.time (now n).time)
  | date (n : Nat) : Unset mode now .date (.date (now n).date)
  | usdate (n : Nat) : Unset mode now .usdate (.date (now n).date)
  | latitude : Unset mode now .latitude (.str [])
  | longitude : Unset mode now .longitude (.str [])
  | north : Unset mode now .north (.str py!"N")
  | east : Unset mode now .east (.str py!"E")

/-- A letter for the hemisphere after a field `lat` or `lon`. -/
def Follows (before : List (Str × Kind)) (kind : Kind) : Prop :=
  (kind = .north ∧ py!"lat" ∈ before.map Prod.fst) ∨ (kind = .east ∧ py!"lon" ∈ before.map Prod.fst)

/-- Where the value `x` of a field comes from: letters for hemispheres from the sign of the coordinate
before, everything else from the keyword, or if there is none it is left unset. -/
inductive FieldValue (mode : Nat) (now : Nat → DateTime) (kw : List (Str × PyVal)) (m : Msg) (before : List (Str × Kind))
    (name : Str) : Kind → PyVal → Prop
  | north {c : PyVal} : py!"lat" ∈ before.map Prod.fst → lookup py!"lat" m.attrs = some c →
      FieldValue mode now kw m before name .north (.str (if IsNegative c then py!"S" else py!"N"))
  | east {c : PyVal} : py!"lon" ∈ before.map Prod.fst → lookup py!"lon" m.attrs = some c →
      FieldValue mode now kw m before name .east (.str (if IsNegative c then py!"W" else py!"E"))
  | keyword {kind : Kind} {x : PyVal} : ¬ Follows before kind → lookup name kw = some x →
      FieldValue mode now kw m before name kind x
  | unset {kind : Kind} {x : PyVal} : ¬ Follows before kind → lookup name kw = none → Unset mode now kind x →
      FieldValue mode now kw m before name kind x

/-- A field that sentences of this layout can have. -/
inductive HasField (lay : List Item) : Str → Kind → Prop
  | one {name : Str} {kind : Kind} : Item.one name kind ∈ lay → HasField lay name kind
  | times {n : Nat} {body : List (Str × Kind)} {name : Str} {kind : Kind} (j : Nat) : Item.times n body ∈ lay →
      (name, kind) ∈ body → j < n → HasField lay (name ++ groupSuffix (j + 1)) kind
  | many {body : List (Str × Kind)} {name : Str} {kind : Kind} (j : Nat) : Item.many body ∈ lay →
      (name, kind) ∈ body → HasField lay (name ++ groupSuffix (j + 1)) kind
  | counted {at_ : Nat} {body : List (Str × Kind)} {name : Str} {kind : Kind} (j : Nat) : Item.counted at_ body ∈ lay →
      (name, kind) ∈ body → HasField lay (name ++ groupSuffix (j + 1)) kind

/-- Keywords suitable for a layout: the values suit their fields; numbers of repetitions are numbers (or
omitted); and if there is a group repeated any number of times, what follows the first underscore in a keyword
is a number. -/
structure SuitableKeywords (kw : List (Str × PyVal)) (lay : List Item) : Prop where
  suits : ∀ name kind x, HasField lay name kind → lookup name kw = some x → Suits kind x
  counts : ∀ at_ body name kind x, Item.counted at_ body ∈ lay → lay[at_]? = some (.one name kind) →
    lookup name kw = some x → ∃ n : Nat, x = .int n
  indexed : ∀ body, Item.many body ∈ lay → ∀ k ∈ kw.map Prod.fst, ∀ a b : Str, k = a ++ py!"_" ++ b → 95 ∉ a →
    b ≠ [] ∧ IsDigits b ∧ b.length ≤ 4300

/-- The fields of the message `m` are those of the layout, in order, each written as its value is written in
fields of its kind, and a reader finds them well-formed; the values come from the keywords. -/
def IsWritten (hp : Bool) (mode : Nat) (now : Nat → DateTime) (kw : List (Str × PyVal)) (lay : List Item) (m : Msg) :
    Prop :=
  m.payload.length = (fields m.payload lay 0).length ∧ m.attrs.map Prod.fst = (fields m.payload lay 0).map Prod.fst ∧
    ∀ (p : Nat) name kind, (fields m.payload lay 0)[p]? = some (name, kind) →
      ∃ x text, lookup name m.attrs = some x ∧ m.payload[p]? = some text ∧ WrittenAs hp kind x text ∧
        FieldValue mode now kw m ((fields m.payload lay 0).take p) name kind x ∧ ∃ val, Denotes kind text val

end Spec.Nmea0183

namespace Spec.Vendor
open Py Nmea Spec

/-- The keywords select a layout: where the first field says which sentence it is, that is the keyword `msgId`;
it is empty for sentences starting with a time. -/
def SelectsBy (kw : List (Str × PyVal)) : Select → Prop
  | .word w => lookup py!"msgId" kw = some (.str w)
  | .time => lookup py!"msgId" kw = some (.str [])
  | _ => True

end Spec.Vendor
