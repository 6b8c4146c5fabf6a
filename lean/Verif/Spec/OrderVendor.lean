import Verif.Spec.Order
import Verif.Spec.Vendor
import Verif.Lemmas.Reading
/-!
# Specification: sentences whose fields are known (C98)
-/
namespace Spec.Order
open Py Nmea Spec Spec.Nmea0183

/-- Sentences with this id and these fields are laid out so, by the standard or by their manufacturer. -/
inductive Described (i : Str) (f : List Str) (lay : List Item) : Prop
  | standard : Standard i lay → Described i f lay
  | vendor (sel : Vendor.Select) : (i, sel, lay) ∈ Vendor.sentences ++ Vendor.others → Vendor.Selects sel f → Described i f lay
  | variant (var : Vendor.Variant) : (i, var, lay) ∈ Vendor.variants → Vendor.IsVariant var f → Described i f lay

/-- `msg` is a sentence with the fields `f`, laid out as `lay`: it passes the validation `v`, the numbers of repetitions are
given, and every field is well-formed for its kind (or empty). -/
structure WellFormed (msg : RawMsg) (v : Nat) (u : UDefs) (f : List Str) (lay : List Item) : Prop where
  sentence : ∃ c t i k, IsSentence msg c t i f k ∧ Props.Admitted 0 v u c t i k ∧ Described i f lay
  counts : CountsGiven f lay
  fields : ∀ (p : Nat) name kind text, (Nmea0183.fields f lay 0)[p]? = some (name, kind) → f[p]? = some text →
    ∃ val, Denotes kind text val

/-- `Says f lay name kind q`: the field called `name` is of this kind and says exactly `q`, south and west counting
negatively. -/
inductive Says (f : List Str) (lay : List Item) (name : Str) (kind : Kind) : ℚ → Prop
  | mk (p : Nat) (text : Str) (q : ℚ) : (Nmea0183.fields f lay 0)[p]? = some (name, kind) → f[p]? = some text →
      Exactly kind text q →
      Says f lay name kind (signed kind ((Nmea0183.fields f lay 0)[p + 1]?.map Prod.snd) f[p + 1]? q)

end Spec.Order
