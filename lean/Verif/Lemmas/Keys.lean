import Verif.Spec.Layout
/-! Members of groups. -/
namespace Nmea
open Py Spec

/-- The model's number of keys of a dictionary. -/
theorem keysOf_length (d : PDict) : (keysOf d).length = d.len := by
  induction d with
  | nil => rfl
  | single k t r ih => simp only [keysOf, List.length_cons, PDict.len, ih]
  | group k rep b r _ ih => simp only [keysOf, List.length_cons, PDict.len, ih]

theorem keysOf_nil (d : PDict) : (keysOf d == []) = (d.len == 0) := by
  rw [← keysOf_length]; cases keysOf d <;> rfl

end Nmea
