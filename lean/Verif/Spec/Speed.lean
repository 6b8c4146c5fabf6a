import Verif.Py.Float
/-!
# Units of speed

One knot is one nautical mile (1852 m) per hour; a foot is 0.3048 m, a statute mile 1609.344 m.
-/
namespace Spec
open Py

/-- The exact value of one knot in the unit. -/
inductive KnotIn : Str → Rat → Prop
  | ms : KnotIn py!"MS" (1852 / 3600)
  | fs : KnotIn py!"FS" (1852 / 3600 / (3048 / 10000))
  | mph : KnotIn py!"MPH" (1852 / (1609344 / 1000))
  | kmph : KnotIn py!"KMPH" (1852 / 1000)

end Spec
