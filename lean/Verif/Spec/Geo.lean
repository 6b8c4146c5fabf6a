import Mathlib.Analysis.InnerProductSpace.PiL2
import Mathlib.Analysis.SpecialFunctions.Trigonometric.Basic
/-!
# What the geodesy helpers are supposed to compute

Independent of the model: points and tangent directions of the unit sphere, and the reference ellipsoid.
-/
namespace Nmea.Geo
open Real

/-- Degrees to radians. -/
noncomputable def toRad (d : ℝ) : ℝ := π * d / 180

/-- The point of the unit sphere with the given latitude and longitude in degrees. -/
noncomputable def spherePoint (lat lon : ℝ) : EuclideanSpace ℝ (Fin 3) :=
  !₂[cos (toRad lat) * cos (toRad lon), cos (toRad lat) * sin (toRad lon), sin (toRad lat)]

/-- The unit tangent vector pointing north at that point. -/
noncomputable def northAt (lat lon : ℝ) : EuclideanSpace ℝ (Fin 3) :=
  !₂[-sin (toRad lat) * cos (toRad lon), -sin (toRad lat) * sin (toRad lon), cos (toRad lat)]

/-- The unit tangent vector pointing east at that point. -/
noncomputable def eastAt (lon : ℝ) : EuclideanSpace ℝ (Fin 3) :=
  !₂[-sin (toRad lon), cos (toRad lon), 0]

/-- The polar semi-axis of an ellipsoid with equatorial semi-axis `a` and inverse flattening `rf`. -/
noncomputable def polarAxis (a rf : ℝ) : ℝ := a * (1 - 1 / rf)

/-- The point is on the ellipsoid of revolution with semi-axes `a` (equatorial) and `b` (polar). -/
def OnEllipsoid (a b : ℝ) (p : EuclideanSpace ℝ (Fin 3)) : Prop :=
  (p 0 / a) ^ 2 + (p 1 / a) ^ 2 + (p 2 / b) ^ 2 = 1

/-- Half the gradient of the left-hand side of `OnEllipsoid`: a vector normal to the ellipsoid, pointing
outwards. -/
noncomputable def ellipsoidNormal (a b : ℝ) (p : EuclideanSpace ℝ (Fin 3)) : EuclideanSpace ℝ (Fin 3) :=
  !₂[p 0 / a ^ 2, p 1 / a ^ 2, p 2 / b ^ 2]

end Nmea.Geo
