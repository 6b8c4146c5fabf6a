import Mathlib.Data.Real.Basic
/-!
# Specification: ellipsoids of the Earth
-/
namespace Spec

/-- Equatorial semi-axis (in metres) and inverse flattening of an ellipsoid fitted to the Earth. All that are in use are in
this range: from Everest 1830 (6377276, 300.8) and Clarke 1880 (6378249, 293.47) to the International (6378388, 297) and
WGS84 (6378137, 298.26). -/
def EarthLike (a f : ℝ) : Prop := 6377000 ≤ a ∧ a ≤ 6379000 ∧ 293 ≤ f ∧ f ≤ 301

end Spec
