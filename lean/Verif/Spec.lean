import Mathlib.Analysis.InnerProductSpace.PiL2
import Mathlib.Geometry.Euclidean.Angle.Unoriented.Basic
import Mathlib.Geometry.Euclidean.Angle.Unoriented.TriangleInequality

/-!
# Mathematical vocabulary for the property statements

Nothing here refers to the model of the code.
-/

noncomputable section

namespace Vsm.Spec

open Real

/-- Three dimensional space. -/
abbrev E3 := EuclideanSpace ℝ (Fin 3)

/-- The point of the unit sphere with latitude `lat` and longitude `lon` (radians). -/
def unitVec (lat lon : ℝ) : E3 := !₂[cos lat * cos lon, cos lat * sin lon, sin lat]

/-- Great-circle angle between two points of the unit sphere given by coordinates. -/
def greatCircle (lat1 lon1 lat2 lon2 : ℝ) : ℝ :=
  InnerProductGeometry.angle (unitVec lat1 lon1) (unitVec lat2 lon2)

/-- Area of a spherical cap of angular radius `θ` on a sphere of radius `R`. -/
def capArea (R θ : ℝ) : ℝ := 2 * π * R ^ 2 * (1 - cos θ)

/-- Fraction of the sphere north of latitude `φ`. -/
def fracNorth (φ : ℝ) : ℝ := (1 - sin φ) / 2

end Vsm.Spec
