import Mathlib.Geometry.Euclidean.Angle.Unoriented.Basic
import Mathlib.Analysis.InnerProductSpace.PiL2
/-! Specification: the great-circle distance on a sphere, defined from vectors and the angle between them. -/
namespace Cis.Geo.Spec
open Real

/-- The unit vector of a position given in degrees. -/
noncomputable def position (lat lon : ℝ) : EuclideanSpace ℝ (Fin 3) :=
  !₂[cos (lat * π / 180) * cos (lon * π / 180), cos (lat * π / 180) * sin (lon * π / 180), sin (lat * π / 180)]

/-- Great-circle distance: radius times the angle between the positions seen from the centre. -/
noncomputable def greatCircle (R lat1 lon1 lat2 lon2 : ℝ) : ℝ :=
  R * InnerProductGeometry.angle (position lat1 lon1) (position lat2 lon2)

end Cis.Geo.Spec
