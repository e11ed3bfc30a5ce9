import Verif.Geo.Spec
import Verif.KDTree.Model
/-! Specification for C13: positions within a great-circle distance. -/
namespace Cis.HavTree.Spec
open Real

/-- Great-circle distance in km of two (latitude, longitude) pairs in degrees. -/
noncomputable def dist (x y : Fin 2 → ℝ) : ℝ := Geo.Spec.greatCircle 6378 (x 0) (x 1) (y 0) (y 1)

/-- Every longitude is in the window `[w, w + 360)` and every latitude strictly between the poles. -/
def InWindow (w : ℝ) (x : Fin 2 → ℝ) : Prop := w ≤ x 1 ∧ x 1 < w + 360 ∧ -90 < x 0 ∧ x 0 < 90

end Cis.HavTree.Spec
