import Verif.Hyper.Model
import Mathlib.Analysis.SpecialFunctions.Log.Basic
/-! Vocabulary for statements about points. -/
namespace Cis.Hyper.Spec
variable {K V : Type}

/-- The coordinate of a point by its standard name. -/
def component (p : HP K V) (name : String) : Option K :=
  if name = "latitude" then p.lat
  else if name = "longitude" then p.lon
  else if name = "altitude" then p.alt
  else if name = "air_pressure" then p.pres
  else if name = "time" then p.time
  else none

/-- The standard names. -/
def names : List String := ["latitude", "longitude", "altitude", "air_pressure", "time"]

/-- Distance of pressures on a logarithmic scale. -/
noncomputable def logDist (a b : ℝ) : ℝ := |Real.log a - Real.log b|

/-- A cube all of whose dimensions have a dimension coordinate. -/
def cube (cs : List (String × List K)) : List (GDim K) := cs.map (fun c => ⟨c.2.length, some c⟩)

end Cis.Hyper.Spec
