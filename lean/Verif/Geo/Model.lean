import Mathlib.Analysis.SpecialFunctions.Trigonometric.Inverse
/-!
Model of the great-circle distance functions.

Simplification: exact real arithmetic, so the argument of `asin` is never rounded above 1.
-/
namespace Cis.Geo
open Real

/-- `RADIUS_EARTH` (kdtree.py:19) and `R_E` (utils.py:312). -/
def radiusEarth : ℝ := 6378

/-- `math.radians` / `* math.pi / 180` (utils.py:313-316, kdtree.py:108-111). -/
noncomputable def radians (x : ℝ) : ℝ := x * π / 180

/-- `utils.haversine(lat, lon, lat2, lon2)` (utils.py:307-319). -/
noncomputable def utilsHaversine (lat lon lat2 lon2 : ℝ) : ℝ :=
  let lat1 := radians lat
  let lat2 := radians lat2
  let lon1 := radians lon
  let lon2 := radians lon2
  let arclen := 2 * arcsin (√((sin ((lat2 - lat1) / 2)) ^ 2 + cos lat1 * cos lat2 * (sin ((lon2 - lon1) / 2)) ^ 2))
  arclen * radiusEarth

/-- `kdtree.haversine(x, y)` for two points given as arrays; the first two elements are used (kdtree.py:94-114). -/
noncomputable def kdHaversine (x0 x1 y0 y1 : ℝ) : ℝ :=
  let lat1 := x0 * π / 180
  let lat2 := y0 * π / 180
  let lon1 := x1 * π / 180
  let lon2 := y1 * π / 180
  let arclen := 2 * arcsin (√((sin ((lat2 - lat1) / 2)) ^ 2 + cos lat1 * cos lat2 * (sin ((lon2 - lon1) / 2)) ^ 2))
  arclen * radiusEarth

/-- `haversine_distance_from_radians(x, y)` (kdtree.py:117-127). -/
noncomputable def haversineRadians (lat1 lon1 lat2 lon2 : ℝ) : ℝ :=
  let arclen := 2 * arcsin (√((sin ((lat2 - lat1) / 2)) ^ 2 + cos lat1 * cos lat2 * (sin ((lon2 - lon1) / 2)) ^ 2))
  arclen * radiusEarth

/-- `HyperPoint.furthest_point_from` on latitude and longitude (hyperpoint.py:145-155). -/
noncomputable def furthestPointFrom (lat lon : ℝ) : ℝ × ℝ :=
  (-lat, if lon > 180 then lon - 180 else lon + 180)

end Cis.Geo
