import Verif.Geo.Model
import Verif.KDTree.Query
import Mathlib.Algebra.Order.Floor.Defs
import Mathlib.Algebra.Order.Round
import Mathlib.Data.Real.Archimedean
/-!
Model of the great-circle k-d tree: `RectangleHaversine` (kdtree.py:278-420) and `HaversineDistanceKDTree`
(kdtree.py:1155-1346), and of the index built on it (haversinedistancekdtreeindex.py).

Simplifications: exact real arithmetic; the tree is built without a mask (`create_index` finds no `data` attribute on a
data frame, haversinedistancekdtreeindex.py:14-18), so construction is that of `KDTree.mkTree`; `eps = 0`.
Component 0 of a point is the latitude and component 1 the longitude, in degrees
(haversinedistancekdtreeindex.py:13).
-/
namespace Cis.HavTree
open Real Cis.Geo Cis.KDTree

/-- `haversine_distance(x, y)` (kdtree.py:83-91). -/
noncomputable def havPt (x y : Pt 2 ℝ) : ℝ := kdHaversine (x 0) (x 1) (y 0) (y 1)

/-- `RectangleHaversine.min_distance_rectangle` (kdtree.py:398-408). -/
noncomputable def minRect (R S : Rect 2 ℝ) : ℝ :=
  havPt 0 (fun i => max 0 (max (R.mins i - S.maxes i) (S.mins i - R.maxes i)))

/-- `RectangleHaversine.max_distance_rectangle` (kdtree.py:410-420). -/
noncomputable def maxRect (R S : Rect 2 ℝ) : ℝ :=
  havPt 0 (fun i => max (R.maxes i - S.mins i) (S.maxes i - R.mins i))

/-- `traverse_checking` of `HaversineDistanceKDTree.query_ball_tree` (kdtree.py:1261-1285), `eps = 0`; the traversal
without checks (kdtree.py:1287-1297) is `noCheckTree`. -/
noncomputable def checkTree (data1 data2 : Nat → Pt 2 ℝ) (r : ℝ) :
    Tree 2 ℝ → Rect 2 ℝ → Tree 2 ℝ → Rect 2 ℝ → Results → Results
  | t1, R1, t2, R2, res =>
    if minRect R1 R2 > r / (1 + 0) then res
    else if maxRect R1 R2 < r * (1 + 0) then noCheckTree t1 t2 res
    else match t1, t2 with
      | .leaf i1, .leaf i2 =>
        i1.foldl (fun rs i => rs.extend i (i2.filter (fun j => decide (havPt (data2 j) (data1 i) ≤ r)))) res
      | .leaf i1, .inner d s l g =>
        checkTree data1 data2 r (.leaf i1) R1 g (R2.split d s).2
          (checkTree data1 data2 r (.leaf i1) R1 l (R2.split d s).1 res)
      | .inner d s l g, .leaf i2 =>
        checkTree data1 data2 r g (R1.split d s).2 (.leaf i2) R2
          (checkTree data1 data2 r l (R1.split d s).1 (.leaf i2) R2 res)
      | .inner d1 s1 l1 g1, .inner d2 s2 l2 g2 =>
        checkTree data1 data2 r g1 (R1.split d1 s1).2 g2 (R2.split d2 s2).2
          (checkTree data1 data2 r g1 (R1.split d1 s1).2 l2 (R2.split d2 s2).1
            (checkTree data1 data2 r l1 (R1.split d1 s1).1 g2 (R2.split d2 s2).2
              (checkTree data1 data2 r l1 (R1.split d1 s1).1 l2 (R2.split d2 s2).1 res)))
termination_by t1 _ t2 => (sizeOf t1, sizeOf t2)

/-- `HaversineDistanceKDTree.query_ball_tree` (kdtree.py:1238-1301). -/
noncomputable def queryBallTree (T O : KD 2 ℝ) (r : ℝ) : Results :=
  checkTree T.data O.data r T.tree (Rect.mk' T.maxes T.mins) O.tree (Rect.mk' O.maxes O.mins) (fun _ => [])

/-- Truncation towards zero. -/
noncomputable def trunc (x : ℝ) : ℤ := if 0 ≤ x then ⌊x⌋ else ⌈x⌉

/-- `np.fmod(x, y)`: the remainder has the sign of `x`. -/
noncomputable def fmod (x y : ℝ) : ℝ := x - y * trunc (x / y)

/-- `geodesic_to_line_of_longitude_crossing_latitude` (kdtree.py:130-158). The argument of `asin` never exceeds 1 in exact
arithmetic, so the branch for the rounding error is omitted. -/
noncomputable def crossingLatitude (ptLat ptLon longitude : ℝ) : ℝ :=
  let den := √(1 - (cos ptLat) ^ 2 * (sin (ptLon - longitude)) ^ 2)
  let sinLat := if den = 0 then 0 else sin ptLat / den
  arcsin sinLat

/-- `line_of_longitude_segment_nearer_end_latitude` (kdtree.py:161-176). -/
noncomputable def nearerEndLatitude (edgeLatMin edgeLatMax edgeLon ptLat ptLon : ℝ) : ℝ :=
  let latMid := (edgeLatMin + edgeLatMax) / 2
  let tanLatEqui := tan latMid * cos (ptLon - edgeLon)
  if tan ptLat < tanLatEqui then edgeLatMin else edgeLatMax

/-- `RectangleHaversine._min_distance_point` (kdtree.py:303-363), for a point in radians. -/
noncomputable def minPointRad (R : Rect 2 ℝ) (ptLat ptLon : ℝ) : ℝ :=
  let latMin := radians (R.mins 0)
  let lonMin := radians (R.mins 1)
  let latMax := radians (R.maxes 0)
  let lonMax := radians (R.maxes 1)
  let lat0 := ptLat
  let rangeStart := (lonMin + lonMax) / 2 - π
  let lon0 := fmod (ptLon - rangeStart) (2 * π) + rangeStart
  if lonMin ≤ lon0 ∧ lon0 ≤ lonMax then
    if lat0 < latMin then haversineRadians lat0 lon0 latMin lon0
    else if lat0 > latMax then haversineRadians lat0 lon0 latMax lon0
    else 0
  else
    let lonMid := (lonMin + lonMax) / 2
    if (lon0 < lonMid ∧ lonMid - lon0 < π) ∨ (lon0 > lonMid ∧ lon0 - lonMid > π) then
      let diff := lonMin - lon0
      let lonDiff := if diff < 0 then diff + 2 * π else diff
      let lat1 := if lonDiff > π / 2 then nearerEndLatitude latMin latMax lonMin lat0 lon0
        else min (max (crossingLatitude ptLat ptLon lonMin) latMin) latMax
      haversineRadians lat0 lon0 lat1 lonMin
    else
      let diff := lon0 - lonMax
      let lonDiff := if diff < 0 then diff + 2 * π else diff
      let lat1 := if lonDiff > π / 2 then nearerEndLatitude latMin latMax lonMax lat0 lon0
        else min (max (crossingLatitude ptLat ptLon lonMax) latMin) latMax
      haversineRadians lat0 lon0 lat1 lonMax

/-- `RectangleHaversine.min_distance_point` (kdtree.py:282-288). -/
noncomputable def minPoint (R : Rect 2 ℝ) (x : Pt 2 ℝ) : ℝ := minPointRad R (radians (x 0)) (radians (x 1))

/-- `RectangleHaversine.max_distance_point` (kdtree.py:290-301). -/
noncomputable def maxPoint (R : Rect 2 ℝ) (x : Pt 2 ℝ) : ℝ :=
  π * radiusEarth - minPointRad R (-radians (x 0)) (radians (x 1) + π)

/-- `traverse_checking` of `HaversineDistanceKDTree._query_ball_point` (kdtree.py:1306-1317); the traversal without checks
(kdtree.py:1319-1324) is `collect`. -/
noncomputable def ballPoint (data : Nat → Pt 2 ℝ) (x : Pt 2 ℝ) (r : ℝ) : Tree 2 ℝ → Rect 2 ℝ → List Nat
  | t, R =>
    if minPoint R x > r / (1 + 0) then []
    else if maxPoint R x < r * (1 + 0) then collect t
    else match t with
      | .leaf idx => idx.filter (fun i => decide (havPt (data i) x ≤ r))
      | .inner d s l g => ballPoint data x r l (R.split d s).1 ++ ballPoint data x r g (R.split d s).2
termination_by structural t => t

/-- `find_points_within_distance` (haversinedistancekdtreeindex.py:50-57) through `query_ball_point`
(kdtree.py:1303-1326). -/
noncomputable def queryBallPoint (T : KD 2 ℝ) (x : Pt 2 ℝ) (r : ℝ) : List Nat :=
  ballPoint T.data x r T.tree (Rect.mk' T.maxes T.mins)

/-- `find_points_within_distance_sample(sample, distance)` (haversinedistancekdtreeindex.py:59-67): the sample is indexed
with the default leaf size 10. -/
noncomputable def pointsWithinDistanceSample (nSample : Nat) (sample : Nat → Pt 2 ℝ) (T : KD 2 ℝ) (r : ℝ) :
    Except Err Results :=
  match mkTree nSample sample 10 with
  | .error e => .error e
  | .ok S => .ok (queryBallTree S T r)

/-! ### Nearest neighbour search -/

/-- `side_distances` and `min_distance` of the root with `p = 2` (kdtree.py:1180-1187): the longitude component is scaled by
the cosine of the longitude `x[1]`. -/
noncomputable def rootEntry (T : KD 2 ℝ) (x : Pt 2 ℝ) : Entry 2 ℝ :=
  let metric : Pt 2 ℝ := fun i => if i = 1 then cos (x 1 * π / 180) else 1
  let side : Pt 2 ℝ := fun i => (max 0 (max (x i - T.maxes i) (T.mins i - x i)) * metric i) ^ 2
  { md := ∑ i, side i, sd := side, node := T.tree }

/-- The main loop of `HaversineDistanceKDTree._query` for `p = 2` (kdtree.py:1213-1231). -/
noncomputable def queryLoop (data : Nat → Pt 2 ℝ) (x : Pt 2 ℝ) (k : Nat) (pop : Pop 2 ℝ) :
    Nat → List (Entry 2 ℝ) → QState ℝ → Option (QState ℝ)
  | 0, _, _ => none
  | fuel + 1, q, st =>
    match pop q with
    | none => some st
    | some (e, rest) =>
      match e.node with
      | .leaf idx => queryLoop data x k pop fuel rest (idx.foldl (fun st i => offer (some k) st (havPt (data i) x) i) st)
      | .inner d s l g =>
        if st.ub < (e.md : WithTop ℝ) then some st
        else
          let near := if x d < s then l else g
          let far := if x d < s then g else l
          let q1 := { md := e.md, sd := e.sd, node := near } :: rest
          let fe : Entry 2 ℝ :=
            { md := e.md - e.sd d + |s - x d| ^ 2, sd := Function.update e.sd d (|s - x d| ^ 2), node := far }
          queryLoop data x k pop fuel (if (fe.md : WithTop ℝ) ≤ st.ub then fe :: q1 else q1) st

/-- `find_nearest_point` for one point (haversinedistancekdtreeindex.py:41-48) through `query` with `k = 1` and
`_query` (kdtree.py:1177-1236): the index of the hit, `n` if there is none. -/
noncomputable def findNearest (T : KD 2 ℝ) (pop : Pop 2 ℝ) (x : Pt 2 ℝ) (fuel : Nat) : Option Nat :=
  match queryLoop T.data x 1 pop fuel [rootEntry T x] { nbrs := [], ub := ⊤ } with
  | none => none
  | some st =>
    match (st.nbrs.map (fun e => (√(-e.1), e.2))).insertionSort lexLE with
    | [] => some T.n
    | h :: _ => some h.2

end Cis.HavTree
