import Verif.HavTree.Model
import Verif.Lon.Model
import Mathlib.Data.Finset.Lattice.Fold
/-!
Model of ungridded collocation: separation constraints (col_implementations.py:211-361), kernels (lines 365-556,
col_framework.py:91-112) and the collocator (lines 19-112).

A sample or data set is a list of rows (location and value); `none` is a missing (NaN) value. Exact real arithmetic;
pressures are positive where they matter (division by zero is not modelled). The separations are already parsed numbers
(`parse_distance_with_units…`, `parse_datetimestr_delta_to_float_days` are modelled elsewhere).
-/
namespace Cis.Colloc
open Cis.Geo Cis.KDTree

/-- The five standard coordinates of a point. -/
structure Loc where
  lat : ℝ
  lon : ℝ
  alt : ℝ
  pres : ℝ
  time : ℝ

/-- A row of a data frame (ungridded_data.py:608-622); masked values are NaN. -/
structure Row where
  loc : Loc
  val : Option ℝ

/-- A row whose value is not NaN. -/
structure DRow where
  loc : Loc
  val : ℝ

/-- The separations given to a constraint. -/
structure Seps where
  h : Option ℝ
  a : Option ℝ
  p : Option ℝ
  t : Option ℝ

/-! ### `SepConstraint` (plain) -/

/-- `HyperPoint.pres_sep` (hyperpoint.py:139-146). -/
noncomputable def presSep (p q : Loc) : ℝ := if p.pres > q.pres then p.pres / q.pres else q.pres / p.pres

/-- The list `self.checks` of `SepConstraint.__init__` (col_implementations.py:211-238) with the check methods
(lines 240-250) and the separations of `HyperPoint` (hyperpoint.py:120-146). -/
noncomputable def plainChecks (s : Seps) : List (Loc → Loc → Bool) :=
  (match s.h with | some h => [fun p r => decide (utilsHaversine p.lat p.lon r.lat r.lon < h)] | none => []) ++
  (match s.a with | some a => [fun p r => decide (|p.alt - r.alt| < a)] | none => []) ++
  (match s.p with | some q => [fun p r => decide (presSep p r < q)] | none => []) ++
  (match s.t with | some t => [fun p r => decide (|p.time - r.time| < t)] | none => [])

/-- `SepConstraint.constrain_points` (col_implementations.py:252-257). -/
noncomputable def plainConstrain (s : Seps) (ref : Loc) (data : List DRow) : List DRow :=
  data.foldl (fun con p => if (plainChecks s).all (fun check => check p.loc ref) then con ++ [p] else con) []

/-! ### `SepConstraintKdtree` -/

/-- `frame.iloc[indices]`; `none` is IndexError. -/
def iloc (f : List DRow) (idx : List Nat) : Option (List DRow) := idx.mapM (fun i => f[i]?)

/-- An entry of a boolean column computed from the rows. -/
def entry (f : List DRow) (c : Loc → Bool) (i : Nat) : Bool := (f[i]?.map (fun r => c r.loc)).getD false

/-- `nonzero()[0]` of a boolean column computed from the rows. -/
def nonzero (f : List DRow) (c : Loc → Bool) : List Nat := (List.range f.length).filter (entry f c)

/-- The check methods of `SepConstraintKdtree` (col_implementations.py:298-311): positions in the frame. -/
noncomputable def timeCheck (t : ℝ) (f : List DRow) (ref : Loc) : List Nat := nonzero f (fun p => decide (|p.time - ref.time| < t))
noncomputable def altCheck (a : ℝ) (f : List DRow) (ref : Loc) : List Nat := nonzero f (fun p => decide (|p.alt - ref.alt| < a))
noncomputable def presCheck (q : ℝ) (f : List DRow) (ref : Loc) : List Nat :=
  nonzero f (fun p => decide (ref.pres / p.pres < q) && decide (p.pres ≤ ref.pres)) ++
  nonzero f (fun p => decide (p.pres / ref.pres < q) && decide (p.pres > ref.pres))

/-- `self.checks` of `SepConstraintKdtree` (col_implementations.py:265-296): altitude, pressure, time. -/
noncomputable def kdChecks (s : Seps) : List (List DRow → Loc → List Nat) :=
  (match s.a with | some a => [altCheck a] | none => []) ++
  (match s.p with | some q => [presCheck q] | none => []) ++
  (match s.t with | some t => [timeCheck t] | none => [])

/-- `for check in self.checks: points = points.iloc[check(points, ref)]` (col_implementations.py:322-323, 358-359). -/
def applyChecks (checks : List (List DRow → Loc → List Nat)) (ref : Loc) (f : List DRow) : Option (List DRow) :=
  checks.foldlM (fun f check => iloc f (check f ref)) f

/-- The truth value of `self.haversine_distance_kd_tree_index and self.h_sep` for an indexed constraint: `h_sep` is used
only if it is given and not zero (col_implementations.py:314, 345). -/
noncomputable def horizontal (s : Seps) : Option ℝ :=
  match s.h with
  | some h => if h = 0 then none else some h
  | none => none

/-- The points of a frame for the index: `data[['latitude', 'longitude']]` (haversinedistancekdtreeindex.py:13). -/
def latLon (f : List DRow) (i : Nat) : Pt 2 ℝ :=
  match f[i]? with
  | some r => ![r.loc.lat, r.loc.lon]
  | none => 0

/-- `SepConstraintKdtree.constrain_points` (col_implementations.py:313-326) without the cache (which is in `Cache.lean`):
`search` is `find_points_within_distance` on the index. -/
noncomputable def kdConstrain (s : Seps) (search : Loc → ℝ → List Nat) (ref : Loc) (data : List DRow) : Option (List DRow) :=
  match horizontal s with
  | some h => (iloc data (search ref h)).bind (applyChecks (kdChecks s) ref)
  | none => applyChecks (kdChecks s) ref data

/-- `SepConstraintKdtree.get_iterator` (col_implementations.py:336-361): for each sample point that is not skipped, its
position and the selected data. `search` is `find_points_within_distance_sample` for the frames at hand, `hasVals` whether
the sample has a column of values. An empty result list of `search` is falsy: then the sample is empty too. -/
noncomputable def kdIterator (s : Seps) (search : ℝ → Nat → List Nat) (missing hasVals : Bool) (data : List DRow)
    (sample : List Row) : Option (List (Nat × Loc × List DRow)) :=
  (sample.zipIdx.filter (fun ri => !(missing && (hasVals && ri.1.val.isNone)))).mapM (fun ri =>
    let d := match horizontal s with
      | some h => iloc data (search h ri.2)
      | none => some data
    (d.bind (applyChecks (kdChecks s) ri.1.loc)).map (fun f => (ri.2, ri.1.loc, f)))

/-! ### Kernels -/

/-- Columns of a data frame. -/
inductive Col
  | lat | lon | alt | pres | time

/-- The entry of a row in a column. -/
def Loc.get (p : Loc) : Col → ℝ
  | .lat => p.lat
  | .lon => p.lon
  | .alt => p.alt
  | .pres => p.pres
  | .time => p.time

/-- `kdtree.haversine(x, y)` of two rows (kdtree.py:94-114): it takes the entries at positions 0 and 1. `cx`, `cy` are the
columns of the two frames, in order (ungridded_data.py:1166-1186: the order of the coordinates). -/
noncomputable def rowHaversine (cx cy : List Col) (x y : Loc) : Option ℝ :=
  match cx, cy with
  | c0 :: c1 :: _, d0 :: d1 :: _ => some (kdHaversine (x.get c0) (x.get c1) (y.get d0) (y.get d1))
  | _, _ => none

/-- The kernels. -/
inductive Kernel
  | mean | stddev | min | max | sum | moments | nnHorizontal | nnAltitude | nnPressure | nnTime

/-- `np.mean`. -/
noncomputable def npMean (v : List ℝ) : ℝ := v.sum / v.length

/-- `np.std(values, ddof=1)`: NaN for one value. -/
noncomputable def npStd (v : List ℝ) : Option ℝ :=
  if v.length ≤ 1 then none
  else some (Real.sqrt ((v.map (fun x => (x - npMean v) ^ 2)).sum / (v.length - 1)))

/-- `np.min`, `np.max` of a non-empty list. -/
noncomputable def npMin : List ℝ → Option ℝ
  | [] => none
  | x :: t => some (t.foldl min x)
noncomputable def npMax : List ℝ → Option ℝ
  | [] => none
  | x :: t => some (t.foldl max x)

/-- The loop of the nearest neighbour kernels (col_implementations.py:465-556): the first row, replaced by each later row
that is strictly nearer; `none` for no rows (ValueError). `sep` is the separation from the sample point. -/
noncomputable def nnLoop (sep : Loc → ℝ) : List DRow → Option DRow
  | [] => none
  | first :: rest => some (rest.foldl (fun near p => if sep near.loc > sep p.loc then p else near) first)

/-- `pres_sep(point1, point2)` of `nn_pressure` (col_implementations.py:519-526). -/
noncomputable def nnPresSep (p q : Loc) : ℝ := if p.pres > q.pres then p.pres / q.pres else q.pres / p.pres

/-- `kernel.get_value(point, con_points)`: `none` is ValueError, the values are one per output variable, NaN is `none`.
Data-only kernels reject an empty selection (col_framework.py:98-112) before `get_value_for_data_only`
(col_implementations.py:365-462). `cx`, `cy` are the columns of the sample and data frames. -/
noncomputable def getValue (k : Kernel) (cx cy : List Col) (ref : Loc) (data : List DRow) : Option (List (Option ℝ)) :=
  let vals := data.map DRow.val
  let dataOnly (r : List (Option ℝ)) : Option (List (Option ℝ)) := if vals.length = 0 then none else some r
  let nn (sep : Loc → ℝ) : Option (List (Option ℝ)) := (nnLoop sep data).map (fun r => [some r.val])
  match k with
  | .mean => dataOnly [some (npMean vals)]
  | .stddev => dataOnly [npStd vals]
  | .min => dataOnly [npMin vals]
  | .max => dataOnly [npMax vals]
  | .sum => dataOnly [some vals.sum]
  | .moments => dataOnly [some (npMean vals), npStd vals, some (vals.length : ℝ)]
  | .nnHorizontal => nn (fun p => (rowHaversine cx cy ref p).getD 0)
  | .nnAltitude => nn (fun p => |ref.alt - p.alt|)
  | .nnPressure => nn (fun p => nnPresSep ref p)
  | .nnTime => nn (fun p => |ref.time - p.time|)

/-- `len(kernel.get_variable_details(...))`: the number of output variables. -/
def Kernel.size : Kernel → Nat
  | .moments => 3
  | _ => 1

/-! ### The collocator -/

/-- `dropna(axis=0)`. -/
def dropna (data : List Row) : List DRow := data.filterMap (fun r => r.val.map (fun v => ⟨r.loc, v⟩))

/-- Sets the longitudes of the rows (`UngriddedData.set_longitude_range`, ungridded_data.py:746-754). -/
noncomputable def setLongitudeRange (rows : List Row) (start : ℝ) : List Row :=
  rows.zipWith (fun r lon => { r with loc := { r.loc with lon := lon } })
    (Lon.fixLongitudeRange (rows.map (fun r => r.loc.lon)) start)

/-- The index of a frame: `create_indexes` always builds it (data_index.py:259-275, haversinedistancekdtreeindex.py:28-42),
with the default leaf size 10. The error is the ValueError raised for an empty frame. -/
noncomputable def treeOf (f : List DRow) : Except KDTree.Err (KD 2 ℝ) := mkTree f.length (latLon f) 10

/-- The latitudes and longitudes of the sample frame as rows of the array that is indexed
(haversinedistancekdtreeindex.py:7-18). -/
def sampleLatLon (sample : List Row) (i : Nat) : Pt 2 ℝ :=
  match sample[i]? with
  | some r => ![r.loc.lat, r.loc.lon]
  | none => 0

/-- `find_points_within_distance_sample(sample, h)` on the index of `data` (haversinedistancekdtreeindex.py:59-67). -/
noncomputable def treeSearch (T : KD 2 ℝ) (sample : List Row) (h : ℝ) (i : Nat) : List Nat :=
  match HavTree.pointsWithinDistanceSample sample.length (sampleLatLon sample) T h with
  | .ok res => res i
  | .error _ => []

/-- Ways in which a collocation can fail. -/
inductive Err
  | index      -- ValueError from building the index
  | position   -- IndexError

/-- One item: the column of the output array at the item's position is assigned if the kernel gives values
(col_implementations.py:91-99). -/
noncomputable def fillStep (k : Kernel) (cx cy : List Col) (vals : Nat → List (Option ℝ)) (it : Nat × Loc × List DRow) :
    Nat → List (Option ℝ) :=
  match getValue k cx cy it.2.1 it.2.2 with
  | some v => Function.update vals it.1 v
  | none => vals

/-- The loop of the collocator over the items of the iterator (col_implementations.py:72-99): the output array is masked
initially. -/
noncomputable def fillValues (k : Kernel) (cx cy : List Col) (items : List (Nat × Loc × List DRow)) : Nat → List (Option ℝ) :=
  items.foldl (fillStep k cx cy) (fun _ => List.replicate k.size none)

/-- `GeneralUngriddedCollocator.collocate` for one data variable and a `SepConstraintKdtree`
(col_implementations.py:24-112), for a search function `search index sample` (the code uses `treeSearch`). The result lists,
for each output variable, one value per sample point (`none`: missing). `cx`, `cy` are the columns of the two frames. -/
noncomputable def collocateWith (search : KD 2 ℝ → List Row → ℝ → Nat → List Nat) (s : Seps) (k : Kernel)
    (missing hasVals : Bool) (cx cy : List Col) (sample data : List Row) : Except Err (List (List (Option ℝ))) :=
  let sample1 := setLongitudeRange sample (Lon.findLongitudeRange (sample.map (fun r => r.loc.lon)))
  let data1 := setLongitudeRange data (Lon.findLongitudeRange (sample1.map (fun r => r.loc.lon)))
  let dataPoints := dropna data1
  match treeOf dataPoints with
  | .error _ => .error .index
  | .ok T =>
    match kdIterator s (search T sample1) missing hasVals dataPoints sample1 with
    | none => .error .position
    | some items => .ok ((List.range k.size).map (fun v => (List.range sample.length).map (fun i =>
        ((fillValues k cx cy items i)[v]?).join)))

/-- The collocator with the tree search. -/
noncomputable def collocate := collocateWith treeSearch

end Cis.Colloc
