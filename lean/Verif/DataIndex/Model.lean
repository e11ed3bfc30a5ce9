import Mathlib.Order.Basic
import Mathlib.Order.Lattice
import Mathlib.Data.Int.Basic
import Mathlib.Data.List.Basic
/-
Model of cis/collocation/data_index.py:15-249 (GridCellBinIndexInSlices and GridCellBinIndex).

Simplifications: values are elements of a linear order `K` (date-times are taken as already converted to numbers, lines
64-65); numpy arrays are lists or functions from indices; the coordinates are listed in the order of `coord_map`, i.e. by
output dimension (`_find_standard_coords`, col_implementations.py:1083-1095, numbers the output dimensions in that order);
logging is omitted except for the division by the number of bin checks, which can fail.
-/
namespace Cis.DataIndex
variable {K : Type} [LinearOrder K]

/-- A coordinate of the grid: its points and the bounds of its cells (`coord.points`, `coord.bounds`). -/
structure Coord (K : Type) where
  points : List K
  bounds : List (K × K)

/-- `coord.points[1] < coord.points[0]` when there is more than one point (data_index.py:52-54, 205-207). -/
def Coord.decreasing (c : Coord K) : Bool :=
  match c.points with
  | p0 :: p1 :: _ => decide (p1 < p0)
  | _ => false

/-- `np.searchsorted(a, v, side='right')` on a sorted array. -/
def searchsortedRight (a : List K) (v : K) : Nat := (a.takeWhile (fun b => decide (b ≤ v))).length

/-! ### GridCellBinIndexInSlices -/

/-- `lower_bounds[shi]` (data_index.py:57,60). -/
def Coord.lower (c : Coord K) : List K :=
  if c.decreasing then (c.bounds.map Prod.snd).reverse else c.bounds.map Prod.fst

/-- `max_bounds[shi]` (data_index.py:58,61): `bounds[0, 1]` or `bounds[-1, 1]`; `none` (IndexError) without cells. -/
def Coord.maxBound (c : Coord K) : Option K :=
  if c.decreasing then c.bounds.head?.map Prod.snd else c.bounds.getLast?.map Prod.snd

/-- One element of `indices` before the correction for decreasing coordinates (data_index.py:79-84). -/
def rawIndex (c : Coord K) (v : K) : Int :=
  match c.maxBound with
  | none => -1
  | some mx => if v < mx then (searchsortedRight c.lower v : Int) - 1 else -1

/-- The correction for decreasing coordinates (data_index.py:97-101). -/
def fixIndex (c : Coord K) (i : Int) : Int :=
  if c.decreasing then -1 * i + ((c.points.length : Int) - 1) else i

/-- A dimension: the grid coordinate and the coordinate values of all data points. -/
abbrev Dim (K : Type) := Coord K × (Nat → K)

/-- `grid_mask` of point `p` (data_index.py:91-94). -/
def gridMask (dims : List (Dim K)) (masked : Nat → Bool) (p : Nat) : Bool :=
  dims.all (fun d => decide (rawIndex d.1 (d.2 p) ≥ 0) && !masked p)

/-- The corrected column `indices[:, p]`. -/
def indexColumn (dims : List (Dim K)) (p : Nat) : List Int :=
  dims.map (fun d => fixIndex d.1 (rawIndex d.1 (d.2 p)))

/-- `np.tensordot(np.cumproduct((1,) + grid_shape[:-1]), indices, axes=1)` for one column (data_index.py:111-115): `acc` is
the running product of the lengths of the preceding dimensions. -/
def flatten (acc : Int) : List Int → List Int → Int
  | n :: shape, i :: idx => acc * i + flatten (acc * n) shape idx
  | _, _ => 0

/-- `grid_shape` (data_index.py:87). -/
def gridShape (dims : List (Dim K)) : List Int := dims.map (fun d => (d.1.lower.length : Int))

/-- `cell_numbers` before sorting (data_index.py:109-116). -/
def cellNumber (dims : List (Dim K)) (masked : Nat → Bool) (p : Nat) : Int :=
  if gridMask dims masked p then flatten 1 (gridShape dims) (indexColumn dims p) else -1

/-- `np.flatnonzero(np.diff(cell_numbers)) + 1` (data_index.py:136). -/
def firstElements (cn : List Int) : List Nat :=
  ((List.range (cn.length - 1)).filter (fun i => decide (cn[i + 1]? ≠ cn[i]?))).map (· + 1)

/-- `cell_slices_indices` (data_index.py:143-160): the concatenation `s, tile(t, 2), [N]` reshaped to two rows and
transposed is the list of pairs of consecutive elements. `none` is the IndexError of `cell_numbers[0]` without data. -/
def cellSlices (cn : List Int) : Option (List (Nat × Nat)) :=
  match cn with
  | [] => none
  | c0 :: _ =>
    let fs := firstElements cn
    if c0 = -1 then
      match fs with
      | [] => some []
      | f :: rest => some ((f :: rest).zip (rest ++ [cn.length]))
    else some ((0 :: fs).zip (fs ++ [cn.length]))

/-- `index_data` followed by `get_iterator` (data_index.py:33-122, 124-165) for `n` data points. `order` is the result of
`np.argsort` (any permutation that sorts the cell numbers). Each element is `out_indices` with the data point indices
`sort_order[start:stop]` of the slice. -/
def sliceIterator (dims : List (Dim K)) (masked : Nat → Bool) (order : List Nat) : Option (List (List Int × List Nat)) :=
  match cellSlices (order.map (cellNumber dims masked)) with
  | none => none
  | some slices =>
    some (slices.map (fun ab => (indexColumn dims (order.getD ab.1 0), (order.drop ab.1).take (ab.2 - ab.1))))

/-! ### GridCellBinIndex -/

/-- `upper_bounds[ci]` (data_index.py:211,214). -/
def Coord.upper (c : Coord K) : List K :=
  if c.decreasing then (c.bounds.map Prod.fst).reverse else c.bounds.map Prod.snd

/-- The interval of a coordinate that holds a value (data_index.py:225-230). -/
def binIndex (c : Coord K) (v : K) : Option Nat :=
  let s := searchsortedRight c.lower v
  if s = 0 then none
  else
    match c.upper[s - 1]? with
    | none => none
    | some u => if v < u then some (if c.decreasing then c.points.length - (s - 1) - 1 else s - 1) else none

/-- The cell of a point, if an interval was found for each coordinate (data_index.py:221-233). -/
def binCell (dims : List (Dim K)) (p : Nat) : Option (List Nat) := dims.mapM (fun d => binIndex d.1 (d.2 p))

/-- Adding a point to the list of its cell (data_index.py:233-238). -/
def binAdd (dims : List (Dim K)) (index : List Nat → List Nat) (p : Nat) : List Nat → List Nat :=
  match binCell dims p with
  | none => index
  | some cell => fun c => if c = cell then index c ++ [p] else index c

/-- Errors of `GridCellBinIndex.index_data`. -/
inductive Err where
  | zeroDivision

/-- `index_data` (data_index.py:172-249) then `get_points_by_indices`: the list stored for each cell (`None` is read as no
points by the only caller, col_implementations.py:981). The points are appended in order. The division
`2000000 / sum(log(len))` (line 189) fails if every coordinate has one cell. -/
def binIndexData (dims : List (Dim K)) (masked : Nat → Bool) (n : Nat) : Except Err (List Nat → List Nat) :=
  if dims.all (fun d => d.1.points.length == 1) then .error .zeroDivision
  else .ok (((List.range n).filter (fun p => !masked p)).foldl (binAdd dims) (fun _ => []))

/-- `CubeCellConstraint.constrain_points` (col_implementations.py:940-956), restricted to the indexed coordinates, as the
list of indices of the points kept for the cell with the given index in each dimension; `np.min`/`np.max` of the bound. -/
def cubeCellConstraint (dims : List (Dim K)) (masked : Nat → Bool) (n : Nat) (cell : List Nat) : List Nat :=
  ((List.range n).filter (fun p => !masked p)).filter (fun p =>
    (dims.zip cell).all (fun dc =>
      match dc.1.1.bounds[dc.2]? with
      | none => false
      | some b => decide (min b.1 b.2 ≤ dc.1.2 p) && decide (dc.1.2 p < max b.1 b.2)))

end Cis.DataIndex
