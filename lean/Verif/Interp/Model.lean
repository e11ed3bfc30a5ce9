import Mathlib.Algebra.Order.Field.Basic
import Mathlib.Algebra.Order.Ring.Abs
/-!
Model of the interpolation of gridded data at ungridded points (gridded_interpolation.py), for one sample point at a time
(the code works elementwise on arrays of sample points). Exact arithmetic.

An array of rank n is a function from index lists of length n to values; masked is a constructor, NaN and infinities are the
constructor `nan`.
-/
namespace Cis.Interp

/-- A value of a masked float array. -/
inductive Val (K : Type)
  | num (x : K)
  | masked
  | nan
deriving Repr, DecidableEq

variable {K : Type} [Field K] [LinearOrder K]

/-- numpy.ma arithmetic: masked wins over NaN. -/
def Val.add : Val K → Val K → Val K
  | .masked, _ => .masked
  | _, .masked => .masked
  | .num a, .num b => .num (a + b)
  | _, _ => .nan
def Val.mul : Val K → Val K → Val K
  | .masked, _ => .masked
  | _, .masked => .masked
  | .num a, .num b => .num (a * b)
  | _, _ => .nan

/-- Python indexing with negative indices. -/
def pyIdx (n : Nat) (i : Int) : Nat := if i < 0 then (i + n).toNat else i.toNat

/-- `np.searchsorted(coord, x)` for an ascending array: the number of elements below `x`. -/
def searchsorted (c : List K) (x : K) : Nat := c.countP (fun v => decide (v < x))

/-- The index found for one dimension (gridded_interpolation.py:369-371, and 382-386 for the vertical). -/
def findIndex (c : List K) (x : K) : Int :=
  let i : Int := (searchsorted c x : Int) - 1
  let i := if i < 0 then 0 else i
  if i > (c.length : Int) - 2 then (c.length : Int) - 2 else i

/-- The distance to the lower edge in units of the cell (gridded_interpolation.py:373, 387): not a number if the two nodes
coincide (a coordinate of one point: index -1 and 0). -/
def normDistance (c : List K) (x : K) : Val K :=
  let i := findIndex c x
  match c[pyIdx c.length i]?, c[pyIdx c.length (i + 1)]? with
  | some a, some b => if b - a = 0 then .nan else .num ((x - a) / (b - a))
  | _, _ => .nan

/-- `x < coord[0]` or `x > coord[-1]` (gridded_interpolation.py:376-377). -/
def outOfBounds (c : List K) (x : K) : Bool :=
  (match c.head? with | some a => decide (x < a) | none => false) ||
  (match c.getLast? with | some b => decide (x > b) | none => false)

/-- `itertools.product(*[[i, i + 1] for i in indices])` (gridded_interpolation.py:343). -/
def edges : List Int → List (List Int)
  | [] => [[]]
  | i :: t => [i, i + 1].flatMap (fun e => (edges t).map (e :: ·))

/-- The weight factor of one dimension (gridded_interpolation.py:348). -/
def factor (ei i : Int) (y : Val K) : Val K := if ei = i then Val.add (.num 1) (Val.mul (.num (-1)) y) else y

/-- The weight of an edge (gridded_interpolation.py:346-348). -/
def weight : List Int → List Int → List (Val K) → Val K → Val K
  | e :: es, i :: is, y :: ys, w => weight es is ys (Val.mul w (factor e i y))
  | _, _, _, w => w

/-- `values[tuple(indices)]` for a tuple of possibly negative integers. -/
def indexArray (shape : List Nat) (values : List Nat → Val K) (idx : List Int) : Val K :=
  values (List.zipWith pyIdx shape idx)

/-- `_evaluate_linear` (gridded_interpolation.py:335-350). -/
def evaluateLinear (shape : List Nat) (values : List Nat → Val K) (indices : List Int) (norms : List (Val K)) : Val K :=
  (edges indices).foldl (fun value e =>
    Val.add value (Val.mul (indexArray shape values e) (weight e indices norms (.num 1)))) (.num 0)

/-- `np.where(yi <= .5, i, i + 1)` (gridded_interpolation.py:356); a comparison with NaN is false. (For `yi = -inf` the
code takes `i = -1`, which is the same element as `i + 1 = 0` of a coordinate with one point.) -/
def nearestIndex (i : Int) : Val K → Int
  | .num y => if y ≤ 1 / 2 then i else i + 1
  | _ => i + 1

/-- `_evaluate_nearest` (gridded_interpolation.py:352-357). -/
def evaluateNearest (shape : List Nat) (values : List Nat → Val K) (indices : List Int) (norms : List (Val K)) : Val K :=
  indexArray shape values (List.zipWith nearestIndex indices norms)

/-- Interpolation method. -/
inductive Method
  | lin | nn

/-- `_RegularGridInterpolator` without a hybrid coordinate, for one sample point `xs` (gridded_interpolation.py:227-333,
359-378): the result array is masked where a point is out of bounds, unless extrapolating. -/
def regularGrid (m : Method) (grid : List (List K)) (xs : List K) (shape : List Nat) (values : List Nat → Val K)
    (extrapolate : Bool) : Val K :=
  let indices := List.zipWith findIndex grid xs
  let norms := List.zipWith normDistance grid xs
  let oob := (List.zipWith outOfBounds grid xs).any id
  let result := match m with
    | .lin => evaluateLinear shape values indices norms
    | .nn => evaluateNearest shape values indices norms
  if !extrapolate && oob then .masked else result

/-! ### `GriddedUngriddedInterpolator` without hybrid coordinates -/

/-- A dimension coordinate of the cube: its points, and the modulus of its units if it is circular. -/
structure Axis (K : Type) where
  points : List K
  circular : Option K

/-- `coord_points.size > 1 and coord_points[1] < coord_points[0]` (gridded_interpolation.py:88-89). -/
def Axis.decreasing (a : Axis K) : Bool :=
  match a.points with
  | p0 :: p1 :: _ => decide (p1 < p0)
  | _ => false

/-- The grid points of an axis: reversed if decreasing, extended by `points[0] + modulus` if circular
(gridded_interpolation.py:86-98, 26-35). -/
def Axis.grid (a : Axis K) : List K :=
  let pts := if a.decreasing then a.points.reverse else a.points
  match a.circular with
  | some m => pts ++ (pts.head?.map (· + m)).toList
  | none => pts

/-- `_decreasing_coord_dims` (gridded_interpolation.py:90-91): the numpy flag `True` is appended for each decreasing axis, not
its dimension. `flag` is what the flag means as an index of a list: 1, or `none` for versions of numpy in which it is not an
index (TypeError). -/
def decreasingDims (flag : Option Nat) (axes : List (Axis K)) : List (Option Nat) := (axes.filter Axis.decreasing).map (fun _ => flag)

/-- Index map of one dimension for `extend_circular_data` (gridded_interpolation.py:38-45): index n (the new last one) is
index 0 of the original. The code applies it to each circular dimension in turn. -/
def extendIndex (a : Axis K) (k : Nat) : Nat :=
  match a.circular with
  | some _ => if k = a.points.length then 0 else k
  | none => k

/-- The data array after `extend_circular_data` for all circular dimensions (gridded_interpolation.py:170-171). -/
def extendData (axes : List (Axis K)) (data : List Nat → Val K) : List Nat → Val K :=
  fun idx => data (List.zipWith extendIndex axes idx)

/-- The shape after extension. -/
def extendShape (axes : List (Axis K)) : List Nat := axes.map (fun a => a.points.length + if a.circular.isSome then 1 else 0)

/-- The flag can be used as an index of `dim_slices` (gridded_interpolation.py:148). -/
def validDim (rank : Nat) : Option Nat → Bool
  | some d => decide (d < rank)
  | none => false

/-- `_account_for_inverted` (gridded_interpolation.py:145-150): the listed dimensions are reversed; `none` is IndexError or
TypeError. -/
def accountForInverted (dims : List (Option Nat)) (shape : List Nat) (data : List Nat → Val K) : Option (List Nat → Val K) :=
  if dims.all (validDim shape.length) then
    some (fun idx => data (List.zipWith (fun (nd : Nat × Nat) k => if some nd.2 ∈ dims then nd.1 - 1 - k else k) shape.zipIdx idx))
  else none

/-- Ways to fail. -/
inductive Err
  | value   -- ValueError
  | index   -- IndexError or TypeError
deriving Repr, DecidableEq

/-- `np.all(np.diff(c) > 0.)` (gridded_interpolation.py:247). -/
def ascending (c : List K) : Bool := decide (c.Pairwise (· < ·))

/-- `GriddedUngriddedInterpolator(data, sample, method)(data, extrapolate=…)` at one sample point
(gridded_interpolation.py:50-132, 152-184), no hybrid coordinate, every dimension coordinate of the cube being a coordinate of
the sample (otherwise the numbers of coordinates differ: ValueError, lines 120-122). `missing` says that the sample value is
masked and that this matters (lines 124-129, 177-182). -/
def interpolate (flag : Option Nat) (m : Method) (axes : List (Axis K)) (data : List Nat → Val K) (xs : List K) (extrapolate missing : Bool) :
    Except Err (Val K) :=
  if xs.length ≠ axes.length then .error .value
  else if !(axes.all (fun a => ascending a.grid)) then .error .value
  else
    match accountForInverted (decreasingDims flag axes) (extendShape axes) (extendData axes data) with
    | none => .error .index
    | some values =>
      .ok (if missing then .masked else regularGrid m (axes.map Axis.grid) xs (extendShape axes) values extrapolate)

/-! ### Hybrid vertical coordinate -/

/-- The vertical column interpolated at the sample point (gridded_interpolation.py:266-277): the values of the hybrid
coordinate at each level. `hybridDims` are the cube dimensions of the hybrid coordinate except the vertical one (always last);
the indices are taken from these dimensions, the weights from the first dimensions in order. -/
def vColumn (m : Method) (shape : List Nat) (hybrid : List Nat → Val K) (hybridDims : List Nat) (levels : Nat)
    (indices : List Int) (norms : List (Val K)) : List (Val K) :=
  let hybridIndices := hybridDims.filterMap (fun d => indices[d]?)
  (List.range levels).map (fun l =>
    match m with
    | .lin => evaluateLinear shape (fun idx => hybrid (idx ++ [l])) hybridIndices norms
    | .nn => evaluateNearest shape (fun idx => hybrid (idx ++ [l])) hybridIndices norms)

/-- The numbers of a column, if all are numbers. -/
def columnNums : List (Val K) → Option (List K)
  | [] => some []
  | .num x :: t => (columnNums t).map (x :: ·)
  | _ :: _ => none

/-- `_RegularGridInterpolator` with a hybrid coordinate for one sample point with horizontal coordinates `xs` (one for each of
the dimensions but the vertical, which is last) and vertical coordinate `z` (gridded_interpolation.py:261-290, 326-333,
380-390). A masked or NaN value in the column gives NaN here (simplification). -/
def hybridGrid (m : Method) (grid : List (List K)) (xs : List K) (z : K) (shape : List Nat) (values : List Nat → Val K)
    (hybridShape : List Nat) (hybrid : List Nat → Val K) (hybridDims : List Nat) (levels : Nat) (extrapolate : Bool) : Val K :=
  let indices := List.zipWith findIndex grid xs
  let norms := List.zipWith normDistance grid xs
  let oob := (List.zipWith outOfBounds grid xs).any id
  match columnNums (vColumn m hybridShape hybrid hybridDims levels indices norms) with
  | none => .nan
  | some col =>
    let indices := indices ++ [findIndex col z]
    let norms := norms ++ [normDistance col z]
    let result := match m with
      | .lin => evaluateLinear shape values indices norms
      | .nn => evaluateNearest shape values indices norms
    if !extrapolate && (oob || outOfBounds col z) then .masked else result

end Cis.Interp
