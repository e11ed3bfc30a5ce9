import Mathlib.Data.List.Sort
/-!
Model of `GriddedCollocator` (cis/collocation/col_implementations.py:583-733): collocation of gridded data onto a grid.
iris is external: `cube.interpolate` is a parameter, a function of the data and of what is asked for along each dimension (a
coordinate value, or an index where the dimension is kept), which is its documented contract. Coordinates are
one-dimensional; the coordinates of a cube that are not dimension coordinates (`aux`) are listed after the dimension
coordinates by `cube.coords()`. The data are those after `_fix_longitude_range` (line 616, see C23).
-/
namespace Cis.GridColloc

/-- A coordinate: `coord.name()` and `coord.points`. -/
structure Coord (K : Type) where
  name : String
  pts : List K

/-- The sample cube: dimension coordinates in the order of the dimensions, other coordinates, and the mask of the data
(`none` for `np.ma.nomask`) by multi-index. -/
structure Sample (K : Type) where
  dims : List (Coord K)
  aux : List (Coord K)
  mask : Option (List Nat → Bool)

/-- A data cube; `none` is a masked value. -/
structure Cube (K V : Type) where
  dims : List (Coord K)
  get : List Nat → Option V

variable {K V : Type}

/-- `points.coords()`. -/
def Sample.coords (s : Sample K) : List (Coord K) := s.dims ++ s.aux

/-- `points.data.shape`. -/
def Sample.shape (s : Sample K) : List Nat := s.dims.map (fun c => c.pts.length)

/-- `points.coords(name)[0]`; `none` is the IndexError (line 641). -/
def Sample.find (s : Sample K) (name : String) : Option (Coord K) := s.coords.find? (fun c => c.name == name)

/-- `sample_coord_lookup[sample_coord]` (lines 619-621, 644): the position of the coordinate object. -/
def Sample.pos (s : Sample K) (name : String) : Nat := s.coords.findIdx (fun c => c.name == name)

/-- Name and size of a dimension. -/
abbrev NS := String × Nat

/-- The loop over the dimension coordinates of the data (lines 634-648): shared coordinates with their position in the sample,
the others, and the product of the sizes of the others. -/
def classify (s : Sample K) : List (Coord K) → List (NS × Nat) × List NS × Nat
  | [] => ([], [], 1)
  | c :: t =>
    match classify s t, s.find c.name with
    | (sh, ex, r), some sc => (((c.name, sc.pts.length), s.pos c.name) :: sh, ex, r)
    | (sh, ex, r), none => (sh, (c.name, c.pts.length) :: ex, c.pts.length * r)

/-- Lines 652-654: the shared coordinates in the order of the sample. -/
def sortShared (l : List (NS × Nat)) : List NS := (l.insertionSort (fun a b => a.2 ≤ b.2)).map Prod.fst

/-- Position in the flattened (C order) array of a multi-index. -/
def ravel : List Nat → List Nat → Nat
  | _ :: sh, i :: idx => i * sh.prod + ravel sh idx
  | _, _ => 0

/-- Multi-index of a position in the flattened array. -/
def unravel : List Nat → Nat → List Nat
  | [], _ => []
  | _ :: sh, k => k / sh.prod :: unravel sh (k % sh.prod)

/-- Ways to fail. -/
inductive Err
  | classNotFound  -- ClassNotFoundError: not a kernel for gridded data
  | value          -- ValueError: cannot reshape
  | key            -- KeyError
deriving DecidableEq

/-- `_make_output_mask` (lines 692-714): `np.reshape(np.repeat(points.data.mask, repeat_size), output_shape)`. -/
def makeOutputMask (s : Sample K) (shared : List NS) (outShape : List Nat) (repeatSize : Nat) :
    Except Err (Option (List Nat → Bool)) :=
  if shared.length < s.dims.length then .ok none
  else
    match s.mask with
    | none => .ok none
    | some m =>
      if outShape.prod = s.shape.prod * repeatSize then
        .ok (some (fun idx => m (unravel s.shape (ravel outShape idx / repeatSize))))
      else .error .value

/-- What `cube.interpolate` is asked for along a dimension. -/
inductive Target (K : Type)
  | value (x : K)  -- interpolate to a coordinate value
  | index (i : Nat)  -- keep the dimension

/-- `data.interpolate(coordinate_point_pairs, …)` (line 729): the dimensions in the order of the data, those of the pairs
with the new points. `interp` gives one value. -/
def interpolateCube (interp : Cube K V → List (Target K) → Option V) (data : Cube K V) (pairs : List (String × List K)) :
    Cube K V where
  dims := data.dims.map (fun d =>
    match pairs.find? (fun p => p.1 == d.name) with
    | some p => ⟨d.name, p.2⟩
    | none => d)
  get idx := interp data (List.zipWith (fun (d : Coord K) i =>
    match pairs.find? (fun p => p.1 == d.name) with
    | some p =>
      match p.2[i]? with
      | some x => .value x
      | none => .index i
    | none => .index i) data.dims idx)

/-- `output_coord_lookup[name]` (lines 734-737). -/
def lookupDim (dims : List (Coord K)) (name : String) : Option Nat :=
  if dims.any (fun c => c.name == name) then some (dims.findIdx (fun c => c.name == name)) else none

/-- `cube.transpose(order)` (line 738): dimension `k` of the result is dimension `order[k]`. -/
def transpose (c : Cube K V) (order : List Nat) : Cube K V where
  dims := order.filterMap (fun k => c.dims[k]?)
  get idx := c.get ((List.range c.dims.length).map (fun k => idx.getD (order.idxOf k) 0))

/-- `apply_mask_to_numpy_array` (utils.py:154-170) on the values. -/
def applyMask (get : List Nat → Option V) : Option (List Nat → Bool) → List Nat → Option V
  | none => get
  | some m => fun idx => if m idx then none else get idx

/-- `_iris_interpolate` (lines 716-747); `newCoords` are the dimension coordinates of the rebuilt sample cube. -/
def irisInterpolate (interp : Cube K V → List (Target K) → Option V) (outGrid shared : List NS) (data : Cube K V)
    (mask : Option (List Nat → Bool)) (newCoords : List (Coord K)) : Except Err (Cube K V) :=
  let pairs := List.zipWith (fun (x : NS) (c : Coord K) => (x.1, c.pts)) shared newCoords
  let out := interpolateCube interp data pairs
  match outGrid.mapM (fun x => lookupDim out.dims x.1) with
  | none => .error .key
  | some order =>
    let t := transpose out order
    .ok { t with get := applyMask t.get mask }

/-- `GriddedCollocator.collocate` (lines 601-690). `kernelOk`: the kernel is one for gridded data; `missing` is
`missing_data_for_missing_sample`. The result is the single cube of the returned list. -/
def collocate (interp : Cube K V → List (Target K) → Option V) (kernelOk missing : Bool) (s : Sample K) (data : Cube K V) :
    Except Err (Cube K V) :=
  if !kernelOk then .error .classNotFound
  else
    let (sh, extra, repeatSize) := classify s data.dims
    let shared := sortShared sh
    let outGrid := shared ++ extra
    let outShape := outGrid.map Prod.snd
    let newCoords := outGrid.filterMap (fun x => s.find x.1)
    if missing then
      match makeOutputMask s shared outShape repeatSize with
      | .error e => .error e
      | .ok mask => irisInterpolate interp outGrid shared data mask newCoords
    else irisInterpolate interp outGrid shared data none newCoords

end Cis.GridColloc
