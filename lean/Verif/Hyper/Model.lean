import Verif.IndexIter.Model
import Verif.Geo.Model
import Mathlib.Algebra.Order.Field.Basic
import Mathlib.Data.List.Sort
/-!
Model of `HyperPoint` (data_io/hyperpoint.py) and of the views of data as points (data_io/hyperpoint_view.py).
-/
namespace Cis.Hyper

/-- A point: coordinates that are there or not, and a list of values. -/
structure HP (K V : Type) where
  lat : Option K
  lon : Option K
  alt : Option K
  pres : Option K
  time : Option K
  val : List V
  deriving DecidableEq

/-- The time argument: a number (standard time) or a datetime, `conv` being `convert_datetime_to_std_time`. -/
inductive TimeArg (D K : Type)
  | num (t : K)
  | datetime (d : D)

/-- The value argument: nothing, a number or a sequence. -/
inductive ValArg (V : Type)
  | none
  | scalar (v : V)
  | seq (vs : List V)

/-- An element of the list of values: a value, or (after `modified(val=[...])`) a list of values. -/
inductive Item (V : Type)
  | atom (v : V)
  | nested (vs : List V)
  deriving DecidableEq

section
variable {D K V : Type}

/-- The standard time of the argument (hyperpoint.py:35-37). -/
def TimeArg.std (conv : D → K) : TimeArg D K → K
  | .num t => t
  | .datetime d => conv d

/-- `HyperPoint(lat, lon, alt, pres, t, val)` (hyperpoint.py:20-43). -/
def make (conv : D → K) (lat lon alt pres : Option K) (t : Option (TimeArg D K)) (val : ValArg V) : HP K (Item V) where
  lat := lat
  lon := lon
  alt := alt
  pres := pres
  time := t.map (TimeArg.std conv)
  val := match val with
    | .none => []
    | .scalar v => [.atom v]
    | .seq vs => vs.map .atom

/-- `HyperPoint.modified` (hyperpoint.py:45-75). A time that is not a datetime is dropped; any value but the empty list is wrapped
in a list. -/
def modified (conv : D → K) (p : HP K (Item V)) (lat lon alt pres : Option K) (t : Option (TimeArg D K)) (val : ValArg V) :
    HP K (Item V) where
  lat := match lat with
    | some x => some x
    | none => p.lat
  lon := match lon with
    | some x => some x
    | none => p.lon
  alt := match alt with
    | some x => some x
    | none => p.alt
  pres := match pres with
    | some x => some x
    | none => p.pres
  time := match t with
    | some (.datetime d) => some (conv d)
    | some (.num _) => p.time
    | none => p.time
  val := match val with
    | .none => p.val
    | .scalar v => [.atom v]
    | .seq [] => []
    | .seq vs => [.nested vs]

/-- `get_coord_tuple` (hyperpoint.py:87-94): the coordinates that are there, as pairs of name and value in the order of the fields,
sorted (the names are distinct, so values are never compared). -/
def coordTuple (p : HP K V) : List (String × K) :=
  ([("latitude", p.lat), ("longitude", p.lon), ("altitude", p.alt), ("air_pressure", p.pres), ("time", p.time)].filterMap
    (fun x => x.2.map (fun y => (x.1, y)))).insertionSort (fun a b => a.1 ≤ b.1)

/-- `same_point_in_time` (hyperpoint.py:77-78). -/
def samePointInTime [DecidableEq K] (p q : HP K V) : Bool := p.time == q.time

/-- `same_point_in_space` (hyperpoint.py:80-82). -/
def samePointInSpace [DecidableEq K] (p q : HP K V) : Bool :=
  p.lat == q.lat && p.lon == q.lon && p.alt == q.alt && p.pres == q.pres

/-- `same_point_in_space_and_time` (hyperpoint.py:84-85). -/
def samePoint [DecidableEq K] (p q : HP K V) : Bool := samePointInSpace p q && samePointInTime p q

end

section
variable {K : Type} [Field K] [LinearOrder K]

/-- `time_sep` and `alt_sep` (hyperpoint.py:126-136) on the coordinates. -/
def absSep (a b : K) : K := |a - b|

/-- `pres_sep` (hyperpoint.py:138-145) on the coordinates. -/
def presSep (a b : K) : K := if a > b then a / b else b / a

/-- `comptime`, `compalt` (hyperpoint.py:102-120). -/
def compAbs (self p1 p2 : K) : Bool := decide (absSep self p1 > absSep self p2)

/-- `comppres` (hyperpoint.py:108-112). -/
def compPres (self p1 p2 : K) : Bool := decide (presSep self p1 > presSep self p2)

end

open Classical in
/-- `compdist` (hyperpoint.py:96-100), points given by latitude and longitude. -/
noncomputable def compDist (self p1 p2 : ℝ × ℝ) : Bool :=
  decide (Geo.utilsHaversine self.1 self.2 p1.1 p1.2 > Geo.utilsHaversine self.1 self.2 p2.1 p2.2)

/-! ### Lists of points -/

section
variable {K V : Type}

/-- `HyperPointList.vals` (hyperpoint.py:186-198): the first value, 0 if there is none. -/
def vals (zero : V) (ps : List (HP K V)) : List V := ps.map (fun p => p.val.headD zero)

/-- `latitudes`, `longitudes` and so on (hyperpoint.py:200-273): nothing if the first point has no such coordinate (IndexError,
here nothing, for no points); a missing coordinate of a later point becomes NaN. -/
def column (nan : K) (get : HP K V → Option K) (ps : List (HP K V)) : Option (List K) :=
  match ps with
  | [] => none
  | p :: _ => match get p with
    | none => none
    | some _ => some (ps.map (fun q => (get q).getD nan))

/-! ### Ungridded views -/

/-- `UngriddedHyperPointView` (hyperpoint_view.py:55-80): the five standard coordinates (flattened) and the values with mask. -/
structure UView (K V : Type) where
  lat : Option (List K)
  lon : Option (List K)
  alt : Option (List K)
  pres : Option (List K)
  time : Option (List K)
  data : Option (List (V × Bool))
  deriving DecidableEq

/-- `self.length = coords[0].size` (hyperpoint_view.py:70): AttributeError (`none`) if there is no latitude. -/
def UView.length (v : UView K V) : Option Nat := v.lat.map List.length

/-- A coordinate at an index: no value (`some none`) if the coordinate is not there, `none` is an IndexError. -/
def at? {β : Type} (c : Option (List β)) (i : Nat) : Option (Option β) :=
  match c with
  | none => some none
  | some l => l[i]?.map some

/-- `__getitem__` (hyperpoint_view.py:73-82) for an integer; `none` is an IndexError. -/
def UView.get (v : UView K V) (n : Nat) (item : Int) : Option (HP K (V × Bool)) :=
  if item < 0 ∨ (n : Int) ≤ item then none
  else do
    let la ← at? v.lat item.toNat
    let lo ← at? v.lon item.toNat
    let al ← at? v.alt item.toNat
    let pr ← at? v.pres item.toNat
    let ti ← at? v.time item.toNat
    let d ← at? v.data item.toNat
    pure ⟨la, lo, al, pr, ti, d.toList⟩

/-- `self.data is not None and self.data[idx] is np.ma.masked`. -/
def UView.maskedAt (v : UView K V) (i : Nat) : Bool :=
  match v.data with
  | none => false
  | some l => match l[i]? with
    | some x => x.2
    | none => false

/-- `iter_all_points` (hyperpoint_view.py:99-104), as a list. -/
def UView.iterAll (v : UView K V) (n : Nat) : List (Option (HP K (V × Bool))) :=
  (List.range n).map (fun (i : Nat) => v.get n i)

/-- `enumerate_non_masked_points` (hyperpoint_view.py:123-131). -/
def UView.enumNonMasked (v : UView K V) (n : Nat) : List (Nat × Option (HP K (V × Bool))) :=
  ((List.range n).filter (fun (i : Nat) => !v.maskedAt i)).map (fun (i : Nat) => (i, v.get n i))

/-- `iter_non_masked_points` (hyperpoint_view.py:114-121). -/
def UView.iterNonMasked (v : UView K V) (n : Nat) : List (Option (HP K (V × Bool))) :=
  ((List.range n).filter (fun (i : Nat) => !v.maskedAt i)).map (fun (i : Nat) => v.get n i)

/-- `__iter__` (hyperpoint_view.py:90-97). -/
def UView.iter (v : UView K V) (n : Nat) (nonMasked : Bool) : List (Option (HP K (V × Bool))) :=
  ((List.range n).filter (fun (i : Nat) => !(nonMasked && v.maskedAt i))).map (fun (i : Nat) => v.get n i)

/-! ### Gridded views -/

/-- A dimension of a cube: its dimension coordinate (standard name and points), if it has one, and its length. -/
structure GDim (K : Type) where
  size : Nat
  coord : Option (String × List K)

/-- `self.coords(dim_coords=True)`: the dimension coordinates in the order of the dimensions. -/
def dimCoords (dims : List (GDim K)) : List (String × List K) := dims.filterMap (fun d => d.coord)

/-- The inner loop of `GriddedData.find_standard_coords` (gridded_data.py:153-157): the first coordinate of this name, with its
position among the dimension coordinates. -/
def findStd (cs : List (String × List K)) (name : String) : Option (List K × Nat) :=
  (cs.zipIdx.find? (fun c => c.1.1 == name)).map (fun c => (c.1.2, c.2))

/-- `GriddedData.find_standard_coords` (gridded_data.py:143-160). -/
def findStandard (dims : List (GDim K)) : List (Option (List K × Nat)) :=
  ["latitude", "longitude", "altitude", "air_pressure", "time"].map (findStd (dimCoords dims))

/-- `GriddedHyperPointView` (hyperpoint_view.py:190-215): for each dimension the coordinate values and the number of the standard
coordinate; the values are a function of the index, `shape` is the shape of the data. -/
structure GView (K V : Type) where
  shape : List Nat
  coords : List (Option (List K × Nat))
  data : List Nat → V

/-- The loop of `__init__` (hyperpoint_view.py:207-210). -/
def fillCoords (std : List (Option (List K × Nat))) (n : Nat) : List (Option (List K × Nat)) :=
  std.zipIdx.foldl (fun acc sc => match sc.1 with
    | none => acc
    | some cd => acc.set cd.2 (some (cd.1, sc.2))) (List.replicate n none)

/-- The view of a cube (gridded_data.py:129-134). -/
def gview (dims : List (GDim K)) (data : List Nat → V) : GView K V :=
  ⟨dims.map GDim.size, fillCoords (findStandard dims) dims.length, data⟩

/-- The loop of `__getitem__` (hyperpoint_view.py:240-245): the five coordinates and the number of extra `None`s appended; `none` is
an IndexError. -/
def fillVals : List (Option (List K × Nat)) → List Nat → List (Option K) → Nat → Option (List (Option K) × Nat)
  | some (c, s) :: cs, i :: is, val, extra => match c[i]? with
    | some x => fillVals cs is (val.set s (some x)) extra
    | none => none
  | none :: cs, _ :: is, val, extra => fillVals cs is val (extra + 1)
  | [], _ :: _, _, _ => none
  | _, [], val, extra => some (val, extra)

/-- `__getitem__` (hyperpoint_view.py:217-248) for a complete tuple of indices. An extra `None` makes the call of `HyperPoint` fail
(TypeError, `none`). -/
def GView.get (v : GView K V) (idx : List Nat) : Option (HP K V) :=
  match fillVals v.coords idx (List.replicate 5 none) 0 with
  | some ([la, lo, al, pr, ti], 0) => some ⟨la, lo, al, pr, ti, [v.data idx]⟩
  | _ => none

/-- `np.unravel_index(item, shape)`: the index with this position; `none` is the ValueError, raised as IndexError. -/
def unravel (shape : List Nat) (item : Nat) : Option (List Nat) := (IndexIter.indexIterator shape)[item]?

/-- `__getitem__` for an integer (hyperpoint_view.py:233-238). -/
def GView.getFlat (v : GView K V) (item : Nat) : Option (HP K V) := (unravel v.shape item).bind v.get

/-- `iter_all_points` (hyperpoint_view.py:266-273). -/
def GView.iterAll (v : GView K V) : List (Option (HP K V)) := (IndexIter.indexIterator v.shape).map v.get

/-- `enumerate_non_masked_points` (hyperpoint_view.py:286-298); `masked` tells masked values. -/
def GView.enumNonMasked (v : GView K V) (masked : V → Bool) : List (Nat × Option (HP K V)) :=
  ((List.range (IndexIter.numIterations v.shape)).filter (fun (i : Nat) => match unravel v.shape i with
    | some idx => !masked (v.data idx)
    | none => true)).map (fun (i : Nat) => (i, v.getFlat i))

/-- The shape used by `__iter__` (hyperpoint_view.py:260): only coordinates that are there and have more than one value. -/
def GView.iterShape (v : GView K V) : List Nat :=
  v.coords.filterMap (fun c => match c with
    | some (l, _) => if l.length > 1 then some l.length else none
    | none => none)

/-- What `__iter__` (hyperpoint_view.py:256-264) indexes the view with, iterating over all points. -/
def GView.iterIndices (v : GView K V) : List (List Nat) := IndexIter.indexIterator v.iterShape

end

/-! ### Longitude range of views -/

section
variable {K : Type} [Field K] [LinearOrder K]

/-- `UngriddedHyperPointView.set_longitude_range` (hyperpoint_view.py:146-161) on one longitude. -/
def uShift (start l : K) : K :=
  let l1 := if l < start then l + 360 else l
  if l1 ≥ start + 360 then l1 - 360 else l1

/-- `GriddedHyperPointView.set_longitude_range` (hyperpoint_view.py:333-356) on one longitude. -/
def gShift (start l : K) : K :=
  if l < start then l + 360 else if l ≥ start + 360 then l - 360 else l

end

/-! ### `hyper_point` -/

/-- `UngriddedData.hyper_point(index)` (ungridded_data.py:595-606) and `UngriddedCoordinates.hyper_point` (:928-939), from the values
of the coordinates at the index: the arguments of `HyperPoint` as in the code. -/
def hyperPoint {K V : Type} (latitude longitude altitude airPressure time : K) (val : ValArg V) : HP K (Item V) :=
  make (D := Unit) (fun _ => latitude) (some latitude) (some longitude) (some altitude) (some time)
    (some (.num airPressure)) val

end Cis.Hyper
