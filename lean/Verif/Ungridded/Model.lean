import Verif.Coords.Model
import Verif.Hyper.Model
/-!
Model of the removal of points with missing coordinates from ungridded data (`_post_process`, ungridded_data.py:463-501 and
:862-887) and of what depends on it. Arrays are flattened; data values have a mask bit.
-/
namespace Cis.Ungridded
open Cis.Coords

/-- An element of a coordinate array: a number, a masked element, or a NaN. -/
inductive Cell (K : Type)
  | val (x : K)
  | masked
  | nan
  deriving DecidableEq

/-- The values of a coordinate; `object` if its dtype is `object`. -/
structure Vals (K : Type) where
  object : Bool
  cells : List (Cell K)
  deriving DecidableEq

variable {K V : Type}

/-- `getmaskarray(coord.data) | isnan(coord.data)`, the latter only for other dtypes than `object` (ungridded_data.py:476-479). -/
def bad (object : Bool) : Cell K → Bool
  | .val _ => false
  | .masked => true
  | .nan => !object

/-- An ungridded data object: `_data`, `_data_flattened`, `_coords`. -/
structure UG (K V : Type) where
  data : List (V × Bool)
  flat : Option (List (V × Bool))
  coords : List (Coord (Vals K))
  deriving DecidableEq

/-- `combined_mask` (ungridded_data.py:474-479) for `n` points. -/
def combinedMask (n : Nat) (coords : List (Coord (Vals K))) : List Bool :=
  coords.foldl (fun m c => List.zipWith (· || ·) m (c.payload.cells.map (bad c.payload.object))) (List.replicate n false)

/-- `numpy.ma.masked_array(x, mask=mask).compressed()`. -/
def compress {β : Type} (mask : List Bool) (x : List β) : List β :=
  ((x.zip mask).filter (fun p => !p.2)).map Prod.fst

/-- `coord.data = ...compressed()` (ungridded_data.py:487-488); an element that is masked is masked in the combined mask as well. -/
def compressCoord (mask : List Bool) (c : Coord (Vals K)) : Coord (Vals K) :=
  { c with payload := { c.payload with cells := compress mask c.payload.cells } }

/-- `UngriddedData._post_process` (ungridded_data.py:463-501) on loaded data; `none` is the ValueError of numpy for arrays of
different sizes. The cached flattened data are left as they are. -/
def postProcess (u : UG K V) : Option (UG K V) :=
  if ∀ c ∈ u.coords, c.payload.cells.length = u.data.length then
    let mask := combinedMask u.data.length u.coords
    if mask.any id then
      some { u with data := compress mask u.data, coords := u.coords.map (compressCoord mask) }
    else some u
  else none

/-- `UngriddedData(data, metadata, coords)` for an array (ungridded_data.py:193-197, 424-456). -/
def make (data : List (V × Bool)) (coords : List (Coord (Vals K))) : Option (UG K V) := postProcess ⟨data, none, coords⟩

/-- `data_flattened` (ungridded_data.py:338-345). -/
def dataFlattened (u : UG K V) : UG K V × List (V × Bool) :=
  match u.flat with
  | some f => (u, f)
  | none => ({ u with flat := some u.data }, u.data)

/-- `coord.data = cells` by the user, for coordinate number `i`. -/
def setCoord (u : UG K V) (i : Nat) (cells : List (Cell K)) : UG K V :=
  { u with coords := u.coords.modify i (fun c => { c with payload := { c.payload with cells := cells } }) }

/-- `get_all_points` (ungridded_data.py:456-459, 651-656): `coords_flattened` post-processes first, then `data_flattened` is read. -/
def getAllPoints (u : UG K V) : Option (UG K V × Hyper.UView (Cell K) V) :=
  (postProcess u).map (fun u' =>
    let r := dataFlattened u'
    let col := fun (n : Nat) => ((findStandardCoords u'.coords)[n]?.join).map (fun c => c.payload.cells)
    (r.1, ⟨col 0, col 1, col 2, col 3, col 4, some r.2⟩))

/-- `UngriddedCoordinates._post_process` (ungridded_data.py:862-887); `none` is an error of numpy (no coordinates or different sizes). -/
def coordsPostProcess (coords : List (Coord (Vals K))) : Option (List (Coord (Vals K))) :=
  match coords with
  | [] => none
  | c :: cs =>
    if ∀ d ∈ c :: cs, d.payload.cells.length = c.payload.cells.length then
      let mask := combinedMask c.payload.cells.length (c :: cs)
      if mask.any id then some ((c :: cs).map (compressCoord mask)) else some (c :: cs)
    else none

/-- `UngriddedCoordinates.size` (ungridded_data.py:898-903). -/
def coordsSize (coords : List (Coord (Vals K))) : Nat :=
  if coords.length > 1 then (coords.head?.map (fun c => c.payload.cells.length)).getD 0 else 0

/-! ### From points -/

/-- `Coord(values, Metadata(standard_name=name, ...))` (ungridded_data.py:697-706). -/
def stdCoord (name : String) (values : List K) : Coord (Vals K) :=
  ⟨some name, some "", some "", "", [], ⟨false, values.map .val⟩⟩

/-- The coordinate list of `from_points_array` (ungridded_data.py:697-707). -/
def pointCoords (lat lon pres alt time : Option (List K)) : List (Coord (Vals K)) :=
  (lat.map (stdCoord "latitude")).toList ++ (lon.map (stdCoord "longitude")).toList ++
    (pres.map (stdCoord "air_pressure")).toList ++ (alt.map (stdCoord "altitude")).toList ++
    (time.map (stdCoord "time")).toList

/-- `UngriddedData.from_points_array` (ungridded_data.py:675-709), for a non-empty list of points whose coordinates are all there
wherever the first point has them (so that no NaN arises). -/
def fromPoints (zero : V) (nanK : K) (ps : List (Hyper.HP K V)) : Option (UG K V) :=
  make ((Hyper.vals zero ps).map (fun v => (v, false)))
    (pointCoords (Hyper.column nanK Hyper.HP.lat ps) (Hyper.column nanK Hyper.HP.lon ps) (Hyper.column nanK Hyper.HP.pres ps)
      (Hyper.column nanK Hyper.HP.alt ps) (Hyper.column nanK Hyper.HP.time ps))

end Cis.Ungridded
