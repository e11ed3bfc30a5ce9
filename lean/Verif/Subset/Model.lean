import Verif.Lon.Model
import Mathlib.Data.Rat.Floor
/-!
Model of subsetting ungridded data (subsetting/subset.py). Ungridded data are one (flattened) array per coordinate and one of
values. Coordinates are known by their number; `lon`, `lat` are the numbers of the longitude and latitude. Times are numbers
(the conversion of times and limits to datetimes is order preserving). Coordinates hold no NaN (they are removed on loading).
-/
namespace Cis.Subset
open Cis.Lon

variable {V : Type}

/-- Ungridded data: coordinate arrays and values. -/
structure UData (V : Type) where
  coords : List (List ℚ)
  values : List V

/-- A boolean index `a[mask]`. -/
def select {α : Type} (mask : List Bool) (a : List α) : List α :=
  (a.zip mask).filterMap (fun p => if p.2 then some p.1 else none)

/-- `UngriddedData.__getitem__` (ungridded_data.py:534-547): every coordinate and the data are indexed. -/
def UData.select (mask : List Bool) (d : UData V) : UData V :=
  ⟨d.coords.map (Cis.Subset.select mask), Cis.Subset.select mask d.values⟩

/-- Limits of a coordinate: its number, start and stop. -/
structure Limit where
  coord : Nat
  start : ℚ
  stop : ℚ
deriving DecidableEq

/-- A shape: membership of (longitude, latitude) (shapely's `contains`), and its bounding box. -/
structure Shape where
  contains : ℚ → ℚ → Bool
  minX : ℚ
  minY : ℚ
  maxX : ℚ
  maxY : ℚ

/-- The new start of the longitude range, if the longitudes are to be converted (subset.py:247-267); `none` if not. `lons` is
not empty (else numpy's `min` raises). -/
def newRange (lons : List ℚ) (start stop : ℚ) : Option ℚ :=
  let dataBelowZero := lons.any (fun x => decide (x < 0))
  let dataAbove180 := lons.any (fun x => decide (x > 180))
  let limitsBelowZero := decide (start < 0) || decide (stop < 0)
  let limitsAbove180 := decide (start > 180) || decide (stop > 180)
  if dataBelowZero && !dataAbove180 then
    if limitsAbove180 && !limitsBelowZero then some 0 else none
  else if dataAbove180 && !dataBelowZero then
    if limitsBelowZero && !limitsAbove180 then some (-180) else none
  else none

/-- The longitude coordinate after the conversion (Coord.py:106-113). -/
def convertLons (lons : List ℚ) (start stop : ℚ) : List ℚ :=
  match newRange lons start stop with
  | some s => fixLongitudeRange lons s
  | none => lons

/-- `_create_data_for_subset` (subset.py:229-268) on the copied data. -/
def createData (lon : Option Nat) : List Limit → UData V → UData V
  | [], d => d
  | l :: t, d =>
    if some l.coord = lon then createData lon t ⟨d.coords.modify l.coord (fun c => convertLons c l.start l.stop), d.values⟩
    else createData lon t d

/-- The mask of one limit (subset.py:208-213). -/
def limitMask (d : UData V) (l : Limit) : List Bool :=
  (d.coords.getD l.coord []).map (fun x => decide (x ≤ l.stop) && decide (x ≥ l.start))

/-- The combined mask (subset.py:200-215). -/
def combinedMask (limits : List Limit) (d : UData V) : List Bool :=
  limits.foldl (fun m l => List.zipWith (· && ·) m (limitMask d l)) (List.replicate d.values.length true)

/-- Indexing with the points contained in the shape (subset.py:219-222, 271-284). -/
def shapeMask (lon lat : Nat) (s : Shape) (d : UData V) : List Bool :=
  List.zipWith s.contains (d.coords.getD lon []) (d.coords.getD lat [])

/-- The state of a constraint object (subset.py:85-91, 177-180): limits, the shape until it is popped, the cached mask and the
cached mask of the shape. -/
structure CState where
  limits : List Limit
  shape : Option Shape
  mask : Option (List Bool)
  shapeMask : Option (List Bool)

/-- `UngriddedSubsetConstraint.constrain` for a single data object (subset.py:196-227): `none` if no point is left. -/
def constrain (lon lat : Nat) (st : CState) (d : UData V) : CState × Option (UData V) :=
  let d1 := createData (some lon) st.limits d
  let mask := st.mask.getD (combinedMask st.limits d1)
  let d2 := d1.select mask
  match st.shape with
  | none => ({ st with mask := some mask }, if d2.values.length = 0 then none else some d2)
  | some s =>
    let sm := st.shapeMask.getD (Cis.Subset.shapeMask lon lat s d2)
    let d3 := d2.select sm
    ({ st with mask := some mask, shape := none, shapeMask := some sm }, if d3.values.length = 0 then none else some d3)

/-- For a list of data objects (subset.py:187-194), one after the other with the same constraint object; `none` is the
exception raised by appending `None` (common_data.py, `append`). -/
def constrainList (lon lat : Nat) : CState → List (UData V) → Option (List (UData V))
  | _, [] => some []
  | st, d :: t =>
    match (constrain lon lat st d).2 with
    | none => none
    | some r => (constrainList lon lat (constrain lon lat st d).1 t).map (r :: ·)

/-- The keyword arguments of `subset`: limits of a coordinate, either end optional, or a shape. -/
inductive Kw
  | limit (coord : Nat) (start stop : Option ℚ)
  | shape (s : Shape)

/-- Assignment to the dictionary of limits. -/
def assign (l : Limit) : List Limit → List Limit
  | [] => [l]
  | x :: t => if x.coord = l.coord then l :: t else x :: assign l t

/-- Minimum and maximum of the points. -/
def minOf (l : List ℚ) : ℚ := l.foldl min (l.headD 0)
def maxOf (l : List ℚ) : ℚ := l.foldl max (l.headD 0)

/-- The loop over the keyword arguments (subset.py:29-67). -/
def constraints (lon lat : Nat) (d : UData V) : List Kw → List Limit → Option Shape → List Limit × Option Shape
  | [], ls, sh => (ls, sh)
  | .shape s :: t, ls, _ =>
    constraints lon lat d t (assign ⟨lat, s.minY, s.maxY⟩ (assign ⟨lon, s.minX, s.maxX⟩ ls)) (some s)
  | .limit c lo hi :: t, ls, sh =>
    constraints lon lat d t (assign ⟨c, lo.getD (minOf (d.coords.getD c [])), hi.getD (maxOf (d.coords.getD c []))⟩ ls) sh

/-- `subset` of ungridded data (subset.py:12-76). -/
def subset (lon lat : Nat) (kws : List Kw) (d : UData V) : Option (UData V) :=
  (constrain lon lat ⟨(constraints lon lat d kws [] none).1, (constraints lon lat d kws [] none).2, none, none⟩ d).2

/-! ### Coordinates as objects in memory -/

/-- Memory: the arrays of the coordinate objects, by address; addresses from `next` on are free. -/
structure Heap where
  arr : Nat → List ℚ
  next : Nat

/-- `data.copy()` (ungridded_data.py:549-562, Coord.py:115-124): new coordinate objects with the same points. -/
def Heap.copy (h : Heap) (coords : List Nat) : Heap × List Nat :=
  (⟨fun a => if a < h.next then h.arr a else h.arr (coords.getD (a - h.next) 0), h.next + coords.length⟩,
    (List.range coords.length).map (· + h.next))

/-- `coord.set_longitude_range` as needed for the limits: changes the object (subset.py:255-267, Coord.py:106-113). -/
def Heap.convert (h : Heap) (a : Nat) (start stop : ℚ) : Heap :=
  { h with arr := Function.update h.arr a (convertLons (h.arr a) start stop) }

/-- `_create_data_for_subset` in memory: copy, then convert the longitude of the copy. -/
def createDataHeap (lon : Option Nat) (limits : List Limit) (h : Heap) (coords : List Nat) : Heap × List Nat :=
  (limits.foldl (fun h' l => if some l.coord = lon then h'.convert ((h.copy coords).2.getD l.coord 0) l.start l.stop else h')
    (h.copy coords).1, (h.copy coords).2)

end Cis.Subset
