import Mathlib.Algebra.Order.Floor.Defs
import Mathlib.Algebra.Order.Floor.Ring
import Mathlib.Algebra.Order.Field.Basic
import Mathlib.Data.List.Rotate
/-!
Model of the longitude functions: `fix_longitude_range` (utils.py:222-231), `set_longitude_range` of the two hyperpoint
views (hyperpoint_view.py:151-165, 335-357) and of `GriddedData` (gridded_data.py:188-253), and the choice of range made
before collocation (col_implementations.py:1098-1120).

Simplification: exact arithmetic.
-/
namespace Cis.Lon
variable {K : Type} [Field K] [LinearOrder K] [IsStrictOrderedRing K] [FloorRing K]

/-- numpy `x % y` for `y > 0`. -/
def pmod (x y : K) : K := x - y * (⌊x / y⌋ : ℤ)

/-- `iris.analysis.cartography.wrap_lons(lons, base, period)`: `((lons - base + period * 2) % period) + base`. -/
def wrapLons (lons : List K) (base period : K) : List K :=
  lons.map (fun lon => pmod (lon - base + period * 2) period + base)

/-- `fix_longitude_range(lons, range_start)` (utils.py:222-231). -/
def fixLongitudeRange (lons : List K) (rangeStart : K) : List K := wrapLons lons rangeStart 360

/-- `UngriddedHyperPointView.set_longitude_range` (hyperpoint_view.py:151-165) on the five coordinate arrays of the view
(latitude, longitude, altitude, pressure, time; `none` if absent). -/
def ungriddedSetRange (coords : Fin 5 → Option (List K)) (rangeStart : K) : Fin 5 → Option (List K) :=
  match coords 1 with
  | none => coords
  | some lons =>
    let rangeEnd := rangeStart + 360
    let lons1 := lons.map (fun l => if l < rangeStart then l + 360 else l)
    Function.update coords 1 (some (lons1.map (fun l => if l ≥ rangeEnd then l - 360 else l)))

/-- `GriddedHyperPointView.set_longitude_range` (hyperpoint_view.py:335-357): `coords` are the coordinate arrays by
dimension and `lonDim` is the dimension found for longitude (hyperpoint_view.py:359-372, 383-394). -/
def griddedViewSetRange {n : Nat} (coords : Fin n → List K) (lonDim : Option (Fin n)) (rangeStart : K) : Fin n → List K :=
  match lonDim with
  | none => coords
  | some d =>
    let rangeEnd := rangeStart + 360
    Function.update coords d ((coords d).map (fun lon =>
      if lon < rangeStart then lon + 360 else if lon ≥ rangeEnd then lon - 360 else lon))

/-- `np.searchsorted(a, v)` (side left) for an increasing array: the number of elements below `v`. -/
def searchsorted (a : List K) (v : K) : Nat := a.countP (fun x => decide (x < v))

/-- `np.roll(l, shift)` along one axis: element `i` moves to `(i + shift) mod n`. -/
def roll {D : Type} (l : List D) (shift : Int) : List D := l.rotate ((-shift) % (l.length : Int)).toNat

/-- A cube seen along its longitude dimension: the points of the coordinate, its bounds if any, and the slices of the data
array and of the auxiliary coordinates spanning longitude. -/
structure Grid (K D : Type) where
  points : List K
  bounds : Option (List (K × K))
  slices : List D

/-- `GriddedData.set_longitude_range` (gridded_data.py:188-253) along the longitude dimension. Every array is rolled along
that dimension only; the data and the auxiliary coordinates (lines 237-247) are rolled alike and form one slice here. -/
def griddedSetRange {D : Type} (g : Grid K D) (rangeStart : K) : Grid K D :=
  let n := g.points.length
  let idx1 := searchsorted g.points rangeStart
  let idx2 := searchsorted g.points (rangeStart + 360)
  if h : 0 < idx1 ∧ idx1 < n then
    let shift : Int := -(idx1 : Int)
    let lonMin := g.points[idx1]
    let rolled := roll g.points shift
    let flags := rolled.map (fun p => decide (p < lonMin))
    { points := rolled.map (fun p => if p < lonMin then p + 360 else p)
      bounds := g.bounds.map (fun b => (roll b shift).zipWith (fun b f => if f then (b.1 + 360, b.2 + 360) else b) flags)
      slices := roll g.slices shift }
  else if h : 0 < idx2 ∧ idx2 < n then
    let shift : Int := (n : Int) - idx2
    let lonMax := g.points[idx2]
    let rolled := roll g.points shift
    let flags := rolled.map (fun p => decide (p ≥ lonMax))
    { points := rolled.map (fun p => if p ≥ lonMax then p - 360 else p)
      bounds := g.bounds.map (fun b => (roll b shift).zipWith (fun b f => if f then (b.1 - 360, b.2 - 360) else b) flags)
      slices := roll g.slices shift }
  else g

/-- `_find_longitude_range` (col_implementations.py:1098-1110) for a non-empty longitude coordinate. -/
def findLongitudeRange (lons : List K) : K :=
  if lons.any (fun l => decide (l < 0)) then -180 else 0

/-- The two calls of `_fix_longitude_range` made before ungridded collocation (col_implementations.py:49-52): first the
sample, then the data, whose range is taken from the fixed sample. -/
def fixSampleAndData (sample data : List K) : List K × List K :=
  let sample' := fixLongitudeRange sample (findLongitudeRange sample)
  (sample', fixLongitudeRange data (findLongitudeRange sample'))

end Cis.Lon
