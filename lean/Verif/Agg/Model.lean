import Verif.DataIndex.Model
import Mathlib.Data.Rat.Floor
import Mathlib.Order.WithBot
import Mathlib.Data.List.Sort
/-!
Model of ungridded aggregation (aggregation/ungridded_aggregator.py) and of the renumbering of dimensions when gridded data
are collapsed (aggregation/gridded_collapsor.py). Numbers are rational; bounds of collapsed coordinates are infinite.
-/
namespace Cis.Agg
open Cis.DataIndex

/-- Numbers with infinities (the bounds of a fully collapsed coordinate). -/
abbrev Ext := WithBot (WithTop ℚ)

/-- A finite number. -/
def fin (x : ℚ) : Ext := ((x : WithTop ℚ) : Ext)

/-- `np.arange(start, stop, step)`: `ceil((stop - start) / step)` values. -/
def arange (start stop step : ℚ) : List ℚ :=
  (List.range ⌈(stop - start) / step⌉.toNat).map (fun (i : Nat) => start + (i : ℚ) * step)

/-- `aggregation_grid_array` (ungridded_aggregator.py:142-149) for numbers. -/
def gridArray (start stop delta : ℚ) : List ℚ := arange (start + delta / 2) (stop + delta / 2) delta

/-- `DimCoord.guess_bounds()` of iris: cell boundaries half way between the points, the outer ones by the outer differences.
(The clipping of latitudes at the poles is left out.) -/
def guessBounds (p : List ℚ) : List (ℚ × ℚ) :=
  let d := List.zipWith (fun b a => b - a) p.tail p
  let d' := d.headD 0 :: d ++ [d.getLastD 0]
  List.zipWith (fun (x : ℚ) (ab : ℚ × ℚ) => (x - ab.1 * (1 / 2), x + ab.2 * (1 / 2))) p (d'.zip d'.tail)

/-- What is asked for a coordinate: a grid (start, stop, step), or nothing. -/
abbrev Req := Option (ℚ × ℚ × ℚ)

/-- The bounds of a partially collapsed coordinate (ungridded_aggregator.py:101-120). -/
def partialBounds (start stop delta : ℚ) : List (ℚ × ℚ) :=
  if (gridArray start stop delta).length = 1 then [(start, stop)] else guessBounds (gridArray start stop delta)

/-- The new coordinate (ungridded_aggregator.py:86-120): infinite bounds if no grid was asked for. `centre` is the middle of
the data. -/
def makeCoord (centre : ℚ) : Req → Coord Ext
  | none => ⟨[fin centre], [(⊥, ((⊤ : WithTop ℚ) : Ext))]⟩
  | some (s, e, d) => ⟨(gridArray s e d).map fin, (partialBounds s e d).map (fun b => (fin b.1, fin b.2))⟩

/-- A coordinate of the data: what is asked for it, the middle, the values of the points. -/
structure Col where
  req : Req
  centre : ℚ
  val : Nat → ℚ

/-- The dimensions of the grid with the coordinates of the data. -/
def dims (cols : List Col) : List (Dim Ext) := cols.map (fun c => (makeCoord c.centre c.req, fun p => fin (c.val p)))

/-- One step of the loop: the kernel's value is stored in the cell; `none` is the ValueError of the kernel, which is ignored
(col_implementations.py:838-846). -/
def setCell {β : Type} (kernel : List ℚ → Option β) (vals : Nat → ℚ) (out : List Nat → Option β) (s : List Int × List Nat) :
    List Nat → Option β :=
  match kernel (s.2.map vals) with
  | none => out
  | some v => fun c => if c.map Int.ofNat = s.1 then some v else out c

/-- `UngriddedAggregator.aggregate` (ungridded_aggregator.py:12-57) with `GeneralGriddedCollocator` (col_implementations.py:
774-900) and `BinnedCubeCellOnlyConstraint.get_iterator_for_data_only` (1019-1047), `missing_data_for_missing_sample` being
false: the value of every cell, `none` if missing. `order` is the result of the sort. The outer `none` is an IndexError. -/
def aggregate {β : Type} (kernel : List ℚ → Option β) (cols : List Col) (masked : Nat → Bool) (vals : Nat → ℚ)
    (order : List Nat) : Option (List Nat → Option β) :=
  (sliceIterator (dims cols) masked order).map (fun slices => slices.foldl (setCell kernel vals) (fun _ => none))

/-- `GeneralGriddedCollocator.collocate` (col_implementations.py:774-900) onto any grid (`ds`: its coordinates used, with the
values of the data points), with `BinnedCubeCellOnlyConstraint.get_iterator_for_data_only` (1019-1047) when
`missing_data_for_missing_sample` is true: cells of the sample that are missing are left out. `sampleMissing` is the lookup of
the sample at the (remapped) index. -/
def binOnto {K : Type} [LinearOrder K] {β : Type} (kernel : List ℚ → Option β) (ds : List (Dim K)) (masked : Nat → Bool)
    (vals : Nat → ℚ) (order : List Nat) (sampleMissing : List Nat → Bool) : Option (List Nat → Option β) :=
  (sliceIterator ds masked order).map (fun slices =>
    (slices.filter (fun s => !sampleMissing (s.1.map Int.toNat))).foldl (setCell kernel vals) (fun _ => none))

/-! ### Gridded collapse -/

/-- `_calc_new_dims` (gridded_collapsor.py:38-58). -/
def calcNewDims (coordDims collapse : List Nat) : List Int :=
  (coordDims.filter (fun d => !collapse.contains d)).map
    (fun (d : Nat) => collapse.foldl (fun (n : Int) (dc : Nat) => if d > dc then n - 1 else n) (d : Int))

/-- All indices of an array. -/
def allIdx : List Nat → List (List Nat)
  | [] => [[]]
  | n :: t => (List.range n).flatMap (fun i => (allIdx t).map (i :: ·))

/-- The entries of an index along some axes. -/
def along (axes : List Nat) (idx : List Nat) : List Nat := axes.map (fun a => idx.getD a 0)

/-- The axes that are kept, in increasing order. -/
def keptAxes (ndim : Nat) (collapse : List Nat) : List Nat := (List.range ndim).filter (fun a => !collapse.contains a)

/-- The mean of an array over some of its axes, at an index of the remaining ones. -/
def meanOver (shape : List Nat) (pts : List Nat → ℚ) (collapse : List Nat) (r : List Nat) : ℚ :=
  let sel := (allIdx shape).filter (fun idx => along (keptAxes shape.length collapse) idx = r)
  (sel.map pts).sum / sel.length

/-- `_partially_collapse_multidimensional_coord` (gridded_collapsor.py:17-36): the dimensions of the *cube* that are collapsed
are used as axes of the coordinate. The result is its shape and points; `none` is the IndexError of `coord.shape[dim]`. -/
def partialCollapse (shape : List Nat) (pts : List Nat → ℚ) (collapse : List Nat) : Option (List Nat × (List Nat → ℚ)) :=
  if collapse.any (fun d => decide (d ≥ shape.length)) then none
  else some (along (keptAxes shape.length collapse) shape, meanOver shape pts collapse)

/-! ### The map between coordinates -/

/-- An entry of the map: the number of the standard coordinate, of the coordinate of the grid, and of the output dimension. -/
structure MapEntry where
  hpi : Nat
  ci : Nat
  shi : Nat
deriving DecidableEq

/-- The loop of `_find_standard_coords` (col_implementations.py:1082-1095) over the standard names from number `hpi` on; `coords`
are the standard names of the coordinates of the grid (at most one for each name, all of them dimension coordinates). -/
def findStandardCoords (mask : Nat → Bool) (coords : List (Option Nat)) : List Nat → Nat → List MapEntry
  | [], _ => []
  | hpi :: t, shi =>
    if mask hpi then
      match coords.findIdx? (fun c => decide (c = some hpi)) with
      | some ci => ⟨hpi, ci, shi⟩ :: findStandardCoords mask coords t (shi + 1)
      | none => findStandardCoords mask coords t shi
    else findStandardCoords mask coords t shi

/-- `make_coord_map` (col_implementations.py:1050-1067): there are five standard names. -/
def coordMap (mask : Nat → Bool) (coords : List (Option Nat)) : List MapEntry := findStandardCoords mask coords (List.range 5) 0

/-- `sorted(coord_map, key=lambda x: x[1])`. -/
def sortByCi (m : List MapEntry) : List MapEntry := m.insertionSort (fun a b => a.ci ≤ b.ci)

/-- `transpose_order` (col_implementations.py:874-875). -/
def transposeOrder (m : List MapEntry) : List Nat := (sortByCi m).map MapEntry.shi

/-- The numbers of the coordinates of the output after transposing (col_implementations.py:806-818, 858, 876): dimension `k`
is the old dimension `transposeOrder[k]`. -/
def outputCoords (m : List MapEntry) : List (Option Nat) := (transposeOrder m).map (fun shi => (m[shi]?).map MapEntry.ci)

/-- `remapped_indices` (col_implementations.py:1038). -/
def remapped (m : List MapEntry) (out : List Nat) : List Nat := (transposeOrder m).map (fun shi => out.getD shi 0)

end Cis.Agg
