import Verif.Agg.Props
import Mathlib.Tactic
set_option linter.unusedSectionVars false
set_option linter.unusedSimpArgs false
/-!
Model of collapsing gridded data: `GriddedData.collapsed`, `GriddedDataList.collapsed`, `_collapse_gridded`
(cis/data_io/gridded_data.py:307-316, 508-520, 614-652), `GriddedCollapsor` (cis/aggregation/gridded_collapsor.py:68-141) and the kernels
(cis/aggregation/collapse_kernels.py:8-87). Property C102. The coordinates that remain are in C41, the lookup of coordinates in C66.

Contract (Iris and numpy): `Cube.collapsed` applies a kernel, over the dimensions of the given coordinates, to the values that are not
missing, with the given weights; `area_weights` gives the areas of the cells, for data with latitudes and longitudes that both have bounds,
and raises ValueError for others. Numbers are rational; a standard deviation and a root mean square are given by their squares.
-/
namespace Cis.Collapse
open Cis.Agg

inductive Kernel
  | sum
  | mean
  /-- Root mean square (its square). -/
  | rms
  | min
  | max
  /-- `StddevKernel` (its square). -/
  | std
  /-- `CountKernel`. -/
  | count
  /-- Kernels of Iris that are not modelled: median, gmean, hmean, peak. -/
  | other (name : String)
deriving DecidableEq

inductive Err
  /-- KeyError: no kernel of this name. -/
  | key
  /-- ValueError. -/
  | value
  /-- AttributeError: no coordinate of this name. -/
  | attribute
deriving DecidableEq

structure Coordinate where
  name : String
  standardName : Option String
  dims : List Nat
  isDim : Bool
  bounds : Bool
deriving DecidableEq

structure Meta where
  varName : String
  standardName : Option String
  longName : Option String
  units : Option String
deriving DecidableEq

structure Cube where
  md : Meta
  shape : List Nat
  value : List Nat → Option ℚ
  coords : List Coordinate
  /-- The areas of the cells. -/
  area : List Nat → ℚ

/-- A variable of the result. -/
structure Out where
  md : Meta
  shape : List Nat
  value : List Nat → Option ℚ

/-- What is passed as `how`. -/
inductive How
  | absent
  | name (s : String)
  | aggregator (k : Kernel)
  | multi (ks : List Kernel)
  | other

/-- The dictionary `aggregation_kernels` (collapse_kernels.py:76-87). -/
def kernels : List (String × List Kernel) :=
  [("sum", [.sum]), ("median", [.other "median"]), ("gmean", [.other "gmean"]), ("hmean", [.other "hmean"]), ("peak", [.other "peak"]),
   ("RMS", [.rms]), ("mean", [.mean]), ("min", [.min]), ("max", [.max]), ("moments", [.mean, .std, .count])]

/-- The kernels that `how` stands for (gridded_data.py:631-640). -/
def resolve : How → Except Err (List Kernel)
  | .absent => .ok [.mean, .std, .count]
  | .name s => match kernels.find? (fun p => p.1 == (if s = "" then "moments" else s)) with
    | some p => .ok p.2
    | none => .error .key
  | .aggregator k => .ok [k]
  | .multi ks => .ok ks
  | .other => .error .value

/-- The instances of `iris.analysis.WeightedAggregator`. -/
def weighted : Kernel → Bool
  | .sum => true
  | .mean => true
  | .rms => true
  | _ => false

/-- A kernel on the values that are not missing, with their weights (contract; `StddevKernel` with `ddof=1`, `CountKernel`,
collapse_kernels.py:8-56). -/
def apply (iris : String → List ℚ → Option ℚ) (k : Kernel) (l : List (ℚ × ℚ)) : Option ℚ :=
  match k with
  | .sum => if l = [] then none else some (l.map (fun p => p.1 * p.2)).sum
  | .mean => if l = [] then none else some ((l.map (fun p => p.1 * p.2)).sum / (l.map Prod.fst).sum)
  | .rms => if l = [] then none else some ((l.map (fun p => p.1 * (p.2 * p.2))).sum / (l.map Prod.fst).sum)
  | .min => (l.map Prod.snd).min?
  | .max => (l.map Prod.snd).max?
  | .std =>
    if l.length < 2 then none
    else
      let m := (l.map Prod.snd).sum / l.length
      some ((l.map (fun p => (p.2 - m) * (p.2 - m))).sum / (l.length - 1))
  | .count => some l.length
  | .other n => iris n (l.map Prod.snd)

/-- `update_metadata` (collapse_kernels.py:16-27, 48-56); `str.format` writes None for no name. Iris keeps the other metadata. -/
def metadata (k : Kernel) (m : Meta) : Meta :=
  match k with
  | .std => ⟨m.varName ++ "_std_dev", none, some ("Corrected sample standard deviation of " ++ m.longName.getD "None"), m.units⟩
  | .count => ⟨m.varName ++ "_num_points", none, some ("Number of points used to calculate the mean of " ++ m.longName.getD "None"), none⟩
  | _ => m

/-- Bounds are guessed for the dimension coordinates with more than one point, in the data themselves (gridded_collapsor.py:124-132). -/
def guessBounds (c : Cube) : Cube :=
  { c with coords := c.coords.map (fun x =>
      if x.isDim ∧ (along x.dims c.shape).all (fun n => decide (1 < n)) then { x with bounds := true } else x) }

/-- `area_weights` (contract). -/
def areaWeights (c : Cube) : Except Err (List Nat → ℚ) :=
  match c.coords.find? (fun x => x.standardName == some "latitude"), c.coords.find? (fun x => x.standardName == some "longitude") with
  | some lat, some lon => if lat.bounds ∧ lon.bounds then .ok c.area else .error .value
  | _, _ => .error .value

/-- The cells that are collapsed into one. -/
def group (c : Cube) (dims : List Nat) (k : List Nat) : List (List Nat) :=
  (allIdx c.shape).filter (fun i => along (keptAxes c.shape.length dims) i = k)

/-- `_gridded_full_collapse` (gridded_collapsor.py:68-118). -/
def fullCollapse (iris : String → List ℚ → Option ℚ) (c : Cube) (crds : List Coordinate) (k : Kernel) : Except Err Out :=
  let dims := crds.flatMap (fun x => x.dims)
  match (if weighted k ∧ crds.any (fun x => x.standardName == some "latitude") then areaWeights c else .ok (fun _ => 1)) with
  | .error e => .error e
  | .ok w => .ok ⟨metadata k c.md, along (keptAxes c.shape.length dims) c.shape,
      fun r => apply iris k ((group c dims r).filterMap (fun i => (c.value i).map (fun x => (w i, x))))⟩

/-- One kernel after the other (gridded_collapsor.py:134-141). -/
def eachKernel (iris : String → List ℚ → Option ℚ) (c : Cube) (crds : List Coordinate) : List Kernel → Except Err (List Out)
  | [] => .ok []
  | k :: t => match fullCollapse iris c crds k with
    | .error e => .error e
    | .ok o => match eachKernel iris c crds t with
      | .error e => .error e
      | .ok l => .ok (o :: l)

/-- `_get_coord` on each of the given names (common_data.py:207-222, simplified to names and standard names): `none` stands for the
AttributeError met later when there is no such coordinate. -/
def lookup (c : Cube) (names : List String) : Option (List Coordinate) :=
  names.mapM (fun n => c.coords.find? (fun x => x.name == n || x.standardName == some n))

/-- `GriddedData.collapsed` (gridded_data.py:307-316, 614-652): the result, and the data given as they are afterwards. -/
def collapsed (iris : String → List ℚ → Option ℚ) (c : Cube) (names : List String) (how : How) : Except Err (List Out) × Cube :=
  match resolve how with
  | .error e => (.error e, c)
  | .ok ks =>
    let c' := guessBounds c
    match lookup c' names with
    | none => (.error .attribute, c')
    | some crds => (eachKernel iris c' crds ks, c')

/-- `GriddedDataList.collapsed` (gridded_data.py:508-520). -/
def collapsedList (iris : String → List ℚ → Option ℚ) (names : List String) (how : How) : List Cube → Except Err (List Out)
  | [] => .ok []
  | c :: t => match (collapsed iris c names how).1 with
    | .error e => .error e
    | .ok a => match collapsedList iris names how t with
      | .error e => .error e
      | .ok b => .ok (a ++ b)

/-! ### Specification -/

/-- Two cells of the data that differ in collapsed dimensions only. -/
def Spec.SameCell (ndim : Nat) (dims : List Nat) (i j : List Nat) : Prop := ∀ a < ndim, a ∉ dims → i.getD a 0 = j.getD a 0

instance (ndim : Nat) (dims : List Nat) (i j : List Nat) : Decidable (Spec.SameCell ndim dims i j) := by
  unfold Spec.SameCell; infer_instance

/-- The cells with a value among those collapsed together with `j`. -/
def Spec.valid (c : Cube) (dims : List Nat) (j : List Nat) : List (List Nat) :=
  (allIdx c.shape).filter (fun i => decide (Spec.SameCell c.shape.length dims i j) && (c.value i).isSome)

/-- The value of a cell that has one. -/
def Spec.val (c : Cube) (i : List Nat) : ℚ := (c.value i).getD 0

/-- What is left of an index when dimensions are collapsed. -/
def Spec.rest (c : Cube) (dims : List Nat) (j : List Nat) : List Nat :=
  ((List.range c.shape.length).filter (fun a => decide (a ∉ dims))).map (fun a => j.getD a 0)

/-- A variable that has been collapsed, asked by the indices of the data. -/
def Spec.at' (c : Cube) (dims : List Nat) (o : Out) (j : List Nat) : Option ℚ := o.value (Spec.rest c dims j)

/-- The dimensions of the coordinates of some names. -/
def Spec.dims (c : Cube) (names : List String) : List Nat :=
  names.flatMap (fun n => ((c.coords.find? (fun x => x.name == n || x.standardName == some n)).map (fun x => x.dims)).getD [])

/-- One of the named coordinates is the latitude. -/
def Spec.overLatitude (c : Cube) (names : List String) : Prop :=
  ∃ n ∈ names, ∃ x, c.coords.find? (fun x => x.name == n || x.standardName == some n) = some x ∧ x.standardName = some "latitude"

/-- All named coordinates are there. -/
def Spec.Found (c : Cube) (names : List String) : Prop :=
  ∀ n ∈ names, (c.coords.find? (fun x => x.name == n || x.standardName == some n)).isSome

end Cis.Collapse
