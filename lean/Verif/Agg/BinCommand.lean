import Verif.Agg.Collapse
import Verif.Agg.Clip
import Verif.Lon.Props
import Verif.Colloc.Command
import Verif.Interp.Command
set_option linter.unusedSectionVars false
set_option linter.unusedSimpArgs false

/-!
# `cis col` of points onto a grid: from the text of the options to the values of the cells

The plan that the options make (C178) carried out by the collocator (C04, C40, C63, C64) for a list of variables: the map between the coordinates, guessed
bounds, the longitudes of the data, the cells, the statistic, and the order of the dimensions of the result. Times are numbers of days.
-/
namespace Cis.BinCmd
open Cis.Str
open Cis.ColOpts hiding Err
open Cis.Agg Cis.DataIndex

/-! ### Model -/

/-- A one-dimensional coordinate of the sample: whether it is the coordinate of a dimension, the number of its standard name among those of a `HyperPoint`
(hyperpoint.py: latitude, longitude, altitude, air pressure, time; `none` for any other name), points and bounds. -/
structure SCoord where
  dim : Bool
  std : Option Nat
  points : List ℚ
  bounds : Option (List (ℚ × ℚ))

/-- A gridded sample: `cube.coords()`, the coordinates of the dimensions first, in their order, and where its data are masked. -/
structure Sample where
  coords : List SCoord
  missing : List Nat → Bool

/-- A variable to be collocated: its metadata, the standard coordinates it has and its values, `none` for a masked one. -/
structure Var where
  names : Names
  coord : Fin 5 → Option (List ℚ)
  vals : List (Option ℚ)

inductive Err
  | options (e : ColOpts.Err)
  | refused     -- UserPrintableException
  | value       -- ValueError of `guess_bounds` for a coordinate with fewer than two points
  | index       -- IndexError: no data
  | notModelled
deriving DecidableEq

/-- The standard name if it is that of the coordinate of a dimension: `cube.coords(standard_name=name, dim_coords=True)` (col_implementations.py:1086). -/
def dimName (c : SCoord) : Option Nat := if c.dim then c.std else none

/-- `coordinate_mask` (col_implementations.py:1062). -/
def has (v : Var) (h : Nat) : Bool := if hh : h < 5 then (v.coord ⟨h, hh⟩).isSome else false

/-- `make_coord_map` (col_implementations.py:1050-1095). -/
def mapOf (s : Sample) (v : Var) : List MapEntry := coordMap (has v) (s.coords.map dimName)

/-- `coord.guess_bounds()` if the coordinate has no bounds (col_implementations.py:811-813); `none` is the ValueError of iris. For
longitudes marked as circular iris takes the outer differences across 360 degrees, which for evenly spaced global grids is the same; this is left out. -/
def boundsOf (c : SCoord) : Option (List (ℚ × ℚ)) :=
  match c.bounds with
  | some b => some b
  | none => if c.points.length < 2 then none else some (if c.std = some 0 then guessLatBounds c.points else guessBounds c.points)

/-- `_find_longitude_range` (col_implementations.py:1098-1110): the last coordinate called longitude counts. -/
def lonStart (coords : List SCoord) : Option ℚ :=
  coords.foldl (fun low c => if c.std = some 1 then some (Lon.findLongitudeRange c.points) else low) none

/-- `_fix_longitude_range` (col_implementations.py:1113-1120). -/
def moved (s : Sample) (v : Var) : Fin 5 → Option (List ℚ) :=
  match lonStart s.coords with
  | none => v.coord
  | some st => Lon.ungriddedSetRange v.coord st

/-- The coordinate values of the points. -/
def column (s : Sample) (v : Var) (h : Nat) (p : Nat) : ℚ :=
  if hh : h < 5 then ((moved s v ⟨h, hh⟩).getD []).getD p 0 else 0

/-- The coordinates of the map with their bounds (col_implementations.py:805-816). -/
def dimsOf (s : Sample) (v : Var) : Option (List (Dim ℚ)) :=
  (mapOf s v).mapM (fun e => (s.coords[e.ci]?).bind (fun c => (boundsOf c).map (fun b => (⟨c.points, b⟩, column s v e.hpi))))

/-- `kernel.get_value_for_data_only` (col_implementations.py:365-484). -/
noncomputable def stat (k : Colloc.Kernel) (l : List ℚ) : Option (List (Option ℝ)) :=
  Colloc.getValue k [] [] ⟨0, 0, 0, 0, 0⟩ (l.map (fun x : ℚ => ⟨⟨0, 0, 0, 0, 0⟩, (x : ℝ)⟩))

/-- The kernels that have `get_value_for_data_only`. -/
def dataOnly (k : Colloc.Kernel) : Bool :=
  match k with
  | .mean => true | .stddev => true | .min => true | .max => true | .sum => true | .moments => true
  | _ => false

/-- `cube.transpose(transpose_order)` (col_implementations.py:888-891): the index before transposing. -/
def back (m : List MapEntry) (idx : List Nat) : List Nat := (List.range m.length).map (fun shi => idx.getD ((transposeOrder m).idxOf shi) 0)

/-- A result: which coordinates of the sample its dimensions have, and its values. -/
structure Cube where
  coords : List (Option Nat)
  cell : List Nat → Option ℝ

/-- `GeneralGriddedCollocator.collocate` for one variable (col_implementations.py:788-896) with `BinnedCubeCellOnlyConstraint`; `sort` is `np.argsort`. -/
noncomputable def binVar (sort : Nat → (Nat → Int) → List Nat) (p : Plan) (kname : Str) (k : Colloc.Kernel) (s : Sample) (v : Var) : Except Err (List (Out × Cube)) :=
  if p.missing ∧ (mapOf s v).length ≠ s.coords.length then .error .refused
  else
    match dimsOf s v with
    | none => .error .value
    | some ds =>
      let masked := fun (i : Nat) => ((v.vals[i]?).join).isNone
      match binOnto (stat k) ds masked (fun (i : Nat) => ((v.vals[i]?).join).getD 0) (sort v.vals.length (cellNumber ds masked))
          (fun c => p.missing && s.missing (remapped (mapOf s v) c)) with
      | none => .error .index
      | some out => .ok ((details kname (override p v.names)).zipIdx.map (fun d =>
          (⟨d.1, some p.fill⟩, ⟨outputCoords (mapOf s v), fun idx => ((out (back (mapOf s v) idx)).bind (fun r => r[d.2]?)).join⟩)))

/-- The variables one by one (col_implementations.py:779-786). -/
noncomputable def eachVar (sort : Nat → (Nat → Int) → List Nat) (p : Plan) (kname : Str) (k : Colloc.Kernel) (s : Sample) : List Var → Except Err (List (Out × Cube))
  | [] => .ok []
  | v :: t =>
    match binVar sort p kname k s v with
    | .error e => .error e
    | .ok r =>
      match eachVar sort p kname k s t with
      | .error e => .error e
      | .ok rs => .ok (r ++ rs)

/-- `col_cmd` (cis_main.py:65-99) up to the save, for ungridded data and a gridded sample. `sampleVar`: a variable of the sample is given. -/
noncomputable def run (num : Str → Option ℚ) (kernels : List Str) (sort : Nat → (Nat → Int) → List Nat) (sampleVar : Bool) (col kern : Option (Str × Opts))
    (s : Sample) (vars : List Var) : Except Err (List (Out × Cube)) :=
  match colCommand num kernels sampleVar true false col kern with
  | .error e => .error (.options e)
  | .ok p =>
    match p.work with
    | .binGrid kname =>
      match ColCmd.kernelNamed kname with
      | none => .error .notModelled
      | some k => if dataOnly k then eachVar sort p kname k s vars else .error .notModelled
    | _ => .error .notModelled

/-! ### Specification -/

/-- The edge before cell `i`: half way between the points, and at the ends half a difference outside. -/
def Spec.edge (p : List ℚ) (i : Nat) : ℚ :=
  if i = 0 then p.getD 0 0 - (p.getD 1 0 - p.getD 0 0) / 2
  else if i = p.length then p.getD (i - 1) 0 + (p.getD (i - 1) 0 - p.getD (i - 2) 0) / 2
  else (p.getD (i - 1) 0 + p.getD i 0) / 2

/-- Latitudes end at the poles. -/
def Spec.cut (c : SCoord) (x : ℚ) : ℚ := if c.std = some 0 ∧ ∀ y ∈ c.points, -90 ≤ y ∧ y ≤ 90 then max (-90) (min 90 x) else x

/-- The cell `i` of a coordinate: its bounds, or what is nearest to its point. -/
def Spec.Cell (c : SCoord) (i : Nat) (lo hi : ℚ) : Prop :=
  match c.bounds with
  | some b => b[i]? = some (lo, hi)
  | none => i < c.points.length ∧ lo = Spec.cut c (Spec.edge c.points i) ∧ hi = Spec.cut c (Spec.edge c.points (i + 1))

/-- The data have the standard coordinate with this number. -/
def Spec.Has (v : Var) (h : Nat) : Prop := ∃ hh : h < 5, (v.coord ⟨h, hh⟩).isSome

/-- The coordinate is that of a dimension and the data have it too. -/
def Spec.Shared (v : Var) (c : SCoord) : Prop := c.dim = true ∧ ∃ h, c.std = some h ∧ Spec.Has v h

/-- The numbers of the coordinates of the dimensions of the sample that the data have too, in the order of the sample. -/
noncomputable def Spec.used (s : Sample) (v : Var) : List Nat :=
  open Classical in (List.range s.coords.length).filter (fun i => decide (∃ c, s.coords[i]? = some c ∧ Spec.Shared v c))

/-- The value of the coordinate of a point lies in cell `i`; longitudes are angles. -/
def Spec.In (v : Var) (c : SCoord) (i : Nat) (p : Nat) : Prop :=
  ∃ (h : Fin 5) (l : List ℚ) (x lo hi : ℚ), c.std = some h.1 ∧ v.coord h = some l ∧ l[p]? = some x ∧ Spec.Cell c i lo hi ∧
    if h = 1 then ∃ n : ℤ, lo ≤ x + 360 * n ∧ x + 360 * n < hi else lo ≤ x ∧ x < hi

/-- The point lies in the cell of the result with this index. -/
def Spec.Inside (s : Sample) (v : Var) (idx : List Nat) (p : Nat) : Prop :=
  List.Forall₂ (fun ci i => ∃ c, s.coords[ci]? = some c ∧ Spec.In v c i p) (Spec.used s v) idx

/-- The valid values of the points in the cell. -/
noncomputable def Spec.values (s : Sample) (v : Var) (idx : List Nat) : List ℝ :=
  open Classical in ((List.range v.vals.length).filter (fun p => decide (Spec.Inside s v idx p))).filterMap (fun (p : Nat) => ((v.vals[p]?).join).map (fun x : ℚ => (x : ℝ)))

/-- Whether missing values of the sample matter: what the option says, and otherwise whether a variable of the sample is given. -/
def Spec.Matter (l : Opts) (sampleVar m : Bool) : Prop :=
  ((∀ v, (kMissing, v) ∉ l) → m = sampleVar) ∧ ((kMissing, none) ∈ l → m = true) ∧
    ∀ v, (kMissing, some v) ∈ l → (m = true ↔ v.map Char.toLower = "true".toList)

/-- A coordinate whose cells follow each other upwards. -/
structure Spec.Upwards (c : SCoord) : Prop where
  points : c.points.Pairwise (· < ·)
  guess : c.bounds = none → 2 ≤ c.points.length
  size : ∀ b, c.bounds = some b → b.length = c.points.length ∧ b ≠ []
  lt : ∀ b, c.bounds = some b → ∀ x ∈ b, x.1 < x.2
  next : ∀ b, c.bounds = some b → ∀ (i : Nat) (x y : ℚ × ℚ), b[i]? = some x → b[i + 1]? = some y → x.2 = y.1

/-- The cells of longitudes lie between 0 and 360, or between -180 and 180 if some of the points are negative. -/
def Spec.Convention (c : SCoord) : Prop :=
  ∀ i lo hi, Spec.Cell c i lo hi → if ∃ x ∈ c.points, x < 0 then -180 ≤ lo ∧ hi ≤ 180 else 0 ≤ lo ∧ hi ≤ 360

/-- Sample and data for which the result is as specified. -/
structure Spec.Good (s : Sample) (v : Var) : Prop where
  /-- no two coordinates have the same standard name -/
  different : (s.coords.map SCoord.std).Pairwise (fun a b => a = b → a = none)
  shared : ∃ c ∈ s.coords, Spec.Shared v c
  upwards : ∀ c ∈ s.coords, Spec.Shared v c → Spec.Upwards c
  convention : ∀ c ∈ s.coords, Spec.Shared v c → c.std = some 1 → Spec.Convention c
  points : v.vals ≠ []
  size : ∀ h l, v.coord h = some l → l.length = v.vals.length
  longitudes : ∀ l, v.coord 1 = some l → ∀ x ∈ l, -180 ≤ x ∧ x < 360

/-! ### Proofs: the cells -/

theorem getD_eq {p : List ℚ} {j : Nat} (h : j < p.length) : p[j]? = some (p.getD j 0) := by
  rw [List.getD_eq_getElem?_getD, List.getElem?_eq_getElem h]; rfl

theorem getD_elem {p : List ℚ} {j : Nat} (h : j < p.length) : p.getD j 0 = p[j] := by
  rw [List.getD_eq_getElem?_getD, List.getElem?_eq_getElem h]; rfl

theorem guess_getElem (p : List ℚ) (h2 : 2 ≤ p.length) (i : Nat) :
    (guessBounds p)[i]? = if i < p.length then some (Spec.edge p i, Spec.edge p (i + 1)) else none := by
  have hd : ∀ j : Nat, (List.zipWith (fun b a : ℚ => b - a) p.tail p)[j]? = if j + 1 < p.length then some (p.getD (j + 1) 0 - p.getD j 0) else none := by
    intro j
    rw [List.getElem?_zipWith]
    by_cases hj : j + 1 < p.length
    · rw [if_pos hj, List.getElem?_tail, getD_eq hj, getD_eq (show j < p.length by omega)]
    · rw [if_neg hj, List.getElem?_tail, List.getElem?_eq_none (by omega)]
  have hl : (List.zipWith (fun b a : ℚ => b - a) p.tail p).length = p.length - 1 := by simp
  have hhead : (List.zipWith (fun b a : ℚ => b - a) p.tail p).headD 0 = p.getD 1 0 - p.getD 0 0 := by
    rw [List.headD_eq_head?_getD, List.head?_eq_getElem?, hd, if_pos (by omega)]; rfl
  have hlast : (List.zipWith (fun b a : ℚ => b - a) p.tail p).getLastD 0 = p.getD (p.length - 1) 0 - p.getD (p.length - 2) 0 := by
    rw [List.getLastD_eq_getLast?, List.getLast?_eq_getElem?, hd, hl, if_pos (by omega)]
    rw [show p.length - 1 - 1 + 1 = p.length - 1 by omega, show p.length - 1 - 1 = p.length - 2 by omega]; rfl
  -- twice the distance from the point to the edge
  have hd' : ∀ j : Nat, j ≤ p.length → ((List.zipWith (fun b a : ℚ => b - a) p.tail p).headD 0 :: List.zipWith (fun b a : ℚ => b - a) p.tail p ++
      [(List.zipWith (fun b a : ℚ => b - a) p.tail p).getLastD 0])[j]? =
      some (if j = 0 then p.getD 1 0 - p.getD 0 0 else if j = p.length then p.getD (p.length - 1) 0 - p.getD (p.length - 2) 0 else p.getD j 0 - p.getD (j - 1) 0) := by
    intro j hj
    rw [hhead, hlast, List.cons_append]
    cases j with
    | zero => rfl
    | succ j =>
      rw [List.getElem?_cons_succ, if_neg (by omega)]
      by_cases e : j + 1 = p.length
      · rw [if_pos e, List.getElem?_append_right (by rw [hl]; omega), hl, show j - (p.length - 1) = 0 by omega]; rfl
      · rw [if_neg e, List.getElem?_append_left (by rw [hl]; omega), hd, if_pos (by omega)]; rfl
  rw [guessBounds, List.getElem?_zipWith]
  by_cases hi : i < p.length
  · rw [if_pos hi, getD_eq hi]
    have e : ∀ l : List ℚ, (l.zip l.tail)[i]? = match l[i]?, l[i + 1]? with | some a, some b => some (a, b) | _, _ => none := by
      intro l
      rw [List.zip, List.getElem?_zipWith, List.getElem?_tail]
      cases l[i]? <;> cases l[i + 1]? <;> rfl
    rw [e, hd' i (by omega), hd' (i + 1) (by omega)]
    dsimp only
    congr 1
    rw [Spec.edge, Spec.edge]
    rw [if_neg (Nat.succ_ne_zero i), if_neg (Nat.succ_ne_zero i), if_neg (show ¬ i = p.length by omega), if_neg (show ¬ i = p.length by omega)]
    simp only [Nat.add_sub_cancel]
    refine Prod.ext ?_ ?_
    · by_cases h0 : i = 0
      · subst h0; simp only [if_pos]; ring
      · rw [if_neg h0, if_neg h0]; dsimp only; ring
    · by_cases h1 : i + 1 = p.length
      · rw [if_pos h1, if_pos h1]; dsimp only
        rw [show p.length - 1 = i by omega, show p.length - 2 = i - 1 by omega, show i + 1 - 2 = i - 1 by omega]; ring
      · rw [if_neg h1, if_neg h1]; dsimp only; ring
  · rw [if_neg hi, List.getElem?_eq_none (by omega)]

theorem edge_lt {p : List ℚ} (h2 : 2 ≤ p.length) (hp : p.Pairwise (· < ·)) {i : Nat} (hi : i < p.length) : Spec.edge p i < Spec.edge p (i + 1) := by
  have mono : ∀ a b : Nat, a < b → b < p.length → p.getD a 0 < p.getD b 0 := by
    intro a b hab hb
    have := List.pairwise_iff_getElem.1 hp a b (by omega) hb hab
    rw [getD_elem (show a < _ by omega), getD_elem hb]
    exact this
  rw [Spec.edge, Spec.edge, if_neg (Nat.succ_ne_zero i), if_neg (show ¬ i = p.length by omega)]
  simp only [Nat.add_sub_cancel]
  by_cases h0 : i = 0
  · subst h0
    rw [if_pos rfl, if_neg (by omega)]
    have := mono 0 1 (by omega) (by omega)
    simp only [Nat.zero_add]
    linarith
  · rw [if_neg h0]
    have m1 := mono (i - 1) i (by omega) hi
    by_cases h1 : i + 1 = p.length
    · rw [if_pos h1, show i + 1 - 2 = i - 1 by omega]
      linarith
    · rw [if_neg h1]
      have m2 := mono i (i + 1) (by omega) (by omega)
      linarith

/-- The edges inside the range of the points are not cut, and those outside only so far. -/
theorem cut_lt {c : SCoord} (h2 : 2 ≤ c.points.length) (hp : c.points.Pairwise (· < ·)) {i : Nat} (hi : i < c.points.length) :
    Spec.cut c (Spec.edge c.points i) < Spec.cut c (Spec.edge c.points (i + 1)) := by
  have hlt := edge_lt h2 hp hi
  rw [Spec.cut, Spec.cut]
  by_cases hc : c.std = some 0 ∧ ∀ y ∈ c.points, -90 ≤ y ∧ y ≤ 90
  · rw [if_pos hc, if_pos hc]
    have rng : ∀ j : Nat, j < c.points.length → -90 ≤ c.points.getD j 0 ∧ c.points.getD j 0 ≤ 90 := by
      intro j hj
      rw [getD_elem hj]
      exact hc.2 _ (List.getElem_mem hj)
    have mono : ∀ a b : Nat, a < b → b < c.points.length → c.points.getD a 0 < c.points.getD b 0 := by
      intro a b hab hb
      have := List.pairwise_iff_getElem.1 hp a b (by omega) hb hab
      rw [getD_elem (show a < _ by omega), getD_elem hb]
      exact this
    have up : -90 < Spec.edge c.points (i + 1) := by
      rw [Spec.edge, if_neg (Nat.succ_ne_zero i)]
      simp only [Nat.add_sub_cancel]
      by_cases h1 : i + 1 = c.points.length
      · rw [if_pos h1, show i + 1 - 2 = i - 1 by omega]
        have := mono (i - 1) i (by omega) hi
        have := rng i hi
        linarith
      · rw [if_neg h1]
        have := mono i (i + 1) (by omega) (by omega)
        have := rng i hi
        linarith
    have lo : Spec.edge c.points i < 90 := by
      rw [Spec.edge, if_neg (show ¬ i = c.points.length by omega)]
      by_cases h0 : i = 0
      · subst h0
        rw [if_pos rfl]
        have := mono 0 1 (by omega) (by omega)
        have := rng 0 hi
        linarith
      · rw [if_neg h0]
        have := mono (i - 1) i (by omega) hi
        have := rng i hi
        linarith
    rw [max_lt_iff]
    refine ⟨lt_max_of_lt_right (lt_min (by norm_num) up), ?_⟩
    rw [min_eq_right (le_of_lt lo)]
    by_cases h90 : Spec.edge c.points (i + 1) ≤ 90
    · rw [min_eq_right h90]; exact lt_max_of_lt_right hlt
    · rw [min_eq_left (le_of_lt (not_le.1 h90))]; exact lt_max_of_lt_right lo
  · rw [if_neg hc, if_neg hc]; exact hlt

/-- The bounds that are used are the cells of the specification. -/
theorem boundsOf_spec {c : SCoord} (h : Spec.Upwards c) : ∃ b, boundsOf c = some b ∧ (∀ i lo hi, b[i]? = some (lo, hi) ↔ Spec.Cell c i lo hi) ∧
    DataIndex.Spec.Monotonic ⟨c.points, b⟩ ∧ DataIndex.Spec.Contiguous ⟨c.points, b⟩ ∧ (⟨c.points, b⟩ : Coord ℚ).decreasing = false := by
  have hdec : ∀ b, (⟨c.points, b⟩ : Coord ℚ).decreasing = false := by
    intro b
    rw [Coord.decreasing]
    have hp := h.points
    generalize c.points = q at hp
    match q, hp with
    | [], _ => rfl
    | [_], _ => rfl
    | a :: b :: t, hp =>
      rw [List.pairwise_cons] at hp
      have := hp.1 b (by simp)
      simp [not_lt.2 (le_of_lt this)]
  cases hb : c.bounds with
  | some b =>
    have hnext := h.next b hb
    have hlt := h.lt b hb
    refine ⟨b, by rw [boundsOf, hb], fun i lo hi => by rw [Spec.Cell, hb], ?_, hnext, hdec b⟩
    refine ⟨(h.size b hb).1.symm, List.length_pos_iff.2 (h.size b hb).2, fun _ => ⟨hlt, ?_⟩, fun e => by rw [hdec b] at e; cases e⟩
    dsimp only
    -- contiguous cells follow each other
    rw [List.pairwise_iff_getElem]
    have key : ∀ (n i : Nat) (hi : i < b.length) (hj : i + 1 + n < b.length), b[i].2 ≤ b[i + 1 + n].1 := by
      intro n
      induction n with
      | zero =>
        intro i hi hj
        exact le_of_eq (hnext i _ _ (List.getElem?_eq_getElem hi) (List.getElem?_eq_getElem hj))
      | succ n ih =>
        intro i hi hj
        have h1 := ih i hi (by omega)
        have h2 := hnext (i + 1 + n) _ _ (List.getElem?_eq_getElem (by omega)) (List.getElem?_eq_getElem hj)
        have h3 := hlt _ (List.getElem_mem (show i + 1 + n < b.length by omega))
        exact le_of_lt (lt_of_le_of_lt h1 (h2 ▸ h3))
    intro i j hi hj hij
    obtain ⟨n, rfl⟩ := Nat.exists_eq_add_of_lt hij
    have := key n i hi (by omega)
    simp only [show i + n + 1 = i + 1 + n by omega]
    exact this
  | none =>
    have h2 := h.guess hb
    let b := if c.std = some 0 then guessLatBounds c.points else guessBounds c.points
    have hget : ∀ i : Nat, b[i]? = if i < c.points.length then some (Spec.cut c (Spec.edge c.points i), Spec.cut c (Spec.edge c.points (i + 1))) else none := by
      intro i
      simp only [b]
      by_cases h0 : c.std = some 0
      · rw [if_pos h0, guessLatBounds]
        by_cases hall : ∀ y ∈ c.points, -90 ≤ y ∧ y ≤ 90
        · rw [if_pos (by simpa using hall), List.getElem?_map, guess_getElem _ h2]
          split
          · simp only [Option.map_some, Spec.cut, h0, true_and, if_pos hall]; rfl
          · rfl
        · rw [if_neg (by simpa using hall), guess_getElem _ h2]
          split
          · simp only [Spec.cut, hall, and_false, if_false]
          · rfl
      · rw [if_neg h0, guess_getElem _ h2]
        split
        · simp only [Spec.cut, h0, false_and, if_false]
        · rfl
    have hlen : b.length = c.points.length := by
      refine le_antisymm ?_ ?_
      · by_contra hc
        have := hget c.points.length
        rw [if_neg (lt_irrefl _), List.getElem?_eq_none_iff] at this
        omega
      · by_contra hc
        have := hget b.length
        rw [if_pos (by omega), List.getElem?_eq_none (le_refl _)] at this
        cases this
    have hmem : ∀ (i : Nat) (hi : i < b.length), b[i] = (Spec.cut c (Spec.edge c.points i), Spec.cut c (Spec.edge c.points (i + 1))) := by
      intro i hi
      have := hget i
      rw [List.getElem?_eq_getElem hi, if_pos (by omega)] at this
      exact Option.some.inj this
    have hstep : ∀ i : Nat, i < c.points.length → Spec.cut c (Spec.edge c.points i) < Spec.cut c (Spec.edge c.points (i + 1)) :=
      fun i hi => cut_lt h2 h.points hi
    refine ⟨b, by rw [boundsOf, hb]; dsimp only; rw [if_neg (by omega)], ?_, ⟨hlen.symm, by dsimp only; omega, fun _ => ⟨?_, ?_⟩, fun e => by rw [hdec b] at e; cases e⟩, ?_, hdec b⟩
    · intro i lo hi
      rw [Spec.Cell, hb, hget]
      dsimp only
      split
      · rename_i hi'
        rw [Option.some.injEq, Prod.mk.injEq]
        exact ⟨fun e => ⟨hi', e.1.symm, e.2.symm⟩, fun e => ⟨e.2.1.symm, e.2.2.symm⟩⟩
      · rename_i hi'
        exact ⟨fun e => (by cases e), fun e => absurd e.1 hi'⟩
    · intro x hx
      obtain ⟨i, hi, rfl⟩ := List.getElem_of_mem hx
      have hi' : i < b.length := hi
      rw [show (⟨c.points, b⟩ : Coord ℚ).bounds[i] = b[i] from rfl, hmem i hi']
      exact hstep i (by omega)
    · rw [List.pairwise_iff_getElem]
      have key : ∀ (n i : Nat), i + 1 + n < c.points.length → Spec.cut c (Spec.edge c.points (i + 1)) ≤ Spec.cut c (Spec.edge c.points (i + 1 + n)) := by
        intro n
        induction n with
        | zero => intro i _; exact le_refl _
        | succ n ih => intro i hi; exact le_trans (ih i (by omega)) (le_of_lt (hstep (i + 1 + n) (by omega)))
      intro i j hi hj hij
      have hi' : i < b.length := hi
      have hj' : j < b.length := hj
      show b[i].2 ≤ b[j].1
      rw [hmem i hi', hmem j hj']
      obtain ⟨n, rfl⟩ := Nat.exists_eq_add_of_lt hij
      exact (show i + n + 1 = i + 1 + n by omega) ▸ key n i (by omega)
    · intro i x y hx hy
      have hx' : b[i]? = some x := hx
      have hy' : b[i + 1]? = some y := hy
      rw [hget] at hx' hy'
      split at hx'
      · split at hy'
        · injection hx' with hx'; injection hy' with hy'; rw [← hx', ← hy']
        · cases hy'
      · cases hx'

/-! ### Proofs: the dimensions -/

theorem has_iff (v : Var) (h : Nat) : has v h = true ↔ Spec.Has v h := by
  rw [has, Spec.Has]
  by_cases hh : h < 5
  · rw [dif_pos hh]; exact ⟨fun e => ⟨hh, e⟩, fun ⟨_, e⟩ => e⟩
  · rw [dif_neg hh]; exact ⟨fun e => (by cases e), fun ⟨e, _⟩ => absurd e hh⟩

theorem dimName_pairwise {s : Sample} (h : (s.coords.map SCoord.std).Pairwise (fun a b => a = b → a = none)) :
    (s.coords.map dimName).Pairwise (fun a b => a = b → a = none) := by
  rw [List.pairwise_map] at h ⊢
  refine h.imp ?_
  intro a b hab e
  rw [dimName, dimName] at e
  rw [dimName]
  by_cases ha : a.dim = true
  · rw [if_pos ha] at e ⊢
    by_cases hb : b.dim = true
    · rw [if_pos hb] at e; exact hab e
    · rw [if_neg hb] at e; exact e
  · rw [if_neg ha]

theorem shared_iff (v : Var) (c : SCoord) : Spec.Shared v c ↔ ∃ h, dimName c = some h ∧ h < 5 ∧ has v h = true := by
  rw [Spec.Shared, dimName]
  constructor
  · rintro ⟨hd, h, hs, hh⟩
    exact ⟨h, by rw [if_pos hd, hs], hh.1, (has_iff v h).2 hh⟩
  · rintro ⟨h, e, -, hh⟩
    by_cases hd : c.dim = true
    · rw [if_pos hd] at e; exact ⟨hd, h, e, (has_iff v h).1 hh⟩
    · rw [if_neg hd] at e; cases e

theorem used_eq (s : Sample) (v : Var) : Spec.used s v = Agg.Spec.usedCoords (has v) (s.coords.map dimName) := by
  rw [Spec.used, Agg.Spec.usedCoords, List.length_map]
  refine List.filter_congr ?_
  intro i hi
  rw [List.mem_range] at hi
  classical
  rw [Bool.eq_iff_iff, List.getElem?_map, decide_eq_true_iff]
  simp only [List.getElem?_eq_getElem hi, Option.map_some]
  constructor
  · rintro ⟨c, e, hc⟩
    injection e with e
    subst e
    obtain ⟨h, e, h5, hh⟩ := (shared_iff v _).1 hc
    rw [e]
    simp [h5, hh]
  · intro e
    refine ⟨_, rfl, (shared_iff v _).2 ?_⟩
    cases hd : dimName s.coords[i] with
    | none => rw [hd] at e; cases e
    | some h =>
      rw [hd] at e
      simp only [Bool.and_eq_true, decide_eq_true_eq] at e
      exact ⟨h, rfl, e.1, e.2⟩

section order
variable {s : Sample} {v : Var}

/-- What the map is: each entry has its own place, and belongs to a coordinate of the sample that the data have too. -/
theorem map_entry (hd : (s.coords.map SCoord.std).Pairwise (fun a b => a = b → a = none)) :
    (∀ (k : Nat) (e : MapEntry), (mapOf s v)[k]? = some e → e.shi = k) ∧
    (∀ e ∈ mapOf s v, e.hpi < 5 ∧ has v e.hpi = true ∧ ∃ c, s.coords[e.ci]? = some c ∧ dimName c = some e.hpi) := by
  obtain ⟨h1, h2, -, -⟩ := findStandardCoords_spec (has v) (s.coords.map dimName) (List.range 5) 0
  refine ⟨fun k e he => by have := h1 k e he; omega, fun e he => ?_⟩
  obtain ⟨a, b, c⟩ := h2 e he
  refine ⟨List.mem_range.1 a, b, ?_⟩
  have := (findIdx_eq _ (dimName_pairwise hd) _ _).1 c
  rw [List.getElem?_map, Option.map_eq_some_iff] at this
  exact this

/-- The order in which the dimensions are put. -/
theorem order_perm (hd : (s.coords.map SCoord.std).Pairwise (fun a b => a = b → a = none)) :
    (transposeOrder (mapOf s v)).Perm (List.range (mapOf s v).length) := by
  rw [transposeOrder]
  refine ((sortByCi_perm _).map _).trans (List.Perm.of_eq ?_)
  refine List.ext_getElem? fun k => ?_
  rw [List.getElem?_map]
  by_cases hk : k < (mapOf s v).length
  · rw [List.getElem?_eq_getElem hk, List.getElem?_range hk, Option.map_some]
    exact congrArg some ((map_entry hd).1 k _ (List.getElem?_eq_getElem hk))
  · rw [List.getElem?_eq_none (by omega), List.getElem?_eq_none (by simp; omega)]; rfl

theorem order_length (hd : (s.coords.map SCoord.std).Pairwise (fun a b => a = b → a = none)) :
    (transposeOrder (mapOf s v)).length = (mapOf s v).length := by
  rw [(order_perm hd).length_eq, List.length_range]

theorem used_length (hd : (s.coords.map SCoord.std).Pairwise (fun a b => a = b → a = none)) : (Spec.used s v).length = (mapOf s v).length := by
  have h := congrArg List.length (output_coords (has v) (s.coords.map dimName) (dimName_pairwise hd))
  rw [List.length_map, ← used_eq, outputCoords, List.length_map] at h
  rw [← h]
  exact order_length hd

/-- Dimension `k` of the result has the coordinate that the data are binned along in dimension `transposeOrder[k]`. -/
theorem order_coord (hd : (s.coords.map SCoord.std).Pairwise (fun a b => a = b → a = none)) {k shi : Nat}
    (h : (transposeOrder (mapOf s v))[k]? = some shi) : ∃ e, (mapOf s v)[shi]? = some e ∧ (Spec.used s v)[k]? = some e.ci := by
  have ho := output_coords (has v) (s.coords.map dimName) (dimName_pairwise hd)
  have := congrArg (fun l => l[k]?) ho
  simp only [outputCoords, List.getElem?_map] at this
  rw [← used_eq] at this
  change Option.map _ (transposeOrder (mapOf s v))[k]? = _ at this
  rw [h, Option.map_some] at this
  cases hu : (Spec.used s v)[k]? with
  | none => rw [hu] at this; cases this
  | some ci =>
    rw [hu, Option.map_some] at this
    injection this with this
    change ((mapOf s v)[shi]?).map MapEntry.ci = some ci at this
    rw [Option.map_eq_some_iff] at this
    obtain ⟨e, he, rfl⟩ := this
    exact ⟨e, he, rfl⟩

theorem back_getElem (hd : (s.coords.map SCoord.std).Pairwise (fun a b => a = b → a = none)) (idx : List Nat) {k shi : Nat}
    (h : (transposeOrder (mapOf s v))[k]? = some shi) : (back (mapOf s v) idx)[shi]? = some (idx.getD k 0) := by
  have hp := order_perm (s := s) (v := v) hd
  have hn : (transposeOrder (mapOf s v)).Nodup := hp.nodup_iff.2 List.nodup_range
  have hm : shi < (mapOf s v).length := List.mem_range.1 (hp.mem_iff.1 (List.mem_of_getElem? h))
  rw [back, List.getElem?_map, List.getElem?_range hm, Option.map_some]
  congr 2
  obtain ⟨hk, e⟩ := List.getElem?_eq_some_iff.1 h
  rw [← e]
  exact hn.idxOf_getElem k hk

theorem back_length (m : List MapEntry) (idx : List Nat) : (back m idx).length = m.length := by simp [back]

theorem remapped_back (hd : (s.coords.map SCoord.std).Pairwise (fun a b => a = b → a = none)) (idx : List Nat) (hl : idx.length = (mapOf s v).length) :
    remapped (mapOf s v) (back (mapOf s v) idx) = idx := by
  refine List.ext_getElem? fun k => ?_
  rw [remapped, List.getElem?_map]
  by_cases hk : k < (mapOf s v).length
  · have hk' : k < (transposeOrder (mapOf s v)).length := by rw [order_length hd]; exact hk
    rw [List.getElem?_eq_getElem hk', Option.map_some, List.getD_eq_getElem?_getD, back_getElem hd idx (List.getElem?_eq_getElem hk'),
      List.getElem?_eq_getElem (by omega), List.getD_eq_getElem?_getD, List.getElem?_eq_getElem (by omega)]
    rfl
  · rw [List.getElem?_eq_none (by rw [order_length hd]; omega), List.getElem?_eq_none (by omega)]; rfl

end order

/-! ### Proofs: the points -/

theorem lonStart_eq {cs : List SCoord} (hd : (cs.map SCoord.std).Pairwise (fun a b => a = b → a = none)) {c : SCoord} (hc : c ∈ cs) (h1 : c.std = some 1) :
    lonStart cs = some (Lon.findLongitudeRange c.points) := by
  rw [lonStart]
  have skip : ∀ (t : List SCoord) (a : Option ℚ), (∀ x ∈ t, x.std ≠ some 1) →
      t.foldl (fun low c => if c.std = some 1 then some (Lon.findLongitudeRange c.points) else low) a = a := by
    intro t
    induction t with
    | nil => intro a _; rfl
    | cons x t ih => intro a h; rw [List.foldl_cons, if_neg (h x (by simp))]; exact ih a (fun y hy => h y (by simp [hy]))
  have key : ∀ (a : Option ℚ), cs.foldl (fun low c => if c.std = some 1 then some (Lon.findLongitudeRange c.points) else low) a = some (Lon.findLongitudeRange c.points) := by
    induction cs with
    | nil => cases hc
    | cons x t ih =>
      intro a
      rw [List.map_cons, List.pairwise_cons] at hd
      rw [List.foldl_cons]
      rcases List.mem_cons.1 hc with rfl | hc
      · rw [if_pos h1]
        refine skip t _ fun y hy e => ?_
        have := hd.1 y.std (List.mem_map_of_mem hy) (by rw [h1, e])
        rw [h1] at this; cases this
      · exact ih hd.2 hc _
  exact key none

theorem range_start (l : List ℚ) : (Lon.findLongitudeRange l = -180 ∧ ∃ x ∈ l, x < 0) ∨ (Lon.findLongitudeRange l = 0 ∧ ¬ ∃ x ∈ l, x < 0) := by
  rw [Lon.findLongitudeRange]
  by_cases h : ∃ x ∈ l, x < 0
  · left; rw [if_pos (by simpa using h)]; exact ⟨rfl, h⟩
  · right; rw [if_neg (by simpa using h)]; exact ⟨rfl, h⟩

/-- The longitude after the move. -/
def turn (st x : ℚ) : ℚ := let y := if x < st then x + 360 else x; if y ≥ st + 360 then y - 360 else y

theorem turn_range {st x : ℚ} (h1 : st - 360 ≤ x) (h2 : x < st + 720) : st ≤ turn st x ∧ turn st x < st + 360 ∧ ∃ n : ℤ, turn st x = x + 360 * n := by
  rw [turn]
  by_cases a : x < st
  · rw [if_pos a]
    have : ¬ x + 360 ≥ st + 360 := by linarith
    rw [if_neg this]
    exact ⟨by linarith, by linarith, 1, by norm_num⟩
  · rw [if_neg a]
    by_cases b : x ≥ st + 360
    · rw [if_pos b]; exact ⟨by linarith, by linarith, -1, by push_cast; ring⟩
    · rw [if_neg b]; exact ⟨by linarith, by linarith, 0, by norm_num⟩

theorem moved_other (s : Sample) (v : Var) {h : Fin 5} (hh : h ≠ 1) : moved s v h = v.coord h := by
  rw [moved]
  cases lonStart s.coords with
  | none => rfl
  | some st =>
    dsimp only
    rw [Lon.ungriddedSetRange]
    cases v.coord 1 with
    | none => rfl
    | some l => dsimp only; rw [Function.update_of_ne hh]

theorem moved_lon {s : Sample} {v : Var} {st : ℚ} (hs : lonStart s.coords = some st) {l : List ℚ} (hl : v.coord 1 = some l) :
    moved s v 1 = some (l.map (turn st)) := by
  rw [moved, hs]
  show Lon.ungriddedSetRange v.coord st 1 = _
  unfold Lon.ungriddedSetRange
  rw [hl]
  dsimp only
  rw [Function.update_self, List.map_map]
  rfl

theorem column_eq {s : Sample} {v : Var} {h : Fin 5} {l : List ℚ} (hl : moved s v h = some l) {p : Nat} {x : ℚ} (hp : l[p]? = some x) : column s v h.1 p = x := by
  rw [column, dif_pos h.2, show (⟨h.1, h.2⟩ : Fin 5) = h from rfl, hl, Option.getD_some, List.getD_eq_getElem?_getD, hp]
  rfl

/-- A point is put into an interval exactly if it lies in the cell, longitudes being angles. -/
theorem interval_iff {s : Sample} {v : Var} (g : Spec.Good s v) {c : SCoord} (hc : c ∈ s.coords) (hsh : Spec.Shared v c) {h : Nat} (hs : c.std = some h)
    {b : List (ℚ × ℚ)} (hb : ∀ i lo hi, b[i]? = some (lo, hi) ↔ Spec.Cell c i lo hi) (hlt : ∀ x ∈ b, x.1 < x.2) (i : Nat) {p : Nat} (hp : p < v.vals.length) :
    DataIndex.Spec.InInterval ⟨c.points, b⟩ i (column s v h p) ↔ Spec.In v c i p := by
  have hsh' := hsh
  obtain ⟨-, h', hs', h5, hsome⟩ := hsh
  rw [hs] at hs'
  injection hs' with hs'
  subst hs'
  have hx : ∀ x : ℚ, DataIndex.Spec.InInterval ⟨c.points, b⟩ i x ↔ ∃ lo hi, Spec.Cell c i lo hi ∧ lo ≤ x ∧ x < hi := by
    intro x
    rw [DataIndex.Spec.InInterval]
    constructor
    · rintro ⟨⟨lo, hi⟩, e, h1, h2⟩
      have e' : b[i]? = some (lo, hi) := e
      have := hlt _ (List.mem_of_getElem? e')
      rw [min_eq_left (le_of_lt this)] at h1
      rw [max_eq_right (le_of_lt this)] at h2
      exact ⟨lo, hi, (hb i lo hi).1 e', h1, h2⟩
    · rintro ⟨lo, hi, e, h1, h2⟩
      have e' := (hb i lo hi).2 e
      have := hlt _ (List.mem_of_getElem? e')
      refine ⟨(lo, hi), e', ?_, ?_⟩
      · rw [min_eq_left (le_of_lt this)]; exact h1
      · rw [max_eq_right (le_of_lt this)]; exact h2
  rw [hx]
  obtain ⟨l, hl⟩ := Option.isSome_iff_exists.1 hsome
  have hlen := g.size _ _ hl
  have hpl : p < l.length := by omega
  by_cases h1 : h = 1
  · subst h1
    have hl1 : v.coord 1 = some l := hl
    have hst := lonStart_eq g.different hc hs
    have hcol : column s v 1 p = turn (Lon.findLongitudeRange c.points) l[p] := by
      refine column_eq (h := 1) (moved_lon hst hl1) ?_
      rw [List.getElem?_map, List.getElem?_eq_getElem hpl, Option.map_some]
    have hrange := g.longitudes l hl1 l[p] (List.getElem_mem hpl)
    have hconv := g.convention c hc hsh' hs
    rw [hcol]
    obtain ⟨st, hst', hbox, hr1, hr2⟩ : ∃ st, Lon.findLongitudeRange c.points = st ∧ (∀ i lo hi, Spec.Cell c i lo hi → st ≤ lo ∧ hi ≤ st + 360) ∧
        st - 360 ≤ l[p] ∧ l[p] < st + 720 := by
      rcases range_start c.points with ⟨e, hneg⟩ | ⟨e, hneg⟩
      · refine ⟨-180, e, fun i lo hi hcell => ?_, by linarith, by linarith⟩
        have := hconv i lo hi hcell
        rw [if_pos hneg] at this
        exact ⟨this.1, by linarith⟩
      · refine ⟨0, e, fun i lo hi hcell => ?_, by linarith, by linarith⟩
        have := hconv i lo hi hcell
        rw [if_neg hneg] at this
        exact ⟨this.1, by linarith⟩
    rw [hst']
    obtain ⟨t1, t2, n, t3⟩ := turn_range hr1 hr2
    constructor
    · rintro ⟨lo, hi, hcell, a, b⟩
      refine ⟨1, l, l[p], lo, hi, hs, hl1, List.getElem?_eq_getElem hpl, hcell, ?_⟩
      rw [if_pos rfl]
      exact ⟨n, by rw [← t3]; exact a, by rw [← t3]; exact b⟩
    · rintro ⟨h', l', x, lo, hi, e1, e2, e3, hcell, hin⟩
      rw [hs] at e1
      have e1' : h' = 1 := Fin.ext (Option.some.inj e1).symm
      subst e1'
      rw [hl1] at e2
      injection e2 with e2
      subst e2
      rw [List.getElem?_eq_getElem hpl] at e3
      injection e3 with e3
      subst e3
      rw [if_pos rfl] at hin
      obtain ⟨k, a, b⟩ := hin
      obtain ⟨c1, c2⟩ := hbox i lo hi hcell
      have : turn st l[p] = l[p] + 360 * k := by
        rw [t3] at t1 t2 ⊢
        have u1 : (n : ℚ) < k + 1 := by linarith
        have u2 : (k : ℚ) < n + 1 := by linarith
        have v1 : n < k + 1 := by exact_mod_cast u1
        have v2 : k < n + 1 := by exact_mod_cast u2
        have : n = k := by omega
        rw [this]
      exact ⟨lo, hi, hcell, by rw [this]; exact a, by rw [this]; exact b⟩
  · have hne : (⟨h, h5⟩ : Fin 5) ≠ 1 := fun e => h1 (congrArg Fin.val e)
    have hcol : column s v h p = l[p] :=
      column_eq (h := ⟨h, h5⟩) (by rw [moved_other s v hne]; exact hl) (List.getElem?_eq_getElem hpl)
    rw [hcol]
    constructor
    · rintro ⟨lo, hi, hcell, a, b⟩
      refine ⟨⟨h, h5⟩, l, l[p], lo, hi, hs, hl, List.getElem?_eq_getElem hpl, hcell, ?_⟩
      rw [if_neg hne]
      exact ⟨a, b⟩
    · rintro ⟨h', l', x, lo, hi, e1, e2, e3, hcell, hin⟩
      rw [hs] at e1
      have e1' : h' = ⟨h, h5⟩ := Fin.ext (Option.some.inj e1).symm
      subst e1'
      rw [hl] at e2
      injection e2 with e2
      subst e2
      rw [List.getElem?_eq_getElem hpl] at e3
      injection e3 with e3
      subst e3
      rw [if_neg hne] at hin
      exact ⟨lo, hi, hcell, hin⟩

theorem mapM_some {α β : Type} (f : α → Option β) : ∀ l : List α, (∀ a ∈ l, ∃ b, f a = some b) → ∃ r, l.mapM f = some r ∧ List.Forall₂ (fun a b => f a = some b) l r
  | [], _ => ⟨[], rfl, .nil⟩
  | a :: t, h => by
    obtain ⟨b, hb⟩ := h a (by simp)
    obtain ⟨r, hr, hf⟩ := mapM_some f t (fun x hx => h x (by simp [hx]))
    exact ⟨b :: r, by rw [List.mapM_cons, hb, hr]; rfl, .cons hb hf⟩

/-- The dimensions along which the data are binned, and the cells of the result. -/
theorem dims_spec {s : Sample} {v : Var} (g : Spec.Good s v) : ∃ ds, dimsOf s v = some ds ∧ ds ≠ [] ∧ (∀ d ∈ ds, DataIndex.Spec.Monotonic d.1) ∧
    (∀ d ∈ ds, DataIndex.Spec.Contiguous d.1) ∧ (∀ d ∈ ds, d.1.decreasing = false) ∧
    ∀ (idx : List Nat) (p : Nat), idx.length = (mapOf s v).length → p < v.vals.length →
      (DataIndex.Spec.InCell ds (back (mapOf s v) idx) p ↔ Spec.Inside s v idx p) := by
  have hd := g.different
  have hentry : ∀ e ∈ mapOf s v, ∃ c, s.coords[e.ci]? = some c ∧ c ∈ s.coords ∧ Spec.Shared v c ∧ c.std = some e.hpi := by
    intro e he
    obtain ⟨h5, hh, c, hc, hn⟩ := (map_entry hd).2 e he
    refine ⟨c, hc, List.mem_of_getElem? hc, (shared_iff v c).2 ⟨_, hn, h5, hh⟩, ?_⟩
    rw [dimName] at hn
    split at hn
    · exact hn
    · cases hn
  obtain ⟨ds, hds, hf⟩ := mapM_some (fun e : MapEntry => (s.coords[e.ci]?).bind (fun c => (boundsOf c).map (fun b => ((⟨c.points, b⟩, column s v e.hpi) : Dim ℚ))))
    (mapOf s v) (by
      intro e he
      obtain ⟨c, hc, hm, hsh, -⟩ := hentry e he
      obtain ⟨b, hb, -⟩ := boundsOf_spec (g.upwards c hm hsh)
      exact ⟨_, by rw [hc]; dsimp only [Option.bind_some]; rw [hb]; rfl⟩)
  have hlen : (mapOf s v).length = ds.length := hf.length_eq
  -- what each dimension is
  have hdim : ∀ (k : Nat) (e : MapEntry), (mapOf s v)[k]? = some e → ∃ c b, s.coords[e.ci]? = some c ∧ c ∈ s.coords ∧ Spec.Shared v c ∧ c.std = some e.hpi ∧
      boundsOf c = some b ∧ ds[k]? = some (⟨c.points, b⟩, column s v e.hpi) := by
    intro k e hk
    obtain ⟨c, hc, hm, hsh, hstd⟩ := hentry e (List.mem_of_getElem? hk)
    obtain ⟨b, hb, -⟩ := boundsOf_spec (g.upwards c hm hsh)
    refine ⟨c, b, hc, hm, hsh, hstd, hb, ?_⟩
    obtain ⟨hk', rfl⟩ := List.getElem?_eq_some_iff.1 hk
    have := (List.forall₂_iff_get.1 hf).2 k hk' (by omega)
    simp only [List.get_eq_getElem] at this
    rw [hc] at this
    dsimp only [Option.bind_some] at this
    rw [hb] at this
    rw [List.getElem?_eq_getElem (by omega)]
    exact this.symm
  have hall : ∀ d ∈ ds, ∃ c b, c ∈ s.coords ∧ Spec.Shared v c ∧ boundsOf c = some b ∧ d.1 = ⟨c.points, b⟩ := by
    intro d hdm
    obtain ⟨k, hk⟩ := List.mem_iff_getElem?.1 hdm
    have hk' := (List.getElem?_eq_some_iff.1 hk).1
    obtain ⟨c, b, -, hm, hsh, -, hb, e⟩ := hdim k _ (List.getElem?_eq_getElem (show k < (mapOf s v).length by omega))
    rw [hk] at e
    injection e with e
    exact ⟨c, b, hm, hsh, hb, by rw [e]⟩
  refine ⟨ds, hds, ?_, ?_, ?_, ?_, ?_⟩
  · intro e
    rw [e] at hlen
    have hu := used_length (v := v) hd
    rw [hlen, List.length_nil, List.length_eq_zero_iff] at hu
    obtain ⟨c, hc, hsh⟩ := g.shared
    obtain ⟨i, hi⟩ := List.mem_iff_getElem?.1 hc
    have : i ∈ Spec.used s v := by
      classical
      rw [Spec.used, List.mem_filter, List.mem_range, decide_eq_true_iff]
      exact ⟨(List.getElem?_eq_some_iff.1 hi).1, c, hi, hsh⟩
    rw [hu] at this
    cases this
  · intro d hdm
    obtain ⟨c, b, hm, hsh, hb, e⟩ := hall d hdm
    obtain ⟨b', hb', -, h1, -⟩ := boundsOf_spec (g.upwards c hm hsh)
    rw [hb] at hb'; injection hb' with hb'; subst hb'
    rw [e]; exact h1
  · intro d hdm
    obtain ⟨c, b, hm, hsh, hb, e⟩ := hall d hdm
    obtain ⟨b', hb', -, -, h1, -⟩ := boundsOf_spec (g.upwards c hm hsh)
    rw [hb] at hb'; injection hb' with hb'; subst hb'
    rw [e]; exact h1
  · intro d hdm
    obtain ⟨c, b, hm, hsh, hb, e⟩ := hall d hdm
    obtain ⟨b', hb', -, -, -, h1⟩ := boundsOf_spec (g.upwards c hm hsh)
    rw [hb] at hb'; injection hb' with hb'; subst hb'
    rw [e]; exact h1
  · intro idx p hidx hp
    -- one dimension
    have hone : ∀ (k shi : Nat), (transposeOrder (mapOf s v))[k]? = some shi → ∃ d ci, ds[shi]? = some d ∧ (Spec.used s v)[k]? = some ci ∧
        (back (mapOf s v) idx)[shi]? = some (idx.getD k 0) ∧
        (DataIndex.Spec.InInterval d.1 (idx.getD k 0) (d.2 p) ↔ ∃ c, s.coords[ci]? = some c ∧ Spec.In v c (idx.getD k 0) p) := by
      intro k shi hk
      obtain ⟨e, he, hu⟩ := order_coord hd hk
      obtain ⟨c, b, hc, hm, hsh, hstd, hb, hds⟩ := hdim shi e he
      obtain ⟨b', hb', hcell, hmono, -, hdec⟩ := boundsOf_spec (g.upwards c hm hsh)
      rw [hb] at hb'; injection hb' with hb'; subst hb'
      refine ⟨_, e.ci, hds, hu, back_getElem hd idx hk, ?_⟩
      have := interval_iff g hm hsh hstd hcell (hmono.inc hdec).1 (idx.getD k 0) hp
      rw [this]
      constructor
      · intro h; exact ⟨c, hc, h⟩
      · rintro ⟨c', hc', h⟩
        rw [hc] at hc'; injection hc' with hc'; subst hc'; exact h
    rw [DataIndex.Spec.InCell, Spec.Inside, List.forall₂_iff_get, List.forall₂_iff_get]
    constructor
    · rintro ⟨-, h⟩
      refine ⟨by rw [used_length hd, hidx], fun k h1 h2 => ?_⟩
      simp only [List.get_eq_getElem]
      have hk : k < (transposeOrder (mapOf s v)).length := by rw [order_length hd]; omega
      obtain ⟨d, ci, e1, e2, e3, e4⟩ := hone k _ (List.getElem?_eq_getElem hk)
      have hshi := (List.getElem?_eq_some_iff.1 e1)
      obtain ⟨q1, q2⟩ := hshi
      have := h _ q1 (by rw [back_length]; omega)
      simp only [List.get_eq_getElem] at this
      rw [q2] at this
      obtain ⟨r1, r2⟩ := List.getElem?_eq_some_iff.1 e3
      rw [r2] at this
      obtain ⟨w1, w2⟩ := List.getElem?_eq_some_iff.1 e2
      rw [w2]
      have e5 : idx.getD k 0 = idx[k] := by rw [List.getD_eq_getElem?_getD, List.getElem?_eq_getElem h2]; rfl
      rw [← e5]
      exact e4.1 this
    · rintro ⟨-, h⟩
      refine ⟨by rw [back_length]; omega, fun shi h1 h2 => ?_⟩
      simp only [List.get_eq_getElem]
      have hmem : shi ∈ transposeOrder (mapOf s v) := (order_perm hd).mem_iff.2 (List.mem_range.2 (by omega))
      obtain ⟨k, hk⟩ := List.mem_iff_getElem?.1 hmem
      have hk' : k < (mapOf s v).length := by have := (List.getElem?_eq_some_iff.1 hk).1; rw [order_length hd] at this; exact this
      obtain ⟨d, ci, e1, e2, e3, e4⟩ := hone k shi hk
      obtain ⟨q1, q2⟩ := List.getElem?_eq_some_iff.1 e1
      obtain ⟨r1, r2⟩ := List.getElem?_eq_some_iff.1 e3
      obtain ⟨w1, w2⟩ := List.getElem?_eq_some_iff.1 e2
      rw [q2, r2]
      refine e4.2 ?_
      have := h k w1 (by omega)
      simp only [List.get_eq_getElem] at this
      rw [w2] at this
      have e5 : idx.getD k 0 = idx[k]'(by omega) := by rw [List.getD_eq_getElem?_getD, List.getElem?_eq_getElem (by omega)]; rfl
      rw [e5]
      exact this

/-! ### Proofs: the values -/

theorem result_perm {n : Str} {a b : List ℝ} {out : List (Option ℝ)} (h : a.Perm b) (hr : ColCmd.Spec.Result n a out) : ColCmd.Spec.Result n b out := by
  obtain ⟨h1, h2, h3, h4, h5, h6⟩ := hr
  have havg : ColCmd.Spec.avg b = ColCmd.Spec.avg a := by rw [ColCmd.Spec.avg, ColCmd.Spec.avg, h.sum_eq, h.length_eq]
  have hsd : ColCmd.Spec.sd b = ColCmd.Spec.sd a := by
    rw [ColCmd.Spec.sd, ColCmd.Spec.sd, havg, h.length_eq, (h.map (fun x => (x - ColCmd.Spec.avg a) ^ 2)).sum_eq]
  refine ⟨fun e => by rw [havg]; exact h1 e, fun e => by rw [hsd]; exact h2 e, fun e => ?_, fun e => ?_, fun e => by rw [← h.sum_eq]; exact h5 e,
    fun e => by rw [havg, hsd, ← h.length_eq]; exact h6 e⟩
  · obtain ⟨m, e1, e2, e3⟩ := h3 e
    exact ⟨m, e1, h.mem_iff.1 e2, fun x hx => e3 x (h.mem_iff.2 hx)⟩
  · obtain ⟨m, e1, e2, e3⟩ := h4 e
    exact ⟨m, e1, h.mem_iff.1 e2, fun x hx => e3 x (h.mem_iff.2 hx)⟩

theorem stat_nil (k : Colloc.Kernel) : stat k [] = none := (Colloc.c15_empty k [] [] _ []).2 rfl

theorem stat_result {n : Str} {k : Colloc.Kernel} (h : ColCmd.Statistic n k) (l : List ℚ) (hl : l ≠ []) :
    ∃ r, stat k l = some r ∧ r.length = k.size ∧ ColCmd.Spec.Result n (l.map (fun x : ℚ => (x : ℝ))) r := by
  have hmap : (l.map (fun x : ℚ => (⟨⟨0, 0, 0, 0, 0⟩, (x : ℝ)⟩ : Colloc.DRow))).map Colloc.DRow.val = l.map (fun x : ℚ => (x : ℝ)) := by
    rw [List.map_map]; rfl
  have h0 : ((l.map (fun x : ℚ => (⟨⟨0, 0, 0, 0, 0⟩, (x : ℝ)⟩ : Colloc.DRow))).map Colloc.DRow.val) ≠ [] := by
    rw [hmap]; simpa using hl
  have hlen : ¬ ((l.map (fun x : ℚ => (⟨⟨0, 0, 0, 0, 0⟩, (x : ℝ)⟩ : Colloc.DRow))).map Colloc.DRow.val).length = 0 := by rwa [List.length_eq_zero_iff]
  have hr := (ColCmd.getValue_result h [] [] ⟨0, 0, 0, 0, 0⟩ (l.map (fun x : ℚ => (⟨⟨0, 0, 0, 0, 0⟩, (x : ℝ)⟩ : Colloc.DRow)))).2 h0
  rw [hmap] at hr
  have hs : ∃ r, stat k l = some r ∧ r.length = k.size := by
    rw [stat]
    rcases h with ⟨-, rfl⟩ | ⟨-, rfl⟩ | ⟨-, rfl⟩ | ⟨-, rfl⟩ | ⟨-, rfl⟩ | ⟨-, rfl⟩ <;>
      (rw [Colloc.getValue]; dsimp only; rw [if_neg hlen]; exact ⟨_, rfl, rfl⟩)
  obtain ⟨r, e, hl⟩ := hs
  refine ⟨r, e, hl, ?_⟩
  rw [stat] at e
  rw [e] at hr
  exact hr

theorem values_eq (s : Sample) (v : Var) (idx : List Nat) (ps : List Nat) (hn : ps.Nodup)
    (hps : ∀ p, p ∈ ps ↔ p < v.vals.length ∧ ((v.vals[p]?).join).isNone = false ∧ Spec.Inside s v idx p) :
    ((ps.map (fun (i : Nat) => ((v.vals[i]?).join).getD 0)).map (fun x : ℚ => (x : ℝ))).Perm (Spec.values s v idx) := by
  classical
  have key : ∀ l : List Nat, l.filterMap (fun (p : Nat) => ((v.vals[p]?).join).map (fun x : ℚ => (x : ℝ))) =
      ((l.filter (fun (p : Nat) => ((v.vals[p]?).join).isSome)).map (fun (i : Nat) => ((v.vals[i]?).join).getD 0)).map (fun x : ℚ => (x : ℝ)) := by
    intro l
    induction l with
    | nil => rfl
    | cons a t ih =>
      rw [List.filterMap_cons, List.filter_cons]
      cases hv : (v.vals[a]?).join with
      | none => simp only [Option.map_none, Option.isSome_none, Bool.false_eq_true, if_false]; exact ih
      | some x => simp only [Option.map_some, Option.isSome_some, if_true, List.map_cons, hv, Option.getD_some]; rw [ih]
  rw [Spec.values, key]
  refine (List.Perm.map _ ?_).map _
  refine (List.perm_ext_iff_of_nodup hn ((List.nodup_range.filter _).filter _)).2 fun p => ?_
  rw [hps, List.mem_filter, List.mem_filter, List.mem_range, decide_eq_true_iff]
  cases (v.vals[p]?).join <;> simp

theorem details_names (k : Str) (m : Names) : (details k m).map Names.name = ColOpts.Spec.names k m.name ∧ (details k m).head? = some m := by
  rw [details, ColOpts.Spec.names]
  by_cases h : k = moments
  · rw [if_pos h, if_pos h]; exact ⟨rfl, rfl⟩
  · rw [if_neg h, if_neg h]; exact ⟨rfl, rfl⟩

/-- One variable. -/
theorem binVar_spec {sort : Nat → (Nat → Int) → List Nat} (hsort : ∀ n key, DataIndex.Spec.Sorts n key (sort n key)) {kern : Str} {k : Colloc.Kernel}
    (hstat : ColCmd.Statistic kern k) (p : Plan) (s : Sample) (v : Var) (g : Spec.Good s v) (hall : p.missing = true → ∀ c ∈ s.coords, Spec.Shared v c) :
    ∃ r, binVar sort p (if kern = [] then moments else kern) k s v = .ok r ∧
      r.map (fun o => o.1.names) = details (if kern = [] then moments else kern) (override p v.names) ∧
      (∀ o ∈ r, o.1.missing = some p.fill ∧ o.2.coords = (Spec.used s v).map some) ∧
      ∀ idx : List Nat, idx.length = (Spec.used s v).length →
        if (p.missing = true ∧ s.missing idx = true) ∨ Spec.values s v idx = [] then ∀ o ∈ r, o.2.cell idx = none
        else ColCmd.Spec.Result kern (Spec.values s v idx) (r.map (fun o => o.2.cell idx)) := by
  have hd := g.different
  obtain ⟨ds, hds, hne, hmono, hcont, hinc, hin⟩ := dims_spec g
  have hn : 0 < v.vals.length := List.length_pos_iff.2 g.points
  have hfull : p.missing = true → (mapOf s v).length = s.coords.length := by
    intro hm
    rw [← used_length hd, Spec.used]
    rw [List.filter_eq_self.2, List.length_range]
    intro i hi
    classical
    rw [decide_eq_true_iff]
    rw [List.mem_range] at hi
    exact ⟨_, List.getElem?_eq_getElem hi, hall hm _ (List.getElem_mem hi)⟩
  obtain ⟨out, ho, o1, o2⟩ := bin_sample (stat k) (stat_nil k) ds hne hmono hcont hinc (fun (i : Nat) => ((v.vals[i]?).join).isNone)
    (fun (i : Nat) => ((v.vals[i]?).join).getD 0) v.vals.length hn _ (hsort v.vals.length (cellNumber ds (fun (i : Nat) => ((v.vals[i]?).join).isNone)))
    (fun c => p.missing && s.missing c) (remapped (mapOf s v))
  have hout := (output_coords (has v) (s.coords.map dimName) (dimName_pairwise hd)).trans (congrArg (List.map some) (used_eq s v).symm)
  obtain ⟨-, -, hsz⟩ := ColCmd.statistic_named hstat
  refine ⟨_, by
    rw [binVar, if_neg (fun h => h.2 (hfull h.1)), hds]
    dsimp only
    rw [ho], ?_, ?_, ?_⟩
  · rw [List.map_map]
    exact List.zipIdx_map_fst _ _
  · intro o hom
    obtain ⟨d, -, rfl⟩ := List.mem_map.1 hom
    exact ⟨rfl, hout⟩
  · intro idx hidx
    rw [used_length hd] at hidx
    have hback := remapped_back hd idx hidx
    have hcell : ∀ r : List (Option ℝ), r.length = k.size → out (back (mapOf s v) idx) = some r →
        ((details (if kern = [] then moments else kern) (override p v.names)).zipIdx.map (fun d => ((⟨d.1, some p.fill⟩, ⟨outputCoords (mapOf s v), fun idx =>
          ((out (back (mapOf s v) idx)).bind (fun r => r[d.2]?)).join⟩) : Out × Cube))).map (fun o => o.2.cell idx) = r := by
      intro r hr e
      rw [List.map_map]
      refine List.ext_getElem? fun i => ?_
      rw [List.getElem?_map, List.getElem?_zipIdx]
      by_cases hi : i < k.size
      · rw [List.getElem?_eq_getElem (by rw [hsz]; exact hi), List.getElem?_eq_getElem (show i < r.length by omega)]
        simp only [Option.map_some, Nat.zero_add]
        show some ((out (back (mapOf s v) idx)).bind (fun r => r[i]?)).join = _
        rw [e, Option.bind_some, List.getElem?_eq_getElem (show i < r.length by omega)]
        rfl
      · rw [List.getElem?_eq_none (by rw [hsz]; omega), List.getElem?_eq_none (by omega)]
        rfl
    have hnone : out (back (mapOf s v) idx) = none → ∀ o ∈ (details (if kern = [] then moments else kern) (override p v.names)).zipIdx.map (fun d =>
        ((⟨d.1, some p.fill⟩, ⟨outputCoords (mapOf s v), fun idx => ((out (back (mapOf s v) idx)).bind (fun r => r[d.2]?)).join⟩) : Out × Cube)), o.2.cell idx = none := by
      intro e o hom
      obtain ⟨d, -, rfl⟩ := List.mem_map.1 hom
      dsimp only
      rw [e]
      rfl
    by_cases hm : p.missing = true ∧ s.missing idx = true
    · rw [if_pos (.inl hm)]
      refine hnone (o1 _ ?_)
      rw [hback, hm.1, hm.2]
      rfl
    · have hlook : (p.missing && s.missing (remapped (mapOf s v) (back (mapOf s v) idx))) = false := by
        rw [hback]
        cases h1 : p.missing <;> cases h2 : s.missing idx <;> simp_all
      obtain ⟨ps, p1, p2, p3⟩ := o2 _ hlook
      have hperm := values_eq s v idx ps p1 (fun q => by
        rw [p2]
        constructor
        · rintro ⟨a, b, c⟩; exact ⟨a, b, (hin idx q hidx a).1 c⟩
        · rintro ⟨a, b, c⟩; exact ⟨a, b, (hin idx q hidx a).2 c⟩)
      by_cases hv : Spec.values s v idx = []
      · rw [if_pos (.inr hv)]
        rw [hv] at hperm
        have : ps = [] := by simpa using hperm.eq_nil
        subst this
        exact hnone (by rw [p3]; exact stat_nil k)
      · rw [if_neg (not_or.2 ⟨hm, hv⟩)]
        have hps : ps.map (fun (i : Nat) => ((v.vals[i]?).join).getD 0) ≠ [] := by
          intro e
          rw [e] at hperm
          exact hv hperm.symm.eq_nil
        obtain ⟨r, e1, e2, e3⟩ := stat_result hstat _ hps
        rw [hcell r e2 (p3.trans e1)]
        exact result_perm hperm e3

/-! ### The command -/

theorem matter {l : Opts} (hd : (l.map Prod.fst).Nodup) (sampleVar : Bool) : Spec.Matter l sampleVar (missingFlag sampleVar l) := by
  refine ⟨fun h => ?_, fun h => ?_, fun v h => ?_⟩
  · rw [missingFlag]
    cases e : l.lookup kMissing with
    | some v => exact absurd ((InterpCmd.lookup_mem hd).2 e) (h v)
    | none => rfl
  · rw [missingFlag, (InterpCmd.lookup_mem hd).1 h]; rfl
  · rw [missingFlag, (InterpCmd.lookup_mem hd).1 h]
    simp [checkBoolean]

theorem matter_unique {l : Opts} (hd : (l.map Prod.fst).Nodup) {sv m m' : Bool} (h : Spec.Matter l sv m) (h' : Spec.Matter l sv m') : m = m' := by
  cases e : l.lookup kMissing with
  | none =>
    have hn : ∀ v, (kMissing, v) ∉ l := fun v hv => by rw [(InterpCmd.lookup_mem hd).1 hv] at e; cases e
    rw [h.1 hn, h'.1 hn]
  | some v =>
    have hm := (InterpCmd.lookup_mem hd).2 e
    cases v with
    | none => rw [h.2.1 hm, h'.2.1 hm]
    | some v => exact Bool.eq_iff_iff.2 ((h.2.2 v hm).trans (h'.2.2 v hm).symm)

theorem text_nodup {how : Str} {l : Opts} {col : Option (Str × Opts)} (ht : InterpCmd.Spec.Text how l col) : (l.map Prod.fst).Nodup := by
  rcases ht with ⟨-, -, rfl⟩ | ⟨-, h⟩
  · simp
  · exact h.different

theorem plan {num : Str → Option ℚ} {kernels : List Str} {how : Str} {l : Opts} {col : Option (Str × Opts)} {kern : Str} (sampleVar : Bool)
    (ht : InterpCmd.Spec.Text how l col) (hhow : how ∈ ["".toList, "bin".toList]) (hkeys : ∀ kv ∈ l, kv.1 ∉ ColOpts.Spec.given)
    (hF : ∀ v, (kFill, some v) ∈ l → ∃ x, num v = some x) (hk : kern = [] ∨ kern ∈ kernels) :
    ∃ p m fill, colCommand num kernels sampleVar true false col (some (kern, [])) = .ok p ∧ Spec.Matter l sampleVar m ∧
      ColOpts.Spec.Says (fun v x => num v = some x) l kFill fill ∧ p.work = .binGrid (if kern = [] then moments else kern) ∧ p.missing = m ∧ p.fill = fill ∧
      (∀ own, InterpCmd.Spec.Named l kName own (orElse p.name own)) ∧ (∀ own, InterpCmd.Spec.Named l kLong own (orElse p.long own)) ∧
      (∀ own, InterpCmd.Spec.Named l kUnits own (orElse p.units own)) := by
  have hd := text_nodup ht
  have hcol : col.getD ([], []) = (how, l) := by
    rcases ht with ⟨rfl, rfl, rfl⟩ | ⟨rfl, h⟩
    · rfl
    · rw [Method.c85_method _ _ h]; rfl
  have harg := InterpCmd.arg_filter hd (k := kFill) (by decide)
  have hbox : how ≠ "box".toList := by rintro rfl; revert hhow; decide
  have hacc : ∃ p, colCommand num kernels sampleVar true false (some (how, l)) (some (kern, [])) = .ok p := by
    rw [c178_kernel]
    refine ⟨hk.imp id (fun h => ⟨h, by simp⟩), ?_, fun kv hkv => .inl (hkeys kv hkv), fun v hv => ?_, by simp, fun h => ?_⟩
    · rcases List.mem_cons.1 hhow with rfl | h
      · decide
      · rw [List.mem_singleton] at h; subst h; decide
    · rcases harg with ⟨w, hw, e⟩ | ⟨-, e⟩
      · rw [e] at hv; injection hv with hv; subst hv; exact hF _ hw
      · rw [e] at hv; cases hv
    · rcases h with ⟨h, -⟩ | ⟨-, -, h⟩
      · cases h
      · exact absurd h hbox
  obtain ⟨p, hp⟩ := hacc
  have hp' := hp
  rw [colCommand] at hp'
  dsimp only [Option.getD_some] at hp'
  have hkn : kernelOf kernels kern [] = .ok (if kern = [] then none else some kern) := by
    rw [kernelOf]
    by_cases h0 : kern = []
    · rw [if_pos h0, if_pos h0]
    · rw [if_neg h0, if_neg h0, if_neg (fun h => h (hk.resolve_left h0))]
      by_cases h1 : kern = moments
      · rw [if_pos h1]; rfl
      · rw [if_neg h1]; rfl
  rw [hkn] at hp'
  dsimp only at hp'
  obtain ⟨w1, w2, w3, w4, w5, w6⟩ := c178_work _ _ _ _ _ _ _ _ hp'
  refine ⟨p, _, p.fill, ?_, matter hd sampleVar, ?_, ?_, w1, rfl, fun own => ?_, fun own => ?_, fun own => ?_⟩
  · rw [← hp, colCommand, colCommand, hcol]
    rfl
  · rcases harg with ⟨v, hv, e⟩ | ⟨hn, e⟩
    · obtain ⟨x, hx⟩ := hF v hv
      exact .inl ⟨v, x, hv, hx, by rw [w5, e]; exact hx⟩
    · exact .inr ⟨hn, by rw [w5, e]; rfl⟩
  · rcases w6 with ⟨h, -⟩ | ⟨-, h⟩
    · exact absurd h hbox
    · rw [h]
      by_cases h0 : kern = []
      · rw [if_pos h0, if_pos h0]; rfl
      · rw [if_neg h0, if_neg h0]; rfl
  · rw [w2]; exact InterpCmd.named hd (by decide) own
  · rw [w3]; exact InterpCmd.named hd (by decide) own
  · rw [w4]; exact InterpCmd.named hd (by decide) own

theorem statistic_dataOnly {n : Str} {k : Colloc.Kernel} (h : ColCmd.Statistic n k) : dataOnly k = true := by
  rcases h with ⟨-, rfl⟩ | ⟨-, rfl⟩ | ⟨-, rfl⟩ | ⟨-, rfl⟩ | ⟨-, rfl⟩ | ⟨-, rfl⟩ <;> rfl

/-- **C193.** `cis col` of points onto a grid with `bin` (also if no method is given), any general options in any order, and a statistic (`moments` if none
is given), for any number of variables: for a sample whose cells follow each other upwards, and with longitudes in one of the two conventions, each
variable yields its results, in order, under the name, long name and units given as options or else its own, with the fill value. Their dimensions are
those of the sample that the data have coordinates for, in the order of the sample. In every cell the values are the statistic of exactly the valid values
of the points in the cell, longitudes being angles, and missing if there are none, or if the sample is missing there and this matters (then the data must
have all coordinates of the sample). -/
theorem c193_collocate (num : Str → Option ℚ) (kernels : List Str) (sort : Nat → (Nat → Int) → List Nat)
    (hsort : ∀ n key, DataIndex.Spec.Sorts n key (sort n key)) (sampleVar : Bool) (how : Str) (l : Opts) (col : Option (Str × Opts)) (kern : Str)
    (s : Sample) (vars : List Var)
    (ht : InterpCmd.Spec.Text how l col) (hhow : how ∈ ["".toList, "bin".toList]) (hkeys : ∀ kv ∈ l, kv.1 ∉ ColOpts.Spec.given)
    (hF : ∀ v, (kFill, some v) ∈ l → ∃ x, num v = some x) (hk : kern = [] ∨ kern ∈ kernels) (hstat : kern ∈ ColCmd.Spec.statistics)
    (hgood : ∀ v ∈ vars, Spec.Good s v) (hall : Spec.Matter l sampleVar true → ∀ v ∈ vars, ∀ c ∈ s.coords, Spec.Shared v c) :
    ∃ (m : Bool) (fill : Option ℚ) (res : List (List (Out × Cube))), Spec.Matter l sampleVar m ∧ ColOpts.Spec.Says (fun v x => num v = some x) l kFill fill ∧
      run num kernels sort sampleVar col (some (kern, [])) s vars = .ok res.flatten ∧
      List.Forall₂ (fun (v : Var) (r : List (Out × Cube)) =>
        (∃ o ∈ r.head?, InterpCmd.Spec.Named l kName (some v.names.name) (some o.1.names.name) ∧ InterpCmd.Spec.Named l kLong v.names.long o.1.names.long ∧
          InterpCmd.Spec.Named l kUnits v.names.units o.1.names.units ∧ o.1.names.standard = v.names.standard ∧
          r.map (fun o => o.1.names.name) = ColOpts.Spec.names (if kern = [] then moments else kern) o.1.names.name) ∧
        (∀ o ∈ r, o.1.missing = some fill ∧ o.2.coords = (Spec.used s v).map some) ∧
        ∀ idx : List Nat, idx.length = (Spec.used s v).length →
          if (m = true ∧ s.missing idx = true) ∨ Spec.values s v idx = [] then ∀ o ∈ r, o.2.cell idx = none
          else ColCmd.Spec.Result kern (Spec.values s v idx) (r.map (fun o => o.2.cell idx))) vars res := by
  obtain ⟨k, hstat⟩ := ColCmd.statistic_exists hstat
  obtain ⟨p, m, fill, e, hm, hf, hw, hpm, hpf, hN, hL, hU⟩ := plan (num := num) (kernels := kernels) sampleVar ht hhow hkeys hF hk
  subst hpm
  subst hpf
  obtain ⟨hn, -, -⟩ := ColCmd.statistic_named hstat
  have key : ∃ res : List (List (Out × Cube)), eachVar sort p (if kern = [] then moments else kern) k s vars = .ok res.flatten ∧
      List.Forall₂ (fun (v : Var) (r : List (Out × Cube)) =>
        r.map (fun o => o.1.names) = details (if kern = [] then moments else kern) (override p v.names) ∧
        (∀ o ∈ r, o.1.missing = some p.fill ∧ o.2.coords = (Spec.used s v).map some) ∧
        ∀ idx : List Nat, idx.length = (Spec.used s v).length →
          if (p.missing = true ∧ s.missing idx = true) ∨ Spec.values s v idx = [] then ∀ o ∈ r, o.2.cell idx = none
          else ColCmd.Spec.Result kern (Spec.values s v idx) (r.map (fun o => o.2.cell idx))) vars res := by
    have hall' : p.missing = true → ∀ v ∈ vars, ∀ c ∈ s.coords, Spec.Shared v c := fun h => hall (h ▸ hm)
    clear hall
    induction vars with
    | nil => exact ⟨[], rfl, .nil⟩
    | cons v t ih =>
      obtain ⟨rs, h1, h2⟩ := ih (fun v hv => hgood v (by simp [hv])) (fun h v hv => hall' h v (by simp [hv]))
      obtain ⟨r, h3, h4⟩ := binVar_spec hsort hstat p s v (hgood v (by simp)) (fun h => hall' h v (by simp))
      exact ⟨r :: rs, by rw [eachVar, h3]; dsimp only; rw [h1]; rfl, .cons h4 h2⟩
  obtain ⟨res, h1, h2⟩ := key
  refine ⟨p.missing, p.fill, res, hm, hf, ?_, ?_⟩
  · rw [run, e]
    dsimp only
    rw [hw]
    dsimp only
    rw [hn]
    dsimp only
    rw [if_pos (statistic_dataOnly hstat)]
    exact h1
  · refine h2.imp ?_
    rintro v r ⟨a, b, c⟩
    refine ⟨?_, b, c⟩
    obtain ⟨d1, d2⟩ := details_names (if kern = [] then moments else kern) (override p v.names)
    rw [← a] at d1 d2
    rw [List.map_map] at d1
    cases r with
    | nil => simp at d2
    | cons o t =>
      rw [List.map_cons, List.head?_cons] at d2
      injection d2 with d2
      have hname : some (override p v.names).name = orElse p.name (some v.names.name) := by
        rw [override]
        dsimp only
        rw [orElse]
        split
        · rfl
        · rename_i h
          cases hp : p.name with
          | none => exact absurd (.inl hp) h
          | some x => rfl
      refine ⟨o, rfl, ?_, ?_, ?_, ?_, ?_⟩
      · rw [d2, hname]; exact hN _
      · rw [d2]; exact hL _
      · rw [d2]; exact hU _
      · rw [d2]; rfl
      · rw [d2]; exact d1

/-- **C193** (refused). If missing values of the sample matter and the data lack one of the coordinates of the sample, nothing is collocated: the command
ends with a message. -/
theorem c193_refused (num : Str → Option ℚ) (kernels : List Str) (sort : Nat → (Nat → Int) → List Nat) (sampleVar : Bool) (how : Str) (l : Opts)
    (col : Option (Str × Opts)) (kern : Str) (s : Sample) (v : Var) (vars : List Var)
    (ht : InterpCmd.Spec.Text how l col) (hhow : how ∈ ["".toList, "bin".toList]) (hkeys : ∀ kv ∈ l, kv.1 ∉ ColOpts.Spec.given)
    (hF : ∀ v, (kFill, some v) ∈ l → ∃ x, num v = some x) (hk : kern = [] ∨ kern ∈ kernels) (hstat : kern ∈ ColCmd.Spec.statistics)
    (hd : (s.coords.map SCoord.std).Pairwise (fun a b => a = b → a = none)) (hm : Spec.Matter l sampleVar true) (hc : ∃ c ∈ s.coords, ¬ Spec.Shared v c) :
    run num kernels sort sampleVar col (some (kern, [])) s (v :: vars) = .error .refused := by
  obtain ⟨k, hstat⟩ := ColCmd.statistic_exists hstat
  obtain ⟨p, m, fill, e, hm', hf, hw, hpm, hpf, -⟩ := plan (num := num) (kernels := kernels) sampleVar ht hhow hkeys hF hk
  obtain ⟨hn, -, -⟩ := ColCmd.statistic_named hstat
  have hmt : p.missing = true := by rw [hpm]; exact matter_unique (text_nodup ht) hm' hm
  have hlt : (mapOf s v).length ≠ s.coords.length := by
    rw [← used_length hd, Spec.used]
    intro h
    obtain ⟨c, hc, hns⟩ := hc
    obtain ⟨i, hi⟩ := List.mem_iff_getElem?.1 hc
    have := List.length_filter_eq_length_iff.1 (h.trans List.length_range.symm) i (List.mem_range.2 (List.getElem?_eq_some_iff.1 hi).1)
    classical
    rw [decide_eq_true_iff] at this
    obtain ⟨c', hc', hs⟩ := this
    rw [hi] at hc'
    injection hc' with hc'
    subst hc'
    exact hns hs
  rw [run, e]
  dsimp only
  rw [hw]
  dsimp only
  rw [hn]
  dsimp only
  rw [if_pos (statistic_dataOnly hstat), eachVar, binVar, if_pos ⟨hmt, hlt⟩]

/-! ### What goes wrong with other samples (C194) -/

/-- Nothing is collocated if a coordinate that is used has one point and no bounds. -/
theorem dims_none {s : Sample} {v : Var} (hd : (s.coords.map SCoord.std).Pairwise (fun a b => a = b → a = none)) {c : SCoord} (hc : c ∈ s.coords)
    (hs : Spec.Shared v c) (hb : c.bounds = none) (hl : c.points.length < 2) : dimsOf s v = none := by
  cases hds : dimsOf s v with
  | none => rfl
  | some ds =>
    exfalso
    obtain ⟨i, hi⟩ := List.mem_iff_getElem?.1 hc
    have hu : i ∈ Spec.used s v := by
      classical
      rw [Spec.used, List.mem_filter, List.mem_range, decide_eq_true_iff]
      exact ⟨(List.getElem?_eq_some_iff.1 hi).1, c, hi, hs⟩
    obtain ⟨k, hk⟩ := List.mem_iff_getElem?.1 hu
    have hk' := (List.getElem?_eq_some_iff.1 hk).1
    rw [used_length hd, ← order_length hd] at hk'
    obtain ⟨e, he, hu'⟩ := order_coord hd (List.getElem?_eq_getElem hk')
    rw [hk] at hu'
    injection hu' with hu'
    have key : ∀ (m : List MapEntry) (ds : List (Dim ℚ)), e ∈ m → m.mapM (fun e => (s.coords[e.ci]?).bind (fun c => (boundsOf c).map (fun b => ((⟨c.points, b⟩,
        column s v e.hpi) : Dim ℚ)))) ≠ some ds := by
      intro m
      induction m with
      | nil => intro ds h; cases h
      | cons a t ih =>
        intro ds h hm
        rw [List.mapM_cons] at hm
        rcases List.mem_cons.1 h with rfl | h
        · have h0 : (s.coords[e.ci]?).bind (fun c => (boundsOf c).map (fun b => ((⟨c.points, b⟩, column s v e.hpi) : Dim ℚ))) = none := by
            rw [← hu', hi, Option.bind_some, boundsOf, hb]
            dsimp only
            rw [if_pos hl]; rfl
          rw [h0] at hm
          cases hm
        · cases ha : (s.coords[a.ci]?).bind (fun c => (boundsOf c).map (fun b => ((⟨c.points, b⟩, column s v a.hpi) : Dim ℚ))) with
          | none => rw [ha] at hm; cases hm
          | some d =>
            rw [ha] at hm
            cases ht : t.mapM (fun e => (s.coords[e.ci]?).bind (fun c => (boundsOf c).map (fun b => ((⟨c.points, b⟩, column s v e.hpi) : Dim ℚ)))) with
            | none => rw [ht] at hm; cases hm
            | some r => exact ih r h ht
    exact key _ ds (List.mem_of_getElem? he) hds

/-- **C194** is violated by samples with a level, time or position that is the only one and has no bounds: no data can be collocated onto them. -/
theorem c194_single_violated (num : Str → Option ℚ) (kernels : List Str) (sort : Nat → (Nat → Int) → List Nat) (how : Str) (l : Opts)
    (col : Option (Str × Opts)) (kern : Str) (s : Sample) (v : Var) (vars : List Var)
    (ht : InterpCmd.Spec.Text how l col) (hhow : how ∈ ["".toList, "bin".toList]) (hkeys : ∀ kv ∈ l, kv.1 ∉ ColOpts.Spec.given)
    (hF : ∀ v, (kFill, some v) ∈ l → ∃ x, num v = some x) (hk : kern = [] ∨ kern ∈ kernels) (hstat : kern ∈ ColCmd.Spec.statistics)
    (hd : (s.coords.map SCoord.std).Pairwise (fun a b => a = b → a = none)) (hm : Spec.Matter l false false)
    (c : SCoord) (hc : c ∈ s.coords) (hs : Spec.Shared v c) (hb : c.bounds = none) (h1 : c.points.length = 1) :
    run num kernels sort false col (some (kern, [])) s (v :: vars) = .error .value := by
  obtain ⟨k, hstat⟩ := ColCmd.statistic_exists hstat
  obtain ⟨p, m, fill, e, hm', hf, hw, hpm, hpf, -⟩ := plan (num := num) (kernels := kernels) false ht hhow hkeys hF hk
  obtain ⟨hn, -, -⟩ := ColCmd.statistic_named hstat
  have hmt : p.missing = false := by rw [hpm]; exact matter_unique (text_nodup ht) hm' hm
  rw [run, e]
  dsimp only
  rw [hw]
  dsimp only
  rw [hn]
  dsimp only
  rw [if_pos (statistic_dataOnly hstat), eachVar, binVar, if_neg (by rw [hmt]; simp), dims_none hd hc hs hb (by omega)]

/-- **C194** is violated by samples that are variables with a scalar coordinate (or any other that belongs to no dimension): although the data have
coordinates for all dimensions, nothing is collocated, unless the option says that missing values of the sample do not matter. -/
theorem c194_scalar_violated (num : Str → Option ℚ) (kernels : List Str) (sort : Nat → (Nat → Int) → List Nat) (kern : Str) (s : Sample) (v : Var)
    (vars : List Var) (hk : kern = [] ∨ kern ∈ kernels) (hstat : kern ∈ ColCmd.Spec.statistics)
    (hd : (s.coords.map SCoord.std).Pairwise (fun a b => a = b → a = none)) (hc : ∃ c ∈ s.coords, c.dim = false) :
    run num kernels sort true none (some (kern, [])) s (v :: vars) = .error .refused := by
  refine c193_refused num kernels sort true [] [] none kern s v vars (.inl ⟨rfl, rfl, rfl⟩) (by decide) (by simp) (by simp) hk hstat hd
    ⟨fun _ => rfl, fun _ => rfl, by simp⟩ ?_
  obtain ⟨c, hc, h⟩ := hc
  exact ⟨c, hc, fun hs => by rw [hs.1] at h; cases h⟩

/-- The longitudes of a global grid with `n` columns of which the first is at Greenwich. -/
def Spec.greenwich (n : Nat) : SCoord := ⟨true, some 1, (List.range n).map (fun (i : Nat) => (i : ℚ) * (360 / n)), none⟩

/-- A point that has nothing but a longitude. -/
def Spec.at (x y : ℚ) : Var := ⟨⟨"a".toList, none, none, none⟩, fun h => if h = 1 then some [x] else none, [some y]⟩

theorem greenwich_points (n : Nat) (i : Nat) (hi : i < n) : (Spec.greenwich n).points.getD i 0 = (i : ℚ) * (360 / n) := by
  rw [Spec.greenwich, List.getD_eq_getElem?_getD, List.getElem?_map, List.getElem?_range hi]; rfl

/-- **C194** is violated by every global grid whose first column is at Greenwich: a point less than half a cell west of Greenwich lies in the cells of
this column, but its value is in no cell of the result. -/
theorem c194_greenwich_violated (num : Str → Option ℚ) (kernels : List Str) (sort : Nat → (Nat → Int) → List Nat)
    (hsort : ∀ n key, DataIndex.Spec.Sorts n key (sort n key)) (missing : List Nat → Bool) (n : Nat) (hn : 2 ≤ n) (x y : ℚ)
    (h1 : 360 - 360 / n / 2 ≤ x) (h2 : x < 360) (kern : Str) (hk : kern = [] ∨ kern ∈ kernels) (hstat : kern ∈ ColCmd.Spec.statistics) :
    Spec.Inside ⟨[Spec.greenwich n], missing⟩ (Spec.at x y) [0] 0 ∧
      ∃ r, run num kernels sort false none (some (kern, [])) ⟨[Spec.greenwich n], missing⟩ [Spec.at x y] = .ok r ∧ ∀ o ∈ r, ∀ idx, o.2.cell idx = none := by
  have hn0 : (0 : ℚ) < n := by exact_mod_cast (by omega : 0 < n)
  have hlen : (Spec.greenwich n).points.length = n := by simp [Spec.greenwich]
  have hdw : (360 : ℚ) / n ≤ 180 := by
    rw [div_le_iff₀ hn0]
    have : (2 : ℚ) ≤ n := by exact_mod_cast hn
    linarith
  have hdp : (0 : ℚ) < 360 / n := by positivity
  have hsh : Spec.Shared (Spec.at x y) (Spec.greenwich n) := ⟨rfl, 1, rfl, by decide, rfl⟩
  constructor
  · have hu : Spec.used ⟨[Spec.greenwich n], missing⟩ (Spec.at x y) = [0] := by
      classical
      rw [Spec.used]
      simp only [List.length_singleton, List.range_one, List.filter_cons, List.filter_nil]
      rw [if_pos (by rw [decide_eq_true_iff]; exact ⟨_, rfl, hsh⟩)]
    rw [Spec.Inside, hu]
    refine .cons ⟨_, rfl, 1, [x], x, Spec.edge (Spec.greenwich n).points 0, Spec.edge (Spec.greenwich n).points 1, rfl, rfl, rfl, ?_, ?_⟩ .nil
    · have hcut : ∀ z, Spec.cut (Spec.greenwich n) z = z := fun z => by rw [Spec.cut, if_neg (fun h => by simp [Spec.greenwich] at h)]
      show 0 < (Spec.greenwich n).points.length ∧ _ = Spec.cut _ _ ∧ _ = Spec.cut _ _
      rw [hcut, hcut, hlen]
      exact ⟨by omega, rfl, rfl⟩
    · rw [if_pos rfl]
      refine ⟨-1, ?_, ?_⟩
      · rw [Spec.edge, if_pos rfl, greenwich_points n 0 (by omega), greenwich_points n 1 (by omega)]
        push_cast
        linarith
      · rw [Spec.edge, if_neg (by omega), if_neg (by rw [hlen]; omega), greenwich_points n 1 (by omega), Nat.sub_self, greenwich_points n 0 (by omega)]
        push_cast
        linarith
  · obtain ⟨k, hstat⟩ := ColCmd.statistic_exists hstat
    obtain ⟨p, m, fill, e, hm', hf, hw, hpm, hpf, -⟩ := plan (num := num) (kernels := kernels) (how := []) (l := []) (col := none) (kern := kern) false
      (.inl ⟨rfl, rfl, rfl⟩) (by decide) (by simp) (by simp) hk
    obtain ⟨hnm, -, -⟩ := ColCmd.statistic_named hstat
    have hmt : p.missing = false := by rw [hpm]; exact hm'.1 (by simp)
    have hmap : mapOf ⟨[Spec.greenwich n], missing⟩ (Spec.at x y) = [⟨1, 0, 0⟩] := rfl
    have hdims : dimsOf ⟨[Spec.greenwich n], missing⟩ (Spec.at x y) =
        some [(⟨(Spec.greenwich n).points, guessBounds (Spec.greenwich n).points⟩, column ⟨[Spec.greenwich n], missing⟩ (Spec.at x y) 1)] := by
      rw [dimsOf, hmap]
      have : boundsOf (Spec.greenwich n) = some (guessBounds (Spec.greenwich n).points) := by
        rw [boundsOf]
        show (if (Spec.greenwich n).points.length < 2 then none else some (if (some 1 : Option Nat) = some 0 then _ else _)) = _
        rw [if_neg (by rw [hlen]; omega), if_neg (by decide)]
      simp [this]
    have hcol : column ⟨[Spec.greenwich n], missing⟩ (Spec.at x y) 1 0 = x := by
      have hst : lonStart [Spec.greenwich n] = some 0 := by
        rw [lonStart_eq (c := Spec.greenwich n) (by simp) (by simp) rfl]
        rcases range_start (Spec.greenwich n).points with ⟨-, z, hz, hneg⟩ | ⟨e, -⟩
        · exfalso
          rw [Spec.greenwich, List.mem_map] at hz
          obtain ⟨i, -, rfl⟩ := hz
          have : (0 : ℚ) ≤ (i : ℚ) * (360 / n) := by positivity
          linarith
        · rw [e]
      have := column_eq (s := ⟨[Spec.greenwich n], missing⟩) (v := Spec.at x y) (h := 1) (moved_lon hst (l := [x]) rfl) (p := 0) (x := turn 0 x) rfl
      rw [turn] at this
      have hx : ¬ x < 0 := by linarith
      simp only [if_neg hx, if_neg (show ¬ x ≥ 0 + 360 by linarith)] at this
      exact this
    have hcn : cellNumber [((⟨(Spec.greenwich n).points, guessBounds (Spec.greenwich n).points⟩, column ⟨[Spec.greenwich n], missing⟩ (Spec.at x y) 1) : Dim ℚ)]
        (fun (i : Nat) => (((Spec.at x y).vals[i]?).join).isNone) 0 = -1 := by
      rw [cellNumber, if_neg]
      have hdec : (⟨(Spec.greenwich n).points, guessBounds (Spec.greenwich n).points⟩ : Coord ℚ).decreasing = false := by
        rw [Coord.decreasing]
        split
        · rename_i p0 p1 t hp
          have e0 := greenwich_points n 0 (by omega)
          have e1 := greenwich_points n 1 (by omega)
          rw [show (Spec.greenwich n).points = p0 :: p1 :: t from hp] at e0 e1
          have e0' : p0 = ((0 : Nat) : ℚ) * (360 / n) := e0
          have e1' : p1 = ((1 : Nat) : ℚ) * (360 / n) := e1
          rw [decide_eq_false_iff_not, e0', e1']
          push_cast
          linarith
        · rfl
      have hmax : (⟨(Spec.greenwich n).points, guessBounds (Spec.greenwich n).points⟩ : Coord ℚ).maxBound = some ((360 : ℚ) - 360 / (n : ℚ) / 2) := by
        rw [Coord.maxBound, hdec]
        simp only [Bool.false_eq_true, if_false]
        have hg := guess_getElem (Spec.greenwich n).points (by rw [hlen]; omega)
        have hgl : (guessBounds (Spec.greenwich n).points).length = n := by
          refine le_antisymm ?_ ?_
          · by_contra hc
            have := hg n
            rw [hlen, if_neg (lt_irrefl _), List.getElem?_eq_none_iff] at this
            omega
          · by_contra hc
            have := hg (guessBounds (Spec.greenwich n).points).length
            rw [hlen, if_pos (by omega), List.getElem?_eq_none (le_refl _)] at this
            cases this
        rw [List.getLast?_eq_getElem?, hgl, hg, hlen, if_pos (by omega), Option.map_some]
        dsimp only
        rw [Spec.edge, if_neg (by omega), if_pos (by rw [hlen]; omega), show n - 1 + 1 - 1 = n - 1 by omega, show n - 1 + 1 - 2 = n - 2 by omega,
          greenwich_points n (n - 1) (by omega), greenwich_points n (n - 2) (by omega)]
        push_cast [show 1 ≤ n by omega, hn]
        congr 1
        field_simp
        ring
      have hraw : rawIndex (⟨(Spec.greenwich n).points, guessBounds (Spec.greenwich n).points⟩ : Coord ℚ) x = -1 := by
        rw [rawIndex, hmax]
        exact if_neg (by linarith)
      rw [gridMask]
      simp only [List.all_cons, hcol, hraw]
      simp
    have hord : sort 1 (cellNumber [((⟨(Spec.greenwich n).points, guessBounds (Spec.greenwich n).points⟩, column ⟨[Spec.greenwich n], missing⟩ (Spec.at x y) 1) : Dim ℚ)]
        (fun (i : Nat) => (((Spec.at x y).vals[i]?).join).isNone)) = [0] := by
      have := (hsort 1 (cellNumber [((⟨(Spec.greenwich n).points, guessBounds (Spec.greenwich n).points⟩, column ⟨[Spec.greenwich n], missing⟩ (Spec.at x y) 1) : Dim ℚ)]
        (fun (i : Nat) => (((Spec.at x y).vals[i]?).join).isNone))).1
      rw [List.range_one] at this
      exact List.perm_singleton.1 this
    have hbin : ∀ f, binOnto (stat k) [((⟨(Spec.greenwich n).points, guessBounds (Spec.greenwich n).points⟩, column ⟨[Spec.greenwich n], missing⟩ (Spec.at x y) 1) : Dim ℚ)]
        (fun (i : Nat) => (((Spec.at x y).vals[i]?).join).isNone) (fun (i : Nat) => (((Spec.at x y).vals[i]?).join).getD 0) [0] f = some (fun _ => none) := by
      intro f
      rw [binOnto, sliceIterator, List.map_singleton, hcn]
      rfl
    refine ⟨((details (if kern = [] then moments else kern) (override p (Spec.at x y).names)).zipIdx.map (fun d =>
      ((⟨d.1, some p.fill⟩, ⟨outputCoords (mapOf ⟨[Spec.greenwich n], missing⟩ (Spec.at x y)), fun _ => none⟩) : Out × Cube))) ++ [], ?_, ?_⟩
    · rw [run, e]
      dsimp only
      rw [hw]
      dsimp only
      rw [hnm]
      dsimp only
      rw [if_pos (statistic_dataOnly hstat), eachVar, binVar, if_neg (by rw [hmt]; simp), hdims]
      dsimp only
      rw [show (Spec.at x y).vals.length = 1 from rfl, hord, hbin]
      dsimp only
      rw [eachVar]
      rfl
    · intro o ho idx
      rw [List.append_nil] at ho
      obtain ⟨d, -, rfl⟩ := List.mem_map.1 ho
      rfl

/-! ### Non-vacuity: data with positions and times on a grid of longitudes and latitudes, in this order -/

def exSample : Sample := ⟨[⟨true, some 1, [-90, 90], none⟩, ⟨true, some 0, [10, 20, 40], some [(0, 15), (15, 30), (30, 50)]⟩], fun idx => idx == [1, 2]⟩

/-- Four points, the third with a missing value. -/
def exVar : Var := ⟨⟨"a".toList, none, none, none⟩, fun h => if h = 0 then some [12, 14, 3, 35] else if h = 1 then some [190, 200, 210, 20]
  else if h = 4 then some [0, 1, 2, 3] else none, [some 1, some 5, none, some 7]⟩

theorem ex_shared : ∀ c ∈ exSample.coords, Spec.Shared exVar c := by
  intro c hc
  simp only [exSample, List.mem_cons, List.not_mem_nil, or_false] at hc
  rcases hc with rfl | rfl
  · exact ⟨rfl, 1, rfl, by decide, rfl⟩
  · exact ⟨rfl, 0, rfl, by decide, rfl⟩

theorem ex_good : Spec.Good exSample exVar := by
  refine ⟨by simp [exSample], ⟨_, List.mem_cons_self .., ex_shared _ (List.mem_cons_self ..)⟩, ?_, ?_, by simp [exVar], ?_, ?_⟩
  · intro c hc _
    simp only [exSample, List.mem_cons, List.not_mem_nil, or_false] at hc
    rcases hc with rfl | rfl
    · exact ⟨by norm_num, fun _ => le_refl _, fun b h => (by cases h), fun b h => (by cases h), fun b h => (by cases h)⟩
    · refine ⟨by norm_num, fun h => (by cases h), fun b h => ?_, fun b h => ?_, fun b h => ?_⟩ <;> (injection h with h; subst h)
      · simp
      · intro x hx
        simp only [List.mem_cons, List.not_mem_nil, or_false] at hx
        rcases hx with rfl | rfl | rfl <;> norm_num
      · intro i x y hx hy
        match i with
        | 0 => injection hx with hx; injection hy with hy; rw [← hx, ← hy]
        | 1 => injection hx with hx; injection hy with hy; rw [← hx, ← hy]
        | 2 => cases hy
        | i + 3 => cases hx
  · intro c hc _ h1 i lo hi hcell
    simp only [exSample, List.mem_cons, List.not_mem_nil, or_false] at hc
    rcases hc with rfl | rfl
    · rw [if_pos ⟨-90, by simp, by norm_num⟩]
      obtain ⟨hi', e1, e2⟩ := hcell
      have h2 : i < 2 := hi'
      have : i = 0 ∨ i = 1 := by omega
      rcases this with rfl | rfl <;> (rw [e1, e2]; norm_num [Spec.cut, Spec.edge])
    · cases h1
  · intro h l hl
    simp only [exVar] at hl
    fin_cases h <;> simp at hl <;> (subst hl; rfl)
  · intro l hl x hx
    simp [exVar] at hl
    subst hl
    simp only [List.mem_cons, List.not_mem_nil, or_false] at hx
    rcases hx with rfl | rfl | rfl | rfl <;> norm_num

theorem ex_used : Spec.used exSample exVar = [0, 1] := by
  classical
  rw [Spec.used]
  show (List.range 2).filter _ = _
  refine List.filter_eq_self.2 fun i hi => ?_
  rw [decide_eq_true_iff]
  rw [List.mem_range] at hi
  have h2 : i < exSample.coords.length := hi
  exact ⟨_, List.getElem?_eq_getElem h2, ex_shared _ (List.getElem_mem h2)⟩

/-- The first point, at 190 degrees, lies in the first cell of longitudes, from -180 to 0. -/
example : Spec.Inside exSample exVar [0, 0] 0 := by
  rw [Spec.Inside, ex_used]
  refine .cons ⟨_, rfl, 1, _, 190, -180, 0, rfl, rfl, rfl, ⟨by decide, by norm_num [Spec.cut, Spec.edge], by norm_num [Spec.cut, Spec.edge]⟩, ?_⟩
    (.cons ⟨_, rfl, 0, _, 12, 0, 15, rfl, rfl, rfl, rfl, ?_⟩ .nil)
  · rw [if_pos rfl]; exact ⟨-1, by norm_num, by norm_num⟩
  · rw [if_neg (by decide)]; norm_num

example (sort : Nat → (Nat → Int) → List Nat) (hsort : ∀ n key, DataIndex.Spec.Sorts n key (sort n key)) :
    ∃ r, run ColOpts.exNum ["mean".toList] sort true (some (Method.methodArgs (Method.Spec.method "bin".toList [(kName, some "x".toList)])))
      (some ("mean".toList, [])) exSample [exVar, exVar] = .ok r ∧ r.length = 2 ∧ ∀ o ∈ r, o.1.names.name = "x".toList ∧ o.2.coords = [some 0, some 1] := by
  obtain ⟨m, fill, res, -, -, h3, h4⟩ := c193_collocate ColOpts.exNum ["mean".toList] sort hsort true "bin".toList [(kName, some "x".toList)] _ "mean".toList
    exSample [exVar, exVar] (.inr ⟨rfl, by decide, by decide, by decide, by decide +kernel, by decide⟩) (by decide) (by decide)
    (fun v hv => absurd (congrArg Prod.fst (List.eq_of_mem_singleton hv)) (by dsimp only; decide)) (.inr (by decide)) (by decide)
    (fun v hv => by simp at hv; subst hv; exact ex_good) (fun _ v hv => by simp at hv; subst hv; exact ex_shared)
  have hone : ∀ r : List (Out × Cube), (∃ o ∈ r.head?, InterpCmd.Spec.Named [(kName, some "x".toList)] kName (some exVar.names.name) (some o.1.names.name) ∧
      InterpCmd.Spec.Named [(kName, some "x".toList)] kLong exVar.names.long o.1.names.long ∧
      InterpCmd.Spec.Named [(kName, some "x".toList)] kUnits exVar.names.units o.1.names.units ∧ o.1.names.standard = exVar.names.standard ∧
      r.map (fun o => o.1.names.name) = ColOpts.Spec.names (if "mean".toList = [] then moments else "mean".toList) o.1.names.name) →
      r.map (fun o => o.1.names.name) = ["x".toList] := by
    rintro r ⟨o, -, hn, -, -, -, hr⟩
    have : o.1.names.name = "x".toList := by
      rcases hn with ⟨v, hv, -, e⟩ | ⟨hv, -⟩
      · have := congrArg Prod.snd (List.eq_of_mem_singleton hv)
        rw [Option.some.inj e]
        exact Option.some.inj this
      · exact absurd (hv _ (List.mem_singleton.2 rfl)) (by decide)
    rw [hr, this]
    rfl
  cases h4 with
  | cons a t =>
    cases t with
    | cons b t =>
      cases t
      rename_i r1 r2
      have e1 := hone r1 a.1
      have e2 := hone r2 b.1
      refine ⟨_, h3, ?_, ?_⟩
      · have l1 := congrArg List.length e1
        have l2 := congrArg List.length e2
        rw [List.length_map] at l1 l2
        simp only [List.flatten_cons, List.flatten_nil, List.length_append, l1, l2]
        rfl
      · intro o ho
        simp only [List.flatten_cons, List.flatten_nil, List.append_nil, List.mem_append] at ho
        rcases ho with ho | ho
        · refine ⟨?_, by rw [(a.2.1 o ho).2, ex_used]; rfl⟩
          have := List.mem_map_of_mem (f := fun o : Out × Cube => o.1.names.name) ho
          rw [e1] at this
          exact List.eq_of_mem_singleton this
        · refine ⟨?_, by rw [(b.2.1 o ho).2, ex_used]; rfl⟩
          have := List.mem_map_of_mem (f := fun o : Out × Cube => o.1.names.name) ho
          rw [e2] at this
          exact List.eq_of_mem_singleton this

/-- Four columns: a point at 350 degrees is lost. -/
example (sort : Nat → (Nat → Int) → List Nat) (hsort : ∀ n key, DataIndex.Spec.Sorts n key (sort n key)) :
    ∃ r, run ColOpts.exNum ["mean".toList] sort false none (some ("mean".toList, [])) ⟨[Spec.greenwich 4], fun _ => false⟩ [Spec.at 350 7] = .ok r ∧
      ∀ o ∈ r, ∀ idx, o.2.cell idx = none :=
  (c194_greenwich_violated ColOpts.exNum ["mean".toList] sort hsort (fun _ => false) 4 (by decide) 350 7 (by norm_num) (by norm_num) _ (.inr (by decide)) (by decide)).2

end Cis.BinCmd
