import Verif.GridColloc.Props
import Verif.Lon.Gridded
import Verif.Agg.BinCommand
set_option linter.unusedSectionVars false
set_option linter.unusedSimpArgs false

/-!
# `cis col` of gridded data onto a grid: from the text of the options to the values

The plan that the options make (C178) carried out by `GriddedCollocator` (C73, C74) for a list of variables, after the longitudes of each variable have
been brought into the range of the sample (C23). The interpolation of iris is a parameter, as in C73. Variables share no coordinate objects (C108),
and each dimension has a coordinate.
-/
namespace Cis.GridCmd
open Cis.Str
open Cis.ColOpts hiding Err
open Cis.GridColloc hiding Err
open Cis.Lon

variable {K V : Type} [Field K] [LinearOrder K] [IsStrictOrderedRing K] [FloorRing K]

/-! ### Model -/

/-- A gridded variable: its metadata, dimensions and values, and the names of its coordinates that belong to no dimension. -/
structure Var (K V : Type) where
  names : Names
  cube : Cube K V
  other : List String

inductive Err
  | options (e : ColOpts.Err)
  | value       -- ValueError
  | coord       -- CoordinateNotFoundError of iris
  | index       -- IndexError: no data
  | work (e : GridColloc.Err)
  | notModelled

/-- `coord.standard_name == 'longitude'`; names of coordinates are standard names here. -/
def lonName : String := "longitude"

/-- `_find_longitude_range` (col_implementations.py:1098-1110): the last coordinate called longitude counts. -/
def lonStart (coords : List (Coord K)) : Option K :=
  coords.foldl (fun low c => if c.name = lonName then some (findLongitudeRange c.pts) else low) none

/-- `GriddedData.set_longitude_range` (gridded_data.py:188-255): the longitude must be the coordinate of a dimension, else `dim_coords.index` (line 203)
raises a ValueError. The slices of the data along longitude are rolled with the points (C23); bounds are left out. -/
def setRange (st : K) (v : Var K V) : Except Err (Var K V) :=
  let k := v.cube.dims.findIdx (fun c => c.name = lonName)
  match v.cube.dims[k]? with
  | some c =>
    let g := griddedSetRange ⟨c.pts, none, List.range c.pts.length⟩ st
    .ok { v with cube := ⟨v.cube.dims.set k ⟨c.name, g.points⟩, fun idx => v.cube.get (idx.modify k (fun (i : Nat) => g.slices.getD i i))⟩ }
  | none => if lonName ∈ v.other then .error .value else .ok v

/-- `CommonDataList.set_longitude_range` (common_data.py:365-373). -/
def setRangeAll (st : K) : List (Var K V) → Except Err (List (Var K V))
  | [] => .ok []
  | v :: t =>
    match setRange st v with
    | .error e => .error e
    | .ok w =>
      match setRangeAll st t with
      | .error e => .error e
      | .ok ws => .ok (w :: ws)

/-- `_fix_longitude_range(points.coords(), data)` (col_implementations.py:613-614, 1113-1120). -/
def fixRange (s : Sample K) (vars : List (Var K V)) : Except Err (List (Var K V)) :=
  match lonStart (s.dims ++ s.aux) with
  | none => .ok vars
  | some st => setRangeAll st vars

/-- `_iris_interpolate` for a list of variables (col_implementations.py:699-733): the order of the dimensions is that of the first variable
(`GriddedDataList.dim_coords`, gridded_data.py:586-592), with which all are interpolated (gridded_data.py:516-526), transposed (gridded_data.py:576-583) and
masked. iris raises a ValueError if there is no coordinate to interpolate along (`zip(*[])`), a CoordinateNotFoundError if a variable lacks one, and a ValueError
if the length of the transposition is not the number of dimensions. A mask of another shape is taken to be a ValueError; broadcasting along dimensions of length
one, and masks without a missing cell, are left out. -/
def interpolateAll (interp : Cube K V → List (Target K) → Option V) (outGrid shared : List NS) (v₀ : Cube K V) (vs : List (Cube K V))
    (mask : Option (List Nat → Bool)) (newCoords : List (Coord K)) : Except Err (List (Cube K V)) :=
  let pairs := List.zipWith (fun (x : NS) (c : Coord K) => (x.1, c.pts)) shared newCoords
  if pairs.isEmpty then .error .value
  else if vs.all (fun v => pairs.all (fun p => v.dims.any (fun d => d.name == p.1))) then
    match outGrid.mapM (fun x => lookupDim (interpolateCube interp v₀ pairs).dims x.1) with
    | none => .error (.work .key)
    | some order =>
      if vs.all (fun v => v.dims.length = order.length) then
        let ts := vs.map (fun v => transpose (interpolateCube interp v pairs) order)
        if mask.isSome && ts.any (fun t => t.dims.map (fun c => c.pts.length) ≠ outGrid.map Prod.snd) then .error .value
        else .ok (ts.map (fun t => { t with get := applyMask t.get mask }))
      else .error .value
  else .error .coord

/-- `GriddedCollocator.collocate` for a list of variables (col_implementations.py:601-675): the coordinates are those of the first variable
(`CommonDataList.coords`, common_data.py:357-363). -/
def collocateAll (interp : Cube K V → List (Target K) → Option V) (missing : Bool) (s : Sample K) (vs : List (Cube K V)) : Except Err (List (Cube K V)) :=
  match vs with
  | [] => .error .index
  | v₀ :: _ =>
    let (sh, extra, repeatSize) := classify s v₀.dims
    let shared := sortShared sh
    let outGrid := shared ++ extra
    match (if missing then makeOutputMask s shared (outGrid.map Prod.snd) repeatSize else .ok none) with
    | .error e => .error (.work e)
    | .ok mask => interpolateAll interp outGrid shared v₀ vs mask (outGrid.filterMap (fun x => s.find x.1))

/-- `col_cmd` (cis_main.py:67-101) up to the save, for gridded data and a gridded sample. `sampleVar`: a variable of the sample is given. The results keep
the metadata of their variables and have no fill value (C178). -/
def run (num : Str → Option ℚ) (kernels : List Str) (interp : Bool → Bool → Cube K V → List (Target K) → Option V) (sampleVar : Bool)
    (col kern : Option (Str × Opts)) (s : Sample K) (vars : List (Var K V)) : Except Err (List (Out × Cube K V)) :=
  match colCommand num kernels sampleVar true true col kern with
  | .error e => .error (.options e)
  | .ok p =>
    match p.work with
    | .interpGrid nearest extrapolate =>
      match fixRange s vars with
      | .error e => .error e
      | .ok ws =>
        match collocateAll (interp nearest extrapolate) p.missing s (ws.map Var.cube) with
        | .error e => .error e
        | .ok rs => .ok ((vars.map (fun v => (⟨v.names, none⟩ : Out))).zip rs)
    | _ => .error .notModelled

/-! ### Specification -/

/-- The longitude of the sample. -/
def Spec.Longitude (s : Sample K) (c : Coord K) : Prop := c ∈ s.dims ++ s.aux ∧ c.name = "longitude"

/-- Where the range of longitudes of the sample starts. -/
def Spec.Start (c : Coord K) (st : K) : Prop := ((∃ x ∈ c.pts, x < 0) ∧ st = -180) ∨ ((∀ x ∈ c.pts, 0 ≤ x) ∧ st = 0)

/-- Longitudes are brought into the range of the sample if it has any. -/
def Spec.Turns (s : Sample K) (d : Coord K) : Prop := d.name = "longitude" ∧ ∃ l, Spec.Longitude s l

/-- The same data on the same grid, with all longitudes in the range of the sample: `c'` is `c` with its columns in another order, each at a longitude that
differs by whole turns. -/
structure Spec.Turned (s : Sample K) (c c' : Cube K V) : Prop where
  names : c'.dims.map Coord.name = c.dims.map Coord.name
  others : ∀ (k : Nat) (d : Coord K), c.dims[k]? = some d → ¬ Spec.Turns s d → c'.dims[k]? = some d
  range : ∀ (d : Coord K) (l : Coord K) (st : K), d ∈ c'.dims → d.name = "longitude" → Spec.Longitude s l → Spec.Start l st →
    d.pts.Pairwise (· < ·) ∧ ∀ x ∈ d.pts, st ≤ x ∧ x < st + 360
  values : ∃ f : List Nat → List Nat, (∀ idx, GridColloc.Spec.Valid c'.dims idx → GridColloc.Spec.Valid c.dims (f idx) ∧ c'.get idx = c.get (f idx) ∧
      ∀ (k : Nat) (d d' : Coord K) (i i' : Nat), c.dims[k]? = some d → c'.dims[k]? = some d' → (f idx)[k]? = some i → idx[k]? = some i' →
        (¬ Spec.Turns s d → i = i') ∧ ∃ x x', d.pts[i]? = some x ∧ d'.pts[i']? = some x' ∧ (¬ Spec.Turns s d → x' = x) ∧
          ∃ n : ℤ, x' = x + 360 * n) ∧
    ∀ idx, GridColloc.Spec.Valid c.dims idx → ∃ idx', GridColloc.Spec.Valid c'.dims idx' ∧ f idx' = idx

/-- The sample is missing at this place of the result: all its dimensions are among those of the data, so that each cell of the result belongs to one cell of
the sample, and this is masked. -/
def Spec.Missing (s : Sample K) (data : Cube K V) (idx : List Nat) : Prop :=
  (∀ c ∈ s.dims, ∃ d ∈ data.dims, d.name = c.name) ∧ ∃ m, s.mask = some m ∧ m (idx.take s.dims.length) = true

/-- What has to be known of a sample and data: names of coordinates differ, there is a common coordinate, other coordinates of the sample that are dimensions of
the data are scalar, and if both have longitudes, then those of the data increase within less than a turn and reach into the range of the sample. -/
structure Spec.Good (s : Sample K) (v : Var K V) : Prop where
  sample : GridColloc.Spec.Distinct (s.dims ++ s.aux)
  data : GridColloc.Spec.Distinct v.cube.dims
  common : ∃ c ∈ s.dims ++ s.aux, ∃ d ∈ v.cube.dims, d.name = c.name
  scalar : ∀ c ∈ s.aux, (∃ d ∈ v.cube.dims, d.name = c.name) → c.pts.length = 1
  dimension : (∃ l, Spec.Longitude s l) → "longitude" ∈ v.other → ∃ d ∈ v.cube.dims, d.name = "longitude"
  longitudes : ∀ l st, Spec.Longitude s l → Spec.Start l st → ∀ d ∈ v.cube.dims, d.name = "longitude" →
    d.pts.Pairwise (· < ·) ∧ (∀ a ∈ d.pts, ∀ b ∈ d.pts, b - a < 360) ∧ (∃ p ∈ d.pts, st ≤ p) ∧ ∃ p ∈ d.pts, p < st + 360

/-! ### Longitudes -/

theorem start_iff (c : Coord K) (st : K) : Spec.Start c st ↔ st = findLongitudeRange c.pts := by
  rw [Spec.Start, findLongitudeRange]
  by_cases h : ∃ x ∈ c.pts, x < 0
  · have hb : c.pts.any (fun l => decide (l < 0)) = true := by
      rw [List.any_eq_true]
      obtain ⟨x, hx, h0⟩ := h
      exact ⟨x, hx, by simpa using h0⟩
    rw [hb, if_pos rfl]
    constructor
    · rintro (⟨-, e⟩ | ⟨h', -⟩)
      · exact e
      · obtain ⟨x, hx, h0⟩ := h
        exact absurd (h' x hx) (not_le.2 h0)
    · intro e; exact .inl ⟨h, e⟩
  · have hb : c.pts.any (fun l => decide (l < 0)) = false := by
      rw [List.any_eq_false]
      intro x hx
      simpa using fun h0 => h ⟨x, hx, h0⟩
    rw [hb]
    constructor
    · rintro (⟨h', -⟩ | ⟨-, e⟩)
      · exact absurd h' h
      · simpa using e
    · intro e
      right
      refine ⟨fun x hx => not_lt.1 fun h0 => h ⟨x, hx, h0⟩, by simpa using e⟩

theorem lonStart_none {s : Sample K} (h : ∀ l, ¬ Spec.Longitude s l) : lonStart (s.dims ++ s.aux) = none := by
  rw [lonStart]
  have h' : ∀ c ∈ s.dims ++ s.aux, c.name ≠ lonName := fun c hc e => h c ⟨hc, e⟩
  generalize s.dims ++ s.aux = cs at h'
  generalize (none : Option K) = a
  induction cs generalizing a with
  | nil => rfl
  | cons x t ih =>
    rw [List.foldl_cons, if_neg (h' x (by simp))]
    exact ih (fun c hc => h' c (by simp [hc])) a

theorem lonStart_some {s : Sample K} (hd : GridColloc.Spec.Distinct (s.dims ++ s.aux)) {c : Coord K} (hc : Spec.Longitude s c) :
    lonStart (s.dims ++ s.aux) = some (findLongitudeRange c.pts) := by
  obtain ⟨hm, hn⟩ := hc
  rw [lonStart]
  generalize s.dims ++ s.aux = cs at hd hm
  have skip : ∀ (t : List (Coord K)) (a : Option K), (∀ x ∈ t, x.name ≠ lonName) →
      t.foldl (fun low c => if c.name = lonName then some (findLongitudeRange c.pts) else low) a = a := by
    intro t
    induction t with
    | nil => intro a _; rfl
    | cons x t ih => intro a h; rw [List.foldl_cons, if_neg (h x (by simp))]; exact ih a (fun y hy => h y (by simp [hy]))
  generalize (none : Option K) = a
  induction cs generalizing a with
  | nil => cases hm
  | cons x t ih =>
    rw [GridColloc.Spec.Distinct, List.map_cons, List.nodup_cons] at hd
    rw [List.foldl_cons]
    rcases List.mem_cons.1 hm with rfl | hm
    · rw [if_pos (show c.name = lonName from hn)]
      refine skip t _ fun y hy e => hd.1 ?_
      rw [show c.name = y.name from hn.trans e.symm]
      exact List.mem_map_of_mem hy
    · exact ih hd.2 hm _

/-- The columns are rotated, and each keeps its longitude up to whole turns. -/
theorem rotated (pts : List K) (st : K) (hinc : pts.Pairwise (· < ·)) (hspan : ∀ a ∈ pts, ∀ b ∈ pts, b - a < 360) (hlow : ∃ p ∈ pts, st ≤ p)
    (hhigh : ∃ p ∈ pts, p < st + 360) :
    ∃ g : Grid K Nat, griddedSetRange ⟨pts, none, List.range pts.length⟩ st = g ∧ g.points.Pairwise (· < ·) ∧ (∀ x ∈ g.points, st ≤ x ∧ x < st + 360) ∧
      g.points.length = pts.length ∧ ∃ k, ∀ (j : Nat), j < pts.length → g.slices[j]? = some ((j + k) % pts.length) ∧
        ∃ x x', pts[(j + k) % pts.length]? = some x ∧ g.points[j]? = some x' ∧ ∃ n : ℤ, x' = x + 360 * n := by
  obtain ⟨h1, h2, k, h3⟩ := c23_gridded_range (⟨pts, none, List.range pts.length⟩ : Grid K Nat) ⟨by simp, by simp⟩ st hinc hspan hlow hhigh
  refine ⟨_, rfl, h1, h2, ?_, k, ?_⟩
  · unfold griddedSetRange
    dsimp only
    split
    · simp [roll]
    · split
      · simp [roll]
      · rfl
  · intro j hj
    rw [List.forall₂_iff_get] at h3
    obtain ⟨hlen, h3⟩ := h3
    have hc : (⟨pts, none, List.range pts.length⟩ : Grid K Nat).cells = pts.zip ((List.replicate pts.length (none : Option (K × K))).zip (List.range pts.length)) := rfl
    have hcl : (⟨pts, none, List.range pts.length⟩ : Grid K Nat).cells.length = pts.length := by rw [hc]; simp
    rw [List.length_rotate, hcl] at hlen
    have hj' : j < (griddedSetRange (⟨pts, none, List.range pts.length⟩ : Grid K Nat) st).cells.length := by rw [hlen]; exact hj
    obtain ⟨n, e1, -, e3⟩ := h3 j hj' (by rw [List.length_rotate, hcl]; exact hj)
    have hmod : (j + k) % pts.length < pts.length := Nat.mod_lt _ (by omega)
    have hr : ((⟨pts, none, List.range pts.length⟩ : Grid K Nat).cells.rotate k).get ⟨j, by rw [List.length_rotate, hcl]; exact hj⟩ =
        (pts[(j + k) % pts.length], none, (j + k) % pts.length) := by
      rw [List.get_eq_getElem, List.getElem_rotate]
      simp only [hc, hcl, List.getElem_zip, List.getElem_replicate, List.getElem_range, Prod.mk.injEq, true_and, and_true, List.length_zip, List.length_replicate,
        List.length_range, Nat.min_self]
    rw [hr] at e1 e3
    generalize griddedSetRange (⟨pts, none, List.range pts.length⟩ : Grid K Nat) st = g at *
    rw [List.get_eq_getElem] at e1 e3
    simp only [Grid.cells, List.getElem_zip] at e1 e3
    rw [Grid.cells, List.length_zip, List.length_zip, lt_min_iff, lt_min_iff] at hj'
    refine ⟨?_, _, _, List.getElem?_eq_getElem hmod, List.getElem?_eq_getElem hj'.1, n, e1⟩
    rw [List.getElem?_eq_getElem hj'.2.2, e3]

theorem valid_getElem {dims : List (Coord K)} {idx : List Nat} : GridColloc.Spec.Valid dims idx ↔
    idx.length = dims.length ∧ ∀ (k : Nat) (d : Coord K) (i : Nat), dims[k]? = some d → idx[k]? = some i → i < d.pts.length := by
  rw [GridColloc.Spec.Valid, List.forall₂_iff_get]
  constructor
  · rintro ⟨h1, h2⟩
    refine ⟨h1.symm, fun k d i hd hi => ?_⟩
    obtain ⟨hk, e⟩ := List.getElem?_eq_some_iff.1 hd
    obtain ⟨hk', e'⟩ := List.getElem?_eq_some_iff.1 hi
    have := h2 k hk hk'
    rw [List.get_eq_getElem, List.get_eq_getElem, e, e'] at this
    exact this
  · rintro ⟨h1, h2⟩
    refine ⟨h1.symm, fun k hk hk' => ?_⟩
    exact h2 k _ _ (List.getElem?_eq_getElem hk) (List.getElem?_eq_getElem hk')

theorem turned_refl {s : Sample K} (h : ∀ l, ¬ Spec.Longitude s l) (c : Cube K V) : Spec.Turned s c c where
  names := rfl
  others := fun _ _ h _ => h
  range := fun _ l _ _ _ hl _ => absurd hl (h l)
  values := ⟨id, fun idx hv => ⟨hv, rfl, fun k d d' i i' hd hd' hi hi' => by
    rw [hd] at hd'; injection hd' with hd'; subst hd'
    rw [id, hi'] at hi; injection hi with hi; subst hi
    have := (valid_getElem.1 hv).2 k d i' hd hi'
    exact ⟨fun _ => rfl, _, _, List.getElem?_eq_getElem this, List.getElem?_eq_getElem this, fun _ => rfl, 0, by simp⟩⟩, fun idx hv => ⟨idx, hv, rfl⟩⟩

theorem turned_none {s : Sample K} {c : Cube K V} (h : ∀ d ∈ c.dims, d.name ≠ "longitude") : Spec.Turned s c c where
  names := rfl
  others := fun _ _ h _ => h
  range := fun d _ _ hd hn _ _ => absurd hn (h d hd)
  values := ⟨id, fun idx hv => ⟨hv, rfl, fun k d d' i i' hd hd' hi hi' => by
    rw [hd] at hd'; injection hd' with hd'; subst hd'
    rw [id, hi'] at hi; injection hi with hi; subst hi
    have := (valid_getElem.1 hv).2 k d i' hd hi'
    exact ⟨fun _ => rfl, _, _, List.getElem?_eq_getElem this, List.getElem?_eq_getElem this, fun _ => rfl, 0, by simp⟩⟩, fun idx hv => ⟨idx, hv, rfl⟩⟩

theorem find_lon {dims : List (Coord K)} {d : Coord K} (hd : d ∈ dims) (hn : d.name = "longitude") (hdist : GridColloc.Spec.Distinct dims) :
    dims[dims.findIdx (fun c => c.name = lonName)]? = some d := by
  obtain ⟨i, hi⟩ := List.mem_iff_getElem?.1 hd
  have := findIdx_of_getElem hdist hi
  rw [hn] at this
  have e : (fun c : Coord K => c.name == "longitude") = (fun c => decide (c.name = lonName)) := by funext c; rfl
  rw [e] at this
  rw [this]
  exact hi

theorem setRange_spec {s : Sample K} {v : Var K V} (g : Spec.Good s v) {l : Coord K} (hl : Spec.Longitude s l) :
    ∃ w, setRange (findLongitudeRange l.pts) v = .ok w ∧ Spec.Turned s v.cube w.cube ∧ w.names = v.names := by
  by_cases hdim : ∃ d ∈ v.cube.dims, d.name = "longitude"
  · obtain ⟨d, hd, hn⟩ := hdim
    have hk := find_lon hd hn g.data
    have hst := (start_iff l _).2 rfl
    obtain ⟨q1, q2, q3, q4⟩ := g.longitudes l _ hl hst d hd hn
    obtain ⟨r, e, r1, r2, r3, m, r4⟩ := rotated d.pts _ q1 q2 q3 q4
    refine ⟨{ v with cube := ⟨v.cube.dims.set (v.cube.dims.findIdx (fun c => c.name = lonName)) ⟨d.name, r.points⟩,
      fun idx => v.cube.get (idx.modify (v.cube.dims.findIdx (fun c => c.name = lonName)) (fun (i : Nat) => r.slices.getD i i))⟩ }, ?_, ?_, rfl⟩
    · rw [setRange]
      dsimp only
      rw [hk]
      dsimp only
      rw [e]
    · generalize hk0 : v.cube.dims.findIdx (fun c => decide (c.name = lonName)) = k₀ at hk
      have hlt : k₀ < v.cube.dims.length := (List.getElem?_eq_some_iff.1 hk).1
      have hother : ∀ (k : Nat) (d' : Coord K), v.cube.dims[k]? = some d' → k ≠ k₀ → d'.name ≠ "longitude" := by
        intro k d' hd' hne h
        have h1 := findIdx_of_getElem g.data hd'
        have h2 := findIdx_of_getElem g.data hk
        rw [h] at h1; rw [hn] at h2
        exact hne (h1.symm.trans h2)
      refine ⟨?_, ?_, ?_, (fun idx => idx.modify k₀ (fun (i : Nat) => r.slices.getD i i)), ?_, ?_⟩
      · apply List.ext_getElem?
        intro k
        rw [List.getElem?_map, List.getElem?_map, List.getElem?_set]
        by_cases h : k₀ = k
        · subst h; rw [if_pos rfl, if_pos hlt, hk]; rfl
        · rw [if_neg h]
      · intro k d' hd' h
        have hne : k₀ ≠ k := by
          rintro rfl
          rw [hk] at hd'; injection hd' with hd'; subst hd'
          exact h ⟨hn, l, hl⟩
        show (v.cube.dims.set k₀ _)[k]? = _
        rw [List.getElem?_set_ne hne]
        exact hd'
      · intro d' l' st hd' hn' hl' hs'
        have : d' = ⟨d.name, r.points⟩ := by
          obtain ⟨k, hk'⟩ := List.mem_iff_getElem?.1 hd'
          change (v.cube.dims.set k₀ _)[k]? = _ at hk'
          by_cases h : k₀ = k
          · subst h
            rw [List.getElem?_set_self hlt] at hk'
            injection hk' with hk'; exact hk'.symm
          · rw [List.getElem?_set_ne h] at hk'
            exact absurd hn' (hother k d' hk' (fun e => h e.symm))
        have hll : l' = l := by
          have h1 := find_of_mem g.sample hl.1
          have h2 := find_of_mem g.sample hl'.1
          rw [hl.2] at h1; rw [hl'.2] at h2
          rw [h1] at h2; injection h2 with h2; exact h2.symm
        subst hll
        rw [start_iff] at hs'
        subst hs' this
        exact ⟨r1, r2⟩
      · intro idx hv
        obtain ⟨v1, v2⟩ := valid_getElem.1 hv
        have hlen : idx.length = v.cube.dims.length := by rw [v1]; exact List.length_set
        have hidx : k₀ < idx.length := by omega
        have hset : (v.cube.dims.set k₀ ⟨d.name, r.points⟩)[k₀]? = some ⟨d.name, r.points⟩ := List.getElem?_set_self hlt
        have hj : idx[k₀] < d.pts.length := by
          have := v2 k₀ ⟨d.name, r.points⟩ idx[k₀] hset (List.getElem?_eq_getElem hidx)
          rw [← r3]; exact this
        obtain ⟨s1, x, x', s2, s3, n, s4⟩ := r4 _ hj
        have hfk : (idx.modify k₀ (fun (i : Nat) => r.slices.getD i i))[k₀]? = some ((idx[k₀] + m) % d.pts.length) := by
          rw [List.getElem?_modify_eq, List.getElem?_eq_getElem hidx, Option.map_eq_map, Option.map_some, List.getD_eq_getElem?_getD, s1]
          rfl
        have hfo : ∀ (k : Nat), k ≠ k₀ → (idx.modify k₀ (fun (i : Nat) => r.slices.getD i i))[k]? = idx[k]? := by
          intro k hk'
          rw [List.getElem?_modify_ne _ _ (fun e => hk' e.symm)]
        have hclose : ∀ (k : Nat) (d₁ d₂ : Coord K) (i i' : Nat), v.cube.dims[k]? = some d₁ → (v.cube.dims.set k₀ ⟨d.name, r.points⟩)[k]? = some d₂ →
            (idx.modify k₀ (fun (i : Nat) => r.slices.getD i i))[k]? = some i → idx[k]? = some i' →
            (¬ Spec.Turns s d₁ → i = i') ∧ ∃ x x', d₁.pts[i]? = some x ∧ d₂.pts[i']? = some x' ∧ (¬ Spec.Turns s d₁ → x' = x) ∧
              ∃ n : ℤ, x' = x + 360 * n := by
          intro k d₁ d₂ i i' h1 h2 h3 h4
          by_cases h : k = k₀
          · subst h
            rw [hk] at h1; injection h1 with h1; subst h1
            rw [hset] at h2; injection h2 with h2; subst h2
            rw [hfk] at h3; injection h3 with h3; subst h3
            rw [List.getElem?_eq_getElem hidx] at h4; injection h4 with h4; subst h4
            exact ⟨fun hc => absurd ⟨hn, l, hl⟩ hc, x, x', s2, s3, fun hc => absurd ⟨hn, l, hl⟩ hc, n, s4⟩
          · rw [hfo k h, h4] at h3; injection h3 with h3; subst h3
            rw [List.getElem?_set_ne (fun e => h e.symm), h1] at h2; injection h2 with h2; subst h2
            have := v2 k d₁ i' (by show (v.cube.dims.set k₀ ⟨d.name, r.points⟩)[k]? = _; rw [List.getElem?_set_ne (fun e => h e.symm)]; exact h1) h4
            exact ⟨fun _ => rfl, _, _, List.getElem?_eq_getElem this, List.getElem?_eq_getElem this, fun _ => rfl, 0, by simp⟩
        refine ⟨valid_getElem.2 ⟨by rw [List.length_modify]; exact hlen, fun k d₁ i h1 h2 => ?_⟩, rfl, hclose⟩
        obtain ⟨i', hi'⟩ : ∃ i', idx[k]? = some i' := ⟨_, List.getElem?_eq_getElem (by rw [hlen]; exact (List.getElem?_eq_some_iff.1 h1).1)⟩
        obtain ⟨d₂, hd₂⟩ : ∃ d₂, (v.cube.dims.set k₀ ⟨d.name, r.points⟩)[k]? = some d₂ :=
          ⟨_, List.getElem?_eq_getElem (by rw [List.length_set]; exact (List.getElem?_eq_some_iff.1 h1).1)⟩
        obtain ⟨-, y, -, hy, -⟩ := hclose k d₁ d₂ i i' h1 hd₂ h2 hi'
        exact (List.getElem?_eq_some_iff.1 hy).1
      · intro idx hv
        obtain ⟨v1, v2⟩ := valid_getElem.1 hv
        have hidx : k₀ < idx.length := by omega
        have hi : idx[k₀] < d.pts.length := v2 k₀ d _ hk (List.getElem?_eq_getElem hidx)
        have hpos : 0 < d.pts.length := by omega
        -- the column that is rotated to this place
        obtain ⟨j, hj, hjm⟩ : ∃ j, j < d.pts.length ∧ (j + m) % d.pts.length = idx[k₀] := by
          refine ⟨(idx[k₀] + (d.pts.length - m % d.pts.length)) % d.pts.length, Nat.mod_lt _ hpos, ?_⟩
          have hm : m % d.pts.length < d.pts.length := Nat.mod_lt _ hpos
          rw [Nat.mod_add_mod, ← Nat.add_mod_mod _ m, Nat.add_assoc, Nat.sub_add_cancel hm.le, Nat.add_mod_right, Nat.mod_eq_of_lt hi]
        refine ⟨idx.set k₀ j, valid_getElem.2 ⟨by rw [List.length_set, v1]; exact List.length_set.symm, fun k d₁ i h1 h2 => ?_⟩, ?_⟩
        · change (v.cube.dims.set k₀ _)[k]? = _ at h1
          by_cases h : k₀ = k
          · subst h
            rw [List.getElem?_set_self hlt] at h1; injection h1 with h1; subst h1
            rw [List.getElem?_set_self hidx] at h2; injection h2 with h2; subst h2
            show j < r.points.length
            rw [r3]; exact hj
          · rw [List.getElem?_set_ne h] at h1 h2
            exact v2 k d₁ i h1 h2
        · apply List.ext_getElem?
          intro k
          by_cases h : k₀ = k
          · subst h
            rw [List.getElem?_modify_eq, List.getElem?_set_self hidx, Option.map_eq_map, Option.map_some, List.getD_eq_getElem?_getD, (r4 j hj).1, Option.getD_some, hjm,
              List.getElem?_eq_getElem hidx]
          · rw [List.getElem?_modify_ne _ _ h, List.getElem?_set_ne h]
  · have hnone : v.cube.dims[v.cube.dims.findIdx (fun c => c.name = lonName)]? = none := by
      rw [List.getElem?_eq_none_iff]
      by_contra hc
      push Not at hc
      have := List.findIdx_getElem (w := hc)
      exact hdim ⟨_, List.getElem_mem hc, of_decide_eq_true this⟩
    refine ⟨v, ?_, turned_none (fun d hd hn => hdim ⟨d, hd, hn⟩), rfl⟩
    rw [setRange]
    dsimp only
    rw [hnone]
    dsimp only
    rw [if_neg]
    intro hc
    exact hdim (g.dimension ⟨l, hl⟩ hc)

theorem setRangeAll_spec {s : Sample K} {l : Coord K} (hl : Spec.Longitude s l) (vars : List (Var K V)) (hg : ∀ v ∈ vars, Spec.Good s v) :
    ∃ ws, setRangeAll (findLongitudeRange l.pts) vars = .ok ws ∧ List.Forall₂ (fun v w => setRange (findLongitudeRange l.pts) v = .ok w ∧ Spec.Turned s v.cube w.cube) vars ws := by
  induction vars with
  | nil => exact ⟨[], rfl, .nil⟩
  | cons v t ih =>
    obtain ⟨w, h1, h2, -⟩ := setRange_spec (hg v (by simp)) hl
    obtain ⟨ws, h3, h4⟩ := ih (fun x hx => hg x (by simp [hx]))
    exact ⟨w :: ws, by rw [setRangeAll, h1]; dsimp only; rw [h3], .cons ⟨h1, h2⟩ h4⟩

/-- The dimensions afterwards depend on those before only. -/
theorem setRange_dims {st : K} {v v' w w' : Var K V} (h : v.cube.dims = v'.cube.dims) (hw : setRange st v = .ok w) (hw' : setRange st v' = .ok w') :
    w.cube.dims = w'.cube.dims := by
  rw [setRange] at hw hw'
  dsimp only at hw hw'
  rw [← h] at hw'
  cases e : v.cube.dims[v.cube.dims.findIdx (fun c => decide (c.name = lonName))]? with
  | some c =>
    rw [e] at hw hw'
    dsimp only at hw hw'
    injection hw with hw; injection hw' with hw'
    rw [← hw, ← hw']
  | none =>
    rw [e] at hw hw'
    dsimp only at hw hw'
    split at hw
    · cases hw
    · split at hw'
      · cases hw'
      · injection hw with hw; injection hw' with hw'
        rw [← hw, ← hw']; exact h

/-! ### The list of variables -/

theorem shared_ne_nil {s : Sample K} {dims : List (Coord K)} (h : ∃ c ∈ s.dims ++ s.aux, ∃ d ∈ dims, d.name = c.name) : sharedCoords s dims ≠ [] := by
  obtain ⟨c, hc, d, hd, e⟩ := h
  intro h0
  have : c ∈ sharedCoords s dims := List.mem_filter.2 ⟨hc, by rw [List.any_eq_true]; exact ⟨d, hd, by simp [e]⟩⟩
  rw [h0] at this
  cases this

theorem order_length (s : Sample K) (v : Cube K V) (hs : GridColloc.Spec.Distinct (s.dims ++ s.aux)) (hd : GridColloc.Spec.Distinct v.dims) :
    (order s v).length = v.dims.length := by
  rw [order, List.length_map]
  have hp : (GridColloc.Spec.outDims s v).Perm (v.dims.map (newDim s)) := by
    rw [List.perm_ext_iff_of_nodup]
    · intro c
      rw [mem_outDims_iff hs, List.mem_map]
    · exact List.Nodup.of_map _ (outDims_distinct s v hs hd)
    · have hn : ((v.dims.map (newDim s)).map Coord.name).Nodup := by
        rw [List.map_map, show (Coord.name ∘ newDim s) = Coord.name from funext (newDim_name s)]
        exact hd
      exact List.Nodup.of_map _ hn
  rw [hp.length_eq, List.length_map]

theorem collocateAll_eq (interp : Cube K V → List (Target K) → Option V) (missing : Bool) (s : Sample K) (v₀ : Cube K V) (t : List (Cube K V))
    (hs : GridColloc.Spec.Distinct (s.dims ++ s.aux)) (hd : GridColloc.Spec.Distinct v₀.dims) (hc : ∃ c ∈ s.dims ++ s.aux, ∃ d ∈ v₀.dims, d.name = c.name)
    (hall : ∀ v ∈ v₀ :: t, v.dims = v₀.dims) (mask : Option (List Nat → Bool))
    (hmask : (if missing then makeOutputMask s ((sharedCoords s v₀.dims).map (fun c => (c.name, c.pts.length)))
        ((GridColloc.Spec.outDims s v₀).map (fun c => c.pts.length)) ((extraCoords s v₀.dims).map (fun c => c.pts.length)).prod else .ok none) = .ok mask) :
    ∃ rs, collocateAll interp missing s (v₀ :: t) = .ok rs ∧ List.Forall₂ (fun (v r : Cube K V) => r.dims = GridColloc.Spec.outDims s v ∧
      ∀ idx, r.get idx = applyMask (fun idx => interp v (v.dims.map (GridColloc.Spec.target s (GridColloc.Spec.outDims s v) idx))) mask idx) (v₀ :: t) rs := by
  have hout : ∀ v ∈ v₀ :: t, GridColloc.Spec.outDims s v = GridColloc.Spec.outDims s v₀ := by
    intro v hv; rw [GridColloc.Spec.outDims, GridColloc.Spec.outDims, hall v hv]
  have hord : ∀ v ∈ v₀ :: t, order s v = order s v₀ := by
    intro v hv; rw [order, order, hout v hv, hall v hv]
  have hn := newCoords_eq s v₀.dims hs
  have hsh : (GridColloc.Spec.outDims s v₀).map (fun c => c.pts.length) = ((sharedCoords s v₀.dims).map (fun c => (c.name, c.pts.length)) ++
      (extraCoords s v₀.dims).map (fun c => (c.name, c.pts.length))).map Prod.snd := by
    rw [outDims_eq, List.map_append, List.map_append, List.map_map, List.map_map]
    rfl
  rw [hsh] at hmask
  have hne : ((sharedCoords s v₀.dims).map (fun c => (c.name, c.pts))).isEmpty = false := by
    rw [List.isEmpty_eq_false_iff]
    intro h0
    exact shared_ne_nil hc (List.map_eq_nil_iff.1 h0)
  have hpairs : (v₀ :: t).all (fun v => ((sharedCoords s v₀.dims).map (fun c => (c.name, c.pts))).all (fun p => v.dims.any (fun d => d.name == p.1))) = true := by
    rw [List.all_eq_true]
    intro v hv
    rw [List.all_eq_true]
    intro p hp
    obtain ⟨c, hc', rfl⟩ := List.mem_map.1 hp
    rw [hall v hv]
    exact (List.mem_filter.1 hc').2
  have hlen : (v₀ :: t).all (fun v => decide (v.dims.length = (order s v₀).length)) = true := by
    rw [List.all_eq_true]
    intro v hv
    rw [decide_eq_true_eq, hall v hv, order_length s v₀ hs hd]
  have hdims : ∀ v ∈ v₀ :: t, (transpose (interpolateCube interp v ((sharedCoords s v₀.dims).map (fun c => (c.name, c.pts)))) (order s v₀)).dims =
      GridColloc.Spec.outDims s v := by
    intro v hv
    have hv' := hall v hv
    have hd' : GridColloc.Spec.Distinct v.dims := by rw [hv']; exact hd
    rw [← hord v hv, ← hv']
    simp only [transpose]
    rw [interpolate_dims interp s v hs, order_dims s v hs hd']
  refine ⟨((v₀ :: t).map (fun v => transpose (interpolateCube interp v ((sharedCoords s v₀.dims).map (fun c => (c.name, c.pts)))) (order s v₀))).map
    (fun r => { r with get := applyMask r.get mask }), ?_, ?_⟩
  · unfold collocateAll
    simp only [classify_eq]
    rw [sortShared_eq s v₀.dims hs hd]
    unfold extraCoords at hn hmask hsh
    rw [hn, hmask]
    dsimp only
    unfold interpolateAll
    dsimp only
    rw [pairs_eq, hne, hpairs]
    simp only [Bool.false_eq_true, if_false, if_true]
    rw [interpolate_dims interp s v₀ hs]
    have ho := order_eq s v₀ hs
    unfold extraCoords at ho
    rw [ho]
    dsimp only
    rw [hlen, if_pos rfl, if_neg]
    rw [Bool.and_eq_true, List.any_eq_true]
    rintro ⟨-, x, hx, hx'⟩
    rw [decide_eq_true_eq] at hx'
    obtain ⟨v, hv, rfl⟩ := List.mem_map.1 hx
    rw [hdims v hv, hout v hv] at hx'
    exact hx' hsh
  · rw [List.map_map, List.forall₂_map_right_iff, List.forall₂_same]
    intro v hv
    have hv' := hall v hv
    have hd' : GridColloc.Spec.Distinct v.dims := by rw [hv']; exact hd
    refine ⟨hdims v hv, fun idx => ?_⟩
    show applyMask (transpose _ _).get mask idx = _
    congr 1
    funext i
    have := get_eq interp s v hs hd' i
    rw [hv', hord v hv] at this
    rw [← hv'] at this ⊢
    exact this

/-! ### The command -/

theorem plan {num : Str → Option ℚ} {kernels : List Str} {how : Str} {l : Opts} {col : Option (Str × Opts)} (sampleVar : Bool)
    (ht : InterpCmd.Spec.Text how l col) (hhow : how ∈ ["".toList, "lin".toList, "nn".toList]) (hkeys : ∀ kv ∈ l, kv.1 ∉ ColOpts.Spec.given)
    (hF : ∀ v, (kFill, some v) ∈ l → ∃ x, num v = some x) :
    ∃ p m, colCommand num kernels sampleVar true true col none = .ok p ∧ BinCmd.Spec.Matter l sampleVar m ∧
      p.work = .interpGrid (how = "nn".toList) false ∧ p.missing = m := by
  have hd := BinCmd.text_nodup ht
  have hcol : col.getD ([], []) = (how, l) := by
    rcases ht with ⟨rfl, rfl, rfl⟩ | ⟨rfl, h⟩
    · rfl
    · rw [Method.c85_method _ _ h]; rfl
  have harg := InterpCmd.arg_filter hd (k := kFill) (by decide)
  have hacc : ∃ p, colCommand num kernels sampleVar true true (some (how, l)) (some ([], [])) = .ok p := by
    rw [c178_kernel]
    refine ⟨.inl rfl, hhow, fun kv hkv => .inl (hkeys kv hkv), fun v hv => ?_, by simp, by simp⟩
    rcases harg with ⟨w, hw, e⟩ | ⟨-, e⟩
    · rw [e] at hv; injection hv with hv; subst hv; exact hF _ hw
    · rw [e] at hv; cases hv
  obtain ⟨p, hp⟩ := hacc
  have hp' := hp
  rw [colCommand] at hp'
  dsimp only [Option.getD_some] at hp'
  cases e : kernelOf kernels [] [] with
  | error x => rw [e] at hp'; simp at hp'
  | ok kn =>
    rw [e] at hp'
    dsimp only at hp'
    obtain ⟨w1, -, -, -, -, w6⟩ := c178_work _ _ _ _ _ _ _ _ hp'
    refine ⟨p, _, ?_, BinCmd.matter hd sampleVar, w6, w1⟩
    rw [← hp, colCommand, colCommand, hcol]
    rfl

theorem turned_outDims {s : Sample K} {c c' : Cube K V} (h : Spec.Turned s c c') : GridColloc.Spec.outDims s c' = GridColloc.Spec.outDims s c := by
  have hany : ∀ n, c'.dims.any (fun d => d.name == n) = c.dims.any (fun d => d.name == n) := by
    intro n
    have := congrArg (fun l : List String => l.any (fun x => x == n)) h.names
    simp only [List.any_map] at this
    exact this
  have hlen : c'.dims.length = c.dims.length := by simpa using congrArg List.length h.names
  rw [GridColloc.Spec.outDims, GridColloc.Spec.outDims]
  congr 1
  · exact List.filter_congr (fun d _ => hany _)
  · -- the other dimensions are the same ones
    by_cases hs : ∃ l, Spec.Longitude s l
    · obtain ⟨l, hl⟩ := hs
      have key : ∀ (a b : List (Coord K)), a.map Coord.name = b.map Coord.name →
          (∀ (k : Nat) (d : Coord K), b[k]? = some d → d.name ≠ "longitude" → a[k]? = some d) →
          a.filter (fun d => !(s.dims ++ s.aux).any (fun c => c.name == d.name)) = b.filter (fun d => !(s.dims ++ s.aux).any (fun c => c.name == d.name)) := by
        intro a
        induction a with
        | nil => intro b hn _; cases b with
          | nil => rfl
          | cons y u => simp at hn
        | cons x t ih =>
          intro b hn ho
          cases b with
          | nil => simp at hn
          | cons y u =>
            rw [List.map_cons, List.map_cons, List.cons.injEq] at hn
            have ih' := ih u hn.2 (fun k d hd hne => by
              have := ho (k + 1) d (by simpa using hd) hne
              simpa using this)
            by_cases hy : y.name = "longitude"
            · have h1 : (!(s.dims ++ s.aux).any (fun c => c.name == y.name)) = false := by
                rw [Bool.not_eq_false', List.any_eq_true]
                exact ⟨l, hl.1, by rw [hl.2, hy]; simp⟩
              rw [List.filter_cons, List.filter_cons, hn.1, h1]
              simpa using ih'
            · have : x = y := by
                have := ho 0 y rfl hy
                simpa using this
              subst this
              rw [List.filter_cons, List.filter_cons, ih']
      exact key _ _ h.names (fun k d hd hne => h.others k d hd (fun hc => hne hc.1))
    · have : c'.dims = c.dims := by
        apply List.ext_getElem?
        intro k
        cases hk : c.dims[k]? with
        | some d => exact h.others k d hk (fun hc => hs hc.2)
        | none => rw [List.getElem?_eq_none_iff] at hk ⊢; omega
      rw [this]

theorem target_congr {s : Sample K} {c c' : Cube K V} (h : Spec.Turned s c c') (out : List (Coord K)) (idx : List Nat) :
    c'.dims.map (GridColloc.Spec.target s out idx) = c.dims.map (GridColloc.Spec.target s out idx) := by
  have : ∀ d : Coord K, GridColloc.Spec.target s out idx d = GridColloc.Spec.target s out idx ⟨d.name, []⟩ := by
    intro d; rfl
  have e : GridColloc.Spec.target s out idx = (fun n => GridColloc.Spec.target s out idx ⟨n, []⟩) ∘ Coord.name := funext this
  rw [e, ← List.map_map, ← List.map_map, h.names]

theorem turned_good {s : Sample K} {v : Var K V} (g : Spec.Good s v) {c' : Cube K V} (h : Spec.Turned s v.cube c') :
    GridColloc.Spec.Distinct c'.dims ∧ (∃ c ∈ s.dims ++ s.aux, ∃ d ∈ c'.dims, d.name = c.name) ∧
      (∀ n, (∃ d ∈ c'.dims, d.name = n) ↔ ∃ d ∈ v.cube.dims, d.name = n) := by
  have hm : ∀ n, (∃ d ∈ c'.dims, d.name = n) ↔ ∃ d ∈ v.cube.dims, d.name = n := by
    intro n
    rw [← List.mem_map, ← List.mem_map, h.names]
  refine ⟨?_, ?_, hm⟩
  · rw [GridColloc.Spec.Distinct, h.names]; exact g.data
  · obtain ⟨c, hc, d, hd, e⟩ := g.common
    exact ⟨c, hc, (hm c.name).2 ⟨d, hd, e⟩⟩

/-- The longitudes of all variables are brought into the range of the sample. -/
theorem fixRange_spec {s : Sample K} {vars : List (Var K V)} (hg : ∀ v ∈ vars, Spec.Good s v) (dims : List (Coord K)) (hdims : ∀ v ∈ vars, v.cube.dims = dims) :
    ∃ ws, fixRange s vars = .ok ws ∧ List.Forall₂ (fun (v w : Var K V) => Spec.Turned s v.cube w.cube) vars ws ∧
      ∀ w ∈ ws, ∀ w' ∈ ws, w.cube.dims = w'.cube.dims := by
  by_cases hs : ∃ l, Spec.Longitude s l
  · obtain ⟨l, hl⟩ := hs
    cases vars with
    | nil =>
      refine ⟨[], ?_, .nil, by simp⟩
      rw [fixRange]
      cases lonStart (s.dims ++ s.aux) <;> rfl
    | cons v t =>
      obtain ⟨ws, h1, h2⟩ := setRangeAll_spec hl (v :: t) hg
      refine ⟨ws, ?_, h2.imp (fun _ _ h => h.2), ?_⟩
      · rw [fixRange, lonStart_some (hg v (by simp)).sample hl]
        exact h1
      · intro w hw w' hw'
        have get : ∀ w ∈ ws, ∃ v' ∈ v :: t, setRange (findLongitudeRange l.pts) v' = .ok w := by
          intro w hw
          obtain ⟨i, hi⟩ := List.mem_iff_getElem.1 hw
          rw [List.forall₂_iff_get] at h2
          obtain ⟨hi', rfl⟩ := hi
          exact ⟨(v :: t)[i]'(by omega), List.getElem_mem _, (h2.2 i (by omega) hi').1⟩
        obtain ⟨a, ha, ha'⟩ := get w hw
        obtain ⟨b, hb, hb'⟩ := get w' hw'
        exact setRange_dims (by rw [hdims a ha, hdims b hb]) ha' hb'
  · have hs' : ∀ l, ¬ Spec.Longitude s l := fun l hl => hs ⟨l, hl⟩
    refine ⟨vars, ?_, ?_, ?_⟩
    · rw [fixRange, lonStart_none hs']
    · rw [List.forall₂_same]
      exact fun v _ => turned_refl hs' v.cube
    · intro w hw w' hw'; rw [hdims w hw, hdims w' hw']

theorem mask_spec {s : Sample K} {c : Cube K V} (haux : ∀ x ∈ s.aux, (∃ d ∈ c.dims, d.name = x.name) → x.pts.length = 1)
    (m : Bool) (hm : m = true → (∀ x ∈ s.dims, ∃ d ∈ c.dims, d.name = x.name) ∨
      ((s.dims ++ s.aux).filter (fun x => c.dims.any (fun d => d.name == x.name))).length < s.dims.length) :
    ∃ mask, (if m then makeOutputMask s ((sharedCoords s c.dims).map (fun c => (c.name, c.pts.length)))
        ((GridColloc.Spec.outDims s c).map (fun c => c.pts.length)) ((extraCoords s c.dims).map (fun c => c.pts.length)).prod else .ok none) = .ok mask ∧
      ∀ (get : List Nat → Option V) (idx : List Nat), GridColloc.Spec.Valid (GridColloc.Spec.outDims s c) idx →
        (m = true ∧ Spec.Missing s c idx → applyMask get mask idx = none) ∧ (¬ (m = true ∧ Spec.Missing s c idx) → applyMask get mask idx = get idx) := by
  cases m with
  | false => exact ⟨none, rfl, fun get idx _ => ⟨(by rintro ⟨h, -⟩; cases h), fun _ => rfl⟩⟩
  | true =>
    by_cases hall : ∀ x ∈ s.dims, ∃ d ∈ c.dims, d.name = x.name
    · obtain ⟨mask, h1, h2⟩ := mask_eq s c hall haux
      refine ⟨mask, by rw [if_pos rfl]; exact h1, fun get idx hv => ?_⟩
      have hmiss : Spec.Missing s c idx ↔ s.maskedAt (idx.take s.dims.length) = true := by
        rw [Spec.Missing, Sample.maskedAt]
        cases s.mask with
        | none => simp
        | some f => simpa using fun _ => hall
      rw [h2 get idx hv]
      constructor
      · rintro ⟨-, h⟩; rw [if_pos (hmiss.1 h)]
      · intro h; rw [if_neg (fun h' => h ⟨rfl, hmiss.2 h'⟩)]
    · have hlt := (hm rfl).resolve_left hall
      refine ⟨none, ?_, fun get idx _ => ⟨fun h => absurd h.2.1 hall, fun _ => rfl⟩⟩
      rw [if_pos rfl, makeOutputMask, if_pos]
      rw [List.length_map]
      exact hlt

/-- **C195.** `cis col` of gridded data onto a grid with `lin` (also if no method is given) or `nn` and any general options in any order, for any number of
variables on one grid: each variable yields one result, in order, with its own metadata and no fill value. Its dimensions are the coordinates of the sample
that are dimensions of the data, as they are and in the order of the sample, then the other dimensions of the data. In every cell the value is missing if the sample
is missing there and this matters, and otherwise the interpolation, by the method asked for and without extrapolation, of the data of this variable at the
coordinates of the cell, where the longitudes of the data have been brought into the range of the sample by whole turns and every value is at its longitude. -/
theorem c195_collocate (num : Str → Option ℚ) (kernels : List Str) (interp : Bool → Bool → Cube K V → List (Target K) → Option V) (sampleVar : Bool)
    (how : Str) (l : Opts) (col : Option (Str × Opts)) (s : Sample K) (vars : List (Var K V)) (dims : List (Coord K))
    (ht : InterpCmd.Spec.Text how l col) (hhow : how ∈ ["".toList, "lin".toList, "nn".toList]) (hkeys : ∀ kv ∈ l, kv.1 ∉ ColOpts.Spec.given)
    (hF : ∀ v, (kFill, some v) ∈ l → ∃ x, num v = some x) (hne : vars ≠ []) (hgood : ∀ v ∈ vars, Spec.Good s v) (hdims : ∀ v ∈ vars, v.cube.dims = dims)
    (hm : BinCmd.Spec.Matter l sampleVar true → (∀ c ∈ s.dims, ∃ d ∈ dims, d.name = c.name) ∨
      ((s.dims ++ s.aux).filter (fun c => dims.any (fun d => d.name == c.name))).length < s.dims.length) :
    ∃ (m : Bool) (res : List (Out × Cube K V)), BinCmd.Spec.Matter l sampleVar m ∧ run num kernels interp sampleVar col none s vars = .ok res ∧
      List.Forall₂ (fun (v : Var K V) (r : Out × Cube K V) => r.1.names = v.names ∧ r.1.missing = none ∧ r.2.dims = GridColloc.Spec.outDims s v.cube ∧
        ∃ c, Spec.Turned s v.cube c ∧ ∀ idx, GridColloc.Spec.Valid r.2.dims idx →
          (m = true ∧ Spec.Missing s v.cube idx → r.2.get idx = none) ∧
          (¬ (m = true ∧ Spec.Missing s v.cube idx) →
            r.2.get idx = interp (how = "nn".toList) false c (v.cube.dims.map (GridColloc.Spec.target s r.2.dims idx)))) vars res := by
  obtain ⟨p, m, hp, hmat, hw, hpm⟩ := plan (kernels := kernels) sampleVar ht hhow hkeys hF
  obtain ⟨ws, hws, hturn, hsame⟩ := fixRange_spec hgood dims hdims
  cases ws with
  | nil => cases hturn; exact absurd rfl hne
  | cons w₀ wt =>
    cases vars with
    | nil => exact absurd rfl hne
    | cons v₀ vt =>
    have hg₀ := hgood v₀ (by simp)
    have ht₀ : Spec.Turned s v₀.cube w₀.cube := by cases hturn; assumption
    obtain ⟨d1, d2, d3⟩ := turned_good hg₀ ht₀
    have hmiss : ∀ {c : Cube K V} {idx}, Spec.Turned s v₀.cube c → (Spec.Missing s c idx ↔ Spec.Missing s v₀.cube idx) := by
      intro c idx h
      obtain ⟨-, -, e⟩ := turned_good hg₀ h
      rw [Spec.Missing, Spec.Missing]
      refine and_congr_left' (forall₂_congr fun x _ => e x.name)
    obtain ⟨mask, k1, k2⟩ := mask_spec (c := w₀.cube) (fun x hx h => hg₀.scalar x hx ((d3 _).1 h)) m (fun hmt => by
      subst hmt
      rcases hm hmat with h | h
      · left
        intro x hx
        rw [d3, hdims v₀ (by simp)]; exact h x hx
      · right
        have hany : ∀ n, w₀.cube.dims.any (fun d => d.name == n) = dims.any (fun d => d.name == n) := by
          intro n
          have := congrArg (fun l : List String => l.any (fun x => x == n)) ht₀.names
          rw [hdims v₀ (by simp)] at this
          simp only [List.any_map] at this
          exact this
        simpa only [hany] using h)
    obtain ⟨rs, r1, r2⟩ := collocateAll_eq (interp (how = "nn".toList) false) m s w₀.cube (wt.map Var.cube) hg₀.sample d1 d2 (by
      intro c hc
      rcases List.mem_cons.1 hc with rfl | hc
      · rfl
      · obtain ⟨w, hw', rfl⟩ := List.mem_map.1 hc
        exact hsame w (by simp [hw']) w₀ (by simp)) mask k1
    refine ⟨m, ((v₀ :: vt).map (fun v => (⟨v.names, none⟩ : Out))).zip rs, hmat, ?_, ?_⟩
    · rw [run, hp]
      dsimp only
      rw [hw]
      dsimp only
      rw [hws]
      dsimp only
      rw [hpm, List.map_cons, r1]
    · rw [show w₀.cube :: wt.map Var.cube = (w₀ :: wt).map Var.cube from rfl, List.forall₂_map_left_iff] at r2
      rw [List.forall₂_iff_get] at r2 hturn ⊢
      have hl1 := r2.1
      have hl2 := hturn.1
      refine ⟨by simp only [List.length_zip, List.length_map]; omega, fun i hi hj => ?_⟩
      have hi' : i < (w₀ :: wt).length := by omega
      obtain ⟨e1, e2⟩ := r2.2 i hi' (by omega)
      have ht := hturn.2 i hi hi'
      rw [List.get_eq_getElem] at ht e1 e2 ⊢
      rw [List.get_eq_getElem] at ht e1 e2 ⊢
      rw [List.getElem_zip, List.getElem_map]
      have hvm : (v₀ :: vt)[i] ∈ v₀ :: vt := List.getElem_mem _
      have hwm : (w₀ :: wt)[i] ∈ w₀ :: wt := List.getElem_mem _
      have hvd : ((v₀ :: vt)[i]).cube.dims = v₀.cube.dims := by rw [hdims _ hvm, hdims v₀ (by simp)]
      have hout : GridColloc.Spec.outDims s ((w₀ :: wt)[i]).cube = GridColloc.Spec.outDims s w₀.cube := by
        rw [GridColloc.Spec.outDims, GridColloc.Spec.outDims, hsame _ hwm w₀ (by simp)]
      refine ⟨rfl, rfl, by rw [e1]; exact turned_outDims ht, _, ht, fun idx hv => ?_⟩
      dsimp only at hv ⊢
      rw [e1, hout] at hv
      have hM : Spec.Missing s ((v₀ :: vt)[i]).cube idx ↔ Spec.Missing s w₀.cube idx := by
        rw [hmiss ht₀, Spec.Missing, Spec.Missing, hvd]
      rw [e2, hM]
      obtain ⟨q1, q2⟩ := k2 (fun idx => interp (how = "nn".toList) false ((w₀ :: wt)[i]).cube
        (((w₀ :: wt)[i]).cube.dims.map (GridColloc.Spec.target s (GridColloc.Spec.outDims s ((w₀ :: wt)[i]).cube) idx))) idx hv
      refine ⟨q1, fun h => ?_⟩
      rw [q2 h, e1]
      dsimp only
      rw [target_congr ht]

/-- The node `idx₀` of the data is where the cell `idx` of a result with these dimensions is: at the coordinates of the sample, longitudes being angles, and at
the same index in dimensions that the sample does not have. -/
def Spec.At (s : Sample K) (out : List (Coord K)) (idx : List Nat) (data : Cube K V) (idx₀ : List Nat) : Prop :=
  GridColloc.Spec.Valid data.dims idx₀ ∧ ∀ (k : Nat) (d : Coord K) (i : Nat), data.dims[k]? = some d → idx₀[k]? = some i →
    (∀ c ∈ s.dims ++ s.aux, c.name = d.name → ∃ x y, c.pts[GridColloc.Spec.along out idx d.name]? = some x ∧ d.pts[i]? = some y ∧
      (d.name ≠ "longitude" → x = y) ∧ ∃ n : ℤ, x = y + 360 * n) ∧
    ((∀ c ∈ s.dims ++ s.aux, c.name ≠ d.name) → i = GridColloc.Spec.along out idx d.name)

/-- An interpolation that at the nodes of a grid gives the values there. -/
def Spec.Interpolates (interp : Cube K V → List (Target K) → Option V) : Prop :=
  ∀ (c : Cube K V) (idx : List Nat) (ts : List (Target K)), (∀ d ∈ c.dims, d.pts.Nodup) → GridColloc.Spec.Valid c.dims idx → ts.length = c.dims.length →
    (∀ (k : Nat) (d : Coord K) (i : Nat) (t : Target K), c.dims[k]? = some d → idx[k]? = some i → ts[k]? = some t →
      t = .index i ∨ ∃ x, d.pts[i]? = some x ∧ t = .value x) → interp c ts = c.get idx

theorem node_value {interp : Cube K V → List (Target K) → Option V} (hi : Spec.Interpolates interp) {s : Sample K} {v : Var K V} (g : Spec.Good s v)
    (hn : ∀ d ∈ v.cube.dims, d.pts.Nodup) (hr : ∀ l st, Spec.Longitude s l → Spec.Start l st → ∀ x ∈ l.pts, st ≤ x ∧ x < st + 360)
    {c : Cube K V} (ht : Spec.Turned s v.cube c) {out : List (Coord K)} {idx idx₀ : List Nat} (ha : Spec.At s out idx v.cube idx₀) :
    interp c (v.cube.dims.map (GridColloc.Spec.target s out idx)) = v.cube.get idx₀ := by
  obtain ⟨hv₀, ha⟩ := ha
  obtain ⟨f, f1, f2⟩ := ht.values
  obtain ⟨idx', v', e'⟩ := f2 idx₀ hv₀
  obtain ⟨-, e2, e3⟩ := f1 idx' v'
  rw [e'] at e2 e3
  rw [← e2]
  have hlen : c.dims.length = v.cube.dims.length := by simpa using congrArg List.length ht.names
  have hcd : ∀ (k : Nat) (d' : Coord K), c.dims[k]? = some d' → ∃ d, v.cube.dims[k]? = some d ∧ d'.name = d.name := by
    intro k d' hd'
    have hk : k < v.cube.dims.length := by rw [← hlen]; exact (List.getElem?_eq_some_iff.1 hd').1
    refine ⟨_, List.getElem?_eq_getElem hk, ?_⟩
    have := congrArg (fun l : List String => l[k]?) ht.names
    simp only [List.getElem?_map, hd', List.getElem?_eq_getElem hk, Option.map_some, Option.some.injEq] at this
    exact this
  refine hi c idx' _ ?_ v' (by rw [List.length_map, hlen]) ?_
  · intro d' hd'
    obtain ⟨k, hk⟩ := List.mem_iff_getElem?.1 hd'
    obtain ⟨d, hd, en⟩ := hcd k d' hk
    by_cases h : ¬ Spec.Turns s d
    · have := ht.others k d hd h
      rw [hk] at this; injection this with this; subst this
      exact hn _ (List.mem_of_getElem? hd)
    · push Not at h
      obtain ⟨h1, l, hl⟩ := h
      have := (ht.range d' l _ hd' (en.trans h1) hl ((start_iff l _).2 rfl)).1
      exact this.imp (fun h => ne_of_lt h)
  · intro k d' i' t hd' hi' hts
    obtain ⟨d, hd, en⟩ := hcd k d' hd'
    have hk0 : k < idx₀.length := by rw [(valid_getElem.1 hv₀).1]; exact (List.getElem?_eq_some_iff.1 hd).1
    obtain ⟨p1, x, x', p2, p3, p4, n, p5⟩ := e3 k d d' _ i' hd hd' (List.getElem?_eq_getElem hk0) hi'
    obtain ⟨a1, a2⟩ := ha k d _ hd (List.getElem?_eq_getElem hk0)
    rw [List.getElem?_map, hd, Option.map_some] at hts
    injection hts with hts
    subst hts
    rw [GridColloc.Spec.target]
    cases hf : (s.dims ++ s.aux).find? (fun c => c.name == d.name) with
    | none =>
      left
      have hno : ∀ c ∈ s.dims ++ s.aux, c.name ≠ d.name := by
        intro c hc
        have := List.find?_eq_none.1 hf c hc
        simpa using this
      have h0 := a2 hno
      rw [← h0, p1 (fun hc => by obtain ⟨l, hl⟩ := hc.2; exact hno l hl.1 (hl.2.trans hc.1.symm))]
    | some c' =>
      right
      have hc' : c' ∈ s.dims ++ s.aux := List.mem_of_find?_eq_some hf
      have hcn : c'.name = d.name := by simpa using List.find?_some hf
      obtain ⟨a, b, b1, b2, b3, m, b4⟩ := a1 c' hc' hcn
      dsimp only
      rw [b1]
      refine ⟨x', p3, ?_⟩
      dsimp only
      rw [p2] at b2; injection b2 with b2; subst b2
      congr 1
      by_cases hl : d.name = "longitude"
      · have hlon : Spec.Longitude s c' := ⟨hc', hcn.trans hl⟩
        have hst := (start_iff c' _).2 rfl
        have q1 := hr c' _ hlon hst a (List.mem_of_getElem? b1)
        have q2 := (ht.range d' c' _ (List.mem_of_getElem? hd') (en.trans hl) hlon hst).2 x' (List.mem_of_getElem? p3)
        refine inRange_unique q1 q2 ⟨m - n, ?_⟩
        rw [b4, p5]; push_cast; ring
      · rw [b3 hl, p4 (fun hc => hl hc.1)]

/-- **C195, at the nodes.** If the interpolation gives the values of the nodes at the nodes, then a cell of the result that is at a node of the data, longitudes
being angles, has exactly the value there. (The longitudes of the sample are in one of the two conventions.) -/
theorem c195_nodes (num : Str → Option ℚ) (kernels : List Str) (interp : Bool → Bool → Cube K V → List (Target K) → Option V)
    (hint : ∀ n, Spec.Interpolates (interp n false)) (sampleVar : Bool)
    (how : Str) (l : Opts) (col : Option (Str × Opts)) (s : Sample K) (vars : List (Var K V)) (dims : List (Coord K))
    (ht : InterpCmd.Spec.Text how l col) (hhow : how ∈ ["".toList, "lin".toList, "nn".toList]) (hkeys : ∀ kv ∈ l, kv.1 ∉ ColOpts.Spec.given)
    (hF : ∀ v, (kFill, some v) ∈ l → ∃ x, num v = some x) (hne : vars ≠ []) (hgood : ∀ v ∈ vars, Spec.Good s v) (hdims : ∀ v ∈ vars, v.cube.dims = dims)
    (hm : BinCmd.Spec.Matter l sampleVar true → (∀ c ∈ s.dims, ∃ d ∈ dims, d.name = c.name) ∨
      ((s.dims ++ s.aux).filter (fun c => dims.any (fun d => d.name == c.name))).length < s.dims.length)
    (hn : ∀ d ∈ dims, d.pts.Nodup) (hr : ∀ l st, Spec.Longitude s l → Spec.Start l st → ∀ x ∈ l.pts, st ≤ x ∧ x < st + 360) :
    ∃ (m : Bool) (res : List (Out × Cube K V)), BinCmd.Spec.Matter l sampleVar m ∧ run num kernels interp sampleVar col none s vars = .ok res ∧
      List.Forall₂ (fun (v : Var K V) (r : Out × Cube K V) => r.2.dims = GridColloc.Spec.outDims s v.cube ∧ r.1.names = v.names ∧
        ∀ idx idx₀, GridColloc.Spec.Valid r.2.dims idx → Spec.At s r.2.dims idx v.cube idx₀ →
          (m = true ∧ Spec.Missing s v.cube idx → r.2.get idx = none) ∧ (¬ (m = true ∧ Spec.Missing s v.cube idx) → r.2.get idx = v.cube.get idx₀)) vars res := by
  obtain ⟨m, res, h1, h2, h3⟩ := c195_collocate num kernels interp sampleVar how l col s vars dims ht hhow hkeys hF hne hgood hdims hm
  refine ⟨m, res, h1, h2, ?_⟩
  have h4 : List.Forall₂ (fun (v : Var K V) (r : Out × Cube K V) => v ∈ vars ∧ (r.1.names = v.names ∧ r.1.missing = none ∧ r.2.dims = GridColloc.Spec.outDims s v.cube ∧
        ∃ c, Spec.Turned s v.cube c ∧ ∀ idx, GridColloc.Spec.Valid r.2.dims idx →
          (m = true ∧ Spec.Missing s v.cube idx → r.2.get idx = none) ∧
          (¬ (m = true ∧ Spec.Missing s v.cube idx) →
            r.2.get idx = interp (how = "nn".toList) false c (v.cube.dims.map (GridColloc.Spec.target s r.2.dims idx))))) vars res := by
    rw [List.forall₂_iff_get] at h3 ⊢
    exact ⟨h3.1, fun i hi hj => ⟨List.get_mem _ _, h3.2 i hi hj⟩⟩
  refine h4.imp ?_
  rintro v r ⟨hv, e0, -, e1, c, e2, e3⟩
  refine ⟨e1, e0, fun idx idx₀ hi ha => ⟨(e3 idx hi).1, fun hmm => ?_⟩⟩
  rw [(e3 idx hi).2 hmm]
  exact node_value (hint _) (hgood v hv) (by rw [hdims v hv]; exact hn) hr e2 ha

/-- **C195, onto itself.** Collocating a variable onto itself, with either method and any options, gives it back: all values, missing ones included, on the
same dimensions. -/
theorem c195_self (num : Str → Option ℚ) (kernels : List Str) (interp : Bool → Bool → Cube K V → List (Target K) → Option V)
    (hint : ∀ n, Spec.Interpolates (interp n false)) (sampleVar : Bool) (how : Str) (l : Opts) (col : Option (Str × Opts)) (v : Var K V)
    (ht : InterpCmd.Spec.Text how l col) (hhow : how ∈ ["".toList, "lin".toList, "nn".toList]) (hkeys : ∀ kv ∈ l, kv.1 ∉ ColOpts.Spec.given)
    (hF : ∀ v, (kFill, some v) ∈ l → ∃ x, num v = some x) (hd : GridColloc.Spec.Distinct v.cube.dims) (hne : v.cube.dims ≠ [])
    (hn : ∀ d ∈ v.cube.dims, d.pts ≠ [] ∧ d.pts.Nodup)
    (hr : ∀ d st, d ∈ v.cube.dims → d.name = "longitude" → Spec.Start d st → d.pts.Pairwise (· < ·) ∧ ∀ x ∈ d.pts, st ≤ x ∧ x < st + 360)
    (mask : Option (List Nat → Bool)) (hmask : ∀ m idx, mask = some m → m idx = true → v.cube.get idx = none) :
    ∃ r, run num kernels interp sampleVar col none ⟨v.cube.dims, [], mask⟩ [v] = .ok [(⟨v.names, none⟩, r)] ∧ r.dims = v.cube.dims ∧
      (∀ idx, GridColloc.Spec.Valid v.cube.dims idx → r.get idx = v.cube.get idx) := by
  have hss : ∀ d, Spec.Longitude (⟨v.cube.dims, [], mask⟩ : Sample K) d ↔ d ∈ v.cube.dims ∧ d.name = "longitude" := by
    intro d; simp [Spec.Longitude]
  have hgood : Spec.Good (⟨v.cube.dims, [], mask⟩ : Sample K) v := by
    refine ⟨by simpa using hd, hd, ?_, by simp, ?_, ?_⟩
    · obtain ⟨d, t, e⟩ := List.exists_cons_of_ne_nil hne
      exact ⟨d, by simp [e], d, by simp [e], rfl⟩
    · rintro ⟨d, hdl⟩ -
      rw [hss] at hdl
      exact ⟨d, hdl⟩
    · intro c st hc hs d hdm hdn
      rw [hss] at hc
      have : d = c := by
        have h1 := find_of_mem hd hdm
        have h2 := find_of_mem hd hc.1
        rw [hdn] at h1; rw [hc.2] at h2
        rw [h1] at h2; injection h2
      subst this
      obtain ⟨r1, r2⟩ := hr d st hdm hdn hs
      obtain ⟨x, t, e⟩ := List.exists_cons_of_ne_nil (hn d hdm).1
      have hx : x ∈ d.pts := by simp [e]
      refine ⟨r1, fun a ha b hb => ?_, ⟨x, hx, (r2 x hx).1⟩, ⟨x, hx, (r2 x hx).2⟩⟩
      have := r2 a ha; have := r2 b hb
      linarith [(r2 a ha).1, (r2 b hb).2]
  obtain ⟨m, res, h1, h2, h3⟩ := c195_nodes num kernels interp hint sampleVar how l col ⟨v.cube.dims, [], mask⟩ [v] v.cube.dims ht hhow hkeys hF (by simp)
    (by simpa using hgood) (by simp) (fun _ => .inl (fun c hc => ⟨c, hc, rfl⟩)) (fun d hdm => (hn d hdm).2) (by
      intro c st hc hs
      rw [hss] at hc
      exact (hr c st hc.1 hc.2 hs).2)
  have hout : GridColloc.Spec.outDims (⟨v.cube.dims, [], mask⟩ : Sample K) v.cube = v.cube.dims := by
    rw [GridColloc.Spec.outDims]
    simp only [List.append_nil]
    rw [List.filter_eq_self.2, List.filter_eq_nil_iff.2, List.append_nil]
    · intro d hdm
      simp only [Bool.not_eq_true, Bool.not_eq_false', List.any_eq_true]
      exact ⟨d, hdm, by simp⟩
    · intro d hdm
      rw [List.any_eq_true]
      exact ⟨d, hdm, by simp⟩
  cases h3 with
  | cons h4 h5 =>
    rename_i r rt
    cases h5
    obtain ⟨e1, e0, e2⟩ := h4
    have hmiss : r.1 = ⟨v.names, none⟩ := by
      obtain ⟨m', res', -, q2, q3⟩ := c195_collocate num kernels interp sampleVar how l col ⟨v.cube.dims, [], mask⟩ [v] v.cube.dims ht hhow hkeys hF (by simp)
        (by simpa using hgood) (by simp) (fun _ => .inl (fun c hc => ⟨c, hc, rfl⟩))
      rw [h2] at q2
      injection q2 with q2
      subst q2
      cases q3 with
      | cons a b =>
        obtain ⟨a1, a2, -⟩ := a
        rcases hr1 : r.1 with ⟨n, mi⟩
        rw [hr1] at a1 a2
        dsimp only at a1 a2
        rw [a1, a2]
    refine ⟨r.2, by rw [h2, ← hmiss], e1.trans hout, fun idx hv => ?_⟩
    have hv' : GridColloc.Spec.Valid r.2.dims idx := by rw [e1, hout]; exact hv
    obtain ⟨q1, q2⟩ := e2 idx idx hv' ⟨hv, by
      rw [e1, hout]
      intro k d i hk hi
      have hal : GridColloc.Spec.along v.cube.dims idx d.name = i := by
        rw [GridColloc.Spec.along, findIdx_of_getElem hd hk, List.getD_eq_getElem?_getD, hi]; rfl
      rw [hal]
      refine ⟨fun c hc hcn => ?_, fun _ => rfl⟩
      simp only [List.append_nil] at hc
      have : c = d := by
        have h1 := find_of_mem hd hc
        have h2 := find_of_mem hd (List.mem_of_getElem? hk)
        rw [hcn] at h1
        rw [h1] at h2; injection h2
      subst this
      have hlt := (valid_getElem.1 hv).2 k c i hk hi
      exact ⟨_, _, List.getElem?_eq_getElem hlt, List.getElem?_eq_getElem hlt, fun _ => rfl, 0, by simp⟩⟩
    by_cases hc : m = true ∧ Spec.Missing (⟨v.cube.dims, [], mask⟩ : Sample K) v.cube idx
    · rw [q1 hc]
      obtain ⟨-, -, f, hf, hft⟩ := hc
      dsimp only at hf hft
      rw [List.take_of_length_le (by rw [(valid_getElem.1 hv).1])] at hft
      exact (hmask f idx hf hft).symm
    · exact q2 hc

/-! ### What does not hold (C196) -/

/-- An interpolation that is missing out of the range of a coordinate (`extrapolation_mode='mask'`, for coordinates that are not marked as circular). -/
def Spec.Masks (interp : Cube K V → List (Target K) → Option V) : Prop :=
  ∀ (c : Cube K V) (ts : List (Target K)) (k : Nat) (d : Coord K) (x : K), c.dims[k]? = some d → ts[k]? = some (.value x) →
    ((∀ y ∈ d.pts, y < x) ∨ ∀ y ∈ d.pts, x < y) → interp c ts = none

theorem collocateAll_length {interp : Cube K V → List (Target K) → Option V} {missing : Bool} {s : Sample K} {v₀ : Cube K V} {t : List (Cube K V)}
    (hs : GridColloc.Spec.Distinct (s.dims ++ s.aux)) (hd : GridColloc.Spec.Distinct v₀.dims) {rs : List (Cube K V)}
    (h : collocateAll interp missing s (v₀ :: t) = .ok rs) : ∀ v ∈ v₀ :: t, v.dims.length = v₀.dims.length := by
  unfold collocateAll at h
  simp only [classify_eq] at h
  have hn := newCoords_eq s v₀.dims hs
  have ho := order_eq s v₀ hs
  unfold extraCoords at hn ho
  rw [sortShared_eq s v₀.dims hs hd, hn] at h
  split at h
  · cases h
  · unfold interpolateAll at h
    dsimp only at h
    rw [pairs_eq] at h
    split at h
    · cases h
    · split at h
      · rw [interpolate_dims interp s v₀ hs, ho] at h
        dsimp only at h
        split at h
        · rename_i hl
          intro v hv
          have := List.all_eq_true.1 hl v hv
          rw [decide_eq_true_eq, order_length s v₀ hs hd] at this
          exact this
        · cases h
      · cases h

/-- C196: two variables with different numbers of dimensions (a surface field and a field with levels, say) cannot be collocated together, though each can
alone. -/
theorem c196_dimensions_violated (num : Str → Option ℚ) (kernels : List Str) (interp : Bool → Bool → Cube K V → List (Target K) → Option V) (s : Sample K)
    (v w : Var K V) (hv : Spec.Good s v) (hw : Spec.Good s w) (hlen : w.cube.dims.length ≠ v.cube.dims.length) :
    (∃ r, run num kernels interp false none none s [v] = .ok [r]) ∧ (∃ r, run num kernels interp false none none s [w] = .ok [r]) ∧
      ∀ res, run num kernels interp false none none s [v, w] ≠ .ok res := by
  have alone : ∀ x : Var K V, Spec.Good s x → ∃ r, run num kernels interp false none none s [x] = .ok [r] := by
    intro x hx
    obtain ⟨m, res, -, h, h'⟩ := c195_collocate num kernels interp false [] [] none s [x] x.cube.dims (.inl ⟨rfl, rfl, rfl⟩) (by simp) (by simp) (by simp)
      (by simp) (by simpa using hx) (by simp) (fun h => by
        have := h.1 (by simp)
        simp at this)
    cases h' with
    | cons a b => cases b; exact ⟨_, h⟩
  refine ⟨alone v hv, alone w hw, fun res h => ?_⟩
  obtain ⟨p, m, hp, -, hwork, -⟩ := plan (num := num) (kernels := kernels) (how := []) (l := []) (col := none) false (.inl ⟨rfl, rfl, rfl⟩) (by simp) (by simp) (by simp)
  rw [run, hp] at h
  dsimp only at h
  rw [hwork] at h
  dsimp only at h
  have hfix : ∃ a b, fixRange s [v, w] = .ok [a, b] ∧ Spec.Turned s v.cube a.cube ∧ Spec.Turned s w.cube b.cube := by
    by_cases hs : ∃ l, Spec.Longitude s l
    · obtain ⟨l, hl⟩ := hs
      obtain ⟨ws, h1, h2⟩ := setRangeAll_spec hl [v, w] (by simp [hv, hw])
      cases h2 with
      | cons x y => cases y with
        | cons y z => cases z; exact ⟨_, _, by rw [fixRange, lonStart_some hv.sample hl]; exact h1, x.2, y.2⟩
    · have hs' : ∀ l, ¬ Spec.Longitude s l := fun l hl => hs ⟨l, hl⟩
      exact ⟨v, w, by rw [fixRange, lonStart_none hs'], turned_refl hs' _, turned_refl hs' _⟩
  obtain ⟨a, b, hab, ta, tb⟩ := hfix
  rw [hab] at h
  dsimp only at h
  split at h
  · cases h
  · rename_i rs hrs
    have := collocateAll_length hv.sample (turned_good hv ta).1 hrs b.cube (by simp)
    have la : a.cube.dims.length = v.cube.dims.length := by simpa using congrArg List.length ta.names
    have lb : b.cube.dims.length = w.cube.dims.length := by simpa using congrArg List.length tb.names
    exact hlen (by rw [← la, ← lb, this])

/-- C196: data whose longitude is a scalar coordinate (a section along a meridian, say) cannot be collocated onto any grid with longitudes, though with that
coordinate taken away they can. -/
theorem c196_scalar_violated (num : Str → Option ℚ) (kernels : List Str) (interp : Bool → Bool → Cube K V → List (Target K) → Option V) (s : Sample K)
    (v : Var K V) (hv : Spec.Good s { v with other := [] }) (hl : ∃ l, Spec.Longitude s l) (ho : "longitude" ∈ v.other)
    (hd : ∀ d ∈ v.cube.dims, d.name ≠ "longitude") :
    (∃ r, run num kernels interp false none none s [{ v with other := [] }] = .ok [r]) ∧ run num kernels interp false none none s [v] = .error .value := by
  constructor
  · obtain ⟨m, res, -, h, h'⟩ := c195_collocate num kernels interp false [] [] none s [{ v with other := [] }] v.cube.dims (.inl ⟨rfl, rfl, rfl⟩) (by simp) (by simp) (by simp)
      (by simp) (by simpa using hv) (by simp) (fun h => by
        have := h.1 (by simp)
        simp at this)
    cases h' with
    | cons a b => cases b; exact ⟨_, h⟩
  · obtain ⟨p, m, hp, -, hwork, -⟩ := plan (num := num) (kernels := kernels) (how := []) (l := []) (col := none) false (.inl ⟨rfl, rfl, rfl⟩) (by simp) (by simp) (by simp)
    obtain ⟨l, hl⟩ := hl
    rw [run, hp]
    dsimp only
    rw [hwork]
    dsimp only
    have hnone : v.cube.dims[v.cube.dims.findIdx (fun c => decide (c.name = lonName))]? = none := by
      rw [List.getElem?_eq_none_iff]
      by_contra hc
      push Not at hc
      have := List.findIdx_getElem (w := hc)
      exact hd _ (List.getElem_mem hc) (of_decide_eq_true this)
    have : setRange (findLongitudeRange l.pts) v = .error .value := by
      rw [setRange]
      dsimp only
      rw [hnone]
      dsimp only
      rw [if_pos (show lonName ∈ v.other from ho)]
    rw [fixRange, lonStart_some hv.sample hl]
    dsimp only
    rw [setRangeAll, this]

/-- C196: on a sample that has negative longitudes and goes on to 180 degrees, all values at 180 degrees are missing, whatever the data; for global data as for
those with a column there. -/
theorem c196_dateline_violated (num : Str → Option ℚ) (kernels : List Str) (interp : Bool → Bool → Cube K V → List (Target K) → Option V)
    (hout : ∀ n, Spec.Masks (interp n false)) (s : Sample K) (v : Var K V) (hv : Spec.Good s v) (l : Coord K) (hl : Spec.Longitude s l) (hneg : ∃ x ∈ l.pts, x < 0)
    (hd : ∃ d ∈ v.cube.dims, d.name = "longitude") :
    ∃ r, run num kernels interp false none none s [v] = .ok [r] ∧ ∀ idx x, GridColloc.Spec.Valid r.2.dims idx →
      l.pts[GridColloc.Spec.along r.2.dims idx "longitude"]? = some x → 180 ≤ x → r.2.get idx = none := by
  obtain ⟨m, res, -, h, h'⟩ := c195_collocate num kernels interp false [] [] none s [v] v.cube.dims (.inl ⟨rfl, rfl, rfl⟩) (by simp) (by simp) (by simp)
    (by simp) (by simpa using hv) (by simp) (fun h => by
      have := h.1 (by simp)
      simp at this)
  cases h' with
  | cons a b =>
    cases b
    rename_i r
    refine ⟨_, h, fun idx x hvalid hx h180 => ?_⟩
    obtain ⟨-, -, a1, c, a2, a3⟩ := a
    by_cases hmm : m = true ∧ Spec.Missing s v.cube idx
    · exact (a3 idx hvalid).1 hmm
    · rw [(a3 idx hvalid).2 hmm]
      obtain ⟨d, hdm, hdn⟩ := hd
      obtain ⟨k, hk⟩ := List.mem_iff_getElem?.1 hdm
      obtain ⟨d', hd', hn'⟩ : ∃ d', c.dims[k]? = some d' ∧ d'.name = "longitude" := by
        have := congrArg (fun l : List String => l[k]?) a2.names
        simp only [List.getElem?_map, hk, Option.map_some] at this
        obtain ⟨d', e1, e2⟩ := Option.map_eq_some_iff.1 this
        exact ⟨d', e1, e2.trans hdn⟩
      refine hout _ c _ k d' x hd' ?_ (.inl fun y hy => ?_)
      · rw [List.getElem?_map, hk, Option.map_some, GridColloc.Spec.target]
        have hf := find_of_mem hv.sample hl.1
        rw [hl.2, ← hdn] at hf
        rw [hf]
        dsimp only
        rw [hdn, hx]
      · have := ((a2.range d' l _ (List.mem_of_getElem? hd') hn' hl (.inl ⟨hneg, rfl⟩)).2 y hy).2
        linarith

theorem west_unchanged {st : K} {v : Var K V} {d : Coord K} (hdm : d ∈ v.cube.dims) (hdn : d.name = "longitude") (hd : GridColloc.Spec.Distinct v.cube.dims)
    (hneg : ∀ x ∈ d.pts, x < st) : ∃ w, setRange st v = .ok w ∧ w.cube.dims = v.cube.dims := by
  have hk := find_lon hdm hdn hd
  have hs : ∀ b, st ≤ b → searchsorted d.pts b = d.pts.length := by
    intro b hb
    unfold searchsorted
    rw [List.countP_eq_length]
    intro x hx
    simpa using lt_of_lt_of_le (hneg x hx) hb
  have : griddedSetRange (⟨d.pts, none, List.range d.pts.length⟩ : Grid K Nat) st = ⟨d.pts, none, List.range d.pts.length⟩ := by
    unfold griddedSetRange
    simp only [hs st le_rfl, hs (st + 360) (by linarith), lt_irrefl, and_false, dite_false]
  rw [setRange]
  dsimp only
  rw [hk]
  dsimp only
  rw [this]
  refine ⟨_, rfl, ?_⟩
  dsimp only
  apply List.ext_getElem?
  intro k
  rw [List.getElem?_set]
  split
  · rename_i e
    rw [← e, hk, if_pos (List.getElem?_eq_some_iff.1 hk).1]
  · rfl

/-- C196: data that lie at negative longitudes only have no value on a sample from 0 to 360 degrees, also where the sample is at the very meridians of the
data. -/
theorem c196_west_violated (num : Str → Option ℚ) (kernels : List Str) (interp : Bool → Bool → Cube K V → List (Target K) → Option V)
    (hout : ∀ n, Spec.Masks (interp n false)) (s : Sample K) (v : Var K V) (hs : GridColloc.Spec.Distinct (s.dims ++ s.aux)) (hv : GridColloc.Spec.Distinct v.cube.dims)
    (l d : Coord K) (hl : Spec.Longitude s l) (hpos : ∀ x ∈ l.pts, 0 ≤ x) (hd : d ∈ v.cube.dims) (hdn : d.name = "longitude") (hneg : ∀ x ∈ d.pts, x < 0) :
    ∃ r, run num kernels interp false none none s [v] = .ok [r] ∧ r.2.dims = GridColloc.Spec.outDims s v.cube ∧
      ∀ idx, GridColloc.Spec.Valid r.2.dims idx → r.2.get idx = none := by
  obtain ⟨p, m, hp, hmat, hwork, hpm⟩ := plan (num := num) (kernels := kernels) (how := []) (l := []) (col := none) false (.inl ⟨rfl, rfl, rfl⟩) (by simp) (by simp) (by simp)
  have hm : m = false := by
    have := hmat.1 (by simp)
    simpa using this
  subst hm
  have hst : findLongitudeRange l.pts = (0 : K) := ((start_iff l 0).1 (.inr ⟨hpos, rfl⟩)).symm
  obtain ⟨w, hw, hwd⟩ := west_unchanged hd hdn hv hneg
  have hw' : GridColloc.Spec.Distinct w.cube.dims := by rw [hwd]; exact hv
  obtain ⟨rs, r1, r2⟩ := collocateAll_eq (interp (decide (([] : Str) = "nn".toList)) false) false s w.cube [] hs hw'
    ⟨l, hl.1, d, by rw [hwd]; exact hd, hdn.trans hl.2.symm⟩ (by simp) none rfl
  cases r2 with
  | cons a b =>
    cases b
    rename_i r
    have hdims : r.dims = GridColloc.Spec.outDims s v.cube := by rw [a.1, GridColloc.Spec.outDims, GridColloc.Spec.outDims, hwd]
    refine ⟨(⟨v.names, none⟩, r), ?_, hdims, ?_⟩
    · rw [run, hp]
      dsimp only
      rw [hwork]
      dsimp only
      rw [fixRange, lonStart_some hs hl, hst]
      dsimp only
      rw [setRangeAll, hw]
      dsimp only
      rw [setRangeAll]
      dsimp only
      rw [hpm, List.map_cons, List.map_nil, r1]
      rfl
    · intro idx hvalid
      dsimp only at hvalid ⊢
      rw [a.2 idx]
      show interp _ false w.cube _ = none
      obtain ⟨k, hk⟩ := List.mem_iff_getElem?.1 hd
      have hdm' : d ∈ w.cube.dims := by rw [hwd]; exact hd
      rw [a.1] at hvalid
      obtain ⟨t1, -⟩ := c73_targets s w.cube hs hw' idx hvalid d hdm'
      obtain ⟨x, hx, ht⟩ := t1 l hl.1 (hl.2.trans hdn.symm)
      refine hout _ w.cube _ k d x (by rw [hwd]; exact hk) ?_ (.inl fun y hy => ?_)
      · rw [List.getElem?_map, hwd, hk, Option.map_some, ht]
      · exact lt_of_lt_of_le (hneg y hy) (hpos x (List.mem_of_getElem? hx))

/-- A sample of latitudes and times with a mask, and two variables on its grid, the second with its dimensions the other way round. -/
def Spec.square (lat time : List K) (m : List Nat → Bool) : Sample K := ⟨[⟨"latitude", lat⟩, ⟨"time", time⟩], [], some m⟩

/-- C196: of two variables on the same coordinates, the second with its dimensions in another order, the second result has its dimensions in its own order and
not in that of the sample, and the mask of the sample is laid over it the other way round; alone it would be right (C195). -/
theorem c196_order_violated (num : Str → Option ℚ) (kernels : List Str) (interp : Bool → Bool → Cube K V → List (Target K) → Option V) (lat time : List K)
    (h : lat.length = time.length) (m : List Nat → Bool) (n₁ n₂ : Names) (f g : List Nat → Option V) :
    ∃ r₁ r₂, run num kernels interp true none none (Spec.square lat time m) [⟨n₁, ⟨[⟨"latitude", lat⟩, ⟨"time", time⟩], f⟩, []⟩, ⟨n₂, ⟨[⟨"time", time⟩, ⟨"latitude", lat⟩], g⟩, []⟩] =
        .ok [r₁, r₂] ∧
      r₂.2.dims = [⟨"time", time⟩, ⟨"latitude", lat⟩] ∧ ∀ i j : Nat, i < time.length → j < lat.length → m [i, j] = true → r₂.2.get [i, j] = none := by
  obtain ⟨p, mm, hp, hmat, hwork, hpm⟩ := plan (num := num) (kernels := kernels) (how := []) (l := []) (col := none) true (.inl ⟨rfl, rfl, rfl⟩) (by simp) (by simp) (by simp)
  have hm : mm = true := by
    have := hmat.1 (by simp)
    simpa using this
  subst hm
  have hcl : classify (Spec.square lat time m) [⟨"latitude", lat⟩, ⟨"time", time⟩] =
      ([(("latitude", lat.length), 0), (("time", time.length), 1)], [], 1) := rfl
  have hsort : sortShared [(("latitude", lat.length), 0), (("time", time.length), 1)] = [("latitude", lat.length), ("time", time.length)] := rfl
  have hmask : makeOutputMask (Spec.square lat time m) [("latitude", lat.length), ("time", time.length)] [lat.length, time.length] 1 =
      .ok (some (fun idx => m (unravel [lat.length, time.length] (ravel [lat.length, time.length] idx / 1)))) := by
    rw [makeOutputMask, if_neg (by simp [Spec.square])]
    show (if [lat.length, time.length].prod = [lat.length, time.length].prod * 1 then _ else _) = _
    rw [if_pos (by simp)]
    rfl
  have hall : ∀ i : Cube K V → List (Target K) → Option V, ∀ mask, interpolateAll i [("latitude", lat.length), ("time", time.length)]
      [("latitude", lat.length), ("time", time.length)] (⟨[⟨"latitude", lat⟩, ⟨"time", time⟩], f⟩ : Cube K V)
      [⟨[⟨"latitude", lat⟩, ⟨"time", time⟩], f⟩, ⟨[⟨"time", time⟩, ⟨"latitude", lat⟩], g⟩] mask [⟨"latitude", lat⟩, ⟨"time", time⟩] =
      .ok ([(⟨[⟨"latitude", lat⟩, ⟨"time", time⟩], f⟩ : Cube K V), ⟨[⟨"time", time⟩, ⟨"latitude", lat⟩], g⟩].map (fun v =>
        let t := transpose (interpolateCube i v [("latitude", lat), ("time", time)]) [0, 1]
        { t with get := applyMask t.get mask })) := by
    intro i mask
    have hg : (mask.isSome && [(⟨[⟨"latitude", lat⟩, ⟨"time", time⟩], f⟩ : Cube K V), ⟨[⟨"time", time⟩, ⟨"latitude", lat⟩], g⟩].any (fun v =>
        decide ((transpose (interpolateCube i v [("latitude", lat), ("time", time)]) [0, 1]).dims.map (fun c => c.pts.length) ≠ [lat.length, time.length]))) = false := by
      rw [Bool.and_eq_false_iff]
      right
      rw [List.any_eq_false]
      intro x hx
      rw [decide_eq_true_eq, not_not]
      rcases List.mem_cons.1 hx with rfl | hx
      · rfl
      · rw [List.mem_singleton.1 hx]
        show [time.length, lat.length] = [lat.length, time.length]
        rw [h]
    show (if (mask.isSome && [(⟨[⟨"latitude", lat⟩, ⟨"time", time⟩], f⟩ : Cube K V), ⟨[⟨"time", time⟩, ⟨"latitude", lat⟩], g⟩].any (fun v =>
        decide ((transpose (interpolateCube i v [("latitude", lat), ("time", time)]) [0, 1]).dims.map (fun c => c.pts.length) ≠ [lat.length, time.length]))) = true
      then (Except.error Err.value : Except Err (List (Cube K V))) else _) = _
    rw [hg]
    rfl
  let t := fun v : Cube K V => transpose (interpolateCube (interp (decide (([] : Str) = "nn".toList)) false) v [("latitude", lat), ("time", time)]) [0, 1]
  let r := fun v : Cube K V => (⟨(t v).dims, applyMask (t v).get
      (some (fun idx => m (unravel [lat.length, time.length] (ravel [lat.length, time.length] idx / 1))))⟩ : Cube K V)
  refine ⟨(⟨n₁, none⟩, r ⟨[⟨"latitude", lat⟩, ⟨"time", time⟩], f⟩), (⟨n₂, none⟩, r ⟨[⟨"time", time⟩, ⟨"latitude", lat⟩], g⟩), ?_, ?_, ?_⟩
  · rw [run, hp]
    dsimp only
    rw [hwork]
    dsimp only
    rw [show fixRange (Spec.square lat time m) [(⟨n₁, ⟨[⟨"latitude", lat⟩, ⟨"time", time⟩], f⟩, []⟩ : Var K V), ⟨n₂, ⟨[⟨"time", time⟩, ⟨"latitude", lat⟩], g⟩, []⟩] =
      .ok [⟨n₁, ⟨[⟨"latitude", lat⟩, ⟨"time", time⟩], f⟩, []⟩, ⟨n₂, ⟨[⟨"time", time⟩, ⟨"latitude", lat⟩], g⟩, []⟩] from rfl]
    dsimp only
    rw [hpm, List.map_cons, List.map_cons, List.map_nil, collocateAll]
    dsimp only
    rw [hcl]
    dsimp only
    rw [hsort, List.append_nil, if_pos rfl, List.map_cons, List.map_cons, List.map_nil, hmask]
    dsimp only
    rw [show List.filterMap (fun x : NS => (Spec.square lat time m).find x.1) [("latitude", lat.length), ("time", time.length)] =
      [⟨"latitude", lat⟩, ⟨"time", time⟩] from rfl, hall]
    rfl
  · rfl
  · intro i j hi hj hm
    dsimp only [r]
    rw [applyMask]
    dsimp only
    have : unravel [lat.length, time.length] (ravel [lat.length, time.length] [i, j] / 1) = [i, j] := by
      rw [Nat.div_one]
      exact unravel_ravel (by rw [InShape]; exact .cons (by omega) (.cons (by omega) .nil))
    rw [this, if_pos hm]

/-! ### Cases -/

/-- The index of a target along a coordinate, if it is one of the points. -/
def Spec.node (d : Coord ℚ) : Target ℚ → Option Nat
  | .index i => some i
  | .value x => if x ∈ d.pts then some (d.pts.idxOf x) else none

/-- The least interpolation: at the nodes only. -/
def Spec.exact (c : Cube ℚ ℚ) (ts : List (Target ℚ)) : Option ℚ :=
  ((List.zipWith Spec.node c.dims ts).mapM id).bind c.get

theorem exact_interpolates : Spec.Interpolates (K := ℚ) (V := ℚ) Spec.exact := by
  intro c idx ts hn hv hl ht
  have : ∀ (dims : List (Coord ℚ)) (idx : List Nat) (ts : List (Target ℚ)), (∀ d ∈ dims, d.pts.Nodup) → GridColloc.Spec.Valid dims idx → ts.length = dims.length →
      (∀ (k : Nat) (d : Coord ℚ) (i : Nat) (t : Target ℚ), dims[k]? = some d → idx[k]? = some i → ts[k]? = some t →
        t = .index i ∨ ∃ x, d.pts[i]? = some x ∧ t = .value x) →
      (List.zipWith Spec.node dims ts).mapM id = some idx := by
    intro dims
    induction dims with
    | nil =>
      intro idx ts _ hv hl _
      cases hv
      rw [List.length_eq_zero_iff.1 hl]
      rfl
    | cons d dims ih =>
      intro idx ts hn hv hl ht
      cases hv with
      | cons a b =>
        rename_i i idx
        cases ts with
        | nil => simp at hl
        | cons t ts =>
          have := ih idx ts (fun d hd => hn d (List.mem_cons_of_mem _ hd)) b (by simpa using hl) (fun k d' i' t' h1 h2 h3 => ht (k + 1) d' i' t' h1 h2 h3)
          rw [List.zipWith_cons_cons, List.mapM_cons, this]
          have h0 : Spec.node d t = some i := by
            rcases ht 0 d i t rfl rfl rfl with rfl | ⟨x, hx, rfl⟩
            · rfl
            · rw [Spec.node, if_pos (List.mem_of_getElem? hx)]
              obtain ⟨h1, h2⟩ := List.getElem?_eq_some_iff.1 hx
              rw [← h2, (hn d (List.mem_cons_self)).idxOf_getElem i h1]
          rw [id, h0]
          rfl
  rw [Spec.exact, this c.dims idx ts hn hv hl ht]
  rfl

theorem exact_masks : Spec.Masks (K := ℚ) (V := ℚ) Spec.exact := by
  intro c ts k d x hd ht hx
  have hx' : x ∉ d.pts := by
    intro hm
    rcases hx with h | h
    · exact lt_irrefl _ (h x hm)
    · exact lt_irrefl _ (h x hm)
  have : ∀ (dims : List (Coord ℚ)) (ts : List (Target ℚ)) (k : Nat), dims[k]? = some d → ts[k]? = some (.value x) →
      (List.zipWith Spec.node dims ts).mapM id = none := by
    intro dims
    induction dims with
    | nil => intro ts k h; cases h
    | cons e dims ih =>
      intro ts k h1 h2
      cases ts with
      | nil => cases h2
      | cons t ts =>
        cases k with
        | zero =>
          simp only [List.getElem?_cons_zero, Option.some.injEq] at h1 h2
          subst h1
          subst h2
          rw [List.zipWith_cons_cons, List.mapM_cons]
          rw [id, Spec.node, if_neg hx']
          rfl
        | succ k =>
          rw [List.zipWith_cons_cons, List.mapM_cons, ih ts k h1 h2]
          cases Spec.node e t <;> rfl
  rw [Spec.exact, this c.dims ts k hd ht]
  rfl

/-- A sample from 90 W to 90 E or beyond, masked in one cell. -/
def Spec.sample (more : List ℚ) : Sample ℚ := ⟨[⟨"latitude", [-90, 0, 90]⟩, ⟨"longitude", [-90, 0, 90] ++ more⟩], [⟨"time", [7]⟩], some (fun idx => idx == [1, 1])⟩

/-- Global data from 0 to 360 degrees on another order of dimensions. -/
def Spec.global (n : String) : Var ℚ ℚ :=
  ⟨⟨n.toList, none, none, none⟩, ⟨[⟨"longitude", [0, 90, 180, 270]⟩, ⟨"level", [1, 2]⟩, ⟨"latitude", [-90, 0, 90]⟩],
    fun idx => match idx with | [i, l, j] => some (100 * i + 10 * l + j) | _ => none⟩, []⟩

theorem sample_longitude {more : List ℚ} {l : Coord ℚ} (hl : Spec.Longitude (Spec.sample more) l) : l = ⟨"longitude", [-90, 0, 90] ++ more⟩ := by
  obtain ⟨h1, h2⟩ := hl
  simp only [Spec.sample, List.cons_append, List.nil_append, List.mem_cons, List.not_mem_nil, or_false] at h1
  rcases h1 with rfl | rfl | rfl
  · simp at h2
  · rfl
  · simp at h2

theorem sample_start {more : List ℚ} {l : Coord ℚ} (hl : Spec.Longitude (Spec.sample more) l) {st : ℚ} (hs : Spec.Start l st) : st = -180 := by
  rw [sample_longitude hl] at hs
  rcases hs with h | h
  · exact h.2
  · have := h.1 (-90) (by simp)
    norm_num at this

theorem global_good (n : String) (more : List ℚ) : Spec.Good (Spec.sample more) (Spec.global n) where
  sample := by simp [GridColloc.Spec.Distinct, Spec.sample]
  data := by simp [GridColloc.Spec.Distinct, Spec.global]
  common := ⟨⟨"latitude", [-90, 0, 90]⟩, by simp [Spec.sample], ⟨"latitude", [-90, 0, 90]⟩, by simp [Spec.global], rfl⟩
  scalar := by simp [Spec.sample]
  dimension := by simp [Spec.global]
  longitudes := by
    intro l st hl hs d hd hn
    have hst : st = -180 := sample_start hl hs
    have hd' : d = ⟨"longitude", [0, 90, 180, 270]⟩ := by
      simp only [Spec.global, List.mem_cons, List.not_mem_nil, or_false] at hd
      rcases hd with rfl | rfl | rfl
      · rfl
      · simp at hn
      · simp at hn
    subst hst hd'
    refine ⟨by decide +kernel, ?_, ⟨0, by simp, by norm_num⟩, ⟨0, by simp, by norm_num⟩⟩
    have : ∀ a ∈ [(0 : ℚ), 90, 180, 270], 0 ≤ a ∧ a ≤ 270 := by decide +kernel
    intro a ha b hb
    have h1 := this a ha
    have h2 := this b hb
    linarith

/-- C195 on these: the value at 90 W, from the column at 270 degrees, and the missing cell. -/
example : ∃ a b, run ColOpts.exNum [] (fun _ _ => Spec.exact) false
      (some (Method.methodArgs (Method.Spec.method "nn".toList [(kMissing, some "True".toList)]))) none (Spec.sample []) [Spec.global "a", Spec.global "b"] = .ok [a, b] ∧
    b.1.names.name = "b".toList ∧ b.2.get [1, 0, 1] = some 311 ∧ b.2.get [1, 1, 1] = none := by
  have hc := c195_collocate ColOpts.exNum [] (fun _ _ => Spec.exact) false "nn".toList
    [(kMissing, some "True".toList)] _ (Spec.sample []) [Spec.global "a", Spec.global "b"] (Spec.global "a").cube.dims
    (.inr ⟨rfl, by decide, by decide, by decide, by decide +kernel, by decide⟩) (by decide) (by decide)
    (fun v hv => absurd (congrArg Prod.fst (List.eq_of_mem_singleton hv)) (by dsimp only; decide)) (by simp)
    (fun v hv => by
      simp only [List.mem_cons, List.not_mem_nil, or_false] at hv
      rcases hv with rfl | rfl <;> exact global_good _ _)
    (fun v hv => by
      simp only [List.mem_cons, List.not_mem_nil, or_false] at hv
      rcases hv with rfl | rfl <;> rfl)
    (fun _ => .inl (by simp [Spec.sample, Spec.global]))
  have hv : ∀ i j k, i < 3 → j < 3 → k < 2 → GridColloc.Spec.Valid (GridColloc.Spec.outDims (Spec.sample []) (Spec.global "b").cube) [i, j, k] := by
    intro i j k hi hj hk
    have e : GridColloc.Spec.outDims (Spec.sample []) (Spec.global "b").cube =
      [⟨"latitude", [-90, 0, 90]⟩, ⟨"longitude", [-90, 0, 90]⟩, ⟨"level", [1, 2]⟩] := rfl
    rw [e]
    exact .cons hi (.cons hj (.cons hk .nil))
  obtain ⟨m, res, h1, h2, h3⟩ := c195_nodes ColOpts.exNum [] (fun _ _ => Spec.exact) (fun _ => exact_interpolates) false "nn".toList
    [(kMissing, some "True".toList)] _ (Spec.sample []) [Spec.global "a", Spec.global "b"] (Spec.global "a").cube.dims
    (.inr ⟨rfl, by decide, by decide, by decide, by decide +kernel, by decide⟩) (by decide) (by decide)
    (fun v hv => absurd (congrArg Prod.fst (List.eq_of_mem_singleton hv)) (by dsimp only; decide)) (by simp)
    (fun v hv => by
      simp only [List.mem_cons, List.not_mem_nil, or_false] at hv
      rcases hv with rfl | rfl <;> exact global_good _ _)
    (fun v hv => by
      simp only [List.mem_cons, List.not_mem_nil, or_false] at hv
      rcases hv with rfl | rfl <;> rfl)
    (fun _ => .inl (by simp [Spec.sample, Spec.global])) (by decide +kernel)
    (fun l st hl hs => by
      rw [sample_start hl hs, sample_longitude hl]
      decide +kernel)
  have hm : m = true := (h1.2.2 "True".toList (by simp)).2 (by decide)
  cases h3 with
  | cons p q =>
    cases q with
    | cons q r =>
      cases r
      refine ⟨_, _, h2, by rw [q.2.1]; rfl, ?_, ?_⟩
      · rw [(q.2.2 [1, 0, 1] [3, 1, 1] (by rw [q.1]; exact hv 1 0 1 (by decide) (by decide) (by decide)) (by
          rw [q.1]
          refine ⟨.cons (by decide) (.cons (by decide) (.cons (by decide) .nil)), ?_⟩
          rintro (_ | _ | _ | k) d i h1 h2
          · cases h1
            cases h2
            refine ⟨?_, fun h => absurd rfl (h ⟨"longitude", [-90, 0, 90]⟩ (by simp [Spec.sample]))⟩
            intro c hc hcn
            rw [sample_longitude ⟨hc, hcn⟩]
            exact ⟨-90, 270, rfl, rfl, fun h => absurd rfl h, -1, by norm_num⟩
          · cases h1
            cases h2
            refine ⟨fun c hc hcn => ?_, fun _ => rfl⟩
            simp only [Spec.sample, List.cons_append, List.nil_append, List.mem_cons, List.not_mem_nil, or_false] at hc
            rcases hc with rfl | rfl | rfl <;> simp at hcn
          · cases h1
            cases h2
            refine ⟨?_, fun h => absurd rfl (h ⟨"latitude", [-90, 0, 90]⟩ (by simp [Spec.sample]))⟩
            intro c hc hcn
            simp only [Spec.sample, List.cons_append, List.nil_append, List.mem_cons, List.not_mem_nil, or_false] at hc
            rcases hc with rfl | rfl | rfl
            · exact ⟨0, 0, rfl, rfl, fun _ => rfl, 0, by norm_num⟩
            · simp at hcn
            · simp at hcn
          · cases h1)).2 (by
            rintro ⟨-, -, f, hf, hf'⟩
            cases hf
            revert hf'
            decide)]
        show some (100 * ((3 : Nat) : ℚ) + 10 * ((1 : Nat) : ℚ) + ((1 : Nat) : ℚ)) = some 311
        norm_num
      · obtain ⟨m', res', k1, k2, k3⟩ := hc
        rw [h2] at k2
        cases k2
        cases k3 with
        | cons p' q' =>
          cases q' with
          | cons q' r' =>
            obtain ⟨-, -, -, c, -, k4⟩ := q'
            exact (k4 [1, 1, 1] (by rw [q.1]; exact hv 1 1 1 (by decide) (by decide) (by decide))).1
              ⟨(k1.2.2 "True".toList (by simp)).2 (by decide), by simp [Spec.sample, Spec.global], _, rfl, rfl⟩

/-- A section along a meridian, and a surface field. -/
def Spec.section : Var ℚ ℚ := ⟨⟨"s".toList, none, none, none⟩, ⟨[⟨"latitude", [-90, 0, 90]⟩], fun _ => some 1⟩, ["longitude"]⟩

theorem section_good : Spec.Good (Spec.sample []) { Spec.section with other := [] } where
  sample := by simp [GridColloc.Spec.Distinct, Spec.sample]
  data := by simp [GridColloc.Spec.Distinct, Spec.section]
  common := ⟨⟨"latitude", [-90, 0, 90]⟩, by simp [Spec.sample], ⟨"latitude", [-90, 0, 90]⟩, by simp [Spec.section], rfl⟩
  scalar := by simp [Spec.sample]
  dimension := by simp
  longitudes := by
    intro l st hl hs d hd hn
    simp only [Spec.section, List.mem_cons, List.not_mem_nil, or_false] at hd
    subst hd
    simp at hn

example (res : List (Out × Cube ℚ ℚ)) :
    run ColOpts.exNum [] (fun _ _ => Spec.exact) false none none (Spec.sample []) [Spec.global "a", { Spec.section with other := [] }] ≠ .ok res :=
  (c196_dimensions_violated ColOpts.exNum [] _ _ _ _ (global_good "a" []) section_good (by decide)).2.2 res

example : run ColOpts.exNum [] (fun _ _ => Spec.exact) false none none (Spec.sample []) [Spec.section] = .error .value :=
  (c196_scalar_violated ColOpts.exNum [] _ _ Spec.section section_good ⟨⟨"longitude", [-90, 0, 90]⟩, by simp [Spec.sample], rfl⟩ (by simp [Spec.section])
    (by simp [Spec.section])).2

/-- At 180 degrees, where the data have a column. -/
example : ∃ r, run ColOpts.exNum [] (fun _ _ => Spec.exact) false none none (Spec.sample [180]) [Spec.global "a"] = .ok [r] ∧
    (GridColloc.Spec.Valid r.2.dims [1, 3, 0] → GridColloc.Spec.along r.2.dims [1, 3, 0] "longitude" = 3 → r.2.get [1, 3, 0] = none) := by
  obtain ⟨r, h1, h2⟩ := c196_dateline_violated ColOpts.exNum [] (fun _ _ => Spec.exact) (fun _ => exact_masks) _ _ (global_good "a" [180])
    ⟨"longitude", [-90, 0, 90, 180]⟩ ⟨by simp [Spec.sample], rfl⟩ ⟨-90, by simp, by norm_num⟩ ⟨⟨"longitude", [0, 90, 180, 270]⟩, by simp [Spec.global], rfl⟩
  exact ⟨r, h1, fun h3 h4 => h2 _ 180 h3 (by rw [h4]; rfl) le_rfl⟩

/-- Data at 10 W, and a sample at 350 degrees. -/
example : ∃ r, run ColOpts.exNum [] (fun _ _ => Spec.exact) false none none ⟨[⟨"longitude", [350]⟩], [], none⟩
      [⟨⟨"a".toList, none, none, none⟩, ⟨[⟨"longitude", [-10]⟩], fun _ => some 1⟩, []⟩] = .ok [r] ∧ r.2.dims = [⟨"longitude", [350]⟩] ∧ r.2.get [0] = none := by
  obtain ⟨r, h1, h2, h3⟩ := c196_west_violated ColOpts.exNum [] (fun _ _ => Spec.exact) (fun _ => exact_masks) ⟨[⟨"longitude", [350]⟩], [], none⟩
    ⟨⟨"a".toList, none, none, none⟩, ⟨[⟨"longitude", [-10]⟩], fun _ => some 1⟩, []⟩ (by simp [GridColloc.Spec.Distinct]) (by simp [GridColloc.Spec.Distinct])
    ⟨"longitude", [350]⟩ ⟨"longitude", [-10]⟩ ⟨by simp, rfl⟩ (by simp) (by simp) rfl (by simp)
  refine ⟨r, h1, h2, h3 _ ?_⟩
  rw [h2]
  exact .cons (by decide) .nil

/-- The mask at latitude 0 and time 1 hides the value at time 0 and latitude 1. -/
example : ∃ r₁ r₂, run ColOpts.exNum [] (fun _ _ => Spec.exact) true none none (Spec.square [-90, 90] [1, 2] (fun idx => idx == [0, 1]))
      [⟨⟨"a".toList, none, none, none⟩, ⟨[⟨"latitude", [-90, 90]⟩, ⟨"time", [1, 2]⟩], fun _ => some 1⟩, []⟩,
        ⟨⟨"b".toList, none, none, none⟩, ⟨[⟨"time", [1, 2]⟩, ⟨"latitude", [-90, 90]⟩], fun _ => some 1⟩, []⟩] = .ok [r₁, r₂] ∧ r₂.2.get [0, 1] = none := by
  obtain ⟨r₁, r₂, h1, -, h3⟩ := c196_order_violated ColOpts.exNum [] (fun _ _ => Spec.exact) [-90, 90] [1, 2] rfl (fun idx => idx == [0, 1])
    ⟨"a".toList, none, none, none⟩ ⟨"b".toList, none, none, none⟩ (fun _ => some 1) (fun _ => some 1)
  exact ⟨r₁, r₂, h1, h3 0 1 (by decide) (by decide) rfl⟩

end Cis.GridCmd
