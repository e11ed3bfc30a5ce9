import Verif.Main.SubsetCommand
import Verif.Subset.Gridded
import Verif.Collapse.Command
set_option linter.unusedSectionVars false
set_option linter.unusedSimpArgs false

/-!
# `cis subset` of gridded data: from the text of the limits to the cells (C188, C189)

The limits are read as for ungridded data (C180), each name is looked up among the coordinates of the first variable, open ends become the ends of that
coordinate, and every variable is cut by `extract` of Iris for coordinates without a modulus and then by `intersection` for those in degrees. The
variables have one coordinate per dimension, without bounds; the effect of the two functions of Iris is that of Subset/Gridded.lean, and the cells of
time coordinates are compared as dates (Iris 2). Shapes are left out (C83). Exact arithmetic.
-/
namespace Cis.SubsetGrid
open Cis.Str Cis.Time
open Cis.SubsetCmd (Env Bound conv dateLe)

variable {V : Type}

/-! ### Model -/

/-- A coordinate: its names, whether its units have a modulus (degrees), the dates its numbers stand for if it is a time, the points. The fields of
the names that `_get_coord` does not look at are not used. -/
structure Crd extends CollapseCmd.Crd where
  modular : Bool
  dates : Option (ℚ → DateTime)
  points : List ℚ

/-- A variable: the coordinate of each dimension, the values by index, and the mask (none: the data are not a masked array). -/
structure Var (V : Type) where
  crds : List Crd
  data : List Nat → V
  mask : Option (List Nat → Bool)

/-- The visible value: none if masked. -/
def Var.value (v : Var V) (idx : List Nat) : Option V :=
  match v.mask with
  | none => some (v.data idx)
  | some m => if m idx then none else some (v.data idx)

/-- The variable with the points of dimension `k` selected: old index and new point of each (`Cube.__getitem__` of Iris). -/
def Var.take (v : Var V) (k : Nat) (sel : List (Nat × ℚ)) : Var V where
  crds := v.crds.modify k (fun a => { a with points := sel.map (·.2) })
  data := fun idx => v.data (idx.modify k (fun i => (sel.getD i (0, 0)).1))
  mask := v.mask.map (fun m idx => m (idx.modify k (fun i => (sel.getD i (0, 0)).1)))

/-- `_get_coord` (common_data.py:207-222), on a list of variables that of the first (common_data.py:445-446). -/
def getCoord (l : List Crd) (n : String) : Option Crd :=
  match CollapseCmd.getCoord (l.map Crd.toCrd) n with
  | none => none
  | some x => l.find? (fun c => decide (c.toCrd = x))

inductive Err
  | parse (e : Limits.Err)  -- the argument is refused
  | shape                   -- not modelled
  | notFound                -- CoordinateNotFoundError
  | type                    -- TypeError: dates compared with numbers
  | value                   -- ValueError of `intersection`
  | noData                  -- NoDataInSubsetError
  | empty                   -- IndexError: no variable

/-- A start that is not given is the least value (subset.py:62). -/
def fillStart (c : Crd) : Limits.Val DateTime → Bound
  | .none => .num (.fin (Subset.minOf c.points))
  | .num f => .num f
  | .date t => .date t

/-- A stop that is not given is the greatest value (subset.py:63). -/
def fillStop (c : Crd) : Limits.Val DateTime → Bound
  | .none => .num (.fin (Subset.maxOf c.points))
  | .num f => .num f
  | .date t => .date t

/-- The loop of `subset` (subset.py:29-65): coordinates by `_get_coord`, limits under their names. -/
def keywords (cs : List Crd) : List (Str × Limits.Lim DateTime) → List (Str × Bound × Bound) → Except Err (List (Str × Bound × Bound))
  | [], acc => .ok acc
  | (_, .shape _) :: _, _ => .error .shape
  | (dim, .pair a b) :: t, acc =>
    match getCoord cs (String.ofList dim) with
    | none => .error .notFound
    | some c => keywords cs t (Limits.dictSet acc c.name.toList (fillStart c a, fillStop c b))

/-- The dimension of the coordinate of this name, if there is exactly one. -/
def index (cs : List Crd) (n : Str) : Option Nat :=
  match (List.range cs.length).filter (fun k => match cs[k]? with | some c => decide (c.name.toList = n) | none => false) with
  | [k] => some k
  | _ => none

/-- `Contains` (subset.py:153-163) for all points: the cells of a time coordinate are dates. -/
def contains (c : Crd) (a b : Bound) : Except Err (List (Nat × ℚ)) :=
  match a, b, c.dates with
  | .num a, .num b, none => .ok ((Subset.Gridded.enum c.points).filter (fun e => a.le (.fin e.2) && (Limits.Fl.fin e.2).le b))
  | .date a, .date b, some f => .ok ((Subset.Gridded.enum c.points).filter (fun e => dateLe a (f e.2) && dateLe (f e.2) b))
  | _, _, _ => .error .type

/-- `Cube.extract` with all constraints (subset.py:122-125): none if nothing is left; without the coordinate nothing matches. -/
def extract : List (Str × Bound × Bound) → Var V → Except Err (Option (Var V))
  | [], v => .ok (some v)
  | (n, a, b) :: t, v =>
    match index v.crds n with
    | none => .ok none
    | some k =>
      match v.crds[k]? with
      | none => .ok none
      | some c =>
        match contains c a b with
        | .error e => .error e
        | .ok sel => if sel = [] then .ok none else extract t (v.take k sel)

/-- `Cube.intersection` with all constraints (subset.py:127-131); none is `IndexError`. -/
def intersection : List (Str × Bound × Bound) → Var V → Except Err (Option (Var V))
  | [], v => .ok (some v)
  | (n, a, b) :: t, v =>
    match index v.crds n with
    | none => .error .notFound
    | some k =>
      match v.crds[k]? with
      | none => .error .notFound
      | some c =>
        match a, b with
        | .num (.fin a), .num (.fin b) =>
          if b > a + 360 ∨ Subset.maxOf c.points > Subset.minOf c.points + 360 then .error .value
          else
            let sel := Subset.Gridded.intersectSel c.points a b
            if sel = [] then .ok none else intersection t (v.take k sel)
        | .num _, .num _ => .error .value
        | _, _ => .error .type

/-- `GriddedDataList.extract`, `GriddedDataList.intersection` (gridded_data.py:546-574): none for any variable is none for all. -/
def each (f : Var V → Except Err (Option (Var V))) : List (Var V) → Except Err (Option (List (Var V)))
  | [] => .ok (some [])
  | v :: t =>
    match f v with
    | .error e => .error e
    | .ok none => .ok none
    | .ok (some w) =>
      match each f t with
      | .error e => .error e
      | .ok none => .ok none
      | .ok (some l) => .ok (some (w :: l))

/-- Whether the coordinate of this name has a modulus, in the first variable (subset.py:168). -/
def isModular (cs : List Crd) (n : Str) : Bool :=
  match index cs n with
  | none => false
  | some k =>
    match cs[k]? with
    | none => false
    | some c => c.modular

/-- `subset_cmd` (cis_main.py:102-121) up to the save, with `subset` (subset.py:12-72) and `GriddedSubsetConstraint.constrain` (subset.py:113-174),
of the variables of one datagroup. -/
def run (e : Env) (vs : List (Var V)) (text : Str) : Except Err (List (Var V)) :=
  match Limits.subsetLimits (conv e) text with
  | .error x => .error (.parse x)
  | .ok l =>
    match vs with
    | [] => .error .empty
    | first :: _ =>
      match keywords first.crds l [] with
      | .error x => .error x
      | .ok k =>
        match each (extract (k.filter (fun x => !isModular first.crds x.1))) vs with
        | .error x => .error x
        | .ok none => .error .noData
        | .ok (some ws) =>
          match each (intersection (k.filter (fun x => isModular first.crds x.1))) ws with
          | .error x => .error x
          | .ok none => .error .noData
          | .ok (some r) => .ok r

/-! ### Specification -/

open SubsetCmd.Spec (Range Denotes)

/-- One limit: as it is written, the coordinate it is for and the range it says. -/
structure Spec.Asked where
  dim : Str
  first : Str
  second : Option Str
  coord : Crd
  range : Range

/-- The least and the greatest point of the coordinate. -/
def Spec.Ends (c : Crd) (lo hi : ℚ) : Prop := lo ∈ c.points ∧ hi ∈ c.points ∧ ∀ x ∈ c.points, lo ≤ x ∧ x ≤ hi

/-- The point is in the range: its date; or the number, for coordinates in degrees up to whole turns, an end that is left open being the end of the
coordinate. -/
def Spec.Inside (c : Crd) : Range → ℚ → Prop
  | .time lo hi, x => ∃ f, c.dates = some f ∧ Time.Spec.instant lo ≤ Time.Spec.instant (f x) ∧ Time.Spec.instant (f x) ≤ Time.Spec.instant hi
  | .num lo hi, x =>
    if c.modular then ∃ (n : ℤ) (l h : ℚ), Spec.Ends c l h ∧ lo.getD l ≤ x + 360 * n ∧ x + 360 * n ≤ hi.getD h
    else (∀ a, lo = some a → a ≤ x) ∧ ∀ b, hi = some b → x ≤ b

/-- The new point of an old one: the same, or in degrees the one in the range, up to whole turns. -/
def Spec.NewPoint (c : Crd) : Range → ℚ → ℚ → Prop
  | .time _ _, p, q => q = p
  | .num lo hi, p, q =>
    if c.modular then (∃ n : ℤ, q = p + 360 * n) ∧ ∃ l h : ℚ, Spec.Ends c l h ∧ lo.getD l ≤ q ∧ q ≤ hi.getD h else q = p

/-- The coordinate `b` is the part of `a` in the range; `f` gives the old index of each new one; in degrees the last block may come first. -/
structure Spec.AxisSel (a b : Crd) (r : Range) (f : List Nat) : Prop where
  same : { b with points := a.points } = a
  length : b.points.length = f.length
  kept : ∀ i : Nat, i ∈ f ↔ ∃ p, a.points[i]? = some p ∧ Spec.Inside a r p
  points : ∀ (j i : Nat) (p q : ℚ), f[j]? = some i → a.points[i]? = some p → b.points[j]? = some q → Spec.NewPoint a r p q
  order : ∃ u v, f = u ++ v ∧ (v ++ u).Pairwise (· < ·) ∧ (a.modular = false → u = [])

/-- `r` is the part of `v` in all the ranges, dimension by dimension, with the values of the same cells. -/
def Spec.SubGrid (asked : List Spec.Asked) (v r : Var V) : Prop :=
  r.crds.length = v.crds.length ∧ ∃ f : Nat → List Nat,
    (∀ (k : Nat) (a b : Crd), v.crds[k]? = some a → r.crds[k]? = some b →
      (∀ x ∈ asked, x.coord.name = a.name → Spec.AxisSel a b x.range (f k)) ∧
      ((∀ x ∈ asked, x.coord.name ≠ a.name) → b = a ∧ f k = List.range a.points.length)) ∧
    r.mask.isSome = v.mask.isSome ∧
    ∀ idx : List Nat, idx.length = r.crds.length → (∀ (k i : Nat) (b : Crd), idx[k]? = some i → r.crds[k]? = some b → i < b.points.length) →
      r.value idx = v.value (idx.mapIdx (fun k i => (f k).getD i 0))

/-- The limit suits the coordinate: dates for times, numbers for others; in degrees, no infinite limit, and neither the range, its open ends filled
in, nor the coordinate longer than a turn. -/
def Spec.Suits (e : Env) (x : Spec.Asked) : Prop :=
  match x.range with
  | .time _ _ => x.coord.modular = false ∧ ∃ f, x.coord.dates = some f ∧ ∀ p ∈ x.coord.points, Time.Spec.Real (f p)
  | .num lo hi => x.coord.dates = none ∧ (x.coord.modular = true →
      e.flt x.first ≠ some .ninf ∧ (∀ s, x.second = some s → e.flt s ≠ some .pinf) ∧
      ∃ l h : ℚ, Spec.Ends x.coord l h ∧ hi.getD h ≤ lo.getD l + 360 ∧ h ≤ l + 360)

/-! ### Proofs -/

/-- `r` is made of the old indices `f k` and new points `pts k` of each dimension of `v`. -/
structure Part (v r : Var V) (f : Nat → List Nat) (pts : Nat → List ℚ) : Prop where
  crds : ∀ k : Nat, r.crds[k]? = (v.crds[k]?).map (fun a => { a with points := pts k })
  size : ∀ (k : Nat) (a : Crd), v.crds[k]? = some a → (pts k).length = (f k).length ∧ ∀ i ∈ f k, i < a.points.length
  mask : r.mask.isSome = v.mask.isSome
  value : ∀ idx : List Nat, idx.length = v.crds.length → (∀ (k i : Nat), idx[k]? = some i → i < (f k).length) →
      r.value idx = v.value (idx.mapIdx (fun k i => (f k).getD i 0))

theorem part_length {v r : Var V} {f : Nat → List Nat} {pts : Nat → List ℚ} (h : Part v r f pts) : r.crds.length = v.crds.length := by
  have : ∀ k : Nat, k < r.crds.length ↔ k < v.crds.length := by
    intro k
    have h1 := h.crds k
    constructor
    · intro hk
      by_contra hc
      rw [List.getElem?_eq_getElem hk, List.getElem?_eq_none (by omega)] at h1
      cases h1
    · intro hk
      by_contra hc
      rw [List.getElem?_eq_getElem hk, List.getElem?_eq_none (by omega)] at h1
      cases h1
  have h1 := this v.crds.length
  have h2 := this r.crds.length
  omega

theorem part_refl (v : Var V) : Part v v (fun k => List.range ((v.crds[k]?).elim 0 (fun a => a.points.length))) (fun k => (v.crds[k]?).elim [] Crd.points) := by
  refine ⟨?_, ?_, rfl, ?_⟩
  · intro k
    cases v.crds[k]? <;> rfl
  · intro k a h
    simp only [h, Option.elim_some, List.length_range, List.mem_range]
    exact ⟨trivial, fun i hi => hi⟩
  · intro idx hl hi
    congr 1
    apply List.ext_getElem?
    intro k
    rw [List.getElem?_mapIdx]
    cases hx : idx[k]? with
    | none => rfl
    | some i =>
      have := hi k i hx
      rw [List.length_range] at this
      simp [this]

theorem value_take (r : Var V) (k : Nat) (sel : List (Nat × ℚ)) (idx : List Nat) :
    (r.take k sel).value idx = r.value (idx.modify k (fun i => (sel.getD i (0, 0)).1)) := by
  unfold Var.value Var.take
  cases r.mask <;> rfl

theorem part_take {v r : Var V} {f : Nat → List Nat} {pts : Nat → List ℚ} (h : Part v r f pts) (k : Nat) (a : Crd) (sel : List (Nat × ℚ))
    (ha : v.crds[k]? = some a) (hf : f k = List.range a.points.length) (hs : ∀ e ∈ sel, e.1 < a.points.length) :
    Part v (r.take k sel) (Function.update f k (sel.map (·.1))) (Function.update pts k (sel.map (·.2))) := by
  refine ⟨?_, ?_, ?_, ?_⟩
  · intro j
    show (r.crds.modify k (fun a => { a with points := sel.map (·.2) }))[j]? = _
    rw [List.getElem?_modify, h.crds j]
    by_cases hj : k = j
    · subst hj
      rw [ha]
      simp
    · have hj' : j ≠ k := fun e => hj e.symm
      simp only [if_neg hj, Function.update_of_ne hj']
      cases v.crds[j]? <;> rfl
  · intro j b hb
    by_cases hj : j = k
    · subst hj
      rw [ha] at hb
      cases hb
      simp only [Function.update_self, List.length_map, List.mem_map]
      refine ⟨trivial, ?_⟩
      rintro i ⟨e, he, rfl⟩
      exact hs e he
    · rw [Function.update_of_ne hj, Function.update_of_ne hj]
      exact h.size j b hb
  · rw [← h.mask]
    simp [Var.take]
  · intro idx hl hi
    rw [value_take, h.value]
    · congr 1
      apply List.ext_getElem?
      intro j
      rw [List.getElem?_mapIdx, List.getElem?_mapIdx, List.getElem?_modify]
      cases hx : idx[j]? with
      | none => simp
      | some i =>
        have hlt := hi j i hx
        by_cases hj : k = j
        · subst hj
          rw [Function.update_self, List.length_map] at hlt
          have hb := hs sel[i] (List.getElem_mem hlt)
          simp only [if_true, Option.map_eq_map, Option.map_some, hf, Function.update_self]
          congr 1
          rw [List.getD_eq_getElem?_getD, List.getD_eq_getElem?_getD, List.getD_eq_getElem?_getD, List.getElem?_eq_getElem hlt, Option.getD_some,
            List.getElem?_range hb, List.getElem?_map, List.getElem?_eq_getElem hlt]
          rfl
        · have hj' : j ≠ k := fun e => hj e.symm
          simp only [Function.update_of_ne hj', if_neg hj]
          rfl
    · simpa using hl
    · intro j i hx
      rw [List.getElem?_modify] at hx
      cases hx2 : idx[j]? with
      | none => rw [hx2] at hx; cases hx
      | some i' =>
        rw [hx2] at hx
        have hlt := hi j i' hx2
        by_cases hj : k = j
        · subst hj
          rw [Function.update_self, List.length_map] at hlt
          simp only [if_true, Option.map_eq_map, Option.map_some, Option.some.injEq] at hx
          rw [hf, List.length_range, ← hx, List.getD_eq_getElem?_getD, List.getElem?_eq_getElem hlt]
          exact hs sel[i'] (List.getElem_mem hlt)
        · have hj' : j ≠ k := fun e => hj e.symm
          simp only [if_neg hj] at hx
          rw [Function.update_of_ne hj'] at hlt
          simp only [Option.map_eq_map, Option.map_some, Option.some.injEq, id_eq] at hx
          rw [← hx]; exact hlt

theorem index_part {v r : Var V} {f : Nat → List Nat} {pts : Nat → List ℚ} (h : Part v r f pts) (n : Str) : index r.crds n = index v.crds n := by
  have : ((List.range r.crds.length).filter (fun k => match r.crds[k]? with | some c => decide (c.name.toList = n) | none => false)) =
      ((List.range v.crds.length).filter (fun k => match v.crds[k]? with | some c => decide (c.name.toList = n) | none => false)) := by
    rw [part_length h]
    apply List.filter_congr
    intro k _
    rw [h.crds k]
    cases v.crds[k]? <;> rfl
  unfold index
  rw [this]

theorem index_of (cs : List Crd) (hn : (cs.map (fun c => c.name)).Nodup) (k : Nat) (c : Crd) (hc : cs[k]? = some c) : index cs c.name.toList = some k := by
  have : ((List.range cs.length).filter (fun j => match cs[j]? with | some d => decide (d.name.toList = c.name.toList) | none => false)) = [k] := by
    have h1 : ((List.range cs.length).filter (fun j => match cs[j]? with | some d => decide (d.name.toList = c.name.toList) | none => false)).Perm [k] := by
      rw [List.perm_ext_iff_of_nodup (List.nodup_range.filter _) (by simp)]
      intro j
      rw [List.mem_filter, List.mem_singleton, List.mem_range]
      constructor
      · rintro ⟨h1, h2⟩
        rw [List.getElem?_eq_getElem h1] at h2
        simp only [decide_eq_true_eq, String.toList_inj] at h2
        obtain ⟨hk, hk2⟩ := List.getElem?_eq_some_iff.1 hc
        rw [← hk2] at h2
        have := (List.nodup_iff_injective_getElem.1 hn) (a₁ := ⟨j, by simpa using h1⟩) (a₂ := ⟨k, by simpa using hk⟩) (by simpa using h2)
        simpa using this
      · rintro rfl
        obtain ⟨hk, -⟩ := List.getElem?_eq_some_iff.1 hc
        exact ⟨hk, by rw [hc]; simp⟩
    simpa using h1
  unfold index
  rw [this]

/-- A limit with the dimension it is for and what it selects there. -/
structure Job where
  lim : Str × Bound × Bound
  k : Nat
  crd : Crd
  sel : List (Nat × ℚ)

/-- The job is about this variable. -/
def Job.For (v : Var V) (j : Job) : Prop :=
  index v.crds j.lim.1 = some j.k ∧ v.crds[j.k]? = some j.crd ∧ ∀ e ∈ j.sel, e.1 < j.crd.points.length

/-- What is selected after the jobs. -/
def after (f : Nat → List Nat) (T : List Job) : Nat → List Nat := T.foldl (fun f j => Function.update f j.k (j.sel.map (·.1))) f

def afterPts (f : Nat → List ℚ) (T : List Job) : Nat → List ℚ := T.foldl (fun f j => Function.update f j.k (j.sel.map (·.2))) f

theorem extract_jobs (v : Var V) : ∀ (T : List Job) (r : Var V) (f : Nat → List Nat) (pts : Nat → List ℚ), Part v r f pts →
    (T.map Job.k).Nodup → (∀ j ∈ T, j.For v ∧ contains j.crd j.lim.2.1 j.lim.2.2 = .ok j.sel ∧ f j.k = List.range j.crd.points.length ∧ pts j.k = j.crd.points) →
    ((∀ j ∈ T, j.sel ≠ []) → ∃ w, extract (T.map Job.lim) r = .ok (some w) ∧ Part v w (after f T) (afterPts pts T)) ∧
    ((∃ j ∈ T, j.sel = []) → extract (T.map Job.lim) r = .ok none)
  | [], r, f, pts, h, _, _ => ⟨fun _ => ⟨r, rfl, h⟩, fun ⟨j, hj, _⟩ => by cases hj⟩
  | j :: t, r, f, pts, h, hn, hj => by
    obtain ⟨⟨h1, h2, h3⟩, h4, h5, h6⟩ := hj j (by simp)
    obtain ⟨n, a, b, hlim⟩ : ∃ n a b, j.lim = (n, a, b) := ⟨_, _, _, rfl⟩
    rw [List.map_cons, List.nodup_cons] at hn
    have hcrd : r.crds[j.k]? = some j.crd := by rw [h.crds, h2, h6]; rfl
    have hstep := part_take h j.k j.crd j.sel h2 h5 h3
    have ih := extract_jobs v t (r.take j.k j.sel) _ _ hstep hn.2 (by
      intro i hi
      obtain ⟨g1, g2, g3, g4⟩ := hj i (by simp [hi])
      have hne : i.k ≠ j.k := fun e => hn.1 (by rw [← e]; exact List.mem_map_of_mem hi)
      exact ⟨g1, g2, by rw [Function.update_of_ne hne]; exact g3, by rw [Function.update_of_ne hne]; exact g4⟩)
    have hex : extract ((j :: t).map Job.lim) r = if j.sel = [] then .ok none else extract (t.map Job.lim) (r.take j.k j.sel) := by
      rw [List.map_cons, hlim, extract, index_part h]
      rw [hlim] at h1 h4
      rw [h1]
      dsimp only
      rw [hcrd]
      dsimp only
      rw [h4]
    rw [hex]
    constructor
    · intro hs
      rw [if_neg (hs j (by simp))]
      exact ih.1 (fun i hi => hs i (by simp [hi]))
    · rintro ⟨i, hi, he⟩
      by_cases hjs : j.sel = []
      · rw [if_pos hjs]
      · rw [if_neg hjs]
        apply ih.2
        rcases List.mem_cons.1 hi with rfl | hi
        · exact absurd he hjs
        · exact ⟨i, hi, he⟩

/-- What `intersection` needs for a limit, and selects. -/
def Job.Meets (j : Job) : Prop :=
  ∃ a b : ℚ, j.lim.2 = (.num (.fin a), .num (.fin b)) ∧ b ≤ a + 360 ∧ Subset.maxOf j.crd.points ≤ Subset.minOf j.crd.points + 360 ∧
    Subset.Gridded.intersectSel j.crd.points a b = j.sel

theorem intersection_jobs (v : Var V) : ∀ (T : List Job) (r : Var V) (f : Nat → List Nat) (pts : Nat → List ℚ), Part v r f pts →
    (T.map Job.k).Nodup → (∀ j ∈ T, j.For v ∧ j.Meets ∧ f j.k = List.range j.crd.points.length ∧ pts j.k = j.crd.points) →
    ((∀ j ∈ T, j.sel ≠ []) → ∃ w, intersection (T.map Job.lim) r = .ok (some w) ∧ Part v w (after f T) (afterPts pts T)) ∧
    ((∃ j ∈ T, j.sel = []) → intersection (T.map Job.lim) r = .ok none)
  | [], r, f, pts, h, _, _ => ⟨fun _ => ⟨r, rfl, h⟩, fun ⟨j, hj, _⟩ => by cases hj⟩
  | j :: t, r, f, pts, h, hn, hj => by
    obtain ⟨⟨h1, h2, h3⟩, ⟨a, b, h4, h4b, h4c, h4d⟩, h5, h6⟩ := hj j (by simp)
    obtain ⟨n, ab, hlim⟩ : ∃ n ab, j.lim = (n, ab) := ⟨_, _, rfl⟩
    rw [List.map_cons, List.nodup_cons] at hn
    have hcrd : r.crds[j.k]? = some j.crd := by rw [h.crds, h2, h6]; rfl
    have hstep := part_take h j.k j.crd j.sel h2 h5 h3
    have ih := intersection_jobs v t (r.take j.k j.sel) _ _ hstep hn.2 (by
      intro i hi
      obtain ⟨g1, g2, g3, g4⟩ := hj i (by simp [hi])
      have hne : i.k ≠ j.k := fun e => hn.1 (by rw [← e]; exact List.mem_map_of_mem hi)
      exact ⟨g1, g2, by rw [Function.update_of_ne hne]; exact g3, by rw [Function.update_of_ne hne]; exact g4⟩)
    have hex : intersection ((j :: t).map Job.lim) r = if j.sel = [] then .ok none else intersection (t.map Job.lim) (r.take j.k j.sel) := by
      rw [hlim] at h1 h4
      dsimp only at h4
      rw [List.map_cons, hlim, h4, intersection, index_part h, h1]
      dsimp only
      rw [hcrd]
      dsimp only
      rw [if_neg (by rw [not_or]; exact ⟨not_lt.2 h4b, not_lt.2 h4c⟩), h4d]
    rw [hex]
    constructor
    · intro hs
      rw [if_neg (hs j (by simp))]
      exact ih.1 (fun i hi => hs i (by simp [hi]))
    · rintro ⟨i, hi, he⟩
      by_cases hjs : j.sel = []
      · rw [if_pos hjs]
      · rw [if_neg hjs]
        apply ih.2
        rcases List.mem_cons.1 hi with rfl | hi
        · exact absurd he hjs
        · exact ⟨i, hi, he⟩

theorem after_not (f : Nat → List Nat) : ∀ (T : List Job) (k : Nat), k ∉ T.map Job.k → after f T k = f k := by
  intro T
  induction T generalizing f with
  | nil => intro k _; rfl
  | cons j t ih =>
    intro k hk
    rw [List.map_cons, List.mem_cons, not_or] at hk
    show after (Function.update f j.k _) t k = _
    rw [ih _ k hk.2, Function.update_of_ne hk.1]

theorem after_mem (f : Nat → List Nat) : ∀ (T : List Job), (T.map Job.k).Nodup → ∀ j ∈ T, after f T j.k = j.sel.map (·.1) := by
  intro T
  induction T generalizing f with
  | nil => intro _ j hj; cases hj
  | cons i t ih =>
    intro hn j hj
    rw [List.map_cons, List.nodup_cons] at hn
    show after (Function.update f i.k _) t j.k = _
    rcases List.mem_cons.1 hj with rfl | hj
    · rw [after_not _ t _ hn.1, Function.update_self]
    · exact ih _ hn.2 j hj

theorem afterPts_not (f : Nat → List ℚ) : ∀ (T : List Job) (k : Nat), k ∉ T.map Job.k → afterPts f T k = f k := by
  intro T
  induction T generalizing f with
  | nil => intro k _; rfl
  | cons j t ih =>
    intro k hk
    rw [List.map_cons, List.mem_cons, not_or] at hk
    show afterPts (Function.update f j.k _) t k = _
    rw [ih _ k hk.2, Function.update_of_ne hk.1]

theorem afterPts_mem (f : Nat → List ℚ) : ∀ (T : List Job), (T.map Job.k).Nodup → ∀ j ∈ T, afterPts f T j.k = j.sel.map (·.2) := by
  intro T
  induction T generalizing f with
  | nil => intro _ j hj; cases hj
  | cons i t ih =>
    intro hn j hj
    rw [List.map_cons, List.nodup_cons] at hn
    show afterPts (Function.update f i.k _) t j.k = _
    rcases List.mem_cons.1 hj with rfl | hj
    · rw [afterPts_not _ t _ hn.1, Function.update_self]
    · exact ih _ hn.2 j hj

theorem parseFloat_num {cv : Limits.Conv DateTime} {s : Option Str} {f : Limits.Fl} (h : Limits.parseFloat cv s = .ok (.num f)) :
    ∃ t, s = some t ∧ cv.flt t = some f := by
  unfold Limits.parseFloat at h
  cases s with
  | none => cases h
  | some t =>
    dsimp only at h
    split at h
    · cases h
    · split at h
      · cases h; exact ⟨t, rfl, by assumption⟩
      · cases h

theorem parseValue_num {cv : Limits.Conv DateTime} {s : Option Str} {f : Limits.Fl} (h : Limits.parseValue cv s = .ok (.num f)) :
    ∃ t, s = some t ∧ cv.flt t = some f := by
  unfold Limits.parseValue at h
  cases s with
  | none => cases h
  | some t =>
    dsimp only at h
    split at h
    · cases h
    · split at h
      · cases h; exact ⟨t, rfl, by assumption⟩
      · split at h <;> cases h

theorem parseDate_num {cv : Limits.Conv DateTime} {s : Str} {f : Limits.Fl} (h : Limits.parseDate cv s = .ok (.num f)) : False := by
  unfold Limits.parseDate at h
  split at h
  · cases h
  · split at h <;> cases h

/-- Numbers that are read are what `float` makes of the texts. -/
theorem seg_num {e : Env} {dim first : Str} {second : Option Str} (hd : Limits.Spec.Word ['='] dim) (hs : Limits.Spec.Word [']', ','] first)
    (he : ∀ x, second = some x → Limits.Spec.Word [']', ','] x) (hsh : ¬ "shape".toList <+: dim) {va vb : Limits.Val DateTime}
    (h : Limits.subsetSeg (conv e) (Limits.Spec.render dim first second) = .ok (dim, .pair va vb)) :
    (∀ f, va = .num f → e.flt first = some f) ∧ ∀ f, vb = .num f → ∃ s, second = some s ∧ e.flt s = some f := by
  obtain ⟨h0, hm⟩ := Limits.subsetSeg_eq dim first second hd hs he hsh
  rw [Limits.subsetSeg, h0, hm] at h
  simp only [Bool.false_eq_true, if_false] at h
  have key : ∀ {a b : Limits.Val DateTime}, (∃ p : Option Str → Except Limits.Err (Limits.Val DateTime), p (some first) = .ok a ∧ p second = .ok b ∧
      ∀ s f, p s = .ok (.num f) → ∃ t, s = some t ∧ e.flt t = some f) →
      (∀ f, a = .num f → e.flt first = some f) ∧ ∀ f, b = .num f → ∃ s, second = some s ∧ e.flt s = some f := by
    rintro a b ⟨p, h1, h2, h3⟩
    constructor
    · rintro f rfl
      obtain ⟨t, ht, h4⟩ := h3 _ _ h1
      cases ht; exact h4
    · rintro f rfl
      exact h3 _ _ h2
  split at h
  · cases second with
    | none =>
      dsimp only at h
      split at h
      · cases h; exact ⟨by rintro f ⟨⟩, by rintro f ⟨⟩⟩
      · cases h
    | some s =>
      dsimp only at h
      split at h
      · cases h
      · rename_i a ha
        split at h
        · cases h
        · rename_i b hb
          cases h
          constructor
          · rintro f rfl; exact (parseDate_num ha).elim
          · rintro f rfl; exact (parseDate_num hb).elim
  · split at h
    · split at h
      · cases h
      · rename_i a ha
        split at h
        · cases h
        · rename_i b hb
          split at h
          · split at h
            · cases h
            · cases h
              exact key ⟨_, ha, hb, fun s f => parseFloat_num⟩
          · cases h
            exact key ⟨_, ha, hb, fun s f => parseFloat_num⟩
    · split at h
      · cases h
      · rename_i a ha
        split at h
        · cases h
        · rename_i b hb
          cases h
          exact key ⟨_, ha, hb, fun s f => parseValue_num⟩

/-- A limit with the values read for it. -/
abbrev Read := Spec.Asked × Limits.Val DateTime × Limits.Val DateTime

/-- The words of a limit. -/
def Spec.Words (x : Spec.Asked) : Prop :=
  Limits.Spec.Word ['=', ',', '[', '('] x.dim ∧ Limits.Spec.Word [']', ',', '[', '('] x.first ∧
    ∀ s, x.second = some s → Limits.Spec.Word [']', ',', '[', '('] s

theorem parse_ok (e : Env) (asked : List Spec.Asked) (hne : asked ≠ []) (hword : ∀ x ∈ asked, Spec.Words x)
    (hshape : ∀ x ∈ asked, ¬ "shape".toList <+: x.dim) (hsays : ∀ x ∈ asked, Denotes e x.dim x.first x.second x.range)
    (hdims : (asked.map Spec.Asked.dim).Nodup) :
    ∃ L : List Read, L.map Prod.fst = asked ∧
      (∀ r ∈ L, SubsetCmd.Fits r.1.range r.2.1 r.2.2 ∧ (∀ f, r.2.1 = .num f → e.flt r.1.first = some f) ∧
        ∀ f, r.2.2 = .num f → ∃ s, r.1.second = some s ∧ e.flt s = some f) ∧
      Limits.subsetLimits (conv e) (Parse.joinBy ',' (asked.map (fun x => Limits.Spec.render x.dim x.first x.second))) =
        .ok (L.map (fun r => (r.1.dim, .pair r.2.1 r.2.2))) := by
  have hseg : ∀ x ∈ asked, ∃ va vb, Limits.subsetSeg (conv e) (Limits.Spec.render x.dim x.first x.second) = .ok (x.dim, .pair va vb) ∧
      SubsetCmd.Fits x.range va vb ∧ (∀ f, va = .num f → e.flt x.first = some f) ∧ ∀ f, vb = .num f → ∃ s, x.second = some s ∧ e.flt s = some f := by
    intro x hx
    obtain ⟨w1, w2, w3⟩ := hword x hx
    have sub : ∀ {b b' : List Char} {s : Str}, b' ⊆ b → Limits.Spec.Word b s → Limits.Spec.Word b' s :=
      fun hb h => ⟨h.1, fun c hc hm => h.2 c hc (hb hm)⟩
    have d1 := sub (b' := ['=']) (by simp) w1
    have d2 := sub (b' := [']', ',']) (by simp) w2
    have d3 : ∀ s, x.second = some s → Limits.Spec.Word [']', ','] s := fun s hs => sub (by simp) (w3 s hs)
    obtain ⟨va, vb, h1, h2⟩ := SubsetCmd.seg_ok (a := ⟨x.dim, x.first, x.second, SubsetCmd.exLon [], x.range⟩) d1 d2 d3 (hshape x hx) (hsays x hx)
    obtain ⟨h3, h4⟩ := seg_num d1 d2 d3 (hshape x hx) h1
    exact ⟨va, vb, h1, h2, h3, h4⟩
  obtain ⟨L, hL1, hL2⟩ : ∃ L : List Read, L.map Prod.fst = asked ∧ ∀ r ∈ L,
      Limits.subsetSeg (conv e) (Limits.Spec.render r.1.dim r.1.first r.1.second) = .ok (r.1.dim, .pair r.2.1 r.2.2) ∧
      SubsetCmd.Fits r.1.range r.2.1 r.2.2 ∧ (∀ f, r.2.1 = .num f → e.flt r.1.first = some f) ∧
        ∀ f, r.2.2 = .num f → ∃ s, r.1.second = some s ∧ e.flt s = some f := by
    clear hne hword hshape hsays hdims
    induction asked with
    | nil => exact ⟨[], rfl, by simp⟩
    | cons a t ih =>
      obtain ⟨L, h1, h2⟩ := ih (fun b hb => hseg b (by simp [hb]))
      obtain ⟨va, vb, h3⟩ := hseg a (by simp)
      refine ⟨(a, va, vb) :: L, by simp [h1], ?_⟩
      intro r hr
      rcases List.mem_cons.1 hr with rfl | hr
      · exact h3
      · exact h2 r hr
  refine ⟨L, hL1, fun r hr => (hL2 r hr).2, ?_⟩
  have h := (Limits.c81_argument (conv e) (asked.map (fun a => (a.dim, a.first, a.second))) (by simpa using hne) (by
    intro x hx
    obtain ⟨a, ha, rfl⟩ := List.mem_map.1 hx
    exact hword a ha)).1 (L.map (fun r => (r.1.dim, .pair r.2.1 r.2.2)))
  have hmm : asked.map (fun a => Limits.Spec.render a.dim a.first a.second) =
      (asked.map (fun a => (a.dim, a.first, a.second))).map (fun x => Limits.Spec.render x.1 x.2.1 x.2.2) := by rw [List.map_map]; rfl
  rw [hmm]
  apply h
  · rw [List.map_map, List.map_map, ← hL1, List.map_map]
    apply List.map_congr_left
    intro r hr
    exact (hL2 r hr).1
  · rw [List.map_map]
    have : L.map (Prod.fst ∘ fun r : Read => (r.1.dim, (Limits.Lim.pair r.2.1 r.2.2 : Limits.Lim DateTime))) = (L.map Prod.fst).map Spec.Asked.dim := by
      rw [List.map_map]; rfl
    rw [this, hL1]; exact hdims

theorem getCoord_ok (cs : List Crd) (hn : (cs.map (fun c => c.name)).Nodup) (n : String) (c : Crd) (hc : c ∈ cs)
    (h : CollapseCmd.Spec.Means (cs.map Crd.toCrd) n c.toCrd) : getCoord cs n = some c := by
  unfold getCoord
  rw [CollapseCmd.getCoord_means _ _ _ h]
  dsimp only
  clear h
  induction cs with
  | nil => cases hc
  | cons d t ih =>
    rw [List.map_cons, List.nodup_cons] at hn
    rw [List.find?_cons]
    by_cases hd : d.toCrd = c.toCrd
    · have : d = c := by
        rcases List.mem_cons.1 hc with e | e
        · exact e.symm
        · exfalso
          apply hn.1
          have : d.name = c.name := by rw [hd]
          rw [this]
          exact List.mem_map_of_mem (f := fun c : Crd => c.name) e
      subst this
      simp
    · have hct : c ∈ t := by
        rcases List.mem_cons.1 hc with e | e
        · exact absurd (by rw [e]) hd
        · exact e
      simp only [hd, decide_false]
      exact ih hn.2 hct

/-- Its entry in the dictionary of `subset`. -/
def entry (r : Read) : Str × Bound × Bound := (r.1.coord.name.toList, fillStart r.1.coord r.2.1, fillStop r.1.coord r.2.2)

theorem keywords_ok (cs : List Crd) : ∀ (L : List Read) (acc : List (Str × Bound × Bound)),
    (∀ r ∈ L, getCoord cs (String.ofList r.1.dim) = some r.1.coord) →
    (acc.map Prod.fst ++ L.map (fun r => r.1.coord.name.toList)).Nodup →
    keywords cs (L.map (fun r => (r.1.dim, .pair r.2.1 r.2.2))) acc = .ok (acc ++ L.map entry)
  | [], acc, _, _ => by simp [keywords]
  | r :: t, acc, h, hn => by
    simp only [List.map_cons, keywords]
    rw [h r (by simp)]
    dsimp only
    rw [SubsetCmd.dictSet_new, keywords_ok cs t _ (fun r hr => h r (by simp [hr]))]
    · simp [entry]
    · simpa [List.append_assoc] using hn
    · intro hk
      rw [List.nodup_append] at hn
      exact hn.2.2 _ hk _ (by simp) rfl

theorem foldl_min_mem : ∀ (l : List ℚ) (a : ℚ), l.foldl min a = a ∨ l.foldl min a ∈ l
  | [], a => .inl rfl
  | b :: t, a => by
    rw [List.foldl_cons]
    rcases foldl_min_mem t (min a b) with h | h
    · rw [h]
      rcases min_choice a b with h2 | h2
      · exact .inl h2
      · exact .inr (by rw [h2]; simp)
    · exact .inr (List.mem_cons_of_mem _ h)

theorem foldl_max_mem : ∀ (l : List ℚ) (a : ℚ), l.foldl max a = a ∨ l.foldl max a ∈ l
  | [], a => .inl rfl
  | b :: t, a => by
    rw [List.foldl_cons]
    rcases foldl_max_mem t (max a b) with h | h
    · rw [h]
      rcases max_choice a b with h2 | h2
      · exact .inl h2
      · exact .inr (by rw [h2]; simp)
    · exact .inr (List.mem_cons_of_mem _ h)

theorem ends_unique {c : Crd} {l h : ℚ} (he : Spec.Ends c l h) : l = Subset.minOf c.points ∧ h = Subset.maxOf c.points := by
  obtain ⟨h1, h2, h3⟩ := he
  have hne : c.points ≠ [] := List.ne_nil_of_mem h1
  have m1 : Subset.minOf c.points ∈ c.points := by
    unfold Subset.minOf
    cases hc : c.points with
    | nil => exact absurd hc hne
    | cons a t =>
      rcases foldl_min_mem (a :: t) ((a :: t).headD 0) with h | h
      · rw [h]; simp
      · exact h
  have m2 : Subset.maxOf c.points ∈ c.points := by
    unfold Subset.maxOf
    cases hc : c.points with
    | nil => exact absurd hc hne
    | cons a t =>
      rcases foldl_max_mem (a :: t) ((a :: t).headD 0) with h | h
      · rw [h]; simp
      · exact h
  have o1 := Subset.open_limit c.points
  exact ⟨le_antisymm (h3 _ m1).1 (o1 _ h1).1, le_antisymm (o1 _ h2).2 (h3 _ m2).2⟩

/-- What a limit without modulus selects. -/
theorem contains_spec (x : Spec.Asked) (e : Env) (hs : Spec.Suits e x) (hm : x.coord.modular = false) (va vb : Limits.Val DateTime)
    (hfit : SubsetCmd.Fits x.range va vb) :
    ∃ P : ℚ → Bool, contains x.coord (fillStart x.coord va) (fillStop x.coord vb) = .ok ((Subset.Gridded.enum x.coord.points).filter (fun t => P t.2)) ∧
      ∀ p ∈ x.coord.points, P p = true ↔ Spec.Inside x.coord x.range p := by
  unfold Spec.Suits at hs
  cases hr : x.range with
  | num lo hi =>
    rw [hr] at hs hfit
    dsimp only at hs
    obtain ⟨hva, hvb⟩ := hfit
    obtain ⟨fa, ha, hfa⟩ : ∃ fa, fillStart x.coord va = .num fa ∧ ∀ p ∈ x.coord.points, (fa.le (.fin p) = true ↔ ∀ q, lo = some q → q ≤ p) := by
      rcases hva with ⟨rfl, rfl⟩ | ⟨rfl, rfl⟩ | ⟨q, rfl, rfl⟩
      · exact ⟨_, rfl, fun p hp => by simp [Limits.Fl.le, (Subset.open_limit x.coord.points p hp).1]⟩
      · exact ⟨_, rfl, fun p _ => by simp [Limits.Fl.le]⟩
      · exact ⟨_, rfl, fun p _ => by simp [Limits.Fl.le]⟩
    obtain ⟨fb, hb, hfb⟩ : ∃ fb, fillStop x.coord vb = .num fb ∧ ∀ p ∈ x.coord.points, ((Limits.Fl.fin p).le fb = true ↔ ∀ q, hi = some q → p ≤ q) := by
      rcases hvb with ⟨rfl, rfl⟩ | ⟨rfl, rfl⟩ | ⟨q, rfl, rfl⟩
      · exact ⟨_, rfl, fun p hp => by simp [Limits.Fl.le, (Subset.open_limit x.coord.points p hp).2]⟩
      · exact ⟨_, rfl, fun p _ => by simp [Limits.Fl.le]⟩
      · exact ⟨_, rfl, fun p _ => by simp [Limits.Fl.le]⟩
    refine ⟨fun p => fa.le (.fin p) && (Limits.Fl.fin p).le fb, ?_, ?_⟩
    · rw [ha, hb]
      unfold contains
      rw [hs.1]
    · intro p hp
      rw [Bool.and_eq_true, hfa p hp, hfb p hp, Spec.Inside, if_neg (by simp [hm])]
  | time lo hi =>
    rw [hr] at hs hfit
    dsimp only at hs
    obtain ⟨-, f, hf, hreal⟩ := hs
    obtain ⟨rfl, rfl, hlo, hhi⟩ := hfit
    refine ⟨fun p => dateLe lo (f p) && dateLe (f p) hi, ?_, ?_⟩
    · rw [fillStart, fillStop]
      unfold contains
      rw [hf]
    · intro p hp
      rw [Bool.and_eq_true, SubsetCmd.dateLe_iff, SubsetCmd.dateLe_iff, Time.lex_iff hlo (hreal p hp), Time.lex_iff (hreal p hp) hhi, Spec.Inside]
      constructor
      · rintro ⟨h1, h2⟩; exact ⟨f, hf, h1, h2⟩
      · rintro ⟨g, hg, h1, h2⟩
        rw [hf] at hg; cases hg; exact ⟨h1, h2⟩

theorem axisSel_plain (c : Crd) (r : Range) (hm : c.modular = false) (P : ℚ → Bool) (hP : ∀ p ∈ c.points, P p = true ↔ Spec.Inside c r p) :
    Spec.AxisSel c { c with points := ((Subset.Gridded.enum c.points).filter (fun t => P t.2)).map (·.2) } r
      (((Subset.Gridded.enum c.points).filter (fun t => P t.2)).map (·.1)) := by
  have hmem : ∀ (i : Nat) (p : ℚ), (i, p) ∈ (Subset.Gridded.enum c.points).filter (fun t => P t.2) ↔ c.points[i]? = some p ∧ Spec.Inside c r p := by
    intro i p
    rw [List.mem_filter, Subset.Gridded.mem_enum]
    constructor
    · rintro ⟨h1, h2⟩; exact ⟨h1, (hP p (List.mem_of_getElem? h1)).1 h2⟩
    · rintro ⟨h1, h2⟩; exact ⟨h1, (hP p (List.mem_of_getElem? h1)).2 h2⟩
  have hsorted : (((Subset.Gridded.enum c.points).filter (fun t => P t.2)).map Prod.fst).Pairwise (· < ·) :=
    List.Pairwise.sublist ((List.filter_sublist (l := Subset.Gridded.enum c.points)).map Prod.fst) (Subset.Gridded.enum_sorted c.points)
  refine ⟨rfl, by simp, ?_, ?_, ⟨[], _, rfl, by simpa using hsorted, fun _ => rfl⟩⟩
  · intro i
    rw [List.mem_map]
    constructor
    · rintro ⟨⟨i', p⟩, he, rfl⟩
      exact ⟨p, (hmem i' p).1 he⟩
    · rintro ⟨p, hp⟩
      exact ⟨(i, p), (hmem i p).2 hp, rfl⟩
  · intro j i p q g1 g2 g3
    simp only [List.getElem?_map, Option.map_eq_some_iff] at g1 g3
    obtain ⟨⟨i', p'⟩, h4, rfl⟩ := g1
    obtain ⟨e, h5, rfl⟩ := g3
    rw [h4] at h5
    cases h5
    have := (hmem _ _).1 (List.mem_of_getElem? h4)
    rw [this.1] at g2
    cases g2
    cases r with
    | time lo hi => rfl
    | num lo hi => simp [Spec.NewPoint, hm]

theorem axisSel_modular (c : Crd) (lo hi : Option ℚ) (hm : c.modular = true) (l h : ℚ) (he : Spec.Ends c l h) :
    Spec.AxisSel c { c with points := (Subset.Gridded.intersectSel c.points (lo.getD l) (hi.getD h)).map (·.2) } (.num lo hi)
      ((Subset.Gridded.intersectSel c.points (lo.getD l) (hi.getD h)).map (·.1)) := by
  have hin : ∀ p, Spec.Inside c (.num lo hi) p ↔ Subset.Gridded.Spec.Inside true ⟨0, lo.getD l, hi.getD h⟩ p := by
    intro p
    rw [Spec.Inside, if_pos hm, Subset.Gridded.Spec.Inside, if_pos rfl]
    constructor
    · rintro ⟨n, l', h', he', h1, h2⟩
      rw [(ends_unique he).1, (ends_unique he).2, ← (ends_unique he').1, ← (ends_unique he').2]
      exact ⟨n, h1, h2⟩
    · rintro ⟨n, h1, h2⟩
      exact ⟨n, l, h, he, h1, h2⟩
  have hsel := Subset.Gridded.intersectSel_spec ⟨true, c.points⟩ ⟨0, lo.getD l, hi.getD h⟩ rfl
  refine ⟨rfl, by simp, ?_, ?_, ?_⟩
  · intro i
    rw [hsel.kept i]
    constructor
    · rintro ⟨p, h1, h2⟩; exact ⟨p, h1, (hin p).2 h2⟩
    · rintro ⟨p, h1, h2⟩; exact ⟨p, h1, (hin p).1 h2⟩
  · intro j i p q g1 g2 g3
    have := hsel.points j i p q g1 g2 g3
    rw [Subset.Gridded.Spec.NewPoint, if_pos rfl] at this
    rw [Spec.NewPoint, if_pos hm]
    exact ⟨this.1, l, h, he, this.2⟩
  · obtain ⟨u, w, h1, h2, -⟩ := hsel.order
    exact ⟨u, w, h1, h2, fun hf => by rw [hm] at hf; cases hf⟩

theorem axisSel_nil {a b : Crd} {r : Range} {f : List Nat} (h : Spec.AxisSel a b r f) : f = [] ↔ ¬ ∃ p ∈ a.points, Spec.Inside a r p := by
  constructor
  · rintro rfl ⟨p, hp, hi⟩
    obtain ⟨i, hi2⟩ := List.mem_iff_getElem?.1 hp
    have := (h.kept i).2 ⟨p, hi2, hi⟩
    simp at this
  · intro hn
    cases f with
    | nil => rfl
    | cons i t =>
      exfalso
      obtain ⟨p, hp, hi⟩ := (h.kept i).1 (by simp)
      exact hn ⟨p, List.mem_of_getElem? hp, hi⟩

/-- The job of a limit. -/
theorem job_of (e : Env) (cs : List Crd) (hn : (cs.map (fun c => c.name)).Nodup) (x : Spec.Asked) (hc : x.coord ∈ cs) (hs : Spec.Suits e x)
    (va vb : Limits.Val DateTime) (hfit : SubsetCmd.Fits x.range va vb) (h1 : ∀ f, va = .num f → e.flt x.first = some f)
    (h2 : ∀ f, vb = .num f → ∃ s, x.second = some s ∧ e.flt s = some f) :
    ∃ j : Job, j.lim = entry (x, va, vb) ∧ index cs j.lim.1 = some j.k ∧ cs[j.k]? = some j.crd ∧ j.crd = x.coord ∧ (∀ t ∈ j.sel, t.1 < j.crd.points.length) ∧
      (x.coord.modular = false → contains j.crd j.lim.2.1 j.lim.2.2 = .ok j.sel) ∧ (x.coord.modular = true → j.Meets) ∧
      Spec.AxisSel x.coord { x.coord with points := j.sel.map (·.2) } x.range (j.sel.map (·.1)) := by
  obtain ⟨k, hk⟩ := List.mem_iff_getElem?.1 hc
  have hidx := index_of cs hn k x.coord hk
  have hlt : ∀ sel : List (Nat × ℚ), Spec.AxisSel x.coord { x.coord with points := sel.map (·.2) } x.range (sel.map (·.1)) →
      ∀ t ∈ sel, t.1 < x.coord.points.length := by
    intro sel ha t ht
    obtain ⟨p, hp, -⟩ := (ha.kept t.1).1 (List.mem_map_of_mem ht)
    exact (List.getElem?_eq_some_iff.1 hp).1
  cases hm : x.coord.modular with
  | false =>
    obtain ⟨P, h3, h4⟩ := contains_spec x e hs hm va vb hfit
    have ha := axisSel_plain x.coord x.range hm P h4
    exact ⟨⟨entry (x, va, vb), k, x.coord, _⟩, rfl, hidx, hk, rfl, hlt _ ha, fun _ => h3, (fun h => by cases h), ha⟩
  | true =>
    unfold Spec.Suits at hs
    cases hr : x.range with
    | time lo hi => rw [hr] at hs; dsimp only at hs; rw [hm] at hs; cases hs.1
    | num lo hi =>
      rw [hr] at hs hfit
      dsimp only at hs
      obtain ⟨-, hs⟩ := hs
      obtain ⟨n1, n2, l, h, he, hw, hsp⟩ := hs hm
      obtain ⟨u1, u2⟩ := ends_unique he
      have ha := axisSel_modular x.coord lo hi hm l h he
      rw [← hr] at ha
      obtain ⟨hva, hvb⟩ := hfit
      have fa : fillStart x.coord va = .num (.fin (lo.getD l)) := by
        rcases hva with ⟨rfl, rfl⟩ | ⟨rfl, rfl⟩ | ⟨q, rfl, rfl⟩
        · rw [fillStart, ← u1]; rfl
        · exact absurd (h1 _ rfl) n1
        · rfl
      have fb : fillStop x.coord vb = .num (.fin (hi.getD h)) := by
        rcases hvb with ⟨rfl, rfl⟩ | ⟨rfl, rfl⟩ | ⟨q, rfl, rfl⟩
        · rw [fillStop, ← u2]; rfl
        · obtain ⟨s, g1, g2⟩ := h2 _ rfl
          exact absurd g2 (n2 s g1)
        · rfl
      rw [← hr]
      refine ⟨⟨entry (x, va, vb), k, x.coord, _⟩, rfl, hidx, hk, rfl, hlt _ ha, (fun h => by cases h), fun _ => ?_, ha⟩
      refine ⟨lo.getD l, hi.getD h, ?_, hw, ?_, rfl⟩
      · show (fillStart x.coord va, fillStop x.coord vb) = _
        rw [fa, fb]
      · show Subset.maxOf x.coord.points ≤ Subset.minOf x.coord.points + 360
        rw [← u1, ← u2]; exact hsp

theorem each_ok (f : Var V → Except Err (Option (Var V))) : ∀ (vs ws : List (Var V)), List.Forall₂ (fun v w => f v = .ok (some w)) vs ws →
    each f vs = .ok (some ws)
  | [], _, h => by cases h; rfl
  | v :: t, _, h => by
    obtain _ | ⟨h1, h2⟩ := h
    rw [each, h1]
    dsimp only
    rw [each_ok f t _ h2]

theorem each_none (f : Var V → Except Err (Option (Var V))) (vs : List (Var V)) (hne : vs ≠ []) (h : ∀ v ∈ vs, f v = .ok none) :
    each f vs = .ok none := by
  cases vs with
  | nil => exact absurd rfl hne
  | cons v t => rw [each, h v (by simp)]

theorem choose_list {α β : Type} {P : α → β → Prop} : ∀ (l : List α), (∀ a ∈ l, ∃ b, P a b) → ∃ m, List.Forall₂ P l m
  | [], _ => ⟨[], .nil⟩
  | a :: t, h => by
    obtain ⟨b, hb⟩ := h a (by simp)
    obtain ⟨m, hm⟩ := choose_list t (fun a ha => h a (by simp [ha]))
    exact ⟨b :: m, .cons hb hm⟩

theorem forall2_right {α β : Type} {P : α → β → Prop} {l : List α} {m : List β} (h : List.Forall₂ P l m) : ∀ b ∈ m, ∃ a ∈ l, P a b := by
  induction h with
  | nil => intro b hb; cases hb
  | cons h1 _ ih =>
    intro b hb
    rcases List.mem_cons.1 hb with rfl | hb
    · exact ⟨_, by simp, h1⟩
    · obtain ⟨a, ha, hp⟩ := ih b hb
      exact ⟨a, by simp [ha], hp⟩

theorem forall2_left {α β : Type} {P : α → β → Prop} {l : List α} {m : List β} (h : List.Forall₂ P l m) : ∀ a ∈ l, ∃ b ∈ m, P a b := by
  induction h with
  | nil => intro b hb; cases hb
  | cons h1 _ ih =>
    intro b hb
    rcases List.mem_cons.1 hb with rfl | hb
    · exact ⟨_, by simp, h1⟩
    · obtain ⟨a, ha, hp⟩ := ih b hb
      exact ⟨a, by simp [ha], hp⟩

theorem forall2_map {α β γ : Type} {P : α → β → Prop} {l : List α} {m : List β} (f : α → γ) (g : β → γ) (h : List.Forall₂ P l m)
    (hfg : ∀ a b, P a b → f a = g b) : l.map f = m.map g := by
  induction h with
  | nil => rfl
  | cons h1 _ ih => rw [List.map_cons, List.map_cons, hfg _ _ h1, ih]

/-- **C188.** `cis subset` of gridded variables on one grid, with any number of limits `name=[a,b]` or `name=[a]` in any order, where every name finds a
coordinate, different ones, and every text says a range that suits it: if every range has a point of its coordinate, each variable is cut to exactly
the cells in all the ranges, dimension by dimension, with the same values (masked where they were masked); in degrees the ranges are understood up
to whole turns and the points are moved into them. Otherwise there is no output. -/
theorem c188_subset (e : Env) (vs : List (Var V)) (cs : List Crd) (hvs : vs ≠ []) (hgrid : ∀ v ∈ vs, v.crds = cs) (hnames : (cs.map (fun c => c.name)).Nodup)
    (asked : List Spec.Asked) (hne : asked ≠ []) (hword : ∀ x ∈ asked, Spec.Words x) (hshape : ∀ x ∈ asked, ¬ "shape".toList <+: x.dim)
    (hsays : ∀ x ∈ asked, Denotes e x.dim x.first x.second x.range)
    (hfind : ∀ x ∈ asked, x.coord ∈ cs ∧ CollapseCmd.Spec.Means (cs.map Crd.toCrd) (String.ofList x.dim) x.coord.toCrd)
    (hdims : (asked.map Spec.Asked.dim).Nodup) (hdiff : (asked.map (fun x => x.coord.name)).Nodup) (hsuits : ∀ x ∈ asked, Spec.Suits e x) :
    let text := Parse.joinBy ',' (asked.map (fun x => Limits.Spec.render x.dim x.first x.second))
    ((∀ x ∈ asked, ∃ p ∈ x.coord.points, Spec.Inside x.coord x.range p) → ∃ rs, run e vs text = .ok rs ∧ List.Forall₂ (Spec.SubGrid asked) vs rs) ∧
    ((∃ x ∈ asked, ∀ p ∈ x.coord.points, ¬ Spec.Inside x.coord x.range p) → run e vs text = .error .noData) := by
  intro text
  obtain ⟨L, hL1, hL2, hparse⟩ := parse_ok e asked hne hword hshape hsays hdims
  have hLm : ∀ r ∈ L, r.1 ∈ asked := fun r hr => by rw [← hL1]; exact List.mem_map.2 ⟨r, hr, rfl⟩
  obtain ⟨T, hT⟩ := choose_list L (fun r hr => by
    obtain ⟨h1, h2, h3⟩ := hL2 r hr
    exact job_of e cs hnames r.1 (hfind r.1 (hLm r hr)).1 (hsuits r.1 (hLm r hr)) r.2.1 r.2.2 h1 h2 h3)
  have hTlim : T.map Job.lim = L.map entry := (forall2_map entry Job.lim hT (fun r j h => h.1.symm)).symm
  have hTname : T.map (fun j => j.crd.name) = asked.map (fun x => x.coord.name) := by
    rw [← hL1, List.map_map]
    exact (forall2_map _ _ hT (fun r j h => by simp only [Function.comp_apply]; rw [h.2.2.2.1])).symm
  have hTk : (T.map Job.k).Nodup := by
    have : T.map (fun j => j.crd.name) = (T.map Job.k).map (fun k => (cs[k]?).elim "" (fun c => c.name)) := by
      rw [List.map_map]
      apply List.map_congr_left
      intro j hj
      obtain ⟨r, -, h⟩ := forall2_right hT j hj
      simp only [Function.comp_apply]
      rw [h.2.2.1]; rfl
    rw [← hTname, this] at hdiff
    exact hdiff.of_map _
  have hTmod : ∀ j ∈ T, isModular cs j.lim.1 = j.crd.modular := by
    intro j hj
    obtain ⟨r, -, h⟩ := forall2_right hT j hj
    unfold isModular
    rw [h.2.1]
    dsimp only
    rw [h.2.2.1]
  have hfilter : ∀ (p : Bool → Bool), (L.map entry).filter (fun x => p (isModular cs x.1)) = (T.filter (fun j => p j.crd.modular)).map Job.lim := by
    intro p
    rw [← hTlim, List.filter_map]
    congr 1
    apply List.filter_congr
    intro j hj
    simp only [Function.comp_apply]
    rw [hTmod j hj]
  have hmem : ∀ j, j ∈ T.filter (fun j => !j.crd.modular) ++ T.filter (fun j => j.crd.modular) ↔ j ∈ T := by
    intro j
    rw [List.mem_append, List.mem_filter, List.mem_filter]
    cases j.crd.modular <;> simp
  have hperm : (T.filter (fun j => !j.crd.modular) ++ T.filter (fun j => j.crd.modular)).Perm T :=
    List.perm_append_comm.trans (List.filter_append_perm _ T)
  have hk12 : ((T.filter (fun j => !j.crd.modular) ++ T.filter (fun j => j.crd.modular)).map Job.k).Nodup := ((hperm.map Job.k).nodup_iff).2 hTk
  generalize hT1 : T.filter (fun j => !j.crd.modular) = T1 at *
  generalize hT2 : T.filter (fun j => j.crd.modular) = T2 at *
  have hk1 : (T1.map Job.k).Nodup := by rw [List.map_append] at hk12; exact hk12.of_append_left
  have hk2 : (T2.map Job.k).Nodup := by rw [List.map_append] at hk12; exact hk12.of_append_right
  have hkd : ∀ i ∈ T1, ∀ j ∈ T2, i.k ≠ j.k := by
    rw [List.map_append, List.nodup_append] at hk12
    intro i hi j hj
    exact hk12.2.2 _ (List.mem_map_of_mem hi) _ (List.mem_map_of_mem hj)
  have hin1 : ∀ j ∈ T1, j ∈ T ∧ j.crd.modular = false := by
    intro j hj
    rw [← hT1, List.mem_filter] at hj
    exact ⟨hj.1, by simpa using hj.2⟩
  have hin2 : ∀ j ∈ T2, j ∈ T ∧ j.crd.modular = true := by
    intro j hj
    rw [← hT2, List.mem_filter] at hj
    exact hj
  have hfor : ∀ v ∈ vs, ∀ j ∈ T, j.For v := by
    intro v hv j hj
    obtain ⟨r, -, h⟩ := forall2_right hT j hj
    unfold Job.For
    rw [hgrid v hv]
    exact ⟨h.2.1, h.2.2.1, h.2.2.2.2.1⟩
  -- the two steps for each variable
  have step1 : ∀ v ∈ vs, ((∀ j ∈ T1, j.sel ≠ []) → ∃ w, extract (T1.map Job.lim) v = .ok (some w) ∧
        Part v w (after (fun k => List.range ((v.crds[k]?).elim 0 (fun a => a.points.length))) T1) (afterPts (fun k => (v.crds[k]?).elim [] Crd.points) T1)) ∧
      ((∃ j ∈ T1, j.sel = []) → extract (T1.map Job.lim) v = .ok none) := by
    intro v hv
    apply extract_jobs v T1 v _ _ (part_refl v) hk1
    intro j hj
    obtain ⟨r, -, h⟩ := forall2_right hT j (hin1 j hj).1
    have hf := hfor v hv j (hin1 j hj).1
    refine ⟨hf, h.2.2.2.2.2.1 (by rw [← h.2.2.2.1]; exact (hin1 j hj).2), ?_, ?_⟩
    · rw [hf.2.1]; rfl
    · rw [hf.2.1]; rfl
  have step2 : ∀ v ∈ vs, ∀ w, Part v w (after (fun k => List.range ((v.crds[k]?).elim 0 (fun a => a.points.length))) T1)
        (afterPts (fun k => (v.crds[k]?).elim [] Crd.points) T1) →
      ((∀ j ∈ T2, j.sel ≠ []) → ∃ u, intersection (T2.map Job.lim) w = .ok (some u) ∧
        Part v u (after (after (fun k => List.range ((v.crds[k]?).elim 0 (fun a => a.points.length))) T1) T2)
          (afterPts (afterPts (fun k => (v.crds[k]?).elim [] Crd.points) T1) T2)) ∧
      ((∃ j ∈ T2, j.sel = []) → intersection (T2.map Job.lim) w = .ok none) := by
    intro v hv w hw
    apply intersection_jobs v T2 w _ _ hw hk2
    intro j hj
    obtain ⟨r, -, h⟩ := forall2_right hT j (hin2 j hj).1
    have hf := hfor v hv j (hin2 j hj).1
    have hno : j.k ∉ T1.map Job.k := by
      intro hc
      obtain ⟨i, hi, hik⟩ := List.mem_map.1 hc
      exact hkd i hi j hj hik
    refine ⟨hf, h.2.2.2.2.2.2.1 (by rw [← h.2.2.2.1]; exact (hin2 j hj).2), ?_, ?_⟩
    · rw [after_not _ T1 _ hno, hf.2.1]; rfl
    · rw [afterPts_not _ T1 _ hno, hf.2.1]; rfl
  have hsub : ∀ v ∈ vs, ∀ u, Part v u (after (after (fun k => List.range ((v.crds[k]?).elim 0 (fun a => a.points.length))) T1) T2)
          (afterPts (afterPts (fun k => (v.crds[k]?).elim [] Crd.points) T1) T2) → Spec.SubGrid asked v u := by
    intro v hv u hu
    have c1 : ∀ f, after (after f T1) T2 = after f (T1 ++ T2) := fun f => by unfold after; rw [List.foldl_append]
    have c2 : ∀ f, afterPts (afterPts f T1) T2 = afterPts f (T1 ++ T2) := fun f => by unfold afterPts; rw [List.foldl_append]
    rw [c1, c2] at hu
    have hsz := hu.size
    refine ⟨part_length hu, after (fun k => List.range ((v.crds[k]?).elim 0 (fun a => a.points.length))) (T1 ++ T2), ?_, hu.mask, ?_⟩
    · intro k a b ha hb
      rw [hu.crds k, ha, Option.map_some, Option.some.injEq] at hb
      have hac : a ∈ cs := by rw [← hgrid v hv]; exact List.mem_of_getElem? ha
      constructor
      · intro x hx hname
        have hxa : x.coord = a := List.inj_on_of_nodup_map hnames (hfind x hx).1 hac hname
        rw [← hL1] at hx
        obtain ⟨r, hr, rfl⟩ := List.mem_map.1 hx
        obtain ⟨j, hj, h⟩ := forall2_left hT r hr
        have hjk : j.k = k := by
          have g1 := h.2.1
          rw [h.1] at g1
          have g2 := index_of cs hnames k a (by rw [← hgrid v hv]; exact ha)
          have g3 : index cs r.1.coord.name.toList = some j.k := g1
          rw [hxa, g2] at g3
          exact (Option.some.inj g3).symm
        have m1 := after_mem (fun k => List.range ((v.crds[k]?).elim 0 (fun a => a.points.length))) (T1 ++ T2) hk12 j ((hmem j).2 hj)
        have m2 := afterPts_mem (fun k => (v.crds[k]?).elim [] Crd.points) (T1 ++ T2) hk12 j ((hmem j).2 hj)
        rw [hjk] at m1 m2
        rw [m2] at hb
        rw [m1, ← hb]
        have := h.2.2.2.2.2.2.2
        rw [hxa] at this
        exact this
      · intro hno
        have hk : k ∉ (T1 ++ T2).map Job.k := by
          intro hc
          obtain ⟨j, hj, hjk⟩ := List.mem_map.1 hc
          obtain ⟨r, hr, h⟩ := forall2_right hT j ((hmem j).1 hj)
          have g1 := h.2.2.1
          rw [hjk, ← hgrid v hv, ha, h.2.2.2.1] at g1
          exact hno r.1 (hLm r hr) (by rw [Option.some.inj g1])
        rw [after_not _ _ _ hk, afterPts_not _ _ _ hk, ha] at *
        rw [ha] at hb
        exact ⟨hb.symm, rfl⟩
    · intro idx hl hi
      apply hu.value idx (by rw [hl, part_length hu])
      intro k i hx
      have hkl : k < v.crds.length := by
        have := (List.getElem?_eq_some_iff.1 hx).1
        rw [hl, part_length hu] at this; exact this
      have hb : u.crds[k]? = some { v.crds[k] with points := afterPts (fun k => (v.crds[k]?).elim [] Crd.points) (T1 ++ T2) k } := by
        rw [hu.crds k, List.getElem?_eq_getElem hkl]; rfl
      have := hi k i _ hx hb
      dsimp only at this
      rw [(hsz k _ (List.getElem?_eq_getElem hkl)).1] at this
      exact this
  -- the jobs that select nothing
  have hempty : ∀ r ∈ L, ∀ j ∈ T, (j.lim = entry r ∧ index cs j.lim.1 = some j.k ∧ cs[j.k]? = some j.crd ∧ j.crd = r.1.coord ∧
      (∀ t ∈ j.sel, t.1 < j.crd.points.length) ∧ (r.1.coord.modular = false → contains j.crd j.lim.2.1 j.lim.2.2 = .ok j.sel) ∧
      (r.1.coord.modular = true → j.Meets) ∧
      Spec.AxisSel r.1.coord { r.1.coord with points := j.sel.map (·.2) } r.1.range (j.sel.map (·.1))) →
      (j.sel = [] ↔ ¬ ∃ p ∈ r.1.coord.points, Spec.Inside r.1.coord r.1.range p) := by
    intro r _ j _ h
    rw [← axisSel_nil h.2.2.2.2.2.2.2]
    simp
  have hkw : keywords cs (L.map (fun r => (r.1.dim, .pair r.2.1 r.2.2))) [] = .ok (L.map entry) := by
    have := keywords_ok cs L [] (fun r hr => getCoord_ok cs hnames _ _ (hfind r.1 (hLm r hr)).1 (hfind r.1 (hLm r hr)).2) (by
      have : L.map (fun r => r.1.coord.name.toList) = ((L.map Prod.fst).map (fun a => a.coord.name)).map String.toList := by
        rw [List.map_map, List.map_map]; rfl
      rw [List.map_nil, List.nil_append, this, hL1]
      exact hdiff.map (fun a b h => String.toList_inj.1 h))
    simpa using this
  have hrun : run e vs text = match each (extract (T1.map Job.lim)) vs with
      | .error x => .error x
      | .ok none => .error .noData
      | .ok (some ws) =>
        match each (intersection (T2.map Job.lim)) ws with
        | .error x => .error x
        | .ok none => .error .noData
        | .ok (some r) => .ok r := by
    have f1 := hfilter (fun b => !b)
    have f2 := hfilter (fun b => b)
    rw [hT1] at f1
    rw [hT2] at f2
    unfold run
    rw [hparse]
    dsimp only
    cases vs with
    | nil => exact absurd rfl hvs
    | cons v t =>
      dsimp only
      rw [hgrid v (by simp), hkw]
      dsimp only
      rw [f1, f2]
  rw [hrun]
  by_cases h1 : ∀ j ∈ T1, j.sel ≠ []
  · obtain ⟨ws, hws⟩ := choose_list vs (fun v hv => (step1 v hv).1 h1)
    rw [each_ok _ vs ws (hws.imp (fun v w h => h.1))]
    dsimp only
    by_cases h2 : ∀ j ∈ T2, j.sel ≠ []
    · have : ∀ (vs' ws' : List (Var V)), (∀ v ∈ vs', v ∈ vs) → List.Forall₂ (fun v w => extract (T1.map Job.lim) v = .ok (some w) ∧
          Part v w (after (fun k => List.range ((v.crds[k]?).elim 0 (fun a => a.points.length))) T1) (afterPts (fun k => (v.crds[k]?).elim [] Crd.points) T1)) vs' ws' →
          ∃ us, List.Forall₂ (fun w u => intersection (T2.map Job.lim) w = .ok (some u)) ws' us ∧ List.Forall₂ (Spec.SubGrid asked) vs' us := by
        intro vs' ws' hin hf
        induction hf with
        | nil => exact ⟨[], .nil, .nil⟩
        | @cons v w vt wt h3 _ ih =>
          obtain ⟨us, g1, g2⟩ := ih (fun v hv => hin v (by simp [hv]))
          obtain ⟨u, g3, g4⟩ := (step2 v (hin v (by simp)) w h3.2).1 h2
          exact ⟨u :: us, .cons g3 g1, .cons (hsub v (hin v (by simp)) u g4) g2⟩
      obtain ⟨us, g1, g2⟩ := this vs ws (fun v hv => hv) hws
      rw [each_ok _ ws us g1]
      refine ⟨fun _ => ⟨us, rfl, g2⟩, ?_⟩
      rintro ⟨x, hx, hno⟩
      exfalso
      rw [← hL1] at hx
      obtain ⟨r, hr, rfl⟩ := List.mem_map.1 hx
      obtain ⟨j, hj, h⟩ := forall2_left hT r hr
      have hj0 := (hempty r hr j hj h).2 (fun ⟨p, hp, hi⟩ => hno p hp hi)
      rcases List.mem_append.1 ((hmem j).2 hj) with hj1 | hj1
      · exact h1 j hj1 hj0
      · exact h2 j hj1 hj0
    · push Not at h2
      have : each (intersection (T2.map Job.lim)) ws = .ok none := by
        apply each_none
        · rintro rfl
          cases hws
          exact hvs rfl
        · intro w hw
          obtain ⟨v, hv, h3⟩ := forall2_right hws w hw
          exact (step2 v hv w h3.2).2 h2
      rw [this]
      refine ⟨fun hall => ?_, fun _ => rfl⟩
      exfalso
      obtain ⟨j, hj, hj0⟩ := h2
      obtain ⟨r, hr, h⟩ := forall2_right hT j (hin2 j hj).1
      exact (hempty r hr j (hin2 j hj).1 h).1 hj0 (hall r.1 (hLm r hr))
  · push Not at h1
    rw [each_none _ vs hvs (fun v hv => (step1 v hv).2 h1)]
    refine ⟨fun hall => ?_, fun _ => rfl⟩
    exfalso
    obtain ⟨j, hj, hj0⟩ := h1
    obtain ⟨r, hr, h⟩ := forall2_right hT j (hin1 j hj).1
    exact (hempty r hr j (hin1 j hj).1 h).1 hj0 (hall r.1 (hLm r hr))

/-- C188, open ends: in degrees, if the points of the coordinate and the end that is given are within less than a turn, a point is in a range with
an open end iff it is on the right side of the other end; so `lat=[a,None]` and `lat=[None,b]` mean what they mean for other coordinates. -/
theorem c188_open (c : Crd) (hm : c.modular = true) (l h : ℚ) (he : Spec.Ends c l h) (hsp : h < l + 360) (p : ℚ) (hp : p ∈ c.points) :
    (∀ a, h < a + 360 → (Spec.Inside c (.num (some a) none) p ↔ a ≤ p) ∧ ∀ q, Spec.NewPoint c (.num (some a) none) p q → q = p) ∧
    (∀ b, b < l + 360 → (Spec.Inside c (.num none (some b)) p ↔ p ≤ b) ∧ ∀ q, Spec.NewPoint c (.num none (some b)) p q → q = p) ∧
    Spec.Inside c (.num none none) p := by
  have hlp := (he.2.2 p hp).1
  have hph := (he.2.2 p hp).2
  have uniq : ∀ l' h', Spec.Ends c l' h' → l' = l ∧ h' = h := by
    intro l' h' he'
    rw [(ends_unique he).1, (ends_unique he).2, (ends_unique he').1, (ends_unique he').2]
    exact ⟨rfl, rfl⟩
  have nz : ∀ (n : ℤ), (0 : ℚ) < n → (1 : ℚ) ≤ n := fun n hn => by exact_mod_cast (by exact_mod_cast hn : (0 : ℤ) < n)
  have nn : ∀ (n : ℤ), (n : ℚ) < 0 → (n : ℚ) ≤ -1 := fun n hn => by
    have h2 : n < 0 := by exact_mod_cast hn
    have : n ≤ -1 := by omega
    exact_mod_cast this
  refine ⟨fun a ha => ⟨?_, ?_⟩, fun b hb => ⟨?_, ?_⟩, ?_⟩
  · rw [Spec.Inside, if_pos hm]
    constructor
    · rintro ⟨n, l', h', he', h1, h2⟩
      obtain ⟨rfl, rfl⟩ := uniq l' h' he'
      simp only [Option.getD_some, Option.getD_none] at h1 h2
      rcases lt_trichotomy (n : ℚ) 0 with h0 | h0 | h0
      · nlinarith
      · nlinarith
      · have := nz n h0
        nlinarith
    · intro h1
      exact ⟨0, l, h, he, by simpa using h1, by simpa using hph⟩
  · rintro q hq
    rw [Spec.NewPoint, if_pos hm] at hq
    obtain ⟨⟨n, rfl⟩, l', h', he', h1, h2⟩ := hq
    obtain ⟨rfl, rfl⟩ := uniq l' h' he'
    simp only [Option.getD_some, Option.getD_none] at h1 h2
    rcases lt_trichotomy (n : ℚ) 0 with h0 | h0 | h0
    · have := nn n h0
      nlinarith
    · rw [h0]; ring
    · have := nz n h0
      nlinarith
  · rw [Spec.Inside, if_pos hm]
    constructor
    · rintro ⟨n, l', h', he', h1, h2⟩
      obtain ⟨rfl, rfl⟩ := uniq l' h' he'
      simp only [Option.getD_some, Option.getD_none] at h1 h2
      rcases lt_trichotomy (n : ℚ) 0 with h0 | h0 | h0
      · have := nn n h0
        nlinarith
      · nlinarith
      · nlinarith
    · intro h1
      exact ⟨0, l, h, he, by simpa using hlp, by simpa using h1⟩
  · rintro q hq
    rw [Spec.NewPoint, if_pos hm] at hq
    obtain ⟨⟨n, rfl⟩, l', h', he', h1, h2⟩ := hq
    obtain ⟨rfl, rfl⟩ := uniq l' h' he'
    simp only [Option.getD_some, Option.getD_none] at h1 h2
    rcases lt_trichotomy (n : ℚ) 0 with h0 | h0 | h0
    · have := nn n h0
      nlinarith
    · rw [h0]; ring
    · have := nz n h0
      nlinarith
  · rw [Spec.Inside, if_pos hm]
    exact ⟨0, l, h, he, by simpa using hlp, by simpa using hph⟩

/-- C188: a name that is no name, standard name, variable name or letter of a coordinate of the data is reported, whatever else is asked. -/
theorem c188_unknown (e : Env) (v : Var V) (vs : List (Var V)) (l : List (Str × Limits.Lim DateTime)) (text : Str)
    (hl : Limits.subsetLimits (conv e) text = .ok l) (hs : ∀ x ∈ l, ∀ s, x.2 ≠ .shape s) (h2 : 2 ≤ v.crds.length)
    (h : ∃ x ∈ l, x.1.length ≠ 1 ∧ ∀ c ∈ v.crds, c.name ≠ String.ofList x.1 ∧ c.var ≠ some (String.ofList x.1) ∧ c.axis ≠ some (String.ofList x.1).toUpper) :
    run e (v :: vs) text = .error .notFound := by
  have hnone : ∀ n : Str, n.length ≠ 1 → (∀ c ∈ v.crds, c.name ≠ String.ofList n ∧ c.var ≠ some (String.ofList n) ∧ c.axis ≠ some (String.ofList n).toUpper) →
      getCoord v.crds (String.ofList n) = none := by
    intro n hn hc
    have hc' : ∀ d ∈ v.crds.map Crd.toCrd, d.name ≠ String.ofList n ∧ d.var ≠ some (String.ofList n) ∧ d.axis ≠ some (String.ofList n).toUpper := by
      intro d hd
      obtain ⟨c, hc1, rfl⟩ := List.mem_map.1 hd
      exact hc c hc1
    have : CollapseCmd.getCoord (v.crds.map Crd.toCrd) (String.ofList n) = none := by
      unfold CollapseCmd.getCoord
      rw [CollapseCmd.one_none _ (fun c => c.name == String.ofList n) (fun d hd => by simpa using (hc' d hd).1),
        CollapseCmd.one_none _ (fun c => c.standard == some (String.ofList n)) (fun d hd => by
          rw [beq_eq_false_iff_ne]
          intro e
          exact (hc' d hd).1 (CollapseCmd.standard_name d _ e)),
        CollapseCmd.axes_long _ (by simpa using hn),
        CollapseCmd.one_none _ (fun c => c.var == some (String.ofList n)) (fun d hd => by simpa using (hc' d hd).2.1),
        CollapseCmd.one_none _ (fun c => c.axis == some (String.ofList n).toUpper) (fun d hd => by simpa using (hc' d hd).2.2)]
      have : CollapseCmd.one (v.crds.map Crd.toCrd) (fun _ => true) = none := by
        unfold CollapseCmd.one
        rw [List.filter_true]
        match v.crds, h2 with
        | _ :: _ :: _, _ => rfl
      dsimp only
      rw [this]
      rfl
    unfold getCoord
    rw [this]
  have hk : ∀ (l : List (Str × Limits.Lim DateTime)) acc, (∀ x ∈ l, ∀ s, x.2 ≠ .shape s) →
      (∃ x ∈ l, getCoord v.crds (String.ofList x.1) = none) → keywords v.crds l acc = .error .notFound := by
    intro l
    induction l with
    | nil => rintro acc - ⟨x, hx, -⟩; cases hx
    | cons y t ih =>
      rintro acc hs ⟨x, hx, hn⟩
      obtain ⟨dim, lim⟩ := y
      cases lim with
      | shape s => exact absurd rfl (hs (dim, .shape s) (by simp) s)
      | pair a b =>
        rw [keywords]
        cases hc : getCoord v.crds (String.ofList dim) with
        | none => rfl
        | some c =>
          dsimp only
          apply ih _ (fun x hx => hs x (by simp [hx]))
          rcases List.mem_cons.1 hx with rfl | hx
          · rw [hc] at hn; cases hn
          · exact ⟨x, hx, hn⟩
  rw [run, hl]
  dsimp only
  obtain ⟨x, hx, hx1, hx2⟩ := h
  rw [hk l [] hs ⟨x, hx, hnone x.1 hx1 hx2⟩]

/-! ### C189: what the documentation says and the command does not do -/

/-- C189 violated, ranges of dates open at one or both ends: always an error, for every time coordinate and date. -/
theorem c189_open_dates_violated (c : Crd) (f : ℚ → DateTime) (hf : c.dates = some f) (t : DateTime) :
    contains c (fillStart c (.date t)) (fillStop c .none) = .error .type ∧ contains c (fillStart c .none) (fillStop c (.date t)) = .error .type ∧
    contains c (fillStart c .none) (fillStop c .none) = .error .type := by
  unfold contains
  rw [hf]
  exact ⟨rfl, rfl, rfl⟩

def exLat (l : List ℚ) : Crd := ⟨⟨some "latitude", none, some "lat", some "Y", [0], true, false⟩, true, none, l⟩
def exLon (l : List ℚ) : Crd := ⟨⟨some "longitude", none, some "lon", some "X", [1], true, false⟩, true, none, l⟩
def exAlt (l : List ℚ) : Crd := ⟨⟨some "altitude", none, some "alt", some "Z", [0], true, false⟩, false, none, l⟩
def exTime (l : List ℚ) : Crd := ⟨⟨some "time", none, some "time", some "T", [2], true, false⟩, false, some SubsetCmd.exDates, l⟩

def exVar (cs : List Crd) : Var Nat := ⟨cs, fun i => 100 * i.getD 0 0 + 10 * i.getD 1 0 + i.getD 2 0, some (fun i => i.getD 1 0 == 2)⟩

/-- The numbers of the examples. -/
def exFlt (s : Str) : Option Limits.Fl :=
  if s = "280".toList then some (.fin 280) else if s = "300".toList then some (.fin 300) else if s = "500".toList then some (.fin 500)
  else if s = "-10".toList then some (.fin (-10)) else if s = "20".toList then some (.fin 20) else none

def exEnv : Env := ⟨exFlt, ⟨2020, 6, 15, 0, 0, 0, 0⟩, fun _ => none⟩

/-- The points of the coordinates left. -/
def left (vs : List (Var Nat)) (s : String) : Option (List (List (List ℚ))) :=
  match run exEnv vs s.toList with
  | .ok rs => some (rs.map (fun r => r.crds.map Crd.points))
  | .error _ => none

/-- C189 violated, latitudes: limits that no latitude satisfies select the latitudes a turn further down, and the output says 280 and 300. -/
theorem c189_latitude_violated : left [exVar [exLat [-80, -60, 0, 60]]] "lat=[280,300]" = some [[[280, 300]]] := by
  decide +kernel

/-- C189 violated, variables on other grids: the open end is that of the first variable, which cuts the second; alone it is whole. -/
theorem c189_first_violated : left [exVar [exAlt [0, 500]], exVar [exAlt [0, 500, 1000]]] "alt=[300,None]" = some [[[500]], [[500]]] ∧
    left [exVar [exAlt [0, 500, 1000]]] "alt=[300,None]" = some [[[500, 1000]]] := by
  decide +kernel

/-! ### Examples -/

/-- The hypotheses of `c188_subset` hold for `x=[-10,20],t=[2008]` on a grid of three dimensions. -/
example : ∃ (vs : List (Var Nat)) (cs : List Crd) (asked : List Spec.Asked), vs ≠ [] ∧ (∀ v ∈ vs, v.crds = cs) ∧ (cs.map (fun c => c.name)).Nodup ∧ asked.length = 2 ∧
    (∀ x ∈ asked, Spec.Words x ∧ ¬ "shape".toList <+: x.dim ∧ Denotes exEnv x.dim x.first x.second x.range ∧
      (x.coord ∈ cs ∧ CollapseCmd.Spec.Means (cs.map Crd.toCrd) (String.ofList x.dim) x.coord.toCrd) ∧ Spec.Suits exEnv x ∧
      ∃ p ∈ x.coord.points, Spec.Inside x.coord x.range p) ∧
    (asked.map Spec.Asked.dim).Nodup ∧ (asked.map (fun x => x.coord.name)).Nodup := by
  refine ⟨[exVar [exLat [-80, 0, 80], exLon [0, 120, 240, 355], exTime [31, 167]], exVar [exLat [-80, 0, 80], exLon [0, 120, 240, 355], exTime [31, 167]]],
    [exLat [-80, 0, 80], exLon [0, 120, 240, 355], exTime [31, 167]],
    [⟨"x".toList, "-10".toList, some "20".toList, exLon [0, 120, 240, 355], .num (some (-10)) (some 20)⟩,
      ⟨"t".toList, "2008".toList, none, exTime [31, 167], .time ⟨2008, 1, 1, 0, 0, 0, 0⟩ ⟨2008, 12, 31, 23, 59, 59, 0⟩⟩],
    by simp, by simp [exVar], by decide +kernel, rfl, ?_, by decide, by decide +kernel⟩
  intro x hx
  simp only [List.mem_cons, List.not_mem_nil, or_false] at hx
  rcases hx with rfl | rfl
  · refine ⟨⟨⟨by decide, by decide⟩, ⟨by decide, by decide⟩, fun s hs => by cases hs; exact ⟨by decide, by decide⟩⟩, by decide,
      ⟨by decide, .inr (.inr ⟨by decide, -10, by decide +kernel, rfl⟩), .inr ⟨_, rfl, .inr (.inr ⟨by decide, 20, by decide +kernel, rfl⟩)⟩, fun _ => ⟨-10, 20, rfl, rfl, by norm_num, by norm_num⟩⟩,
      ⟨by simp, ?_⟩, ⟨rfl, fun _ => ⟨by decide +kernel, ?_, 0, 355, ?_, by norm_num, by norm_num⟩⟩, 355, by simp [exLon], ?_⟩
    · refine .letter "longitude" (by decide +kernel) (by decide +kernel) rfl (by decide +kernel) (by decide +kernel) (by decide +kernel)
    · intro s hs; cases hs; decide +kernel
    · exact ⟨by simp [exLon], by simp [exLon], by intro x hx; simp [exLon] at hx; rcases hx with rfl | rfl | rfl | rfl <;> norm_num⟩
    · rw [Spec.Inside, if_pos (show (exLon [0, 120, 240, 355]).modular = true from rfl)]
      exact ⟨-1, 0, 355, ⟨by simp [exLon], by simp [exLon], by intro x hx; simp [exLon] at hx; rcases hx with rfl | rfl | rfl | rfl <;> norm_num⟩, by norm_num, by norm_num⟩
  · refine ⟨⟨⟨by decide, by decide⟩, ⟨by decide, by decide⟩, by rintro s ⟨⟩⟩, by decide, .inl ⟨by decide, rfl, ⟨some 2008, none, none, none, none, none⟩, by decide +kernel, by decide +kernel⟩,
      ⟨by simp, ?_⟩, ⟨rfl, SubsetCmd.exDates, rfl, ?_⟩, 31, by simp [exTime], SubsetCmd.exDates, rfl, by decide +kernel, by decide +kernel⟩
    · refine .letter "time" (by decide +kernel) (by decide +kernel) rfl (by decide +kernel) (by decide +kernel) (by decide +kernel)
    · intro p _
      unfold SubsetCmd.exDates
      split
      · unfold Time.Spec.Real; decide
      · split <;> (unfold Time.Spec.Real; decide)

/-- Longitudes across 0, with the values that belong to them. -/
example : (match run exEnv [exVar [exLat [-80, 0, 80], exLon [0, 120, 240, 355], exTime [31, 167]]] "x=[-10,20],t=[2008]".toList with
    | .ok [r] => some (r.crds.map Crd.points, r.value [1, 0, 1], r.value [2, 1, 0])
    | _ => none) = some ([[-80, 0, 80], [-5, 0], [31, 167]], some 131, some 200) := by
  decide +kernel

example : run (V := Nat) exEnv [exVar [exLat [-80], exLon [0, 120]]] "height=[20,300]".toList = .error .notFound :=
  c188_unknown exEnv (exVar [exLat [-80], exLon [0, 120]]) [] [("height".toList, .pair (.num (.fin 20)) (.num (.fin 300)))] _ (by decide +kernel) (by simp) (by simp [exVar])
    ⟨("height".toList, .pair (.num (.fin 20)) (.num (.fin 300))), by simp, by decide, by decide +kernel⟩

end Cis.SubsetGrid
