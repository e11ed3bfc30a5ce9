import Verif.Subset.Model
import Verif.Lon.Gridded
import Mathlib.Tactic
set_option linter.unusedSectionVars false
set_option linter.unusedSimpArgs false
/-!
Model of subsetting gridded data: `GriddedSubsetConstraint` (subsetting/subset.py:108-174) and the selection of the cells of a
shape (subset.py:271-290). Property C83.

A cube has one coordinate per dimension, without bounds. The two functions of iris are modelled by their documented effect on
such a cube: `extract` keeps the points of a dimension satisfying the constraint, in order, and gives None if there is none;
`intersection` keeps the points that lie in the (inclusive) range after adding a multiple of the modulus, moves them there, puts
the block that has to be moved differently first, raises IndexError if there is no such point and ValueError if the range or the
coordinate is longer than the modulus. Exact arithmetic.
-/
namespace Cis.Subset.Gridded
open Cis.Lon Cis.Subset

variable {V : Type}

/-- A dimension: whether the units of its coordinate have a modulus (degrees), and the points. -/
structure Axis where
  modular : Bool
  points : List ℚ
deriving DecidableEq

/-- A cube: dimensions, values by index, and the mask (none: the data are not a masked array). -/
structure Cube (V : Type) where
  axes : List Axis
  data : List Nat → V
  mask : Option (List Nat → Bool)

/-- The visible value: none if masked. -/
def Cube.value (c : Cube V) (idx : List Nat) : Option V :=
  match c.mask with
  | none => some (c.data idx)
  | some m => if m idx then none else some (c.data idx)

/-- The cube with the points of dimension `k` selected: old index and new point of each. -/
def Cube.take (c : Cube V) (k : Nat) (sel : List (Nat × ℚ)) : Cube V where
  axes := c.axes.modify k (fun a => { a with points := sel.map (·.2) })
  data := fun idx => c.data (idx.modify k (fun i => (sel.getD i (0, 0)).1))
  mask := c.mask.map (fun m idx => m (idx.modify k (fun i => (sel.getD i (0, 0)).1)))

/-- Points with their indices. -/
def enum (pts : List ℚ) : List (Nat × ℚ) := pts.zipIdx.map (fun e => (e.2, e.1))

/-- `Contains` (subset.py:155-163): the points that satisfy it. -/
def containsSel (pts : List ℚ) (start stop : ℚ) : List (Nat × ℚ) :=
  (enum pts).filter (fun e => decide (start ≤ e.2) && decide (e.2 ≤ stop))

/-- The longitude moved into the range. -/
def wrap (start p : ℚ) : ℚ := pmod (p - start + 360 * 2) 360 + start

/-- `intersection` of iris for one coordinate, without its errors. -/
def intersectSel (pts : List ℚ) (start stop : ℚ) : List (Nat × ℚ) :=
  let ins := (enum pts).filter (fun e => decide (start ≤ wrap start e.2) && decide (wrap start e.2 ≤ stop))
  let delta := fun (e : Nat × ℚ) => e.2 - wrap start e.2
  let first := match ins with
    | [] => []
    | e :: _ => ins.takeWhile (fun x => delta x == delta e)
  (ins.drop first.length ++ first).map (fun e => (e.1, wrap start e.2))

/-- `extract` with all constraints (subset.py:124-127); a coordinate is known by its dimension. -/
def extract : List Limit → Cube V → Option (Cube V)
  | [], c => some c
  | l :: t, c =>
    match c.axes[l.coord]? with
    | none => none
    | some a =>
      let sel := containsSel a.points l.start l.stop
      if sel = [] then none else extract t (c.take l.coord sel)

/-- Exceptions: ValueError, IndexError, NotImplementedError, and coordinates not found. -/
inductive Err
  | value
  | index
  | notImplemented
  | coordinate
deriving DecidableEq

/-- `intersection` with all constraints (subset.py:128-132). -/
def intersection : List Limit → Cube V → Except Err (Cube V)
  | [], c => .ok c
  | l :: t, c =>
    match c.axes[l.coord]? with
    | none => .error .coordinate
    | some a =>
      if l.stop > l.start + 360 ∨ maxOf a.points > minOf a.points + 360 then .error .value
      else
        let sel := intersectSel a.points l.start l.stop
        if sel = [] then .error .index else intersection t (c.take l.coord sel)

/-- The mask of the cells outside the shape (subset.py:137-138, 271-290): the flat indices of `meshgrid(x, y)` are taken for flat
indices of the data. -/
def outside (s : Shape) (x y : List ℚ) (d1 : Nat) (idx : List Nat) : Bool :=
  let flat := idx.getD 0 0 * d1 + idx.getD 1 0
  !(s.contains (x.getD (flat % x.length) 0) (y.getD (flat / x.length) 0))

/-- Masking the cells outside the shape (subset.py:134-142), for two dimensions, of which `xdim` is X and the other Y. -/
def applyShape (xdim : Nat) (s : Shape) (c : Cube V) : Except Err (Cube V) :=
  match c.axes with
  | [a, b] =>
    let x := if xdim = 0 then a.points else b.points
    let y := if xdim = 0 then b.points else a.points
    let out := outside s x y b.points.length
    match c.mask with
    | some m => .ok { c with mask := some (fun idx => m idx && out idx) }
    | none => .ok { c with mask := some out }
  | [] => .error .coordinate
  | [_] => .error .coordinate
  | _ => .error .notImplemented

/-- Whether the coordinate of a limit has a modulus (subset.py:168). -/
def isModular (c : Cube V) (l : Limit) : Bool :=
  match c.axes[l.coord]? with
  | some a => a.modular
  | none => false

/-- `GriddedSubsetConstraint.constrain` (subset.py:113-174): `none` if nothing is left. -/
def constrain (xdim : Nat) (limits : List Limit) (shape : Option Shape) (c : Cube V) : Except Err (Option (Cube V)) :=
  match extract (limits.filter (fun l => !isModular c l)) c with
  | none => .ok none
  | some c1 =>
    match intersection (limits.filter (isModular c)) c1 with
    | .error .index => .ok none
    | .error e => .error e
    | .ok c2 =>
      match shape with
      | none => .ok (some c2)
      | some s =>
        match applyShape xdim s c2 with
        | .error e => .error e
        | .ok r => .ok (some r)

/-! ### Specification -/

/-- A point lies within limits: for coordinates in degrees modulo 360. -/
def Spec.Inside (modular : Bool) (l : Limit) (p : ℚ) : Prop :=
  if modular then ∃ n : ℤ, l.start ≤ p + 360 * n ∧ p + 360 * n ≤ l.stop else l.start ≤ p ∧ p ≤ l.stop

/-- The new point of an old one: the same, or for coordinates in degrees the one within the limits. -/
def Spec.NewPoint (modular : Bool) (l : Limit) (p q : ℚ) : Prop :=
  if modular then (∃ n : ℤ, q = p + 360 * n) ∧ l.start ≤ q ∧ q ≤ l.stop else q = p

/-- Dimension `b` is the part of dimension `a` within the limits; `f` gives the old index of each new index. -/
structure Spec.AxisSel (a b : Axis) (l : Limit) (f : List Nat) : Prop where
  kind : b.modular = a.modular
  length : b.points.length = f.length
  nodup : f.Nodup
  kept : ∀ i : Nat, i ∈ f ↔ ∃ p, a.points[i]? = some p ∧ Spec.Inside a.modular l p
  points : ∀ (j i : Nat) (p q : ℚ), f[j]? = some i → a.points[i]? = some p → b.points[j]? = some q → Spec.NewPoint a.modular l p q
  order : ∃ u v, f = u ++ v ∧ (v ++ u).Pairwise (· < ·) ∧ (a.modular = false → u = [])

/-- What the limits say about a dimension. -/
def Spec.limitOf (limits : List Limit) (k : Nat) : Option Limit := limits.find? (fun l => l.coord == k)

/-- `r` is the part of `c` within the limits, dimension by dimension, with the values of the same cells. -/
def Spec.SubGrid (limits : List Limit) (c r : Cube V) : Prop :=
  r.axes.length = c.axes.length ∧ ∃ f : Nat → List Nat,
    (∀ (k : Nat) (a b : Axis), c.axes[k]? = some a → r.axes[k]? = some b →
      match Spec.limitOf limits k with
      | none => b = a ∧ f k = List.range a.points.length
      | some l => Spec.AxisSel a b l (f k)) ∧
    (r.mask.isSome = c.mask.isSome) ∧
    ∀ idx : List Nat, idx.length = r.axes.length → (∀ (k i : Nat) (b : Axis), idx[k]? = some i → r.axes[k]? = some b → i < b.points.length) →
      r.value idx = c.value (idx.mapIdx (fun k i => (f k).getD i 0))

/-- The cube has a cell within all limits. -/
def Spec.SomeInside (limits : List Limit) (c : Cube V) : Prop :=
  ∀ l ∈ limits, ∀ a : Axis, c.axes[l.coord]? = some a → ∃ p ∈ a.points, Spec.Inside a.modular l p

/-! ### Proofs -/

theorem pmod_spec (x : ℚ) : ∃ n : ℤ, pmod x 360 = x + 360 * n ∧ 0 ≤ pmod x 360 ∧ pmod x 360 < 360 := by
  refine ⟨-⌊x / 360⌋, ?_, ?_, ?_⟩
  · unfold pmod; push_cast; ring
  · unfold pmod
    have := Int.floor_le (x / 360)
    rw [le_div_iff₀ (by norm_num)] at this
    linarith
  · unfold pmod
    have := Int.lt_floor_add_one (x / 360)
    rw [div_lt_iff₀ (by norm_num)] at this
    linarith

theorem wrap_spec (s p : ℚ) : (∃ n : ℤ, wrap s p = p + 360 * n) ∧ s ≤ wrap s p ∧ wrap s p < s + 360 := by
  obtain ⟨n, h1, h2, h3⟩ := pmod_spec (p - s + 360 * 2)
  unfold wrap
  refine ⟨⟨n + 2, ?_⟩, by linarith, by linarith⟩
  rw [h1]; push_cast; ring

/-- A point lies within the range modulo 360 iff the moved point does. -/
theorem wrap_inside (l : Limit) (p : ℚ) : Spec.Inside true l p ↔ (l.start ≤ wrap l.start p ∧ wrap l.start p ≤ l.stop) := by
  obtain ⟨⟨m, hm⟩, h1, h2⟩ := wrap_spec l.start p
  unfold Spec.Inside
  simp only [if_true]
  constructor
  · rintro ⟨n, h3, h4⟩
    refine ⟨h1, ?_⟩
    have : m ≤ n := by
      by_contra hc
      have hc' : n + 1 ≤ m := by omega
      have : (n : ℚ) + 1 ≤ m := by exact_mod_cast hc'
      linarith
    have : (m : ℚ) ≤ n := by exact_mod_cast this
    linarith
  · rintro ⟨h3, h4⟩
    exact ⟨m, by linarith, by linarith⟩

theorem mem_enum (pts : List ℚ) (i : Nat) (p : ℚ) : (i, p) ∈ enum pts ↔ pts[i]? = some p := by
  unfold enum
  rw [List.mem_map]
  constructor
  · rintro ⟨⟨q, j⟩, h1, h2⟩
    cases h2
    exact List.mem_zipIdx_iff_getElem?.1 h1
  · intro h
    exact ⟨(p, i), List.mem_zipIdx_iff_getElem?.2 h, rfl⟩

theorem enum_sorted (pts : List ℚ) : ((enum pts).map Prod.fst).Pairwise (· < ·) := by
  have : (enum pts).map Prod.fst = List.range pts.length := by
    unfold enum
    rw [List.map_map]
    apply List.ext_getElem
    · simp
    · intro i h1 h2
      simp
  rw [this]
  exact List.pairwise_lt_range

/-- The selection of dimensions without modulus. -/
theorem containsSel_spec (a : Axis) (l : Limit) (hm : a.modular = false) :
    Spec.AxisSel a { a with points := (containsSel a.points l.start l.stop).map (·.2) } l ((containsSel a.points l.start l.stop).map (·.1)) := by
  have hmem : ∀ i p, (i, p) ∈ containsSel a.points l.start l.stop ↔ a.points[i]? = some p ∧ (l.start ≤ p ∧ p ≤ l.stop) := by
    intro i p
    unfold containsSel
    rw [List.mem_filter, mem_enum]
    simp
  have hsorted : ((containsSel a.points l.start l.stop).map Prod.fst).Pairwise (· < ·) :=
    List.Pairwise.sublist ((List.filter_sublist (l := enum a.points)).map Prod.fst) (enum_sorted a.points)
  refine ⟨rfl, by simp, hsorted.imp (fun h => by omega), ?_, ?_, ?_⟩
  · intro i
    simp only [List.mem_map, Prod.exists, exists_and_right, exists_eq_right]
    simp only [hmem, Spec.Inside, hm, Bool.false_eq_true, if_false]
  · intro j i p q h1 h2 h3
    simp only [List.getElem?_map, Option.map_eq_some_iff] at h1 h3
    obtain ⟨⟨i', p'⟩, h4, rfl⟩ := h1
    obtain ⟨e, h5, rfl⟩ := h3
    rw [h4] at h5
    cases h5
    have := (hmem _ _).1 (List.mem_of_getElem? h4)
    rw [this.1] at h2
    cases h2
    simp [Spec.NewPoint, hm]
  · exact ⟨[], _, rfl, by simpa using hsorted, fun _ => rfl⟩

theorem intersectSel_perm (pts : List ℚ) (s t : ℚ) : ∃ u v, intersectSel pts s t = (u ++ v).map (fun e => (e.1, wrap s e.2)) ∧
    v ++ u = (enum pts).filter (fun e => decide (s ≤ wrap s e.2) && decide (wrap s e.2 ≤ t)) := by
  unfold intersectSel
  simp only
  generalize hins : (enum pts).filter (fun e => decide (s ≤ wrap s e.2) && decide (wrap s e.2 ≤ t)) = ins
  cases ins with
  | nil => exact ⟨[], [], by simp, by simp⟩
  | cons e r =>
    simp only
    refine ⟨_, _, rfl, ?_⟩
    have h : (e :: r).takeWhile (fun x => x.2 - wrap s x.2 == e.2 - wrap s e.2) <+: (e :: r) := List.takeWhile_prefix _
    obtain ⟨z, hz⟩ := h
    generalize (e :: r).takeWhile (fun x => x.2 - wrap s x.2 == e.2 - wrap s e.2) = w at hz ⊢
    rw [← hz]
    simp

/-- The selection of dimensions with a modulus. -/
theorem intersectSel_spec (a : Axis) (l : Limit) (hm : a.modular = true) :
    Spec.AxisSel a { a with points := (intersectSel a.points l.start l.stop).map (·.2) } l ((intersectSel a.points l.start l.stop).map (·.1)) := by
  obtain ⟨u, v, h1, h2⟩ := intersectSel_perm a.points l.start l.stop
  have hmem : ∀ e, e ∈ u ++ v ↔ a.points[e.1]? = some e.2 ∧ (l.start ≤ wrap l.start e.2 ∧ wrap l.start e.2 ≤ l.stop) := by
    intro e
    have : e ∈ u ++ v ↔ e ∈ v ++ u := by simp [or_comm]
    rw [this, h2, List.mem_filter, mem_enum]
    simp
  have hsorted : ((v ++ u).map Prod.fst).Pairwise (· < ·) := by
    rw [h2]
    exact List.Pairwise.sublist ((List.filter_sublist (l := enum a.points)).map Prod.fst) (enum_sorted a.points)
  have hf : (intersectSel a.points l.start l.stop).map (·.1) = u.map Prod.fst ++ v.map Prod.fst := by
    rw [h1]; simp [Function.comp_def]
  refine ⟨rfl, by simp, ?_, ?_, ?_, ?_⟩
  · rw [hf]
    have : (v.map Prod.fst ++ u.map Prod.fst).Nodup := by
      rw [← List.map_append]; exact hsorted.imp (fun h => by omega)
    rw [List.nodup_append_comm]
    exact this
  · intro i
    rw [hf, ← List.map_append, List.mem_map]
    constructor
    · rintro ⟨e, he, rfl⟩
      have := (hmem e).1 he
      exact ⟨e.2, this.1, by rw [hm]; exact (wrap_inside l e.2).2 this.2⟩
    · rintro ⟨p, hp, hi⟩
      rw [hm] at hi
      exact ⟨(i, p), (hmem (i, p)).2 ⟨hp, (wrap_inside l p).1 hi⟩, rfl⟩
  · intro j i p q g1 g2 g3
    rw [h1] at g1 g3
    simp only [List.getElem?_map, Option.map_map, Option.map_eq_some_iff] at g1 g3
    obtain ⟨e, h4, rfl⟩ := g1
    obtain ⟨e', h5, rfl⟩ := g3
    rw [h4] at h5
    cases h5
    have := (hmem e).1 (List.mem_of_getElem? h4)
    simp only [Function.comp_apply] at g2 ⊢
    rw [this.1] at g2
    cases g2
    simp only [Spec.NewPoint, hm, if_true]
    exact ⟨(wrap_spec l.start e.2).1, this.2⟩
  · refine ⟨u.map Prod.fst, v.map Prod.fst, hf, by rw [← List.map_append]; exact hsorted, ?_⟩
    rw [hm]
    intro h; cases h

theorem limitOf_append_new (lims : List Limit) (l : Limit) (k : Nat) (hk : ∀ x ∈ lims, x.coord ≠ l.coord) :
    Spec.limitOf (lims ++ [l]) k = if k = l.coord then some l else Spec.limitOf lims k := by
  unfold Spec.limitOf
  rw [List.find?_append]
  by_cases h : k = l.coord
  · subst h
    have : lims.find? (fun x => x.coord == l.coord) = none := by
      rw [List.find?_eq_none]
      intro x hx
      simpa using hk x hx
    simp [this]
  · have h' : ¬ l.coord = k := fun e => h e.symm
    simp [h, h']

theorem limitOf_none (lims : List Limit) (k : Nat) (hk : ∀ x ∈ lims, x.coord ≠ k) : Spec.limitOf lims k = none := by
  unfold Spec.limitOf
  rw [List.find?_eq_none]
  intro x hx
  simpa using hk x hx

theorem value_take (r : Cube V) (k : Nat) (sel : List (Nat × ℚ)) (idx : List Nat) :
    (r.take k sel).value idx = r.value (idx.modify k (fun i => (sel.getD i (0, 0)).1)) := by
  unfold Cube.value Cube.take
  cases r.mask <;> rfl

/-- One more dimension is cut. -/
theorem subGrid_take (lims : List Limit) (l : Limit) (c r : Cube V) (a : Axis) (sel : List (Nat × ℚ))
    (hs : Spec.SubGrid lims c r) (hk : ∀ x ∈ lims, x.coord ≠ l.coord) (ha : r.axes[l.coord]? = some a)
    (hsel : Spec.AxisSel a { a with points := sel.map (·.2) } l (sel.map (·.1))) : Spec.SubGrid (lims ++ [l]) c (r.take l.coord sel) := by
  obtain ⟨h1, f, h2, h3, h4⟩ := hs
  have hlen : (r.take l.coord sel).axes.length = r.axes.length := by simp [Cube.take]
  have hc : c.axes[l.coord]? = some a ∧ f l.coord = List.range a.points.length := by
    have hlt : l.coord < c.axes.length := by rw [← h1]; exact (List.getElem?_eq_some_iff.1 ha).1
    have hca : c.axes[l.coord]? = some c.axes[l.coord] := List.getElem?_eq_getElem hlt
    have := h2 _ _ _ hca ha
    rw [limitOf_none lims l.coord hk] at this
    simp only at this
    rw [this.1]
    exact ⟨hca, this.2⟩
  refine ⟨by rw [hlen, h1], fun k => if k = l.coord then sel.map (·.1) else f k, ?_, ?_, ?_⟩
  · intro k x y hx hy
    rw [limitOf_append_new lims l k hk]
    simp only [Cube.take, List.getElem?_modify] at hy
    by_cases h : k = l.coord
    · subst h
      rw [hc.1] at hx
      cases hx
      rw [ha] at hy
      simp at hy
      subst hy
      simpa using hsel
    · have h' : ¬ l.coord = k := fun e => h e.symm
      rw [if_neg h] at ⊢
      simp only [if_neg h', if_neg h] at hy ⊢
      simp only [Option.map_eq_map, Option.map_id'] at hy
      exact h2 k x y hx hy
  · rw [← h3]
    simp [Cube.take]
  · intro idx hi hr
    rw [value_take, h4]
    · congr 1
      apply List.ext_getElem?
      intro k
      rw [List.getElem?_mapIdx, List.getElem?_mapIdx, List.getElem?_modify]
      by_cases h : l.coord = k
      · subst h
        cases hx : idx[l.coord]? with
        | none => simp
        | some i =>
          have hi2 : i < sel.length := by
            have := hr l.coord i { a with points := sel.map (·.2) } hx (by simp [Cube.take, List.getElem?_modify, ha])
            simpa using this
          have hg : sel[i].1 < a.points.length := by
            have := (hsel.kept sel[i].1).1 (by rw [List.mem_map]; exact ⟨sel[i], List.getElem_mem hi2, rfl⟩)
            obtain ⟨p, hp, -⟩ := this
            exact (List.getElem?_eq_some_iff.1 hp).1
          simp [hc.2, hi2, hg]
      · have h' : ¬ k = l.coord := fun e => h e.symm
        simp [h, h']
    · simpa [hlen] using hi
    · intro k i b hx hb
      rw [List.getElem?_modify] at hx
      by_cases h : l.coord = k
      · subst h
        rw [ha] at hb
        cases hb
        cases hx2 : idx[l.coord]? with
        | none => simp [hx2] at hx
        | some j =>
          rw [hx2] at hx
          simp at hx
          have hi2 : j < sel.length := by
            have := hr l.coord j { a with points := sel.map (·.2) } hx2 (by simp [Cube.take, List.getElem?_modify, ha])
            simpa using this
          have := (hsel.kept i).1 (by rw [List.mem_map]; exact ⟨sel[j], List.getElem_mem hi2, by rw [← hx]; simp [hi2]⟩)
          obtain ⟨p, hp, -⟩ := this
          exact (List.getElem?_eq_some_iff.1 hp).1
      · simp only [if_neg h, Option.map_eq_map, Option.map_id'] at hx
        exact hr k i b hx (by simp [Cube.take, List.getElem?_modify, h, hb])

theorem subGrid_refl (c : Cube V) : Spec.SubGrid [] c c := by
  refine ⟨rfl, fun k => match c.axes[k]? with | some a => List.range a.points.length | none => [], ?_, rfl, ?_⟩
  · intro k a b h1 h2
    rw [h1] at h2
    cases h2
    simp [Spec.limitOf, h1]
  · intro idx hi hr
    congr 1
    apply List.ext_getElem?
    intro k
    rw [List.getElem?_mapIdx]
    cases hx : idx[k]? with
    | none => simp
    | some i =>
      have hk : k < c.axes.length := by rw [← hi]; exact (List.getElem?_eq_some_iff.1 hx).1
      have hc : c.axes[k]? = some c.axes[k] := List.getElem?_eq_getElem hk
      have := hr k i _ hx hc
      simp [hc, this]

theorem subGrid_axis (lims : List Limit) (c r : Cube V) (k : Nat) (hs : Spec.SubGrid lims c r) (hk : ∀ x ∈ lims, x.coord ≠ k) :
    r.axes[k]? = c.axes[k]? := by
  obtain ⟨h1, f, h2, -⟩ := hs
  by_cases hlt : k < c.axes.length
  · have hc : c.axes[k]? = some c.axes[k] := List.getElem?_eq_getElem hlt
    have hr : r.axes[k]? = some (r.axes[k]'(by omega)) := List.getElem?_eq_getElem (by omega)
    have := h2 _ _ _ hc hr
    rw [limitOf_none lims k hk] at this
    rw [hr, this.1, hc]
  · rw [List.getElem?_eq_none (by omega), List.getElem?_eq_none (by omega)]

theorem axisSel_nil (a b : Axis) (l : Limit) (f : List Nat) (h : Spec.AxisSel a b l f) : f = [] ↔ ¬ ∃ p ∈ a.points, Spec.Inside a.modular l p := by
  constructor
  · rintro rfl ⟨p, hp, hi⟩
    obtain ⟨i, hi2⟩ := List.mem_iff_getElem?.1 hp
    have := (h.kept i).2 ⟨p, hi2, hi⟩
    simp at this
  · intro hn
    cases f with
    | nil => rfl
    | cons i t =>
      exfalso
      obtain ⟨p, hp, hi⟩ := (h.kept i).1 (by simp)
      exact hn ⟨p, List.mem_of_getElem? hp, hi⟩

theorem someInside_cons (l : Limit) (t : List Limit) (c : Cube V) (a : Axis) (ha : c.axes[l.coord]? = some a) :
    Spec.SomeInside (l :: t) c ↔ (∃ p ∈ a.points, Spec.Inside a.modular l p) ∧ Spec.SomeInside t c := by
  unfold Spec.SomeInside
  constructor
  · intro h
    exact ⟨h l (by simp) a ha, fun x hx => h x (by simp [hx])⟩
  · rintro ⟨h1, h2⟩ x hx b hb
    rcases List.mem_cons.1 hx with rfl | hx
    · rw [ha] at hb; cases hb; exact h1
    · exact h2 x hx b hb

theorem extract_spec (c : Cube V) : ∀ (t lims : List Limit) (r : Cube V), Spec.SubGrid lims c r → ((lims ++ t).map Limit.coord).Nodup →
    (∀ l ∈ t, ∃ a, c.axes[l.coord]? = some a ∧ a.modular = false) →
    (Spec.SomeInside t c → ∃ r', extract t r = some r' ∧ Spec.SubGrid (lims ++ t) c r') ∧ (¬ Spec.SomeInside t c → extract t r = none) := by
  intro t
  induction t with
  | nil =>
    intro lims r hs _ _
    refine ⟨fun _ => ⟨r, rfl, by simpa using hs⟩, fun h => absurd (by intro l hl; cases hl) h⟩
  | cons l t ih =>
    intro lims r hs hn hm
    obtain ⟨a, ha, hma⟩ := hm l (by simp)
    have hk : ∀ x ∈ lims, x.coord ≠ l.coord := by
      rw [List.map_append, List.nodup_append] at hn
      intro x hx
      exact hn.2.2 _ (List.mem_map_of_mem (f := Limit.coord) hx) _ (by simp)
    have hra : r.axes[l.coord]? = some a := by rw [subGrid_axis lims c r _ hs hk, ha]
    have hsel := containsSel_spec a l hma
    have hnil : containsSel a.points l.start l.stop = [] ↔ ¬ ∃ p ∈ a.points, Spec.Inside a.modular l p := by
      rw [← axisSel_nil _ _ _ _ hsel]; simp
    have hstep := subGrid_take lims l c r a _ hs hk hra hsel
    have := ih (lims ++ [l]) _ hstep (by simpa using hn) (fun x hx => hm x (by simp [hx]))
    rw [someInside_cons l t c a ha, extract, hra]
    simp only
    by_cases hin : ∃ p ∈ a.points, Spec.Inside a.modular l p
    · rw [if_neg (by rw [hnil]; exact not_not.2 hin)]
      refine ⟨fun h => ?_, fun h => this.2 (fun h2 => h ⟨hin, h2⟩)⟩
      simpa using this.1 h.2
    · rw [if_pos (hnil.2 hin)]
      exact ⟨fun h => absurd h.1 hin, fun _ => rfl⟩

/-- Neither the limits nor the points of a dimension in degrees span more than 360 degrees. -/
def Spec.Short (t : List Limit) (c : Cube V) : Prop :=
  ∀ l ∈ t, ∀ a : Axis, c.axes[l.coord]? = some a → a.modular = true → l.stop ≤ l.start + 360 ∧ maxOf a.points ≤ minOf a.points + 360

theorem intersection_spec (c : Cube V) : ∀ (t lims : List Limit) (r : Cube V), Spec.SubGrid lims c r → ((lims ++ t).map Limit.coord).Nodup →
    (∀ l ∈ t, ∃ a, c.axes[l.coord]? = some a ∧ a.modular = true) → Spec.Short t c →
    (Spec.SomeInside t c → ∃ r', intersection t r = .ok r' ∧ Spec.SubGrid (lims ++ t) c r') ∧
      (¬ Spec.SomeInside t c → intersection t r = .error .index) := by
  intro t
  induction t with
  | nil =>
    intro lims r hs _ _ _
    refine ⟨fun _ => ⟨r, rfl, by simpa using hs⟩, fun h => absurd (by intro l hl; cases hl) h⟩
  | cons l t ih =>
    intro lims r hs hn hm hsh
    obtain ⟨a, ha, hma⟩ := hm l (by simp)
    have hk : ∀ x ∈ lims, x.coord ≠ l.coord := by
      rw [List.map_append, List.nodup_append] at hn
      intro x hx
      exact hn.2.2 _ (List.mem_map_of_mem (f := Limit.coord) hx) _ (by simp)
    have hra : r.axes[l.coord]? = some a := by rw [subGrid_axis lims c r _ hs hk, ha]
    have hsel := intersectSel_spec a l hma
    have hnil : intersectSel a.points l.start l.stop = [] ↔ ¬ ∃ p ∈ a.points, Spec.Inside a.modular l p := by
      rw [← axisSel_nil _ _ _ _ hsel]; simp
    have hstep := subGrid_take lims l c r a _ hs hk hra hsel
    have := ih (lims ++ [l]) _ hstep (by simpa using hn) (fun x hx => hm x (by simp [hx])) (fun x hx => hsh x (by simp [hx]))
    have hs1 := hsh l (by simp) a ha hma
    rw [someInside_cons l t c a ha, intersection, hra]
    simp only
    rw [if_neg (by rw [not_or]; exact ⟨not_lt.2 hs1.1, not_lt.2 hs1.2⟩)]
    by_cases hin : ∃ p ∈ a.points, Spec.Inside a.modular l p
    · rw [if_neg (by rw [hnil]; exact not_not.2 hin)]
      refine ⟨fun h => ?_, fun h => this.2 (fun h2 => h ⟨hin, h2⟩)⟩
      simpa using this.1 h.2
    · rw [if_pos (hnil.2 hin)]
      exact ⟨fun h => absurd h.1 hin, fun _ => rfl⟩

theorem limitOf_iff (lims : List Limit) (hn : (lims.map Limit.coord).Nodup) (k : Nat) (l : Limit) :
    Spec.limitOf lims k = some l ↔ l ∈ lims ∧ l.coord = k := by
  unfold Spec.limitOf
  constructor
  · intro h
    exact ⟨List.mem_of_find?_eq_some h, by simpa using List.find?_some h⟩
  · rintro ⟨h1, rfl⟩
    cases h : lims.find? (fun x => x.coord == l.coord) with
    | none =>
      rw [List.find?_eq_none] at h
      exact absurd (h l h1) (by simp)
    | some x =>
      have h2 := List.mem_of_find?_eq_some h
      have h3 : x.coord = l.coord := by simpa using List.find?_some h
      rw [List.inj_on_of_nodup_map hn h2 h1 h3]

theorem subGrid_congr (l1 l2 : List Limit) (c r : Cube V) (hn1 : (l1.map Limit.coord).Nodup) (hn2 : (l2.map Limit.coord).Nodup)
    (h : ∀ l, l ∈ l1 ↔ l ∈ l2) (hs : Spec.SubGrid l1 c r) : Spec.SubGrid l2 c r := by
  have : Spec.limitOf l1 = Spec.limitOf l2 := by
    funext k
    apply Option.ext
    intro l
    rw [limitOf_iff l1 hn1, limitOf_iff l2 hn2, h]
  unfold Spec.SubGrid at hs ⊢
  rw [← this]
  exact hs

/-- C83: subsetting gridded data without a shape. If some cell lies within all limits, the result is the part of the grid
within the limits (longitudes and latitudes modulo 360), with the values of the same cells; otherwise there is no result. -/
theorem c83_subset (xdim : Nat) (limits : List Limit) (c : Cube V) (hn : (limits.map Limit.coord).Nodup)
    (hc : ∀ l ∈ limits, l.coord < c.axes.length) (hsh : Spec.Short limits c) :
    (Spec.SomeInside limits c → ∃ r, constrain xdim limits none c = .ok (some r) ∧ Spec.SubGrid limits c r) ∧
      (¬ Spec.SomeInside limits c → constrain xdim limits none c = .ok none) := by
  have hmod : ∀ l ∈ limits, ∃ a, c.axes[l.coord]? = some a ∧ a.modular = isModular c l := by
    intro l hl
    have : c.axes[l.coord]? = some (c.axes[l.coord]'(hc l hl)) := List.getElem?_eq_getElem (hc l hl)
    exact ⟨_, this, by simp [isModular, this]⟩
  have hperm : (limits.filter (fun l => !isModular c l) ++ limits.filter (isModular c)).Perm limits := by
    refine (List.perm_append_comm).trans ?_
    exact List.filter_append_perm (isModular c) limits
  have hn2 : ((limits.filter (fun l => !isModular c l) ++ limits.filter (isModular c)).map Limit.coord).Nodup :=
    ((hperm.map Limit.coord).nodup_iff).2 hn
  have hn1 : (([] ++ limits.filter (fun l => !isModular c l)).map Limit.coord).Nodup := by
    rw [List.nil_append]
    exact List.Nodup.sublist ((List.filter_sublist (l := limits)).map _) hn
  have e1 := extract_spec c (limits.filter (fun l => !isModular c l)) [] c (subGrid_refl c) hn1 (by
    intro l hl
    rw [List.mem_filter] at hl
    obtain ⟨a, h1, h2⟩ := hmod l hl.1
    exact ⟨a, h1, by rw [h2]; simpa using hl.2⟩)
  have e2 : ∀ r, Spec.SubGrid (limits.filter (fun l => !isModular c l)) c r → _ := fun r hr =>
    intersection_spec c (limits.filter (isModular c)) (limits.filter (fun l => !isModular c l)) r hr hn2 (by
      intro l hl
      rw [List.mem_filter] at hl
      obtain ⟨a, h1, h2⟩ := hmod l hl.1
      exact ⟨a, h1, by rw [h2]; exact hl.2⟩) (fun l hl => hsh l (List.mem_filter.1 hl).1)
  have hsplit : Spec.SomeInside limits c ↔ Spec.SomeInside (limits.filter (fun l => !isModular c l)) c ∧ Spec.SomeInside (limits.filter (isModular c)) c := by
    unfold Spec.SomeInside
    constructor
    · intro h
      exact ⟨fun l hl => h l (List.mem_filter.1 hl).1, fun l hl => h l (List.mem_filter.1 hl).1⟩
    · rintro ⟨h1, h2⟩ l hl
      cases hm : isModular c l with
      | true => exact h2 l (List.mem_filter.2 ⟨hl, hm⟩)
      | false => exact h1 l (List.mem_filter.2 ⟨hl, by simp [hm]⟩)
  unfold constrain
  by_cases h1 : Spec.SomeInside (limits.filter (fun l => !isModular c l)) c
  · obtain ⟨c1, hc1, hs1⟩ := e1.1 h1
    rw [List.nil_append] at hs1
    rw [hc1]
    simp only
    by_cases h2 : Spec.SomeInside (limits.filter (isModular c)) c
    · obtain ⟨c2, hc2, hs2⟩ := (e2 c1 hs1).1 h2
      rw [hc2]
      refine ⟨fun _ => ⟨c2, rfl, subGrid_congr _ _ c c2 hn2 hn (fun l => hperm.mem_iff) hs2⟩, fun h => absurd (hsplit.2 ⟨h1, h2⟩) h⟩
    · rw [(e2 c1 hs1).2 h2]
      exact ⟨fun h => absurd (hsplit.1 h).2 h2, fun _ => rfl⟩
  · rw [e1.2 h1]
    exact ⟨fun h => absurd (hsplit.1 h).1 h1, fun _ => rfl⟩

/-- C83: limits in degrees further apart than 360 are refused with ValueError. -/
theorem c83_too_wide (xdim : Nat) (l : Limit) (s : Option Shape) (c : Cube V) (a : Axis) (ha : c.axes[l.coord]? = some a) (hm : a.modular = true)
    (hw : l.start + 360 < l.stop) : constrain xdim [l] s c = .error .value := by
  have hmod : isModular c l = true := by simp [isModular, ha, hm]
  simp [constrain, hmod, extract, intersection, ha, hw]

theorem constrain_mask (xdim : Nat) (limits : List Limit) (s : Shape) (c c2 : Cube V) (h : constrain xdim limits none c = .ok (some c2)) :
    constrain xdim limits (some s) c = match applyShape xdim s c2 with
      | .error e => .error e
      | .ok r => .ok (some r) := by
  unfold constrain at h ⊢
  split at h
  · cases h
  · split at h
    · cases h
    · cases h
    · rename_i c3 h3
      cases h
      simp only

theorem flat_index (i j n : Nat) (hj : j < n) : (i * n + j) % n = j ∧ (i * n + j) / n = i := by
  constructor
  · rw [Nat.mul_comm, Nat.mul_add_mod, Nat.mod_eq_of_lt hj]
  · rw [Nat.mul_comm, Nat.mul_add_div (by omega), Nat.div_eq_of_lt hj, Nat.add_zero]

/-- C83 for shapes: with the dimensions latitude, longitude and data that are not masked, exactly the cells contained in the
shape keep their values, the others become missing. -/
theorem c83_shape (limits : List Limit) (s : Shape) (c c2 : Cube V) (a b : Axis)
    (h : constrain 1 limits none c = .ok (some c2)) (hab : c2.axes = [a, b]) (hm : c2.mask = none) :
    ∃ r, constrain 1 limits (some s) c = .ok (some r) ∧ r.axes = c2.axes ∧
      ∀ (i j : Nat) (y x : ℚ), a.points[i]? = some y → b.points[j]? = some x →
        r.value [i, j] = if s.contains x y then c2.value [i, j] else none := by
  rw [constrain_mask 1 limits s c c2 h]
  unfold applyShape
  rw [hab]
  simp only [hm]
  refine ⟨_, rfl, by simp, ?_⟩
  intro i j y x hy hx
  have hj : j < b.points.length := (List.getElem?_eq_some_iff.1 hx).1
  obtain ⟨f1, f2⟩ := flat_index i j b.points.length hj
  simp only [Cube.value, outside, List.getD_cons_zero, List.getD_cons_succ, hm]
  simp only [Nat.one_ne_zero, if_false, f1, f2]
  rw [List.getD_eq_getElem?_getD, List.getD_eq_getElem?_getD, hx, hy]
  simp only [Option.getD_some]
  by_cases hsx : s.contains x y = true
  · simp [hsx]
  · simp [hsx]

/-- C83 for masked data, exactly: a cell is missing iff it was missing and lies outside the shape. -/
theorem c83_shape_masked_exact (limits : List Limit) (s : Shape) (c c2 : Cube V) (a b : Axis) (m : List Nat → Bool)
    (h : constrain 1 limits none c = .ok (some c2)) (hab : c2.axes = [a, b]) (hm : c2.mask = some m) :
    ∃ r, constrain 1 limits (some s) c = .ok (some r) ∧
      ∀ (i j : Nat) (y x : ℚ), a.points[i]? = some y → b.points[j]? = some x →
        (r.value [i, j] = none ↔ c2.value [i, j] = none ∧ s.contains x y = false) := by
  rw [constrain_mask 1 limits s c c2 h]
  unfold applyShape
  rw [hab]
  simp only [hm]
  refine ⟨_, rfl, ?_⟩
  intro i j y x hy hx
  have hj : j < b.points.length := (List.getElem?_eq_some_iff.1 hx).1
  obtain ⟨f1, f2⟩ := flat_index i j b.points.length hj
  simp only [Cube.value, outside, List.getD_cons_zero, List.getD_cons_succ, hm]
  simp only [Nat.one_ne_zero, if_false, f1, f2]
  rw [List.getD_eq_getElem?_getD, List.getD_eq_getElem?_getD, hx, hy]
  simp only [Option.getD_some]
  by_cases hsx : s.contains x y = true <;> by_cases hmx : m [i, j] = true <;> simp [hsx, hmx]

/-- A grid of two latitudes and three longitudes, and a shape around one of its points. -/
def exCube (mask : Option (List Nat → Bool)) : Cube Nat :=
  ⟨[⟨true, [0, 10]⟩, ⟨true, [0, 120, 240]⟩], fun idx => 10 * idx.getD 0 0 + idx.getD 1 0, mask⟩

def exShape : Shape := ⟨fun x y => decide (-10 < x ∧ x < 130 ∧ -5 < y ∧ y < 5), -10, -5, 130, 5⟩

/-- C83 is violated for masked data: a valid value outside the shape is kept. -/
theorem c83_shape_masked_violated : ∃ r, constrain 1 [] (some exShape) (exCube (some (fun _ => false))) = .ok (some r) ∧
    exShape.contains 0 10 = false ∧ r.value [1, 0] = some 10 := by
  exact ⟨_, rfl, by decide +kernel, by decide +kernel⟩

/-- C83 is violated for masked data: a missing value inside the shape becomes visible. -/
theorem c83_shape_unmasks_violated : ∃ r, constrain 1 [] (some exShape) (exCube (some (fun _ => true))) = .ok (some r) ∧
    (exCube (some (fun _ => true))).value [0, 1] = none ∧ r.value [0, 1] = some 1 := by
  exact ⟨_, rfl, by decide +kernel, by decide +kernel⟩

/-- C83 is violated for data with dimensions longitude, latitude: other cells than those in the shape are kept. -/
theorem c83_shape_transposed_violated :
    let c : Cube Nat := ⟨[⟨true, [0, 120, 240]⟩, ⟨true, [0, 10]⟩], fun idx => 10 * idx.getD 0 0 + idx.getD 1 0, none⟩
    ∃ r, constrain 0 [] (some exShape) c = .ok (some r) ∧
      exShape.contains 120 0 = true ∧ r.value [1, 0] = none ∧ exShape.contains 0 10 = false ∧ r.value [0, 1] = some 1 := by
  exact ⟨_, rfl, by decide +kernel, by decide +kernel, by decide +kernel, by decide +kernel⟩

/-- C83: more than two dimensions are refused when a shape is given. -/
theorem c83_shape_dimensions (xdim : Nat) (limits : List Limit) (s : Shape) (c c2 : Cube V)
    (h : constrain xdim limits none c = .ok (some c2)) (h3 : 2 < c2.axes.length) :
    constrain xdim limits (some s) c = .error .notImplemented := by
  rw [constrain_mask xdim limits s c c2 h]
  unfold applyShape
  match hx : c2.axes with
  | [] => rw [hx] at h3; simp at h3
  | [_] => rw [hx] at h3; simp at h3
  | [_, _] => rw [hx] at h3; simp at h3
  | _ :: _ :: _ :: _ => rfl

/-! The hypotheses are met: limits across the Greenwich meridian on a grid from 0 to 270. -/

def exGrid : Cube Nat := ⟨[⟨false, [1, 2, 3, 4]⟩, ⟨true, [0, 90, 180, 270]⟩], fun idx => 10 * idx.getD 0 0 + idx.getD 1 0, none⟩

example : Spec.Short [⟨1, -100, 10⟩, ⟨0, 2, 3⟩] exGrid ∧ Spec.SomeInside [⟨1, -100, 10⟩, ⟨0, 2, 3⟩] exGrid := by
  constructor
  · intro l hl a ha hm
    simp only [List.mem_cons, List.not_mem_nil, or_false] at hl
    rcases hl with rfl | rfl
    · simp [exGrid] at ha; subst ha; decide +kernel
    · simp [exGrid] at ha; subst ha; simp at hm
  · intro l hl a ha
    simp only [List.mem_cons, List.not_mem_nil, or_false] at hl
    rcases hl with rfl | rfl
    · simp [exGrid] at ha; subst ha
      exact ⟨270, by simp, by simp only [Spec.Inside, if_true]; exact ⟨-1, by norm_num, by norm_num⟩⟩
    · simp [exGrid] at ha; subst ha
      exact ⟨2, by simp, by simp [Spec.Inside]; norm_num⟩

example : (match constrain 1 [⟨1, -100, 10⟩, ⟨0, 2, 3⟩] none exGrid with
    | .ok (some r) => r.axes == [⟨false, [2, 3]⟩, ⟨true, [-90, 0]⟩] && r.value [1, 0] == some 23
    | _ => false) = true := by decide +kernel

example : (match constrain 1 [⟨1, -100, 130⟩] none (exCube none) with
    | .ok (some c2) => c2.axes == [⟨true, [0, 10]⟩, ⟨true, [0, 120]⟩] && c2.mask.isNone
    | _ => false) = true := by decide +kernel

end Cis.Subset.Gridded
