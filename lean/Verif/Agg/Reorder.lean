import Verif.Main.AggregateCommand
set_option linter.unusedSectionVars false
set_option linter.unusedSimpArgs false

/-!
# The order of the points does not matter to aggregation

The points of an ungridded data object come in the order in which the files were given and in which each file holds them
(`UngriddedData.from_points_array`, concatenation in `Ungridded`/`Read.Many`). `aggregate` sorts them by cell
(`OrderedMeshGridConstraint`/`create_index`, see `DataIndex.sliceIterator`) with a sort that keeps no promise about equal keys.
Here: the result, or the error, is the same for every order, with no condition on the grids asked for.
-/

namespace Cis.DataIndex
variable {K : Type} [LinearOrder K]

/-- The place of a point in the grid: it is inside, and its column of the index is the one given. -/
def AtColumn (dims : List (Dim K)) (masked : Nat → Bool) (idx : List Int) (p : Nat) : Prop :=
  gridMask dims masked p = true ∧ indexColumn dims p = idx

theorem rawIndex_lt (c : Coord K) (hl : c.points.length = c.bounds.length) (v : K) (h : 0 ≤ rawIndex c v) :
    0 ≤ fixIndex c (rawIndex c v) ∧ fixIndex c (rawIndex c v) < c.lower.length := by
  have hlow : c.lower.length = c.bounds.length := lower_length c
  have hr : rawIndex c v < c.lower.length := by
    unfold rawIndex at h ⊢
    cases hm : c.maxBound with
    | none => rw [hm] at h; simp at h
    | some mx =>
      rw [hm] at h
      dsimp only at h ⊢
      split at h
      · rename_i hv
        rw [if_pos hv]
        have := searchsortedRight_le c.lower v
        omega
      · simp at h
  unfold fixIndex
  split
  · constructor <;> omega
  · exact ⟨h, hr⟩

theorem column_in_shape : ∀ (dims : List (Dim K)) (masked : Nat → Bool) (p : Nat), (∀ d ∈ dims, d.1.points.length = d.1.bounds.length) →
    gridMask dims masked p = true → List.Forall₂ (fun n i => 0 ≤ i ∧ i < n) (gridShape dims) (indexColumn dims p) := by
  intro dims masked p hl hg
  unfold gridShape indexColumn
  rw [List.forall₂_map_left_iff, List.forall₂_map_right_iff, List.forall₂_same]
  intro d hd
  have := List.all_eq_true.1 hg d hd
  rw [Bool.and_eq_true, decide_eq_true_iff] at this
  exact rawIndex_lt d.1 (hl d hd) _ this.1

theorem cellNumber_ne (dims : List (Dim K)) (masked : Nat → Bool) (hl : ∀ d ∈ dims, d.1.points.length = d.1.bounds.length) (p : Nat) :
    (cellNumber dims masked p ≠ -1 ↔ gridMask dims masked p = true) ∧ -1 ≤ cellNumber dims masked p := by
  unfold cellNumber
  split
  · rename_i hg
    have := flatten_nonneg (column_in_shape dims masked p hl hg)
    refine ⟨?_, by omega⟩
    simp only [hg, iff_true]
    omega
  · rename_i hg; simp [hg]

/-- The slices of any grid whose coordinates have bounds for all points, increasing or not: one for each column that some point has, with exactly
the points that have it. -/
theorem slices_general {dims : List (Dim K)} (hl : ∀ d ∈ dims, d.1.points.length = d.1.bounds.length) (masked : Nat → Bool) (n : Nat) (hn : 0 < n)
    (order : List Nat) (ho : Spec.Sorts n (cellNumber dims masked) order) :
    ∃ slices, sliceIterator dims masked order = some slices ∧
      (∀ s ∈ slices, s.2.Nodup ∧ ∀ p, p ∈ s.2 ↔ p < n ∧ AtColumn dims masked s.1 p) ∧ (slices.map Prod.fst).Nodup ∧
      ∀ p < n, ∀ idx, AtColumn dims masked idx p → ∃ s ∈ slices, s.1 = idx := by
  obtain ⟨hp, hsort⟩ := ho
  have hol : order.length = n := by simpa using hp.length_eq
  have hne' : order.map (cellNumber dims masked) ≠ [] := by
    intro h; have := congrArg List.length h; simp [hol] at this; omega
  have hnum := fun p => (cellNumber_ne dims masked hl p).1
  have hge : ∀ c ∈ order.map (cellNumber dims masked), -1 ≤ c := by
    intro c hc'
    obtain ⟨p, -, rfl⟩ := List.mem_map.1 hc'
    exact (cellNumber_ne dims masked hl p).2
  obtain ⟨slices, hs, hs1, hs2, hs3⟩ := cellSlices_spec _ hne' hsort hge
  unfold sliceIterator
  rw [hs]
  have hget : ∀ (q p : Nat), order[q]? = some p → (order.map (cellNumber dims masked))[q]? = some (cellNumber dims masked p) := by
    intro q p h; simp [h]
  have hslice : ∀ ab ∈ slices, ∃ p0, order[ab.1]? = some p0 ∧ order.getD ab.1 0 = p0 ∧ gridMask dims masked p0 = true ∧ ab.1 < ab.2 ∧ ab.2 ≤ order.length ∧
      ∀ (q p : Nat), order[q]? = some p → (AtColumn dims masked (indexColumn dims p0) p ↔ ab.1 ≤ q ∧ q < ab.2) := by
    intro ab hab
    obtain ⟨h1, h2, v, hv, hva, hall⟩ := hs1 ab hab
    rw [List.length_map] at h2
    have ha : ab.1 < order.length := by omega
    have hp0 : order[ab.1]? = some order[ab.1] := List.getElem?_eq_getElem ha
    have hv0 : cellNumber dims masked order[ab.1] = v := by
      rw [hget _ _ hp0] at hva; exact Option.some.inj hva
    have hg0 : gridMask dims masked order[ab.1] = true := (hnum _).1 (by rw [hv0]; exact hv)
    refine ⟨order[ab.1], hp0, by simp [List.getD_eq_getElem?_getD, hp0], hg0, h1, h2, ?_⟩
    intro q p hq
    have hql : q < order.length := (List.getElem?_eq_some_iff.1 hq).1
    rw [← hall q (by simpa using hql), hget q p hq, Option.some.injEq]
    constructor
    · rintro ⟨hg, hcol⟩
      rw [← hv0]
      unfold cellNumber
      rw [if_pos hg, if_pos hg0, hcol]
    · intro he
      have hgp : gridMask dims masked p = true := (hnum p).1 (by rw [he]; exact hv)
      refine ⟨hgp, ?_⟩
      have e1 := he.trans hv0.symm
      unfold cellNumber at e1
      rw [if_pos hgp, if_pos hg0] at e1
      exact flatten_inj (column_in_shape dims masked _ hl hgp) (column_in_shape dims masked _ hl hg0) e1
  have hnd : order.Nodup := hp.nodup_iff.2 List.nodup_range
  refine ⟨_, rfl, ?_, ?_, ?_⟩
  · intro s hsm
    obtain ⟨ab, hab, rfl⟩ := List.mem_map.1 hsm
    obtain ⟨p0, hp0, hd0, hg0, h1, h2, hall⟩ := hslice ab hab
    dsimp only
    rw [hd0]
    refine ⟨(hnd.sublist (List.drop_sublist _ _)).sublist (List.take_sublist _ _), ?_⟩
    intro p
    constructor
    · intro hpm
      obtain ⟨i, hi⟩ := List.mem_iff_getElem?.1 hpm
      rw [List.getElem?_take] at hi
      split at hi
      · rw [List.getElem?_drop] at hi
        have hq := (hall _ p hi).2 ⟨by omega, by omega⟩
        exact ⟨List.mem_range.1 (hp.mem_iff.1 (List.mem_of_getElem? hi)), hq⟩
      · cases hi
    · rintro ⟨hpn, hq⟩
      obtain ⟨q, hq'⟩ := List.mem_iff_getElem?.1 (hp.mem_iff.2 (List.mem_range.2 hpn))
      obtain ⟨hq1, hq2⟩ := (hall q p hq').1 hq
      apply List.mem_iff_getElem?.2
      refine ⟨q - ab.1, ?_⟩
      rw [List.getElem?_take, if_pos (by omega), List.getElem?_drop, show ab.1 + (q - ab.1) = q by omega, hq']
  · rw [List.map_map, List.nodup_map_iff_inj_on (List.Nodup.of_map _ hs3)]
    intro ab hab ab' hab' he
    simp only [Function.comp] at he
    obtain ⟨p0, hp0, hd0, hg0, h1, h2, hall⟩ := hslice ab hab
    obtain ⟨p0', hp0', hd0', hg0', h1', h2', hall'⟩ := hslice ab' hab'
    rw [hd0, hd0'] at he
    have e1 := (hall _ p0' hp0').1 ⟨hg0', he.symm⟩
    have e2 := (hall' _ p0 hp0).1 ⟨hg0, he⟩
    have e3 : ab.1 = ab'.1 := by omega
    exact List.inj_on_of_nodup_map hs3 hab hab' e3
  · intro p hpn idx hf
    obtain ⟨q, hq⟩ := List.mem_iff_getElem?.1 (hp.mem_iff.2 (List.mem_range.2 hpn))
    obtain ⟨ab, hab, h1, h2⟩ := hs2 q _ (hget q p hq) ((hnum p).2 hf.1)
    obtain ⟨p0, hp0, hd0, hg0, h1', h2', hall⟩ := hslice ab hab
    have hx := (hall q p hq).2 ⟨h1, h2⟩
    refine ⟨_, List.mem_map_of_mem hab, ?_⟩
    simp only [hd0]
    rw [← hx.2, hf.2]

end Cis.DataIndex

namespace Cis.Agg
open Cis.DataIndex

theorem guessBounds_length (p : List ℚ) : (guessBounds p).length = p.length := by
  unfold guessBounds
  rcases p with _ | ⟨a, _ | ⟨b, t⟩⟩ <;> simp

theorem makeCoord_length (c : ℚ) (r : Req) : (makeCoord c r).points.length = (makeCoord c r).bounds.length := by
  rcases r with _ | ⟨s, e, d⟩
  · rfl
  · simp only [makeCoord, List.length_map, partialBounds]
    split
    · rename_i h; rw [h]; rfl
    · rw [guessBounds_length]

/-- The points of a cell, whatever the grid. -/
def members (cols : List Col) (masked : Nat → Bool) (n : Nat) (cell : List Nat) : List Nat :=
  (List.range n).filter (fun p => gridMask (dims cols) masked p && decide (indexColumn (dims cols) p = cell.map Int.ofNat))

/-- The value of each cell of any grid, increasing or not, empty or not: the kernel's value for its points. -/
theorem aggregate_general {β : Type} (k : List ℚ → Option β) (hk : Spec.Kernel k) (cols : List Col) (masked : Nat → Bool) (vals : Nat → ℚ) (n : Nat)
    (hn : 0 < n) (order : List Nat) (ho : DataIndex.Spec.Sorts n (cellNumber (dims cols) masked) order) :
    aggregate k cols masked vals order = some (fun cell => k ((members cols masked n cell).map vals)) := by
  have hl : ∀ d ∈ dims cols, d.1.points.length = d.1.bounds.length := by
    intro d hd
    obtain ⟨c, hc, rfl⟩ := List.mem_map.1 hd
    exact makeCoord_length _ _
  obtain ⟨slices, hs, hmem, hnd, hcomp⟩ := slices_general hl masked n hn order ho
  unfold aggregate
  rw [hs, Option.map_some]
  refine congrArg some (funext fun cell => ?_)
  by_cases hex : ∃ s ∈ slices, s.1 = cell.map Int.ofNat
  · obtain ⟨s, hsm, he⟩ := hex
    rw [foldl_setCell k vals slices _ cell s hsm he hnd rfl]
    apply hk.perm
    apply List.Perm.map
    obtain ⟨h3, h4⟩ := hmem s hsm
    refine (List.perm_ext_iff_of_nodup h3 (List.nodup_range.filter _)).2 ?_
    intro p
    rw [h4, he]
    simp [AtColumn]
  · push Not at hex
    rw [foldl_setCell_other k vals slices _ cell hex]
    have : members cols masked n cell = [] := by
      rw [List.eq_nil_iff_forall_not_mem]
      intro p hpm
      simp only [members, List.mem_filter, List.mem_range, Bool.and_eq_true, decide_eq_true_eq] at hpm
      obtain ⟨s, hs1, hs2⟩ := hcomp p hpm.1 _ ⟨hpm.2.1, hpm.2.2⟩
      exact hex s hs1 hs2
    rw [this]
    exact hk.empty.symm

/-- Columns of the same grids whose points are those of the first, rearranged. -/
def Follows (g : Nat → Nat) (n : Nat) (c c' : Col) : Prop := c'.req = c.req ∧ c'.centre = c.centre ∧ ∀ p < n, c'.val p = c.val (g p)

theorem follows_dims (g : Nat → Nat) (n : Nat) (cols cols' : List Col) (h : List.Forall₂ (Follows g n) cols cols') (masked masked' : Nat → Bool)
    (hm : ∀ p < n, masked' p = masked (g p)) (p : Nat) (hp : p < n) : gridMask (dims cols') masked' p = gridMask (dims cols) masked (g p) ∧
      indexColumn (dims cols') p = indexColumn (dims cols) (g p) := by
  unfold gridMask indexColumn dims
  induction h with
  | nil => exact ⟨rfl, rfl⟩
  | cons h1 _ ih =>
    obtain ⟨e1, e2, e3⟩ := h1
    obtain ⟨i1, i2⟩ := ih
    rw [hm p hp] at i1 ⊢
    simp only [List.map_cons, List.all_cons, e1, e2, e3 p hp, i1, i2, and_self]

theorem map_getD_range {α : Type} (l : List α) (x : α) (n : Nat) (h : l.length = n) : (List.range n).map (fun p => l.getD p x) = l := by
  apply List.ext_getElem
  · simp [h]
  · intro i h1 h2
    simp [List.getD_eq_getElem?_getD, List.getElem?_eq_getElem h2]

theorem members_perm (l : List Nat) (n : Nat) (hl : l.Perm (List.range n)) (cols cols' : List Col)
    (h : List.Forall₂ (Follows (fun p => l.getD p 0) n) cols cols') (masked masked' : Nat → Bool) (hm : ∀ p < n, masked' p = masked (l.getD p 0))
    (cell : List Nat) : ((members cols' masked' n cell).map (fun p => l.getD p 0)).Perm (members cols masked n cell) := by
  have hlen : l.length = n := by simpa using hl.length_eq
  unfold members
  rw [List.filter_congr (q := (fun p => gridMask (dims cols) masked p && decide (indexColumn (dims cols) p = cell.map Int.ofNat)) ∘ (fun p => l.getD p 0)),
    ← List.filter_map, map_getD_range l 0 n hlen]
  · exact hl.filter _
  · intro p hp
    have := follows_dims (fun p => l.getD p 0) n cols cols' h masked masked' hm p (List.mem_range.1 hp)
    simp only [this.1, this.2, Function.comp]

/-- **C197** (the core). Rearranged points give the same cells. -/
theorem aggregate_reorder {β : Type} (k : List ℚ → Option β) (hk : Spec.Kernel k) (l : List Nat) (n : Nat) (hl : l.Perm (List.range n))
    (cols cols' : List Col) (h : List.Forall₂ (Follows (fun p => l.getD p 0) n) cols cols') (masked masked' : Nat → Bool) (vals vals' : Nat → ℚ)
    (hm : ∀ p < n, masked' p = masked (l.getD p 0)) (hv : ∀ p < n, vals' p = vals (l.getD p 0))
    (order order' : List Nat) (ho : DataIndex.Spec.Sorts n (cellNumber (dims cols) masked) order)
    (ho' : DataIndex.Spec.Sorts n (cellNumber (dims cols') masked') order') :
    aggregate k cols' masked' vals' order' = aggregate k cols masked vals order := by
  rcases Nat.eq_zero_or_pos n with rfl | hn
  · have e1 : order = [] := by simpa using ho.1
    have e2 : order' = [] := by simpa using ho'.1
    subst e1; subst e2
    rfl
  · rw [aggregate_general k hk cols' _ _ n hn order' ho', aggregate_general k hk cols masked vals n hn order ho]
    refine congrArg some (funext fun cell => ?_)
    apply hk.perm
    have := (members_perm l n hl cols cols' h masked masked' hm cell).map vals
    rw [List.map_map] at this
    refine List.Perm.trans (List.Perm.of_eq ?_) this
    refine List.map_congr_left (fun p hp => ?_)
    exact hv p (List.mem_range.1 (List.mem_filter.1 hp).1)

end Cis.Agg

namespace Cis.AggApi
open Cis.Agg

/-- The coordinate with its points rearranged. -/
def Spec.reorderCoord (l : List Nat) (c : Coord) : Coord := { c with pts := l.map (fun p => c.pts.getD p 0) }

theorem perm_points (l : List Nat) (n : Nat) (hl : l.Perm (List.range n)) (pts : List ℚ) (h : pts.length = n) :
    (l.map (fun p => pts.getD p 0)).Perm pts := by
  have := hl.map (fun p => pts.getD p 0)
  rwa [map_getD_range pts 0 n h] at this

theorem min_perm {a b : List ℚ} (h : a.Perm b) : a.min? = b.min? := by
  by_cases hb : b = []
  · subst hb; rw [List.Perm.eq_nil h]
  · obtain ⟨m, hm⟩ := least_exists b hb
    rw [min_least b m hm, min_least a m ⟨h.mem_iff.2 hm.1, fun x hx => hm.2 x (h.mem_iff.1 hx)⟩]

theorem max_perm {a b : List ℚ} (h : a.Perm b) : a.max? = b.max? := by
  by_cases hb : b = []
  · subst hb; rw [List.Perm.eq_nil h]
  · obtain ⟨m, hm⟩ := greatest_exists b hb
    rw [max_greatest b m hm, max_greatest a m ⟨h.mem_iff.2 hm.1, fun x hx => hm.2 x (h.mem_iff.1 hx)⟩]

section
variable (l : List Nat) (n : Nat) (hl : l.Perm (List.range n))
include hl

theorem gridOf_reorder (c : Coord) (hc : c.pts.length = n) (g : GridArg) : gridOf (Spec.reorderCoord l c) g = gridOf c g := by
  have h := perm_points l n hl c.pts hc
  have e : ∀ (x : Option ℚ) (i : Item), limit (Spec.reorderCoord l c) x i = limit c x i := by
    intro x i; cases i <;> rfl
  unfold gridOf
  simp only [e]
  rw [show (Spec.reorderCoord l c).pts.min? = c.pts.min? from min_perm h, show (Spec.reorderCoord l c).pts.max? = c.pts.max? from max_perm h]

theorem gridSpec_reorder (lookup : Text → Option Nat) (coords : List Coord) (hc : ∀ c ∈ coords, c.pts.length = n) :
    ∀ (kwargs : List (Text × GridArg)) (spec : Grids),
      gridSpec lookup (coords.map (Spec.reorderCoord l)) kwargs spec = gridSpec lookup coords kwargs spec := by
  intro kwargs
  induction kwargs with
  | nil => intro spec; rfl
  | cons x t ih =>
    obtain ⟨k, g⟩ := x
    intro spec
    rw [gridSpec, gridSpec]
    have e : (lookup k).bind (fun i => (coords.map (Spec.reorderCoord l))[i]?) =
        ((lookup k).bind (fun i => coords[i]?)).map (Spec.reorderCoord l) := by
      cases lookup k with
      | none => rfl
      | some i => simp
    rw [e]
    cases h : (lookup k).bind (fun i => coords[i]?) with
    | none => rfl
    | some c =>
      have hm : c ∈ coords := by
        cases h1 : lookup k with
        | none => rw [h1] at h; simp at h
        | some i => rw [h1] at h; exact List.mem_of_getElem? h
      rw [Option.map_some]
      dsimp only
      rw [gridOf_reorder l n hl c (hc c hm)]
      cases gridOf c g with
      | error e => rfl
      | ok r => dsimp only; exact ih _

theorem requests_reorder : ∀ (coords : List Coord) (spec : Grids), requests (coords.map (Spec.reorderCoord l)) spec = requests coords spec := by
  intro coords
  induction coords with
  | nil => intro spec; rfl
  | cons c t ih =>
    intro spec
    rw [List.map_cons, requests, requests]
    show (_ :: (requests (t.map (Spec.reorderCoord l)) (spec.filter (fun x => x.1 ≠ c.name))).1,
      (requests (t.map (Spec.reorderCoord l)) (spec.filter (fun x => x.1 ≠ c.name))).2) = _
    rw [ih]
    rfl

theorem newCoord_reorder (c : Coord) (hc : c.pts.length = n) (r : Req) : newCoord (Spec.reorderCoord l c) r = newCoord c r := by
  have h := perm_points l n hl c.pts hc
  cases r with
  | some x => rfl
  | none =>
    unfold newCoord startEndCentre
    rw [show (Spec.reorderCoord l c).pts.min? = c.pts.min? from min_perm h, show (Spec.reorderCoord l c).pts.max? = c.pts.max? from max_perm h]

theorem newCoords_reorder : ∀ (coords : List Coord) (reqs : List Req), (∀ c ∈ coords, c.pts.length = n) →
    newCoords (coords.map (Spec.reorderCoord l)) reqs = newCoords coords reqs := by
  intro coords
  induction coords with
  | nil => intro reqs _; rfl
  | cons c t ih =>
    intro reqs hc
    cases reqs with
    | nil => rfl
    | cons r u =>
      rw [List.map_cons, newCoords, newCoords, newCoord_reorder l n hl c (hc c (by simp)), ih u (fun x hx => hc x (by simp [hx]))]

theorem columns_reorder : ∀ (coords : List Coord) (new : List (List ℚ × List (ℚ × ℚ))) (reqs : List Req),
    List.Forall₂ (Follows (fun p => l.getD p 0) n) (columns coords new reqs) (columns (coords.map (Spec.reorderCoord l)) new reqs) := by
  have hlen : l.length = n := by simpa using hl.length_eq
  intro coords
  induction coords with
  | nil => intro new reqs; simp [columns]
  | cons c t ih =>
    intro new reqs
    cases new with
    | nil => simp [columns]
    | cons x u =>
      cases reqs with
      | nil => simp [columns]
      | cons r v =>
        rw [List.map_cons, columns, columns]
        refine List.Forall₂.cons ⟨rfl, rfl, ?_⟩ (ih u v)
        intro p hp
        have e : (Spec.reorderCoord l c).pts.getD p 0 = c.pts.getD (l.getD p 0) 0 := by
          unfold Spec.reorderCoord
          simp [List.getD_eq_getElem?_getD, List.getElem?_eq_getElem (by omega : p < l.length)]
        show (if c.isLon = true then Hyper.uShift (rangeStart x.1) ((Spec.reorderCoord l c).pts.getD p 0) else (Spec.reorderCoord l c).pts.getD p 0) =
          (if c.isLon = true then Hyper.uShift (rangeStart x.1) (c.pts.getD (l.getD p 0) 0) else c.pts.getD (l.getD p 0) 0)
        rw [e]

/-- **C197** (`aggregate()`). The points in another order: the same cells and coordinates, or the same error, for all arguments. -/
theorem c197_api {β : Type} (k : List ℚ → Option β) (hk : Agg.Spec.Kernel k) (lookup : Text → Option Nat) (coords : List Coord)
    (hc : ∀ c ∈ coords, c.pts.length = n) (kwargs : List (Text × GridArg)) (masked masked' : Nat → Bool) (vals vals' : Nat → ℚ)
    (hm : ∀ p < n, masked' p = masked (l.getD p 0)) (hv : ∀ p < n, vals' p = vals (l.getD p 0)) (sort sort' : (Nat → Int) → List Nat)
    (hs : ∀ key, DataIndex.Spec.Sorts n key (sort key)) (hs' : ∀ key, DataIndex.Spec.Sorts n key (sort' key)) :
    aggregateApi k lookup (coords.map (Spec.reorderCoord l)) kwargs masked' vals' sort' = aggregateApi k lookup coords kwargs masked vals sort := by
  unfold aggregateApi
  rw [gridSpec_reorder l n hl lookup coords hc]
  cases gridSpec lookup coords kwargs [] with
  | error e => rfl
  | ok spec =>
    dsimp only
    rw [requests_reorder l n hl, newCoords_reorder l n hl coords _ hc]
    cases newCoords coords (requests coords spec).1 with
    | error e => rfl
    | ok new =>
      dsimp only
      split
      · rfl
      · rw [aggregate_reorder k hk l n hl _ _ (columns_reorder l n hl coords new _) masked masked' vals vals' hm hv _ _ (hs _) (hs' _)]

end

end Cis.AggApi

namespace Cis.Coords

/-- The same coordinate with other contents. -/
def withPayload {V W : Type} (f : V → W) (c : Coord V) : Coord W := ⟨c.stdName, c.longName, c.varName, c.axis, c.attrs, f c.payload⟩

theorem filterBy_map {V W : Type} (f : V → W) {β : Type} (x : Option β) (p : β → Coord V → Bool) (q : β → Coord W → Bool)
    (h : ∀ b c, q b (withPayload f c) = p b c) (l : List (Coord V)) :
    filterBy x q (l.map (withPayload f)) = (filterBy x p l).map (withPayload f) := by
  cases x with
  | none => rfl
  | some b =>
    unfold filterBy
    dsimp only
    rw [List.filter_map]
    congr 1
    exact List.filter_congr (fun c _ => h b c)

theorem getCoords_map {V W : Type} (f : V → W) (l : List (Coord V)) (n s lo a v : Option String) :
    getCoords (l.map (withPayload f)) ⟨match n with | some n => .byName n | none => .none, s, lo, none, a, v⟩ =
      (getCoords l ⟨match n with | some n => .byName n | none => .none, s, lo, none, a, v⟩).map (withPayload f) := by
  unfold getCoords
  have hn : ∀ {X : Type}, Sel.name? (match n with | some n => Sel.byName (V := X) n | none => .none) = n := by intro X; cases n <;> rfl
  have hc : ∀ {X : Type}, Sel.coord? (match n with | some n => Sel.byName (V := X) n | none => .none) = none := by intro X; cases n <;> rfl
  simp only [hn, hc]
  rw [filterBy_map f n (fun n x => name x == some n) _ (fun b c => rfl), filterBy_map f s (fun n x => x.stdName == some n) _ (fun b c => rfl),
    filterBy_map f lo (fun n x => x.longName == some n) _ (fun b c => rfl),
    filterBy_map f (a.map String.toUpper) (fun n x => x.axis == n) _ (fun b c => rfl),
    filterBy_map f v (fun n x => x.varName == some n) _ (fun b c => rfl)]
  rfl

theorem exactlyOne_map {V W : Type} (f : V → W) (l : List (Coord V)) :
    exactlyOne (l.map (withPayload f)) = (match exactlyOne l with | .ok x => .ok (withPayload f x) | .error e => .error e) := by
  rcases l with _ | ⟨a, _ | ⟨b, t⟩⟩ <;> rfl

theorem tryCoord_map {V W : Type} (f : V → W) (l : List (Coord V)) (n s lo a v : Option String) :
    tryCoord (l.map (withPayload f)) ⟨match n with | some n => .byName n | none => .none, s, lo, none, a, v⟩ =
      (tryCoord l ⟨match n with | some n => .byName n | none => .none, s, lo, none, a, v⟩).map (withPayload f) := by
  unfold tryCoord getCoord
  rw [getCoords_map]
  have hone : ∀ (m : List (Coord V)), (match exactlyOne (m.map (withPayload f)) with | .ok x => some x | .error _ => none) =
      ((match exactlyOne m with | .ok x => some x | .error _ => none) : Option (Coord V)).map (withPayload f) := by
    intro m
    rw [exactlyOne_map]
    cases exactlyOne m <;> rfl
  cases h : getCoords l ⟨match n with | some n => .byName n | none => .none, s, lo, none, a, v⟩ with
  | cons x t => exact hone (x :: t)
  | nil =>
    cases n with
    | none => exact hone l
    | some n =>
      dsimp only [fallback, List.map_nil]
      have := getCoords_map f l none (some n) none none none
      dsimp only at this
      rw [this]
      exact hone _

/-- Which coordinate is found does not depend on what the coordinates hold. -/
theorem lookupCoord_map {V W : Type} (f : V → W) (axes : String → Option String) (l : List (Coord V)) (n : String) :
    lookupCoord axes (l.map (withPayload f)) n = (lookupCoord axes l n).map (withPayload f) := by
  unfold lookupCoord
  have e1 := tryCoord_map f l (some n) none none none none
  have e2 := tryCoord_map f l none (some n) none none none
  have e3 := tryCoord_map f l none (axes n.toUpper) none none none
  have e4 := tryCoord_map f l none none none none (some n)
  have e5 := tryCoord_map f l none none none (some n) none
  dsimp only at e1 e2 e3 e4 e5
  rw [e1, e2, e3, e4, e5]
  have h : ∀ (a b : Option (Coord V)), (a.map (withPayload f) <|> b.map (withPayload f)) = (a <|> b).map (withPayload f) := by
    intro a b; cases a <;> rfl
  simp only [h]

end Cis.Coords

namespace Cis.AggCmd
open Cis.Str Cis.Time Cis.SubsetCmd

/-- The data with their points in another order: the metadata of the coordinates stay, and the points of all coordinates and the values are rearranged
alike. `l` lists the old positions in the new order. -/
def Spec.reorder (l : List Nat) (d : Data) : Data where
  coords := d.coords.map (fun c => { c with payload := { c.payload with points := l.map (fun p => c.payload.points.getD p 0) } })
  values := l.map (fun p => d.values.getD p none)

theorem reorder_coords (l : List Nat) (d : Data) : (Spec.reorder l d).coords =
    d.coords.map (Coords.withPayload (fun c : Column => { c with points := l.map (fun p => c.points.getD p 0) })) := rfl

theorem lookup_reorder (l : List Nat) (d : Data) (k : Str) : lookup (Spec.reorder l d).coords k = lookup d.coords k := by
  rw [reorder_coords]
  unfold lookup
  rw [Coords.lookupCoord_map]
  cases Coords.lookupCoord standardAxes d.coords (String.ofList k) with
  | none => rfl
  | some c =>
    rw [Option.map_some, Option.bind_some, Option.bind_some, List.findIdx?_map]
    rfl

theorem toArgs_reorder (l : List Nat) (d : Data) : ∀ (gs : List (Str × Limits.Grid D)),
    toArgs (Spec.reorder l d).coords gs = toArgs d.coords gs := by
  intro gs
  induction gs with
  | nil => rfl
  | cons x t ih =>
    obtain ⟨k, g⟩ := x
    rw [toArgs, toArgs, ih, lookup_reorder]
    have e : toArg ((lookup d.coords k).bind (fun i => (Spec.reorder l d).coords[i]?)) g = toArg ((lookup d.coords k).bind (fun i => d.coords[i]?)) g := by
      cases lookup d.coords k with
      | none => rfl
      | some i =>
        rw [Option.bind_some, Option.bind_some, reorder_coords, List.getElem?_map]
        cases d.coords[i]? with
        | none => rfl
        | some c => cases g <;> rfl
    rw [e]

theorem coordOf_reorder (l : List Nat) (d : Data) : (Spec.reorder l d).coords.map coordOf = (d.coords.map coordOf).map (AggApi.Spec.reorderCoord l) := by
  rw [reorder_coords, List.map_map, List.map_map]
  rfl

/-- **C197** (`cis aggregate`). Two runs with the same grid argument, whatever its text, on the same points in another order, each with a sort of
its own: the same coordinates and the same value in each cell, or the same error. -/
theorem c197_aggregate {β : Type} (k : List ℚ → Option β) (hk : Agg.Spec.Kernel k) (e : Env) (d : Data)
    (hlen : ∀ c ∈ d.coords, c.payload.points.length = d.values.length) (l : List Nat) (hl : l.Perm (List.range d.values.length))
    (sort sort' : (Nat → Int) → List Nat) (hs : ∀ key, DataIndex.Spec.Sorts d.values.length key (sort key))
    (hs' : ∀ key, DataIndex.Spec.Sorts d.values.length key (sort' key)) (text : Str) :
    run k sort' e (Spec.reorder l d) text = run k sort e d text := by
  have hll : l.length = d.values.length := by simpa using hl.length_eq
  have hc : ∀ c ∈ d.coords.map coordOf, c.pts.length = d.values.length := by
    intro c hc
    obtain ⟨x, hx, rfl⟩ := List.mem_map.1 hc
    exact hlen x hx
  have hget : ∀ p < d.values.length, (Spec.reorder l d).values.getD p none = d.values.getD (l.getD p 0) none := by
    intro p hp
    unfold Spec.reorder
    simp [List.getD_eq_getElem?_getD, List.getElem?_eq_getElem (by omega : p < l.length)]
  have hlk : lookup (Spec.reorder l d).coords = lookup d.coords := funext (fun k => lookup_reorder l d k)
  unfold run
  cases Limits.aggregateGrid (conv e) text with
  | error x => rfl
  | ok gs =>
    dsimp only
    rw [toArgs_reorder, hlk, coordOf_reorder]
    obtain ⟨args, err⟩ := toArgs d.coords gs
    cases err with
    | none =>
      dsimp only
      rw [AggApi.c197_api l d.values.length hl k hk (lookup d.coords) (d.coords.map coordOf) hc args (masked d) (masked (Spec.reorder l d)) (vals d)
        (vals (Spec.reorder l d)) (fun p hp => by unfold masked; rw [hget p hp]) (fun p hp => by unfold vals; rw [hget p hp]) sort sort' hs hs']
    | some x =>
      dsimp only
      rw [AggApi.gridSpec_reorder l d.values.length hl (lookup d.coords) (d.coords.map coordOf) hc]

/-! ### Files in another order -/

/-- What one file holds: the points of each coordinate, and the values. -/
structure Spec.Part where
  points : List (List ℚ)
  values : List (Option ℚ)

/-- The data read from files given in an order: each coordinate and the values are those of the files one after the other. -/
def Spec.joined (meta' : List Crd) (parts : List Spec.Part) : Data where
  coords := meta'.zipIdx.map (fun ci => { ci.1 with payload := { ci.1.payload with points := (parts.map (fun f => f.points.getD ci.2 [])).flatten } })
  values := (parts.map Spec.Part.values).flatten

theorem getD_append_left {α : Type} (a b : List α) (x : α) (i : Nat) (h : i < a.length) : (a ++ b).getD i x = a.getD i x := by
  simp [List.getD_eq_getElem?_getD, List.getElem?_append_left h]

theorem getD_append_right {α : Type} (a b : List α) (x : α) (i : Nat) : (a ++ b).getD (a.length + i) x = b.getD i x := by
  simp [List.getD_eq_getElem?_getD, List.getElem?_append_right]

/-- Lists joined in another order are the joined list rearranged, in the same way for all lists of the same lengths. -/
theorem joined_perm {F : Type} (len : F → Nat) {a b : List F} (h : a.Perm b) : ∃ l : List Nat, l.Perm (List.range (b.map len).sum) ∧
    ∀ (α : Type) (g : F → List α) (x : α), (∀ f ∈ b, (g f).length = len f) →
      (a.map g).flatten = l.map (fun p => ((b.map g).flatten).getD p x) := by
  induction h with
  | nil => exact ⟨[], by simp, by simp⟩
  | @cons f a b h ih =>
    obtain ⟨l, h1, h2⟩ := ih
    refine ⟨List.range (len f) ++ l.map (len f + ·), ?_, ?_⟩
    · rw [List.map_cons, List.sum_cons, List.range_add]
      exact (List.Perm.refl _).append (h1.map _)
    · intro α g x hg
      have e1 := hg f (by simp)
      rw [List.map_cons, List.flatten_cons, List.map_cons, List.flatten_cons, List.map_append, List.map_map]
      congr 1
      · rw [← Agg.map_getD_range (g f) x (len f) e1]
        refine List.map_congr_left (fun p hp => ?_)
        rw [Agg.map_getD_range (g f) x (len f) e1, getD_append_left _ _ _ _ (by rw [e1]; exact List.mem_range.1 hp)]
      · rw [h2 α g x (fun f hf => hg f (by simp [hf]))]
        refine List.map_congr_left (fun p hp => ?_)
        simp only [Function.comp]
        rw [← e1, getD_append_right]
  | swap f1 f2 t =>
    refine ⟨(List.range (len f2)).map (len f1 + ·) ++ (List.range (len f1) ++ (List.range (t.map len).sum).map (len f1 + len f2 + ·)), ?_, ?_⟩
    · rw [List.map_cons, List.map_cons, List.sum_cons, List.sum_cons, ← Nat.add_assoc, List.range_add, List.range_add, ← List.append_assoc]
      exact List.Perm.append List.perm_append_comm (List.Perm.refl _)
    · intro α g x hg
      have e1 := hg f1 (by simp)
      have e2 := hg f2 (by simp)
      simp only [List.map_cons, List.flatten_cons, List.map_append, List.map_map]
      congr 1
      · rw [← Agg.map_getD_range (g f2) x (len f2) e2]
        refine List.map_congr_left (fun p hp => ?_)
        rw [Agg.map_getD_range (g f2) x (len f2) e2]
        simp only [Function.comp]
        rw [← e1, getD_append_right, getD_append_left _ _ _ _ (by rw [e2]; exact List.mem_range.1 hp)]
      · congr 1
        · rw [← Agg.map_getD_range (g f1) x (len f1) e1]
          refine List.map_congr_left (fun p hp => ?_)
          rw [Agg.map_getD_range (g f1) x (len f1) e1, getD_append_left _ _ _ _ (by rw [e1]; exact List.mem_range.1 hp)]
        · have e3 : ((t.map g).flatten).length = (t.map len).sum := by
            rw [List.length_flatten, List.map_map]
            exact congrArg List.sum (List.map_congr_left (fun f hf => hg f (by simp [hf])))
          rw [← Agg.map_getD_range (t.map g).flatten x _ e3]
          refine List.map_congr_left (fun p hp => ?_)
          rw [Agg.map_getD_range (t.map g).flatten x _ e3]
          simp only [Function.comp]
          rw [← e1, ← e2, Nat.add_assoc, getD_append_right, getD_append_right]
  | @trans a b c hab hbc ih1 ih2 =>
    obtain ⟨l1, h1, g1⟩ := ih1
    obtain ⟨l2, h2, g2⟩ := ih2
    have hsum : (b.map len).sum = (c.map len).sum := (hbc.map len).sum_eq
    have hl2 : l2.length = (b.map len).sum := by rw [hsum]; simpa using h2.length_eq
    refine ⟨l1.map (fun p => l2.getD p 0), ?_, ?_⟩
    · have := h1.map (fun p => l2.getD p 0)
      rw [Agg.map_getD_range l2 0 _ hl2] at this
      exact this.trans h2
    · intro α g x hg
      rw [g1 α g x (fun f hf => hg f (hbc.mem_iff.1 hf)), g2 α g x hg, List.map_map]
      refine List.map_congr_left (fun p hp => ?_)
      have hp' : p < l2.length := by rw [hl2]; exact List.mem_range.1 (h1.mem_iff.1 hp)
      simp [List.getD_eq_getElem?_getD, List.getElem?_eq_getElem hp']

/-- **C197** (files). `cis aggregate` of files given in any order: the same output, or the same error, for every grid argument and any number of
files, some of which may hold no points. -/
theorem c197_files {β : Type} (k : List ℚ → Option β) (hk : Agg.Spec.Kernel k) (e : Env) (meta' : List Crd) (files files' : List Spec.Part)
    (hp : files'.Perm files) (hlen : ∀ f ∈ files, ∀ i < meta'.length, (f.points.getD i []).length = f.values.length)
    (sort sort' : (Nat → Int) → List Nat) (hs : ∀ key, DataIndex.Spec.Sorts (Spec.joined meta' files).values.length key (sort key))
    (hs' : ∀ key, DataIndex.Spec.Sorts (Spec.joined meta' files).values.length key (sort' key)) (text : Str) :
    run k sort' e (Spec.joined meta' files') text = run k sort e (Spec.joined meta' files) text := by
  obtain ⟨l, h1, h2⟩ := joined_perm (fun f : Spec.Part => f.values.length) hp
  have hsum : (files.map (fun f : Spec.Part => f.values.length)).sum = (Spec.joined meta' files).values.length := by
    unfold Spec.joined
    rw [List.length_flatten, List.map_map]
    rfl
  rw [hsum] at h1
  have he : Spec.joined meta' files' = Spec.reorder l (Spec.joined meta' files) := by
    unfold Spec.reorder
    have ev : (Spec.joined meta' files').values = l.map (fun p => (Spec.joined meta' files).values.getD p none) :=
      h2 _ Spec.Part.values none (fun f _ => rfl)
    have ec : (Spec.joined meta' files').coords = (Spec.joined meta' files).coords.map
        (fun c => { c with payload := { c.payload with points := l.map (fun p => c.payload.points.getD p 0) } }) := by
      unfold Spec.joined
      dsimp only
      rw [List.map_map]
      refine List.map_congr_left (fun ci hci => ?_)
      obtain ⟨c, i⟩ := ci
      have hi : i < meta'.length := by
        have := List.mem_zipIdx hci
        omega
      dsimp only [Function.comp]
      rw [h2 _ (fun f => f.points.getD i []) 0 (fun f hf => hlen f hf i hi)]
    rw [← ev, ← ec]
  rw [he]
  refine c197_aggregate k hk e _ ?_ l h1 sort sort' hs hs' text
  intro c hc
  unfold Spec.joined at hc ⊢
  obtain ⟨⟨c0, i⟩, hci, rfl⟩ := List.mem_map.1 hc
  have hi : i < meta'.length := by
    have := List.mem_zipIdx hci
    omega
  dsimp only
  rw [List.length_flatten, List.length_flatten, List.map_map, List.map_map]
  exact congrArg List.sum (List.map_congr_left (fun f hf => hlen f hf i hi))

/-! ### Examples -/

/-- A sort of `n` points. -/
def exSort (n : Nat) (key : Nat → Int) : List Nat := (List.range n).insertionSort (fun a b => key a ≤ key b)

theorem exSort_sorts (n : Nat) (key : Nat → Int) : DataIndex.Spec.Sorts n key (exSort n key) := by
  refine ⟨List.perm_insertionSort _ _, ?_⟩
  rw [List.pairwise_map]
  exact List.pairwise_insertionSort (r := fun a b => key a ≤ key b) _

/-- Two files with three and one points: together the data of the example of C182, for which the command yields the sums of the cells. -/
def exPart1 : Spec.Part := ⟨[[10, 40, 50], [1, 2, 3]], [some 1, some 2, none]⟩
def exPart2 : Spec.Part := ⟨[[80], [4]], [some 4]⟩

example : Spec.joined [exLatitude, exTimes] [exPart1, exPart2] = exAgg := rfl

example (e : Env) (text : Str) : run AggApi.countKernel (exSort 4) e (Spec.joined [exLatitude, exTimes] [exPart2, exPart1]) text =
    run AggApi.countKernel (exSort 4) e (Spec.joined [exLatitude, exTimes] [exPart1, exPart2]) text :=
  c197_files AggApi.countKernel AggApi.countKernel_ok e [exLatitude, exTimes] [exPart1, exPart2] [exPart2, exPart1] (List.Perm.swap _ _ _)
    (by decide) (exSort 4) (exSort 4) (exSort_sorts 4) (exSort_sorts 4) text

end Cis.AggCmd
