import Verif.Agg.Props
set_option linter.unusedSectionVars false
set_option linter.unusedSimpArgs false
/-!
Property C40, latitudes: with iris 2.0 and later (setup.py:24 asks for 1.8 or later) `guess_bounds` cuts the bounds of a latitude coordinate off at
the poles if all points lie between them. This module models the aggregation with that cut and relates it to `aggregate` of `Agg/Model.lean`, where
nothing is cut.
-/
namespace Cis.Agg
open Cis.DataIndex

/-- `np.clip(x, -90, 90)`. -/
def clipLat (x : ℚ) : ℚ := max (-90) (min 90 x)

/-- `DimCoord.guess_bounds()` of a coordinate with the standard name latitude (iris, `iris/coords.py`): cut off if all points are latitudes. -/
def guessLatBounds (p : List ℚ) : List (ℚ × ℚ) :=
  if p.all (fun x : ℚ => decide (-90 ≤ x) && decide (x ≤ 90)) then (guessBounds p).map (fun b : ℚ × ℚ => (clipLat b.1, clipLat b.2))
  else guessBounds p

/-- `_make_partially_collapsed_coord` (ungridded_aggregator.py:97-115) for latitude. -/
def partialLatBounds (start stop delta : ℚ) : List (ℚ × ℚ) :=
  if (gridArray start stop delta).length = 1 then [(start, stop)] else guessLatBounds (gridArray start stop delta)

/-- `_make_fully_collapsed_coord`, `_make_partially_collapsed_coord` (ungridded_aggregator.py:82-115) for latitude. -/
def makeLatCoord (centre : ℚ) : Req → Coord Ext
  | none => makeCoord centre none
  | some (s, e, d) => ⟨(gridArray s e d).map fin, (partialLatBounds s e d).map (fun b => (fin b.1, fin b.2))⟩

/-- A coordinate of the aggregation, with the information whether it is the latitude. -/
structure LatCol where
  lat : Bool
  col : Col

/-- The grid (ungridded_aggregator.py:20-36). -/
def latDims (cols : List LatCol) : List (Dim Ext) :=
  cols.map (fun c => (if c.lat then makeLatCoord c.col.centre c.col.req else makeCoord c.col.centre c.col.req, fun p => fin (c.col.val p)))

/-- `aggregate` (ungridded_aggregator.py:11-55) with latitudes cut off at the poles. -/
def aggregateLat {β : Type} (kernel : List ℚ → Option β) (cols : List LatCol) (masked : Nat → Bool) (vals : Nat → ℚ)
    (order : List Nat) : Option (List Nat → Option β) :=
  (sliceIterator (latDims cols) masked order).map (fun slices => slices.foldl (setCell kernel vals) (fun _ => none))

/-! ### Specification -/

/-- The latitudes of the points are latitudes, and none is the north pole. -/
def Spec.OffPole (cols : List LatCol) (n : Nat) : Prop := ∀ c ∈ cols, c.lat = true → ∀ p < n, -90 ≤ c.col.val p ∧ c.col.val p < 90

/-! ### Proofs -/

theorem clipLat_le {v b : ℚ} (h1 : -90 ≤ v) (h2 : v < 90) : clipLat b ≤ v ↔ b ≤ v := by
  unfold clipLat
  rw [max_le_iff, min_le_iff]
  constructor
  · rintro ⟨-, h | h⟩
    · linarith
    · exact h
  · exact fun h => ⟨h1, Or.inr h⟩

theorem lt_clipLat {v b : ℚ} (h1 : -90 ≤ v) (h2 : v < 90) : v < clipLat b ↔ v < b := by
  rw [← not_le, clipLat_le h1 h2, not_le]

theorem search_congr (l : List (ℚ × ℚ)) {v : ℚ} (h1 : -90 ≤ v) (h2 : v < 90) :
    searchsortedRight ((l.map (fun b : ℚ × ℚ => (clipLat b.1, clipLat b.2))).map (fun b => (fin b.1, fin b.2)) |>.map Prod.fst) (fin v) =
      searchsortedRight ((l.map (fun b => (fin b.1, fin b.2))).map Prod.fst) (fin v) := by
  unfold searchsortedRight
  simp only [List.map_map]
  induction l with
  | nil => rfl
  | cons b t ih =>
    simp only [List.map_cons, Function.comp, List.takeWhile_cons, fin_le, clipLat_le h1 h2] at ih ⊢
    by_cases hb : b.1 ≤ v
    · simp only [hb, decide_true, if_true, List.length_cons, ih]
    · simp [hb]

theorem search_congr' (l : List (ℚ × ℚ)) {v : ℚ} (h1 : -90 ≤ v) (h2 : v < 90) :
    searchsortedRight (((l.map (fun b : ℚ × ℚ => (clipLat b.1, clipLat b.2))).map (fun b => (fin b.1, fin b.2)) |>.map Prod.snd).reverse) (fin v) =
      searchsortedRight (((l.map (fun b => (fin b.1, fin b.2))).map Prod.snd).reverse) (fin v) := by
  unfold searchsortedRight
  simp only [List.map_map, ← List.map_reverse]
  generalize l.reverse = l
  induction l with
  | nil => rfl
  | cons b t ih =>
    simp only [List.map_cons, Function.comp, List.takeWhile_cons, fin_le, clipLat_le h1 h2] at ih ⊢
    by_cases hb : b.2 ≤ v
    · simp only [hb, decide_true, if_true, List.length_cons, ih]
    · simp [hb]

theorem makeLatCoord_points (centre : ℚ) (r : Req) : (makeLatCoord centre r).points = (makeCoord centre r).points := by
  rcases r with _ | ⟨s, e, d⟩ <;> rfl

theorem makeLatCoord_decreasing (centre : ℚ) (r : Req) : (makeLatCoord centre r).decreasing = (makeCoord centre r).decreasing := by
  unfold Coord.decreasing
  rw [makeLatCoord_points]

theorem partialLatBounds_cases (s e d : ℚ) : partialLatBounds s e d = partialBounds s e d ∨
    partialLatBounds s e d = (partialBounds s e d).map (fun b : ℚ × ℚ => (clipLat b.1, clipLat b.2)) := by
  unfold partialLatBounds partialBounds guessLatBounds
  split_ifs <;> simp

theorem rawIndex_lat (centre : ℚ) (r : Req) {v : ℚ} (h1 : -90 ≤ v) (h2 : v < 90) :
    rawIndex (makeLatCoord centre r) (fin v) = rawIndex (makeCoord centre r) (fin v) := by
  rcases r with _ | ⟨s, e, d⟩
  · rfl
  have hd := makeLatCoord_decreasing centre (some (s, e, d))
  rcases partialLatBounds_cases s e d with hb | hb
  · have : makeLatCoord centre (some (s, e, d)) = makeCoord centre (some (s, e, d)) := by
      show Coord.mk _ (List.map _ (partialLatBounds s e d)) = Coord.mk _ (List.map _ (partialBounds s e d))
      rw [hb]
    rw [this]
  · unfold rawIndex Coord.maxBound Coord.lower
    rw [hd]
    have e1 : (makeLatCoord centre (some (s, e, d))).bounds =
        ((partialBounds s e d).map (fun b : ℚ × ℚ => (clipLat b.1, clipLat b.2))).map (fun b => (fin b.1, fin b.2)) := by
      show List.map _ (partialLatBounds s e d) = _
      rw [hb]
    have e2 : (makeCoord centre (some (s, e, d))).bounds = (partialBounds s e d).map (fun b => (fin b.1, fin b.2)) := rfl
    rw [e1, e2]
    cases (makeCoord centre (some (s, e, d))).decreasing with
    | true =>
      simp only [if_true]
      rw [search_congr' _ h1 h2]
      cases hh : partialBounds s e d with
      | nil => rfl
      | cons b t => simp only [List.map_cons, List.head?_cons, Option.map_some, fin_lt, lt_clipLat h1 h2]
    | false =>
      simp only [if_false, Bool.false_eq_true]
      rw [search_congr _ h1 h2]
      rcases List.eq_nil_or_concat (partialBounds s e d) with hh | ⟨t, b, hh⟩
      · rw [hh]; rfl
      · rw [hh]
        simp only [List.concat_eq_append, List.map_append, List.map_cons, List.map_nil, List.getLast?_append, List.getLast?_singleton, Option.some_or,
          Option.map_some, fin_lt, lt_clipLat h1 h2]

theorem bounds_length (centre : ℚ) (r : Req) : (makeLatCoord centre r).lower.length = (makeCoord centre r).lower.length := by
  unfold Coord.lower
  rw [makeLatCoord_decreasing]
  have : (makeLatCoord centre r).bounds.length = (makeCoord centre r).bounds.length := by
    rcases r with _ | ⟨s, e, d⟩
    · rfl
    · unfold makeLatCoord makeCoord
      rcases partialLatBounds_cases s e d with hb | hb <;> simp [hb]
  split_ifs <;> simp [this]

theorem indexColumn_lat (cols : List LatCol) (p : Nat) (h : ∀ c ∈ cols, c.lat = true → -90 ≤ c.col.val p ∧ c.col.val p < 90) :
    indexColumn (latDims cols) p = indexColumn (dims (cols.map LatCol.col)) p := by
  unfold indexColumn latDims dims
  simp only [List.map_map]
  apply List.map_congr_left
  intro c hc
  simp only [Function.comp]
  cases hl : c.lat with
  | false => simp
  | true =>
    obtain ⟨h1, h2⟩ := h c hc hl
    simp only [if_true, rawIndex_lat _ _ h1 h2]
    unfold fixIndex
    rw [makeLatCoord_decreasing, makeLatCoord_points]

theorem gridMask_lat (cols : List LatCol) (masked : Nat → Bool) (p : Nat) (h : ∀ c ∈ cols, c.lat = true → -90 ≤ c.col.val p ∧ c.col.val p < 90) :
    gridMask (latDims cols) masked p = gridMask (dims (cols.map LatCol.col)) masked p := by
  unfold gridMask latDims dims
  rw [Bool.eq_iff_iff, List.all_eq_true, List.all_eq_true]
  simp only [List.mem_map, forall_exists_index, and_imp, forall_apply_eq_imp_iff₂, Function.comp]
  apply forall_congr'; intro c
  apply imp_congr_right; intro hc
  cases hl : c.lat with
  | false => simp
  | true =>
    obtain ⟨h1, h2⟩ := h c hc hl
    simp only [if_true, rawIndex_lat _ _ h1 h2]

theorem gridShape_lat (cols : List LatCol) : gridShape (latDims cols) = gridShape (dims (cols.map LatCol.col)) := by
  unfold gridShape latDims dims
  simp only [List.map_map]
  apply List.map_congr_left
  intro c hc
  simp only [Function.comp]
  cases hl : c.lat <;> simp [bounds_length]

theorem cellNumber_lat (cols : List LatCol) (masked : Nat → Bool) (p : Nat) (h : ∀ c ∈ cols, c.lat = true → -90 ≤ c.col.val p ∧ c.col.val p < 90) :
    cellNumber (latDims cols) masked p = cellNumber (dims (cols.map LatCol.col)) masked p := by
  unfold cellNumber
  rw [gridMask_lat cols masked p h, gridShape_lat, indexColumn_lat cols p h]

/-- **C40**, latitudes: off the north pole the cut makes no difference: every cell of the aggregate is the same, whatever the kernel and the
outcome of the sort. -/
theorem c40_clip_same {β : Type} (k : List ℚ → Option β) (cols : List LatCol) (masked : Nat → Bool) (vals : Nat → ℚ) (n : Nat)
    (hn : 0 < n) (order : List Nat) (ho : ∀ p ∈ order, p < n) (hoff : Spec.OffPole cols n) :
    aggregateLat k cols masked vals order = aggregate k (cols.map LatCol.col) masked vals order := by
  have hp : ∀ p < n, ∀ c ∈ cols, c.lat = true → -90 ≤ c.col.val p ∧ c.col.val p < 90 := fun p hp c hc hl => hoff c hc hl p hp
  unfold aggregateLat aggregate
  congr 1
  unfold sliceIterator
  have e : order.map (cellNumber (latDims cols) masked) = order.map (cellNumber (dims (cols.map LatCol.col)) masked) :=
    List.map_congr_left (fun p hpo => cellNumber_lat cols masked p (hp p (ho p hpo)))
  rw [e]
  cases cellSlices (order.map (cellNumber (dims (cols.map LatCol.col)) masked)) with
  | none => rfl
  | some slices =>
    simp only [Option.some.injEq]
    apply List.map_congr_left
    intro ab _
    rw [indexColumn_lat]
    apply hp
    rw [List.getD_eq_getElem?_getD]
    cases hg : order[ab.1]? with
    | none => exact hn
    | some q => exact ho q (List.mem_of_getElem? hg)

/-- **C40**, latitudes: off the north pole each cell has the kernel's value of its own points. -/
theorem c40_clip_cells {β : Type} (k : List ℚ → Option β) (hk : Spec.Kernel k) (cols : List LatCol) (hne : cols ≠ [])
    (hok : ∀ c ∈ cols, Spec.Req.Ok c.col.req) (masked : Nat → Bool) (vals : Nat → ℚ) (n : Nat) (hn : 0 < n) (order : List Nat)
    (hoff : Spec.OffPole cols n) (ho : DataIndex.Spec.Sorts n (cellNumber (latDims cols) masked) order) :
    ∃ out, aggregateLat k cols masked vals order = some out ∧
      ∀ cell, out cell = k ((Spec.points (cols.map LatCol.col) masked n cell).map vals) := by
  have hlt : ∀ p ∈ order, p < n := fun p hp => List.mem_range.1 (ho.1.mem_iff.1 hp)
  have ho' : DataIndex.Spec.Sorts n (cellNumber (dims (cols.map LatCol.col)) masked) order := by
    refine ⟨ho.1, ?_⟩
    have hs := ho.2
    have e : order.map (cellNumber (latDims cols) masked) = order.map (cellNumber (dims (cols.map LatCol.col)) masked) :=
      List.map_congr_left (fun p hp => cellNumber_lat cols masked p (fun c hc hl => hoff c hc hl p (hlt p hp)))
    rw [← e]
    exact hs
  rw [c40_clip_same k cols masked vals n hn order hlt hoff]
  refine aggregate_cells k hk _ (by simpa using hne) ?_ masked vals n hn order ho'
  intro c hc
  obtain ⟨c', hc', rfl⟩ := List.mem_map.1 hc
  exact hok c' hc'

open Classical in
/-- **C40**, latitudes: off the north pole the aggregation with the cut conserves points and sums. -/
theorem c40_clip_conserves (w : ℚ → ℚ) (cols : List LatCol) (hne : cols ≠ []) (hok : ∀ c ∈ cols, Spec.Req.Ok c.col.req)
    (masked : Nat → Bool) (vals : Nat → ℚ) (n : Nat) (hn : 0 < n) (order : List Nat) (hoff : Spec.OffPole cols n)
    (ho : DataIndex.Spec.Sorts n (cellNumber (latDims cols) masked) order) (shape : List Nat)
    (hs : List.Forall₂ (fun (c : LatCol) m => Spec.IsCount c.col.req m) cols shape) :
    ∃ out, aggregateLat (fun l => if l = [] then none else some ((l.map w).sum)) cols masked vals order = some out ∧
      ((allIdx shape).map (fun cell => (out cell).getD 0)).sum =
        (((List.range n).filter (fun p => !masked p && decide (Spec.inGrid (cols.map LatCol.col) p))).map (fun p => w (vals p))).sum := by
  have hlt : ∀ p ∈ order, p < n := fun p hp => List.mem_range.1 (ho.1.mem_iff.1 hp)
  have ho' : DataIndex.Spec.Sorts n (cellNumber (dims (cols.map LatCol.col)) masked) order := by
    refine ⟨ho.1, ?_⟩
    have e : order.map (cellNumber (latDims cols) masked) = order.map (cellNumber (dims (cols.map LatCol.col)) masked) :=
      List.map_congr_left (fun p hp => cellNumber_lat cols masked p (fun c hc hl => hoff c hc hl p (hlt p hp)))
    rw [← e]
    exact ho.2
  rw [c40_clip_same _ cols masked vals n hn order hlt hoff]
  refine aggregate_conserves w _ (by simpa using hne) ?_ masked vals n hn order ho' shape (by rwa [List.forall₂_map_left_iff])
  intro c hc
  obtain ⟨c', hc', rfl⟩ := List.mem_map.1 hc
  exact hok c' hc'

/-- **C40** is violated at the north pole by the cut: with cells of 40 degrees from -90 the last one reaches from 70 to 110 and is cut at 90, which
is not in it. A point at the pole is in none, although it would be without the cut. -/
theorem c40_clip_violated :
    (makeLatCoord 0 (some (-90, 90, 40))).bounds.getLast? = some (fin 70, fin 90) ∧
    (aggregateLat (fun l => if l = [] then none else some l.length) [⟨true, ⟨some (-90, 90, 40), 0, fun _ => 90⟩⟩] (fun _ => false)
      (fun p => p) [0]).map (fun out => (List.range 5).map (fun i => out [i])) = some [none, none, none, none, none] ∧
    (aggregate (fun l => if l = [] then none else some l.length) [⟨some (-90, 90, 40), 0, fun _ => 90⟩] (fun _ => false)
      (fun p => p) [0]).map (fun out => (List.range 5).map (fun i => out [i])) = some [none, none, none, none, some 1] := by
  decide +kernel

/-- C40: a grid with a centre beyond a pole is not clipped at all: the cells are those of any other coordinate. -/
theorem c40_unclipped (p : List ℚ) (h : ∃ x ∈ p, x < -90 ∨ 90 < x) : guessLatBounds p = guessBounds p := by
  unfold guessLatBounds
  rw [if_neg]
  intro ha
  obtain ⟨x, hx, hb⟩ := h
  have := List.all_eq_true.1 ha x hx
  simp only [Bool.and_eq_true, decide_eq_true_eq] at this
  rcases hb with hb | hb <;> linarith [this.1, this.2]

example : ∃ x ∈ ([70, 110] : List ℚ), x < -90 ∨ 90 < x := ⟨110, by simp, by norm_num⟩

/-- The hypotheses are met by points at 10 and 85 degrees in cells of 40. -/
example : Spec.OffPole [⟨true, ⟨some (-90, 90, 40), 0, fun p => if p = 0 then 10 else 85⟩⟩] 2 ∧
    (aggregateLat (fun l => if l = [] then none else some l.length)
      [⟨true, ⟨some (-90, 90, 40), 0, fun p => if p = 0 then 10 else 85⟩⟩] (fun _ => false)
      (fun p => p) [0, 1]).map (fun out => (List.range 5).map (fun i => out [i])) = some [none, none, some 1, none, some 1] := by
  refine ⟨?_, by decide +kernel⟩
  intro c hc _ p hp
  simp only [List.mem_singleton] at hc
  subst hc
  have : p = 0 ∨ p = 1 := by omega
  rcases this with rfl | rfl <;> norm_num

end Cis.Agg
