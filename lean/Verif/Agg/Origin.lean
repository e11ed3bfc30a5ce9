import Verif.Agg.Units
set_option linter.unusedSectionVars false
set_option linter.unusedSimpArgs false
/-!
Property C205 for aggregation and for collocation onto a grid with `bin`: only the order of the coordinates matters to which cell a
point falls in, so that changing the origin and units of a coordinate together with the grid changes nothing but the coordinates of the
result. The models are those of `DataIndex/Model.lean` (grid_utils.py, data_index.py) and `Agg/Model.lean`
(ungridded_aggregator.py:11-55, 75-180, col_implementations.py:774-900).
-/
namespace Cis.DataIndex
variable {K L : Type} [LinearOrder K] [LinearOrder L]

/-- A grid coordinate in other units. -/
def Spec.recoord (f : K → L) (c : Coord K) : Coord L := ⟨c.points.map f, c.bounds.map (fun b => (f b.1, f b.2))⟩

/-- A dimension, with the coordinate of the data, in other units. -/
def Spec.redim (f : K → L) (d : Dim K) : Dim L := (Spec.recoord f d.1, fun p => f (d.2 p))

theorem recoord_decreasing (f : K → L) (hf : StrictMono f) (c : Coord K) : (Spec.recoord f c).decreasing = c.decreasing := by
  unfold Coord.decreasing Spec.recoord
  match c.points with
  | [] => rfl
  | [_] => rfl
  | p0 :: p1 :: _ => simp [hf.lt_iff_lt]

theorem recoord_lower (f : K → L) (hf : StrictMono f) (c : Coord K) : (Spec.recoord f c).lower = c.lower.map f := by
  unfold Coord.lower
  rw [recoord_decreasing f hf]
  unfold Spec.recoord
  split <;> simp [Function.comp_def]

theorem recoord_max (f : K → L) (hf : StrictMono f) (c : Coord K) : (Spec.recoord f c).maxBound = c.maxBound.map f := by
  unfold Coord.maxBound
  rw [recoord_decreasing f hf]
  unfold Spec.recoord
  split <;> simp [Function.comp_def]

theorem searchsorted_map (f : K → L) (hf : StrictMono f) (a : List K) (v : K) : searchsortedRight (a.map f) (f v) = searchsortedRight a v := by
  unfold searchsortedRight
  rw [List.takeWhile_map, List.length_map]
  congr 2
  funext b
  simp [hf.le_iff_le]

theorem recoord_rawIndex (f : K → L) (hf : StrictMono f) (c : Coord K) (v : K) : rawIndex (Spec.recoord f c) (f v) = rawIndex c v := by
  unfold rawIndex
  rw [recoord_max f hf, recoord_lower f hf, searchsorted_map f hf]
  cases c.maxBound with
  | none => rfl
  | some m => simp [hf.lt_iff_lt]

theorem recoord_fixIndex (f : K → L) (hf : StrictMono f) (c : Coord K) (i : Int) : fixIndex (Spec.recoord f c) i = fixIndex c i := by
  unfold fixIndex
  rw [recoord_decreasing f hf]
  simp [Spec.recoord]

/-- Two dimensions that are the same but for the units. -/
def Same (d : Dim K) (d' : Dim L) : Prop :=
  (∀ p, rawIndex d'.1 (d'.2 p) = rawIndex d.1 (d.2 p)) ∧ (∀ i, fixIndex d'.1 i = fixIndex d.1 i) ∧ d'.1.lower.length = d.1.lower.length

theorem same_redim (f : K → L) (hf : StrictMono f) (d : Dim K) : Same d (Spec.redim f d) :=
  ⟨fun p => recoord_rawIndex f hf d.1 _, fun i => recoord_fixIndex f hf d.1 i, by
    show (Spec.recoord f d.1).lower.length = _
    rw [recoord_lower f hf]; simp⟩

theorem same_slices {ds : List (Dim K)} {ds' : List (Dim L)} (h : List.Forall₂ Same ds ds') (masked : Nat → Bool) (order : List Nat) :
    sliceIterator ds' masked order = sliceIterator ds masked order := by
  have h1 : gridMask ds' masked = gridMask ds masked := by
    funext p
    unfold gridMask
    induction h with
    | nil => rfl
    | cons a _ ih => rw [List.all_cons, List.all_cons, ih, a.1 p]
  have h2 : indexColumn ds' = indexColumn ds := by
    funext p
    unfold indexColumn
    clear h1
    induction h with
    | nil => rfl
    | cons a _ ih => rw [List.map_cons, List.map_cons, ih, a.1 p, a.2.1]
  have h3 : gridShape ds' = gridShape ds := by
    unfold gridShape
    clear h1 h2
    induction h with
    | nil => rfl
    | cons a _ ih => rw [List.map_cons, List.map_cons, ih, a.2.2]
  have h4 : cellNumber ds' masked = cellNumber ds masked := by
    funext p
    unfold cellNumber
    rw [h1, h2, h3]
  unfold sliceIterator
  rw [h4, h2]

end Cis.DataIndex

namespace Cis.Agg
open DataIndex

/-- **C205**. Collocating onto a grid with `bin`: if each dimension of the grid and the coordinate of the data along it are put through
a strictly increasing change, every cell gets the value it got before. -/
theorem c205_bin {K L : Type} [LinearOrder K] [LinearOrder L] {β : Type} (kernel : List ℚ → Option β)
    (ds : List ((K → L) × Dim K)) (hf : ∀ d ∈ ds, StrictMono d.1) (masked : Nat → Bool) (vals : Nat → ℚ) (order : List Nat)
    (sampleMissing : List Nat → Bool) :
    binOnto kernel (ds.map (fun d => Spec.redim d.1 d.2)) masked vals order sampleMissing =
      binOnto kernel (ds.map (fun d => d.2)) masked vals order sampleMissing := by
  unfold binOnto
  rw [same_slices (ds := ds.map (fun d => d.2)) (ds' := ds.map (fun d => Spec.redim d.1 d.2))]
  induction ds with
  | nil => exact .nil
  | cons x t ih => exact .cons (same_redim x.1 (hf x (by simp)) x.2) (ih (fun d hd => hf d (by simp [hd])))

/-- A change of origin and units of one coordinate: `x ↦ scale x + shift`. -/
structure Spec.Units where
  scale : ℚ
  shift : ℚ

/-- A coordinate value in the changed units. -/
def Spec.Units.at (u : Spec.Units) (x : ℚ) : ℚ := u.scale * x + u.shift

/-- A column of the data and the grid requested along it, in the changed units: limits are places, the step is a length. -/
def Spec.Units.col (u : Spec.Units) (c : Col) : Col :=
  ⟨c.req.map (fun r => (u.at r.1, u.at r.2.1, u.scale * r.2.2)), u.at c.centre, fun p => u.at (c.val p)⟩

theorem gridArray_units (u : Spec.Units) (hu : 0 < u.scale) (s e d : ℚ) :
    gridArray (u.at s) (u.at e) (u.scale * d) = (gridArray s e d).map u.at := by
  unfold gridArray arange
  rw [List.map_map]
  have h1 : (u.at e + u.scale * d / 2 - (u.at s + u.scale * d / 2)) / (u.scale * d) = (e + d / 2 - (s + d / 2)) / d := by
    unfold Spec.Units.at
    have : u.scale * e + u.shift + u.scale * d / 2 - (u.scale * s + u.shift + u.scale * d / 2) = u.scale * (e + d / 2 - (s + d / 2)) := by ring
    rw [this, mul_div_mul_left _ _ hu.ne']
  rw [h1]
  apply List.map_congr_left
  intro i _
  simp only [Function.comp, Spec.Units.at]
  ring

theorem guessBounds_units (u : Spec.Units) (p : List ℚ) :
    guessBounds (p.map u.at) = (guessBounds p).map (fun b => (u.at b.1, u.at b.2)) := by
  have hd : List.zipWith (fun b a => b - a) (p.map u.at).tail (p.map u.at) =
      (List.zipWith (fun b a : ℚ => b - a) p.tail p).map (fun x => u.scale * x) := by
    rw [← List.map_tail, List.zipWith_map, List.map_zipWith]
    congr 1
    funext a b
    unfold Spec.Units.at; ring
  unfold guessBounds
  simp only [hd]
  generalize List.zipWith (fun b a : ℚ => b - a) p.tail p = d
  have h0 : (d.map (fun x => u.scale * x)).headD 0 :: d.map (fun x => u.scale * x) ++ [(d.map (fun x => u.scale * x)).getLastD 0] =
      (d.headD 0 :: d ++ [d.getLastD 0]).map (fun x => u.scale * x) := by
    have a1 : (d.map (fun x => u.scale * x)).headD 0 = u.scale * d.headD 0 := by cases d <;> simp
    have a2 : (d.map (fun x => u.scale * x)).getLastD 0 = u.scale * d.getLastD 0 := by
      rw [List.getLastD_eq_getLast?, List.getLastD_eq_getLast?, List.getLast?_map]
      cases d.getLast? <;> simp
    rw [a1, a2]; simp
  rw [h0, ← List.map_tail, List.zip_map, List.zipWith_map, List.map_zipWith]
  congr 1
  funext x ab
  unfold Spec.Units.at
  simp only [Prod.map, Prod.mk.injEq]
  constructor <;> ring

theorem partialBounds_units (u : Spec.Units) (hu : 0 < u.scale) (s e d : ℚ) :
    partialBounds (u.at s) (u.at e) (u.scale * d) = (partialBounds s e d).map (fun b => (u.at b.1, u.at b.2)) := by
  unfold partialBounds
  rw [gridArray_units u hu, List.length_map, guessBounds_units]
  split <;> rfl

/-- The change of a coordinate, with infinite bounds left alone. -/
def extAt (u : Spec.Units) : Ext → Ext := WithBot.map (WithTop.map u.at)

theorem extAt_fin (u : Spec.Units) (x : ℚ) : extAt u (fin x) = fin (u.at x) := rfl

theorem at_strictMono (u : Spec.Units) (hu : 0 < u.scale) : StrictMono u.at := by
  intro x y h
  unfold Spec.Units.at
  have := mul_lt_mul_of_pos_left h hu
  linarith

theorem extAt_strictMono (u : Spec.Units) (hu : 0 < u.scale) : StrictMono (extAt u) :=
  (WithBot.strictMono_map_iff).2 ((WithTop.strictMono_map_iff).2 (at_strictMono u hu))

theorem makeCoord_units (u : Spec.Units) (hu : 0 < u.scale) (c : Col) :
    makeCoord (u.col c).centre (u.col c).req = DataIndex.Spec.recoord (extAt u) (makeCoord c.centre c.req) := by
  unfold Spec.Units.col DataIndex.Spec.recoord
  cases h : c.req with
  | none => rfl
  | some r =>
    obtain ⟨s, e, d⟩ := r
    simp only [Option.map_some, makeCoord, gridArray_units u hu, partialBounds_units u hu, List.map_map]
    rfl

/-- **C205**. Aggregating with the coordinates of the data and the requested grid in other units, whatever the change along each
coordinate, puts the same points into the same cells and gives every cell the value it had. -/
theorem c205_aggregate {β : Type} (kernel : List ℚ → Option β) (cols : List (Spec.Units × Col)) (hu : ∀ c ∈ cols, 0 < c.1.scale)
    (masked : Nat → Bool) (vals : Nat → ℚ) (order : List Nat) :
    aggregate kernel (cols.map (fun c => c.1.col c.2)) masked vals order = aggregate kernel (cols.map (fun c => c.2)) masked vals order := by
  unfold aggregate dims
  rw [same_slices (ds := (cols.map (fun c => c.2)).map (fun c => (makeCoord c.centre c.req, fun p => fin (c.val p))))
    (ds' := (cols.map (fun c => c.1.col c.2)).map (fun c => (makeCoord c.centre c.req, fun p => fin (c.val p))))]
  induction cols with
  | nil => exact .nil
  | cons x t ih =>
    refine .cons ?_ (ih (fun c hc => hu c (by simp [hc])))
    have h := same_redim (extAt x.1) (extAt_strictMono x.1 (hu x (by simp)))
      (makeCoord x.2.centre x.2.req, fun p => fin (x.2.val p))
    have e : ((makeCoord (x.1.col x.2).centre (x.1.col x.2).req, fun p => fin ((x.1.col x.2).val p)) : Dim Ext) =
        DataIndex.Spec.redim (extAt x.1) (makeCoord x.2.centre x.2.req, fun p => fin (x.2.val p)) := by
      rw [makeCoord_units x.1 (hu x (by simp))]; rfl
    rw [← e] at h
    exact h

/-- **C205**. The points and bounds of a grid requested in other units are those of the grid, in the other units: there are as many
cells, in the same order. -/
theorem c205_grid (u : Spec.Units) (hu : 0 < u.scale) (s e d centre : ℚ) :
    makeCoord (u.at centre) (some (u.at s, u.at e, u.scale * d)) =
      ⟨((gridArray s e d).map u.at).map fin, ((partialBounds s e d).map (fun b => (u.at b.1, u.at b.2))).map (fun b => (fin b.1, fin b.2))⟩ := by
  simp only [makeCoord, gridArray_units u hu, partialBounds_units u hu]

/-- Degrees Celsius to Fahrenheit: a grid of two cells along one coordinate, two points, one in each cell. -/
example : aggregate (fun l => some l.sum) [(⟨9 / 5, 32⟩ : Spec.Units).col ⟨some (0, 20, 10), 10, fun p => if p = 0 then 5 else 15⟩] (fun _ => false)
      (fun p => if p = 0 then 7 else 8) [0, 1] =
    aggregate (fun l => some l.sum) [⟨some (0, 20, 10), 10, fun p => if p = 0 then 5 else 15⟩] (fun _ => false)
      (fun p => if p = 0 then 7 else 8) [0, 1] ∧
    (aggregate (fun l => some l.sum) [⟨some (0, 20, 10), 10, fun p => if p = 0 then 5 else 15⟩] (fun _ => false)
      (fun p => if p = 0 then 7 else 8) [0, 1]).map (fun out => (out [0], out [1])) = some (some 7, some 8) := by
  refine ⟨c205_aggregate (fun l => some l.sum) [(⟨9 / 5, 32⟩, ⟨some (0, 20, 10), 10, fun p => if p = 0 then 5 else 15⟩)] (by simp) _ _ _, ?_⟩
  decide +kernel

end Cis.Agg
