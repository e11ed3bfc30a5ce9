import Verif.Lon.Props
set_option linter.unusedSectionVars false
set_option linter.unusedSimpArgs false
/-! Property C23: the longitude range of gridded data. -/
namespace Cis.Lon
open Spec
variable {K : Type} [Field K] [LinearOrder K] [IsStrictOrderedRing K] [FloorRing K]

theorem searchsorted_split (a : List K) (h : a.Pairwise (· < ·)) (v : K) :
    searchsorted a v ≤ a.length ∧ (∀ x ∈ a.take (searchsorted a v), x < v) ∧ ∀ x ∈ a.drop (searchsorted a v), v ≤ x := by
  unfold searchsorted
  induction a with
  | nil => simp
  | cons x t ih =>
    obtain ⟨h1, h2⟩ := List.pairwise_cons.1 h
    obtain ⟨i1, i2, i3⟩ := ih h2
    by_cases hx : x < v
    · rw [List.countP_cons_of_pos (by simpa using hx)]
      refine ⟨by simpa using i1, ?_, by simpa using i3⟩
      intro y hy
      rw [List.take_succ_cons] at hy
      rcases List.mem_cons.1 hy with rfl | hy
      · exact hx
      · exact i2 y hy
    · have hz : (x :: t).countP (fun y => decide (y < v)) = 0 := by
        rw [List.countP_eq_zero]
        intro y hy
        rcases List.mem_cons.1 hy with rfl | hy
        · simpa using hx
        · have := h1 y hy; simp; exact (not_lt.1 hx).trans this.le
      rw [hz]
      refine ⟨by simp, by simp, ?_⟩
      intro y hy
      rcases List.mem_cons.1 (by simpa using hy) with rfl | hy
      · exact not_lt.1 hx
      · exact (not_lt.1 hx).trans (h1 y hy).le

theorem roll_neg {D : Type} (l : List D) (k n : Nat) (hn : l.length = n) (hk : k < n) : roll l (-(k : Int)) = l.drop k ++ l.take k := by
  unfold roll
  rw [← List.rotate_eq_drop_append_take (by omega)]
  congr 1
  rw [neg_neg, hn, Int.emod_eq_of_lt (by omega) (by omega)]; rfl

theorem roll_pos {D : Type} (l : List D) (k n : Nat) (hn : l.length = n) (hk : k < n) : roll l ((n : Int) - k) = l.drop k ++ l.take k := by
  unfold roll
  rw [← List.rotate_eq_drop_append_take (by omega)]
  congr 1
  rw [hn, show -((n : Int) - k) = k - n by ring, Int.sub_emod_right, Int.emod_eq_of_lt (by omega) (by omega)]; rfl

/-- A cell of the grid: point, bounds of the cell and data. -/
abbrev Cell (K D : Type) := K × Option (K × K) × D

/-- The cells of a grid along its longitude dimension. -/
def Grid.cells {D : Type} (g : Grid K D) : List (Cell K D) :=
  g.points.zip ((match g.bounds with | some b => b.map some | none => List.replicate g.points.length none).zip g.slices)

/-- The coordinate, data and bounds arrays have one entry per cell. -/
def Grid.WellFormed {D : Type} (g : Grid K D) : Prop :=
  g.slices.length = g.points.length ∧ ∀ b, g.bounds = some b → b.length = g.points.length

/-- The cell `c'` is the cell `c` with all its longitudes changed by the same multiple of 360 degrees. -/
def SameCell {D : Type} (c' c : Cell K D) : Prop :=
  ∃ k : ℤ, c'.1 = c.1 + 360 * k ∧ c'.2.1 = c.2.1.map (fun b => (b.1 + 360 * (k : K), b.2 + 360 * (k : K))) ∧ c'.2.2 = c.2.2

/-- The cell shifted by `m` turns if `f` holds for its point. -/
def shiftCell {D : Type} (f : K → Bool) (m : ℤ) (c : Cell K D) : Cell K D :=
  if f c.1 then (c.1 + 360 * m, c.2.1.map (fun b => (b.1 + 360 * (m : K), b.2 + 360 * (m : K))), c.2.2) else c

theorem sameCell_shift {D : Type} (f : K → Bool) (m : ℤ) (c : Cell K D) : SameCell (shiftCell f m c) c := by
  unfold shiftCell
  split
  · exact ⟨m, rfl, rfl, rfl⟩
  · refine ⟨0, by simp, ?_, rfl⟩
    cases c.2.1 <;> simp

theorem zip_shift_some {D : Type} (f : K → Bool) (m : ℤ) (P : List K) (B : List (K × K)) (S : List D) :
    (P.map (fun p => if f p then p + 360 * (m : K) else p)).zip
      (((B.zipWith (fun b fl => if fl then (b.1 + 360 * (m : K), b.2 + 360 * (m : K)) else b) (P.map f)).map some).zip S)
    = (P.zip ((B.map some).zip S)).map (shiftCell f m) := by
  induction P generalizing B S with
  | nil => simp
  | cons p P ih =>
    cases B with
    | nil => simp
    | cons b B =>
      cases S with
      | nil => simp
      | cons s S =>
        simp only [List.map_cons, List.zipWith_cons_cons, List.zip_cons_cons, ih]
        congr 1
        unfold shiftCell
        by_cases h : f p <;> simp [h]

theorem zip_shift_none {D : Type} (f : K → Bool) (m : ℤ) (P : List K) (S : List D) (n : Nat) :
    (P.map (fun p => if f p then p + 360 * (m : K) else p)).zip ((List.replicate n (none : Option (K × K))).zip S)
    = (P.zip ((List.replicate n none).zip S)).map (shiftCell f m) := by
  induction P generalizing n S with
  | nil => simp
  | cons p P ih =>
    cases n with
    | zero => simp
    | succ n =>
      cases S with
      | nil => simp
      | cons s S =>
        simp only [List.map_cons, List.replicate_succ, List.zip_cons_cons, ih]
        congr 1
        unfold shiftCell
        by_cases h : f p <;> simp [h]

theorem zip_roll {A B : Type} (a : List A) (b : List B) (k : Nat) (h : a.length = b.length) :
    (a.drop k ++ a.take k).zip (b.drop k ++ b.take k) = (a.zip b).drop k ++ (a.zip b).take k := by
  rw [List.zip_append (by simp [h])]
  simp [List.zip, List.drop_zipWith, List.take_zipWith]

theorem cells_shift {D : Type} (g : Grid K D) (hw : g.WellFormed) (f : K → Bool) (m : ℤ) (k : Nat) (hk : k ≤ g.points.length)
    (g' : Grid K D)
    (hp : g'.points = (g.points.drop k ++ g.points.take k).map (fun p => if f p then p + 360 * (m : K) else p))
    (hb : g'.bounds = g.bounds.map (fun b => (b.drop k ++ b.take k).zipWith
      (fun b fl => if fl then (b.1 + 360 * (m : K), b.2 + 360 * (m : K)) else b) ((g.points.drop k ++ g.points.take k).map f)))
    (hs : g'.slices = g.slices.drop k ++ g.slices.take k) :
    List.Forall₂ SameCell g'.cells (g.cells.rotate k) := by
  have key : g'.cells = (g.cells.rotate k).map (shiftCell f m) := by
    obtain ⟨h1, h2⟩ := hw
    unfold Grid.cells
    rw [hp, hb, hs]
    cases hgb : g.bounds with
    | none =>
      simp only [Option.map_none]
      rw [List.length_map, zip_shift_none, List.rotate_eq_drop_append_take (by simp [h1]; omega)]
      congr 1
      have : List.replicate (g.points.drop k ++ g.points.take k).length (none : Option (K × K))
          = (List.replicate g.points.length none).drop k ++ (List.replicate g.points.length none).take k := by
        simp only [List.drop_replicate, List.take_replicate, List.replicate_append_replicate, List.length_append,
          List.length_drop, List.length_take]
      rw [this, zip_roll _ _ _ (by simp [h1]), zip_roll _ _ _ (by simp [h1])]
    | some b =>
      have h3 := h2 b hgb
      simp only [Option.map_some]
      rw [zip_shift_some, List.rotate_eq_drop_append_take (by simp [h1, h3]; omega)]
      congr 1
      rw [List.map_append, List.map_drop, List.map_take, zip_roll _ _ _ (by simp [h1, h3]), zip_roll _ _ _ (by simp [h1, h3])]
  rw [key, List.forall₂_map_left_iff, List.forall₂_same]
  exact fun c _ => sameCell_shift f m c

theorem head_mem_drop (a : List K) (k : Nat) (h : k < a.length) : a[k] ∈ a.drop k :=
  List.mem_drop_iff_getElem.2 ⟨0, by omega, by simp⟩

/-- C23, when at least one point is not below the range and at least one is not above it (the other case is
`c23_range_violated`): the longitudes are increasing and in range, and the cells (longitude, bounds and data) are those of
the input, rotated, each moved by a multiple of 360 degrees. -/
theorem c23_gridded_range {D : Type} (g : Grid K D) (hw : g.WellFormed) (s : K)
    (hinc : g.points.Pairwise (· < ·)) (hspan : ∀ a ∈ g.points, ∀ b ∈ g.points, b - a < 360)
    (hlow : ∃ p ∈ g.points, s ≤ p) (hhigh : ∃ p ∈ g.points, p < s + 360) :
    (griddedSetRange g s).points.Pairwise (· < ·) ∧ (∀ p ∈ (griddedSetRange g s).points, InRange s p) ∧
      ∃ k, List.Forall₂ SameCell (griddedSetRange g s).cells (g.cells.rotate k) := by
  obtain ⟨a1, a2, a3⟩ := searchsorted_split g.points hinc s
  obtain ⟨b1, b2, b3⟩ := searchsorted_split g.points hinc (s + 360)
  have hsplit : ∀ k, (g.points.take k ++ g.points.drop k).Pairwise (· < ·) := by
    intro k; rw [List.take_append_drop]; exact hinc
  have memt : ∀ k x, x ∈ g.points.take k → x ∈ g.points := fun k x h => List.mem_of_mem_take h
  have memd : ∀ k x, x ∈ g.points.drop k → x ∈ g.points := fun k x h => List.mem_of_mem_drop h
  unfold griddedSetRange
  simp only
  split
  · rename_i h
    set k := searchsorted g.points s with hk
    have hmem : g.points[k]'h.2 ∈ g.points.drop k := by
      exact head_mem_drop _ _ _
    have ht : ∀ x ∈ g.points.take k, x < g.points[k]'h.2 := fun x hx => lt_of_lt_of_le (a2 x hx) (a3 _ hmem)
    have hd : ∀ x ∈ g.points.drop k, ¬ x < g.points[k]'h.2 := by
      intro x hx
      have hp := (List.pairwise_append.1 (hsplit k)).2.1
      rw [List.drop_eq_getElem_cons h.2] at hx hp
      rcases List.mem_cons.1 hx with rfl | hx
      · exact lt_irrefl _
      · exact not_lt.2 ((List.pairwise_cons.1 hp).1 x hx).le
    have hpts : (roll g.points (-(k : Int))).map (fun p => if p < g.points[k]'h.2 then p + 360 else p)
        = g.points.drop k ++ (g.points.take k).map (· + 360) := by
      rw [roll_neg _ k _ rfl h.2, List.map_append]
      congr 1
      · conv_rhs => rw [← List.map_id (g.points.drop k)]
        apply List.map_congr_left
        intro x hx; rw [if_neg (hd x hx)]; rfl
      · apply List.map_congr_left
        intro x hx; rw [if_pos (ht x hx)]
    refine ⟨?_, ?_, k, ?_⟩
    · rw [hpts, List.pairwise_append]
      obtain ⟨p1, p2, p3⟩ := List.pairwise_append.1 (hsplit k)
      refine ⟨p2, ?_, ?_⟩
      · rw [List.pairwise_map]; exact p1.imp (fun h => by linarith)
      · intro x hx y hy
        obtain ⟨z, hz, rfl⟩ := List.mem_map.1 hy
        have := hspan z (memt k z hz) x (memd k x hx); linarith
    · rw [hpts]
      intro p hp
      rcases List.mem_append.1 hp with hp | hp
      · refine ⟨a3 p hp, ?_⟩
        have h0 : g.points[0]'(by omega) ∈ g.points.take k := by
          rw [List.mem_take_iff_getElem]; exact ⟨0, by omega, rfl⟩
        have := a2 _ h0
        have := hspan _ (memt k _ h0) p (memd k p hp)
        linarith
      · obtain ⟨z, hz, rfl⟩ := List.mem_map.1 hp
        refine ⟨?_, by have := a2 z hz; linarith⟩
        have := hspan z (memt k z hz) _ (memd k _ hmem)
        have := a3 _ hmem
        linarith
    · apply cells_shift g hw (fun p => decide (p < g.points[k]'h.2)) 1 k h.2.le
      · change List.map _ (roll g.points (-(k : Int))) = _
        rw [roll_neg _ k _ rfl h.2]; simp only [decide_eq_true_eq, Int.cast_one, mul_one]; rfl
      · cases hgb : g.bounds with
        | none => rfl
        | some b =>
          change some (List.zipWith _ (roll b (-(k : Int))) (List.map _ (roll g.points (-(k : Int))))) = some _
          rw [roll_neg g.points k _ rfl h.2, roll_neg b k _ (hw.2 b hgb) h.2]; simp only [Int.cast_one, mul_one]; rfl
      · exact roll_neg _ k _ hw.1 h.2
  · rename_i h1
    split
    · rename_i h
      set k := searchsorted g.points (s + 360) with hk
      have hmem : g.points[k]'h.2 ∈ g.points.drop k := by
        exact head_mem_drop _ _ _
      have hall : ∀ p ∈ g.points, s ≤ p := by
        by_cases h0 : searchsorted g.points s = 0
        · intro p hp
          rw [h0] at a3; exact a3 p (by simpa using hp)
        · exfalso
          obtain ⟨p, hp, hsp⟩ := hlow
          have : searchsorted g.points s = g.points.length := by omega
          rw [this, List.take_length] at a2
          exact absurd (a2 p hp) (not_lt.2 hsp)
      have ht : ∀ x ∈ g.points.take k, ¬ x ≥ g.points[k]'h.2 := fun x hx => not_le.2 (lt_of_lt_of_le (b2 x hx) (b3 _ hmem))
      have hd : ∀ x ∈ g.points.drop k, x ≥ g.points[k]'h.2 := by
        intro x hx
        have hp := (List.pairwise_append.1 (hsplit k)).2.1
        rw [List.drop_eq_getElem_cons h.2] at hx hp
        rcases List.mem_cons.1 hx with rfl | hx
        · exact le_refl _
        · exact ((List.pairwise_cons.1 hp).1 x hx).le
      have hpts : (roll g.points ((g.points.length : Int) - k)).map (fun p => if p ≥ g.points[k]'h.2 then p - 360 else p)
          = (g.points.drop k).map (· - 360) ++ g.points.take k := by
        rw [roll_pos _ k _ rfl h.2, List.map_append]
        congr 1
        · apply List.map_congr_left
          intro x hx; rw [if_pos (hd x hx)]
        · conv_rhs => rw [← List.map_id (g.points.take k)]
          apply List.map_congr_left
          intro x hx; rw [if_neg (ht x hx)]; rfl
      have h0 : g.points[0]'(by omega) ∈ g.points := List.getElem_mem _
      refine ⟨?_, ?_, k, ?_⟩
      · rw [hpts, List.pairwise_append]
        obtain ⟨p1, p2, p3⟩ := List.pairwise_append.1 (hsplit k)
        refine ⟨?_, p1, ?_⟩
        · rw [List.pairwise_map]; exact p2.imp (fun h => by linarith)
        · intro y hy x hx
          obtain ⟨z, hz, rfl⟩ := List.mem_map.1 hy
          have := hspan x (memt k x hx) z (memd k z hz); linarith
      · rw [hpts]
        intro p hp
        rcases List.mem_append.1 hp with hp | hp
        · obtain ⟨z, hz, rfl⟩ := List.mem_map.1 hp
          have q1 := b3 z hz
          obtain ⟨w, hw1, hw2⟩ := hhigh
          have := hspan w hw1 z (memd k z hz)
          exact ⟨by linarith, by linarith⟩
        · exact ⟨hall p (memt k p hp), b2 p hp⟩
      · apply cells_shift g hw (fun p => decide (p ≥ g.points[k]'h.2)) (-1) k h.2.le
        · change List.map _ (roll g.points ((g.points.length : Int) - k)) = _
          rw [roll_pos _ k _ rfl h.2]
          simp only [decide_eq_true_eq, Int.cast_neg, Int.cast_one, mul_neg, mul_one, sub_eq_add_neg]; rfl
        · cases hgb : g.bounds with
          | none => rfl
          | some b =>
            change some (List.zipWith _ (roll b ((g.points.length : Int) - k))
              (List.map _ (roll g.points ((g.points.length : Int) - k)))) = some _
            rw [roll_pos g.points k _ rfl h.2, roll_pos b k _ (hw.2 b hgb) h.2]
            simp only [Int.cast_neg, Int.cast_one, mul_neg, mul_one, sub_eq_add_neg]; rfl
        · exact roll_pos _ k _ hw.1 h.2
    · rename_i h2
      refine ⟨hinc, ?_, 0, ?_⟩
      · intro p hp
        obtain ⟨q, hq, hsq⟩ := hlow
        obtain ⟨r, hr, hsr⟩ := hhigh
        have h0 : searchsorted g.points s = 0 := by
          by_contra h0
          have : searchsorted g.points s = g.points.length := by omega
          rw [this, List.take_length] at a2
          exact absurd (a2 q hq) (not_lt.2 hsq)
        have hn : searchsorted g.points (s + 360) = g.points.length := by
          by_contra hn
          have : searchsorted g.points (s + 360) = 0 := by omega
          rw [this] at b3
          exact absurd (b3 r (by simpa using hr)) (not_le.2 hsr)
        rw [h0] at a3
        rw [hn, List.take_length] at b2
        exact ⟨a3 p (by simpa using hp), b2 p hp⟩
      · rw [List.rotate_zero, List.forall₂_same]
        intro c _
        refine ⟨0, by simp, ?_, rfl⟩
        cases c.2.1 <;> simp

/-- C23 is violated when every point is below the requested range (a regional grid at 10 to 20 degrees west, converted to
longitudes 0 to 360): nothing happens. -/
theorem c23_range_violated : ∃ (g : Grid ℚ Unit), g.WellFormed ∧ g.points.Pairwise (· < ·) ∧
    (∀ a ∈ g.points, ∀ b ∈ g.points, b - a < 360) ∧ (∀ p ∈ g.points, Near 0 p) ∧
    ¬ ∀ p ∈ (griddedSetRange g 0).points, InRange 0 p := by
  refine ⟨⟨[-20, -10], none, [(), ()]⟩, ⟨rfl, by simp⟩, by decide +kernel, by decide +kernel,
    by unfold Near; decide +kernel, ?_⟩
  unfold InRange
  decide +kernel

/-- A grid from -180 to 90 with bounds is rotated to 0 to 270. -/
example : (griddedSetRange (⟨[-180, -90, 0, 90], some [(-225, -135), (-135, -45), (-45, 45), (45, 135)], [1, 2, 3, 4]⟩ : Grid ℚ Nat) 0).cells
    = [(0, some (-45, 45), 3), (90, some (45, 135), 4), (180, some (135, 225), 1), (270, some (225, 315), 2)] := by
  decide +kernel

example : let g : Grid ℚ Nat := ⟨[-180, -90, 0, 90], some [(-225, -135), (-135, -45), (-45, 45), (45, 135)], [1, 2, 3, 4]⟩
    g.WellFormed ∧ g.points.Pairwise (· < ·) ∧ (∀ a ∈ g.points, ∀ b ∈ g.points, b - a < 360) ∧ (∃ p ∈ g.points, 0 ≤ p) ∧
      ∃ p ∈ g.points, p < 0 + 360 := by
  refine ⟨⟨rfl, ?_⟩, by decide +kernel, by decide +kernel, by decide +kernel, by decide +kernel⟩
  intro b hb; simp at hb; subst hb; rfl

/-! ### Auxiliary coordinates with bounds -/

/-- The shift of the longitude dimension (gridded_data.py:211-236). -/
def rangeShift (points : List K) (rangeStart : K) : Int :=
  let n := points.length
  let idx1 := searchsorted points rangeStart
  let idx2 := searchsorted points (rangeStart + 360)
  if 0 < idx1 ∧ idx1 < n then -(idx1 : Int) else if 0 < idx2 ∧ idx2 < n then (n : Int) - idx2 else 0

/-- An auxiliary coordinate along longitude after `set_longitude_range` (gridded_data.py:237-247): points and bounds. The points
are rolled, the bounds are not touched. -/
def auxSetRange {P B : Type} (points : List K) (rangeStart : K) (aux : List P × Option (List B)) : List P × Option (List B) :=
  let shift := rangeShift points rangeStart
  if shift ≠ 0 then (roll aux.1 shift, aux.2) else aux

/-- The slices of the data are rolled by the same shift. -/
theorem slices_shift {D : Type} (g : Grid K D) (s : K) : (griddedSetRange g s).slices = if rangeShift g.points s ≠ 0 then roll g.slices (rangeShift g.points s) else g.slices := by
  unfold griddedSetRange rangeShift
  simp only
  split
  · rename_i h
    rw [if_pos]
    omega
  · rename_i h
    split
    · rename_i h2
      rw [if_pos]
      omega
    · rename_i h2
      rw [if_neg (by simp)]

/-- C23: the points of auxiliary coordinates along longitude stay with their data: pairs of data and point are rolled together. -/
theorem c23_aux_points {P D B : Type} (g : Grid K D) (s : K) (aux : List P) (b : Option (List B)) (h : aux.length = g.slices.length) :
    (griddedSetRange g s).slices.zip (auxSetRange g.points s (aux, b)).1 =
      (griddedSetRange { g with slices := g.slices.zip aux } s).slices := by
  rw [slices_shift, slices_shift]
  unfold auxSetRange
  simp only
  split
  · unfold roll
    have hz : (g.slices.zip aux).length = g.slices.length := by simp [h]
    rw [hz, h]
    generalize ((-rangeShift g.points s) % (g.slices.length : Int)).toNat = k
    exact (List.zipWith_rotate_distrib Prod.mk g.slices aux k h.symm).symm
  · rfl

/-- C23 is violated for the bounds of auxiliary coordinates along longitude: they stay where they were. -/
theorem c23_aux_bounds_violated : ∃ (points : List ℚ) (aux : List ℚ × Option (List (ℚ × ℚ))),
    points.Pairwise (· < ·) ∧ (∃ b, aux.2 = some b ∧ List.Forall₂ (fun p (x : ℚ × ℚ) => x.1 ≤ p ∧ p ≤ x.2) aux.1 b) ∧
    ∃ b, (auxSetRange points 0 aux).2 = some b ∧ ¬ List.Forall₂ (fun p (x : ℚ × ℚ) => x.1 ≤ p ∧ p ≤ x.2) (auxSetRange points 0 aux).1 b := by
  refine ⟨[-90, 0, 90, 180], ([1, 2, 3, 4], some [(1/2, 3/2), (3/2, 5/2), (5/2, 7/2), (7/2, 9/2)]), by decide +kernel, ⟨_, rfl, ?_⟩, _, rfl, ?_⟩
  · simp; norm_num
  · have : (auxSetRange ([-90, 0, 90, 180] : List ℚ) 0 (([1, 2, 3, 4] : List ℚ), some ([(1/2, 3/2), (3/2, 5/2), (5/2, 7/2), (7/2, 9/2)] : List (ℚ × ℚ)))).1 = [2, 3, 4, 1] := by
      decide +kernel
    rw [this]
    simp; norm_num

end Cis.Lon
