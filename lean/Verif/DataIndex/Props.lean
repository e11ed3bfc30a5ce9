import Verif.DataIndex.Slices
set_option linter.unusedSectionVars false
set_option linter.unusedSimpArgs false
/-! Properties C04 and C05: binning of data points by grid cell. -/
namespace Cis.DataIndex
variable {K : Type} [LinearOrder K]

/-- C04, for increasing coordinates: the slices are a correct partition, for every outcome of the (unstable) sort. Missing:
decreasing coordinates (the property is false for them, see `c04_decreasing_violated`) and the empty data set
(`c04_empty_violated`). -/
theorem c04_slices_increasing (dims : List (Dim K)) (hne : dims ≠ [])
    (hm : ∀ d ∈ dims, Spec.Monotonic d.1) (hc : ∀ d ∈ dims, Spec.Contiguous d.1)
    (hinc : ∀ d ∈ dims, d.1.decreasing = false) (masked : Nat → Bool) (n : Nat) (hn : 0 < n) (order : List Nat)
    (ho : Spec.Sorts n (cellNumber dims masked) order) :
    ∃ slices, sliceIterator dims masked order = some slices ∧
      Spec.Partition n masked (Spec.InCell dims) slices := by
  have : FoundCell dims = Spec.InCell dims := by
    funext idx p
    unfold FoundCell Spec.InCell
    apply propext
    clear ho hn hne hm hc
    induction dims generalizing idx with
    | nil => cases idx <;> simp
    | cons d t ih =>
      cases idx with
      | nil => simp
      | cons i idx =>
        simp only [List.forall₂_cons]
        rw [ih (fun d hd => hinc d (by simp [hd]))]
        simp [Found, hinc d (by simp)]
  rw [← this]
  exact sliceIterator_spec hne hm hc masked n hn order ho

/-- C04, in any direction: what the slices are exactly. They partition the unmasked points lying in a cell that is not the
first cell of a decreasing coordinate. -/
theorem c04_slices_any_direction_partial (dims : List (Dim K)) (hne : dims ≠ [])
    (hm : ∀ d ∈ dims, Spec.Monotonic d.1) (hc : ∀ d ∈ dims, Spec.Contiguous d.1)
    (masked : Nat → Bool) (n : Nat) (hn : 0 < n) (order : List Nat)
    (ho : Spec.Sorts n (cellNumber dims masked) order) :
    ∃ slices, sliceIterator dims masked order = some slices ∧
      Spec.Partition n masked (fun idx p => List.Forall₂
        (fun d i => Spec.InInterval d.1 i (d.2 p) ∧ (d.1.decreasing = true → i ≠ 0)) dims idx) slices :=
  sliceIterator_spec hne hm hc masked n hn order ho

/-- Cells `[1, 2)` and `[0, 1)` of a decreasing coordinate. -/
def decCoord : Coord Int := { points := [15, 5], bounds := [(20, 10), (10, 0)] }

theorem decCoord_monotonic : Spec.Monotonic decCoord :=
  { size := rfl, pos := by decide, inc := by decide, dec := by decide }

theorem decCoord_contiguous : Spec.Contiguous decCoord := by
  intro i a b ha hb
  match i with
  | 0 => simp [decCoord] at ha hb; rw [← ha, ← hb]
  | i + 1 => simp [decCoord] at hb

/-- C04 is violated for decreasing coordinates: a single unmasked point inside the first cell is in no slice. -/
theorem c04_decreasing_violated : ∃ (dims : List (Dim Int)) (masked : Nat → Bool),
    (∀ d ∈ dims, Spec.Monotonic d.1 ∧ Spec.Contiguous d.1) ∧ masked 0 = false ∧ Spec.InCell dims [0] 0 ∧
    ∀ order, Spec.Sorts 1 (cellNumber dims masked) order → sliceIterator dims masked order = some [] := by
  refine ⟨[(decCoord, fun _ => 12)], fun _ => false, ?_, rfl, ?_, ?_⟩
  · intro d hd; simp at hd; subst hd; exact ⟨decCoord_monotonic, decCoord_contiguous⟩
  · unfold Spec.InCell
    simp only [List.forall₂_cons, List.Forall₂.nil, and_true]
    exact ⟨(20, 10), rfl, by decide, by decide⟩
  · rintro order ⟨hp, -⟩
    have : order = [0] := List.perm_singleton.1 hp
    subst this
    decide

/-- C04 is violated for an empty data set: indexing fails instead of giving no slices. -/
theorem c04_empty_violated (dims : List (Dim K)) (masked : Nat → Bool) (order : List Nat)
    (ho : Spec.Sorts 0 (cellNumber dims masked) order) : sliceIterator dims masked order = none := by
  have : order = [] := by simpa using ho.1
  subst this; rfl

/-- A regular increasing coordinate, to show that the hypotheses can be met. -/
def incCoord : Coord Int := { points := [5, 15, 25], bounds := [(0, 10), (10, 20), (20, 30)] }

example : Spec.Monotonic incCoord ∧ incCoord.decreasing = false ∧
    Spec.Sorts 3 (cellNumber [(incCoord, fun p => [25, 7, 99].getD p 0)] (fun _ => false)) [2, 1, 0] ∧
    sliceIterator [(incCoord, fun p => [25, 7, 99].getD p 0)] (fun _ => false) [2, 1, 0] = some [([0], [1]), ([2], [0])] := by
  refine ⟨⟨rfl, by decide, by decide, by decide⟩, by decide, ⟨by decide, by decide⟩, by decide⟩

/-- C05, for grids with more than one cell in some dimension: the points returned for a cell are, in order, exactly those
the unindexed constraint selects, i.e. the unmasked points within the bounds in every dimension. Missing: grids with a
single cell (see `c05_single_cell_violated`). -/
theorem c05_bin_index (dims : List (Dim K)) (hm : ∀ d ∈ dims, Spec.Monotonic d.1)
    (hmulti : ∃ d ∈ dims, d.1.points.length ≠ 1) (masked : Nat → Bool) (n : Nat) :
    ∃ index, binIndexData dims masked n = .ok index ∧
      ∀ cell : List Nat, cell.length = dims.length →
        index cell = cubeCellConstraint dims masked n cell ∧
        (index cell).Pairwise (· < ·) ∧
        ∀ p, p ∈ index cell ↔ p < n ∧ masked p = false ∧ Spec.InCell dims cell p := by
  obtain ⟨d0, hd0, hd1⟩ := hmulti
  have hnot : ¬ (dims.all (fun d => d.1.points.length == 1)) = true := by
    simp only [List.all_eq_true, beq_iff_eq, not_forall]
    exact ⟨d0, hd0, hd1⟩
  refine ⟨_, by unfold binIndexData; rw [if_neg hnot], ?_⟩
  intro cell hlen
  rw [binIndexData_foldl, List.nil_append]
  have hmem : ∀ p, (p ∈ List.filter (fun p => decide (binCell dims p = some cell))
      ((List.range n).filter (fun p => !masked p)) ↔ p < n ∧ masked p = false ∧ Spec.InCell dims cell p) := by
    intro p
    rw [List.mem_filter, List.mem_filter, decide_eq_true_eq, binCell_iff hm, List.mem_range]
    simp [and_assoc]
  refine ⟨?_, ?_, hmem⟩
  · unfold cubeCellConstraint
    apply List.filter_congr
    intro p _
    rw [Bool.eq_iff_iff, decide_eq_true_eq, binCell_iff hm]
    unfold Spec.InCell
    clear hmem hnot hd0 hm
    induction dims generalizing cell with
    | nil => cases cell <;> simp_all
    | cons d t ih =>
      cases cell with
      | nil => simp at hlen
      | cons i cell =>
        simp only [List.forall₂_cons, List.zip_cons_cons, List.all_cons, Bool.and_eq_true]
        rw [ih cell (by simpa using hlen)]
        apply and_congr_left
        intro _
        unfold Spec.InInterval
        cases hb : d.1.bounds[i]? with
        | none => simp
        | some b => simp
  · exact ((List.pairwise_lt_range (n := n)).filter _).filter _

/-- C05 is violated for single-cell grids: indexing fails with a division by zero although the unindexed constraint works. -/
theorem c05_single_cell_violated (dims : List (Dim K)) (h : ∀ d ∈ dims, d.1.points.length = 1) (masked : Nat → Bool)
    (n : Nat) : binIndexData dims masked n = .error .zeroDivision := by
  unfold binIndexData
  rw [if_pos]
  simpa using h

example : Spec.Monotonic decCoord ∧ Spec.InInterval decCoord 0 12 ∧ decCoord.points.length ≠ 1 ∧
    binIndex decCoord 12 = some 0 :=
  ⟨decCoord_monotonic, ⟨(20, 10), rfl, by decide, by decide⟩, by decide, by decide⟩

end Cis.DataIndex
