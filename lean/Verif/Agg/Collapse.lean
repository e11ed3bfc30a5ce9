import Verif.Agg.Props
import Mathlib.Data.List.Nodup
import Mathlib.Data.List.Perm.Basic
import Mathlib.Data.List.Forall2
import Mathlib.Data.List.Sort
import Mathlib.Tactic.Linarith
set_option linter.unusedSectionVars false
set_option linter.unusedSimpArgs false
/-! Collapsing gridded data (C41); coordinates of the grid of the output (C63). -/
namespace Cis.Agg

/-! ### C41 -/

/-- The dimensions of an `n`-dimensional cube that remain. -/
def Spec.remaining (n : Nat) (collapse : List Nat) : List Nat := (List.range n).filter (fun d => !collapse.contains d)

theorem foldl_sub (d : Nat) (C : List Nat) : ∀ x : Int, C.foldl (fun (n : Int) dc => if d > dc then n - 1 else n) x =
    x - ((C.filter (fun dc => decide (dc < d))).length : Int) := by
  induction C with
  | nil => intro x; simp
  | cons c t ih =>
    intro x
    rw [List.foldl_cons, ih]
    by_cases h : c < d
    · simp [h]; omega
    · simp [h]

theorem remaining_length (d : Nat) (C : List Nat) (hC : C.Nodup) :
    ((Spec.remaining d C).length : Int) = d - ((C.filter (fun dc => decide (dc < d))).length : Int) := by
  have h1 : (C.filter (fun dc => decide (dc < d))).Perm ((List.range d).filter (fun x => C.contains x)) := by
    rw [List.perm_ext_iff_of_nodup (hC.filter _) (List.nodup_range.filter _)]
    intro a
    simp [and_comm]
  have h2 := List.length_eq_length_filter_add (l := List.range d) (fun x => C.contains x)
  rw [h1.length_eq]
  unfold Spec.remaining
  rw [List.length_range] at h2
  omega

theorem remaining_getElem (n : Nat) (C : List Nat) (d : Nat) (hd : d < n) (hC : d ∉ C) :
    (Spec.remaining n C)[(Spec.remaining d C).length]? = some d := by
  induction n with
  | zero => omega
  | succ n ih =>
    have e : Spec.remaining (n + 1) C = Spec.remaining n C ++ [n].filter (fun d => !C.contains d) := by
      unfold Spec.remaining; rw [List.range_succ, List.filter_append]
    rw [e]
    by_cases h : d < n
    · have := ih h
      rw [List.getElem?_append_left (List.getElem?_eq_some_iff.1 this).1]
      exact this
    · obtain rfl : d = n := by omega
      rw [List.getElem?_append_right le_rfl]
      simp [hC]

/-- **C41** (dimensions). When some dimensions of an `n`-dimensional cube are collapsed, every dimension of a coordinate that
remains becomes its position among the remaining dimensions of the cube; the collapsed ones are dropped. -/
theorem collapse_dims (n : Nat) (coordDims collapse : List Nat) (hC : collapse.Nodup) (hd : ∀ d ∈ coordDims, d < n) :
    List.Forall₂ (fun d (k : Int) => ∃ j : Nat, k = j ∧ (Spec.remaining n collapse)[j]? = some d)
      (coordDims.filter (fun d => !collapse.contains d)) (calcNewDims coordDims collapse) := by
  unfold calcNewDims
  rw [List.forall₂_map_right_iff]
  refine List.forall₂_same.2 ?_
  intro d hm
  simp only [List.mem_filter, Bool.not_eq_true', List.contains_eq_mem, decide_eq_false_iff_not] at hm
  refine ⟨(Spec.remaining d collapse).length, ?_, remaining_getElem n collapse d (hd d hm.1) hm.2⟩
  rw [foldl_sub, remaining_length d collapse hC]

/-- All remaining dimensions are numbered from zero on without gaps. -/
theorem collapse_all_dims (n : Nat) (collapse : List Nat) (hC : collapse.Nodup) :
    calcNewDims (List.range n) collapse = (List.range (Spec.remaining n collapse).length).map Int.ofNat := by
  have h := collapse_dims n (List.range n) collapse hC (fun d hd => List.mem_range.1 hd)
  have hnd : (Spec.remaining n collapse).Nodup := List.nodup_range.filter _
  have e : (List.range n).filter (fun d => !collapse.contains d) = Spec.remaining n collapse := rfl
  rw [e] at h
  apply List.ext_getElem
  · rw [← h.length_eq]; simp
  · intro i h1 h2
    have h3 : i < (Spec.remaining n collapse).length := by simpa using h2
    obtain ⟨j, hj, hj2⟩ := List.Forall₂.get h h3 h1
    rw [List.get_eq_getElem] at hj hj2
    rw [hj]
    obtain ⟨hjl, hje⟩ := List.getElem?_eq_some_iff.1 hj2
    have : j = i := (hnd.getElem_inj_iff).1 hje
    subst this
    simp

example : calcNewDims [0, 2, 3] [3, 1] = [0, 1] ∧ Spec.remaining 4 [3, 1] = [0, 2] := by decide

/-- The axes of a coordinate that are to be collapsed: those that lie along a collapsed dimension of the cube. -/
def Spec.axes (coordDims collapse : List Nat) : List Nat :=
  (List.range coordDims.length).filter (fun a => collapse.contains (coordDims.getD a 0))

/-- **C41** (condition: the coordinate lies along the first dimensions of the cube, and only dimensions of the coordinate are
collapsed). The points of a multidimensional coordinate are averaged along its axes that are collapsed, and its new shape
is that of the remaining axes. -/
theorem collapse_coord (shape : List Nat) (pts : List Nat → ℚ) (collapse : List Nat)
    (hC : ∀ d ∈ collapse, d < shape.length) :
    let axes := Spec.axes (List.range shape.length) collapse
    ∃ r, partialCollapse shape pts collapse = some r ∧
      r.1 = along (keptAxes shape.length axes) shape ∧ ∀ idx, r.2 idx = meanOver shape pts axes idx := by
  intro axes
  have hk : keptAxes shape.length collapse = keptAxes shape.length axes := by
    unfold keptAxes
    apply List.filter_congr
    intro a ha
    have hal := List.mem_range.1 ha
    congr 1
    rw [Bool.eq_iff_iff, List.contains_iff_mem, List.contains_iff_mem]
    simp only [axes, Spec.axes, List.length_range, List.mem_filter, List.mem_range, List.contains_iff_mem]
    rw [show (List.range shape.length).getD a 0 = a by simp [List.getD_eq_getElem?_getD, hal]]
    exact ⟨fun h => ⟨hal, h⟩, fun h => h.2⟩
  refine ⟨(along (keptAxes shape.length collapse) shape, meanOver shape pts collapse), ?_, ?_, ?_⟩
  · unfold partialCollapse
    rw [if_neg]
    simp only [List.any_eq_true, decide_eq_true_eq, not_exists, not_and, not_le]
    exact hC
  · dsimp only; rw [hk]
  · intro idx
    unfold meanOver
    rw [hk]

/-- A coordinate on (latitude, longitude) of a (latitude, longitude, time) cube; latitude is collapsed. -/
example : (partialCollapse [2, 3] (fun i => (i.getD 0 0 : ℚ) + 10 * (i.getD 1 0 : ℚ)) [0]).map
    (fun r => (r.1, [[0], [1], [2]].map r.2)) = some ([3], [1/2, 21/2, 41/2]) := by decide +kernel

/-- **C41** is violated for a coordinate on dimensions 1 and 2 of a cube of shape (2, 2, 2), when dimension 1 is collapsed:
its new dimension is that of old dimension 2 (`calcNewDims`), but the points are averaged along old dimension 2. -/
theorem collapse_coord_violated :
    let pts : List Nat → ℚ := fun i => (i.getD 1 0 : ℚ)
    calcNewDims [1, 2] [1] = [1] ∧ (Spec.remaining 3 [1])[1]? = some 2 ∧
    ((partialCollapse [2, 2] pts [1]).map (fun r => [r.2 [0], r.2 [1]])) = some [1/2, 1/2] ∧
    [meanOver [2, 2] pts (Spec.axes [1, 2] [1]) [0], meanOver [2, 2] pts (Spec.axes [1, 2] [1]) [1]] = [0, 1] := by
  decide +kernel

/-- **C41** is violated when a dimension is collapsed that the coordinate does not have and that is beyond its own: an
exception. -/
theorem collapse_coord_error_violated (shape : List Nat) (pts : List Nat → ℚ) (collapse : List Nat) (d : Nat)
    (hd : d ∈ collapse) (hs : shape.length ≤ d) : partialCollapse shape pts collapse = none := by
  unfold partialCollapse
  rw [if_pos]
  simp only [List.any_eq_true, decide_eq_true_eq]
  exact ⟨d, hd, hs⟩

/-! ### C63 -/

theorem findStandardCoords_spec (mask : Nat → Bool) (coords : List (Option Nat)) (names : List Nat) : ∀ shi0 : Nat,
    (∀ (k : Nat) (e : MapEntry), (findStandardCoords mask coords names shi0)[k]? = some e → e.shi = shi0 + k) ∧
    (∀ e ∈ findStandardCoords mask coords names shi0, e.hpi ∈ names ∧ mask e.hpi = true ∧
      coords.findIdx? (fun c => decide (c = some e.hpi)) = some e.ci) ∧
    (∀ h ∈ names, ∀ ci, mask h = true → coords.findIdx? (fun c => decide (c = some h)) = some ci →
      ∃ e ∈ findStandardCoords mask coords names shi0, e.hpi = h ∧ e.ci = ci) ∧
    (names.Nodup → ((findStandardCoords mask coords names shi0).map MapEntry.hpi).Nodup) := by
  induction names with
  | nil => intro shi0; simp [findStandardCoords]
  | cons h t ih =>
    intro shi0
    rw [findStandardCoords]
    cases hm : mask h with
    | false =>
      obtain ⟨a, b, c, d⟩ := ih shi0
      simp only [Bool.false_eq_true, if_false]
      refine ⟨a, fun e he => ⟨List.mem_cons_of_mem _ (b e he).1, (b e he).2⟩, ?_, fun hn => d (List.nodup_cons.1 hn).2⟩
      intro h' hh ci hm' hf
      rcases List.mem_cons.1 hh with rfl | hh
      · rw [hm] at hm'; cases hm'
      · exact c h' hh ci hm' hf
    | true =>
      simp only [if_true]
      cases hf : coords.findIdx? (fun c => decide (c = some h)) with
      | none =>
        obtain ⟨a, b, c, d⟩ := ih shi0
        refine ⟨a, fun e he => ⟨List.mem_cons_of_mem _ (b e he).1, (b e he).2⟩, ?_, fun hn => d (List.nodup_cons.1 hn).2⟩
        intro h' hh ci hm' hf'
        rcases List.mem_cons.1 hh with rfl | hh
        · rw [hf] at hf'; cases hf'
        · exact c h' hh ci hm' hf'
      | some ci =>
        obtain ⟨a, b, c, d⟩ := ih (shi0 + 1)
        refine ⟨?_, ?_, ?_, ?_⟩
        · intro k e hk
          cases k with
          | zero => simp at hk; subst hk; rfl
          | succ k =>
            have := a k e (by simpa using hk)
            omega
        · intro e he
          rcases List.mem_cons.1 he with rfl | he
          · exact ⟨by simp, hm, hf⟩
          · exact ⟨List.mem_cons_of_mem _ (b e he).1, (b e he).2⟩
        · intro h' hh ci' hm' hf'
          rcases List.mem_cons.1 hh with rfl | hh
          · rw [hf] at hf'; cases hf'
            exact ⟨_, List.mem_cons_self .., rfl, rfl⟩
          · obtain ⟨e, he, h1⟩ := c h' hh ci' hm' hf'
            exact ⟨e, List.mem_cons_of_mem _ he, h1⟩
        · intro hn
          rw [List.nodup_cons] at hn
          rw [List.map_cons, List.nodup_cons]
          refine ⟨?_, d hn.2⟩
          rw [List.mem_map]
          rintro ⟨e, he, hh⟩
          dsimp only at hh
          exact hn.1 (hh ▸ (b e he).1)

theorem findIdx_eq (coords : List (Option Nat)) (hd : coords.Pairwise (fun a b => a = b → a = none)) (h ci : Nat) :
    coords.findIdx? (fun c => decide (c = some h)) = some ci ↔ coords[ci]? = some (some h) := by
  rw [List.findIdx?_eq_some_iff_getElem]
  constructor
  · rintro ⟨hl, h1, -⟩
    rw [List.getElem?_eq_getElem hl]
    simpa using h1
  · intro hc
    obtain ⟨hl, he⟩ := List.getElem?_eq_some_iff.1 hc
    refine ⟨hl, by simpa using he, ?_⟩
    intro j hj
    simp only [Bool.not_eq_true, decide_eq_false_iff_not]
    intro hj2
    have := List.pairwise_iff_getElem.1 hd j ci (by omega) hl hj (by rw [hj2, he])
    rw [hj2] at this
    cases this

/-- The coordinates of the grid that are standard coordinates of the data, in the order of the grid. -/
def Spec.usedCoords (mask : Nat → Bool) (coords : List (Option Nat)) : List Nat :=
  (List.range coords.length).filter (fun ci => match coords[ci]? with
    | some (some h) => decide (h < 5) && mask h
    | _ => false)

theorem sortByCi_perm (m : List MapEntry) : (sortByCi m).Perm m := List.perm_insertionSort _ _

/-- **C63** (order of the dimensions). Binning or aggregating onto a grid gives data whose dimensions are, in the order of the
grid, the grid's coordinates that are standard coordinates of the data. -/
theorem output_coords (mask : Nat → Bool) (coords : List (Option Nat))
    (hd : coords.Pairwise (fun a b => a = b → a = none)) :
    outputCoords (coordMap mask coords) = (Spec.usedCoords mask coords).map some := by
  obtain ⟨hshi, hsound, hcomplete, hnd⟩ := findStandardCoords_spec mask coords (List.range 5) 0
  change (∀ (k : Nat) (e : MapEntry), (coordMap mask coords)[k]? = some e → e.shi = 0 + k) at hshi
  change (∀ e ∈ coordMap mask coords, _) at hsound
  have hout : outputCoords (coordMap mask coords) = ((sortByCi (coordMap mask coords)).map MapEntry.ci).map some := by
    unfold outputCoords transposeOrder
    rw [List.map_map, List.map_map]
    apply List.map_congr_left
    intro e he
    have hem := (sortByCi_perm _).mem_iff.1 he
    obtain ⟨k, hk⟩ := List.mem_iff_getElem?.1 hem
    have := hshi k e hk
    rw [Nat.zero_add] at this
    simp only [Function.comp]
    rw [this, hk]; rfl
  rw [hout]
  congr 1
  -- both lists are strictly increasing with the same elements
  have hci : ∀ e ∈ coordMap mask coords, coords[e.ci]? = some (some e.hpi) := by
    intro e he
    exact (findIdx_eq coords hd _ _).1 (hsound e he).2.2
  have hnodup : ((coordMap mask coords).map MapEntry.ci).Nodup := by
    have := hnd (List.nodup_range)
    change ((coordMap mask coords).map MapEntry.hpi).Nodup at this
    unfold List.Nodup at this ⊢
    rw [List.pairwise_map] at this ⊢
    refine this.imp_of_mem ?_
    intro a b ha hb hab hc
    have h1 := hci a ha
    have h2 := hci b hb
    rw [hc] at h1
    rw [h1] at h2
    simp only [Option.some.injEq] at h2
    exact hab h2
  have hsorted : ((sortByCi (coordMap mask coords)).map MapEntry.ci).Pairwise (· ≤ ·) := by
    rw [List.pairwise_map]
    have : Std.Total (fun a b : MapEntry => a.ci ≤ b.ci) := ⟨fun a b => le_total _ _⟩
    have : IsTrans MapEntry (fun a b : MapEntry => a.ci ≤ b.ci) := ⟨fun a b c => le_trans⟩
    exact List.pairwise_insertionSort (fun a b : MapEntry => a.ci ≤ b.ci) (coordMap mask coords)
  have hp : ((sortByCi (coordMap mask coords)).map MapEntry.ci).Perm (Spec.usedCoords mask coords) := by
    refine (List.perm_ext_iff_of_nodup (((sortByCi_perm _).map _).nodup_iff.2 hnodup) (List.nodup_range.filter _)).2 ?_
    intro ci
    change _ ↔ ci ∈ Spec.usedCoords mask coords
    rw [((sortByCi_perm _).map MapEntry.ci).mem_iff]
    rw [List.mem_map]
    unfold Spec.usedCoords
    rw [List.mem_filter, List.mem_range]
    constructor
    · rintro ⟨e, he, rfl⟩
      have h1 := hci e he
      have h2 := hsound e he
      rw [h1]
      refine ⟨(List.getElem?_eq_some_iff.1 h1).1, ?_⟩
      simp only [Bool.and_eq_true, decide_eq_true_eq]
      exact ⟨List.mem_range.1 h2.1, h2.2.1⟩
    · rintro ⟨hl, hh⟩
      cases hc : coords[ci]? with
      | none => simp [hc] at hh
      | some o =>
        cases o with
        | none => simp [hc] at hh
        | some h =>
          simp only [hc, Bool.and_eq_true, decide_eq_true_eq] at hh
          obtain ⟨e, he, -, h2⟩ := hcomplete h (List.mem_range.2 hh.1) ci hh.2 ((findIdx_eq coords hd h ci).2 hc)
          exact ⟨e, he, h2⟩
  refine List.Perm.eq_of_pairwise (le := (· ≤ ·)) ?_ hsorted ?_ hp
  · intro a b _ _ h1 h2; exact le_antisymm h1 h2
  · unfold Spec.usedCoords
    exact ((List.pairwise_lt_range).imp (fun h => le_of_lt h)).filter _

/-- Time, longitude and latitude: the order is that of the grid. -/
example : outputCoords (coordMap (fun h => h != 2) [some 4, some 1, none, some 0]) = [some 0, some 1, some 3] ∧
    Spec.usedCoords (fun h => h != 2) [some 4, some 1, none, some 0] = [0, 1, 3] := by decide

/-- **C63** is violated by a coordinate that is not one of the five standard ones: although a grid was asked for it, the
output has no such dimension (here none at all). -/
theorem output_coords_violated : outputCoords (coordMap (fun _ => true) [none]) = [] := by decide

/-! ### C64 -/

/-- **C64** (index of the sample). When all coordinates of the sample are used, the index at which the sample is looked up for
an output cell has, along each of the sample's dimensions, the index of the cell along the same coordinate. -/
theorem remapped_index (mask : Nat → Bool) (coords : List (Option Nat))
    (hd : coords.Pairwise (fun a b => a = b → a = none)) (hall : (coordMap mask coords).length = coords.length)
    (out : List Nat) : ∀ e ∈ coordMap mask coords, (remapped (coordMap mask coords) out)[e.ci]? = some (out.getD e.shi 0) := by
  have hout := output_coords mask coords hd
  have hused : Spec.usedCoords mask coords = List.range coords.length := by
    have hlen : (Spec.usedCoords mask coords).length = coords.length := by
      have := congrArg List.length hout
      simp only [outputCoords, transposeOrder, List.length_map] at this
      rw [← this, (sortByCi_perm _).length_eq, hall]
    unfold Spec.usedCoords at hlen ⊢
    apply List.filter_eq_self.2
    have := List.length_filter_eq_length_iff.1 (hlen.trans List.length_range.symm)
    exact this
  rw [hused] at hout
  obtain ⟨hshi, hsound, -, hnd⟩ := findStandardCoords_spec mask coords (List.range 5) 0
  change (∀ (k : Nat) (e : MapEntry), (coordMap mask coords)[k]? = some e → e.shi = 0 + k) at hshi
  change (∀ e ∈ coordMap mask coords, _) at hsound
  intro e he
  have hci : coords[e.ci]? = some (some e.hpi) := (findIdx_eq coords hd _ _).1 (hsound e he).2.2
  have hlt := (List.getElem?_eq_some_iff.1 hci).1
  have hk := congrArg (fun l => l[e.ci]?) hout
  simp only [outputCoords, List.getElem?_map, List.getElem?_range hlt, Option.map_some] at hk
  unfold remapped
  rw [List.getElem?_map]
  cases ht : (transposeOrder (coordMap mask coords))[e.ci]? with
  | none => rw [ht] at hk; simp at hk
  | some shi =>
    rw [ht] at hk
    simp only [Option.map_some, Option.some.injEq] at hk
    cases hm : (coordMap mask coords)[shi]? with
    | none => rw [hm] at hk; simp at hk
    | some e' =>
      rw [hm] at hk
      simp only [Option.map_some, Option.some.injEq] at hk
      -- `e'` and `e` have the same coordinate
      have he' := List.mem_of_getElem? hm
      have hci' : coords[e'.ci]? = some (some e'.hpi) := (findIdx_eq coords hd _ _).1 (hsound e' he').2.2
      rw [hk, hci] at hci'
      simp only [Option.some.injEq] at hci'
      have hee : e' = e := by
        have := hnd List.nodup_range
        exact List.inj_on_of_nodup_map this he' he hci'.symm
      have := hshi shi e' hm
      rw [Nat.zero_add] at this
      rw [hee] at this
      simp [this]

/-- A sample on (longitude, latitude): the cell found at (latitude 2, longitude 7) is looked up at (7, 2). -/
example : remapped (coordMap (fun h => h < 2) [some 1, some 0]) [2, 7] = [7, 2] := by decide

/-- **C64** (values; condition: increasing coordinates, at least one data point). With `missing_data_for_missing_sample`, the value
of a cell is missing if the sample is missing in the cell; otherwise it is the kernel's value for exactly the unmasked data
points inside the cell. `look` is the index at which the sample is looked up. -/
theorem bin_sample {K : Type} [LinearOrder K] {β : Type} (k : List ℚ → Option β) (hk : k [] = none)
    (ds : List (DataIndex.Dim K)) (hne : ds ≠ []) (hm : ∀ d ∈ ds, DataIndex.Spec.Monotonic d.1)
    (hc : ∀ d ∈ ds, DataIndex.Spec.Contiguous d.1) (hinc : ∀ d ∈ ds, d.1.decreasing = false) (masked : Nat → Bool)
    (vals : Nat → ℚ) (n : Nat) (hn : 0 < n) (order : List Nat)
    (ho : DataIndex.Spec.Sorts n (DataIndex.cellNumber ds masked) order) (sample : List Nat → Bool)
    (look : List Nat → List Nat) :
    ∃ out, binOnto k ds masked vals order (fun c => sample (look c)) = some out ∧
      (∀ cell, sample (look cell) = true → out cell = none) ∧
      (∀ cell, sample (look cell) = false → ∃ ps : List Nat, ps.Nodup ∧
        (∀ p, p ∈ ps ↔ p < n ∧ masked p = false ∧ DataIndex.Spec.InCell ds cell p) ∧ out cell = k (ps.map vals)) := by
  obtain ⟨slices, hs, hp⟩ := DataIndex.c04_slices_increasing ds hne hm hc hinc masked n hn order ho
  refine ⟨(slices.filter (fun s => !sample (look (s.1.map Int.toNat)))).foldl (setCell k vals) (fun _ => none),
    by unfold binOnto; rw [hs]; rfl, ?_, ?_⟩
  · intro cell hcell
    rw [foldl_setCell_other]
    intro s hsm e
    rw [List.mem_filter, e] at hsm
    simp [hcell, List.map_map, Function.comp_def] at hsm
  · intro cell hcell
    by_cases hex : ∃ s ∈ slices, s.1 = cell.map Int.ofNat
    · obtain ⟨s, hsm, he⟩ := hex
      obtain ⟨idx, h1, -, h3, h4⟩ := hp.sound s hsm
      have : idx = cell := DataIndex.map_ofNat_inj (by rw [← h1, he])
      subst this
      refine ⟨s.2, h3, h4, ?_⟩
      rw [foldl_setCell k vals _ (fun _ => none) idx s ?_ he ?_ rfl]
      · rw [List.mem_filter, he]
        refine ⟨hsm, ?_⟩
        simp [hcell, List.map_map, Function.comp_def]
      · exact (List.filter_sublist.map _).nodup hp.distinct
    · push Not at hex
      refine ⟨[], List.nodup_nil, ?_, ?_⟩
      · intro p
        simp only [List.not_mem_nil, false_iff, not_and]
        intro h1 h2 h3
        obtain ⟨s, hs1, hs2⟩ := hp.complete p h1 h2 cell h3
        exact hex s hs1 hs2
      · rw [foldl_setCell_other k vals _ _ cell (fun s hs => hex s (List.mem_filter.1 hs).1)]
        exact hk.symm

example : (binOnto (fun l => if l = [] then none else some l.length) [(DataIndex.incCoord, fun p => [25, 7, 99].getD p 0)]
    (fun _ => false) (fun p => p) [2, 1, 0] (fun c => c == [2])).map (fun out => [[0], [1], [2]].map out) =
    some [some 1, none, none] := by decide +kernel

/-- **C64** is violated by the iterator for kernels that need the points themselves (`get_iterator`,
col_implementations.py:1007-1017), which looks the sample up at the unchanged index: for a sample on (longitude, latitude) the
index (2, 7) of (latitude, longitude) is a different cell of the sample. -/
theorem unmapped_index_violated : ∃ (coords : List (Option Nat)) (out : List Nat),
    coords.Pairwise (fun a b => a = b → a = none) ∧ (coordMap (fun h => h < 2) coords).length = coords.length ∧
    ∃ e ∈ coordMap (fun h => h < 2) coords, out[e.ci]? ≠ some (out.getD e.shi 0) :=
  ⟨[some 1, some 0], [2, 7], by decide, by decide, ⟨0, 1, 0⟩, by decide, by decide⟩

end Cis.Agg
