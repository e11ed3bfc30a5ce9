import Verif.Agg.Grid
import Mathlib.Data.List.Nodup
import Mathlib.Data.List.Perm.Basic
import Mathlib.Algebra.BigOperators.Group.List.Basic
set_option linter.unusedSectionVars false
set_option linter.unusedSimpArgs false
/-! Aggregation of ungridded data (C40). -/
namespace Cis.Agg
open Cis.DataIndex

theorem inCell_iff (cols : List Col) (h : ∀ c ∈ cols, Spec.Req.Ok c.req) (idx : List Nat) (p : Nat) :
    DataIndex.Spec.InCell (dims cols) idx p ↔ Spec.inCell cols idx p = true := by
  unfold DataIndex.Spec.InCell dims
  induction cols generalizing idx with
  | nil => cases idx <;> simp [Spec.inCell]
  | cons c t ih =>
    cases idx with
    | nil => simp [Spec.inCell]
    | cons i idx =>
      rw [List.map_cons, List.forall₂_cons, ih (fun c hc => h c (by simp [hc])), Spec.inCell, Bool.and_eq_true]
      dsimp only
      rw [makeCoord_inInterval c.centre c.req (h c (by simp)) i (c.val p)]

theorem foldl_setCell_other {β : Type} (k : List ℚ → Option β) (vals : Nat → ℚ) (slices : List (List Int × List Nat)) :
    ∀ (out : List Nat → Option β) (cell : List Nat), (∀ s ∈ slices, s.1 ≠ cell.map Int.ofNat) →
      slices.foldl (setCell k vals) out cell = out cell := by
  induction slices with
  | nil => intro out cell _; rfl
  | cons s t ih =>
    intro out cell h
    rw [List.foldl_cons, ih _ _ (fun s hs => h s (by simp [hs]))]
    unfold setCell
    cases hk : k (s.2.map vals) with
    | none => rfl
    | some v => dsimp only; rw [if_neg (fun e => h s (by simp) e.symm)]

theorem foldl_setCell {β : Type} (k : List ℚ → Option β) (vals : Nat → ℚ) (slices : List (List Int × List Nat)) :
    ∀ (out : List Nat → Option β) (cell : List Nat) (s : List Int × List Nat), s ∈ slices → s.1 = cell.map Int.ofNat →
      (slices.map Prod.fst).Nodup → out cell = none →
      slices.foldl (setCell k vals) out cell = k (s.2.map vals) := by
  induction slices with
  | nil => intro out cell s h; simp at h
  | cons s0 t ih =>
    intro out cell s hs he hn ho
    rw [List.map_cons, List.nodup_cons] at hn
    rw [List.foldl_cons]
    rcases List.mem_cons.1 hs with rfl | hs
    · rw [foldl_setCell_other]
      · unfold setCell
        cases hk : k (s.2.map vals) with
        | none => exact ho
        | some v => dsimp only; rw [if_pos he.symm]
      · intro s' hs' e
        exact hn.1 (List.mem_map.2 ⟨s', hs', by rw [e, he]⟩)
    · apply ih _ cell s hs he hn.2
      unfold setCell
      cases hk : k (s0.2.map vals) with
      | none => exact ho
      | some v =>
        dsimp only
        rw [if_neg]
        · exact ho
        · intro e
          exact hn.1 (List.mem_map.2 ⟨s, hs, by rw [he, e]⟩)

/-- **C40** (each cell). The value of a cell is the kernel's value for exactly the unmasked points inside the cell, whatever
the order found by the sort; it is missing if there is none (`kernel [] = none`). Partial in that every requested step is
positive (see `aggregate_decreasing_violated`) and there is a data point (see `aggregate_no_data_violated`). -/
theorem aggregate_cells {β : Type} (k : List ℚ → Option β) (hk : Spec.Kernel k) (cols : List Col) (hne : cols ≠ [])
    (hok : ∀ c ∈ cols, Spec.Req.Ok c.req) (masked : Nat → Bool) (vals : Nat → ℚ) (n : Nat) (hn : 0 < n) (order : List Nat)
    (ho : DataIndex.Spec.Sorts n (cellNumber (dims cols) masked) order) :
    ∃ out, aggregate k cols masked vals order = some out ∧
      ∀ cell, out cell = k ((Spec.points cols masked n cell).map vals) := by
  have hdim : ∀ d ∈ dims cols, ∃ c ∈ cols, d.1 = makeCoord c.centre c.req := by
    intro d hd
    obtain ⟨c, hc, rfl⟩ := List.mem_map.1 hd
    exact ⟨c, hc, rfl⟩
  obtain ⟨slices, hs, hp⟩ := c04_slices_increasing (dims cols) (by simpa [dims] using hne)
    (fun d hd => by obtain ⟨c, hc, e⟩ := hdim d hd; rw [e]; exact makeCoord_monotonic _ _ (hok c hc))
    (fun d hd => by obtain ⟨c, hc, e⟩ := hdim d hd; rw [e]; exact makeCoord_contiguous _ _ (hok c hc))
    (fun d hd => by obtain ⟨c, hc, e⟩ := hdim d hd; rw [e]; exact makeCoord_decreasing _ _ (hok c hc))
    masked n hn order ho
  refine ⟨slices.foldl (setCell k vals) (fun _ => none), by unfold aggregate; rw [hs]; rfl, ?_⟩
  intro cell
  have hmem : ∀ p, p ∈ Spec.points cols masked n cell ↔ p < n ∧ masked p = false ∧ DataIndex.Spec.InCell (dims cols) cell p := by
    intro p
    unfold Spec.points
    rw [inCell_iff cols hok]
    simp
  by_cases hex : ∃ s ∈ slices, s.1 = cell.map Int.ofNat
  · obtain ⟨s, hsm, he⟩ := hex
    rw [foldl_setCell k vals slices _ cell s hsm he hp.distinct rfl]
    apply hk.perm
    apply List.Perm.map
    obtain ⟨idx, h1, -, h3, h4⟩ := hp.sound s hsm
    have : idx = cell := map_ofNat_inj (by rw [← h1, he])
    subst this
    refine (List.perm_ext_iff_of_nodup h3 (List.nodup_range.filter _)).2 ?_
    intro p
    rw [h4]
    exact (hmem p).symm
  · push Not at hex
    rw [foldl_setCell_other k vals slices _ cell hex]
    have : Spec.points cols masked n cell = [] := by
      rw [List.eq_nil_iff_forall_not_mem]
      intro p hpm
      obtain ⟨a, b, c⟩ := (hmem p).1 hpm
      obtain ⟨s, hs1, hs2⟩ := hp.complete p a b cell c
      exact hex s hs1 hs2
    rw [this]
    exact hk.empty.symm

/-! ### Conservation -/

theorem mem_allIdx (shape idx : List Nat) : idx ∈ allIdx shape ↔ List.Forall₂ (· < ·) idx shape := by
  induction shape generalizing idx with
  | nil => simp [allIdx]
  | cons n t ih =>
    simp only [allIdx, List.mem_flatMap, List.mem_range, List.mem_map]
    constructor
    · rintro ⟨i, hi, r, hr, rfl⟩
      exact .cons hi ((ih r).1 hr)
    · intro h
      cases h with
      | cons h1 h2 => exact ⟨_, h1, _, (ih _).2 h2, rfl⟩

theorem nodup_allIdx (shape : List Nat) : (allIdx shape).Nodup := by
  induction shape with
  | nil => simp [allIdx]
  | cons n t ih =>
    rw [allIdx, List.nodup_flatMap]
    refine ⟨fun i _ => ih.map (fun a b h => by simpa using h), ?_⟩
    refine List.nodup_range.imp ?_
    intro i j hij
    rw [Function.onFun, List.disjoint_left]
    intro x hx hy
    obtain ⟨a, -, rfl⟩ := List.mem_map.1 hx
    obtain ⟨b, -, hb⟩ := List.mem_map.1 hy
    simp only [List.cons.injEq] at hb
    exact hij hb.1.symm

theorem sum_single {α : Type} [DecidableEq α] (l : List α) (hn : l.Nodup) (x : α) (hx : x ∈ l) (a : ℚ) :
    (l.map (fun c => if c = x then a else 0)).sum = a := by
  induction l with
  | nil => simp at hx
  | cons y t ih =>
    rw [List.nodup_cons] at hn
    rw [List.map_cons, List.sum_cons]
    rcases List.mem_cons.1 hx with rfl | hx
    · rw [if_pos rfl]
      have : t.map (fun c => if c = x then a else 0) = t.map (fun _ => (0 : ℚ)) := by
        apply List.map_congr_left
        intro c hc
        rw [if_neg]
        rintro rfl
        exact hn.1 hc
      rw [this]; simp
    · rw [if_neg (by rintro rfl; exact hn.1 hx), ih hn.2 hx, zero_add]

theorem sum_swap {α γ : Type} (A : List α) (B : List γ) (f : α → γ → ℚ) :
    (A.map (fun a => (B.map (f a)).sum)).sum = (B.map (fun b => (A.map (fun a => f a b)).sum)).sum := by
  induction A with
  | nil => simp
  | cons a t ih =>
    simp only [List.map_cons, List.sum_cons, ih]
    rw [← List.sum_map_add]

theorem sum_filter {α : Type} (l : List α) (q : α → Bool) (f : α → ℚ) :
    ((l.filter q).map f).sum = (l.map (fun x => if q x then f x else 0)).sum := by
  induction l with
  | nil => rfl
  | cons a t ih =>
    rw [List.filter_cons]
    cases h : q a <;> simp [h, ih]

theorem inInterval_lt (r : Req) (n : Nat) (hok : Spec.Req.Ok r) (hn : Spec.IsCount r n) (i : Nat) (x : ℚ)
    (h : Spec.inInterval r i x = true) : i < n := by
  cases r with
  | none =>
    simp only [Spec.inInterval, decide_eq_true_eq, Spec.IsCount] at h hn
    omega
  | some t =>
    obtain ⟨s, e, d⟩ := t
    simp only [Spec.inInterval, Bool.and_eq_true, decide_eq_true_eq, Spec.IsCount, Spec.Req.Ok] at h hn hok
    have : (i : ℚ) * d < (n : ℚ) * d := by linarith [h.1.1, hn.2.1]
    have := lt_of_mul_lt_mul_right this hok.2.le
    exact_mod_cast this

theorem inCell_mem (cols : List Col) (hok : ∀ c ∈ cols, Spec.Req.Ok c.req) (shape : List Nat)
    (hs : List.Forall₂ (fun c n => Spec.IsCount c.req n) cols shape) (cell : List Nat) (p : Nat)
    (h : Spec.inCell cols cell p = true) : cell ∈ allIdx shape := by
  rw [mem_allIdx]
  induction cols generalizing cell shape with
  | nil =>
    cases hs
    cases cell with
    | nil => exact .nil
    | cons i t => simp [Spec.inCell] at h
  | cons c t ih =>
    cases hs with
    | cons h1 h2 =>
      cases cell with
      | nil => simp [Spec.inCell] at h
      | cons i cell =>
        rw [Spec.inCell, Bool.and_eq_true] at h
        exact .cons (inInterval_lt c.req _ (hok c (by simp)) h1 i _ h.1)
          (ih (fun c hc => hok c (by simp [hc])) _ h2 cell h.2)

theorem inCell_unique (cols : List Col) (hok : ∀ c ∈ cols, Spec.Req.Ok c.req) (c1 c2 : List Nat) (p : Nat)
    (h1 : Spec.inCell cols c1 p = true) (h2 : Spec.inCell cols c2 p = true) : c1 = c2 := by
  induction cols generalizing c1 c2 with
  | nil =>
    cases c1 <;> cases c2 <;> simp_all [Spec.inCell]
  | cons c t ih =>
    cases c1 with
    | nil => simp [Spec.inCell] at h1
    | cons i c1 =>
      cases c2 with
      | nil => simp [Spec.inCell] at h2
      | cons j c2 =>
        rw [Spec.inCell, Bool.and_eq_true] at h1 h2
        have hc := hok c (by simp)
        have a := (makeCoord_inInterval c.centre c.req hc i _).2 h1.1
        have b := (makeCoord_inInterval c.centre c.req hc j _).2 h2.1
        rw [inInterval_unique (makeCoord_monotonic c.centre c.req hc) a b,
          ih (fun c hc => hok c (by simp [hc])) c1 c2 h1.2 h2.2]

open Classical in
/-- **C40** (conservation). For a kernel that adds up a weight of the values (1 for the number of points, the value itself
for the sum), the total over all cells of the grid is the total over all unmasked points that lie in the grid. -/
theorem aggregate_conserves (w : ℚ → ℚ) (cols : List Col) (hne : cols ≠ [])
    (hok : ∀ c ∈ cols, Spec.Req.Ok c.req) (masked : Nat → Bool) (vals : Nat → ℚ) (n : Nat) (hn : 0 < n) (order : List Nat)
    (ho : DataIndex.Spec.Sorts n (cellNumber (dims cols) masked) order) (shape : List Nat)
    (hs : List.Forall₂ (fun c m => Spec.IsCount c.req m) cols shape) :
    ∃ out, aggregate (fun l => if l = [] then none else some ((l.map w).sum)) cols masked vals order = some out ∧
      ((allIdx shape).map (fun cell => (out cell).getD 0)).sum =
        (((List.range n).filter (fun p => !masked p && decide (Spec.inGrid cols p))).map (fun p => w (vals p))).sum := by
  have hk : Spec.Kernel (fun l : List ℚ => if l = [] then none else some ((l.map w).sum)) := by
    constructor
    · intro a b hab
      by_cases ha : a = []
      · subst ha; rw [List.nil_perm] at hab; subst hab; rfl
      · have hb : b ≠ [] := by rintro rfl; exact ha (List.perm_nil.1 hab)
        rw [if_neg ha, if_neg hb, (hab.map w).sum_eq]
    · simp
  obtain ⟨out, h1, h2⟩ := aggregate_cells _ hk cols hne hok masked vals n hn order ho
  refine ⟨out, h1, ?_⟩
  have e1 : ∀ cell, (out cell).getD 0 =
      ((List.range n).map (fun p => if Spec.inCell cols cell p then (if !masked p then w (vals p) else 0) else 0)).sum := by
    intro cell
    rw [h2 cell]
    have hsum : (((Spec.points cols masked n cell).map vals).map w).sum =
        ((List.range n).map (fun p => if Spec.inCell cols cell p then (if !masked p then w (vals p) else 0) else 0)).sum := by
      unfold Spec.points
      rw [List.map_map, sum_filter]
      congr 1
      apply List.map_congr_left
      intro p _
      cases masked p <;> cases Spec.inCell cols cell p <;> simp
    rw [← hsum]
    by_cases hp : (Spec.points cols masked n cell).map vals = []
    · rw [if_pos hp, hp]; simp
    · rw [if_neg hp]; rfl
  simp only [e1]
  rw [sum_swap, sum_filter]
  congr 1
  apply List.map_congr_left
  intro p _
  by_cases hg : Spec.inGrid cols p
  · obtain ⟨c0, hc0⟩ := hg
    have hcond : ∀ cell, (if Spec.inCell cols cell p then (if !masked p then w (vals p) else 0) else 0) =
        if cell = c0 then (if !masked p then w (vals p) else 0) else (0 : ℚ) := by
      intro cell
      by_cases hc : cell = c0
      · rw [if_pos hc, hc, if_pos hc0]
      · rw [if_neg hc, if_neg]
        intro h; exact hc (inCell_unique cols hok _ _ p h hc0)
    simp only [hcond]
    rw [sum_single (allIdx shape) (nodup_allIdx shape) c0 (inCell_mem cols hok shape hs c0 p hc0)]
    have : Spec.inGrid cols p := ⟨c0, hc0⟩
    simp [this]
  · have hcond : ∀ cell, (if Spec.inCell cols cell p then (if !masked p then w (vals p) else 0) else 0) = (0 : ℚ) := by
      intro cell
      rw [if_neg]
      intro h; exact hg ⟨cell, h⟩
    simp only [hcond]
    simp [hg]

/-- Every point within the requested ranges lies in the grid. -/
theorem inGrid_of_range (cols : List Col) (hok : ∀ c ∈ cols, Spec.Req.Ok c.req) (p : Nat)
    (h : ∀ c ∈ cols, ∀ s e d, c.req = some (s, e, d) → s ≤ c.val p ∧ c.val p < e) : Spec.inGrid cols p := by
  unfold Spec.inGrid
  induction cols with
  | nil => exact ⟨[], rfl⟩
  | cons c t ih =>
    obtain ⟨cell, hc⟩ := ih (fun c hc => hok c (by simp [hc])) (fun c hc => h c (by simp [hc]))
    have hcok := hok c (by simp)
    cases hr : c.req with
    | none => exact ⟨0 :: cell, by simp [Spec.inCell, Spec.inInterval, hr, hc]⟩
    | some r =>
      obtain ⟨s, e, d⟩ := r
      rw [hr] at hcok
      obtain ⟨hse, hd⟩ := hcok
      obtain ⟨hsx, hxe⟩ := h c (by simp) s e d hr
      obtain ⟨-, -, -, hget, hcov, -, -⟩ := grid_tiles s e d hse hd
      obtain ⟨i, ⟨hi, h1, h2⟩, -⟩ := hcov _ hsx hxe
      rw [hget i hi] at h1 h2
      have hi' : i < count s e d := by rw [gridArray_length] at hi; exact hi
      refine ⟨i :: cell, ?_⟩
      rw [Spec.inCell, hc, Bool.and_true, hr]
      simp only [Spec.inInterval, Bool.and_eq_true, decide_eq_true_eq]
      refine ⟨⟨(lt_count s e d hd i).1 hi', by linarith⟩, ?_⟩
      unfold Spec.cellEnd
      split
      · exact hxe
      · linarith

/-- Two coordinates, one of them collapsed; five points, one of them masked and one outside the grid. -/
def exampleCols : List Col :=
  [⟨some (0, 25, 10), 0, fun p => [5, 12, 29, 3, 40].getD p 0⟩, ⟨none, 0, fun p => [1, 2, 3, 4, 5].getD p 0⟩]

example : (aggregate (fun l => if l = [] then none else some ((l.map (fun _ => 1)).sum)) exampleCols (fun p => p == 1)
      (fun p => p) [4, 1, 3, 0, 2]).map (fun out => [[0, 0], [1, 0], [2, 0]].map out) = some [some 2, none, some 1] ∧
    (∀ c ∈ exampleCols, Spec.Req.Ok c.req) ∧ List.Forall₂ (fun c m => Spec.IsCount c.req m) exampleCols [3, 1] ∧
    DataIndex.Spec.Sorts 5 (cellNumber (dims exampleCols) (fun p => p == 1)) [4, 1, 3, 0, 2] := by
  refine ⟨by decide +kernel, ?_, ?_, ⟨by decide, by decide +kernel⟩⟩
  · intro c hc
    simp only [exampleCols, List.mem_cons, List.not_mem_nil, or_false] at hc
    rcases hc with rfl | rfl
    · exact ⟨by norm_num, by norm_num⟩
    · trivial
  · refine .cons ⟨by norm_num, by norm_num, by norm_num⟩ (.cons rfl .nil)

/-- **C40** is violated for a negative step (a grid from high to low): the only point, which lies in the first cell (10 to 5),
is lost. -/
theorem aggregate_decreasing_violated : (makeCoord 0 (some (10, 0, -5))).bounds = [(fin 10, fin 5), (fin 5, fin 0)] ∧
    (aggregate (fun l => if l = [] then none else some l.length) [⟨some (10, 0, -5), 0, fun _ => 7⟩] (fun _ => false)
      (fun p => p) [0]).map (fun out => [[0], [1]].map out) = some [none, none] := by
  decide +kernel

/-- **C40** is violated for data without points: an exception instead of an aggregate with all cells missing. -/
theorem aggregate_no_data_violated {β : Type} (k : List ℚ → Option β) (cols : List Col) (masked : Nat → Bool) (vals : Nat → ℚ) :
    aggregate k cols masked vals [] = none := rfl

end Cis.Agg
