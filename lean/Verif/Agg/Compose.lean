import Verif.Agg.Props
import Mathlib.Algebra.Order.Floor.Semifield
set_option linter.unusedSectionVars false
set_option linter.unusedSimpArgs false
/-!
Property C131: aggregation composes. The aggregate does not depend on the order of the points, nor on points that are masked or
outside the grid (so subsetting to the extent of the grid first makes no difference); the aggregate of two data sets together is
the combination of their aggregates; a coarser grid combines the cells of a finer one. The model is that of `Model.lean`
(ungridded_aggregator.py:12-149, col_implementations.py:774-900, 1019-1047).
-/
namespace Cis.Agg
open Cis.DataIndex

/-! ### Specification -/

/-- The kernel of the union of groups of values is the combination of the kernel's values for the groups. -/
def Spec.Decomposes {β : Type} (k : List ℚ → Option β) (comb : List β → Option β) : Prop :=
  ∀ groups : List (List ℚ), k groups.flatten = comb (groups.filterMap k)

/-- The coordinates of a part of the points: point `j` of the part is point `f j`. -/
def Spec.pick (f : Nat → Nat) (cols : List Col) (centres : List ℚ) : List Col :=
  cols.zipWith (fun c x => ⟨c.req, x, fun j => c.val (f j)⟩) centres

/-- The requests with steps `m` times as wide. -/
def Spec.coarsen : List Col → List Nat → List Col
  | c :: t, m :: ms => { c with req := c.req.map (fun g => (g.1, g.2.1, (m : ℚ) * g.2.2)) } :: Spec.coarsen t ms
  | _, _ => []

/-- The requested range is a whole number of the wide steps; a coordinate without a grid has one cell on both grids. -/
def Spec.Divides (c : Col) (m : Nat) : Prop :=
  0 < m ∧ match c.req with
    | none => m = 1
    | some (s, e, d) => 0 < d ∧ ∃ N : Nat, 0 < N ∧ e = s + (N : ℚ) * (m * d)

/-- The cells of the fine grid that make up a cell of the coarse one. -/
def Spec.block : List Nat → List Nat → List (List Nat)
  | [], [] => [[]]
  | m :: ms, j :: js => (List.range m).flatMap (fun i => (Spec.block ms js).map (fun r => (j * m + i) :: r))
  | _, _ => []

/-- The kernels (col_implementations.py:365-462): `np.sum`, the number of values, `np.max`, `np.min`. -/
def sumKernel (l : List ℚ) : Option ℚ := if l = [] then none else some l.sum
def numKernel (l : List ℚ) : Option Nat := if l = [] then none else some l.length
def maxKernel : List ℚ → Option ℚ
  | [] => none
  | x :: t => some (t.foldl max x)
def minKernel : List ℚ → Option ℚ
  | [] => none
  | x :: t => some (t.foldl min x)

/-! ### Kernels that decompose -/

theorem filterMap_flatten_nil {β : Type} (k : List ℚ → Option β) (h : ∀ l, k l = none ↔ l = []) (groups : List (List ℚ)) :
    groups.flatten = [] ↔ groups.filterMap k = [] := by
  rw [List.flatten_eq_nil_iff, List.filterMap_eq_nil_iff]
  exact ⟨fun H l hl => (h l).2 (H l hl), fun H l hl => (h l).1 (H l hl)⟩

theorem sum_decomposes : Spec.Decomposes sumKernel sumKernel := by
  intro groups
  have hn : ∀ l, sumKernel l = none ↔ l = [] := by intro l; unfold sumKernel; split <;> simp_all
  have hnil := filterMap_flatten_nil sumKernel hn groups
  have hsum : groups.flatten.sum = (groups.filterMap sumKernel).sum := by
    clear hnil
    induction groups with
    | nil => rfl
    | cons l t ih =>
      rw [List.flatten_cons, List.sum_append, ih, List.filterMap_cons]
      unfold sumKernel
      by_cases h : l = [] <;> simp [h]
  conv_lhs => unfold sumKernel
  conv_rhs => rw [sumKernel]
  by_cases h : groups.flatten = []
  · rw [if_pos h, if_pos (hnil.1 h)]
  · rw [if_neg h, if_neg (fun h' => h (hnil.2 h')), hsum]

/-- Counts are added. -/
def addCounts (l : List Nat) : Option Nat := if l = [] then none else some l.sum

theorem num_decomposes : Spec.Decomposes numKernel addCounts := by
  intro groups
  have hn : ∀ l, numKernel l = none ↔ l = [] := by intro l; unfold numKernel; split <;> simp_all
  have hnil := filterMap_flatten_nil numKernel hn groups
  have hsum : groups.flatten.length = (groups.filterMap numKernel).sum := by
    clear hnil
    induction groups with
    | nil => rfl
    | cons l t ih =>
      rw [List.flatten_cons, List.length_append, ih, List.filterMap_cons]
      unfold numKernel
      by_cases h : l = [] <;> simp [h]
  conv_lhs => unfold numKernel
  unfold addCounts
  by_cases h : groups.flatten = []
  · rw [if_pos h, if_pos (hnil.1 h)]
  · rw [if_neg h, if_neg (fun h' => h (hnil.2 h')), hsum]

theorem fold_decomposes (op : ℚ → ℚ → ℚ) [Std.Associative op] (k : List ℚ → Option ℚ) (hk0 : k [] = none)
    (hk : ∀ x t, k (x :: t) = some (t.foldl op x)) : Spec.Decomposes k k := by
  have happ : ∀ l m : List ℚ, k (l ++ m) = match k l, k m with
      | some a, some b => some (op a b)
      | some a, none => some a
      | none, b => b := by
    intro l m
    cases l with
    | nil => rw [hk0]; rfl
    | cons x t =>
      cases m with
      | nil => rw [List.append_nil, hk, hk0]
      | cons y u =>
        rw [List.cons_append, hk, hk, hk, List.foldl_append]
        dsimp only
        congr 1
        rw [List.foldl_cons]
        generalize t.foldl op x = a
        induction u generalizing y with
        | nil => rfl
        | cons z u ih =>
          rw [List.foldl_cons, List.foldl_cons, Std.Associative.assoc (op := op), ih]
  intro groups
  induction groups with
  | nil => rfl
  | cons l t ih =>
    rw [List.flatten_cons, happ, ih, List.filterMap_cons]
    cases hl : k l with
    | none => cases h : k (t.filterMap k) <;> rfl
    | some a =>
      dsimp only
      rw [show a :: t.filterMap k = [a] ++ t.filterMap k from rfl, happ, hk]
      cases h : k (t.filterMap k) <;> rfl

theorem max_decomposes : Spec.Decomposes maxKernel maxKernel := fold_decomposes max maxKernel rfl (fun _ _ => rfl)
theorem min_decomposes : Spec.Decomposes minKernel minKernel := fold_decomposes min minKernel rfl (fun _ _ => rfl)

theorem foldl_perm (op : ℚ → ℚ → ℚ) [Std.Associative op] [Std.Commutative op] (k : List ℚ → Option ℚ) (hk0 : k [] = none)
    (hk : ∀ x t, k (x :: t) = some (t.foldl op x)) : Spec.Kernel k := by
  refine ⟨fun a b hab => ?_, hk0⟩
  induction hab with
  | nil => rfl
  | cons x h _ =>
    rw [hk, hk]
    congr 1
    haveI : RightCommutative op := ⟨fun a b c => by
      rw [Std.Associative.assoc (op := op), Std.Commutative.comm (op := op) b c, ← Std.Associative.assoc (op := op)]⟩
    exact h.foldl_eq x
  | swap x y l =>
    rw [hk, hk, List.foldl_cons, List.foldl_cons, Std.Commutative.comm (op := op) x y]
  | trans _ _ ih1 ih2 => exact ih1.trans ih2

theorem max_kernel : Spec.Kernel maxKernel := foldl_perm max maxKernel rfl (fun _ _ => rfl)
theorem min_kernel : Spec.Kernel minKernel := foldl_perm min minKernel rfl (fun _ _ => rfl)
theorem sum_kernel : Spec.Kernel sumKernel := by
  refine ⟨fun a b hab => ?_, rfl⟩
  unfold sumKernel
  by_cases h : a = []
  · subst h; rw [List.nil_perm] at hab; subst hab; rfl
  · have hb : b ≠ [] := by rintro rfl; exact h (List.perm_nil.1 hab)
    rw [if_neg h, if_neg hb, hab.sum_eq]
theorem num_kernel : Spec.Kernel numKernel := by
  refine ⟨fun a b hab => ?_, rfl⟩
  unfold numKernel
  by_cases h : a = []
  · subst h; rw [List.nil_perm] at hab; subst hab; rfl
  · have hb : b ≠ [] := by rintro rfl; exact h (List.perm_nil.1 hab)
    rw [if_neg h, if_neg hb, hab.length_eq]

/-! ### Parts of the data -/

theorem inCell_pick (f : Nat → Nat) : ∀ (cols : List Col) (centres : List ℚ), centres.length = cols.length → ∀ (cell : List Nat) (j : Nat),
    Spec.inCell (Spec.pick f cols centres) cell j = Spec.inCell cols cell (f j)
  | [], [], _, [], _ => rfl
  | [], [], _, _ :: _, _ => rfl
  | c :: t, x :: xs, h, [], _ => rfl
  | c :: t, x :: xs, h, i :: idx, j => by
    have := inCell_pick f t xs (by simpa using h) idx j
    unfold Spec.pick at this ⊢
    rw [List.zipWith_cons_cons, Spec.inCell, Spec.inCell, this]
  | _ :: _, [], h, _, _ => by simp at h
  | [], _ :: _, h, _, _ => by simp at h

theorem pick_ok (f : Nat → Nat) : ∀ (cols : List Col) (centres : List ℚ), (∀ c ∈ cols, Spec.Req.Ok c.req) →
    ∀ c ∈ Spec.pick f cols centres, Spec.Req.Ok c.req
  | [], _, _ => by simp [Spec.pick]
  | _ :: _, [], _ => by simp [Spec.pick]
  | c :: t, x :: xs, h => by
    intro c' hc'
    unfold Spec.pick at hc'
    rw [List.zipWith_cons_cons, List.mem_cons] at hc'
    rcases hc' with rfl | hc'
    · exact h c (by simp)
    · exact pick_ok f t xs (fun c hc => h c (by simp [hc])) c' hc'

/-- **C131**. The aggregate depends only on the unmasked points in the grid, not on their order: a data set that consists of some
of the points of another, in any order, among them all the unmasked ones in the grid, has the same aggregate. In particular
points can be permuted, masked points dropped, and the data subsetted to the extent of the grid. -/
theorem c131_points {β : Type} (k : List ℚ → Option β) (hk : Spec.Kernel k) (cols : List Col) (hne : cols ≠ [])
    (hok : ∀ c ∈ cols, Spec.Req.Ok c.req) (masked : Nat → Bool) (vals : Nat → ℚ) (n m : Nat) (hm : 0 < m) (f : Nat → Nat)
    (hf : ∀ j < m, f j < n) (hinj : ∀ i < m, ∀ j < m, f i = f j → i = j)
    (hall : ∀ p < n, masked p = false → Spec.inGrid cols p → ∃ j < m, f j = p)
    (centres : List ℚ) (hcen : centres.length = cols.length) (order order' : List Nat)
    (ho : DataIndex.Spec.Sorts n (cellNumber (dims cols) masked) order)
    (ho' : DataIndex.Spec.Sorts m (cellNumber (dims (Spec.pick f cols centres)) (fun j => masked (f j))) order') :
    ∃ out, aggregate k cols masked vals order = some out ∧
      aggregate k (Spec.pick f cols centres) (fun j => masked (f j)) (fun j => vals (f j)) order' = some out := by
  have hn : 0 < n := lt_of_le_of_lt (Nat.zero_le _) (hf 0 hm)
  obtain ⟨out, h1, h2⟩ := aggregate_cells k hk cols hne hok masked vals n hn order ho
  have hne' : Spec.pick f cols centres ≠ [] := by
    cases cols with
    | nil => exact absurd rfl hne
    | cons c t => cases centres with
      | nil => simp at hcen
      | cons x xs => simp [Spec.pick]
  obtain ⟨out', h1', h2'⟩ := aggregate_cells k hk _ hne' (pick_ok f cols centres hok) (fun j => masked (f j))
    (fun j => vals (f j)) m hm order' ho'
  refine ⟨out, h1, ?_⟩
  rw [h1']
  congr 1
  funext cell
  rw [h2, h2']
  apply hk.perm
  rw [show (fun j => vals (f j)) = vals ∘ f from rfl, ← List.map_map]
  apply List.Perm.map
  refine (List.perm_ext_iff_of_nodup ?_ (List.nodup_range.filter _)).2 ?_
  · apply List.Nodup.map_on _ (List.nodup_range.filter _)
    intro x hx y hy e
    unfold Spec.points at hx hy
    rw [List.mem_filter, List.mem_range] at hx hy
    exact hinj x hx.1 y hy.1 e
  · intro p
    unfold Spec.points
    simp only [List.mem_map, List.mem_filter, List.mem_range, inCell_pick f cols centres hcen, Bool.and_eq_true, Bool.not_eq_true']
    constructor
    · rintro ⟨j, ⟨hj, a, b⟩, rfl⟩
      exact ⟨hf j hj, a, b⟩
    · rintro ⟨hp, a, b⟩
      obtain ⟨j, hj, rfl⟩ := hall p hp a ⟨cell, b⟩
      exact ⟨j, ⟨hj, a, b⟩, rfl⟩

/-- **C131**. The aggregate of two data sets put together (the first `n` points and the next `m`) is, cell by cell, the combination
of their aggregates. -/
theorem c131_union {β : Type} (k : List ℚ → Option β) (comb : List β → Option β) (hk : Spec.Kernel k) (hd : Spec.Decomposes k comb)
    (cols : List Col) (hne : cols ≠ []) (hok : ∀ c ∈ cols, Spec.Req.Ok c.req) (masked : Nat → Bool) (vals : Nat → ℚ) (n m : Nat)
    (hn : 0 < n) (hm : 0 < m) (centres : List ℚ) (hcen : centres.length = cols.length) (order order1 order2 : List Nat)
    (ho : DataIndex.Spec.Sorts (n + m) (cellNumber (dims cols) masked) order)
    (ho1 : DataIndex.Spec.Sorts n (cellNumber (dims cols) masked) order1)
    (ho2 : DataIndex.Spec.Sorts m (cellNumber (dims (Spec.pick (n + ·) cols centres)) (fun j => masked (n + j))) order2) :
    ∃ out out1 out2, aggregate k cols masked vals order = some out ∧ aggregate k cols masked vals order1 = some out1 ∧
      aggregate k (Spec.pick (n + ·) cols centres) (fun j => masked (n + j)) (fun j => vals (n + j)) order2 = some out2 ∧
      ∀ cell, out cell = comb ([out1 cell, out2 cell].filterMap id) := by
  obtain ⟨out, h1, h2⟩ := aggregate_cells k hk cols hne hok masked vals (n + m) (by omega) order ho
  obtain ⟨out1, a1, a2⟩ := aggregate_cells k hk cols hne hok masked vals n hn order1 ho1
  have hne' : Spec.pick (n + ·) cols centres ≠ [] := by
    cases cols with
    | nil => exact absurd rfl hne
    | cons c t => cases centres with
      | nil => simp at hcen
      | cons x xs => simp [Spec.pick]
  obtain ⟨out2, b1, b2⟩ := aggregate_cells k hk _ hne' (pick_ok (n + ·) cols centres hok) (fun j => masked (n + j))
    (fun j => vals (n + j)) m hm order2 ho2
  refine ⟨out, out1, out2, h1, a1, b1, fun cell => ?_⟩
  rw [h2, a2, b2]
  have e : (Spec.points cols masked (n + m) cell).map vals = [(Spec.points cols masked n cell).map vals,
      (Spec.points (Spec.pick (n + ·) cols centres) (fun j => masked (n + j)) m cell).map (fun j => vals (n + j))].flatten := by
    unfold Spec.points
    rw [List.range_add, List.filter_append, List.map_append]
    simp only [List.flatten_cons, List.flatten_nil, List.append_nil]
    congr 1
    rw [List.filter_map, List.map_map]
    congr 1
    apply List.filter_congr
    intro j _
    simp only [Function.comp_apply, inCell_pick (n + ·) cols centres hcen]
  rw [e, hd]
  simp [List.filterMap_cons]

/-! ### Coarser grids -/

theorem interval_exact (s d x : ℚ) (hd : 0 < d) (M i : Nat) : Spec.inInterval (some (s, s + (M : ℚ) * d, d)) i x = true ↔
    i < M ∧ s ≤ x ∧ ⌊(x - s) / d⌋₊ = i := by
  simp only [Spec.inInterval, Bool.and_eq_true, decide_eq_true_eq]
  have hlt : s + (i : ℚ) * d < s + (M : ℚ) * d ↔ i < M := by
    rw [add_lt_add_iff_left, mul_lt_mul_iff_left₀ hd]; exact Nat.cast_lt
  rw [hlt]
  constructor
  · rintro ⟨⟨h1, h2⟩, h3⟩
    have h0 : (0 : ℚ) ≤ (i : ℚ) * d := by positivity
    refine ⟨h1, by linarith, ?_⟩
    have hend : x < s + ((i : ℚ) + 1) * d := by
      unfold Spec.cellEnd at h3
      split at h3
      · rename_i hle
        have hM : (M : ℚ) ≤ 1 := by
          have : (M : ℚ) * d ≤ 1 * d := by linarith
          exact le_of_mul_le_mul_right this hd
        have hM' : M ≤ 1 := by exact_mod_cast hM
        have : i = 0 := by omega
        have : M = 1 := by omega
        subst this; subst_vars; push_cast at h3 ⊢; linarith
      · exact h3
    rw [Nat.floor_eq_iff (by apply div_nonneg _ hd.le; linarith)]
    exact ⟨by rw [le_div_iff₀ hd]; linarith, by rw [div_lt_iff₀ hd]; linarith⟩
  · rintro ⟨h1, h2, h3⟩
    rw [Nat.floor_eq_iff (by apply div_nonneg _ hd.le; linarith), le_div_iff₀ hd, div_lt_iff₀ hd] at h3
    refine ⟨⟨h1, by linarith [h3.1]⟩, ?_⟩
    unfold Spec.cellEnd
    split
    · have hM : ((i : ℚ) + 1) ≤ M := by exact_mod_cast h1
      have : ((i : ℚ) + 1) * d ≤ M * d := mul_le_mul_of_nonneg_right hM hd.le
      linarith [h3.2]
    · linarith [h3.2]

/-- A cell of the coarse grid along one coordinate consists of `m` cells of the fine one. -/
theorem interval_coarsen (c : Col) (m : Nat) (h : Spec.Divides c m) (j : Nat) (x : ℚ) :
    Spec.inInterval (c.req.map (fun g => (g.1, g.2.1, (m : ℚ) * g.2.2))) j x = true ↔ ∃ i < m, Spec.inInterval c.req (j * m + i) x = true := by
  obtain ⟨hm, h⟩ := h
  cases hr : c.req with
  | none =>
    rw [hr] at h
    dsimp only at h
    subst h
    simp [Spec.inInterval]
  | some r =>
    obtain ⟨s, e, d⟩ := r
    rw [hr] at h
    obtain ⟨hd, N, hN, rfl⟩ := h
    have hmq : (0 : ℚ) < m := by exact_mod_cast hm
    have e1 : Spec.inInterval (Option.map (fun g : ℚ × ℚ × ℚ => (g.1, g.2.1, (m : ℚ) * g.2.2)) (some (s, s + (N : ℚ) * (m * d), d))) j x = true ↔
        j < N ∧ s ≤ x ∧ ⌊(x - s) / (m * d)⌋₊ = j := interval_exact s (m * d) x (by positivity) N j
    have e2 : ∀ i, Spec.inInterval (some (s, s + (N : ℚ) * (m * d), d)) i x = true ↔ i < N * m ∧ s ≤ x ∧ ⌊(x - s) / d⌋₊ = i := by
      intro i
      have := interval_exact s d x hd (N * m) i
      push_cast at this
      rwa [mul_assoc] at this
    rw [e1]
    simp only [e2]
    have hfl : ⌊(x - s) / (m * d)⌋₊ = ⌊(x - s) / d⌋₊ / m := by
      rw [← Nat.floor_div_natCast, div_div, mul_comm]
    rw [hfl]
    constructor
    · rintro ⟨h1, h2, h3⟩
      refine ⟨⌊(x - s) / d⌋₊ % m, Nat.mod_lt _ hm, ?_, h2, ?_⟩
      · rw [← h3]
        have := Nat.mod_lt ⌊(x - s) / d⌋₊ hm
        calc _ < ⌊(x - s) / d⌋₊ / m * m + m := by omega
          _ = (⌊(x - s) / d⌋₊ / m + 1) * m := by ring
          _ ≤ N * m := Nat.mul_le_mul_right _ (by omega)
      · rw [← h3]
        have := Nat.div_add_mod ⌊(x - s) / d⌋₊ m
        rw [mul_comm] at this
        exact this.symm
    · rintro ⟨i, hi, h1, h2, h3⟩
      have hq : ⌊(x - s) / d⌋₊ / m = j := by
        rw [h3, Nat.add_comm, Nat.add_mul_div_right _ _ hm, Nat.div_eq_of_lt hi]; omega
      refine ⟨?_, h2, hq⟩
      by_contra hge
      have : N * m ≤ j * m := Nat.mul_le_mul_right _ (by omega)
      omega

theorem inCell_coarsen : ∀ (cols : List Col) (ms : List Nat), List.Forall₂ Spec.Divides cols ms → ∀ (cell : List Nat) (p : Nat),
    Spec.inCell (Spec.coarsen cols ms) cell p = true ↔ ∃ fine ∈ Spec.block ms cell, Spec.inCell cols fine p = true := by
  intro cols ms h
  induction h with
  | nil =>
    intro cell p
    cases cell <;> simp [Spec.coarsen, Spec.inCell, Spec.block]
  | @cons c m t ms hcm _ ih =>
    intro cell p
    cases cell with
    | nil => simp [Spec.coarsen, Spec.inCell, Spec.block]
    | cons j js =>
      rw [Spec.coarsen, Spec.inCell, Bool.and_eq_true, ih]
      dsimp only
      rw [interval_coarsen c m hcm, Spec.block]
      simp only [List.mem_flatMap, List.mem_range, List.mem_map]
      constructor
      · rintro ⟨⟨i, hi, h1⟩, fine, hf, h2⟩
        exact ⟨(j * m + i) :: fine, ⟨i, hi, fine, hf, rfl⟩, by rw [Spec.inCell, h1, h2]; rfl⟩
      · rintro ⟨_, ⟨i, hi, fine, hf, rfl⟩, h⟩
        rw [Spec.inCell, Bool.and_eq_true] at h
        exact ⟨⟨i, hi, h.1⟩, fine, hf, h.2⟩

theorem nodup_block : ∀ (ms cell : List Nat), (Spec.block ms cell).Nodup
  | [], [] => by simp [Spec.block]
  | [], _ :: _ => by simp [Spec.block]
  | _ :: _, [] => by simp [Spec.block]
  | m :: ms, j :: js => by
    unfold Spec.block
    rw [List.nodup_flatMap]
    refine ⟨fun i _ => (nodup_block ms js).map (fun a b h => by simpa using h), ?_⟩
    refine List.Pairwise.imp ?_ (List.nodup_range (n := m))
    intro a b hab
    simp only [Function.onFun]
    rw [List.disjoint_left]
    intro x hx hy
    obtain ⟨r, -, rfl⟩ := List.mem_map.1 hx
    obtain ⟨r', -, e⟩ := List.mem_map.1 hy
    simp only [List.cons.injEq] at e
    omega

theorem divides_ok {c : Col} {m : Nat} (h : Spec.Divides c m) : Spec.Req.Ok c.req ∧ Spec.Req.Ok (c.req.map (fun g => (g.1, g.2.1, (m : ℚ) * g.2.2))) := by
  obtain ⟨hm, h⟩ := h
  have hmq : (0 : ℚ) < m := by exact_mod_cast hm
  cases hr : c.req with
  | none => exact ⟨trivial, trivial⟩
  | some r =>
    obtain ⟨s, e, d⟩ := r
    rw [hr] at h
    obtain ⟨hd, N, hN, rfl⟩ := h
    have hNq : (0 : ℚ) < N := by exact_mod_cast hN
    have hpos : 0 < (N : ℚ) * (m * d) := by positivity
    exact ⟨⟨by linarith, hd⟩, ⟨by dsimp only; linarith, by dsimp only; positivity⟩⟩

theorem coarsen_ok : ∀ (cols : List Col) (ms : List Nat), List.Forall₂ Spec.Divides cols ms →
    (∀ c ∈ cols, Spec.Req.Ok c.req) ∧ (∀ c ∈ Spec.coarsen cols ms, Spec.Req.Ok c.req) ∧ (cols ≠ [] → Spec.coarsen cols ms ≠ []) := by
  intro cols ms h
  induction h with
  | nil => simp [Spec.coarsen]
  | @cons c m t ms hcm _ ih =>
    refine ⟨?_, ?_, by simp [Spec.coarsen]⟩
    · intro c' hc'
      rcases List.mem_cons.1 hc' with rfl | hc'
      · exact (divides_ok hcm).1
      · exact ih.1 c' hc'
    · intro c' hc'
      rw [Spec.coarsen] at hc'
      rcases List.mem_cons.1 hc' with rfl | hc'
      · exact (divides_ok hcm).2
      · exact ih.2.1 c' hc'

/-- **C131**. On a grid with steps that are multiples of those of a finer grid with the same ranges, which are whole numbers of the
wide steps, the value of a cell is the combination of the values of the fine cells that make it up. -/
theorem c131_coarsen {β : Type} (k : List ℚ → Option β) (comb : List β → Option β) (hk : Spec.Kernel k) (hd : Spec.Decomposes k comb)
    (cols : List Col) (hne : cols ≠ []) (ms : List Nat) (hdiv : List.Forall₂ Spec.Divides cols ms) (masked : Nat → Bool) (vals : Nat → ℚ)
    (n : Nat) (hn : 0 < n) (order order' : List Nat) (ho : DataIndex.Spec.Sorts n (cellNumber (dims cols) masked) order)
    (ho' : DataIndex.Spec.Sorts n (cellNumber (dims (Spec.coarsen cols ms)) masked) order') :
    ∃ fine coarse, aggregate k cols masked vals order = some fine ∧ aggregate k (Spec.coarsen cols ms) masked vals order' = some coarse ∧
      ∀ cell, coarse cell = comb ((Spec.block ms cell).filterMap fine) := by
  obtain ⟨hok, hok', hne'⟩ := coarsen_ok cols ms hdiv
  obtain ⟨fine, h1, h2⟩ := aggregate_cells k hk cols hne hok masked vals n hn order ho
  obtain ⟨coarse, h1', h2'⟩ := aggregate_cells k hk _ (hne' hne) hok' masked vals n hn order' ho'
  refine ⟨fine, coarse, h1, h1', fun cell => ?_⟩
  rw [h2']
  have hperm : (Spec.points (Spec.coarsen cols ms) masked n cell).Perm ((Spec.block ms cell).map (Spec.points cols masked n)).flatten := by
    refine (List.perm_ext_iff_of_nodup (List.nodup_range.filter _) ?_).2 ?_
    · rw [← List.flatMap_def, List.nodup_flatMap]
      refine ⟨fun c _ => List.nodup_range.filter _, ?_⟩
      refine List.Pairwise.imp ?_ (nodup_block ms cell)
      intro a b hab
      simp only [Function.onFun]
      rw [List.disjoint_left]
      intro p hp hp'
      unfold Spec.points at hp hp'
      simp only [List.mem_filter, Bool.and_eq_true] at hp hp'
      exact hab (inCell_unique cols hok a b p hp.2.2 hp'.2.2)
    · intro p
      rw [← List.flatMap_def, List.mem_flatMap]
      unfold Spec.points
      simp only [List.mem_filter, List.mem_range, Bool.and_eq_true, inCell_coarsen cols ms hdiv]
      constructor
      · rintro ⟨a, b, c, hc, hc'⟩; exact ⟨c, hc, a, b, hc'⟩
      · rintro ⟨c, hc, a, b, hc'⟩; exact ⟨a, b, c, hc, hc'⟩
  rw [hk.perm _ _ (hperm.map vals), List.map_flatten, hd, List.map_map, List.filterMap_map]
  congr 1
  apply List.filterMap_congr
  intro c _
  rw [h2]; rfl

/-- C131 is violated when the range is not a whole number of the wide steps: the last wide cell reaches beyond the last fine one
and contains a point that is not in the fine grid. -/
theorem c131_coarsen_violated : ∃ (cols : List Col) (ms order order' : List Nat) (vals : Nat → ℚ),
    (∀ c ∈ cols, Spec.Req.Ok c.req) ∧ DataIndex.Spec.Sorts 2 (cellNumber (dims cols) (fun _ => false)) order ∧
    DataIndex.Spec.Sorts 2 (cellNumber (dims (Spec.coarsen cols ms)) (fun _ => false)) order' ∧
    (aggregate numKernel cols (fun _ => false) vals order).map (fun out => [[0], [1], [2], [3], [4]].map out) = some [some 1, none, none, none, none] ∧
    (aggregate numKernel (Spec.coarsen cols ms) (fun _ => false) vals order').map (fun out => [[0], [1], [2]].map out) = some [some 1, some 1, none] := by
  refine ⟨[⟨some (0, 25, 10), 0, fun p => [5, 35].getD p 0⟩], [2], [1, 0], [0, 1], fun p => p, ?_, ⟨by decide, by decide +kernel⟩,
    ⟨by decide, by decide +kernel⟩, by decide +kernel, by decide +kernel⟩
  intro c hc
  simp only [List.mem_singleton] at hc
  subst hc
  exact ⟨by norm_num, by norm_num⟩

/-- C131 is violated when no point is left: aggregating data whose points are all outside the grid gives missing cells, but
aggregating what remains of them after subsetting to the grid fails. -/
theorem c131_empty_violated : ∃ (cols : List Col) (order : List Nat), DataIndex.Spec.Sorts 1 (cellNumber (dims cols) (fun _ => false)) order ∧
    (aggregate numKernel cols (fun _ => false) (fun p => p) order).map (fun out => out [0]) = some none ∧
    aggregate numKernel cols (fun _ => false) (fun p => p) [] = none := by
  refine ⟨[⟨some (0, 10, 10), 0, fun _ => 20⟩], [0], ⟨by decide, by decide +kernel⟩, by decide +kernel, rfl⟩

/-! ### The hypotheses are met -/

def fineCols : List Col := [⟨some (0, 40, 10), 0, fun p => [5, 12, 29, 33, 50].getD p 0⟩, ⟨none, 0, fun p => [1, 2, 3, 4, 5].getD p 0⟩]

example : List.Forall₂ Spec.Divides fineCols [2, 1] := by
  refine .cons ⟨by norm_num, by norm_num, 2, by norm_num, by norm_num⟩ (.cons ⟨by norm_num, rfl⟩ .nil)

example : DataIndex.Spec.Sorts 5 (cellNumber (dims fineCols) (fun _ => false)) [4, 0, 1, 2, 3] ∧
    DataIndex.Spec.Sorts 5 (cellNumber (dims (Spec.coarsen fineCols [2, 1])) (fun _ => false)) [4, 0, 1, 2, 3] ∧
    (aggregate sumKernel fineCols (fun _ => false) (fun p => p + 1) [4, 0, 1, 2, 3]).map
      (fun out => [[0, 0], [1, 0], [2, 0], [3, 0]].map out) = some [some 1, some 2, some 3, some 4] ∧
    (aggregate sumKernel (Spec.coarsen fineCols [2, 1]) (fun _ => false) (fun p => p + 1) [4, 0, 1, 2, 3]).map
      (fun out => [[0, 0], [1, 0]].map out) = some [some 3, some 7] ∧ Spec.block [2, 1] [1, 0] = [[2, 0], [3, 0]] := by
  refine ⟨⟨by decide, by decide +kernel⟩, ⟨by decide, by decide +kernel⟩, by decide +kernel, by decide +kernel, by decide⟩

/-- The points in the grid only, in another order. -/
example : (aggregate sumKernel (Spec.pick (fun j => [3, 1, 0, 2].getD j 0) fineCols [0, 0]) (fun _ => false)
    (fun j => (([3, 1, 0, 2].getD j 0 : Nat) : ℚ) + 1) [2, 1, 3, 0]).map (fun out => [[0, 0], [1, 0], [2, 0], [3, 0]].map out) =
      some [some 1, some 2, some 3, some 4] := by decide +kernel

end Cis.Agg
