import Verif.KDTree.Spec
import Verif.KDTree.QueryLemmas2
set_option linter.unusedSectionVars false
set_option linter.unusedSimpArgs false
/-! Properties C06-C12: k-d tree queries equal exhaustive search.

All statements are about real coordinates, any dimension `m ≥ 1`, any number of points `n ≥ 1`, any leaf size `≥ 1`. The
tree is the one `mkTree` returns (by C06 it always returns one). -/
namespace Cis.KDTree
open Spec (Exponent)
variable {m : Nat}

/-- The argument `p` of the code for each exponent. -/
noncomputable def normOf : Exponent → PNorm ℝ
  | .infinity => .inf
  | .finite p => .real p

theorem normOf_valid {e : Exponent} (h : e.Ok) : (normOf e).Valid := by
  cases e with
  | infinity => trivial
  | finite p => exact PNorm.real_valid p h

/-- The code's `minkowski_distance` is the textbook distance. -/
theorem normOf_dist {e : Exponent} (h : e.Ok) (x y : Pt m ℝ) : (normOf e).dist x y = Spec.dist e x y := by
  cases e with
  | infinity =>
    simp only [normOf, PNorm.dist, PNorm.root, PNorm.distP, Spec.dist]
    apply le_antisymm
    · apply foldl_max_le_of
      · exact Real.iSup_nonneg (fun i => abs_nonneg _)
      · intro i _
        rw [abs_sub_comm]
        exact le_ciSup (f := fun i => |x i - y i|) (Finite.bddAbove_range _) i
    · apply Real.iSup_le
      · intro i
        rw [abs_sub_comm]
        exact foldl_max_le (fun i => |y i - x i|) (List.finRange m) 0 i (List.mem_finRange i)
      · exact foldl_max_le_init _ _ _
  | finite p =>
    simp only [normOf, Spec.dist]
    rw [PNorm.real_dist p h]
    simp only [abs_sub_comm]

/-- The metric used by the tree code for an exponent. -/
noncomputable def metricOf (e : Exponent) (h : e.Ok) : Metric m ℝ := (normOf e).toMetric (normOf_valid h)

theorem metricOf_dist (e : Exponent) (h : e.Ok) (x y : Pt m ℝ) : (metricOf e h).dist x y = Spec.dist e x y := by
  rw [metricOf, PNorm.toMetric_dist, normOf_dist h]

theorem spec_dist_comm (e : Exponent) (x y : Pt m ℝ) : Spec.dist e x y = Spec.dist e y x := by
  cases e <;> simp only [Spec.dist, abs_sub_comm]

theorem inCells_of {K : Type} [Field K] [LinearOrder K] [IsStrictOrderedRing K] (data : Nat → Pt m K) (t : Tree m K)
    (lo hi : Pt m K) (h : Splits data t) (hb : ∀ i ∈ t.indices, ∀ d, lo d ≤ data i d ∧ data i d ≤ hi d) :
    Spec.InCells data t lo hi := by
  induction t generalizing lo hi with
  | leaf idx => exact hb
  | inner d s l g hl hg =>
    obtain ⟨h1, h2, h3, h4⟩ := h
    constructor
    · apply hl _ _ h3
      intro i hi' d'
      have := hb i (by simp [Tree.indices, hi']) d'
      refine ⟨this.1, ?_⟩
      rw [Function.update_apply]; split
      · rename_i he; subst he; exact h1 i hi'
      · exact this.2
    · apply hg _ _ h4
      intro i hi' d'
      have := hb i (by simp [Tree.indices, hi']) d'
      refine ⟨?_, this.2⟩
      rw [Function.update_apply]; split
      · rename_i he; subst he; exact h2 i hi'
      · exact this.1

/-- C06. Construction never fails (termination is part of the definition of `build`), every point is in exactly one leaf,
each leaf holds only points of its cell, and each node records the number of points below it. -/
theorem c06_build (n : Nat) (data : Nat → Pt m ℝ) (leafsize : Nat) (hm : 0 < m) (hn : 0 < n) (hl : 1 ≤ leafsize) :
    ∃ T, mkTree n data leafsize = .ok T ∧ T.n = n ∧ T.data = data ∧
      T.tree.indices.Perm (List.range n) ∧
      (∀ i < n, ∀ d, T.mins d ≤ data i d ∧ data i d ≤ T.maxes d) ∧
      Spec.InCells data T.tree T.mins T.maxes ∧
      (∀ t, Spec.IsNode t T.tree → t.children = Spec.leafTotal t) := by
  obtain ⟨T, h1, h2, h3, h4⟩ := mkTree_ok n data leafsize hm hn hl
  subst h2; subst h3
  refine ⟨T, h1, rfl, rfl, h4.perm, h4.box, ?_, ?_⟩
  · exact inCells_of _ _ _ _ h4.good.splits (fun i hi => h4.box i ((h4.mem i).1 hi))
  · intro t ht
    clear ht
    induction t with
    | leaf => rfl
    | inner d s l g hl hg => simp only [Tree.children, Spec.leafTotal, *]

/-- C06, rejected arguments: an invalid leaf size or an empty data set is an error, and these are the only errors. -/
theorem c06_build_error (n : Nat) (data : Nat → Pt m ℝ) (leafsize : Nat) (hm : 0 < m) :
    (∃ err, mkTree n data leafsize = .error err) ↔ leafsize = 0 ∨ n = 0 := by
  constructor
  · rintro ⟨err, h⟩
    by_contra hc
    obtain ⟨T, h1, -⟩ := mkTree_ok n data leafsize hm (by omega) (by omega)
    rw [h1] at h; cases h
  · intro h
    unfold mkTree
    by_cases hl : leafsize < 1
    · exact ⟨_, if_pos hl⟩
    · rw [if_neg hl]
      have : n = 0 := by omega
      exact ⟨_, if_pos this⟩

theorem ok_of_mkTree {n : Nat} {data : Nat → Pt m ℝ} {leafsize : Nat} {T : KD m ℝ} (hm : 0 < m)
    (h : mkTree n data leafsize = .ok T) : T.n = n ∧ T.data = data ∧ TreeOK T := by
  have hn : ¬ (leafsize = 0 ∨ n = 0) := by
    intro hc
    obtain ⟨err, he⟩ := (c06_build_error n data leafsize hm).2 hc
    rw [h] at he; cases he
  obtain ⟨T', h1, h2, h3, h4⟩ := mkTree_ok n data leafsize hm (by omega) (by omega)
  rw [h] at h1; cases h1; exact ⟨h2, h3, h4⟩

/-- C07. The ball query returns exactly the points within distance `r`, each once. -/
theorem c07_query_ball_point (e : Exponent) (he : e.Ok) (hm : 0 < m) (n : Nat) (data : Nat → Pt m ℝ) (leafsize : Nat)
    (T : KD m ℝ) (hT : mkTree n data leafsize = .ok T) (x : Pt m ℝ) (r : ℝ) :
    (T.queryBallPoint (metricOf e he) x r 0).Nodup ∧
    ∀ i, i ∈ T.queryBallPoint (metricOf e he) x r 0 ↔ i < n ∧ Spec.dist e (data i) x ≤ r := by
  obtain ⟨rfl, rfl, ok⟩ := ok_of_mkTree hm hT
  unfold KD.queryBallPoint
  rw [ballPoint_exact _ _ _ _ _ _ ok.good]
  refine ⟨ok.nodup.filter _, ?_⟩
  intro i
  rw [List.mem_filter, ok.mem, decide_eq_true_eq, metricOf_dist]

/-- C07, approximate variant (`eps ≥ 0`): everything within `r / (1 + eps)` is returned, nothing beyond `r * (1 + eps)`. -/
theorem c07_query_ball_point_eps (e : Exponent) (he : e.Ok) (hm : 0 < m) (n : Nat) (data : Nat → Pt m ℝ)
    (leafsize : Nat) (T : KD m ℝ) (hT : mkTree n data leafsize = .ok T) (x : Pt m ℝ) (r eps : ℝ) (hr : 0 ≤ r)
    (heps : 0 ≤ eps) :
    (∀ i < n, Spec.dist e (data i) x ≤ r / (1 + eps) → i ∈ T.queryBallPoint (metricOf e he) x r eps) ∧
    (∀ i ∈ T.queryBallPoint (metricOf e he) x r eps, i < n ∧ Spec.dist e (data i) x ≤ r * (1 + eps)) := by
  obtain ⟨rfl, rfl, ok⟩ := ok_of_mkTree hm hT
  have := ballPoint_approx (metricOf e he) T.data x r eps heps hr T.tree _ ok.good
  simp only [metricOf_dist, ok.mem] at this
  exact this

/-- C08. The tree-tree query returns, for each point of the first tree, exactly the points of the second tree within `r`. -/
theorem c08_query_ball_tree (e : Exponent) (he : e.Ok) (hm : 0 < m) (n1 n2 : Nat) (data1 data2 : Nat → Pt m ℝ)
    (leaf1 leaf2 : Nat) (T1 T2 : KD m ℝ) (h1 : mkTree n1 data1 leaf1 = .ok T1) (h2 : mkTree n2 data2 leaf2 = .ok T2)
    (r : ℝ) (i : Nat) (hi : i < n1) :
    (T1.queryBallTree T2 (metricOf e he) r 0 i).Nodup ∧
    ∀ j, j ∈ T1.queryBallTree T2 (metricOf e he) r 0 i ↔ j < n2 ∧ Spec.dist e (data1 i) (data2 j) ≤ r := by
  obtain ⟨rfl, rfl, ok1⟩ := ok_of_mkTree hm h1
  obtain ⟨rfl, rfl, ok2⟩ := ok_of_mkTree hm h2
  unfold KD.queryBallTree
  rw [checkTree_exact _ _ _ _ _ _ _ _ _ ok1.good ok2.good ok1.nodup, if_pos ((ok1.mem i).2 hi)]
  simp only [List.nil_append]
  refine ⟨ok2.nodup.filter _, ?_⟩
  intro j
  rw [List.mem_filter, ok2.mem, decide_eq_true_eq, metricOf_dist, spec_dist_comm]

/-- C09. The pair query returns exactly the pairs `i < j` of points within `r` of each other. -/
theorem c09_query_pairs (e : Exponent) (he : e.Ok) (hm : 0 < m) (n : Nat) (data : Nat → Pt m ℝ) (leafsize : Nat)
    (T : KD m ℝ) (hT : mkTree n data leafsize = .ok T) (r : ℝ) (i j : Nat) :
    (i, j) ∈ T.queryPairs (metricOf e he) r 0 ↔ i < j ∧ j < n ∧ Spec.dist e (data i) (data j) ≤ r := by
  obtain ⟨rfl, rfl, ok⟩ := ok_of_mkTree hm hT
  unfold KD.queryPairs
  rw [checkPairs_mem _ _ _ _ _ _ _ _ _ _ (Or.inl ⟨rfl, rfl⟩) (fun _ => rfl) ok.good ok.good]
  simp only [PairRel, List.not_mem_nil, false_or, ok.mem, not_true_eq_false, false_and, or_false, metricOf_dist]
  constructor
  · rintro ⟨a, b, -, c⟩; exact ⟨a, c, b⟩
  · rintro ⟨a, b, c⟩; exact ⟨a, c, by omega, b⟩

/-- C10. Each entry of the result is the number of pairs within the corresponding radius. -/
theorem c10_count_neighbors (e : Exponent) (he : e.Ok) (hm : 0 < m) (n1 n2 : Nat) (data1 data2 : Nat → Pt m ℝ)
    (leaf1 leaf2 : Nat) (T1 T2 : KD m ℝ) (h1 : mkTree n1 data1 leaf1 = .ok T1) (h2 : mkTree n2 data2 leaf2 = .ok T2)
    (radii : List ℝ) :
    T1.countNeighbors T2 (metricOf e he) radii =
      radii.map (fun r => ((List.range n1 ×ˢ List.range n2).countP
        (fun ij => decide (Spec.dist e (data1 ij.1) (data2 ij.2) ≤ r)))) := by
  obtain ⟨rfl, rfl, ok1⟩ := ok_of_mkTree hm h1
  obtain ⟨rfl, rfl, ok2⟩ := ok_of_mkTree hm h2
  have key : ∀ r, pairCount (metricOf e he) T1.data T2.data r T1.tree.indices T2.tree.indices =
      (List.range T1.n ×ˢ List.range T2.n).countP
        (fun ij => decide (Spec.dist e (T1.data ij.1) (T2.data ij.2) ≤ r)) := by
    intro r
    rw [pairCount_perm _ _ _ _ ok1.perm ok2.perm, pairCount]
    simp only [SProd.sprod, List.product, List.countP_flatMap, List.countP_map, metricOf_dist, Function.comp_def]
  unfold KD.countNeighbors
  apply List.ext_getElem
  · simp
  · intro k hk1 hk2
    have hk : k < radii.length := by simpa using hk1
    simp only [List.getElem_map, List.getElem_range]
    rw [countTraverse_eq _ _ _ _ _ _ _ _ _ _ ok1.good ok2.good, if_pos (List.mem_range.2 hk), key]
    simp [List.getD_eq_getElem?_getD, hk]

/-- C11. The `k` nearest neighbour search ends, and the distances it returns are the `k` smallest ones below the bound (all
of them if `k` is `None`), in ascending order; each is attained by the index returned with it, and indices are distinct.
`pop` is any queue that removes an entry of least distance; the bound is non-negative or infinite. -/
theorem c11_query (e : Exponent) (he : e.Ok) (hm : 0 < m) (n : Nat) (data : Nat → Pt m ℝ) (leafsize : Nat)
    (T : KD m ℝ) (hT : mkTree n data leafsize = .ok T) (pop : Pop m ℝ) (hpop : PopOK pop) (x : Pt m ℝ)
    (k : Option Nat) (hk : k ≠ some 0) (bound : WithTop ℝ) (hb : 0 ≤ bound) (fuel : Nat) (hf : T.tree.size < fuel) :
    ∃ hits, T.query' (normOf e) pop x k bound fuel = some hits ∧
      (∀ h ∈ hits, h.2 < n ∧ h.1 = Spec.dist e (data h.2) x) ∧
      (hits.map Prod.snd).Nodup ∧
      hits.map Prod.fst =
        (match k with
         | none => id
         | some k => List.take k)
        ((((List.range n).map (fun i => Spec.dist e (data i) x)).filter
          (fun d : ℝ => decide ((d : WithTop ℝ) < bound))).insertionSort (· ≤ ·)) := by
  obtain ⟨rfl, rfl, ok⟩ := ok_of_mkTree hm hT
  obtain ⟨hits, h1, h2, h3, -, h5⟩ := query'_spec (normOf_valid he) T ok pop hpop x k hk bound hb fuel hf
  simp only [normOf_dist he] at h3 h5
  exact ⟨hits, h1, h3, h2, h5⟩

/-- C11, padding of `query` for a single point and `k ≥ 1`: entry `j` is the `j`-th hit, and beyond the hits the distance
is infinite and the index is `n`. -/
theorem c11_query_padding (e : Exponent) (he : e.Ok) (hm : 0 < m) (n : Nat) (data : Nat → Pt m ℝ) (leafsize : Nat)
    (T : KD m ℝ) (hT : mkTree n data leafsize = .ok T) (pop : Pop m ℝ) (hpop : PopOK pop) (x : Pt m ℝ)
    (k : Nat) (hk : 1 ≤ k) (bound : WithTop ℝ) (hb : 0 ≤ bound) (fuel : Nat) (hf : T.tree.size < fuel) :
    ∃ dd ii, T.query (normOf e) pop x k bound fuel = some (dd, ii) ∧ dd.length = k ∧ ii.length = k ∧
      ∀ j < k,
        (match (((List.range n).map (fun i => Spec.dist e (data i) x)).filter
            (fun d : ℝ => decide ((d : WithTop ℝ) < bound))).insertionSort (· ≤ ·) |>.drop j with
        | d :: _ => dd[j]? = some (d : WithTop ℝ) ∧ ∃ i, i < n ∧ ii[j]? = some i ∧ Spec.dist e (data i) x = d
        | [] => dd[j]? = some ⊤ ∧ ii[j]? = some n) := by
  obtain ⟨hits, h1, h2, -, h4⟩ := c11_query e he hm n data leafsize T hT pop hpop x (some k) (by simp; omega) bound hb
    fuel hf
  have hTn : T.n = n := (ok_of_mkTree hm hT).1
  refine ⟨_, _, by unfold KD.query; rw [h1], by simp, by simp, ?_⟩
  intro j hj
  obtain ⟨L, hL⟩ : ∃ L, L = (((List.range n).map (fun i => Spec.dist e (data i) x)).filter
            (fun d : ℝ => decide ((d : WithTop ℝ) < bound))).insertionSort (· ≤ ·) := ⟨_, rfl⟩
  simp only at h4
  rw [← hL] at h4 ⊢
  have hj1 : (hits.map Prod.fst)[j]? = L[j]? := by
    rw [h4, List.getElem?_take, if_pos hj]
  rw [List.getElem?_map] at hj1
  cases hd : L.drop j with
  | nil =>
    have : L.length ≤ j := List.drop_eq_nil_iff.1 hd
    rw [List.getElem?_eq_none this] at hj1
    have hn : hits[j]? = none := by simpa using hj1
    simp [hj, hn, hTn]
  | cons d t =>
    have hLj : L[j]? = some d := by
      have := List.getElem?_drop (xs := L) (i := j) (j := 0)
      rw [hd] at this; simpa using this.symm
    rw [hLj] at hj1
    obtain ⟨h, hh, rfl⟩ : ∃ h, hits[j]? = some h ∧ h.1 = d := by
      cases hc : hits[j]? with
      | none => rw [hc] at hj1; simp at hj1
      | some h => rw [hc] at hj1; exact ⟨h, rfl, by simpa using hj1⟩
    have hmem := List.mem_of_getElem? hh
    refine ⟨by simp [hj, hh], h.2, (h2 h hmem).1, by simp [hj, hh], (h2 h hmem).2.symm⟩

/-- C12. An entry of the sparse distance matrix is the distance if that is at most the threshold, else zero (absent). -/
theorem c12_sparse_distance_matrix (e : Exponent) (he : e.Ok) (hm : 0 < m) (n1 n2 : Nat) (data1 data2 : Nat → Pt m ℝ)
    (leaf1 leaf2 : Nat) (T1 T2 : KD m ℝ) (h1 : mkTree n1 data1 leaf1 = .ok T1) (h2 : mkTree n2 data2 leaf2 = .ok T2)
    (maxd : ℝ) (i j : Nat) :
    T1.sparseDistanceMatrix T2 (metricOf e he) maxd i j =
      if i < n1 ∧ j < n2 ∧ Spec.dist e (data1 i) (data2 j) ≤ maxd then Spec.dist e (data1 i) (data2 j) else 0 := by
  obtain ⟨rfl, rfl, ok1⟩ := ok_of_mkTree hm h1
  obtain ⟨rfl, rfl, ok2⟩ := ok_of_mkTree hm h2
  unfold KD.sparseDistanceMatrix
  rw [sparseTraverse_eq _ _ _ _ _ _ _ _ _ ok1.good ok2.good]
  simp only [ok1.mem, ok2.mem, metricOf_dist]

/-- C12. The dense distance matrix does not depend on the threshold that selects the algorithm, nor on the initial contents
of the buffer. -/
theorem c12_distance_matrix (e : Exponent) (he : e.Ok) (M N : Nat) (x y : Nat → Pt m ℝ) (threshold : Nat)
    (junk : Nat → Nat → ℝ) (i j : Nat) (hi : i < M) (hj : j < N) :
    distanceMatrix (normOf e) M N x y threshold junk i j = Spec.dist e (x i) (y j) := by
  have rows : ∀ (l : List Nat) (res : Nat → Nat → ℝ),
      (l.foldl (fun res i => fun a b => if a = i then (normOf e).dist (x i) (y b) else res a b) res) i j
      = if i ∈ l then (normOf e).dist (x i) (y j) else res i j := by
    intro l
    induction l with
    | nil => intro res; simp
    | cons a t ih =>
      intro res
      rw [List.foldl_cons, ih]
      by_cases h1 : i ∈ t
      · simp [h1]
      · by_cases h2 : i = a
        · subst h2; simp [h1]
        · simp [h1, h2]
  have cols : ∀ (l : List Nat) (res : Nat → Nat → ℝ),
      (l.foldl (fun res j => fun a b => if b = j then (normOf e).dist (x a) (y j) else res a b) res) i j
      = if j ∈ l then (normOf e).dist (x i) (y j) else res i j := by
    intro l
    induction l with
    | nil => intro res; simp
    | cons a t ih =>
      intro res
      rw [List.foldl_cons, ih]
      by_cases h1 : j ∈ t
      · simp [h1]
      · by_cases h2 : j = a
        · subst h2; simp [h1]
        · simp [h1, h2]
  unfold distanceMatrix
  split
  · exact normOf_dist he _ _
  · split
    · rw [rows, if_pos (List.mem_range.2 hi), normOf_dist he]
    · rw [cols, if_pos (List.mem_range.2 hj), normOf_dist he]

/-! ### The hypotheses are satisfiable: three points of the plane (two of them equal), leaf size 1, `p = 2`. -/

/-- Sample points. -/
def samplePts : Nat → Pt 2 ℝ := fun i => if i = 2 then ![3, 4] else ![0, 0]

example : ∃ T, mkTree 3 samplePts 1 = .ok T ∧
    (∀ i, i ∈ T.queryBallPoint (metricOf (.finite 2) (by norm_num [Exponent.Ok])) ![0, 0] 5 0 ↔ i < 3) := by
  obtain ⟨T, hT, -⟩ := c06_build 3 samplePts 1 (by norm_num) (by norm_num) le_rfl
  refine ⟨T, hT, fun i => ?_⟩
  rw [(c07_query_ball_point (.finite 2) (by norm_num [Exponent.Ok]) (by norm_num) 3 samplePts 1 T hT ![0, 0] 5).2 i]
  constructor
  · exact fun h => h.1
  · intro h
    refine ⟨h, ?_⟩
    have : Spec.dist (.finite 2) (samplePts i) ![0, 0] = if i = 2 then 5 else 0 := by
      simp only [Spec.dist, samplePts]
      by_cases h2 : i = 2
      · simp only [h2, if_true, Fin.sum_univ_two, Matrix.cons_val_zero, Matrix.cons_val_one, sub_zero]
        norm_num
      · simp [h2]
    rw [this]; split <;> norm_num

example : PopOK (scanPop : Pop 2 ℝ) := scanPop_ok
example : (Exponent.finite (3 / 2)).Ok ∧ Exponent.infinity.Ok := by norm_num [Exponent.Ok]

end Cis.KDTree
