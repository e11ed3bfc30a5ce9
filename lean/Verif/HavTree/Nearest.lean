import Verif.HavTree.Violations
import Mathlib.Tactic.NormNum
import Mathlib.Tactic.FinCases
set_option linter.unusedSectionVars false
set_option linter.unusedSimpArgs false
/-! Property C59: lookup of the nearest data point (kernel `nn_horizontal_only`). -/
namespace Cis.HavTree
open Real Cis.Geo Cis.KDTree

/-- Twelve data points on the equator: one at 60, ten at 330 and one at 350 degrees. -/
noncomputable def nearData (i : Nat) : Pt 2 ℝ := ![0, if i = 0 then 60 else if i = 11 then 350 else 330]

theorem nearMax : colMax 12 nearData = ![0, 350] := by
  funext d
  fin_cases d <;> norm_num [colMax, nearData, List.range_succ]
theorem nearMin : colMin 12 nearData = ![0, 60] := by
  funext d
  fin_cases d <;> norm_num [colMin, nearData, List.range_succ]

theorem argmax2 (a b : ℝ) (h : a < b) : argmax (m := 2) (fun i => if i = 0 then a else b) = some 1 := by
  unfold argmax
  simp [List.finRange_succ, h]

theorem nearBuild1 : build nearData 10 [1, 2, 3, 4, 5, 6, 7, 8, 9, 10, 11] ![0, 350] ![0, 205] =
    .ok (.inner 1 330 (.leaf [1, 2, 3, 4, 5, 6, 7, 8, 9, 10]) (.leaf [11])) := by
  rw [build]
  rw [if_neg (by simp)]
  have ha : argmax (fun i => (![0, 350] : Pt 2 ℝ) i - (![0, 205] : Pt 2 ℝ) i) = some 1 := by
    rw [← argmax2 0 145 (by norm_num)]; congr 1; funext i; fin_cases i <;> norm_num
  rw [ha]
  simp only
  rw [if_neg (by norm_num)]
  have hs : slide nearData 1 [1, 2, 3, 4, 5, 6, 7, 8, 9, 10, 11] (((![0, 350] : Pt 2 ℝ) 1 + (![0, 205] : Pt 2 ℝ) 1) / 2)
      = some (330, [1, 2, 3, 4, 5, 6, 7, 8, 9, 10], [11]) := by
    norm_num [slide, nearData, amin, List.filter]
  split
  · rename_i h; rw [hs] at h; simp at h
  · rename_i h; rw [hs] at h
    simp only [Option.some.injEq, Prod.mk.injEq] at h
    obtain ⟨rfl, rfl, rfl⟩ := h
    rw [dif_neg (by simp), build, if_pos (by simp), build, if_pos (by simp)]

theorem nearBuild : build nearData 10 (List.range 12) ![0, 350] ![0, 60] =
    .ok (.inner 1 205 (.leaf [0]) (.inner 1 330 (.leaf [1, 2, 3, 4, 5, 6, 7, 8, 9, 10]) (.leaf [11]))) := by
  rw [build]
  rw [if_neg (by simp)]
  have ha : argmax (fun i => (![0, 350] : Pt 2 ℝ) i - (![0, 60] : Pt 2 ℝ) i) = some 1 := by
    rw [← argmax2 0 290 (by norm_num)]; congr 1; funext i; fin_cases i <;> norm_num
  rw [ha]
  simp only
  rw [if_neg (by norm_num)]
  have hs : slide nearData 1 (List.range 12) (((![0, 350] : Pt 2 ℝ) 1 + (![0, 60] : Pt 2 ℝ) 1) / 2)
      = some (205, [0], [1, 2, 3, 4, 5, 6, 7, 8, 9, 10, 11]) := by
    norm_num [slide, nearData, amin, List.filter, List.range_succ]
  split
  · rename_i h; rw [hs] at h; simp at h
  · rename_i h; rw [hs] at h
    simp only [Option.some.injEq, Prod.mk.injEq] at h
    obtain ⟨rfl, rfl, rfl⟩ := h
    have hu : Function.update (![0, 60] : Pt 2 ℝ) 1 205 = ![0, 205] := by
      funext i; fin_cases i <;> simp
    rw [dif_neg (by simp), build, if_pos (by simp), hu, nearBuild1]


theorem pop_one {pop : Pop 2 ℝ} (hp : PopOK pop) (e : Entry 2 ℝ) : pop [e] = some (e, []) := by
  obtain ⟨a, rest, h1, h2, -⟩ := hp.2 [e] (by simp)
  have := h2.length_eq
  simp at this
  subst this
  have := List.perm_singleton.1 h2.symm
  simp at this
  rw [h1, this]

theorem pop_two {pop : Pop 2 ℝ} (hp : PopOK pop) (a b : Entry 2 ℝ) (h : b.md < a.md) : pop [a, b] = some (b, [a]) := by
  obtain ⟨c, rest, h1, h2, h3⟩ := hp.2 [a, b] (by simp)
  have hl := h2.length_eq
  obtain ⟨d, rfl⟩ : ∃ d, rest = [d] := by
    match rest, hl with
    | [d], _ => exact ⟨d, rfl⟩
  have hmem := h3 d (by simp)
  have hc : c = a ∨ c = b := by have := h2.mem_iff (a := c); simp at this; exact this
  rcases hc with rfl | rfl
  · have : [b].Perm [d] := (List.perm_cons c).1 h2
    have := List.perm_singleton.1 this
    simp at this; subst this
    exact absurd hmem (not_le.2 h)
  · have : [a].Perm [d] := by
      have h4 : [a, c].Perm [c, a] := List.Perm.swap _ _ _
      exact (List.perm_cons c).1 (h4.symm.trans h2)
    have := List.perm_singleton.1 this
    simp at this; subst this
    exact h1

theorem near_hav : havPt (nearData 0) 0 = π / 3 * 6378 := by
  have hpi := pi_pos
  rw [havPt_comm, havPt_zero_eq]
  have h3 : arccos (cos (π / 3)) = π / 3 := arccos_cos (by linarith) (by linarith)
  rw [cos_pi_div_three] at h3
  simp [nearData, rad60, rad0]
  simpa using h3

/-- The tree of `nearData`. -/
noncomputable def nearTree : KD 2 ℝ := KD.mk 12 nearData 10 ![0, 350] ![0, 60]
  (.inner 1 205 (.leaf [0]) (.inner 1 330 (.leaf [1, 2, 3, 4, 5, 6, 7, 8, 9, 10]) (.leaf [11])))

theorem nearTree_mk : mkTree 12 nearData 10 = .ok nearTree := by
  unfold mkTree
  simp only [nearMax, nearMin, nearBuild, nearTree]
  norm_num

theorem near_find (pop : Pop 2 ℝ) (hp : PopOK pop) (fuel : Nat) : findNearest nearTree pop 0 (fuel + 3) = some 0 := by
  have hpi := pi_pos
  have hpi4 := pi_le_four
  have hroot : rootEntry nearTree 0 = { md := 3600, sd := ![0, 3600], node := nearTree.tree } := by
    unfold rootEntry
    have : (fun i : Fin 2 => (max 0 (max ((0 : Pt 2 ℝ) i - nearTree.maxes i) (nearTree.mins i - (0 : Pt 2 ℝ) i))
        * (if i = 1 then cos ((0 : Pt 2 ℝ) 1 * π / 180) else 1)) ^ 2) = ![0, 3600] := by
      funext i; fin_cases i <;> norm_num [nearTree]
    simp only [this]
    simp [Fin.sum_univ_two]
  unfold findNearest
  rw [hroot, queryLoop, pop_one hp]
  simp only [nearTree]
  rw [if_neg (by simp)]
  simp only [le_top, if_true]
  rw [if_pos (show (0 : Pt 2 ℝ) 1 < 205 by norm_num), if_pos (show (0 : Pt 2 ℝ) 1 < 205 by norm_num)]
  rw [queryLoop, pop_two hp _ _ (by norm_num)]
  simp only [List.foldl_cons, List.foldl_nil, near_hav]
  have ho : offer (some 1) { nbrs := [], ub := (⊤ : WithTop ℝ) } (π / 3 * 6378) 0
      = { nbrs := [(-(π / 3 * 6378), 0)], ub := ((π / 3 * 6378 : ℝ) : WithTop ℝ) } := by
    unfold offer
    rw [if_pos (WithTop.coe_lt_top _)]
    simp only [List.length_nil, Option.some.injEq, zero_ne_one, if_false, List.orderedInsert, List.length_singleton, if_true, neg_neg]
  rw [ho, queryLoop, pop_one hp]
  simp only
  rw [if_pos (by rw [WithTop.coe_lt_coe]; norm_num; nlinarith)]
  simp

/-- C59 is violated: among twelve data points on the equator the lookup around (0, 0) returns the point at longitude 60
although the point at longitude 350 is only ten degrees away. -/
theorem c59_nearest_violated : ∃ (n : Nat) (data : Nat → Pt 2 ℝ) (T : KD 2 ℝ) (x : Pt 2 ℝ) (i j : Nat),
    mkTree n data 10 = .ok T ∧ (∀ k < n, Spec.InWindow 0 (data k)) ∧ Spec.InWindow 0 x ∧
    (∀ pop, PopOK pop → ∀ fuel, findNearest T pop x (fuel + 3) = some i) ∧
    j < n ∧ Spec.dist (data j) x < Spec.dist (data i) x := by
  have hpi := pi_pos
  refine ⟨12, nearData, nearTree, 0, 0, 11, nearTree_mk, ?_, ?_, near_find, by norm_num, ?_⟩
  · intro k _
    by_cases h : k = 0
    · simp [Spec.InWindow, nearData, h]; norm_num
    · by_cases h1 : k = 11
      · simp [Spec.InWindow, nearData, h1]; norm_num
      · simp [Spec.InWindow, nearData, h, h1]; norm_num
  · simp [Spec.InWindow]
  · rw [← havPt_dist, ← havPt_dist, near_hav, havPt_comm, havPt_zero_eq]
    have e : radians (nearData 11 1) = 2 * π - π / 18 := by simp [nearData, radians]; ring
    have e0 : radians (nearData 11 0) = 0 := by simp [nearData, radians]
    have h3 : arccos (cos (π / 18)) = π / 18 := arccos_cos (by linarith) (by linarith)
    rw [e, e0, cos_two_pi_sub]
    simp only [cos_zero, one_mul, h3]
    nlinarith

/-! ### What does hold -/

/-- The search state: nothing found and no bound, or one hit and its distance as the bound. -/
def OneHit (n : Nat) (ds : Nat → ℝ) (st : QState ℝ) : Prop :=
  (st.nbrs = [] ∧ st.ub = ⊤) ∨ ∃ i, st.nbrs = [(-(ds i), i)] ∧ st.ub = ((ds i : ℝ) : WithTop ℝ) ∧ i < n

theorem OneHit.offer {n : Nat} {ds : Nat → ℝ} {st : QState ℝ} (h : OneHit n ds st) {i : Nat} (hi : i < n) :
    OneHit n ds (KDTree.offer (some 1) st (ds i) i) ∧ (KDTree.offer (some 1) st (ds i) i).nbrs ≠ [] := by
  unfold KDTree.offer
  rcases h with ⟨h1, h2⟩ | ⟨j, h1, h2, h3⟩
  · rw [h1, h2, if_pos (WithTop.coe_lt_top _)]
    simp only [List.length_nil, Option.some.injEq, zero_ne_one, if_false, List.orderedInsert, List.length_singleton,
      if_true, neg_neg]
    exact ⟨Or.inr ⟨i, rfl, rfl, hi⟩, by simp⟩
  · rw [h1, h2]
    split
    · simp only [List.length_singleton, if_true, List.tail_cons, List.orderedInsert, neg_neg]
      exact ⟨Or.inr ⟨i, rfl, rfl, hi⟩, by simp⟩
    · exact ⟨Or.inr ⟨j, h1, h2, h3⟩, by simp [h1]⟩

theorem OneHit.offers {n : Nat} {ds : Nat → ℝ} (idx : List Nat) {st : QState ℝ} (h : OneHit n ds st)
    (hi : ∀ i ∈ idx, i < n) :
    OneHit n ds (idx.foldl (fun st i => KDTree.offer (some 1) st (ds i) i) st) ∧
      ((idx.foldl (fun st i => KDTree.offer (some 1) st (ds i) i) st).nbrs = [] → st.nbrs = [] ∧ idx = []) := by
  induction idx generalizing st with
  | nil => exact ⟨h, fun h => ⟨h, rfl⟩⟩
  | cons i t ih =>
    have h1 := h.offer (hi i (by simp))
    have h2 := ih h1.1 (fun j hj => hi j (by simp [hj]))
    exact ⟨h2.1, fun he => absurd (h2.2 he).1 h1.2⟩

theorem loop_hit {n : Nat} (data : Nat → Pt 2 ℝ) (x : Pt 2 ℝ) (pop : Pop 2 ℝ) (hp : PopOK pop) (fuel : Nat)
    (q : List (Entry 2 ℝ)) (st : QState ℝ) (hf : qSize q < fuel) (hs : OneHit n (fun i => havPt (data i) x) st)
    (hq : ∀ i ∈ qIndices q, i < n) (hne : st.nbrs = [] → qIndices q ≠ []) :
    ∃ st' i, queryLoop data x 1 pop fuel q st = some st' ∧ st'.nbrs = [(-(havPt (data i) x), i)] ∧ i < n := by
  induction fuel generalizing q st with
  | zero => omega
  | succ fuel ih =>
    have done : st.nbrs ≠ [] → ∃ st' i, some st = some st' ∧ st'.nbrs = [(-(havPt (data i) x), i)] ∧ i < n := by
      intro h
      rcases hs with h1 | ⟨i, h1, h2, h3⟩
      · exact absurd h1.1 h
      · exact ⟨st, i, rfl, h1, h3⟩
    rw [queryLoop]
    by_cases hq0 : q = []
    · subst hq0
      rw [hp.1]
      simp only
      apply done
      intro h; exact hne h (by simp [qIndices])
    · obtain ⟨e, rest, h1, h2, -⟩ := hp.2 q hq0
      have hsz := qSize_perm h2
      have hix := qIndices_perm h2
      have hcs : qSize (e :: rest) = e.node.size + qSize rest := by simp [qSize]
      have hci : qIndices (e :: rest) = e.node.indices ++ qIndices rest := by simp [qIndices]
      have hne' : st.nbrs = [] → qIndices (e :: rest) ≠ [] := by
        intro h hn
        rw [hn] at hix
        exact hne h hix.eq_nil
      have hq' : ∀ i ∈ qIndices (e :: rest), i < n := fun i hi => hq i (hix.mem_iff.2 hi)
      rw [h1]
      simp only
      cases hn : e.node with
      | leaf idx =>
        simp only
        have hin : e.node.indices = idx := by rw [hn]; rfl
        rw [hci, hin] at hq' hne'
        have ho := hs.offers idx (fun i hi => hq' i (by simp [hi]))
        apply ih
        · have := size_pos e.node; omega
        · exact ho.1
        · intro i hi; exact hq' i (by simp [hi])
        · intro h
          obtain ⟨a, b⟩ := ho.2 h
          have := hne' a
          simpa [b] using this
      | inner d s l g =>
        simp only
        split
        · apply done
          intro h
          rcases hs with h1 | ⟨i, h1, -, -⟩
          · rename_i hlt; rw [h1.2] at hlt; simp at hlt
          · rw [h] at h1; simp at h1
        · have hin : e.node.indices = l.indices ++ g.indices := by rw [hn]; rfl
          have hsn : e.node.size = 1 + l.size + g.size := by rw [hn]; rfl
          rw [hci, hin] at hq' hne'
          have hl := size_pos l
          have hg := size_pos g
          apply ih
          · split <;> (simp only [qSize, List.map_cons, List.sum_cons] at hcs hsz hf ⊢; split <;> omega)
          · exact hs
          · intro i hi
            apply hq'
            revert hi
            split <;> (simp only [qIndices, List.flatMap_cons, List.mem_append]; split <;> grind)
          · intro h
            have hub : st.ub = ⊤ := by
              rcases hs with h1 | ⟨i, h1, -, -⟩
              · exact h1.2
              · rw [h] at h1; simp at h1
            have := hne' h
            rw [hub, if_pos le_top]
            intro h0
            apply this
            revert h0
            simp only [qIndices, List.flatMap_cons, List.append_eq_nil_iff]
            split <;> grind

/-- C59, what holds for all data. The lookup ends and its result is the index of a data point. What is missing: that the
point is the nearest, see `c59_nearest_violated`. -/
theorem c59_nearest_total_partial (n : Nat) (data : Nat → Pt 2 ℝ) (leafsize : Nat) (T : KD 2 ℝ)
    (hT : mkTree n data leafsize = .ok T) (pop : Pop 2 ℝ) (hp : PopOK pop) (x : Pt 2 ℝ) (fuel : Nat)
    (hf : T.tree.size < fuel) : ∃ i < n, findNearest T pop x fuel = some i := by
  obtain ⟨hn, hd, hok⟩ := ok_of_mkTree (by norm_num) hT
  have hpos : 0 < n := by
    unfold mkTree at hT
    split at hT
    · simp at hT
    split at hT
    · simp at hT
    · omega
  have hi : qIndices [rootEntry T x] = T.tree.indices := by simp [qIndices, rootEntry]
  obtain ⟨st, i, h1, h2, h3⟩ := loop_hit (n := n) T.data x pop hp fuel [rootEntry T x] { nbrs := [], ub := ⊤ }
    (by simpa [qSize, rootEntry] using hf) (Or.inl ⟨rfl, rfl⟩)
    (by rw [hi]; intro i hi; rw [hok.mem, hn] at hi; exact hi)
    (by
      intro _ h0
      rw [hi] at h0
      have : 0 ∈ T.tree.indices := by rw [hok.mem, hn]; exact hpos
      rw [h0] at this; simp at this)
  refine ⟨i, h3, ?_⟩
  unfold findNearest
  rw [h1]
  simp [h2]

/-- C59 for at most `leafsize` data points (the index uses ten): the point found is a nearest one. -/
theorem c59_nearest_one_leaf_partial (n : Nat) (data : Nat → Pt 2 ℝ) (leafsize : Nat) (hn : 0 < n) (hl : n ≤ leafsize)
    (T : KD 2 ℝ) (hT : mkTree n data leafsize = .ok T) (pop : Pop 2 ℝ) (hp : PopOK pop) (x : Pt 2 ℝ) (fuel : Nat)
    (hf : 2 ≤ fuel) : ∃ i < n, findNearest T pop x fuel = some i ∧ ∀ j < n, Spec.dist (data i) x ≤ Spec.dist (data j) x := by
  rw [mkTree_leaf data hn hl] at hT
  simp only [Except.ok.injEq] at hT
  subst hT
  obtain ⟨f, rfl⟩ : ∃ f, fuel = f + 2 := ⟨fuel - 2, by omega⟩
  unfold findNearest
  have hq : queryLoop data x 1 pop (f + 2)
      [rootEntry (KD.mk n data leafsize (colMax n data) (colMin n data) (.leaf (List.range n))) x] { nbrs := [], ub := ⊤ }
      = some ((List.range n).foldl (fun st i => offer (some 1) st (havPt (data i) x) i) { nbrs := [], ub := ⊤ }) := by
    rw [queryLoop, pop_one hp]
    simp only [rootEntry]
    rw [queryLoop, hp.1]
  simp only
  rw [hq]
  have h0 : QInv (fun i => havPt (data i) x) (some 1) ⊤ [] { nbrs := [], ub := ⊤ } :=
    { nodup := by simp, mem := by simp, sorted := by simp, len := by simp, notfull := by simp,
      full := by simp, out := by simp }
  have hq := h0.offers (by simp) (List.range n) (by simpa using List.nodup_range)
  have ho := OneHit.offers (n := n) (ds := fun i => havPt (data i) x) (List.range n) (st := { nbrs := [], ub := ⊤ })
    (Or.inl ⟨rfl, rfl⟩) (fun i hi => List.mem_range.1 hi)
  rcases ho.1 with h1 | ⟨i, h1, h2, h3⟩
  · have := (ho.2 h1.1).2
    rw [List.range_eq_nil] at this; omega
  · refine ⟨i, h3, by simp only [h1]; simp, ?_⟩
    intro j hj
    rw [← havPt_dist, ← havPt_dist]
    by_cases hij : j = i
    · rw [hij]
    · rcases hq.out j (by simpa using hj) (by simp [h1, hij]) with h | h
      · simp at h
      · exact h.2 (-(havPt (data i) x), i) (by rw [h1]; simp)

/-! ### The hypotheses are satisfiable -/

/-- Twelve points need an inner node; the total theorem applies. -/
example : ∃ i < 12, findNearest nearTree scanPop 0 100 = some i :=
  c59_nearest_total_partial 12 nearData 10 nearTree nearTree_mk scanPop scanPop_ok 0 100 (by simp [nearTree, Tree.size])

example : ∃ T i, mkTree 3 nearData 10 = .ok T ∧ findNearest T scanPop 0 2 = some i ∧ i < 3 := by
  obtain ⟨i, hi, h, -⟩ := c59_nearest_one_leaf_partial 3 nearData 10 (by norm_num) (by norm_num) _
    (mkTree_leaf nearData (by norm_num) (by norm_num)) scanPop scanPop_ok 0 2 le_rfl
  exact ⟨_, i, mkTree_leaf nearData (by norm_num) (by norm_num), h, hi⟩

/-- C13: twelve data points and a sample point in the window that starts at 0. -/
example : ∃ T, mkTree 12 nearData 10 = .ok T ∧ ∀ i, i ∈ queryBallPoint T ![10, 40] 2000 ↔
    i < 12 ∧ Spec.dist (nearData i) ![10, 40] ≤ 2000 := by
  refine ⟨nearTree, nearTree_mk, (c13_query_ball_point 12 nearData 10 nearTree nearTree_mk 0 ?_ _ ?_ 2000).2⟩
  · intro k _
    by_cases h : k = 0
    · simp [Spec.InWindow, nearData, h]; norm_num
    · by_cases h1 : k = 11
      · simp [Spec.InWindow, nearData, h1]; norm_num
      · simp [Spec.InWindow, nearData, h, h1]; norm_num
  · simp [Spec.InWindow]; norm_num

/-- C13: the hypotheses of the tree search, twelve data points east of the sample. -/
example : ∃ T res, mkTree 12 (fun i => nearData 0) 10 = .ok T ∧
    pointsWithinDistanceSample 1 (fun _ => ![20, 30]) T 100 = .ok res := by
  obtain ⟨T, hT, -⟩ := c06_build 12 (fun _ => nearData 0) 10 (m := 2) (by norm_num) (by norm_num) (by norm_num)
  obtain ⟨res, h, -⟩ := c13_query_ball_tree_partial 1 12 (fun _ => ![20, 30]) (fun _ => nearData 0) 10 T hT 100
    (by intro i _ j _; simp [nearData, abs_le]; norm_num)
    (by intro i _ j _ d; fin_cases d <;> simp [nearData, abs_le] <;> norm_num) (by norm_num)
  exact ⟨T, res, hT, h⟩

end Cis.HavTree
