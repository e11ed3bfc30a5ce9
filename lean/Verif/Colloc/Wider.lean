import Verif.Colloc.Local
set_option linter.unusedSectionVars false
set_option linter.unusedSimpArgs false
/-!
Property C201: larger separations never lose data, for all positions on the globe: also where the great-circle tree
(kdtree.py:1238-1301) is not exact (C163), what it finds for a distance it finds for every larger one. The model is that of
`Model.lean` (col_implementations.py:19-112, 211-361, 365-556).
-/
namespace Cis.HavTree
open Cis.Geo Cis.KDTree Real

/-- The search of a pair of nodes adds, for a larger distance, at least what it adds for a smaller one, in the same order. -/
theorem checkTree_mono (data1 data2 : Nat → Pt 2 ℝ) (r r' : ℝ) (hr : r ≤ r') (k : Nat) (t1 : Tree 2 ℝ) (R1 : Rect 2 ℝ)
    (t2 : Tree 2 ℝ) (R2 : Rect 2 ℝ) (res : Results) (hn : t1.indices.Nodup) :
    ∃ L', checkTree data1 data2 r' t1 R1 t2 R2 res k = res k ++ L' ∧
      L'.Sublist (if k ∈ t1.indices then t2.indices else []) ∧
      ∀ res2 : Results, ∃ L, checkTree data1 data2 r t1 R1 t2 R2 res2 k = res2 k ++ L ∧ L.Sublist L' := by
  fun_induction checkTree data1 data2 r' t1 R1 t2 R2 res with
  | case1 t1 R1 t2 R2 res h =>
    refine ⟨[], by simp, List.nil_sublist _, fun res2 => ⟨[], ?_, List.Sublist.refl _⟩⟩
    rw [checkTree.eq_def]; dsimp only; rw [if_pos]
    · simp
    · simp only [add_zero, div_one] at h ⊢; linarith
  | case2 t1 R1 t2 R2 res h0 h =>
    refine ⟨_, noCheckTree_eq t1 t2 res hn k, List.Sublist.refl _, fun res2 => ?_⟩
    clear h0 h
    fun_induction checkTree data1 data2 r t1 R1 t2 R2 res2 with
    | case1 t1 R1 t2 R2 res h => exact ⟨[], by simp, List.nil_sublist _⟩
    | case2 t1 R1 t2 R2 res h0 h => exact ⟨_, noCheckTree_eq t1 t2 res hn k, List.Sublist.refl _⟩
    | case3 R1 R2 res _ _ i1 i2 =>
      refine ⟨_, foldl_extend i1 _ res hn k, ?_⟩
      by_cases hk : k ∈ (Tree.leaf i1 : Tree 2 ℝ).indices
      · have hk' : k ∈ i1 := hk
        rw [if_pos hk, if_pos hk']; exact List.filter_sublist
      · have hk' : ¬ k ∈ i1 := hk
        rw [if_neg hk, if_neg hk']
    | case4 R1 R2 res _ _ i1 d s l g ih2 ih1 =>
      obtain ⟨L1, e1, u1⟩ := ih2 hn
      obtain ⟨L2, e2, u2⟩ := ih1 hn
      refine ⟨L1 ++ L2, by rw [e2, e1]; simp, ?_⟩
      have := u1.append u2
      by_cases hk : k ∈ (Tree.leaf i1 : Tree 2 ℝ).indices
      · rw [if_pos hk, if_pos hk] at this; rw [if_pos hk]; exact this
      · rw [if_neg hk, if_neg hk] at this; rw [if_neg hk]; exact this
    | case5 R1 R2 res _ _ d s l g i2 ih2 ih1 =>
      simp only [Tree.indices] at hn
      obtain ⟨n1, n2, n3⟩ := List.nodup_append.1 hn
      obtain ⟨L1, e1, u1⟩ := ih2 n1
      obtain ⟨L2, e2, u2⟩ := ih1 n2
      refine ⟨L1 ++ L2, by rw [e2, e1]; simp, ?_⟩
      simp only [Tree.indices, List.mem_append]
      by_cases hl : k ∈ l.indices
      · have : k ∉ g.indices := fun hg => n3 k hl k hg rfl
        rw [if_neg this] at u2; rw [if_pos hl] at u1
        have := u1.append u2
        simpa [hl, Tree.indices] using this
      · rw [if_neg hl] at u1
        have := u1.append u2
        simpa [hl, Tree.indices] using this
    | case6 R1 R2 res _ _ d1 s1' l1 gg1 d2 s2' l2 gg2 ih4 ih3 ih2 ih1 =>
      simp only [Tree.indices] at hn
      obtain ⟨n1, n2, n3⟩ := List.nodup_append.1 hn
      obtain ⟨L1, e1, u1⟩ := ih4 n1
      obtain ⟨L2, e2, u2⟩ := ih3 n1
      obtain ⟨L3, e3, u3⟩ := ih2 n2
      obtain ⟨L4, e4, u4⟩ := ih1 n2
      refine ⟨(L1 ++ L2) ++ (L3 ++ L4), by rw [e4, e3, e2, e1]; simp, ?_⟩
      simp only [Tree.indices, List.mem_append]
      by_cases hl : k ∈ l1.indices
      · have hng : k ∉ gg1.indices := fun hg => n3 k hl k hg rfl
        rw [if_neg hng] at u3 u4; rw [if_pos hl] at u1 u2
        have := (u1.append u2).append (u3.append u4)
        simpa [hl, Tree.indices] using this
      · rw [if_neg hl] at u1 u2
        by_cases hg : k ∈ gg1.indices
        · rw [if_pos hg] at u3 u4
          have := (u1.append u2).append (u3.append u4)
          simpa [hg, Tree.indices] using this
        · rw [if_neg hg] at u3 u4
          have := (u1.append u2).append (u3.append u4)
          simpa [hl, hg] using this
  | case3 R1 R2 res hmin hmax i1 i2 =>
    refine ⟨_, foldl_extend i1 _ res hn k, ?_, fun res2 => ?_⟩
    · by_cases hk : k ∈ (Tree.leaf i1 : Tree 2 ℝ).indices
      · have hk' : k ∈ i1 := hk
        rw [if_pos hk, if_pos hk']; exact List.filter_sublist
      · have hk' : ¬ k ∈ i1 := hk
        rw [if_neg hk, if_neg hk']
    · rw [checkTree.eq_def]; dsimp only
      by_cases hp : minRect R1 R2 > r / (1 + 0)
      · rw [if_pos hp]; exact ⟨[], by simp, List.nil_sublist _⟩
      · rw [if_neg hp, if_neg (by simp only [add_zero, mul_one] at hmax ⊢; linarith)]
        refine ⟨_, foldl_extend i1 _ res2 hn k, ?_⟩
        by_cases hk : k ∈ i1
        · rw [if_pos hk, if_pos hk]
          refine List.monotone_filter_right i2 ?_
          intro j hj
          simp only [decide_eq_true_eq] at hj ⊢
          linarith
        · rw [if_neg hk, if_neg hk]
  | case4 R1 R2 res hmin hmax i1 d s l g ih2 ih1 =>
    obtain ⟨L1, e1, u1, m1⟩ := ih2 hn
    obtain ⟨L2, e2, u2, m2⟩ := ih1 hn
    refine ⟨L1 ++ L2, by rw [e2, e1]; simp, ?_, fun res2 => ?_⟩
    · have := u1.append u2
      by_cases hk : k ∈ (Tree.leaf i1 : Tree 2 ℝ).indices
      · rw [if_pos hk, if_pos hk] at this; rw [if_pos hk]; exact this
      · rw [if_neg hk, if_neg hk] at this; rw [if_neg hk]; exact this
    · rw [checkTree.eq_def]; dsimp only
      by_cases hp : minRect R1 R2 > r / (1 + 0)
      · rw [if_pos hp]; exact ⟨[], by simp, List.nil_sublist _⟩
      · rw [if_neg hp, if_neg (by simp only [add_zero, mul_one] at hmax ⊢; linarith)]
        obtain ⟨M1, f1, v1⟩ := m1 res2
        obtain ⟨M2, f2, v2⟩ := m2 (checkTree data1 data2 r (.leaf i1) R1 l (R2.split d s).1 res2)
        exact ⟨M1 ++ M2, by rw [f2, f1]; simp, v1.append v2⟩
  | case5 R1 R2 res hmin hmax d s l g i2 ih2 ih1 =>
    simp only [Tree.indices] at hn
    obtain ⟨n1, n2, n3⟩ := List.nodup_append.1 hn
    obtain ⟨L1, e1, u1, m1⟩ := ih2 n1
    obtain ⟨L2, e2, u2, m2⟩ := ih1 n2
    refine ⟨L1 ++ L2, by rw [e2, e1]; simp, ?_, fun res2 => ?_⟩
    · simp only [Tree.indices, List.mem_append]
      by_cases hl : k ∈ l.indices
      · have : k ∉ g.indices := fun hg => n3 k hl k hg rfl
        rw [if_neg this] at u2; rw [if_pos hl] at u1
        have := u1.append u2
        simpa [hl, Tree.indices] using this
      · rw [if_neg hl] at u1
        have := u1.append u2
        simpa [hl, Tree.indices] using this
    · rw [checkTree.eq_def]; dsimp only
      by_cases hp : minRect R1 R2 > r / (1 + 0)
      · rw [if_pos hp]; exact ⟨[], by simp, List.nil_sublist _⟩
      · rw [if_neg hp, if_neg (by simp only [add_zero, mul_one] at hmax ⊢; linarith)]
        obtain ⟨M1, f1, v1⟩ := m1 res2
        obtain ⟨M2, f2, v2⟩ := m2 (checkTree data1 data2 r l (R1.split d s).1 (.leaf i2) R2 res2)
        exact ⟨M1 ++ M2, by rw [f2, f1]; simp, v1.append v2⟩
  | case6 R1 R2 res hmin hmax d1 s1' l1 gg1 d2 s2' l2 gg2 ih4 ih3 ih2 ih1 =>
    simp only [Tree.indices] at hn
    obtain ⟨n1, n2, n3⟩ := List.nodup_append.1 hn
    obtain ⟨L1, e1, u1, m1⟩ := ih4 n1
    obtain ⟨L2, e2, u2, m2⟩ := ih3 n1
    obtain ⟨L3, e3, u3, m3⟩ := ih2 n2
    obtain ⟨L4, e4, u4, m4⟩ := ih1 n2
    refine ⟨(L1 ++ L2) ++ (L3 ++ L4), by rw [e4, e3, e2, e1]; simp, ?_, fun res2 => ?_⟩
    · simp only [Tree.indices, List.mem_append]
      by_cases hl : k ∈ l1.indices
      · have hng : k ∉ gg1.indices := fun hg => n3 k hl k hg rfl
        rw [if_neg hng] at u3 u4; rw [if_pos hl] at u1 u2
        have := (u1.append u2).append (u3.append u4)
        simpa [hl, Tree.indices] using this
      · rw [if_neg hl] at u1 u2
        by_cases hg : k ∈ gg1.indices
        · rw [if_pos hg] at u3 u4
          have := (u1.append u2).append (u3.append u4)
          simpa [hg, Tree.indices] using this
        · rw [if_neg hg] at u3 u4
          have := (u1.append u2).append (u3.append u4)
          simpa [hl, hg] using this
    · rw [checkTree.eq_def]; dsimp only
      by_cases hp : minRect R1 R2 > r / (1 + 0)
      · rw [if_pos hp]; exact ⟨[], by simp, List.nil_sublist _⟩
      · rw [if_neg hp, if_neg (by simp only [add_zero, mul_one] at hmax ⊢; linarith)]
        obtain ⟨M1, f1, v1⟩ := m1 res2
        obtain ⟨M2, f2, v2⟩ := m2 (checkTree data1 data2 r l1 (R1.split d1 s1').1 l2 (R2.split d2 s2').1 res2)
        obtain ⟨M3, f3, v3⟩ := m3 (checkTree data1 data2 r l1 (R1.split d1 s1').1 gg2 (R2.split d2 s2').2
          (checkTree data1 data2 r l1 (R1.split d1 s1').1 l2 (R2.split d2 s2').1 res2))
        obtain ⟨M4, f4, v4⟩ := m4 (checkTree data1 data2 r gg1 (R1.split d1 s1').2 l2 (R2.split d2 s2').1
          (checkTree data1 data2 r l1 (R1.split d1 s1').1 gg2 (R2.split d2 s2').2
            (checkTree data1 data2 r l1 (R1.split d1 s1').1 l2 (R2.split d2 s2').1 res2)))
        exact ⟨(M1 ++ M2) ++ (M3 ++ M4), by rw [f4, f3, f2, f1]; simp, (v1.append v2).append (v3.append v4)⟩


/-- The rows found for a distance are found, in the same order, for every larger distance. -/
theorem queryBallTree_mono (n m : Nat) (x y : Nat → Pt 2 ℝ) (S T : KD 2 ℝ) (hS : mkTree n x 10 = .ok S) (hT : mkTree m y 10 = .ok T)
    (r r' : ℝ) (hr : r ≤ r') (k : Nat) :
    (queryBallTree S T r k).Sublist (queryBallTree S T r' k) ∧ (queryBallTree S T r k).Subperm (List.range m) := by
  have hn : 0 < n := by
    by_contra h
    obtain ⟨e, he⟩ := (c06_build_error n x 10 (by norm_num)).2 (Or.inr (by omega))
    rw [hS] at he; cases he
  have hm : 0 < m := by
    by_contra h
    obtain ⟨e, he⟩ := (c06_build_error m y 10 (by norm_num)).2 (Or.inr (by omega))
    rw [hT] at he; cases he
  obtain ⟨S', h1, -, -, hp, -⟩ := c06_build n x 10 (by norm_num) hn (by norm_num)
  obtain ⟨T', h2, -, -, hq, -⟩ := c06_build m y 10 (by norm_num) hm (by norm_num)
  rw [hS] at h1; rw [hT] at h2
  cases h1; cases h2
  have hnd : S.tree.indices.Nodup := hp.nodup_iff.2 List.nodup_range
  unfold queryBallTree
  obtain ⟨L', e', u', h⟩ := checkTree_mono S.data T.data r r' hr k S.tree (Rect.mk' S.maxes S.mins) T.tree (Rect.mk' T.maxes T.mins)
    (fun _ => []) hnd
  obtain ⟨L, e, u⟩ := h (fun _ => [])
  rw [e, e', List.nil_append, List.nil_append]
  refine ⟨u, ?_⟩
  refine (u.trans u').subperm.trans ?_
  split
  · exact hq.subperm
  · exact List.nil_subperm

theorem ballPoint_sublist (data : Nat → Pt 2 ℝ) (x : Pt 2 ℝ) (r : ℝ) (t : Tree 2 ℝ) :
    ∀ R : Rect 2 ℝ, (ballPoint data x r t R).Sublist (collect t) := by
  induction t with
  | leaf idx =>
    intro R
    rw [ballPoint]
    split
    · exact List.nil_sublist _
    · split
      · exact List.Sublist.refl _
      · exact List.filter_sublist
  | inner d s l g ihl ihg =>
    intro R
    rw [ballPoint]
    split
    · exact List.nil_sublist _
    · split
      · exact List.Sublist.refl _
      · rw [collect]; exact (ihl _).append (ihg _)

/-- **C201**. The points found around one point within a distance (`query_ball_point`) are found, in the same order, within
every larger distance, wherever on the globe. -/
theorem c201_ball_point (T : KD 2 ℝ) (x : Pt 2 ℝ) (r r' : ℝ) (hr : r ≤ r') :
    (queryBallPoint T x r).Sublist (queryBallPoint T x r') := by
  unfold queryBallPoint
  generalize Rect.mk' T.maxes T.mins = R
  generalize T.tree = t
  generalize T.data = data
  induction t generalizing R with
  | leaf idx =>
    rw [ballPoint, ballPoint]
    by_cases h1 : minPoint R x > r / (1 + 0)
    · rw [if_pos h1]; exact List.nil_sublist _
    · rw [if_neg h1, if_neg (show ¬ minPoint R x > r' / (1 + 0) by simp only [add_zero, div_one] at h1 ⊢; linarith)]
      by_cases h2 : maxPoint R x < r' * (1 + 0)
      · rw [if_pos h2]
        split
        · exact List.Sublist.refl _
        · exact List.filter_sublist
      · rw [if_neg h2, if_neg (by simp only [add_zero, mul_one] at h2 ⊢; linarith)]
        refine List.monotone_filter_right idx ?_
        intro j hj
        simp only [decide_eq_true_eq] at hj ⊢
        linarith
  | inner d s l g ihl ihg =>
    have hsub := ballPoint_sublist data x r (.inner d s l g) R
    rw [ballPoint] at hsub ⊢
    rw [ballPoint]
    by_cases h1 : minPoint R x > r / (1 + 0)
    · rw [if_pos h1]; exact List.nil_sublist _
    · rw [if_neg h1] at hsub ⊢
      rw [if_neg (show ¬ minPoint R x > r' / (1 + 0) by simp only [add_zero, div_one] at h1 ⊢; linarith)]
      by_cases h2 : maxPoint R x < r' * (1 + 0)
      · rw [if_pos h2]; exact hsub
      · rw [if_neg h2, if_neg (by simp only [add_zero, mul_one] at h2 ⊢; linarith)]
        exact (ihl _).append (ihg _)

end Cis.HavTree

namespace Cis.Colloc
open Cis.Geo Cis.KDTree Real

theorem treeSearch_mono (d : List DRow) (T : KD 2 ℝ) (hT : treeOf d = .ok T) (sample : List Row) (h h' : ℝ) (hh : h ≤ h') (i : Nat) :
    (treeSearch T sample h i).Sublist (treeSearch T sample h' i) ∧ (treeSearch T sample h i).Subperm (List.range d.length) := by
  unfold treeSearch HavTree.pointsWithinDistanceSample
  cases hS : mkTree sample.length (sampleLatLon sample) 10 with
  | error e => exact ⟨List.Sublist.refl _, List.nil_subperm⟩
  | ok S => exact HavTree.queryBallTree_mono _ _ _ _ S T hS hT h h' hh i

/-- The rows before the checks of altitude, pressure and time. -/
noncomputable def rowsFor (s : Seps) (search : ℝ → List Nat) (d : List DRow) : List DRow :=
  match horizontal s with
  | some h => (search h).filterMap (fun i => d[i]?)
  | none => d

theorem kdConstrain_rows (s : Seps) (search : ℝ → List Nat) (ref : Loc) (d : List DRow) (hs : ∀ h, ∀ i ∈ search h, i < d.length) :
    ∃ sel, kdConstrain s (fun _ h => search h) ref d = some sel ∧
      sel.Perm ((rowsFor s search d).filter (fun r => (kdCond s).all (fun c => c.2 ref r.loc))) := by
  unfold kdConstrain rowsFor
  cases horizontal s with
  | none =>
    simp only
    obtain ⟨sel, h1, h2⟩ := applyChecks_perm ref (kdCond s) (kdCond_ok s) d d (List.Perm.refl _)
    rw [kdCond_fst] at h1
    exact ⟨sel, h1, h2⟩
  | some h =>
    simp only
    rw [iloc_eq d _ (hs h), Option.bind_some]
    obtain ⟨sel, h1, h2⟩ := applyChecks_perm ref (kdCond s) (kdCond_ok s) _ _ (List.Perm.refl _)
    rw [kdCond_fst] at h1
    exact ⟨sel, h1, h2⟩

theorem kdCond_wider {s s' : Seps} (hw : Spec.Wider s s') (ref p : Loc) (h : (kdCond s).all (fun c => c.2 ref p) = true) :
    (kdCond s').all (fun c => c.2 ref p) = true := by
  unfold kdCond at h ⊢
  rw [List.all_append, List.all_append, Bool.and_eq_true, Bool.and_eq_true] at h ⊢
  obtain ⟨⟨h1, h2⟩, h3⟩ := h
  refine ⟨⟨?_, ?_⟩, ?_⟩
  · cases e : s'.a with
    | none => rfl
    | some x' =>
      obtain ⟨x, ex, hx⟩ := hw.a x' e
      rw [ex] at h1
      simp only [List.all_cons, List.all_nil, Bool.and_true, decide_eq_true_eq] at h1 ⊢
      linarith
  · cases e : s'.p with
    | none => rfl
    | some x' =>
      obtain ⟨x, ex, hx⟩ := hw.p x' e
      rw [ex] at h2
      simp only [List.all_cons, List.all_nil, Bool.and_true, presCond, Bool.or_eq_true, Bool.and_eq_true, decide_eq_true_eq] at h2 ⊢
      rcases h2 with ⟨a, b⟩ | ⟨a, b⟩
      · exact Or.inl ⟨by linarith, b⟩
      · exact Or.inr ⟨by linarith, b⟩
  · cases e : s'.t with
    | none => rfl
    | some x' =>
      obtain ⟨x, ex, hx⟩ := hw.t x' e
      rw [ex] at h3
      simp only [List.all_cons, List.all_nil, Bool.and_true, decide_eq_true_eq] at h3 ⊢
      linarith

theorem filterMap_range (d : List DRow) : (List.range d.length).filterMap (fun i => d[i]?) = d := by
  have := nonzero_rows d (fun _ => true)
  unfold nonzero at this
  rw [List.filter_true] at this
  have e : (List.range d.length).filter (entry d (fun _ => true)) = List.range d.length := by
    rw [List.filter_eq_self]
    intro i hi
    rw [List.mem_range] at hi
    simp [entry, List.getElem?_eq_getElem hi]
  rwa [e] at this

theorem subperm_filterMap {A B : Type} (f : A → Option B) {l m : List A} (h : l.Subperm m) : (l.filterMap f).Subperm (m.filterMap f) := by
  obtain ⟨k, hp, hs⟩ := h
  exact ⟨k.filterMap f, hp.filterMap f, hs.filterMap f⟩

theorem rowsFor_wider {s s' : Seps} (hw : Spec.Wider s s') (hz : s.h ≠ some 0) (T : KD 2 ℝ) (d : List DRow) (hT : treeOf d = .ok T)
    (sample : List Row) (i : Nat) :
    (rowsFor s (fun h => treeSearch T sample h i) d).Subperm (rowsFor s' (fun h => treeSearch T sample h i) d) := by
  unfold rowsFor
  have hs : horizontal s = s.h := by
    unfold horizontal
    cases e : s.h with
    | none => rfl
    | some x => simp only; rw [if_neg (by rintro rfl; exact hz e)]
  rw [hs]
  have hs' : horizontal s' = none ∨ ∃ x', s'.h = some x' ∧ horizontal s' = some x' := by
    unfold horizontal
    cases e : s'.h with
    | none => exact Or.inl rfl
    | some x =>
      simp only
      by_cases hx : x = 0
      · exact Or.inl (if_pos hx)
      · exact Or.inr ⟨x, rfl, if_neg hx⟩
  rcases hs' with e' | ⟨x', e1, e'⟩
  · rw [e']
    cases s.h with
    | none => exact List.Subperm.refl _
    | some x =>
      simp only
      have := subperm_filterMap (fun i : Nat => d[i]?) (treeSearch_mono d T hT sample x x le_rfl i).2
      rw [filterMap_range] at this
      exact this
  · obtain ⟨x, ex, hx⟩ := hw.h x' e1
    rw [e', ex]
    exact ((treeSearch_mono d T hT sample x x' hx i).1.filterMap _).subperm

theorem treeSearch_lt (d : List DRow) (T : KD 2 ℝ) (hT : treeOf d = .ok T) (sample : List Row) (i : Nat) (h : ℝ) :
    ∀ j ∈ treeSearch T sample h i, j < d.length := by
  intro j hj
  have := (treeSearch_mono d T hT sample h h le_rfl i).2.subset hj
  simpa using this

/-- What is selected with the smaller separations is, up to order, part of what is selected with the larger ones. -/
theorem kdConstrain_wider {s s' : Seps} (hw : Spec.Wider s s') (hz : s.h ≠ some 0) (T : KD 2 ℝ) (d : List DRow) (hT : treeOf d = .ok T)
    (sample : List Row) (i : Nat) (ref : Loc) :
    ∃ sel sel', kdConstrain s (fun _ h => treeSearch T sample h i) ref d = some sel ∧
      kdConstrain s' (fun _ h => treeSearch T sample h i) ref d = some sel' ∧ sel.Subperm sel' := by
  obtain ⟨sel, e, p⟩ := kdConstrain_rows s (fun h => treeSearch T sample h i) ref d (treeSearch_lt d T hT sample i)
  obtain ⟨sel', e', p'⟩ := kdConstrain_rows s' (fun h => treeSearch T sample h i) ref d (treeSearch_lt d T hT sample i)
  refine ⟨sel, sel', e, e', ?_⟩
  refine (p.subperm.trans ?_).trans p'.symm.subperm
  refine ((rowsFor_wider hw hz T d hT sample i).filter _).trans ?_
  refine (List.monotone_filter_right _ ?_).subperm
  intro r hr
  exact kdCond_wider hw ref r.loc hr

theorem ok_valid (s : Seps) (k : Kernel) (missing hasVals : Bool) (cx cy : List Col) (sample data : List Row)
    (out : List (List (Option ℝ))) (ho : collocate s k missing hasVals cx cy sample data = .ok out) : dropna data ≠ [] := by
  intro h
  have e : collocate s k missing hasVals cx cy sample data = .error .index := by
    unfold collocate collocateWith
    simp only
    obtain ⟨g, -, eg, -⟩ := setLongitudeRange_eq data (Lon.findLongitudeRange
      ((setLongitudeRange sample (Lon.findLongitudeRange (sample.map (fun r => r.loc.lon)))).map (fun r => r.loc.lon)))
    rw [eg, dropna_withLon, h]
    obtain ⟨e, he⟩ := (c06_build_error 0 (latLon []) 10 (by norm_num)).2 (Or.inr rfl)
    have : treeOf (List.map (fun r : DRow => r.withLon g) []) = .error e := he
    rw [this]
  rw [ho] at e; cases e

/-- The values at a sample point: those of the kernel on lists of which the first is part of the second. -/
theorem wider_values {s s' : Seps} (hw : Spec.Wider s s') (hz : s.h ≠ some 0) (missing hasVals : Bool) (cx cy : List Col)
    (sample data : List Row) (hne : dropna data ≠ []) (i : Nat) (hi : i < sample.length) :
    ∃ (ref : Loc) (skip : Prop) (d d' : List DRow), d.Sublist d' ∧ ∀ k : Kernel, k.dataOnly →
      ∃ out out', collocate s k missing hasVals cx cy sample data = .ok out ∧ collocate s' k missing hasVals cx cy sample data = .ok out' ∧
        ((skip ∧ column out i = List.replicate k.size none ∧ column out' i = List.replicate k.size none) ∨
        (¬ skip ∧ column out i = (getValue k cx cy ref d).getD (List.replicate k.size none) ∧
          column out' i = (getValue k cx cy ref d').getD (List.replicate k.size none))) := by
  obtain ⟨f, -, ef, -⟩ := setLongitudeRange_eq sample (Lon.findLongitudeRange (sample.map (fun r => r.loc.lon)))
  set s1 := setLongitudeRange sample (Lon.findLongitudeRange (sample.map (fun r => r.loc.lon))) with hs1
  set d1 := dropna (setLongitudeRange data (Lon.findLongitudeRange (s1.map (fun r => r.loc.lon)))) with hd1
  have hlen : 0 < d1.length := by
    obtain ⟨g, -, eg, -⟩ := setLongitudeRange_eq data (Lon.findLongitudeRange (s1.map (fun r => r.loc.lon)))
    rw [hd1, eg, dropna_withLon, List.length_map]; exact List.length_pos_iff.2 hne
  obtain ⟨T, hT, -⟩ := c06_build d1.length (latLon d1) 10 (by norm_num) hlen (by norm_num)
  have hT' : treeOf d1 = .ok T := hT
  have hi1 : i < s1.length := by rw [ef, List.length_map]; exact hi
  have hr1 : s1[i]? = some s1[i] := List.getElem?_eq_getElem hi1
  generalize s1[i] = r1 at hr1
  obtain ⟨sel, sel', e, e', l, hp, hsub⟩ := kdConstrain_wider hw hz T d1 hT' s1 i r1.loc
  refine ⟨r1.loc, missing = true ∧ hasVals = true ∧ r1.val = none, l, sel', hsub, fun k hk => ?_⟩
  have core : ∀ (s : Seps) (sel : List DRow), (∀ (j : Nat) (r : Row), s1[j]? = some r →
      ∃ x, kdConstrain s (fun _ h => treeSearch T s1 h j) r.loc d1 = some x) →
      kdConstrain s (fun _ h => treeSearch T s1 h i) r1.loc d1 = some sel →
      ∃ out, collocate s k missing hasVals cx cy sample data = .ok out ∧
      if missing = true ∧ hasVals = true ∧ r1.val = none then column out i = List.replicate k.size none
        else column out i = (getValue k cx cy r1.loc sel).getD (List.replicate k.size none) := by
    intro s sel hall e
    obtain ⟨out, h1, -, -, h⟩ := collocate_core treeSearch s k missing hasVals cx cy sample data hne
      (fun j x => ∃ r, s1[j]? = some r ∧ kdConstrain s (fun _ h => treeSearch T s1 h j) r.loc d1 = some x) (by
        intro T2
        simp only
        intro hT2 j r hr _
        rw [← hs1, ← hd1] at hT2
        rw [hT'] at hT2
        cases hT2
        obtain ⟨x, hx⟩ := hall j r hr
        exact ⟨x, hx, r, hr, hx⟩)
    refine ⟨out, h1, ?_⟩
    have h := h i r1 hr1
    split
    · next hm => rw [if_pos hm] at h; exact h
    · next hm =>
      rw [if_neg hm] at h
      obtain ⟨x, ⟨r, hr, hx⟩, hc⟩ := h
      rw [hr1] at hr
      cases hr
      rw [e] at hx
      cases hx
      exact hc
  have all1 : ∀ s : Seps, ∀ (j : Nat) (r : Row), s1[j]? = some r →
      ∃ x, kdConstrain s (fun _ h => treeSearch T s1 h j) r.loc d1 = some x := by
    intro s j r _
    obtain ⟨x, hx, -⟩ := kdConstrain_rows s (fun h => treeSearch T s1 h j) r.loc d1 (treeSearch_lt d1 T hT' s1 j)
    exact ⟨x, hx⟩
  obtain ⟨out, ho, hc⟩ := core s sel (all1 s) e
  obtain ⟨out', ho', hc'⟩ := core s' sel' (all1 s') e'
  refine ⟨out, out', ho, ho', ?_⟩
  by_cases hm : missing = true ∧ hasVals = true ∧ r1.val = none
  · rw [if_pos hm] at hc hc'; exact Or.inl ⟨hm, hc, hc'⟩
  · rw [if_neg hm] at hc hc'
    refine Or.inr ⟨hm, ?_, hc'⟩
    rw [hc, c15_order_independent k hk cx cy cx cy r1.loc r1.loc _ _ hp]

theorem found_value {k : Kernel} {cx cy : List Col} {ref : Loc} {d : List DRow} {x : ℝ} {l : List (Option ℝ)}
    (h : some x :: l = (getValue k cx cy ref d).getD (List.replicate k.size none)) :
    d ≠ [] ∧ getValue k cx cy ref d = some (some x :: l) := by
  have hrep : ∀ n, some x :: l ≠ List.replicate n none := by
    intro n e; cases n <;> simp [List.replicate_succ] at e
  refine ⟨?_, ?_⟩
  · intro hd
    rw [(c15_empty k cx cy ref d).2 hd] at h
    exact hrep _ h
  · cases e : getValue k cx cy ref d with
    | none => rw [e] at h; exact absurd h (hrep _)
    | some v => rw [e] at h; rw [h]; rfl

/-- **C201**. With larger separations, or fewer of them, wherever on the globe sample and data are: the collocation succeeds
just as well, no value that was found is lost, the maximum does not decrease, the minimum does not increase and the number of
points does not decrease. The only exception is a horizontal separation of zero, which selects everything (C161). -/
theorem c201_wider (s s' : Seps) (hw : Spec.Wider s s') (hz : s.h ≠ some 0) (missing hasVals : Bool) (cx cy : List Col)
    (sample data : List Row) (i : Nat) (hi : i < sample.length) :
    (∀ k out, Kernel.dataOnly k → collocate s k missing hasVals cx cy sample data = .ok out →
      ∃ out', collocate s' k missing hasVals cx cy sample data = .ok out' ∧
        (column out' i = List.replicate k.size none → column out i = List.replicate k.size none)) ∧
    (∀ out x, collocate s .max missing hasVals cx cy sample data = .ok out → column out i = [some x] →
      ∃ out' x', collocate s' .max missing hasVals cx cy sample data = .ok out' ∧ column out' i = [some x'] ∧ x ≤ x') ∧
    (∀ out x, collocate s .min missing hasVals cx cy sample data = .ok out → column out i = [some x] →
      ∃ out' x', collocate s' .min missing hasVals cx cy sample data = .ok out' ∧ column out' i = [some x'] ∧ x' ≤ x) ∧
    (∀ out m sd n, collocate s .moments missing hasVals cx cy sample data = .ok out → column out i = [m, sd, some n] →
      ∃ out' m' sd' n', collocate s' .moments missing hasVals cx cy sample data = .ok out' ∧
        column out' i = [m', sd', some n'] ∧ n ≤ n') := by
  by_cases hne : dropna data = []
  · exact ⟨fun k out _ ho => absurd hne (ok_valid s k missing hasVals cx cy sample data out ho),
      fun out _ ho => absurd hne (ok_valid s _ missing hasVals cx cy sample data out ho),
      fun out _ ho => absurd hne (ok_valid s _ missing hasVals cx cy sample data out ho),
      fun out _ _ _ ho => absurd hne (ok_valid s _ missing hasVals cx cy sample data out ho)⟩
  obtain ⟨ref, skip, d, d', hsub, H⟩ := wider_values hw hz missing hasVals cx cy sample data hne i hi
  have hne' : d ≠ [] → d' ≠ [] := by
    intro h h'; rw [h'] at hsub; exact h (List.sublist_nil.1 hsub)
  have same : ∀ {k : Kernel} {out out1 : List (List (Option ℝ))}, collocate s k missing hasVals cx cy sample data = .ok out →
      collocate s k missing hasVals cx cy sample data = .ok out1 → out1 = out := by
    intro k out out1 h h1; rw [h] at h1; cases h1; rfl
  refine ⟨?_, ?_, ?_, ?_⟩
  · intro k out hk ho
    obtain ⟨out1, out', h1, h2, h⟩ := H k hk
    cases same ho h1
    refine ⟨out', h2, fun hmiss => ?_⟩
    rcases h with ⟨-, e, -⟩ | ⟨-, e, e'⟩
    · exact e
    · rw [hmiss] at e'
      rw [e]
      by_cases hd : d = []
      · rw [(c15_empty k cx cy ref d).2 hd]; rfl
      · exact value_missing k hk cx cy ref d d' hsub hd e'.symm
  · intro out x ho hx
    obtain ⟨out1, out', h1, h2, h⟩ := H .max trivial
    cases same ho h1
    rcases h with ⟨-, e, -⟩ | ⟨-, e, e'⟩
    · rw [hx] at e; simp [Kernel.size, List.replicate] at e
    · rw [hx] at e
      obtain ⟨hd, e⟩ := found_value e
      obtain ⟨_, x', _, _, -, g', -, -, -, -, hb', -⟩ := c15_bounds cx cy ref d' (hne' hd)
      obtain ⟨_, x1, _, _, -, g1, -, -, -, ⟨q, hq, eq⟩, -⟩ := c15_bounds cx cy ref d hd
      rw [g1] at e
      simp only [Option.some.injEq, List.cons.injEq, and_true] at e
      subst e
      refine ⟨out', x', h2, by rw [e', g']; rfl, ?_⟩
      rw [← eq]
      exact (hb' q (hsub.subset hq)).2
  · intro out x ho hx
    obtain ⟨out1, out', h1, h2, h⟩ := H .min trivial
    cases same ho h1
    rcases h with ⟨-, e, -⟩ | ⟨-, e, e'⟩
    · rw [hx] at e; simp [Kernel.size, List.replicate] at e
    · rw [hx] at e
      obtain ⟨hd, e⟩ := found_value e
      obtain ⟨x', _, _, _, g', -, -, -, -, -, hb', -⟩ := c15_bounds cx cy ref d' (hne' hd)
      obtain ⟨x1, _, _, _, g1, -, -, -, ⟨q, hq, eq⟩, -⟩ := c15_bounds cx cy ref d hd
      rw [g1] at e
      simp only [Option.some.injEq, List.cons.injEq, and_true] at e
      subst e
      refine ⟨out', x', h2, by rw [e', g']; rfl, ?_⟩
      rw [← eq]
      exact (hb' q (hsub.subset hq)).1
  · intro out m sd n ho hx
    obtain ⟨out1, out', h1, h2, h⟩ := H .moments trivial
    cases same ho h1
    rcases h with ⟨-, e, -⟩ | ⟨-, e, e'⟩
    · rw [hx] at e; simp [Kernel.size, List.replicate] at e
    · by_cases hd : d = []
      · rw [hx, (c15_empty .moments cx cy ref d).2 hd] at e; simp [Kernel.size, List.replicate] at e
      · obtain ⟨m1, sd1, -, -, g⟩ := c15_moments cx cy ref d hd
        obtain ⟨m', sd', -, -, g'⟩ := c15_moments cx cy ref d' (hne' hd)
        rw [hx, g] at e
        simp only [Option.getD_some, List.cons.injEq, Option.some.injEq, and_true] at e
        refine ⟨out', m', sd', d'.length, h2, by rw [e', g']; rfl, ?_⟩
        rw [e.2.2]
        exact_mod_cast hsub.length_le

/-- The plain constraint selects, in order, at least the points it selects with smaller separations. -/
theorem c201_plain (s s' : Seps) (hw : Spec.Wider s s') (ref : Loc) (data : List DRow) :
    (plainConstrain s ref data).Sublist (plainConstrain s' ref data) := by
  unfold plainConstrain
  rw [foldl_filter, foldl_filter, List.nil_append, List.nil_append]
  refine List.monotone_filter_right data ?_
  intro r h
  unfold plainChecks at h ⊢
  simp only [List.all_append, Bool.and_eq_true] at h ⊢
  obtain ⟨⟨⟨h0, h1⟩, h2⟩, h3⟩ := h
  refine ⟨⟨⟨?_, ?_⟩, ?_⟩, ?_⟩
  · cases e : s'.h with
    | none => rfl
    | some x' =>
      obtain ⟨x, ex, hx⟩ := hw.h x' e
      rw [ex] at h0
      simp only [List.all_cons, List.all_nil, Bool.and_true, decide_eq_true_eq] at h0 ⊢
      linarith
  · cases e : s'.a with
    | none => rfl
    | some x' =>
      obtain ⟨x, ex, hx⟩ := hw.a x' e
      rw [ex] at h1
      simp only [List.all_cons, List.all_nil, Bool.and_true, decide_eq_true_eq] at h1 ⊢
      linarith
  · cases e : s'.p with
    | none => rfl
    | some x' =>
      obtain ⟨x, ex, hx⟩ := hw.p x' e
      rw [ex] at h2
      simp only [List.all_cons, List.all_nil, Bool.and_true, decide_eq_true_eq] at h2 ⊢
      linarith
  · cases e : s'.t with
    | none => rfl
    | some x' =>
      obtain ⟨x, ex, hx⟩ := hw.t x' e
      rw [ex] at h3
      simp only [List.all_cons, List.all_nil, Bool.and_true, decide_eq_true_eq] at h3 ⊢
      linarith

/-- The hypotheses are met across the date line, where the search is not exact (C163): from 45 degrees of arc to 90. -/
example : Spec.Wider sep45 ⟨some (6378 * (π / 2)), none, none, none⟩ ∧ sep45.h ≠ some 0 := by
  have := pi_pos
  refine ⟨⟨?_, by simp, by simp, by simp⟩, ?_⟩
  · intro x' e; simp at e; subst e; exact ⟨_, rfl, by linarith⟩
  · unfold sep45; simp [this.ne']

/-- A value is found there, so none of the claims is empty. -/
example : ∃ out x, collocate sep45 .max false true [.lat, .lon] [.lat, .lon] [⟨eq 0, some 1⟩] [⟨eq 330, some 7⟩] = .ok out ∧
    column out 0 = [some x] := ⟨_, 7, near_alone, rfl⟩

end Cis.Colloc
