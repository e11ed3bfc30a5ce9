import Verif.HavTree.Sphere
import Verif.KDTree.Lemmas
set_option linter.unusedSectionVars false
set_option linter.unusedSimpArgs false
namespace Cis.HavTree
open Real Cis.Geo Cis.KDTree

/-- `R` is a well-formed box inside the box `Q`. -/
def Sub (R Q : Rect 2 ℝ) : Prop := ∀ i, Q.mins i ≤ R.mins i ∧ R.mins i ≤ R.maxes i ∧ R.maxes i ≤ Q.maxes i

/-- Both subtrees of every inner node hold points. -/
def Full {m : Nat} {K : Type} : Tree m K → Prop
  | .leaf _ => True
  | .inner _ _ l g => l.indices ≠ [] ∧ g.indices ≠ [] ∧ Full l ∧ Full g

theorem build_full {m : Nat} {K : Type} [Field K] [LinearOrder K] [IsStrictOrderedRing K] (data : Nat → Pt m K)
    (leafsize : Nat) (idx : List Nat) (maxes mins : Pt m K) (hm : 0 < m) (t : Tree m K)
    (h : build data leafsize idx maxes mins = .ok t) : Full t := by
  induction hn : idx.length using Nat.strong_induction_on generalizing idx maxes mins t with
  | _ n ih =>
    rw [build] at h
    split at h
    · simp only [Except.ok.injEq] at h; subst h; trivial
    split at h
    · simp at h
    split at h
    · simp only [Except.ok.injEq] at h; subst h; trivial
    split at h
    · simp at h
    rename_i s less greater hs
    have hsp := slide_spec hs
    split at h
    · split at h
      · simp only [Except.ok.injEq] at h; subst h; trivial
      · simp at h
    rename_i hl
    have hlen := hsp.1.length_eq
    have hgpos : 0 < greater.length := List.length_pos_iff.2 hsp.2.2.2
    simp at hlen
    split at h
    · rename_i l g e1 e2
      simp only [Except.ok.injEq] at h; subst h
      obtain ⟨tl, e1', p1, -⟩ := build_spec data leafsize less _ _ hm
      rw [e1] at e1'; simp only [Except.ok.injEq] at e1'; subst e1'
      obtain ⟨tg, e2', p2, -⟩ := build_spec data leafsize greater _ _ hm
      rw [e2] at e2'; simp only [Except.ok.injEq] at e2'; subst e2'
      refine ⟨?_, ?_, ih less.length (by omega) less _ _ l e1 rfl, ih greater.length (by omega) greater _ _ g e2 rfl⟩
      · intro he; rw [he] at p1; have := p1.length_eq; simp at this; exact hl this.symm
      · intro he; rw [he] at p2; have := p2.length_eq; simp at this; omega
    · simp at h
    · simp at h

theorem split_mem {data : Nat → Pt 2 ℝ} {d : Fin 2} {s : ℝ} {l g : Tree 2 ℝ} {R : Rect 2 ℝ}
    (hg : Good data (.inner d s l g) R) (hf : Full (.inner d s l g)) : R.mins d ≤ s ∧ s ≤ R.maxes d := by
  obtain ⟨i, hi⟩ := List.exists_mem_of_ne_nil _ hf.1
  obtain ⟨j, hj⟩ := List.exists_mem_of_ne_nil _ hf.2.1
  have h1 := hg.splits.1 i hi
  have h2 := hg.splits.2.1 j hj
  have h3 := hg.inside i (by simp [Tree.indices, hi]) d
  have h4 := hg.inside j (by simp [Tree.indices, hj]) d
  exact ⟨h3.1.trans h1, h2.trans h4.2⟩

theorem Sub.less {R Q : Rect 2 ℝ} (h : Sub R Q) {d : Fin 2} {s : ℝ} (h1 : R.mins d ≤ s) (h2 : s ≤ R.maxes d) :
    Sub (R.split d s).1 Q := by
  intro i
  obtain ⟨a, b, c⟩ := h i
  simp only [Rect.split, Rect.mk', Function.update_apply]
  by_cases hi : i = d
  · subst hi
    simp only [if_true]
    rw [min_eq_left h1, max_eq_right h1]
    exact ⟨a, h1, h2.trans c⟩
  · simp only [if_neg hi]
    rw [min_eq_left b, max_eq_right b]; exact ⟨a, b, c⟩

theorem Sub.greater {R Q : Rect 2 ℝ} (h : Sub R Q) {d : Fin 2} {s : ℝ} (h1 : R.mins d ≤ s) (h2 : s ≤ R.maxes d) :
    Sub (R.split d s).2 Q := by
  intro i
  obtain ⟨a, b, c⟩ := h i
  simp only [Rect.split, Rect.mk', Function.update_apply]
  by_cases hi : i = d
  · subst hi
    simp only [if_true]
    rw [min_eq_left h2, max_eq_right h2]
    exact ⟨a.trans h1, h2, c⟩
  · simp only [if_neg hi]
    rw [min_eq_left b, max_eq_right b]; exact ⟨a, b, c⟩

/-- A ball query over any lower and upper bounds that are right on the boxes inside the root box. -/
theorem ballPoint_exact (data : Nat → Pt 2 ℝ) (x : Pt 2 ℝ) (r : ℝ) (Q : Rect 2 ℝ)
    (hmin : ∀ R y, Sub R Q → Inside R y → minPoint R x ≤ havPt y x)
    (hmax : ∀ R y, Sub R Q → Inside R y → havPt y x ≤ maxPoint R x)
    (t : Tree 2 ℝ) (R : Rect 2 ℝ) (h : Good data t R) (hf : Full t) (hs : Sub R Q) :
    ballPoint data x r t R = t.indices.filter (fun i => decide (havPt (data i) x ≤ r)) := by
  induction t generalizing R with
  | leaf idx =>
    unfold ballPoint
    simp only [add_zero, div_one, mul_one]
    split
    · rename_i h1
      symm; rw [List.filter_eq_nil_iff]
      intro i hi; simp only [decide_eq_true_eq, not_le]
      exact lt_of_lt_of_le h1 (hmin R _ hs (h.inside i hi))
    · split
      · rename_i h2
        rw [collect_eq]; symm; rw [List.filter_eq_self]
        intro i hi; simp only [decide_eq_true_eq]
        exact le_of_lt (lt_of_le_of_lt (hmax R _ hs (h.inside i hi)) h2)
      · rfl
  | inner d s l g ihl ihg =>
    unfold ballPoint
    simp only [add_zero, div_one, mul_one]
    split
    · rename_i h1
      symm; rw [List.filter_eq_nil_iff]
      intro i hi; simp only [decide_eq_true_eq, not_le]
      exact lt_of_lt_of_le h1 (hmin R _ hs (h.inside i hi))
    · split
      · rename_i h2
        rw [collect_eq]; symm; rw [List.filter_eq_self]
        intro i hi; simp only [decide_eq_true_eq]
        exact le_of_lt (lt_of_le_of_lt (hmax R _ hs (h.inside i hi)) h2)
      · obtain ⟨m1, m2⟩ := split_mem h hf
        rw [ihl _ h.less hf.2.2.1 (hs.less m1 m2), ihg _ h.greater hf.2.2.2 (hs.greater m1 m2)]; simp [Tree.indices]

/-- What the tree traversal of two trees returns: everything near whose boxes are never judged too far, and nothing but near
pairs and pairs of boxes judged close. -/
theorem checkTree_sandwich (data1 data2 : Nat → Pt 2 ℝ) (r : ℝ) (Q1 Q2 : Rect 2 ℝ) (k : Nat)
    (t1 : Tree 2 ℝ) (R1 : Rect 2 ℝ) (t2 : Tree 2 ℝ) (R2 : Rect 2 ℝ) (res : Results)
    (g1 : Good data1 t1 R1) (g2 : Good data2 t2 R2) (f1 : Full t1) (f2 : Full t2) (s1 : Sub R1 Q1) (s2 : Sub R2 Q2)
    (hn : t1.indices.Nodup) :
    ∃ L, checkTree data1 data2 r t1 R1 t2 R2 res k = res k ++ L ∧
      L.Sublist (if k ∈ t1.indices then t2.indices else []) ∧
      (∀ j ∈ L, havPt (data2 j) (data1 k) ≤ r ∨
        ∃ R S, Sub R Q1 ∧ Sub S Q2 ∧ Inside R (data1 k) ∧ Inside S (data2 j) ∧ maxRect R S < r) ∧
      (k ∈ t1.indices → ∀ j ∈ t2.indices, havPt (data2 j) (data1 k) ≤ r →
        (∀ R S, Sub R Q1 → Sub S Q2 → Inside R (data1 k) → Inside S (data2 j) → minRect R S ≤ r) → j ∈ L) := by
  fun_induction checkTree data1 data2 r t1 R1 t2 R2 res with
  | case1 t1 R1 t2 R2 res h =>
    refine ⟨[], by simp, List.nil_sublist _, by simp, fun hk j hj _ hmin => ?_⟩
    have := hmin R1 R2 s1 s2 (g1.inside k hk) (g2.inside j hj)
    simp only [add_zero, div_one] at h
    exact absurd h (not_lt.2 this)
  | case2 t1 R1 t2 R2 res _ h =>
    refine ⟨if k ∈ t1.indices then t2.indices else [], noCheckTree_eq t1 t2 res hn k, List.Sublist.refl _, ?_, ?_⟩
    · intro j hj
      split at hj
      · rename_i hk
        right
        exact ⟨R1, R2, s1, s2, g1.inside k hk, g2.inside j hj, by simpa using h⟩
      · simp at hj
    · intro hk j hj _ _; rw [if_pos hk]; exact hj
  | case3 R1 R2 res _ _ i1 i2 =>
    refine ⟨if k ∈ i1 then i2.filter (fun j => decide (havPt (data2 j) (data1 k) ≤ r)) else [],
      foldl_extend i1 _ res hn k, ?_, ?_, ?_⟩
    · by_cases hk : k ∈ (Tree.leaf i1 : Tree 2 ℝ).indices
      · rw [if_pos hk]; have hk' : k ∈ i1 := hk
        rw [if_pos hk']; exact List.filter_sublist
      · rw [if_neg hk]; have hk' : ¬ k ∈ i1 := hk
        rw [if_neg hk']
    · intro j hj; split at hj
      · simp at hj; exact Or.inl hj.2
      · simp at hj
    · intro hk j hj h _
      simp only [Tree.indices] at hk hj
      rw [if_pos hk]; simp [hj, h]
  | case4 R1 R2 res _ _ i1 d s l g ih2 ih1 =>
    obtain ⟨m1, m2⟩ := split_mem g2 f2
    obtain ⟨L1, e1, u1, a1, b1⟩ := ih2 g1 g2.less trivial f2.2.2.1 s1 (s2.less m1 m2) hn
    obtain ⟨L2, e2, u2, a2, b2⟩ := ih1 g1 g2.greater trivial f2.2.2.2 s1 (s2.greater m1 m2) hn
    refine ⟨L1 ++ L2, by rw [e2, e1]; simp, ?_, ?_, ?_⟩
    · have := u1.append u2
      by_cases hk : k ∈ (Tree.leaf i1 : Tree 2 ℝ).indices
      · rw [if_pos hk, if_pos hk] at this; rw [if_pos hk]; exact this
      · rw [if_neg hk, if_neg hk] at this; rw [if_neg hk]; exact this
    · intro j hj; rcases List.mem_append.1 hj with hj | hj
      · exact a1 j hj
      · exact a2 j hj
    · intro hk j hj h hmin
      simp only [Tree.indices, List.mem_append] at hj
      rw [List.mem_append]
      exact hj.imp (fun hj => b1 hk j hj h hmin) (fun hj => b2 hk j hj h hmin)
  | case5 R1 R2 res _ _ d s l g i2 ih2 ih1 =>
    obtain ⟨m1, m2⟩ := split_mem g1 f1
    simp only [Tree.indices] at hn
    obtain ⟨n1, n2, n3⟩ := List.nodup_append.1 hn
    obtain ⟨L1, e1, u1, a1, b1⟩ := ih2 g1.less g2 f1.2.2.1 trivial (s1.less m1 m2) s2 n1
    obtain ⟨L2, e2, u2, a2, b2⟩ := ih1 g1.greater g2 f1.2.2.2 trivial (s1.greater m1 m2) s2 n2
    refine ⟨L1 ++ L2, by rw [e2, e1]; simp, ?_, ?_, ?_⟩
    · simp only [Tree.indices, List.mem_append]
      by_cases hl : k ∈ l.indices
      · have : k ∉ g.indices := fun hg => n3 k hl k hg rfl
        rw [if_neg this] at u2; rw [if_pos hl] at u1
        have := u1.append u2
        simpa [hl, Tree.indices] using this
      · rw [if_neg hl] at u1
        have := u1.append u2
        simpa [hl, Tree.indices] using this
    · intro j hj; rcases List.mem_append.1 hj with hj | hj
      · exact a1 j hj
      · exact a2 j hj
    · intro hk j hj h hmin
      simp only [Tree.indices, List.mem_append] at hk
      rw [List.mem_append]
      exact hk.imp (fun hk => b1 hk j hj h hmin) (fun hk => b2 hk j hj h hmin)
  | case6 R1 R2 res _ _ d1 s1' l1 gg1 d2 s2' l2 gg2 ih4 ih3 ih2 ih1 =>
    obtain ⟨m1, m2⟩ := split_mem g1 f1
    obtain ⟨m3, m4⟩ := split_mem g2 f2
    simp only [Tree.indices] at hn
    obtain ⟨n1, n2, n3⟩ := List.nodup_append.1 hn
    obtain ⟨L1, e1, u1, a1, b1⟩ := ih4 g1.less g2.less f1.2.2.1 f2.2.2.1 (s1.less m1 m2) (s2.less m3 m4) n1
    obtain ⟨L2, e2, u2, a2, b2⟩ := ih3 g1.less g2.greater f1.2.2.1 f2.2.2.2 (s1.less m1 m2) (s2.greater m3 m4) n1
    obtain ⟨L3, e3, u3, a3, b3⟩ := ih2 g1.greater g2.less f1.2.2.2 f2.2.2.1 (s1.greater m1 m2) (s2.less m3 m4) n2
    obtain ⟨L4, e4, u4, a4, b4⟩ := ih1 g1.greater g2.greater f1.2.2.2 f2.2.2.2 (s1.greater m1 m2) (s2.greater m3 m4) n2
    refine ⟨(L1 ++ L2) ++ (L3 ++ L4), by rw [e4, e3, e2, e1]; simp, ?_, ?_, ?_⟩
    · simp only [Tree.indices, List.mem_append]
      by_cases hl : k ∈ l1.indices
      · have hng : k ∉ gg1.indices := fun hg => n3 k hl k hg rfl
        rw [if_neg hng] at u3 u4; rw [if_pos hl] at u1 u2
        have := (u1.append u2).append (u3.append u4)
        simpa [hl, Tree.indices] using this
      · rw [if_neg hl] at u1 u2
        by_cases hg : k ∈ gg1.indices
        · rw [if_pos hg] at u3 u4
          have := (u1.append u2).append (u3.append u4)
          simpa [hg, Tree.indices] using this
        · rw [if_neg hg] at u3 u4
          have := (u1.append u2).append (u3.append u4)
          simpa [hl, hg] using this
    · intro j hj
      rcases List.mem_append.1 hj with hj | hj <;> rcases List.mem_append.1 hj with hj | hj
      · exact a1 j hj
      · exact a2 j hj
      · exact a3 j hj
      · exact a4 j hj
    · intro hk j hj h hmin
      simp only [Tree.indices, List.mem_append] at hk hj
      simp only [List.mem_append]
      rcases hk with hk | hk <;> rcases hj with hj | hj
      · exact Or.inl (Or.inl (b1 hk j hj h hmin))
      · exact Or.inl (Or.inr (b2 hk j hj h hmin))
      · exact Or.inr (Or.inl (b3 hk j hj h hmin))
      · exact Or.inr (Or.inr (b4 hk j hj h hmin))

theorem mkTree_full (n : Nat) (data : Nat → Pt 2 ℝ) (leafsize : Nat) (T : KD 2 ℝ) (h : mkTree n data leafsize = .ok T) :
    Full T.tree := by
  unfold mkTree at h
  split at h
  · simp at h
  split at h
  · simp at h
  simp only at h
  split at h
  · rename_i t e
    simp only [Except.ok.injEq] at h; subst h
    exact build_full data leafsize _ _ _ (by norm_num) t e
  · simp at h

end Cis.HavTree
