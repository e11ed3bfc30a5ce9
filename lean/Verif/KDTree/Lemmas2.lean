import Verif.KDTree.Lemmas
import Mathlib.Tactic.Tauto
import Mathlib.Algebra.BigOperators.Group.List.Basic
set_option linter.unusedSectionVars false
set_option linter.unusedSimpArgs false
namespace Cis.KDTree
variable {K : Type} [Field K] [LinearOrder K] [IsStrictOrderedRing K] {m : Nat}

/-! ### Counting -/

/-- Number of pairs within distance `r`. -/
def pairCount (N : Metric m K) (data1 data2 : Nat → Pt m K) (r : K) (l1 l2 : List Nat) : Nat :=
  (l1.map (fun i => l2.countP (fun j => decide (N.dist (data1 i) (data2 j) ≤ r)))).sum

theorem pairCount_append_left (N : Metric m K) (data1 data2 : Nat → Pt m K) (r : K) (a b c : List Nat) :
    pairCount N data1 data2 r (a ++ b) c = pairCount N data1 data2 r a c + pairCount N data1 data2 r b c := by
  simp [pairCount]

theorem pairCount_append_right (N : Metric m K) (data1 data2 : Nat → Pt m K) (r : K) (a b c : List Nat) :
    pairCount N data1 data2 r a (b ++ c) = pairCount N data1 data2 r a b + pairCount N data1 data2 r a c := by
  simp only [pairCount, List.countP_append]
  induction a with
  | nil => rfl
  | cons x t ih => simp only [List.map_cons, List.sum_cons, ih]; omega

theorem pairCount_perm (N : Metric m K) (data1 data2 : Nat → Pt m K) (r : K) {a a' b b' : List Nat}
    (ha : a.Perm a') (hb : b.Perm b') : pairCount N data1 data2 r a b = pairCount N data1 data2 r a' b' := by
  have h1 : ∀ i, b.countP (fun j => decide (N.dist (data1 i) (data2 j) ≤ r))
      = b'.countP (fun j => decide (N.dist (data1 i) (data2 j) ≤ r)) := fun i => hb.countP_eq _
  simp only [pairCount, h1]
  exact (ha.map _).sum_eq

theorem pairCount_zero (N : Metric m K) (data1 data2 : Nat → Pt m K) (r : K) (a b : List Nat)
    (h : ∀ i ∈ a, ∀ j ∈ b, r < N.dist (data1 i) (data2 j)) : pairCount N data1 data2 r a b = 0 := by
  induction a with
  | nil => rfl
  | cons x t ih =>
    have h0 : b.countP (fun j => decide (N.dist (data1 x) (data2 j) ≤ r)) = 0 := by
      rw [List.countP_eq_zero]; intro j hj; simp; exact h x (by simp) j hj
    have := ih (fun i hi => h i (by simp [hi]))
    simp only [pairCount, List.map_cons, List.sum_cons] at this ⊢
    omega

theorem pairCount_all (N : Metric m K) (data1 data2 : Nat → Pt m K) (r : K) (a b : List Nat)
    (h : ∀ i ∈ a, ∀ j ∈ b, N.dist (data1 i) (data2 j) ≤ r) : pairCount N data1 data2 r a b = a.length * b.length := by
  induction a with
  | nil => simp [pairCount]
  | cons x t ih =>
    have h0 : b.countP (fun j => decide (N.dist (data1 x) (data2 j) ≤ r)) = b.length := by
      rw [List.countP_eq_length]; intro j hj; simp; exact h x (by simp) j hj
    have := ih (fun i hi => h i (by simp [hi]))
    simp only [pairCount, List.map_cons, List.sum_cons, List.length_cons] at this ⊢
    rw [h0, this]; ring

theorem takeWhile_sorted (l : List K) (v : K) (h : l.Pairwise (· ≤ ·)) :
    (l.takeWhile (fun d => decide (d ≤ v))).length = l.countP (fun d => decide (d ≤ v)) := by
  induction l with
  | nil => rfl
  | cons x t ih =>
    obtain ⟨h1, h2⟩ := List.pairwise_cons.1 h
    by_cases hx : x ≤ v
    · simp [List.takeWhile_cons, List.countP_cons, hx, ih h2]
    · have : t.countP (fun d => decide (d ≤ v)) = 0 := by
        rw [List.countP_eq_zero]; intro y hy; simp
        exact lt_of_lt_of_le (not_le.1 hx) (h1 y hy)
      simp [List.takeWhile_cons, List.countP_cons, hx, this]

theorem leaf_count (N : Metric m K) (data1 data2 : Nat → Pt m K) (i1 i2 : List Nat) (v : K) :
    searchsortedRight (leafDistances N data1 data2 i1 i2) v = pairCount N data1 data2 v i1 i2 := by
  unfold searchsortedRight leafDistances
  rw [takeWhile_sorted]
  · rw [(List.mergeSort_perm _ _).countP_eq]
    unfold pairCount
    induction i1 with
    | nil => simp
    | cons x t ih =>
      simp only [List.flatMap_cons, List.countP_append, ih, List.map_cons, List.sum_cons, List.countP_map]
      rfl
  · have := List.pairwise_mergeSort (le := fun a b : K => decide (a ≤ b))
      (fun a b c h1 h2 => by simp at *; exact le_trans h1 h2)
      (fun a b => by simp; exact le_total a b)
      (i1.flatMap (fun i => i2.map (fun j => N.dist (data1 i) (data2 j))))
    simpa using this

/-- The arithmetic of one radius at one node pair. -/
theorem bulk_keep (N : Metric m K) (data1 data2 : Nat → Pt m K) (r : Nat → K) (t1 t2 : Tree m K) (R1 R2 : Rect m K)
    (g1 : Good data1 t1 R1) (g2 : Good data2 t2 R2) (idx : List Nat) (res : Nat → Nat) (k : Nat) :
    countBulk r (maxDistRect N R1 R2) (t1.children * t2.children) idx res k +
      (if k ∈ countKeep r (minDistRect N R1 R2) (maxDistRect N R1 R2) idx
        then pairCount N data1 data2 (r k) t1.indices t2.indices else 0)
    = res k + (if k ∈ idx then pairCount N data1 data2 (r k) t1.indices t2.indices else 0) := by
  unfold countBulk countKeep
  by_cases hk : k ∈ idx
  · by_cases h1 : r k > maxDistRect N R1 R2
    · have h2 : ¬ r k ≤ maxDistRect N R1 R2 := not_le.2 h1
      have : pairCount N data1 data2 (r k) t1.indices t2.indices = t1.children * t2.children := by
        rw [children_eq, children_eq]
        apply pairCount_all
        intro i hi j hj
        exact le_of_lt (lt_of_le_of_lt (le_maxDistRect N (g1.inside i hi) (g2.inside j hj)) h1)
      simp [hk, h1, h2, this]
    · by_cases h3 : minDistRect N R1 R2 ≤ r k
      · simp [hk, h1, h3, not_lt.1 h1]
      · have : pairCount N data1 data2 (r k) t1.indices t2.indices = 0 := by
          apply pairCount_zero
          intro i hi j hj
          exact lt_of_lt_of_le (not_le.1 h3) (minDistRect_le N (g1.inside i hi) (g2.inside j hj))
        simp [hk, h1, h3, this]
  · simp [hk]

theorem countTraverse_eq (N : Metric m K) (data1 data2 : Nat → Pt m K) (r : Nat → K) (t1 : Tree m K) (R1 : Rect m K)
    (t2 : Tree m K) (R2 : Rect m K) (idx : List Nat) (res : Nat → Nat)
    (g1 : Good data1 t1 R1) (g2 : Good data2 t2 R2) (k : Nat) :
    countTraverse N data1 data2 r t1 R1 t2 R2 idx res k =
      res k + (if k ∈ idx then pairCount N data1 data2 (r k) t1.indices t2.indices else 0) := by
  fun_induction countTraverse N data1 data2 r t1 R1 t2 R2 idx res with
  | case1 t1 R1 t2 R2 idx res h =>
    rw [← bulk_keep N data1 data2 r t1 t2 R1 R2 g1 g2 idx res k]
    rw [List.length_eq_zero_iff] at h
    simp [h]
  | case2 R1 R2 idx res i1 i2 h =>
    rw [← bulk_keep N data1 data2 r _ _ R1 R2 g1 g2 idx res k]
    simp only [Tree.children, Tree.indices, leaf_count]
    split <;> simp
  | case3 R1 R2 idx res i1 d s l g h ih1 ih2 =>
    rw [ih2 g1 g2.greater, ih1 g1 g2.less]
    rw [← bulk_keep N data1 data2 r _ _ R1 R2 g1 g2 idx res k]
    simp only [Tree.children, Tree.indices, pairCount_append_right]
    split <;> omega
  | case4 R1 R2 idx res d s l g i2 h ih1 ih2 =>
    rw [ih2 g1.greater g2, ih1 g1.less g2]
    rw [← bulk_keep N data1 data2 r _ _ R1 R2 g1 g2 idx res k]
    simp only [Tree.children, Tree.indices, pairCount_append_left]
    split <;> omega
  | case5 R1 R2 idx res d1 s1 l1 gg1 d2 s2 l2 gg2 h ih1 ih2 ih3 ih4 =>
    rw [ih4 g1.greater g2.greater, ih3 g1.greater g2.less, ih2 g1.less g2.greater, ih1 g1.less g2.less]
    rw [← bulk_keep N data1 data2 r _ _ R1 R2 g1 g2 idx res k]
    simp only [Tree.children, Tree.indices, pairCount_append_left, pairCount_append_right]
    split <;> omega

/-! ### Sparse distance matrix -/

theorem sparse_inner (f : Nat → K) (maxd : K) (i : Nat) (l : List Nat) (res : Sparse K) (a b : Nat) :
    (l.foldl (fun (res : Sparse K) j =>
      if f j ≤ maxd then (fun a b => if a = i ∧ b = j then f j else res a b) else res) res) a b
    = if a = i ∧ b ∈ l ∧ f b ≤ maxd then f b else res a b := by
  induction l generalizing res with
  | nil => simp
  | cons x t ih =>
    simp only [List.foldl_cons, ih, List.mem_cons]
    by_cases ha : a = i
    · by_cases hd : f b ≤ maxd
      · by_cases hb : b ∈ t
        · simp [ha, hd, hb]
        · by_cases hx : b = x
          · subst hx; simp [ha, hd, hb]
          · by_cases hfx : f x ≤ maxd <;> simp [ha, hb, hx, hfx]
      · simp only [ha, hd, and_false, if_false]
        split
        · rename_i hx
          by_cases hbx : b = x
          · subst hbx; exact absurd hx hd
          · simp [hbx]
        · rfl
    · simp only [ha, false_and, if_false]; split <;> simp [ha]

theorem sparse_outer (f : Nat → Nat → K) (maxd : K) (l1 l2 : List Nat) (res : Sparse K) (a b : Nat) :
    (l1.foldl (fun (res : Sparse K) i => l2.foldl (fun (res : Sparse K) j =>
      if f i j ≤ maxd then (fun a b => if a = i ∧ b = j then f i j else res a b) else res) res) res) a b
    = if a ∈ l1 ∧ b ∈ l2 ∧ f a b ≤ maxd then f a b else res a b := by
  induction l1 generalizing res with
  | nil => simp
  | cons x t ih =>
    simp only [List.foldl_cons, ih, List.mem_cons]
    rw [sparse_inner (f x) maxd x l2 res a b]
    by_cases hx : a = x
    · subst hx
      by_cases h : b ∈ l2 ∧ f a b ≤ maxd
      · simp [h]
      · simp [h]
    · simp [hx]

theorem sparseTraverse_eq (N : Metric m K) (data1 data2 : Nat → Pt m K) (maxd : K) (t1 : Tree m K) (R1 : Rect m K)
    (t2 : Tree m K) (R2 : Rect m K) (res : Sparse K) (g1 : Good data1 t1 R1) (g2 : Good data2 t2 R2) (a b : Nat) :
    sparseTraverse N data1 data2 maxd t1 R1 t2 R2 res a b =
      if a ∈ t1.indices ∧ b ∈ t2.indices ∧ N.dist (data1 a) (data2 b) ≤ maxd
      then N.dist (data1 a) (data2 b) else res a b := by
  fun_induction sparseTraverse N data1 data2 maxd t1 R1 t2 R2 res with
  | case1 t1 R1 t2 R2 res h =>
    rw [if_neg]
    rintro ⟨ha, hb, hd⟩
    exact absurd (lt_of_lt_of_le h (minDistRect_le N (g1.inside a ha) (g2.inside b hb))) (not_lt.2 hd)
  | case2 R1 R2 res h i1 i2 =>
    exact sparse_outer (fun i j => N.dist (data1 i) (data2 j)) maxd i1 i2 res a b
  | case3 R1 R2 res h i1 d s l g ih1 ih2 =>
    rw [ih2 g1 g2.greater, ih1 g1 g2.less]
    simp only [Tree.indices, List.mem_append]
    by_cases hd : N.dist (data1 a) (data2 b) ≤ maxd
    · by_cases e1 : a ∈ i1 <;> by_cases e3 : b ∈ l.indices <;>
        by_cases e4 : b ∈ g.indices <;> simp [hd, e1, e3, e4]
    · simp [hd]
  | case4 R1 R2 res h d s l g i2 ih1 ih2 =>
    rw [ih2 g1.greater g2, ih1 g1.less g2]
    simp only [Tree.indices, List.mem_append]
    by_cases hd : N.dist (data1 a) (data2 b) ≤ maxd
    · by_cases e1 : a ∈ l.indices <;> by_cases e2 : a ∈ g.indices <;>
        by_cases e4 : b ∈ i2 <;> simp [hd, e1, e2, e4]
    · simp [hd]
  | case5 R1 R2 res h d1 s1 l1 gg1 d2 s2 l2 gg2 ih1 ih2 ih3 ih4 =>
    rw [ih4 g1.greater g2.greater, ih3 g1.greater g2.less, ih2 g1.less g2.greater, ih1 g1.less g2.less]
    simp only [Tree.indices, List.mem_append]
    by_cases hd : N.dist (data1 a) (data2 b) ≤ maxd
    · by_cases e1 : a ∈ l1.indices <;> by_cases e2 : a ∈ gg1.indices <;> by_cases e3 : b ∈ l2.indices <;>
        by_cases e4 : b ∈ gg2.indices <;> simp [hd, e1, e2, e3, e4]
    · simp [hd]

/-! ### Pairs -/

theorem leafPairs_mem (same : Bool) (i1 : List Nat) (sel : Nat → List Nat) (res : Pairs) (p : Nat × Nat) :
    p ∈ leafPairs same i1 sel res ↔ p ∈ res ∨
      (p.1 < p.2 ∧ ((p.1 ∈ i1 ∧ p.2 ∈ sel p.1) ∨ (same = false ∧ p.2 ∈ i1 ∧ p.1 ∈ sel p.2))) := by
  have inner : ∀ (i : Nat) (l : List Nat) (res : Pairs),
      p ∈ l.foldl (fun res j => if i < j then (i, j) :: res
        else if !same && decide (j < i) then (j, i) :: res else res) res ↔
      p ∈ res ∨ (p.1 < p.2 ∧ ((p.1 = i ∧ p.2 ∈ l) ∨ (same = false ∧ p.2 = i ∧ p.1 ∈ l))) := by
    intro i l
    induction l with
    | nil => intro res; simp
    | cons j t ih =>
      intro res
      simp only [List.foldl_cons]
      rw [ih]
      obtain ⟨a, b⟩ := p
      by_cases h1 : i < j
      · simp only [h1, if_true, List.mem_cons, Prod.mk.injEq]
        constructor
        · rintro ((⟨rfl, rfl⟩ | h) | ⟨h, h' | h'⟩)
          · exact Or.inr ⟨h1, Or.inl ⟨rfl, Or.inl rfl⟩⟩
          · exact Or.inl h
          · exact Or.inr ⟨h, Or.inl ⟨h'.1, Or.inr h'.2⟩⟩
          · exact Or.inr ⟨h, Or.inr ⟨h'.1, h'.2.1, Or.inr h'.2.2⟩⟩
        · rintro (h | ⟨h, ⟨e1, e2 | e2⟩ | ⟨e0, e1, e2 | e2⟩⟩)
          · exact Or.inl (Or.inr h)
          · exact Or.inl (Or.inl ⟨e1, e2⟩)
          · exact Or.inr ⟨h, Or.inl ⟨e1, e2⟩⟩
          · omega
          · exact Or.inr ⟨h, Or.inr ⟨e0, e1, e2⟩⟩
      · simp only [h1, if_false]
        by_cases h2 : same = false ∧ j < i
        · have : (!same && decide (j < i)) = true := by simp [h2.1, h2.2]
          simp only [this, if_true, List.mem_cons, Prod.mk.injEq]
          constructor
          · rintro ((⟨rfl, rfl⟩ | h) | ⟨h, h' | h'⟩)
            · exact Or.inr ⟨h2.2, Or.inr ⟨h2.1, rfl, Or.inl rfl⟩⟩
            · exact Or.inl h
            · exact Or.inr ⟨h, Or.inl ⟨h'.1, Or.inr h'.2⟩⟩
            · exact Or.inr ⟨h, Or.inr ⟨h'.1, h'.2.1, Or.inr h'.2.2⟩⟩
          · rintro (h | ⟨h, ⟨e1, e2 | e2⟩ | ⟨e0, e1, e2 | e2⟩⟩)
            · exact Or.inl (Or.inr h)
            · omega
            · exact Or.inr ⟨h, Or.inl ⟨e1, e2⟩⟩
            · exact Or.inl (Or.inl ⟨e2, e1⟩)
            · exact Or.inr ⟨h, Or.inr ⟨e0, e1, e2⟩⟩
        · have : ¬ (!same && decide (j < i)) = true := by simpa using h2
          simp only [this, if_false, List.mem_cons]
          constructor
          · rintro (h | ⟨h, h' | h'⟩)
            · exact Or.inl h
            · exact Or.inr ⟨h, Or.inl ⟨h'.1, Or.inr h'.2⟩⟩
            · exact Or.inr ⟨h, Or.inr ⟨h'.1, h'.2.1, Or.inr h'.2.2⟩⟩
          · rintro (h | ⟨h, ⟨e1, e2 | e2⟩ | ⟨e0, e1, e2 | e2⟩⟩)
            · exact Or.inl h
            · omega
            · exact Or.inr ⟨h, Or.inl ⟨e1, e2⟩⟩
            · exfalso; apply h2; exact ⟨e0, by omega⟩
            · exact Or.inr ⟨h, Or.inr ⟨e0, e1, e2⟩⟩
  unfold leafPairs
  induction i1 generalizing res with
  | nil => simp
  | cons x t ih =>
    simp only [List.foldl_cons]
    refine (ih _).trans ?_
    rw [inner]
    obtain ⟨a, b⟩ := p
    simp only [List.mem_cons]
    constructor
    · rintro ((h | ⟨h, ⟨rfl, h'⟩ | ⟨h0, rfl, h'⟩⟩) | ⟨h, h' | h'⟩) <;> tauto
    · rintro (h | ⟨h, ⟨rfl | h1, h2⟩ | ⟨h0, rfl | h1, h2⟩⟩) <;> tauto

/-- The pairs between two index sets. -/
def PairRel (same : Prop) (I1 I2 : List Nat) (close : Nat → Nat → Prop) (p : Nat × Nat) : Prop :=
  p.1 < p.2 ∧ close p.1 p.2 ∧ ((p.1 ∈ I1 ∧ p.2 ∈ I2) ∨ (¬ same ∧ p.2 ∈ I1 ∧ p.1 ∈ I2))

/-- Two paths lead to disjoint subtrees. -/
def Diverge (a b : List Bool) : Prop := ¬ a <:+ b ∧ ¬ b <:+ a

theorem Diverge.cons_left {a b : List Bool} (h : Diverge a b) (x : Bool) : Diverge (x :: a) b := by
  constructor
  · intro h'; exact h.1 ((List.suffix_cons x a).trans h')
  · intro h'; rcases List.suffix_cons_iff.1 h' with h' | h'
    · subst h'; exact h.1 (List.suffix_cons x a)
    · exact h.2 h'

theorem Diverge.symm {a b : List Bool} (h : Diverge a b) : Diverge b a := ⟨h.2, h.1⟩
theorem Diverge.cons_right {a b : List Bool} (h : Diverge a b) (x : Bool) : Diverge a (x :: b) :=
  (h.symm.cons_left x).symm
theorem Diverge.ne {a b : List Bool} (h : Diverge a b) : a ≠ b := by
  rintro rfl; exact h.1 (List.suffix_refl _)
theorem diverge_siblings (a : List Bool) : Diverge (false :: a) (true :: a) := by
  constructor <;> intro h <;> have := h.eq_of_length (by simp) <;> simp at this

/-- The pair of nodes visited: identical, or disjointly placed. -/
def PathInv (a1 : List Bool) (t1 : Tree m K) (a2 : List Bool) (t2 : Tree m K) : Prop :=
  (a1 = a2 ∧ t1 = t2) ∨ Diverge a1 a2

theorem PathInv.same_iff {a1 : List Bool} {t1 : Tree m K} {a2 : List Bool} {t2 : Tree m K}
    (h : PathInv a1 t1 a2 t2) (he : a1 = a2) : t1 = t2 := by
  rcases h with h | h
  · exact h.2
  · exact absurd he h.ne

theorem noCheckPairs_mem (a1 : List Bool) (t1 : Tree m K) (a2 : List Bool) (t2 : Tree m K) (res : Pairs)
    (hi : PathInv a1 t1 a2 t2) (p : Nat × Nat) :
    p ∈ noCheckPairs a1 t1 a2 t2 res ↔ p ∈ res ∨ PairRel (a1 = a2) t1.indices t2.indices (fun _ _ => True) p := by
  fun_induction noCheckPairs a1 t1 a2 t2 res with
  | case1 a1 i1 a2 i2 res =>
    rw [leafPairs_mem]; simp only [PairRel, Tree.indices, true_and, beq_eq_false_iff_ne, ne_eq]
  | case2 a1 i1 a2 d s l g res ih1 ih2 =>
    have hd : Diverge a1 a2 := by
      rcases hi with h | h
      · exact absurd h.2 (by simp)
      · exact h
    rw [ih2 (Or.inr (hd.cons_right _)), ih1 (Or.inr (hd.cons_right _))]
    have n1 := (hd.cons_right true).ne
    have n2 := (hd.cons_right false).ne
    have n3 := hd.ne
    simp only [PairRel, Tree.indices, List.mem_append, n1, n2, n3, not_false_eq_true, true_and]
    grind
  | case3 d s l g a2 res d' s' l2 g2 ih1 ih2 ih3 =>
    have he := PathInv.same_iff hi rfl
    simp only [Tree.inner.injEq] at he
    obtain ⟨-, -, rfl, rfl⟩ := he
    rw [ih3 (Or.inl ⟨rfl, rfl⟩), ih2 (Or.inr (diverge_siblings a2)), ih1 (Or.inl ⟨rfl, rfl⟩)]
    have n1 := (diverge_siblings a2).ne
    simp only [PairRel, Tree.indices, List.mem_append, n1, not_false_eq_true, not_true_eq_false, false_and,
      true_and, or_false]
    grind
  | case4 d s l g a2 res i2 =>
    have he := PathInv.same_iff hi rfl
    simp at he
  | case5 a1 d s l g a2 t2 res hne ih1 ih2 =>
    have hd : Diverge a1 a2 := by
      rcases hi with h | h
      · exact absurd h.1 hne
      · exact h
    rw [ih2 (Or.inr (hd.cons_left _)), ih1 (Or.inr (hd.cons_left _))]
    have n1 := (hd.cons_left true).ne
    have n2 := (hd.cons_left false).ne
    have n3 := hd.ne
    simp only [PairRel, Tree.indices, List.mem_append, n1, n2, n3, not_false_eq_true, true_and]
    grind

theorem checkPairs_mem (N : Metric m K) (data : Nat → Pt m K) (r : K)
    (a1 : List Bool) (t1 : Tree m K) (R1 : Rect m K) (a2 : List Bool) (t2 : Tree m K) (R2 : Rect m K) (res : Pairs)
    (hi : PathInv a1 t1 a2 t2) (hR : a1 = a2 → R1 = R2) (g1 : Good data t1 R1) (g2 : Good data t2 R2) (p : Nat × Nat) :
    p ∈ checkPairs N data r 0 a1 t1 R1 a2 t2 R2 res ↔
      p ∈ res ∨ PairRel (a1 = a2) t1.indices t2.indices (fun i j => N.dist (data i) (data j) ≤ r) p := by
  fun_induction checkPairs N data r 0 a1 t1 R1 a2 t2 R2 res with
  | case1 a1 t1 R1 a2 t2 R2 res h =>
    simp only [add_zero, div_one] at h
    constructor
    · exact Or.inl
    · rintro (h' | ⟨-, hc, ⟨h1, h2⟩ | ⟨-, h1, h2⟩⟩)
      · exact h'
      · exact absurd (lt_of_lt_of_le h (minDistRect_le N (g1.inside _ h1) (g2.inside _ h2))) (not_lt.2 hc)
      · rw [dist_comm] at hc
        exact absurd (lt_of_lt_of_le h (minDistRect_le N (g1.inside _ h1) (g2.inside _ h2))) (not_lt.2 hc)
  | case2 a1 t1 R1 a2 t2 R2 res h h' =>
    simp only [add_zero, mul_one] at h'
    rw [noCheckPairs_mem a1 t1 a2 t2 res hi p]
    apply or_congr Iff.rfl
    simp only [PairRel, true_and]
    constructor
    · rintro ⟨hlt, hcase⟩
      refine ⟨hlt, ?_, hcase⟩
      rcases hcase with ⟨h1, h2⟩ | ⟨-, h1, h2⟩
      · exact le_of_lt (lt_of_le_of_lt (le_maxDistRect N (g1.inside _ h1) (g2.inside _ h2)) h')
      · rw [dist_comm]
        exact le_of_lt (lt_of_le_of_lt (le_maxDistRect N (g1.inside _ h1) (g2.inside _ h2)) h')
    · rintro ⟨hlt, -, hcase⟩; exact ⟨hlt, hcase⟩
  | case3 a1 R1 a2 R2 res h h' i1 i2 =>
    rw [leafPairs_mem]
    apply or_congr Iff.rfl
    simp only [PairRel, Tree.indices, List.mem_filter, decide_eq_true_eq, beq_eq_false_iff_ne, ne_eq]
    rw [dist_comm N (data p.2) (data p.1)]
    grind
  | case4 a1 R1 a2 R2 res h h' i1 d s l g ih1 ih2 =>
    have hd : Diverge a1 a2 := by
      rcases hi with h | h
      · exact absurd h.2 (by simp)
      · exact h
    have n1 := (hd.cons_right true).ne
    have n2 := (hd.cons_right false).ne
    have n3 := hd.ne
    rw [ih2 (Or.inr (hd.cons_right _)) (fun e => absurd e n1) g1 g2.greater,
      ih1 (Or.inr (hd.cons_right _)) (fun e => absurd e n2) g1 g2.less]
    simp only [PairRel, Tree.indices, List.mem_append, n1, n2, n3, not_false_eq_true, true_and]
    grind
  | case5 a1 R1 a2 R2 res h h' d s l g i2 ih1 ih2 =>
    have hd : Diverge a1 a2 := by
      rcases hi with h | h
      · exact absurd h.2 (by simp)
      · exact h
    have n1 := (hd.cons_left true).ne
    have n2 := (hd.cons_left false).ne
    have n3 := hd.ne
    rw [ih2 (Or.inr (hd.cons_left _)) (fun e => absurd e n1) g1.greater g2,
      ih1 (Or.inr (hd.cons_left _)) (fun e => absurd e n2) g1.less g2]
    simp only [PairRel, Tree.indices, List.mem_append, n1, n2, n3, not_false_eq_true, true_and]
    grind
  | case6 a1 R1 a2 R2 res h h' d1 s1 l1 gg1 d2 s2 l2 gg2 hne ih1 ih2 ih3 ih4 =>
    have hd : Diverge a1 a2 := by
      rcases hi with h | h
      · exact absurd h.1 hne
      · exact h
    have n (x y : Bool) : (x :: a1) ≠ (y :: a2) := ((hd.cons_left x).cons_right y).ne
    have hpi (x y : Bool) : Diverge (x :: a1) (y :: a2) := (hd.cons_left x).cons_right y
    rw [ih4 (Or.inr (hpi _ _)) (fun e => absurd e (n _ _)) g1.greater g2.greater,
      ih3 (Or.inr (hpi _ _)) (fun e => absurd e (n _ _)) g1.greater g2.less,
      ih2 (Or.inr (hpi _ _)) (fun e => absurd e (n _ _)) g1.less g2.greater,
      ih1 (Or.inr (hpi _ _)) (fun e => absurd e (n _ _)) g1.less g2.less]
    simp only [PairRel, Tree.indices, List.mem_append, n, hd.ne, not_false_eq_true, true_and]
    grind
  | case7 a1 R1 a2 R2 res h h' d1 s1 l1 gg1 d2 s2 l2 gg2 hne ih1 ih2 ih3 =>
    have hne : a1 = a2 := by simpa using hne
    subst hne
    have he := PathInv.same_iff hi rfl
    simp only [Tree.inner.injEq] at he
    obtain ⟨rfl, rfl, rfl, rfl⟩ := he
    have hRR := hR rfl
    subst hRR
    have n1 := (diverge_siblings a1).ne
    rw [ih3 (Or.inl ⟨rfl, rfl⟩) (fun _ => rfl) g1.greater g2.greater,
      ih2 (Or.inr (diverge_siblings a1)) (fun e => absurd e n1) g1.less g2.greater,
      ih1 (Or.inl ⟨rfl, rfl⟩) (fun _ => rfl) g1.less g2.less]
    simp only [PairRel, Tree.indices, List.mem_append, n1, not_false_eq_true, not_true_eq_false, false_and,
      true_and, or_false]
    have hcomm := dist_comm N (data p.1) (data p.2)
    grind

end Cis.KDTree
