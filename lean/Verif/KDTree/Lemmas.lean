import Verif.KDTree.Model
import Mathlib.Tactic.Linarith
import Mathlib.Tactic.Ring
import Mathlib.Data.List.Basic
import Mathlib.Data.List.Nodup
import Mathlib.Data.List.ProdSigma
set_option linter.unusedSectionVars false
set_option linter.unusedSimpArgs false
namespace Cis.KDTree
variable {K : Type} [Field K] [LinearOrder K] [IsStrictOrderedRing K] {m : Nat}

/-- Point in closed box. -/
def Inside (R : Rect m K) (x : Pt m K) : Prop := ∀ i, R.mins i ≤ x i ∧ x i ≤ R.maxes i

/-- Splits separate the points. -/
def Splits (data : Nat → Pt m K) : Tree m K → Prop
  | .leaf _ => True
  | .inner d s l g => (∀ i ∈ l.indices, data i d ≤ s) ∧ (∀ i ∈ g.indices, s ≤ data i d) ∧ Splits data l ∧ Splits data g

/-- All points of the subtree are in the box, and splits separate. -/
structure Good (data : Nat → Pt m K) (t : Tree m K) (R : Rect m K) : Prop where
  inside : ∀ i ∈ t.indices, Inside R (data i)
  splits : Splits data t

theorem inside_less {R : Rect m K} {x : Pt m K} (h : Inside R x) {d : Fin m} {s : K} (hs : x d ≤ s) :
    Inside (R.split d s).1 x := by
  intro i
  simp only [Rect.split, Rect.mk', Function.update_apply]
  by_cases hi : i = d
  · subst hi; simp only [if_true]
    exact ⟨le_trans (min_le_left _ _) (h i).1, le_trans hs (le_max_right _ _)⟩
  · simp only [if_neg hi]
    exact ⟨le_trans (min_le_left _ _) (h i).1, le_trans (h i).2 (le_max_right _ _)⟩

theorem inside_greater {R : Rect m K} {x : Pt m K} (h : Inside R x) {d : Fin m} {s : K} (hs : s ≤ x d) :
    Inside (R.split d s).2 x := by
  intro i
  simp only [Rect.split, Rect.mk', Function.update_apply]
  by_cases hi : i = d
  · subst hi; simp only [if_true]
    exact ⟨le_trans (min_le_left _ _) hs, le_trans (h i).2 (le_max_right _ _)⟩
  · simp only [if_neg hi]
    exact ⟨le_trans (min_le_left _ _) (h i).1, le_trans (h i).2 (le_max_right _ _)⟩

theorem Good.less {data : Nat → Pt m K} {d s} {l g : Tree m K} {R} (h : Good data (.inner d s l g) R) :
    Good data l (R.split d s).1 :=
  ⟨fun i hi => inside_less (h.inside i (by simp [Tree.indices, hi])) (h.splits.1 i hi), h.splits.2.2.1⟩

theorem Good.greater {data : Nat → Pt m K} {d s} {l g : Tree m K} {R} (h : Good data (.inner d s l g) R) :
    Good data g (R.split d s).2 :=
  ⟨fun i hi => inside_greater (h.inside i (by simp [Tree.indices, hi])) (h.splits.2.1 i hi), h.splits.2.2.2⟩

theorem collect_eq (t : Tree m K) : collect t = t.indices := by
  induction t with
  | leaf => rfl
  | inner d s l g hl hg => simp [collect, Tree.indices, hl, hg]

theorem children_eq (t : Tree m K) : t.children = t.indices.length := by
  induction t with
  | leaf => rfl
  | inner d s l g hl hg => simp [Tree.children, Tree.indices, hl, hg]

theorem dist_comm (N : Metric m K) (x y : Pt m K) : N.dist x y = N.dist y x := by
  unfold Metric.dist; congr 1; funext i; exact abs_sub_comm _ _

theorem dist_mono (N : Metric m K) (x y u v : Pt m K) (h : ∀ i, |y i - x i| ≤ |v i - u i|) :
    N.dist x y ≤ N.dist u v := N.mono _ _ (fun i => abs_nonneg _) h

theorem minDistPoint_le (N : Metric m K) {R : Rect m K} {x y : Pt m K} (h : Inside R y) :
    minDistPoint N R x ≤ N.dist y x := by
  apply dist_mono
  intro i
  obtain ⟨h1, h2⟩ := h i
  simp only [Pi.zero_apply, sub_zero]
  rw [abs_of_nonneg (le_max_left _ _)]
  apply max_le (abs_nonneg _) (max_le _ _)
  · rw [abs_sub_comm]; exact le_trans (by linarith) (le_abs_self _)
  · exact le_trans (by linarith) (le_abs_self _)

theorem le_maxDistPoint (N : Metric m K) {R : Rect m K} {x y : Pt m K} (h : Inside R y) :
    N.dist y x ≤ maxDistPoint N R x := by
  apply dist_mono
  intro i
  obtain ⟨h1, h2⟩ := h i
  simp only [Pi.zero_apply, sub_zero]
  apply le_trans _ (le_abs_self _)
  rw [abs_le']
  constructor
  · exact le_trans (by linarith) (le_max_right _ _)
  · exact le_trans (by linarith) (le_max_left _ _)

theorem minDistRect_le (N : Metric m K) {R S : Rect m K} {x y : Pt m K} (hx : Inside R x) (hy : Inside S y) :
    minDistRect N R S ≤ N.dist x y := by
  apply dist_mono
  intro i
  obtain ⟨h1, h2⟩ := hx i
  obtain ⟨h3, h4⟩ := hy i
  simp only [Pi.zero_apply, sub_zero]
  rw [abs_of_nonneg (le_max_left _ _)]
  apply max_le (abs_nonneg _) (max_le _ _)
  · rw [abs_sub_comm]; exact le_trans (by linarith) (le_abs_self _)
  · exact le_trans (by linarith) (le_abs_self _)

theorem le_maxDistRect (N : Metric m K) {R S : Rect m K} {x y : Pt m K} (hx : Inside R x) (hy : Inside S y) :
    N.dist x y ≤ maxDistRect N R S := by
  apply dist_mono
  intro i
  obtain ⟨h1, h2⟩ := hx i
  obtain ⟨h3, h4⟩ := hy i
  simp only [Pi.zero_apply, sub_zero]
  apply le_trans _ (le_abs_self _)
  rw [abs_le']
  constructor
  · exact le_trans (by linarith) (le_max_right _ _)
  · exact le_trans (by linarith) (le_max_left _ _)

/-! ### Construction -/

theorem build_spec (data : Nat → Pt m K) (leafsize : Nat) (idx : List Nat) (maxes mins : Pt m K) (hm : 0 < m) :
    ∃ t, build data leafsize idx maxes mins = .ok t ∧ t.indices.Perm idx ∧ Splits data t := by
  induction h : idx.length using Nat.strong_induction_on generalizing idx maxes mins with
  | _ n ih =>
    rw [build]
    by_cases h0 : idx.length ≤ leafsize
    · rw [if_pos h0]; exact ⟨_, rfl, List.Perm.refl _, trivial⟩
    rw [if_neg h0]
    have hne : idx ≠ [] := by rintro rfl; simp at h0
    obtain ⟨d, hd⟩ : ∃ d, argmax (fun i => maxes i - mins i) = some d := by
      unfold argmax
      cases hfr : List.finRange m with
      | nil => have := congrArg List.length hfr; simp at this; omega
      | cons i t => exact ⟨_, rfl⟩
    rw [hd]
    simp only
    by_cases he : maxes d = mins d
    · rw [if_pos he]; exact ⟨_, rfl, List.Perm.refl _, trivial⟩
    rw [if_neg he]
    have hvals : idx.map (fun i => data i d) ≠ [] := by simpa using hne
    have hamin : ∃ s, amin (idx.map (fun i => data i d)) = some s := by
      cases hv : idx.map (fun i => data i d) with
      | nil => exact absurd hv hvals
      | cons a t => exact ⟨_, rfl⟩
    have hamax : ∃ s, amax (idx.map (fun i => data i d)) = some s := by
      cases hv : idx.map (fun i => data i d) with
      | nil => exact absurd hv hvals
      | cons a t => exact ⟨_, rfl⟩
    obtain ⟨smin, hsmin⟩ := hamin
    obtain ⟨smax, hsmax⟩ := hamax
    have hslide : ∃ p, slide data d idx ((maxes d + mins d) / 2) = some p := by
      unfold slide
      simp only [hsmin, hsmax]
      split
      · rename_i hx; split at hx <;> simp at hx
      · split <;> exact ⟨_, rfl⟩
    obtain ⟨⟨s, less, greater⟩, hp⟩ := hslide
    have hsp := slide_spec hp
    split
    · rename_i hx; rw [hp] at hx; simp at hx
    rename_i s' less' greater' hx
    rw [hp] at hx
    simp only [Option.some.injEq, Prod.mk.injEq] at hx
    obtain ⟨rfl, rfl, rfl⟩ := hx
    by_cases hl : less.length = 0
    · rw [dif_pos hl]
      -- all values are equal
      have hall : allEqualFirst (idx.map (fun i => data i d)) = true := by
        -- every value is `amax`
        have hless : less = [] := List.length_eq_zero_iff.1 hl
        have key : ∀ i ∈ idx, data i d = smax := by
          unfold slide at hp
          simp only [hsmin, hsmax] at hp
          have hmaxle : ∀ (x : K) (l : List K), ∀ y ∈ x :: l, y ≤ l.foldl max x := by
            intro x l
            induction l generalizing x with
            | nil => intro y hy; simp at hy; simp [hy]
            | cons z t ih2 =>
              intro y hy
              simp only [List.foldl_cons]
              rcases List.mem_cons.1 hy with rfl | hy
              · exact le_trans (le_max_left y z) (ih2 (max y z) _ (by simp))
              · rcases List.mem_cons.1 hy with rfl | hy
                · exact le_trans (le_max_right x y) (ih2 (max x y) _ (by simp))
                · exact ih2 (max x z) y (by simp [hy])
          have hle : ∀ i ∈ idx, data i d ≤ smax := by
            intro i hi
            have hmem : data i d ∈ idx.map (fun i => data i d) := List.mem_map_of_mem (f := fun i => data i d) hi
            cases hv : idx.map (fun i => data i d) with
            | nil => exact absurd hv hvals
            | cons a t =>
              rw [hv] at hmem hsmax
              simp only [amax, Option.some.injEq] at hsmax
              rw [← hsmax]; exact hmaxle a t _ hmem
          split at hp
          · simp at hp
          rename_i s1 less1 greater1 hstep
          split at hp
          · simp only [Option.some.injEq, Prod.mk.injEq] at hp
            obtain ⟨-, hL, -⟩ := hp
            rw [hless] at hL
            intro i hi
            have := List.filter_eq_nil_iff.1 hL i hi
            simp at this
            exact le_antisymm (hle i hi) this
          · simp only [Option.some.injEq, Prod.mk.injEq] at hp
            obtain ⟨-, rfl, -⟩ := hp
            split at hstep
            · simp only [Option.some.injEq, Prod.mk.injEq] at hstep
              obtain ⟨-, hL, -⟩ := hstep
              rw [hless] at hL
              -- impossible: amin is attained
              have := amin_mem hsmin
              rw [List.mem_map] at this
              obtain ⟨i, hi, hie⟩ := this
              have h2 := List.filter_eq_nil_iff.1 hL i hi
              simp [hie] at h2
            · rename_i hne0
              simp only [Option.some.injEq, Prod.mk.injEq] at hstep
              obtain ⟨-, hL, -⟩ := hstep
              rw [hL] at hne0; exact absurd hl hne0
        cases hidx : idx with
        | nil => exact absurd hidx hne
        | cons a t =>
          simp only [List.map_cons, allEqualFirst, List.all_eq_true, decide_eq_true_eq]
          intro w hw
          rw [List.mem_map] at hw
          obtain ⟨i, hi, rfl⟩ := hw
          rw [key i (by rw [hidx]; simp [hi]), key a (by rw [hidx]; simp)]
      rw [if_pos hall]; exact ⟨_, rfl, List.Perm.refl _, trivial⟩
    · rw [dif_neg hl]
      have hlen := hsp.1.length_eq
      have hgpos : 0 < greater.length := List.length_pos_iff.2 hsp.2.2.2
      simp at hlen
      obtain ⟨tl, e1, p1, s1⟩ := ih less.length (by omega) less (Function.update maxes d s) mins rfl
      obtain ⟨tg, e2, p2, s2⟩ := ih greater.length (by omega) greater maxes (Function.update mins d s) rfl
      rw [e1, e2]
      refine ⟨_, rfl, ?_, ?_, ?_, s1, s2⟩
      · exact (p1.append p2).trans hsp.1
      · intro i hi; exact hsp.2.1 i (p1.mem_iff.1 hi)
      · intro i hi; exact hsp.2.2.1 i (p2.mem_iff.1 hi)

theorem foldl_max_le_init {β : Type} (f : β → K) (l : List β) (a : K) : a ≤ l.foldl (fun a i => max a (f i)) a := by
  induction l generalizing a with
  | nil => exact le_refl _
  | cons x t ih => exact le_trans (le_max_left _ _) (ih _)

theorem foldl_max_le {β : Type} (f : β → K) (l : List β) (a : K) (i : β) (hi : i ∈ l) :
    f i ≤ l.foldl (fun a i => max a (f i)) a := by
  induction l generalizing a with
  | nil => simp at hi
  | cons x t ih =>
    rcases List.mem_cons.1 hi with rfl | h
    · exact le_trans (le_max_right _ _) (foldl_max_le_init f t _)
    · exact ih _ h

theorem foldl_min_le_init {β : Type} (f : β → K) (l : List β) (a : K) : l.foldl (fun a i => min a (f i)) a ≤ a := by
  induction l generalizing a with
  | nil => exact le_refl _
  | cons x t ih => exact le_trans (ih _) (min_le_left _ _)

theorem foldl_min_le {β : Type} (f : β → K) (l : List β) (a : K) (i : β) (hi : i ∈ l) :
    l.foldl (fun a i => min a (f i)) a ≤ f i := by
  induction l generalizing a with
  | nil => simp at hi
  | cons x t ih =>
    rcases List.mem_cons.1 hi with rfl | h
    · exact le_trans (foldl_min_le_init f t _) (min_le_right _ _)
    · exact ih _ h

/-- What a successfully constructed tree satisfies. -/
structure TreeOK (T : KD m K) : Prop where
  perm : T.tree.indices.Perm (List.range T.n)
  good : Good T.data T.tree (Rect.mk' T.maxes T.mins)
  box : ∀ i < T.n, ∀ d, T.mins d ≤ T.data i d ∧ T.data i d ≤ T.maxes d

theorem mkTree_ok (n : Nat) (data : Nat → Pt m K) (leafsize : Nat) (hm : 0 < m) (hn : 0 < n) (hl : 1 ≤ leafsize) :
    ∃ T, mkTree n data leafsize = .ok T ∧ T.n = n ∧ T.data = data ∧ TreeOK T := by
  obtain ⟨t, e, p, s⟩ := build_spec data leafsize (List.range n) (colMax n data) (colMin n data) hm
  unfold mkTree
  rw [if_neg (by omega), if_neg (by omega)]
  simp only [e]
  refine ⟨_, rfl, rfl, rfl, p, ⟨?_, s⟩, ?_⟩
  swap
  · intro i hi d
    exact ⟨foldl_min_le (fun i => data i d) (List.range n) _ i (List.mem_range.2 hi),
      foldl_max_le (fun i => data i d) (List.range n) _ i (List.mem_range.2 hi)⟩
  intro i hi
  have hi' : i ∈ List.range n := p.mem_iff.1 hi
  intro d
  simp only [Rect.mk']
  exact ⟨le_trans (min_le_right _ _) (foldl_min_le (fun i => data i d) (List.range n) _ i hi'),
    le_trans (foldl_max_le (fun i => data i d) (List.range n) _ i hi') (le_max_left _ _)⟩

theorem TreeOK.nodup {T : KD m K} (h : TreeOK T) : T.tree.indices.Nodup := h.perm.nodup_iff.2 List.nodup_range
theorem TreeOK.mem {T : KD m K} (h : TreeOK T) (i : Nat) : i ∈ T.tree.indices ↔ i < T.n := by
  rw [h.perm.mem_iff, List.mem_range]

/-! ### Ball queries -/

theorem ballPoint_exact (N : Metric m K) (data : Nat → Pt m K) (x : Pt m K) (r : K) (t : Tree m K) (R : Rect m K)
    (h : Good data t R) :
    ballPoint N data x r 0 t R = t.indices.filter (fun i => decide (N.dist (data i) x ≤ r)) := by
  induction t generalizing R with
  | leaf idx =>
    unfold ballPoint
    simp only [add_zero, div_one, mul_one]
    split
    · rename_i h1
      symm; rw [List.filter_eq_nil_iff]
      intro i hi; simp only [decide_eq_true_eq, not_le]
      exact lt_of_lt_of_le h1 (minDistPoint_le N (h.inside i hi))
    · split
      · rename_i h2
        rw [collect_eq]; symm; rw [List.filter_eq_self]
        intro i hi; simp only [decide_eq_true_eq]
        exact le_of_lt (lt_of_le_of_lt (le_maxDistPoint N (h.inside i hi)) h2)
      · rfl
  | inner d s l g ihl ihg =>
    unfold ballPoint
    simp only [add_zero, div_one, mul_one]
    split
    · rename_i h1
      symm; rw [List.filter_eq_nil_iff]
      intro i hi; simp only [decide_eq_true_eq, not_le]
      exact lt_of_lt_of_le h1 (minDistPoint_le N (h.inside i hi))
    · split
      · rename_i h2
        rw [collect_eq]; symm; rw [List.filter_eq_self]
        intro i hi; simp only [decide_eq_true_eq]
        exact le_of_lt (lt_of_le_of_lt (le_maxDistPoint N (h.inside i hi)) h2)
      · rw [ihl _ h.less, ihg _ h.greater]; simp [Tree.indices]

theorem ballPoint_approx (N : Metric m K) (data : Nat → Pt m K) (x : Pt m K) (r eps : K) (heps : 0 ≤ eps) (hr : 0 ≤ r)
    (t : Tree m K) (R : Rect m K) (h : Good data t R) :
    (∀ i ∈ t.indices, N.dist (data i) x ≤ r / (1 + eps) → i ∈ ballPoint N data x r eps t R) ∧
    (∀ i ∈ ballPoint N data x r eps t R, i ∈ t.indices ∧ N.dist (data i) x ≤ r * (1 + eps)) := by
  have hle1 : r / (1 + eps) ≤ r := div_le_self hr (by linarith)
  have hle2 : r ≤ r * (1 + eps) := le_mul_of_one_le_right hr (by linarith)
  induction t generalizing R with
  | leaf idx =>
    unfold ballPoint
    split
    · rename_i h1
      refine ⟨fun i hi hd => ?_, by simp⟩
      exact absurd (lt_of_lt_of_le h1 (minDistPoint_le N (h.inside i hi))) (not_lt.2 hd)
    · split
      · rename_i h2
        rw [collect_eq]
        exact ⟨fun i hi _ => hi, fun i hi => ⟨hi, le_of_lt (lt_of_le_of_lt (le_maxDistPoint N (h.inside i hi)) h2)⟩⟩
      · refine ⟨fun i hi hd => ?_, fun i hi => ?_⟩
        · simp [Tree.indices] at hi ⊢; exact ⟨hi, le_trans hd hle1⟩
        · simp at hi; exact ⟨hi.1, le_trans hi.2 hle2⟩
  | inner d s l g ihl ihg =>
    unfold ballPoint
    split
    · rename_i h1
      refine ⟨fun i hi hd => ?_, by simp⟩
      exact absurd (lt_of_lt_of_le h1 (minDistPoint_le N (h.inside i hi))) (not_lt.2 hd)
    · split
      · rename_i h2
        rw [collect_eq]
        exact ⟨fun i hi _ => hi, fun i hi => ⟨hi, le_of_lt (lt_of_le_of_lt (le_maxDistPoint N (h.inside i hi)) h2)⟩⟩
      · obtain ⟨a1, a2⟩ := ihl _ h.less
        obtain ⟨b1, b2⟩ := ihg _ h.greater
        refine ⟨fun i hi hd => ?_, fun i hi => ?_⟩
        · simp only [Tree.indices, List.mem_append] at hi ⊢
          exact hi.imp (fun hi => a1 i hi hd) (fun hi => b1 i hi hd)
        · simp only [Tree.indices, List.mem_append] at hi ⊢
          rcases hi with hi | hi
          · exact ⟨Or.inl (a2 i hi).1, (a2 i hi).2⟩
          · exact ⟨Or.inr (b2 i hi).1, (b2 i hi).2⟩

theorem foldl_extend (i1 : List Nat) (f : Nat → List Nat) (res : Results) (hn : i1.Nodup) (k : Nat) :
    (i1.foldl (fun r i => r.extend i (f i)) res) k = res k ++ (if k ∈ i1 then f k else []) := by
  induction i1 generalizing res with
  | nil => simp
  | cons a t ih =>
    obtain ⟨h1, h2⟩ := List.nodup_cons.1 hn
    simp only [List.foldl_cons, ih _ h2, Results.extend, List.mem_cons]
    by_cases hk : k = a
    · subst hk; simp [h1]
    · simp [hk]

theorem noCheckTree_eq (t1 t2 : Tree m K) (res : Results) (hn : t1.indices.Nodup) (k : Nat) :
    noCheckTree t1 t2 res k = res k ++ (if k ∈ t1.indices then t2.indices else []) := by
  fun_induction noCheckTree t1 t2 res with
  | case1 i1 i2 res => exact foldl_extend i1 (fun _ => i2) res hn k
  | case2 i1 d s l g res ih1 ih2 =>
    rw [ih2 hn, ih1 hn]; simp only [Tree.indices]
    by_cases hk : k ∈ i1 <;> simp [hk]
  | case3 d s l g t2 res ih1 ih2 =>
    simp only [Tree.indices] at hn ⊢
    obtain ⟨h1, h2, h3⟩ := List.nodup_append.1 hn
    rw [ih2 h2, ih1 h1]
    simp only [List.mem_append]
    by_cases hl : k ∈ l.indices
    · have : k ∉ g.indices := fun hg => h3 k hl k hg rfl
      simp [hl, this]
    · by_cases hg : k ∈ g.indices <;> simp [hl, hg]

theorem checkTree_exact (N : Metric m K) (data1 data2 : Nat → Pt m K) (r : K) (t1 : Tree m K) (R1 : Rect m K)
    (t2 : Tree m K) (R2 : Rect m K) (res : Results) (g1 : Good data1 t1 R1) (g2 : Good data2 t2 R2)
    (hn : t1.indices.Nodup) (k : Nat) :
    checkTree N data1 data2 r 0 t1 R1 t2 R2 res k = res k ++
      (if k ∈ t1.indices then t2.indices.filter (fun j => decide (N.dist (data2 j) (data1 k) ≤ r)) else []) := by
  have key1 : ∀ (t1 : Tree m K) (R1 : Rect m K) (t2 : Tree m K) (R2 : Rect m K), Good data1 t1 R1 → Good data2 t2 R2 →
      minDistRect N R1 R2 > r → k ∈ t1.indices →
      t2.indices.filter (fun j => decide (N.dist (data2 j) (data1 k) ≤ r)) = [] := by
    intro t1 R1 t2 R2 g1 g2 h hk
    rw [List.filter_eq_nil_iff]
    intro j hj; simp only [decide_eq_true_eq, not_le]
    rw [dist_comm]
    exact lt_of_lt_of_le h (minDistRect_le N (g1.inside k hk) (g2.inside j hj))
  have key2 : ∀ (t1 : Tree m K) (R1 : Rect m K) (t2 : Tree m K) (R2 : Rect m K), Good data1 t1 R1 → Good data2 t2 R2 →
      maxDistRect N R1 R2 < r → k ∈ t1.indices →
      t2.indices.filter (fun j => decide (N.dist (data2 j) (data1 k) ≤ r)) = t2.indices := by
    intro t1 R1 t2 R2 g1 g2 h hk
    rw [List.filter_eq_self]
    intro j hj; simp only [decide_eq_true_eq]
    rw [dist_comm]
    exact le_of_lt (lt_of_le_of_lt (le_maxDistRect N (g1.inside k hk) (g2.inside j hj)) h)
  fun_induction checkTree N data1 data2 r 0 t1 R1 t2 R2 res with
  | case1 t1 R1 t2 R2 res h =>
    simp only [add_zero, div_one] at h
    split
    · rename_i hk; rw [key1 t1 R1 t2 R2 g1 g2 h hk]; simp
    · simp
  | case2 t1 R1 t2 R2 res h h' =>
    simp only [add_zero, mul_one] at h'
    rw [noCheckTree_eq t1 t2 res hn k]
    split
    · rename_i hk; rw [key2 t1 R1 t2 R2 g1 g2 h' hk]
    · rfl
  | case3 R1 R2 res h h' i1 i2 => exact foldl_extend i1 _ res hn k
  | case4 R1 R2 res h h' i1 d s l g ih1 ih2 =>
    rw [ih2 g1 g2.greater hn, ih1 g1 g2.less hn]
    simp only [Tree.indices, List.filter_append]
    by_cases hk : k ∈ i1 <;> simp [hk]
  | case5 R1 R2 res h h' d s l g i2 ih1 ih2 =>
    simp only [Tree.indices] at hn ⊢
    obtain ⟨h1, h2, h3⟩ := List.nodup_append.1 hn
    rw [ih2 g1.greater g2 h2, ih1 g1.less g2 h1]
    simp only [List.mem_append, Tree.indices]
    by_cases hl : k ∈ l.indices
    · have : k ∉ g.indices := fun hg => h3 k hl k hg rfl
      simp [hl, this]
    · by_cases hg : k ∈ g.indices <;> simp [hl, hg]
  | case6 R1 R2 res h h' d1 s1 l1 gg1 d2 s2 l2 gg2 ih1 ih2 ih3 ih4 =>
    simp only [Tree.indices] at hn ⊢
    obtain ⟨h1, h2, h3⟩ := List.nodup_append.1 hn
    rw [ih4 g1.greater g2.greater h2, ih3 g1.greater g2.less h2, ih2 g1.less g2.greater h1, ih1 g1.less g2.less h1]
    simp only [List.mem_append, List.filter_append]
    by_cases hl : k ∈ l1.indices
    · have : k ∉ gg1.indices := fun hg => h3 k hl k hg rfl
      simp [hl, this]
    · by_cases hg : k ∈ gg1.indices <;> simp [hl, hg]

end Cis.KDTree
