import Verif.HavTree.Nearest
import Mathlib.Analysis.SpecialFunctions.Trigonometric.Bounds
set_option linter.unusedSectionVars false
set_option linter.unusedSimpArgs false
/-!
Property C59, where the lookup is right. The search prunes a cell when the square of its separation in degrees exceeds the
distance in km of the best point so far. A point whose squared separation in degrees does not exceed its distance in km is
therefore never lost.
-/
namespace Cis.HavTree
open Real Cis.Geo Cis.KDTree

/-- Squares as a Minkowski norm, to reuse the lemmas on cells. -/
noncomputable def sq2 : PNorm ℝ := .fin (fun t => t ^ 2) Real.sqrt

theorem sq2_valid : sq2.Valid := by
  refine ⟨fun a b h0 h => pow_le_pow_left₀ h0 h 2, by norm_num, fun a b h0 h => Real.sqrt_lt_sqrt h0 h, fun a h => Real.sqrt_sq h⟩

theorem sq2_distP (x y : Pt 2 ℝ) : sq2.distP x y = (y 0 - x 0) ^ 2 + (y 1 - x 1) ^ 2 := by
  simp [sq2, PNorm.distP, Fin.sum_univ_two]

theorem root_ok (T : KD 2 ℝ) (hT : TreeOK T) (x : Pt 2 ℝ) : EntryOK sq2 T.data x (rootEntry T x) := by
  refine ⟨hT.good.splits, rfl, ?_⟩
  intro i hi d
  have hb := hT.box i ((hT.mem i).1 hi) d
  have hside : max 0 (max (x d - T.maxes d) (T.mins d - x d)) ≤ |x d - T.data i d| := by
    apply max_le (abs_nonneg _)
    apply max_le
    · exact le_trans (by linarith [hb.2]) (le_abs_self _)
    · exact le_trans (by linarith [hb.1]) (neg_le_abs _)
  have h0 : 0 ≤ max 0 (max (x d - T.maxes d) (T.mins d - x d)) := le_max_left _ _
  have hm : |if d = 1 then cos (x 1 * π / 180) else 1| ≤ 1 := by
    split
    · exact abs_cos_le_one _
    · simp
  show (max 0 (max (x d - T.maxes d) (T.mins d - x d)) * (if d = 1 then cos (x 1 * π / 180) else 1)) ^ 2
    ≤ |x d - T.data i d| ^ 2
  apply sq_le_sq'
  · have := neg_abs_le (if d = 1 then cos (x 1 * π / 180) else 1)
    nlinarith
  · have := le_abs_self (if d = 1 then cos (x 1 * π / 180) else 1)
    nlinarith

theorem offer_ub {n : Nat} {ds : Nat → ℝ} {st : QState ℝ} (h : OneHit n ds st) (i : Nat) :
    (KDTree.offer (some 1) st (ds i) i).ub = min st.ub ((ds i : ℝ) : WithTop ℝ) := by
  unfold KDTree.offer
  rcases h with ⟨h1, h2⟩ | ⟨j, h1, h2, h3⟩
  · rw [h1, h2, if_pos (WithTop.coe_lt_top _)]
    simp [List.orderedInsert]
  · rw [h1, h2]
    split
    · rename_i hlt
      simp only [List.length_singleton, if_true, List.tail_cons, List.orderedInsert, neg_neg]
      exact (min_eq_right hlt.le).symm
    · rename_i hlt
      rw [h2]; exact (min_eq_left (not_lt.1 hlt)).symm

theorem offers_ub {n : Nat} {ds : Nat → ℝ} (idx : List Nat) {st : QState ℝ} (h : OneHit n ds st) (hi : ∀ i ∈ idx, i < n) :
    (idx.foldl (fun st i => KDTree.offer (some 1) st (ds i) i) st).ub ≤ st.ub ∧
    ∀ i ∈ idx, (idx.foldl (fun st i => KDTree.offer (some 1) st (ds i) i) st).ub ≤ ((ds i : ℝ) : WithTop ℝ) := by
  induction idx generalizing st with
  | nil => exact ⟨le_rfl, by simp⟩
  | cons i t ih =>
    have h1 := (h.offer (hi i (by simp))).1
    have h2 := ih h1 (fun j hj => hi j (by simp [hj]))
    have hu := offer_ub h i
    rw [List.foldl_cons]
    refine ⟨h2.1.trans (hu.le.trans (min_le_left _ _)), ?_⟩
    intro k hk
    rcases List.mem_cons.1 hk with rfl | hk
    · exact h2.1.trans (hu.le.trans (min_le_right _ _))
    · exact h2.2 k hk

/-- The search keeps a point whose squared separation is at most its distance, or has found one as close. -/
theorem loop_keeps {n : Nat} (data : Nat → Pt 2 ℝ) (x : Pt 2 ℝ) (pop : Pop 2 ℝ) (hp : PopOK pop) (j : Nat)
    (hj : sq2.distP (data j) x ≤ havPt (data j) x) (fuel : Nat) (q : List (Entry 2 ℝ)) (st : QState ℝ)
    (hs : OneHit n (fun i => havPt (data i) x) st) (hq : ∀ i ∈ qIndices q, i < n)
    (hok : ∀ e ∈ q, EntryOK sq2 data x e)
    (hin : j ∈ qIndices q ∨ st.ub ≤ ((havPt (data j) x : ℝ) : WithTop ℝ)) (st' : QState ℝ)
    (he : queryLoop data x 1 pop fuel q st = some st') :
    OneHit n (fun i => havPt (data i) x) st' ∧ st'.ub ≤ ((havPt (data j) x : ℝ) : WithTop ℝ) := by
  induction fuel generalizing q st with
  | zero => simp [queryLoop] at he
  | succ fuel ih =>
    rw [queryLoop] at he
    by_cases hq0 : q = []
    · subst hq0
      rw [hp.1] at he
      simp only [Option.some.injEq] at he
      subst he
      refine ⟨hs, ?_⟩
      rcases hin with h | h
      · simp [qIndices] at h
      · exact h
    obtain ⟨e, rest, h1, h2, hmin⟩ := hp.2 q hq0
    have hci : qIndices (e :: rest) = e.node.indices ++ qIndices rest := by simp [qIndices]
    have hix := qIndices_perm h2
    rw [hci] at hix
    have heok : EntryOK sq2 data x e := hok e (h2.mem_iff.2 (by simp))
    have hrest : ∀ e' ∈ rest, EntryOK sq2 data x e' := fun e' h' => hok e' (h2.mem_iff.2 (by simp [h']))
    have hq' : ∀ i ∈ e.node.indices ++ qIndices rest, i < n := fun i hi => hq i (hix.mem_iff.2 hi)
    have hin' : j ∈ e.node.indices ++ qIndices rest ∨ st.ub ≤ ((havPt (data j) x : ℝ) : WithTop ℝ) :=
      hin.imp_left (hix.mem_iff.1 ·)
    rw [h1] at he
    simp only at he
    cases hn : e.node with
    | leaf idx =>
      rw [hn] at he hq' hin'
      simp only [Tree.indices] at he hq' hin'
      have ho := hs.offers idx (fun i hi => hq' i (by simp [hi]))
      have hu := offers_ub idx hs (fun i hi => hq' i (by simp [hi]))
      refine ih rest _ ho.1 (fun i hi => hq' i (by simp [hi])) hrest ?_ he
      rcases hin' with h | h
      · rcases List.mem_append.1 h with h | h
        · exact Or.inr (hu.2 j h)
        · exact Or.inl h
      · exact Or.inr (hu.1.trans h)
    | inner d s l g =>
      rw [hn] at he
      simp only at he
      by_cases hbr : st.ub < (e.md : WithTop ℝ)
      · rw [if_pos hbr] at he
        simp only [Option.some.injEq] at he
        subst he
        refine ⟨hs, ?_⟩
        rcases hin' with h | h
        · refine hbr.le.trans (WithTop.coe_le_coe.2 (le_trans ?_ hj))
          rcases List.mem_append.1 h with h | h
          · exact heok.le j h
          · obtain ⟨e', he', h⟩ := List.mem_flatMap.1 h
            exact (hmin e' he').trans ((hrest e' he').le j h)
        · exact h
      · rw [if_neg hbr] at he
        have hsp := heok.splits
        rw [hn] at hsp hq' hin'
        obtain ⟨near, far, hnear, hfar, hspn, hspf, hidx, hfd⟩ : ∃ near far,
            (if x d < s then l else g) = near ∧ (if x d < s then g else l) = far ∧ Splits data near ∧ Splits data far ∧
            (near.indices ++ far.indices).Perm (Tree.inner d s l g).indices ∧
            ∀ i ∈ far.indices, |s - x d| ≤ |x d - data i d| := by
          by_cases hx : x d < s
          · refine ⟨l, g, if_pos hx, if_pos hx, hsp.2.2.1, hsp.2.2.2, List.Perm.refl _, ?_⟩
            intro i hi
            have h1 := hsp.2.1 i hi
            rw [abs_of_nonneg (by linarith), abs_of_nonpos (by linarith)]; linarith
          · refine ⟨g, l, if_neg hx, if_neg hx, hsp.2.2.2, hsp.2.2.1, List.perm_append_comm, ?_⟩
            intro i hi
            have h1 := hsp.1 i hi
            have hx := not_lt.1 hx
            rw [abs_of_nonpos (by linarith), abs_of_nonneg (by linarith)]; linarith
        simp only [hnear, hfar] at he
        have hmem : ∀ i, i ∈ e.node.indices ↔ i ∈ near.indices ∨ i ∈ far.indices := by
          intro i; rw [hn, ← hidx.mem_iff, List.mem_append]
        have hmem' : ∀ i, i ∈ (Tree.inner d s l g).indices ↔ i ∈ near.indices ∨ i ∈ far.indices := by
          intro i; rw [← hidx.mem_iff, List.mem_append]
        have hnok : EntryOK sq2 data x { md := e.md, sd := e.sd, node := near } :=
          heok.sub near hspn (fun i hi => (hmem i).2 (Or.inl hi))
        have hfok : EntryOK sq2 data x
            (Entry.mk (e.md - e.sd d + |s - x d| ^ 2) (Function.update e.sd d (|s - x d| ^ 2)) far) :=
          heok.far sq2_valid d s far hspf (fun i hi => (hmem i).2 (Or.inr hi)) hfd
        refine ih _ st hs ?_ ?_ ?_ he
        · intro i hi
          apply hq'
          rw [List.mem_append, hmem']
          revert hi
          split <;> simp only [qIndices, List.flatMap_cons, List.mem_append] <;> tauto
        · intro e' h'
          revert h'
          split
          · intro h'
            rcases List.mem_cons.1 h' with rfl | h'
            · exact hfok
            · rcases List.mem_cons.1 h' with rfl | h'
              · exact hnok
              · exact hrest e' h'
          · intro h'
            rcases List.mem_cons.1 h' with rfl | h'
            · exact hnok
            · exact hrest e' h'
        · rw [List.mem_append, hmem'] at hin'
          split
          · simp only [qIndices, List.flatMap_cons, List.mem_append]
            simp only [qIndices] at hin'
            tauto
          · rename_i hpush
            simp only [qIndices, List.flatMap_cons, List.mem_append]
            simp only [qIndices] at hin'
            by_cases hjf : j ∈ far.indices
            · exact Or.inr ((not_le.1 hpush).le.trans (WithTop.coe_le_coe.2 (le_trans (hfok.le j hjf) hj)))
            · tauto

/-- C59, for data of any size: no data point `j` whose squared separation from the sample in degrees of latitude and
longitude is at most its distance in km is nearer than the point found. -/
theorem c59_nearest_kept_partial (n : Nat) (data : Nat → Pt 2 ℝ) (leafsize : Nat) (T : KD 2 ℝ)
    (hT : mkTree n data leafsize = .ok T) (pop : Pop 2 ℝ) (hp : PopOK pop) (x : Pt 2 ℝ) (fuel : Nat)
    (hf : T.tree.size < fuel) :
    ∃ i < n, findNearest T pop x fuel = some i ∧ ∀ j < n,
      (x 0 - data j 0) ^ 2 + (x 1 - data j 1) ^ 2 ≤ Spec.dist (data j) x → Spec.dist (data i) x ≤ Spec.dist (data j) x := by
  obtain ⟨hn, hd, hok⟩ := ok_of_mkTree (by norm_num) hT
  have hpos : 0 < n := by
    unfold mkTree at hT
    split at hT
    · simp at hT
    split at hT
    · simp at hT
    · omega
  subst hd
  have hi : qIndices [rootEntry T x] = T.tree.indices := by simp [qIndices, rootEntry]
  have hlt : ∀ i ∈ qIndices [rootEntry T x], i < n := by rw [hi]; intro i hi; rw [hok.mem, hn] at hi; exact hi
  obtain ⟨st, i, h1, h2, h3⟩ := loop_hit (n := n) T.data x pop hp fuel [rootEntry T x] { nbrs := [], ub := ⊤ }
    (by simpa [qSize, rootEntry] using hf) (Or.inl ⟨rfl, rfl⟩) hlt
    (by
      intro _ h0
      rw [hi] at h0
      have : 0 ∈ T.tree.indices := by rw [hok.mem, hn]; exact hpos
      rw [h0] at this; simp at this)
  refine ⟨i, h3, by unfold findNearest; rw [h1]; simp [h2], ?_⟩
  intro j hj hsq
  rw [← havPt_dist] at hsq
  have hk := loop_keeps (n := n) T.data x pop hp j (by rw [sq2_distP]; exact hsq) fuel [rootEntry T x]
    { nbrs := [], ub := ⊤ } (Or.inl ⟨rfl, rfl⟩) hlt (by simp only [List.mem_singleton]; rintro e rfl; exact root_ok T hok x)
    (Or.inl (by rw [hi, hok.mem, hn]; exact hj)) st h1
  rw [← havPt_dist, ← havPt_dist]
  rcases hk.1 with h | ⟨i', h4, h5, -⟩
  · rw [h.1] at h2; simp at h2
  · rw [h2] at h4
    simp only [List.cons.injEq, Prod.mk.injEq, and_true] at h4
    have := hk.2
    rw [h5, WithTop.coe_le_coe, ← h4.2] at this
    exact this

theorem sin_half_sq_ge {t : ℝ} (h : |t| ≤ π) : (t / π) ^ 2 ≤ sin (t / 2) ^ 2 := by
  have hpi := pi_pos
  have h1 := mul_abs_le_abs_sin (x := t / 2) (by rw [abs_div, abs_two]; linarith)
  rw [← sq_abs (t / π), ← sq_abs (sin (t / 2))]
  have e : |t / π| = 2 / π * |t / 2| := by
    rw [abs_div, abs_div, abs_two, abs_of_pos hpi]; field_simp
  rw [e]
  exact pow_le_pow_left₀ (by positivity) h1 2

/-- A lower bound for the great-circle distance in terms of the separation in degrees. -/
theorem dist_ge (x y : Fin 2 → ℝ) (hx : -90 ≤ x 0 ∧ x 0 ≤ 90) (hy : -90 ≤ y 0 ∧ y 0 ≤ 90) (hlon : |y 1 - x 1| ≤ 180) :
    6378 / 90 * √(cos (x 0 * π / 180) * cos (y 0 * π / 180) * ((y 0 - x 0) ^ 2 + (y 1 - x 1) ^ 2)) ≤ Spec.dist x y := by
  have hpi := pi_pos
  rw [← havPt_dist]
  unfold havPt kdHaversine radiusEarth
  simp only
  set c := cos (x 0 * π / 180) * cos (y 0 * π / 180) with hc
  have c0 : 0 ≤ c := mul_nonneg
    (cos_nonneg_of_neg_pi_div_two_le_of_le (by nlinarith [hx.1]) (by nlinarith [hx.2]))
    (cos_nonneg_of_neg_pi_div_two_le_of_le (by nlinarith [hy.1]) (by nlinarith [hy.2]))
  have c1 : c ≤ 1 := by
    rw [hc]
    have a := abs_cos_le_one (x 0 * π / 180)
    have b := abs_cos_le_one (y 0 * π / 180)
    calc _ ≤ |cos (x 0 * π / 180) * cos (y 0 * π / 180)| := le_abs_self _
      _ = |cos (x 0 * π / 180)| * |cos (y 0 * π / 180)| := abs_mul _ _
      _ ≤ 1 * 1 := mul_le_mul a b (abs_nonneg _) zero_le_one
      _ = 1 := one_mul 1
  have s0 := sin_half_sq_ge (t := y 0 * π / 180 - x 0 * π / 180) (by rw [abs_le]; constructor <;> nlinarith [hx.1, hx.2, hy.1, hy.2])
  have s1 := sin_half_sq_ge (t := y 1 * π / 180 - x 1 * π / 180) (by
    rw [abs_le] at hlon ⊢; constructor <;> nlinarith [hlon.1, hlon.2])
  set A := sin ((y 0 * π / 180 - x 0 * π / 180) / 2) ^ 2 + c * sin ((y 1 * π / 180 - x 1 * π / 180) / 2) ^ 2 with hA
  have hAmem := havArg_mem (x 0 * π / 180) (x 1 * π / 180) (y 0 * π / 180) (y 1 * π / 180)
  have hA1 : A ≤ 1 := hAmem.2
  have hA0 : 0 ≤ A := hAmem.1
  have key : c * ((y 0 - x 0) ^ 2 + (y 1 - x 1) ^ 2) / 180 ^ 2 ≤ A := by
    have e0 : ((y 0 * π / 180 - x 0 * π / 180) / π) ^ 2 = (y 0 - x 0) ^ 2 / 180 ^ 2 := by field_simp
    have e1 : ((y 1 * π / 180 - x 1 * π / 180) / π) ^ 2 = (y 1 - x 1) ^ 2 / 180 ^ 2 := by field_simp
    rw [e0] at s0
    rw [e1] at s1
    have p0 : 0 ≤ (y 0 - x 0) ^ 2 / 180 ^ 2 := by positivity
    have q1 : c * ((y 0 - x 0) ^ 2 / 180 ^ 2) ≤ sin ((y 0 * π / 180 - x 0 * π / 180) / 2) ^ 2 := by nlinarith
    have q2 := mul_le_mul_of_nonneg_left s1 c0
    rw [hA]
    linear_combination q1 + q2
  have h2 : √A ≤ arcsin (√A) := by
    have hs1 : √A ≤ 1 := by rw [← sqrt_one]; exact sqrt_le_sqrt hA1
    have hs0 := sqrt_nonneg A
    have := sin_le (arcsin_nonneg.2 hs0)
    rwa [sin_arcsin (by linarith) hs1] at this
  have h3 : √(c * ((y 0 - x 0) ^ 2 + (y 1 - x 1) ^ 2)) / 180 ≤ √A := by
    have : √(c * ((y 0 - x 0) ^ 2 + (y 1 - x 1) ^ 2)) / 180 = √(c * ((y 0 - x 0) ^ 2 + (y 1 - x 1) ^ 2) / 180 ^ 2) := by
      rw [sqrt_div' _ (by positivity), sqrt_sq (by norm_num)]
    rw [this]; exact sqrt_le_sqrt key
  linarith

/-- C59 in terms of positions only: if some nearest data point is at most 180 degrees of longitude from the sample (no
wrapping) and its separation in degrees, squared, is at most `(6378 / 90)²` times the product of the cosines of the two
latitudes, then the point found is a nearest one. -/
theorem c59_nearest_region_partial (n : Nat) (data : Nat → Pt 2 ℝ) (leafsize : Nat) (T : KD 2 ℝ)
    (hT : mkTree n data leafsize = .ok T) (pop : Pop 2 ℝ) (hp : PopOK pop) (x : Pt 2 ℝ) (fuel : Nat)
    (hf : T.tree.size < fuel) (hx : -90 ≤ x 0 ∧ x 0 ≤ 90) (j : Nat) (hj : j < n)
    (hnear : ∀ k < n, Spec.dist (data j) x ≤ Spec.dist (data k) x)
    (hlat : -90 ≤ data j 0 ∧ data j 0 ≤ 90) (hlon : |x 1 - data j 1| ≤ 180)
    (hsep : (x 0 - data j 0) ^ 2 + (x 1 - data j 1) ^ 2 ≤
      (6378 / 90) ^ 2 * (cos (data j 0 * π / 180) * cos (x 0 * π / 180))) :
    ∃ i < n, findNearest T pop x fuel = some i ∧ ∀ k < n, Spec.dist (data i) x ≤ Spec.dist (data k) x := by
  obtain ⟨i, hi, h1, h2⟩ := c59_nearest_kept_partial n data leafsize T hT pop hp x fuel hf
  refine ⟨i, hi, h1, fun k hk => (h2 j hj ?_).trans (hnear k hk)⟩
  have hd := dist_ge (data j) x hlat hx hlon
  refine le_trans ?_ hd
  set S := (x 0 - data j 0) ^ 2 + (x 1 - data j 1) ^ 2 with hS
  set c := cos (data j 0 * π / 180) * cos (x 0 * π / 180) with hc
  have S0 : 0 ≤ S := by positivity
  have hsq : S ^ 2 ≤ (6378 / 90) ^ 2 * (c * S) := by nlinarith
  have : S = √(S ^ 2) := (sqrt_sq S0).symm
  calc S = √(S ^ 2) := this
    _ ≤ √((6378 / 90) ^ 2 * (c * S)) := sqrt_le_sqrt hsq
    _ = 6378 / 90 * √(c * S) := by rw [sqrt_mul (by positivity), sqrt_sq (by norm_num)]

/-- C59 for data between 60 degrees south and 60 degrees north: if some nearest data point is within 35 degrees of the
sample in the latitude–longitude plane, the point found is a nearest one. -/
theorem c59_nearest_sixty_partial (n : Nat) (data : Nat → Pt 2 ℝ) (leafsize : Nat) (T : KD 2 ℝ)
    (hT : mkTree n data leafsize = .ok T) (pop : Pop 2 ℝ) (hp : PopOK pop) (x : Pt 2 ℝ) (fuel : Nat)
    (hf : T.tree.size < fuel) (hx : |x 0| ≤ 60) (hlat : ∀ k < n, |data k 0| ≤ 60)
    (j : Nat) (hj : j < n) (hnear : ∀ k < n, Spec.dist (data j) x ≤ Spec.dist (data k) x)
    (hsep : (x 0 - data j 0) ^ 2 + (x 1 - data j 1) ^ 2 ≤ 35 ^ 2) :
    ∃ i < n, findNearest T pop x fuel = some i ∧ ∀ k < n, Spec.dist (data i) x ≤ Spec.dist (data k) x := by
  have hpi := pi_pos
  have hc : ∀ t : ℝ, |t| ≤ 60 → 1 / 2 ≤ cos (t * π / 180) := by
    intro t ht
    rw [← cos_pi_div_three, ← cos_abs (t * π / 180)]
    apply cos_le_cos_of_nonneg_of_le_pi (abs_nonneg _) (by linarith)
    rw [abs_div, abs_mul, abs_of_pos hpi, abs_of_pos (by norm_num : (0 : ℝ) < 180)]
    nlinarith [abs_nonneg t]
  have hl := hlat j hj
  have a := hc _ hx
  have b := hc _ hl
  rw [abs_le] at hx hl
  refine c59_nearest_region_partial n data leafsize T hT pop hp x fuel hf ⟨by linarith [hx.1], by linarith [hx.2]⟩ j hj hnear
    ⟨by linarith [hl.1], by linarith [hl.2]⟩ ?_ ?_
  · have h1 : |x 1 - data j 1| ^ 2 ≤ 35 ^ 2 := by rw [sq_abs]; nlinarith [sq_nonneg (x 0 - data j 0)]
    have := abs_le_of_sq_le_sq h1 (by norm_num)
    rw [abs_abs] at this
    linarith
  · have : 1 / 2 * (1 / 2) ≤ cos (data j 0 * π / 180) * cos (x 0 * π / 180) := mul_le_mul b a (by norm_num) (by linarith)
    nlinarith

/-! ### The hypotheses are satisfiable -/

theorem equator_dist (y t : ℝ) (k : Nat) (hk : radians (nearData k 1) = t) :
    Spec.dist (nearData k) ![0, y] = arccos (cos (radians y - t)) * 6378 := by
  rw [← havPt_dist, havPt_eq, haversineRadians_eq]
  simp only [cosAngle, hk, Matrix.cons_val_zero, Matrix.cons_val_one]
  simp [nearData, rad0, radiusEarth]

/-- Twelve points in two leaves and a sample at longitude 335: the point found is a nearest one. -/
example : ∃ i < 12, findNearest nearTree scanPop ![0, 335] 100 = some i ∧
    ∀ k < 12, Spec.dist (nearData i) ![0, 335] ≤ Spec.dist (nearData k) ![0, 335] := by
  have hpi := pi_pos
  have e1 : radians (nearData 1 1) = radians 330 := by simp [nearData]
  have r5 : radians 335 - radians 330 = π / 36 := by unfold radians; ring
  refine c59_nearest_sixty_partial 12 nearData 10 nearTree nearTree_mk scanPop scanPop_ok ![0, 335] 100
    (by simp [nearTree, Tree.size]) (by simp) (by intro k _; simp [nearData]) 1 (by norm_num) ?_ (by norm_num [nearData])
  intro k _
  rw [equator_dist 335 _ 1 e1, r5, equator_dist 335 _ k rfl]
  apply mul_le_mul_of_nonneg_right _ (by norm_num)
  apply arccos_le_arccos
  by_cases h : k = 0
  · have e : radians 335 - radians (nearData k 1) = 2 * π - 17 / 36 * π := by subst h; simp [nearData, radians]; ring
    rw [e, cos_two_pi_sub]
    exact cos_le_cos_of_nonneg_of_le_pi (by linarith) (by linarith) (by linarith)
  · by_cases h1 : k = 11
    · have e : radians 335 - radians (nearData k 1) = -(π / 12) := by subst h1; simp [nearData, radians]; ring
      rw [e, cos_neg]
      exact cos_le_cos_of_nonneg_of_le_pi (by linarith) (by linarith) (by linarith)
    · have e : radians 335 - radians (nearData k 1) = π / 36 := by
        simp [nearData, radians, h, h1]; ring
      rw [e]

end Cis.HavTree
