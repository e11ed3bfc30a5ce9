import Verif.KDTree.QueryLemmas
set_option linter.unusedSectionVars false
set_option linter.unusedSimpArgs false
namespace Cis.KDTree
variable {K : Type} [Field K] [LinearOrder K] [IsStrictOrderedRing K] {m : Nat}

/-- Two sorted permutations of each other are equal. -/
theorem eq_of_perm_sorted {l1 l2 : List K} (hp : l1.Perm l2) (h1 : l1.Pairwise (· ≤ ·)) (h2 : l2.Pairwise (· ≤ ·)) :
    l1 = l2 := hp.eq_of_pairwise (fun _ _ _ _ h h' => le_antisymm h h') h1 h2

theorem map_fst_lexSort (l : List (K × Nat)) :
    (l.insertionSort lexLE).map Prod.fst = (l.map Prod.fst).insertionSort (· ≤ ·) := by
  apply eq_of_perm_sorted
  · exact ((List.perm_insertionSort _ l).map _).trans (List.perm_insertionSort _ _).symm
  · rw [List.pairwise_map]
    exact (List.pairwise_insertionSort lexLE l).imp lexLE_fst
  · exact List.pairwise_insertionSort _ _

/-- The smallest `k` values of `S ++ R` when `S` has at most `k` elements, all below those of `R`. -/
theorem take_smallest (S R : List K) (k : Nat) (hlen : S.length ≤ k) (h : R = [] ∨ (S.length = k ∧ ∀ a ∈ S, ∀ b ∈ R, a ≤ b)) :
    ((S ++ R).insertionSort (· ≤ ·)).take k = S.insertionSort (· ≤ ·) := by
  have hsl : (S.insertionSort (· ≤ ·)).length = S.length := (List.perm_insertionSort _ S).length_eq
  rcases h with rfl | ⟨hk, hle⟩
  · rw [List.append_nil, List.take_of_length_le]; omega
  · have : (S ++ R).insertionSort (· ≤ ·) = S.insertionSort (· ≤ ·) ++ R.insertionSort (· ≤ ·) := by
      apply eq_of_perm_sorted
      · exact (List.perm_insertionSort _ _).trans
          ((List.perm_insertionSort _ S).symm.append (List.perm_insertionSort _ R).symm)
      · exact List.pairwise_insertionSort _ _
      · rw [List.pairwise_append]
        refine ⟨List.pairwise_insertionSort _ _, List.pairwise_insertionSort _ _, ?_⟩
        intro a ha b hb
        exact hle a ((List.mem_insertionSort _).1 ha) b ((List.mem_insertionSort _).1 hb)
    rw [this, List.take_left' (by omega)]

/-- What `_query` returns. -/
theorem query'_spec {P : PNorm K} (hP : P.Valid) (T : KD m K) (hT : TreeOK T) (pop : Pop m K) (hpop : PopOK pop)
    (x : Pt m K) (k : Option Nat) (hk : k ≠ some 0) (bound : WithTop K) (hb : 0 ≤ bound) (fuel : Nat)
    (hf : T.tree.size < fuel) :
    ∃ hits, T.query' P pop x k bound fuel = some hits ∧
      (hits.map Prod.snd).Nodup ∧
      (∀ h ∈ hits, h.2 < T.n ∧ h.1 = P.dist (T.data h.2) x) ∧
      hits.Pairwise lexLE ∧
      hits.map Prod.fst =
        (match k with
         | none => id
         | some k => List.take k)
        ((((List.range T.n).map (fun i => P.dist (T.data i) x)).filter
          (fun d : K => decide ((d : WithTop K) < bound))).insertionSort (· ≤ ·)) := by
  obtain ⟨ds, hds⟩ : ∃ ds : Nat → K, ds = fun i => P.distP (T.data i) x := ⟨_, rfl⟩
  have hds0 : ∀ i, 0 ≤ ds i := fun i => by rw [hds]; exact PNorm.distP_nonneg hP _ _
  have hdist : ∀ i, P.dist (T.data i) x = P.root (ds i) := fun i => by rw [hds]; rfl
  have hbd : ∀ i, (ds i : WithTop K) < powBound P bound ↔ ((P.root (ds i) : K) : WithTop K) < bound := by
    intro i
    cases P with
    | inf => rfl
    | fin pow root =>
      cases bound with
      | top => simp [powBound]
      | coe b =>
        have hb' : 0 ≤ b := by exact_mod_cast hb
        simp only [powBound, WithTop.map_coe, WithTop.coe_lt_coe]
        constructor
        · intro h
          have := hP.2.2.1 _ _ (hds0 i) h
          rwa [hP.2.2.2 b hb'] at this
        · intro h
          by_contra hc
          have := PNorm.root_le hP (PNorm.pow_nonneg hP hb') (not_lt.1 hc)
          simp only [PNorm.root, hP.2.2.2 b hb'] at this h
          exact absurd h (not_lt.2 this)
  have hroot : (rootEntry T P x).node = T.tree := by cases P <;> rfl
  have hinv0 : QInv (fun i => P.distP (T.data i) x) k (powBound P bound) [] { nbrs := [], ub := powBound P bound } :=
    { nodup := by simp, mem := by simp, sorted := by simp, len := by simp, notfull := fun _ => rfl
      full := fun h => absurd h.symm hk, out := by simp }
  obtain ⟨st, seen, hq, hperm, hinv⟩ := queryLoop_spec hP (n := T.n) T.data x k hk pop hpop (powBound P bound) fuel
    [rootEntry T P x] { nbrs := [], ub := powBound P bound } [] (by simp [qSize, hroot, hf])
    (by simpa [qIndices, hroot] using hT.perm) (by intro e he; simp at he; subst he; exact rootEntry_ok hP T hT x) hinv0
  rw [← hds] at hinv
  refine ⟨_, by unfold KD.query'; rw [hq], ?_, ?_, ?_, ?_⟩
  · rw [((List.perm_insertionSort _ _).map Prod.snd).nodup_iff]
    simpa [Function.comp_def] using hinv.nodup
  · intro h hh
    rw [List.mem_insertionSort] at hh
    obtain ⟨e, he, rfl⟩ := List.mem_map.1 hh
    have := hinv.mem e he
    refine ⟨List.mem_range.1 (hperm.mem_iff.1 this.1), ?_⟩
    simp only [hdist, this.2.1, neg_neg]
  · exact List.pairwise_insertionSort _ _
  · rw [map_fst_lexSort, List.map_map]
    have hS : st.nbrs.map (Prod.fst ∘ fun e => (P.root (-e.1), e.2)) =
        (st.nbrs.map Prod.snd).map (fun i => P.root (ds i)) := by
      rw [List.map_map]
      apply List.map_congr_left
      intro e he
      simp only [Function.comp, (hinv.mem e he).2.1, neg_neg]
    rw [hS]
    simp only [hdist]
    obtain ⟨S, hSdef⟩ : ∃ S, S = st.nbrs.map Prod.snd := ⟨_, rfl⟩
    have hlen : S.length = st.nbrs.length := by rw [hSdef]; simp
    have hSn := hinv.nodup
    have hSmem : ∀ i ∈ S, i ∈ List.range T.n ∧ ((P.root (ds i) : K) : WithTop K) < bound := by
      intro i hi
      rw [hSdef] at hi
      obtain ⟨e, he, rfl⟩ := List.mem_map.1 hi
      have := hinv.mem e he
      exact ⟨hperm.mem_iff.1 this.1, (hbd _).1 this.2.2⟩
    have hSsub : ∀ e ∈ st.nbrs, e.2 ∈ S := fun e he => by rw [hSdef]; exact List.mem_map_of_mem he
    rw [← hSdef] at hSn ⊢
    -- the points within the bound
    obtain ⟨L, hL⟩ : ∃ L, L = (List.range T.n).filter (fun i => decide (((P.root (ds i) : K) : WithTop K) < bound)) :=
      ⟨_, rfl⟩
    have hLn : L.Nodup := by rw [hL]; exact List.nodup_range.filter _
    have hmapL : (((List.range T.n).map (fun i => P.root (ds i))).filter (fun d : K => decide ((d : WithTop K) < bound)))
        = L.map (fun i => P.root (ds i)) := by
      rw [hL, List.filter_map]; rfl
    rw [hmapL]
    -- those not returned
    obtain ⟨R, hR⟩ : ∃ R, R = L.filter (fun i => decide (i ∉ S)) := ⟨_, rfl⟩
    have hpL : L.Perm (S ++ R) := by
      rw [List.perm_ext_iff_of_nodup hLn]
      · intro i
        simp only [List.mem_append, hR, List.mem_filter, decide_eq_true_eq]
        constructor
        · intro h; by_cases hs : i ∈ S
          · exact Or.inl hs
          · exact Or.inr ⟨h, hs⟩
        · rintro (h | h)
          · rw [hL, List.mem_filter]; simpa using hSmem i h
          · exact h.1
      · rw [List.nodup_append]
        refine ⟨hSn, by rw [hR]; exact hLn.filter _, ?_⟩
        intro a ha b hb
        rintro rfl
        rw [hR] at hb; simp at hb; exact hb.2 ha
    have hsort : (L.map (fun i => P.root (ds i))).insertionSort (· ≤ ·) =
        (S.map (fun i => P.root (ds i)) ++ R.map (fun i => P.root (ds i))).insertionSort (· ≤ ·) := by
      apply eq_of_perm_sorted
      · refine (List.perm_insertionSort _ _).trans (List.Perm.trans ?_ (List.perm_insertionSort _ _).symm)
        rw [← List.map_append]
        exact hpL.map _
      · exact List.pairwise_insertionSort _ _
      · exact List.pairwise_insertionSort _ _
    rw [hsort]
    have hout : ∀ j ∈ R, some S.length = k ∧ ∀ i ∈ S, ds i ≤ ds j := by
      intro j hj
      rw [hR, List.mem_filter, hL, List.mem_filter] at hj
      simp only [decide_eq_true_eq] at hj
      obtain ⟨⟨h1, h2⟩, h3⟩ := hj
      rcases hinv.out j (hperm.mem_iff.2 h1) (by rw [← hSdef]; exact h3) with h | h
      · exact absurd ((hbd j).2 h2) (not_lt.2 h)
      · refine ⟨by rw [hlen]; exact h.1, ?_⟩
        intro i hi
        rw [hSdef] at hi
        obtain ⟨e, he, rfl⟩ := List.mem_map.1 hi
        exact h.2 e he
    cases k with
    | none =>
      have : R = [] := by
        apply List.eq_nil_iff_forall_not_mem.2
        intro j hj; exact absurd (hout j hj).1 (by simp)
      simp [this]
    | some k =>
      simp only
      symm
      apply take_smallest
      · simpa [hlen] using hinv.len k rfl
      · by_cases hR0 : R = []
        · left; simp [hR0]
        · right
          obtain ⟨j, hj⟩ := List.exists_mem_of_ne_nil R hR0
          refine ⟨by have := (hout j hj).1; simpa using this, ?_⟩
          intro a ha b hb'
          obtain ⟨i, hi, rfl⟩ := List.mem_map.1 ha
          obtain ⟨j', hj', rfl⟩ := List.mem_map.1 hb'
          exact PNorm.root_le hP (hds0 i) ((hout j' hj').2 i hi)

/-- A queue with the required behaviour: scan for a first entry of least distance. -/
def scanPop : Pop m K
  | [] => none
  | e :: t =>
    match scanPop t with
    | none => some (e, [])
    | some (e', rest) => if e.md ≤ e'.md then some (e, t) else some (e', e :: rest)

theorem scanPop_ok : PopOK (scanPop : Pop m K) := by
  refine ⟨rfl, ?_⟩
  intro q
  induction q with
  | nil => intro h; exact absurd rfl h
  | cons e t ih =>
    intro _
    cases t with
    | nil => exact ⟨e, [], rfl, List.Perm.refl _, by simp⟩
    | cons f t =>
      obtain ⟨e', rest, h1, h2, h3⟩ := ih (by simp)
      rw [scanPop, h1]
      simp only
      by_cases hle : e.md ≤ e'.md
      · rw [if_pos hle]
        refine ⟨e, _, rfl, List.Perm.refl _, ?_⟩
        intro g hg
        rcases List.mem_cons.1 (h2.mem_iff.1 hg) with rfl | hg
        · exact hle
        · exact hle.trans (h3 g hg)
      · rw [if_neg hle]
        refine ⟨e', e :: rest, rfl, (h2.cons e).trans (List.Perm.swap _ _ _), ?_⟩
        intro g hg
        rcases List.mem_cons.1 hg with rfl | hg
        · exact (not_le.1 hle).le
        · exact h3 g hg

end Cis.KDTree
