import Verif.KDTree.Query
set_option linter.unusedSectionVars false
set_option linter.unusedSimpArgs false
namespace Cis.KDTree
variable {K : Type} [Field K] [LinearOrder K] [IsStrictOrderedRing K] {m : Nat}

theorem lexLE_total (a b : K × Nat) : lexLE a b ∨ lexLE b a := by
  unfold lexLE
  rcases lt_trichotomy a.1 b.1 with h | h | h
  · exact Or.inl (Or.inl h)
  · rcases le_total a.2 b.2 with h' | h'
    · exact Or.inl (Or.inr ⟨h, h'⟩)
    · exact Or.inr (Or.inr ⟨h.symm, h'⟩)
  · exact Or.inr (Or.inl h)

theorem lexLE_trans {a b c : K × Nat} (h1 : lexLE a b) (h2 : lexLE b c) : lexLE a c := by
  unfold lexLE at *
  rcases h1 with h1 | h1 <;> rcases h2 with h2 | h2
  · exact Or.inl (lt_trans h1 h2)
  · exact Or.inl (by rw [← h2.1]; exact h1)
  · exact Or.inl (by rw [h1.1]; exact h2)
  · exact Or.inr ⟨h1.1.trans h2.1, h1.2.trans h2.2⟩

instance : Std.Total (lexLE (K := K)) := ⟨lexLE_total⟩
instance : IsTrans (K × Nat) (lexLE (K := K)) := ⟨fun _ _ _ => lexLE_trans⟩

theorem lexLE_fst {a b : K × Nat} (h : lexLE a b) : a.1 ≤ b.1 := by
  rcases h with h | h
  · exact h.le
  · exact h.1.le

/-- Loop invariant of the search. `seen` are the points that were examined or discarded. -/
structure QInv (ds : Nat → K) (k : Option Nat) (ub0 : WithTop K) (seen : List Nat) (st : QState K) : Prop where
  nodup : (st.nbrs.map Prod.snd).Nodup
  mem : ∀ e ∈ st.nbrs, e.2 ∈ seen ∧ e.1 = -(ds e.2) ∧ (ds e.2 : WithTop K) < ub0
  sorted : st.nbrs.Pairwise lexLE
  len : ∀ k', k = some k' → st.nbrs.length ≤ k'
  notfull : some st.nbrs.length ≠ k → st.ub = ub0
  full : some st.nbrs.length = k → ∃ h t, st.nbrs = h :: t ∧ st.ub = ((-h.1 : K) : WithTop K)
  out : ∀ j ∈ seen, j ∉ st.nbrs.map Prod.snd → ub0 ≤ (ds j : WithTop K) ∨
    (some st.nbrs.length = k ∧ ∀ e ∈ st.nbrs, ds e.2 ≤ ds j)

theorem QInv.head_max {ds : Nat → K} {k : Option Nat} {ub0 : WithTop K} {seen : List Nat} {st : QState K}
    (h : QInv ds k ub0 seen st) {hd : K × Nat} {tl : List (K × Nat)} (he : st.nbrs = hd :: tl) :
    ∀ e ∈ st.nbrs, ds e.2 ≤ ds hd.2 := by
  intro e hm
  have h1 := (h.mem e hm).2.1
  have h2 := (h.mem hd (by rw [he]; simp)).2.1
  have hs := h.sorted
  rw [he] at hm hs
  rcases List.mem_cons.1 hm with rfl | hm
  · exact le_rfl
  · have := lexLE_fst ((List.pairwise_cons.1 hs).1 e hm)
    rw [h1, h2] at this; linarith

/-- A point not closer than the current bound may be discarded. -/
theorem QInv.discard {ds : Nat → K} {k : Option Nat} {ub0 : WithTop K} {seen : List Nat} {st : QState K}
    (h : QInv ds k ub0 seen st) (js : List Nat) (hj : ∀ j ∈ js, st.ub ≤ (ds j : WithTop K)) :
    QInv ds k ub0 (seen ++ js) st where
  nodup := h.nodup
  mem := fun e he => ⟨List.mem_append_left _ (h.mem e he).1, (h.mem e he).2⟩
  sorted := h.sorted
  len := h.len
  notfull := h.notfull
  full := h.full
  out := by
    intro j hm hn
    rcases List.mem_append.1 hm with hm | hm
    · exact h.out j hm hn
    · by_cases hf : some st.nbrs.length = k
      · right
        refine ⟨hf, ?_⟩
        obtain ⟨hd, tl, he, hu⟩ := h.full hf
        intro e hmem
        refine le_trans (h.head_max he e hmem) ?_
        have := hj j hm
        rw [hu, (h.mem hd (by rw [he]; simp)).2.1, neg_neg] at this
        exact WithTop.coe_le_coe.1 this
      · left; rw [← h.notfull hf]; exact hj j hm

theorem insert_length (e : K × Nat) (l : List (K × Nat)) : (l.orderedInsert lexLE e).length = l.length + 1 := by
  simpa using (List.perm_orderedInsert lexLE e l).length_eq

theorem QInv.offer {ds : Nat → K} {k : Option Nat} (hk : k ≠ some 0) {ub0 : WithTop K} {seen : List Nat}
    {st : QState K} (h : QInv ds k ub0 seen st) (i : Nat) (hi : i ∉ seen) :
    QInv ds k ub0 (seen ++ [i]) (offer k st (ds i) i) := by
  unfold KDTree.offer
  by_cases hlt : (ds i : WithTop K) < st.ub
  swap
  · rw [if_neg hlt]; exact h.discard [i] (by intro j hj; simp at hj; subst hj; exact not_lt.1 hlt)
  rw [if_pos hlt]
  -- the list before insertion
  obtain ⟨nb, hnb⟩ : ∃ nb, nb = (if some st.nbrs.length = k then st.nbrs.tail else st.nbrs) := ⟨_, rfl⟩
  simp only [← hnb]
  have hsub : nb.Sublist st.nbrs := by
    rw [hnb]; split
    · exact List.tail_sublist _
    · exact List.Sublist.refl _
  have hubub0 : st.ub ≤ ub0 := by
    by_cases hf : some st.nbrs.length = k
    · obtain ⟨hd, tl, he, hu⟩ := h.full hf
      have := h.mem hd (by rw [he]; simp)
      rw [hu, this.2.1, neg_neg]; exact this.2.2.le
    · exact (h.notfull hf).le
  have hi_nb : i ∉ nb.map Prod.snd := by
    intro hm
    obtain ⟨e, he, rfl⟩ := List.mem_map.1 hm
    exact hi (h.mem e (hsub.subset he)).1
  have hperm := List.perm_orderedInsert lexLE (-(ds i), i) nb
  have hmem' : ∀ e, e ∈ nb.orderedInsert lexLE (-(ds i), i) ↔ e = (-(ds i), i) ∨ e ∈ nb := by
    intro e; rw [hperm.mem_iff]; simp
  have hlen : (nb.orderedInsert lexLE (-(ds i), i)).length = nb.length + 1 := insert_length _ _
  have hnblen : ∀ k', k = some k' → nb.length + 1 ≤ k' := by
    intro k' hk'
    have h1 := h.len k' hk'
    rw [hnb]; split
    · rename_i hf
      rw [hk'] at hf; simp only [Option.some.injEq] at hf
      have : k' ≠ 0 := by rintro rfl; exact hk hk'
      simp; omega
    · rename_i hf
      rw [hk'] at hf; simp only [Option.some.injEq] at hf
      omega
  have hnodup : ((nb.orderedInsert lexLE (-(ds i), i)).map Prod.snd).Nodup := by
    rw [(hperm.map Prod.snd).nodup_iff]
    simp only [List.map_cons, List.nodup_cons]
    exact ⟨hi_nb, h.nodup.sublist (hsub.map _)⟩
  have hsorted : (nb.orderedInsert lexLE (-(ds i), i)).Pairwise lexLE :=
    List.Pairwise.orderedInsert _ _ (h.sorted.sublist hsub)
  have hmm : ∀ e ∈ nb.orderedInsert lexLE (-(ds i), i), e.2 ∈ seen ++ [i] ∧ e.1 = -(ds e.2) ∧
      (ds e.2 : WithTop K) < ub0 := by
    intro e he
    rcases (hmem' e).1 he with rfl | he
    · exact ⟨by simp, rfl, lt_of_lt_of_le hlt hubub0⟩
    · have := h.mem e (hsub.subset he)
      exact ⟨List.mem_append_left _ this.1, this.2⟩
  -- points left out
  have hout : ∀ j ∈ seen ++ [i], j ∉ (nb.orderedInsert lexLE (-(ds i), i)).map Prod.snd →
      ub0 ≤ (ds j : WithTop K) ∨ (some (nb.length + 1) = k ∧
        ∀ e ∈ nb.orderedInsert lexLE (-(ds i), i), ds e.2 ≤ ds j) := by
    intro j hj hn
    have hn' : j ≠ i ∧ j ∉ nb.map Prod.snd := by
      rw [(hperm.map Prod.snd).mem_iff] at hn; simpa using hn
    have hj : j ∈ seen := by
      rcases List.mem_append.1 hj with hj | hj
      · exact hj
      · simp at hj; exact absurd hj hn'.1
    by_cases hf : some st.nbrs.length = k
    · obtain ⟨hd, tl, he, hu⟩ := h.full hf
      have hnbtl : nb = tl := by rw [hnb, if_pos hf, he]; rfl
      have hdval := (h.mem hd (by rw [he]; simp)).2.1
      have hid : ds i < ds hd.2 := by
        rw [hu, hdval, neg_neg] at hlt; exact WithTop.coe_lt_coe.1 hlt
      have hlenk : some (nb.length + 1) = k := by rw [← hf, he, hnbtl]; rfl
      have hmax := h.head_max he
      have key : ds hd.2 ≤ ds j → ∀ e ∈ nb.orderedInsert lexLE (-(ds i), i), ds e.2 ≤ ds j := by
        intro hle e hem
        rcases (hmem' e).1 hem with rfl | hem
        · exact le_trans hid.le hle
        · exact le_trans (hmax e (hsub.subset hem)) hle
      by_cases hjh : j = hd.2
      · right; exact ⟨hlenk, key (by rw [hjh])⟩
      · have : j ∉ st.nbrs.map Prod.snd := by
          rw [he]; simp only [List.map_cons, List.mem_cons, not_or]
          exact ⟨hjh, by rw [← hnbtl]; exact hn'.2⟩
        rcases h.out j hj this with h1 | h1
        · exact Or.inl h1
        · exact Or.inr ⟨hlenk, key (h1.2 hd (by rw [he]; simp))⟩
    · have hnbeq : nb = st.nbrs := by rw [hnb, if_neg hf]
      rcases h.out j hj (by rw [← hnbeq]; exact hn'.2) with h1 | h1
      · exact Or.inl h1
      · exact absurd h1.1 hf
  by_cases hfull : some (nb.orderedInsert lexLE (-(ds i), i)).length = k
  · rw [if_pos hfull]
    obtain ⟨hd, tl, he⟩ : ∃ hd tl, nb.orderedInsert lexLE (-(ds i), i) = hd :: tl := by
      cases hc : nb.orderedInsert lexLE (-(ds i), i) with
      | nil => rw [hc] at hlen; simp at hlen
      | cons a b => exact ⟨a, b, rfl⟩
    rw [he] at hnodup hmm hsorted hout hfull hlen
    simp only [he]
    exact {
      nodup := hnodup
      mem := hmm
      sorted := hsorted
      len := by intro k' hk'; rw [hlen]; exact hnblen k' hk'
      notfull := fun hc => absurd hfull hc
      full := fun _ => ⟨hd, tl, rfl, rfl⟩
      out := by
        intro j hj hn
        rcases hout j hj hn with h1 | h1
        · exact Or.inl h1
        · exact Or.inr ⟨hfull, h1.2⟩ }
  · rw [if_neg hfull]
    have hnf : ¬ some st.nbrs.length = k := by
      intro hf
      apply hfull
      obtain ⟨hd, tl, he, -⟩ := h.full hf
      rw [hlen, hnb, if_pos hf, ← hf, he]; rfl
    exact {
      nodup := hnodup
      mem := hmm
      sorted := hsorted
      len := by intro k' hk'; rw [hlen]; exact hnblen k' hk'
      notfull := fun _ => h.notfull hnf
      full := fun hc => absurd hc hfull
      out := by
        intro j hj hn
        rcases hout j hj hn with h1 | h1
        · exact Or.inl h1
        · exact absurd (by rw [hlen]; exact h1.1) hfull }

theorem QInv.offers {ds : Nat → K} {k : Option Nat} (hk : k ≠ some 0) {ub0 : WithTop K} {seen : List Nat}
    {st : QState K} (h : QInv ds k ub0 seen st) (idx : List Nat) (hd : (seen ++ idx).Nodup) :
    QInv ds k ub0 (seen ++ idx) (idx.foldl (fun st i => KDTree.offer k st (ds i) i) st) := by
  induction idx generalizing seen st with
  | nil => simpa using h
  | cons i t ih =>
    have hi : i ∉ seen := by
      intro hm
      have := List.nodup_append.1 hd
      exact this.2.2 i hm i (by simp) rfl
    have h1 := h.offer hk i hi
    have := ih h1 (by simpa using hd)
    simpa using this

/-! ### Cells -/

/-- The stored bounds of a queue entry are lower bounds for the points below its node. -/
structure EntryOK (P : PNorm K) (data : Nat → Pt m K) (x : Pt m K) (e : Entry m K) : Prop where
  splits : Splits data e.node
  bound : match P with
    | .inf => ∀ i ∈ e.node.indices, e.md ≤ P.distP (data i) x
    | .fin pow _ => e.md = ∑ d, e.sd d ∧ ∀ i ∈ e.node.indices, ∀ d, e.sd d ≤ pow |x d - data i d|

theorem EntryOK.le {P : PNorm K} {data : Nat → Pt m K} {x : Pt m K} {e : Entry m K} (h : EntryOK P data x e)
    (i : Nat) (hi : i ∈ e.node.indices) : e.md ≤ P.distP (data i) x := by
  have := h.bound
  cases P with
  | inf => exact this i hi
  | fin pow root =>
    simp only at this
    rw [this.1]
    exact Finset.sum_le_sum (fun d _ => this.2 i hi d)

theorem EntryOK.sub {P : PNorm K} {data : Nat → Pt m K} {x : Pt m K} {e : Entry m K} (h : EntryOK P data x e)
    (t : Tree m K) (hs : Splits data t) (ht : ∀ i ∈ t.indices, i ∈ e.node.indices) :
    EntryOK P data x { md := e.md, sd := e.sd, node := t } := by
  refine ⟨hs, ?_⟩
  have := h.bound
  cases P with
  | inf => exact fun i hi => this i (ht i hi)
  | fin pow root => exact ⟨this.1, fun i hi => this.2 i (ht i hi)⟩

theorem EntryOK.far {P : PNorm K} (hP : P.Valid) {data : Nat → Pt m K} {x : Pt m K} {e : Entry m K}
    (h : EntryOK P data x e)
    (d : Fin m) (s : K) (t : Tree m K) (hs : Splits data t) (ht : ∀ i ∈ t.indices, i ∈ e.node.indices)
    (hfar : ∀ i ∈ t.indices, |s - x d| ≤ |x d - data i d|) :
    EntryOK P data x (farEntry P x e d s t) := by
  have hb := h.bound
  cases P with
  | inf =>
    refine ⟨hs, ?_⟩
    intro i hi
    apply max_le (hb i (ht i hi))
    exact le_trans (hfar i hi) (foldl_max_le (fun j => |x j - data i j|) (List.finRange m) 0 d (List.mem_finRange d))
  | fin pow root =>
    refine ⟨hs, ?_, ?_⟩
    · simp only [farEntry]
      rw [Finset.sum_update_of_mem (Finset.mem_univ d), hb.1,
        ← Finset.add_sum_erase Finset.univ e.sd (Finset.mem_univ d), Finset.sdiff_singleton_eq_erase]
      ring
    · intro i hi d'
      simp only [farEntry, Function.update_apply]
      split
      · rename_i he; subst he
        exact hP.1 _ _ (abs_nonneg _) (hfar i hi)
      · exact hb.2 i (ht i hi) d'

theorem rootEntry_ok {P : PNorm K} (hP : P.Valid) (T : KD m K) (hT : TreeOK T) (x : Pt m K) :
    EntryOK P T.data x (rootEntry T P x) := by
  have hside : ∀ i ∈ T.tree.indices, ∀ d, max 0 (max (x d - T.maxes d) (T.mins d - x d)) ≤ |x d - T.data i d| := by
    intro i hi d
    have := hT.box i ((hT.mem i).1 hi) d
    apply max_le (abs_nonneg _)
    apply max_le
    · exact le_trans (by linarith [this.2]) (le_abs_self _)
    · exact le_trans (by linarith [this.1]) (neg_le_abs _)
  cases P with
  | inf =>
    refine ⟨hT.good.splits, ?_⟩
    intro i hi
    exact foldl_max_mono _ _ _ _ _ le_rfl (fun d _ => hside i hi d)
  | fin pow root =>
    refine ⟨hT.good.splits, rfl, ?_⟩
    intro i hi d
    exact hP.1 _ _ (le_max_left _ _) (hside i hi d)

/-- Points still in the queue. -/
def qIndices (q : List (Entry m K)) : List Nat := q.flatMap (fun e => e.node.indices)

theorem qIndices_perm {q q' : List (Entry m K)} (h : q.Perm q') : (qIndices q).Perm (qIndices q') :=
  h.flatMap_right _

/-- Nodes still in the queue. -/
def qSize (q : List (Entry m K)) : Nat := (q.map (fun e => e.node.size)).sum

theorem qSize_perm {q q' : List (Entry m K)} (h : q.Perm q') : qSize q = qSize q' := (h.map _).sum_eq

theorem size_pos (t : Tree m K) : 0 < t.size := by cases t <;> simp [Tree.size]

theorem queryLoop_spec {P : PNorm K} (hP : P.Valid) {n : Nat} (data : Nat → Pt m K) (x : Pt m K) (k : Option Nat)
    (hk : k ≠ some 0) (pop : Pop m K) (hpop : PopOK pop) (ub0 : WithTop K) (fuel : Nat) (q : List (Entry m K))
    (st : QState K) (seen : List Nat) (hf : qSize q < fuel)
    (hperm : (seen ++ qIndices q).Perm (List.range n))
    (hq : ∀ e ∈ q, EntryOK P data x e)
    (hinv : QInv (fun i => P.distP (data i) x) k ub0 seen st) :
    ∃ st' seen', queryLoop P data x k pop fuel q st = some st' ∧ seen'.Perm (List.range n) ∧
      QInv (fun i => P.distP (data i) x) k ub0 seen' st' := by
  induction fuel generalizing q st seen with
  | zero => omega
  | succ fuel ih =>
    rw [queryLoop]
    by_cases hq0 : q = []
    · subst hq0
      rw [hpop.1]
      exact ⟨st, seen, rfl, by simpa [qIndices] using hperm, hinv⟩
    obtain ⟨e, rest, he, hp, hmin⟩ := hpop.2 q hq0
    rw [he]
    have heok : EntryOK P data x e := hq e (hp.mem_iff.2 (by simp))
    have hrest : ∀ e' ∈ rest, EntryOK P data x e' := fun e' h' => hq e' (hp.mem_iff.2 (by simp [h']))
    have hperm' : (seen ++ (e.node.indices ++ qIndices rest)).Perm (List.range n) := by
      refine List.Perm.trans (List.Perm.append_left _ ?_) hperm
      exact (qIndices_perm hp).symm
    have hsz : e.node.size + qSize rest < fuel + 1 := by
      have := qSize_perm hp
      rw [this] at hf; simpa [qSize] using hf
    simp only
    cases hn : e.node with
    | leaf idx =>
      simp only
      rw [hn] at hperm' hsz
      simp only [Tree.indices] at hperm'
      simp only [Tree.size] at hsz
      refine ih rest _ (seen ++ idx) (by omega) (by simpa using hperm') hrest ?_
      apply hinv.offers hk idx
      have h2 := hperm'.nodup_iff.2 List.nodup_range
      rw [← List.append_assoc] at h2
      exact (List.nodup_append.1 h2).1
    | inner d s l g =>
      simp only
      by_cases hbr : st.ub < (e.md : WithTop K)
      · rw [if_pos hbr]
        refine ⟨st, seen ++ (e.node.indices ++ qIndices rest), rfl, hperm', hinv.discard _ ?_⟩
        intro j hj
        rcases List.mem_append.1 hj with hj | hj
        · exact hbr.le.trans (WithTop.coe_le_coe.2 (heok.le j hj))
        · obtain ⟨e', he', hj⟩ := List.mem_flatMap.1 hj
          exact hbr.le.trans (WithTop.coe_le_coe.2 ((hmin e' he').trans ((hrest e' he').le j hj)))
      · rw [if_neg hbr]
        have hsp := heok.splits
        rw [hn] at hsp hperm' hsz
        simp only [Tree.size] at hsz
        obtain ⟨near, far, hnear, hfar, hspn, hspf, hidx, hsize, hfd⟩ : ∃ near far,
            (if x d < s then l else g) = near ∧ (if x d < s then g else l) = far ∧ Splits data near ∧ Splits data far ∧
            (near.indices ++ far.indices).Perm (Tree.inner d s l g).indices ∧ near.size + far.size = l.size + g.size ∧
            ∀ i ∈ far.indices, |s - x d| ≤ |x d - data i d| := by
          by_cases hx : x d < s
          · refine ⟨l, g, if_pos hx, if_pos hx, hsp.2.2.1, hsp.2.2.2, List.Perm.refl _, rfl, ?_⟩
            intro i hi
            have h1 := hsp.2.1 i hi
            rw [abs_of_nonneg (by linarith), abs_of_nonpos (by linarith)]; linarith
          · refine ⟨g, l, if_neg hx, if_neg hx, hsp.2.2.2, hsp.2.2.1, List.perm_append_comm, by omega, ?_⟩
            intro i hi
            have h1 := hsp.1 i hi
            have hx := not_lt.1 hx
            rw [abs_of_nonpos (by linarith), abs_of_nonneg (by linarith)]; linarith
        rw [hnear, hfar]
        have hmem : ∀ i, i ∈ near.indices ∨ i ∈ far.indices ↔ i ∈ e.node.indices := by
          intro i; rw [hn, ← hidx.mem_iff, List.mem_append]
        have hnok : EntryOK P data x { md := e.md, sd := e.sd, node := near } :=
          heok.sub near hspn (fun i hi => (hmem i).1 (Or.inl hi))
        have hfok : EntryOK P data x (farEntry P x e d s far) :=
          heok.far hP d s far hspf (fun i hi => (hmem i).1 (Or.inr hi)) hfd
        have hfn : (farEntry P x e d s far).node = far := by cases P <;> rfl
        by_cases hpush : ((farEntry P x e d s far).md : WithTop K) ≤ st.ub
        · rw [if_pos hpush]
          refine ih _ st seen ?_ ?_ ?_ hinv
          · simp only [qSize, List.map_cons, List.sum_cons, hfn] at hsz ⊢; omega
          · refine List.Perm.trans (List.Perm.append_left _ ?_) hperm'
            simp only [qIndices, List.flatMap_cons, hfn]
            rw [← List.append_assoc]
            exact (List.perm_append_comm.trans hidx).append_right _
          · intro e' h'
            rcases List.mem_cons.1 h' with rfl | h'
            · exact hfok
            · rcases List.mem_cons.1 h' with rfl | h'
              · exact hnok
              · exact hrest e' h'
        · rw [if_neg hpush]
          have hub : st.ub < ((farEntry P x e d s far).md : WithTop K) := not_le.1 hpush
          refine ih _ st (seen ++ far.indices) ?_ ?_ ?_ (hinv.discard _ ?_)
          · simp only [qSize, List.map_cons, List.sum_cons] at hsz ⊢
            have := size_pos far
            omega
          · rw [List.append_assoc]
            refine List.Perm.trans (List.Perm.append_left _ ?_) hperm'
            simp only [qIndices, List.flatMap_cons]
            rw [← List.append_assoc]
            exact (List.perm_append_comm.trans hidx).append_right _
          · intro e' h'
            rcases List.mem_cons.1 h' with rfl | h'
            · exact hnok
            · exact hrest e' h'
          · intro j hj
            exact hub.le.trans (WithTop.coe_le_coe.2 (hfok.le j (by rw [hfn]; exact hj)))

end Cis.KDTree
