import Verif.DataIndex.Lemmas
set_option linter.unusedSectionVars false
set_option linter.unusedSimpArgs false
namespace Cis.DataIndex
variable {K : Type} [LinearOrder K]

/-! ### Cell numbers -/

theorem flatten_mul (a b : Int) (shape idx : List Int) : flatten (a * b) shape idx = a * flatten b shape idx := by
  induction shape generalizing b idx with
  | nil => cases idx <;> simp [flatten]
  | cons n shape ih =>
    cases idx with
    | nil => simp [flatten]
    | cons i idx => simp only [flatten]; rw [mul_assoc a b n, ih]; ring

theorem flatten_cons (n i : Int) (shape idx : List Int) :
    flatten 1 (n :: shape) (i :: idx) = i + n * flatten 1 shape idx := by
  simp only [flatten, one_mul]
  have := flatten_mul n 1 shape idx
  rw [mul_one] at this; rw [this]

theorem flatten_nonneg {shape idx : List Int} (h : List.Forall₂ (fun n i => 0 ≤ i ∧ i < n) shape idx) :
    0 ≤ flatten 1 shape idx := by
  induction h with
  | nil => simp [flatten]
  | cons h1 _ ih =>
    rw [flatten_cons]
    have := mul_nonneg (le_trans h1.1 h1.2.le) ih
    omega

theorem flatten_inj {shape idx idx' : List Int} (h : List.Forall₂ (fun n i => 0 ≤ i ∧ i < n) shape idx)
    (h' : List.Forall₂ (fun n i => 0 ≤ i ∧ i < n) shape idx')
    (he : flatten 1 shape idx = flatten 1 shape idx') : idx = idx' := by
  induction h generalizing idx' with
  | nil => cases h'; rfl
  | @cons n i shape idx h1 _ ih =>
    cases h' with
    | @cons _ i' _ idx' h1' h2' =>
      rw [flatten_cons, flatten_cons] at he
      have hi : i = i' := by
        have e1 : (i + n * flatten 1 shape idx) % n = i := by
          rw [Int.add_mul_emod_self_left, Int.emod_eq_of_lt h1.1 h1.2]
        have e2 : (i' + n * flatten 1 shape idx') % n = i' := by
          rw [Int.add_mul_emod_self_left, Int.emod_eq_of_lt h1'.1 h1'.2]
        rw [← e1, he, e2]
      subst hi
      have hn : n ≠ 0 := by omega
      have := mul_left_cancel₀ hn (add_left_cancel he)
      rw [ih h2' this]

/-! ### Consecutive pairs -/

theorem zip_pairs (s0 : Nat) (rest : List Nat) (N : Nat) (hs : (s0 :: rest).Pairwise (· < ·))
    (hN : ∀ c ∈ s0 :: rest, c < N) :
    (∀ ab ∈ (s0 :: rest).zip (rest ++ [N]), ab.1 ∈ s0 :: rest ∧ ab.1 < ab.2 ∧ ab.2 ≤ N ∧
      ∀ c ∈ s0 :: rest, c ≤ ab.1 ∨ ab.2 ≤ c) ∧
    (∀ q, s0 ≤ q → q < N → ∃ ab ∈ (s0 :: rest).zip (rest ++ [N]), ab.1 ≤ q ∧ q < ab.2) ∧
    ((s0 :: rest).zip (rest ++ [N])).map Prod.fst = s0 :: rest := by
  induction rest generalizing s0 with
  | nil =>
    refine ⟨?_, ?_, rfl⟩
    · intro ab hab
      simp only [List.nil_append, List.zip_cons_cons, List.zip_nil_left, List.mem_singleton] at hab
      subst hab
      exact ⟨by simp, hN s0 (by simp), le_rfl, by intro c hc; simp at hc; left; omega⟩
    · intro q h1 h2
      exact ⟨(s0, N), by simp, h1, h2⟩
  | cons s1 rest ih =>
    obtain ⟨h1, h2⟩ := List.pairwise_cons.1 hs
    have h01 := h1 s1 (by simp)
    obtain ⟨i1, i2, i3⟩ := ih s1 h2 (fun c hc => hN c (by simp at hc ⊢; tauto))
    rw [List.cons_append, List.zip_cons_cons]
    refine ⟨?_, ?_, ?_⟩
    · intro ab hab
      rcases List.mem_cons.1 hab with rfl | hab
      · refine ⟨by simp, h01, (hN s1 (by simp)).le, ?_⟩
        intro c hc
        rcases List.mem_cons.1 hc with rfl | hc
        · exact Or.inl le_rfl
        · right
          rcases List.mem_cons.1 hc with rfl | hc
          · exact le_rfl
          · exact ((List.pairwise_cons.1 h2).1 c hc).le
      · obtain ⟨j1, j2, j3, j4⟩ := i1 ab hab
        refine ⟨List.mem_cons_of_mem _ j1, j2, j3, ?_⟩
        intro c hc
        rcases List.mem_cons.1 hc with rfl | hc
        · left; exact (h1 ab.1 j1).le
        · exact j4 c hc
    · intro q hq1 hq2
      by_cases hq : q < s1
      · exact ⟨(s0, s1), by simp, hq1, hq⟩
      · obtain ⟨ab, hab, h⟩ := i2 q (by omega) hq2
        exact ⟨ab, List.mem_cons_of_mem _ hab, h⟩
    · rw [List.map_cons, i3]

theorem mem_firstElements (cn : List Int) (i : Nat) :
    i ∈ firstElements cn ↔ ∃ j, i = j + 1 ∧ j + 1 < cn.length ∧ cn[j + 1]? ≠ cn[j]? := by
  unfold firstElements
  simp only [List.mem_map, List.mem_filter, List.mem_range, decide_eq_true_eq]
  constructor
  · rintro ⟨j, ⟨h1, h2⟩, rfl⟩; exact ⟨j, rfl, by omega, h2⟩
  · rintro ⟨j, rfl, h1, h2⟩; exact ⟨j, ⟨by omega, h2⟩, rfl⟩

theorem firstElements_sorted (cn : List Int) : (firstElements cn).Pairwise (· < ·) := by
  unfold firstElements
  rw [List.pairwise_map]
  refine (List.Pairwise.filter _ List.pairwise_lt_range).imp ?_
  intro a b h; omega

theorem const_between (cn : List Int) (a b : Nat) (hb : b ≤ cn.length)
    (h : ∀ c ∈ firstElements cn, c ≤ a ∨ b ≤ c) (q : Nat) (h1 : a ≤ q) (h2 : q < b) : cn[q]? = cn[a]? := by
  induction q, h1 using Nat.le_induction with
  | base => rfl
  | succ q hq ih =>
    rw [← ih (by omega)]
    by_contra hc
    rcases h (q + 1) ((mem_firstElements cn (q + 1)).2 ⟨q, rfl, by omega, hc⟩) with h' | h' <;> omega

/-- What the slices of a sorted list of cell numbers are. -/
theorem cellSlices_spec (cn : List Int) (hne : cn ≠ []) (hsort : cn.Pairwise (· ≤ ·)) (hge : ∀ c ∈ cn, -1 ≤ c) :
    ∃ slices, cellSlices cn = some slices ∧
      (∀ ab ∈ slices, ab.1 < ab.2 ∧ ab.2 ≤ cn.length ∧ ∃ v, v ≠ -1 ∧ cn[ab.1]? = some v ∧
        ∀ q, q < cn.length → (cn[q]? = some v ↔ ab.1 ≤ q ∧ q < ab.2)) ∧
      (∀ q v, cn[q]? = some v → v ≠ -1 → ∃ ab ∈ slices, ab.1 ≤ q ∧ q < ab.2) ∧
      (slices.map Prod.fst).Nodup := by
  have hmono : ∀ i j (hi : i < cn.length) (hj : j < cn.length), i ≤ j → cn[i] ≤ cn[j] := by
    intro i j hi hj hij
    rcases Nat.eq_or_lt_of_le hij with h | h
    · subst h; exact le_rfl
    · exact List.pairwise_iff_getElem.1 hsort i j hi hj h
  have hlen : 0 < cn.length := List.length_pos_iff.2 hne
  -- a strict increase at each first element
  have hjump : ∀ c ∈ firstElements cn, ∃ (hc : c < cn.length), ∀ q (hq : q < c), cn[q] < cn[c] := by
    intro c hc
    obtain ⟨j, rfl, hj, hne'⟩ := (mem_firstElements cn c).1 hc
    refine ⟨hj, ?_⟩
    intro q hq
    have hle := hmono q j (by omega) (by omega) (by omega)
    have hle2 := hmono j (j + 1) (by omega) hj (by omega)
    have : cn[j + 1] ≠ cn[j] := by
      intro he; apply hne'
      rw [List.getElem?_eq_getElem hj, List.getElem?_eq_getElem (by omega), he]
    omega
  have hfl : ∀ c ∈ firstElements cn, c < cn.length ∧ 0 < c := by
    intro c hc
    obtain ⟨j, rfl, hj, -⟩ := (mem_firstElements cn c).1 hc
    exact ⟨hj, by omega⟩
  -- the shared part: slices from a list of starts
  have core : ∀ (s0 : Nat) (rest : List Nat), (s0 :: rest).Pairwise (· < ·) → (∀ c ∈ s0 :: rest, c < cn.length) →
      (∀ c ∈ firstElements cn, c ≤ s0 ∨ c ∈ rest) →
      (∀ c ∈ s0 :: rest, c = 0 ∨ c ∈ firstElements cn) →
      (∀ q (hq : q < cn.length), cn[q] ≠ -1 ↔ s0 ≤ q) →
      (∀ ab ∈ (s0 :: rest).zip (rest ++ [cn.length]), ab.1 < ab.2 ∧ ab.2 ≤ cn.length ∧ ∃ v, v ≠ -1 ∧
        cn[ab.1]? = some v ∧ ∀ q, q < cn.length → (cn[q]? = some v ↔ ab.1 ≤ q ∧ q < ab.2)) ∧
      (∀ q v, cn[q]? = some v → v ≠ -1 → ∃ ab ∈ (s0 :: rest).zip (rest ++ [cn.length]), ab.1 ≤ q ∧ q < ab.2) ∧
      (((s0 :: rest).zip (rest ++ [cn.length])).map Prod.fst).Nodup := by
    intro s0 rest hs hN hcov hstart hin
    obtain ⟨z1, z2, z3⟩ := zip_pairs s0 rest cn.length hs hN
    refine ⟨?_, ?_, ?_⟩
    · intro ab hab
      obtain ⟨j1, j2, j3, j4⟩ := z1 ab hab
      have ha := hN ab.1 j1
      have hs0 : s0 ≤ ab.1 := by
        rcases List.mem_cons.1 j1 with h | h
        · omega
        · exact ((List.pairwise_cons.1 hs).1 _ h).le
      refine ⟨j2, j3, cn[ab.1], (hin _ ha).2 hs0, List.getElem?_eq_getElem ha, ?_⟩
      have hno : ∀ c ∈ firstElements cn, c ≤ ab.1 ∨ ab.2 ≤ c := by
        intro c hc
        rcases hcov c hc with h | h
        · left; omega
        · exact j4 c (List.mem_cons_of_mem _ h)
      intro q hq
      constructor
      · intro he
        rw [List.getElem?_eq_getElem hq, Option.some.injEq] at he
        constructor
        · by_contra hc
          rcases hstart ab.1 j1 with h | h
          · omega
          · obtain ⟨_, hj⟩ := hjump ab.1 h
            have := hj q (by omega); omega
        · by_contra hc
          by_cases hend : ab.2 < cn.length
          · -- the end is a first element
            have hmem : ab.2 ∈ firstElements cn := by
              have : ab.2 ∈ rest ++ [cn.length] := (List.of_mem_zip hab).2
              rcases List.mem_append.1 this with h | h
              · rcases hstart ab.2 (List.mem_cons_of_mem _ h) with h' | h'
                · omega
                · exact h'
              · simp at h; omega
            obtain ⟨hx, hj⟩ := hjump ab.2 hmem
            have h1 := hj ab.1 j2
            have h2 := hmono ab.2 q hx hq (by omega)
            omega
          · omega
      · rintro ⟨h1, h2⟩
        rw [const_between cn ab.1 ab.2 j3 hno q h1 h2, List.getElem?_eq_getElem ha]
    · intro q v hv hne'
      obtain ⟨hq, rfl⟩ := List.getElem?_eq_some_iff.1 hv
      exact z2 q ((hin q hq).1 hne') hq
    · rw [z3]
      exact hs.imp (fun h => Nat.ne_of_lt h)
  cases hcn : cn with
  | nil => exact absurd hcn hne
  | cons c0 t =>
    have h0 : cn[0] = c0 := by simp [hcn]
    rw [← hcn]
    have hunf : cellSlices cn = (if c0 = -1 then
      match firstElements cn with
      | [] => some []
      | f :: rest => some ((f :: rest).zip (rest ++ [cn.length]))
      else some ((0 :: firstElements cn).zip (firstElements cn ++ [cn.length]))) := by
      simp only [hcn, cellSlices]
      split <;> rfl
    rw [hunf]
    have hge' : ∀ q (hq : q < cn.length), -1 ≤ cn[q] := fun q hq => hge _ (List.getElem_mem hq)
    by_cases hm1 : c0 = -1
    · rw [if_pos hm1]
      cases hf : firstElements cn with
      | nil =>
        refine ⟨[], rfl, by simp, ?_, by simp⟩
        intro q v hv hv1
        exfalso
        obtain ⟨hq, rfl⟩ := List.getElem?_eq_some_iff.1 hv
        have := const_between cn 0 cn.length le_rfl (by simp [hf]) q (by omega) hq
        rw [List.getElem?_eq_getElem hq, List.getElem?_eq_getElem hlen, Option.some.injEq, h0] at this
        exact hv1 (this.trans hm1)
      | cons f rest =>
        have hsrt := firstElements_sorted cn
        rw [hf] at hsrt
        refine ⟨_, rfl, core f rest hsrt ?_ ?_ ?_ ?_⟩
        · intro c hc; exact (hfl c (by rw [hf]; exact hc)).1
        · intro c hc
          rw [hf] at hc
          rcases List.mem_cons.1 hc with h | h
          · left; omega
          · exact Or.inr h
        · intro c hc; right; rw [hf]; exact hc
        · intro q hq
          obtain ⟨hfl', hj⟩ := hjump f (by rw [hf]; simp)
          constructor
          · intro hv
            by_contra hc
            apply hv
            have := const_between cn 0 f hfl'.le (by
              intro c hc
              right
              rw [hf] at hc
              rcases List.mem_cons.1 hc with h | h
              · omega
              · exact ((List.pairwise_cons.1 hsrt).1 c h).le) q (by omega) (by omega)
            rw [List.getElem?_eq_getElem hq, List.getElem?_eq_getElem hlen, Option.some.injEq, h0] at this
            exact this.trans hm1
          · intro hle
            have h1 := hj 0 (hfl f (by rw [hf]; simp)).2
            have h2 := hmono f q hfl' hq hle
            have h3 := hge' 0 hlen
            omega
    · rw [if_neg hm1]
      refine ⟨_, rfl, core 0 (firstElements cn) ?_ ?_ ?_ ?_ ?_⟩
      · exact List.pairwise_cons.2 ⟨fun c hc => (hfl c hc).2, firstElements_sorted cn⟩
      · intro c hc
        rcases List.mem_cons.1 hc with rfl | h
        · exact hlen
        · exact (hfl c h).1
      · intro c hc; exact Or.inr hc
      · intro c hc
        rcases List.mem_cons.1 hc with rfl | h
        · exact Or.inl rfl
        · exact Or.inr h
      · intro q hq
        have h1 := hmono 0 q hlen hq (by omega)
        have h2 := hge' 0 hlen
        constructor
        · intro _; omega
        · intro _; omega

/-! ### Assembly -/

/-- The cell vector found for a point by the slice index. -/
def FoundCell (dims : List (Dim K)) (idx : List Nat) (p : Nat) : Prop :=
  List.Forall₂ (fun d i => Found d.1 i (d.2 p)) dims idx

theorem inInterval_unique {c : Coord K} (h : Spec.Monotonic c) {v : K} {i j : Nat} (hi : Spec.InInterval c i v)
    (hj : Spec.InInterval c j v) : i = j := by
  have h1 := (binIndex_iff h v i).2 hi
  have h2 := (binIndex_iff h v j).2 hj
  rw [h1] at h2; exact Option.some.inj h2

theorem cellNumber_found {dims : List (Dim K)} (hne : dims ≠ []) (hm : ∀ d ∈ dims, Spec.Monotonic d.1)
    (hc : ∀ d ∈ dims, Spec.Contiguous d.1) (masked : Nat → Bool) (p : Nat) :
    (gridMask dims masked p = true ↔ masked p = false ∧ ∃ idx, FoundCell dims idx p) ∧
    (∀ idx, (gridMask dims masked p = true ∧ indexColumn dims p = idx.map Int.ofNat) ↔
      (masked p = false ∧ FoundCell dims idx p)) := by
  -- raw index non-negative iff some cell is found
  have hraw : ∀ d ∈ dims, (0 ≤ rawIndex d.1 (d.2 p) ↔ ∃ i : Nat, fixIndex d.1 (rawIndex d.1 (d.2 p)) = (i : Int) ∧
      Found d.1 i (d.2 p)) := by
    intro d hd
    constructor
    · intro hge
      have : 0 ≤ fixIndex d.1 (rawIndex d.1 (d.2 p)) := by
        unfold fixIndex
        split
        · rename_i hdec
          have h1 : rawIndex d.1 (d.2 p) ≤ (d.1.points.length : Int) - 1 := by
            have := searchsortedRight_le d.1.lower (d.2 p)
            rw [lower_length, ← (hm d hd).size] at this
            have hpos := (hm d hd).pos
            rw [← (hm d hd).size] at hpos
            unfold rawIndex
            split
            · omega
            · split <;> omega
          omega
        · exact hge
      obtain ⟨i, hi⟩ := Int.eq_ofNat_of_zero_le this
      exact ⟨i, hi, (sliceIndex_iff (hm d hd) (hc d hd) _ i).1 ⟨hge, hi⟩⟩
    · rintro ⟨i, hi, hf⟩
      exact ((sliceIndex_iff (hm d hd) (hc d hd) _ i).2 hf).1
  have hgm : gridMask dims masked p = true ↔ masked p = false ∧ ∀ d ∈ dims, 0 ≤ rawIndex d.1 (d.2 p) := by
    unfold gridMask
    simp only [List.all_eq_true, Bool.and_eq_true, decide_eq_true_eq, Bool.not_eq_true', ge_iff_le]
    constructor
    · intro h
      obtain ⟨d, hd⟩ := List.exists_mem_of_ne_nil dims hne
      exact ⟨(h d hd).2, fun d hd => (h d hd).1⟩
    · rintro ⟨h1, h2⟩ d hd; exact ⟨h2 d hd, h1⟩
  have hcol : ∀ idx : List Nat, ((∀ d ∈ dims, 0 ≤ rawIndex d.1 (d.2 p)) ∧ indexColumn dims p = idx.map Int.ofNat) ↔
      FoundCell dims idx p := by
    unfold indexColumn FoundCell
    clear hgm hne
    induction dims with
    | nil => intro idx; cases idx <;> simp
    | cons d t ih =>
      intro idx
      have ih' := ih (fun d hd => hm d (by simp [hd])) (fun d hd => hc d (by simp [hd]))
        (fun d hd => hraw d (by simp [hd]))
      cases idx with
      | nil => simp
      | cons i idx =>
        simp only [List.map_cons, List.cons.injEq, List.forall₂_cons, List.mem_cons, forall_eq_or_imp]
        rw [← ih' idx, ← sliceIndex_iff (hm d (by simp)) (hc d (by simp))]
        constructor
        · rintro ⟨⟨a, b⟩, c, e⟩; exact ⟨⟨a, c⟩, b, e⟩
        · rintro ⟨⟨a, c⟩, b, e⟩; exact ⟨⟨a, b⟩, c, e⟩
  refine ⟨?_, ?_⟩
  · rw [hgm]
    apply and_congr_right
    intro _
    constructor
    · intro h
      have : ∃ idx : List Nat, indexColumn dims p = idx.map Int.ofNat := by
        unfold indexColumn
        clear hgm hcol hne
        induction dims with
        | nil => exact ⟨[], rfl⟩
        | cons d t ih =>
          obtain ⟨idx, hidx⟩ := ih (fun d hd => hm d (by simp [hd])) (fun d hd => hc d (by simp [hd]))
            (fun d hd => hraw d (by simp [hd])) (fun d hd => h d (by simp [hd]))
          obtain ⟨i, hi, -⟩ := (hraw d (by simp)).1 (h d (by simp))
          exact ⟨i :: idx, by simp only [List.map_cons, hidx, hi]; rfl⟩
      obtain ⟨idx, hidx⟩ := this
      exact ⟨idx, (hcol idx).1 ⟨h, hidx⟩⟩
    · rintro ⟨idx, hf⟩; exact ((hcol idx).2 hf).1
  · intro idx
    rw [hgm, ← hcol idx]; tauto

theorem found_in_shape {dims : List (Dim K)} {idx : List Nat} {p : Nat} (h : FoundCell dims idx p) :
    List.Forall₂ (fun n i => 0 ≤ i ∧ i < n) (gridShape dims) (idx.map Int.ofNat) := by
  unfold gridShape
  unfold FoundCell at h
  induction h with
  | nil => simp
  | cons h1 _ ih =>
    simp only [List.map_cons, List.forall₂_cons]
    refine ⟨⟨by simp, ?_⟩, ih⟩
    obtain ⟨⟨b, hb, -⟩, -⟩ := h1
    have := (List.getElem?_eq_some_iff.1 hb).1
    rw [lower_length]
    exact Int.ofNat_lt.2 this

theorem map_ofNat_inj {a b : List Nat} (h : a.map Int.ofNat = b.map Int.ofNat) : a = b :=
  List.map_injective_iff.2 (fun _ _ h => Int.ofNat.inj h) h

theorem sliceIterator_spec {dims : List (Dim K)} (hne : dims ≠ []) (hm : ∀ d ∈ dims, Spec.Monotonic d.1)
    (hc : ∀ d ∈ dims, Spec.Contiguous d.1) (masked : Nat → Bool) (n : Nat) (hn : 0 < n) (order : List Nat)
    (ho : Spec.Sorts n (cellNumber dims masked) order) :
    ∃ slices, sliceIterator dims masked order = some slices ∧ Spec.Partition n masked (FoundCell dims) slices := by
  obtain ⟨hp, hsort⟩ := ho
  have hol : order.length = n := by simpa using hp.length_eq
  have hne' : order.map (cellNumber dims masked) ≠ [] := by
    intro h; have := congrArg List.length h; simp [hol] at this; omega
  have hcell := cellNumber_found hne hm hc masked
  -- a cell number is -1 exactly when no cell is found
  have hnum : ∀ p, cellNumber dims masked p ≠ -1 ↔ gridMask dims masked p = true := by
    intro p
    unfold cellNumber
    split
    · rename_i hg
      simp only [hg, iff_true]
      obtain ⟨hmk, idx, hf⟩ := (hcell p).1.1 hg
      rw [(((hcell p).2 idx).2 ⟨hmk, hf⟩).2]
      have := flatten_nonneg (found_in_shape hf)
      omega
    · rename_i hg; simp [hg]
  have hge : ∀ c ∈ order.map (cellNumber dims masked), -1 ≤ c := by
    intro c hc'
    obtain ⟨p, -, rfl⟩ := List.mem_map.1 hc'
    by_cases hg : gridMask dims masked p = true
    · obtain ⟨hmk, idx, hf⟩ := (hcell p).1.1 hg
      unfold cellNumber
      rw [if_pos hg, (((hcell p).2 idx).2 ⟨hmk, hf⟩).2]
      have := flatten_nonneg (found_in_shape hf); omega
    · have := (hnum p).not.2 hg
      simp only [ne_eq, not_not] at this
      omega
  obtain ⟨slices, hs, hs1, hs2, hs3⟩ := cellSlices_spec _ hne' hsort hge
  unfold sliceIterator
  rw [hs]
  have hget : ∀ (q p : Nat), order[q]? = some p → (order.map (cellNumber dims masked))[q]? = some (cellNumber dims masked p) := by
    intro q p h; simp [h]
  -- the data of one slice
  have hslice : ∀ ab ∈ slices, ∃ p0 idx, order[ab.1]? = some p0 ∧ order.getD ab.1 0 = p0 ∧ masked p0 = false ∧
      FoundCell dims idx p0 ∧ indexColumn dims p0 = idx.map Int.ofNat ∧ ab.1 < ab.2 ∧ ab.2 ≤ order.length ∧
      ∀ (q p : Nat), order[q]? = some p → ((masked p = false ∧ FoundCell dims idx p) ↔ ab.1 ≤ q ∧ q < ab.2) := by
    intro ab hab
    obtain ⟨h1, h2, v, hv, hva, hall⟩ := hs1 ab hab
    rw [List.length_map] at h2
    have ha : ab.1 < order.length := by omega
    have hp0 : order[ab.1]? = some order[ab.1] := List.getElem?_eq_getElem ha
    have hv0 : cellNumber dims masked order[ab.1] = v := by
      rw [hget _ _ hp0] at hva; exact Option.some.inj hva
    have hg0 : gridMask dims masked order[ab.1] = true := (hnum _).1 (by rw [hv0]; exact hv)
    obtain ⟨hmk0, idx, hf0⟩ := (hcell order[ab.1]).1.1 hg0
    have hcol0 := (((hcell order[ab.1]).2 idx).2 ⟨hmk0, hf0⟩).2
    refine ⟨order[ab.1], idx, hp0, by simp [List.getD_eq_getElem?_getD, hp0], hmk0, hf0, hcol0, h1, h2, ?_⟩
    intro q p hq
    have hql : q < order.length := (List.getElem?_eq_some_iff.1 hq).1
    rw [← hall q (by simpa using hql), hget q p hq, Option.some.injEq]
    constructor
    · rintro ⟨hmk, hf⟩
      have hpp := ((hcell p).2 idx).2 ⟨hmk, hf⟩
      rw [← hv0]
      unfold cellNumber
      rw [if_pos hpp.1, if_pos hg0, hpp.2, hcol0]
    · intro he
      have hgp : gridMask dims masked p = true := (hnum p).1 (by rw [he]; exact hv)
      obtain ⟨hmk, idx', hf⟩ := (hcell p).1.1 hgp
      have hcolp := (((hcell p).2 idx').2 ⟨hmk, hf⟩).2
      have : flatten 1 (gridShape dims) (idx'.map Int.ofNat) = flatten 1 (gridShape dims) (idx.map Int.ofNat) := by
        have e1 := he.trans hv0.symm
        unfold cellNumber at e1
        rw [if_pos hgp, if_pos hg0, hcolp, hcol0] at e1
        exact e1
      have := map_ofNat_inj (flatten_inj (found_in_shape hf) (found_in_shape hf0) this)
      rw [this] at hf
      exact ⟨hmk, hf⟩
  have hnd : order.Nodup := hp.nodup_iff.2 List.nodup_range
  refine ⟨_, rfl, ?_, ?_, ?_⟩
  · intro s hsm
    obtain ⟨ab, hab, rfl⟩ := List.mem_map.1 hsm
    obtain ⟨p0, idx, hp0, hd0, hmk0, hf0, hcol0, h1, h2, hall⟩ := hslice ab hab
    refine ⟨idx, by simp only [hd0, hcol0], ?_, ?_, ?_⟩
    · intro hc'
      have := congrArg List.length hc'
      simp at this; omega
    · exact (hnd.sublist (List.drop_sublist _ _)).sublist (List.take_sublist _ _)
    · intro p
      constructor
      · intro hpm
        obtain ⟨i, hi⟩ := List.mem_iff_getElem?.1 hpm
        rw [List.getElem?_take] at hi
        split at hi
        · rw [List.getElem?_drop] at hi
          have hq := (hall _ p hi).2 ⟨by omega, by omega⟩
          exact ⟨List.mem_range.1 (hp.mem_iff.1 (List.mem_of_getElem? hi)), hq⟩
        · cases hi
      · rintro ⟨hpn, hq⟩
        obtain ⟨q, hq'⟩ := List.mem_iff_getElem?.1 (hp.mem_iff.2 (List.mem_range.2 hpn))
        obtain ⟨hq1, hq2⟩ := (hall q p hq').1 hq
        apply List.mem_iff_getElem?.2
        refine ⟨q - ab.1, ?_⟩
        rw [List.getElem?_take, if_pos (by omega), List.getElem?_drop, show ab.1 + (q - ab.1) = q by omega, hq']
  · rw [List.map_map, List.nodup_map_iff_inj_on (List.Nodup.of_map _ hs3)]
    intro ab hab ab' hab' he
    simp only [Function.comp] at he
    obtain ⟨p0, idx, hp0, hd0, hmk0, hf0, hcol0, h1, h2, hall⟩ := hslice ab hab
    obtain ⟨p0', idx', hp0', hd0', hmk0', hf0', hcol0', h1', h2', hall'⟩ := hslice ab' hab'
    rw [hd0, hd0', hcol0, hcol0'] at he
    have := map_ofNat_inj he
    subst this
    have e1 := (hall _ p0' hp0').1 ⟨hmk0', hf0'⟩
    have e2 := (hall' _ p0 hp0).1 ⟨hmk0, hf0⟩
    have e3 : ab.1 = ab'.1 := by omega
    exact List.inj_on_of_nodup_map hs3 hab hab' e3
  · intro p hpn hmk idx hf
    obtain ⟨q, hq⟩ := List.mem_iff_getElem?.1 (hp.mem_iff.2 (List.mem_range.2 hpn))
    have hg := (((hcell p).2 idx).2 ⟨hmk, hf⟩).1
    obtain ⟨ab, hab, h1, h2⟩ := hs2 q _ (hget q p hq) ((hnum p).2 hg)
    obtain ⟨p0, idx', hp0, hd0, hmk0, hf0, hcol0, h1', h2', hall⟩ := hslice ab hab
    have hx := (hall q p hq).2 ⟨h1, h2⟩
    have e1 := (((hcell p).2 idx').2 hx).2
    have e2 := (((hcell p).2 idx).2 ⟨hmk, hf⟩).2
    refine ⟨_, List.mem_map_of_mem hab, ?_⟩
    simp only [hd0, hcol0]
    rw [← e1, e2]

end Cis.DataIndex
