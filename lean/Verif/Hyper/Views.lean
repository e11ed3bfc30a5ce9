import Verif.Hyper.Props
import Verif.IndexIter.Props
set_option linter.unusedSectionVars false
set_option linter.unusedSimpArgs false
/-! Property C53: views of data as points. -/
namespace Cis.Hyper
variable {K V : Type}

/-! ### Ungridded views -/

/-- All coordinates there are and the data have `n` values. -/
structure Spec.Aligned (v : UView K V) (n : Nat) : Prop where
  lat : ∀ l, v.lat = some l → l.length = n
  lon : ∀ l, v.lon = some l → l.length = n
  alt : ∀ l, v.alt = some l → l.length = n
  pres : ∀ l, v.pres = some l → l.length = n
  time : ∀ l, v.time = some l → l.length = n
  data : ∀ l, v.data = some l → l.length = n

theorem at?_of_lt {β : Type} (c : Option (List β)) (i n : Nat) (h : ∀ l, c = some l → l.length = n) (hi : i < n) :
    at? c i = some (c.bind (fun l => l[i]?)) := by
  cases c with
  | none => rfl
  | some l =>
    have : i < l.length := by rw [h l rfl]; exact hi
    simp [at?, List.getElem?_eq_getElem this]

/-- C53. Item `i` of an ungridded view has the `i`-th value of each coordinate there is, and the `i`-th data value; indices out of
range raise IndexError. -/
theorem c53_ungridded_item (v : UView K V) (n : Nat) (h : Spec.Aligned v n) (i : Nat) :
    v.get n i = if i < n then
        some ⟨v.lat.bind (·[i]?), v.lon.bind (·[i]?), v.alt.bind (·[i]?), v.pres.bind (·[i]?), v.time.bind (·[i]?),
          (v.data.bind (·[i]?)).toList⟩
      else none := by
  unfold UView.get
  by_cases hi : i < n
  · rw [if_neg (by omega), if_pos hi]
    simp only [Int.toNat_natCast]
    rw [at?_of_lt v.lat i n h.lat hi, at?_of_lt v.lon i n h.lon hi, at?_of_lt v.alt i n h.alt hi, at?_of_lt v.pres i n h.pres hi,
      at?_of_lt v.time i n h.time hi, at?_of_lt v.data i n h.data hi]
    rfl
  · rw [if_pos (by omega), if_neg hi]

/-- C53. Negative indices raise IndexError. -/
theorem c53_ungridded_negative (v : UView K V) (n : Nat) (i : Int) (h : i < 0) : v.get n i = none := by
  rw [UView.get, if_pos (Or.inl h)]

/-- C53. Iterating gives every item in order; the masked variants exactly the items whose value is not masked, in order, with their
positions in the whole. -/
theorem c53_ungridded_iter (v : UView K V) (n : Nat) :
    (v.iterAll n).length = n ∧ (∀ i < n, (v.iterAll n)[i]? = some (v.get n i)) ∧
    v.iter n false = v.iterAll n ∧ v.iter n true = v.iterNonMasked n ∧
    (v.enumNonMasked n).map Prod.snd = v.iterNonMasked n ∧
    ((v.enumNonMasked n).map Prod.fst).Pairwise (· < ·) ∧
    (∀ (i : Nat) (p : Option (HP K (V × Bool))), (i, p) ∈ v.enumNonMasked n ↔
      i < n ∧ (¬ ∃ (l : List (V × Bool)) (x : V), v.data = some l ∧ l[i]? = some (x, true)) ∧ p = v.get n i) := by
  refine ⟨by simp [UView.iterAll], ?_, ?_, ?_, ?_, ?_, ?_⟩
  · intro i hi; simp [UView.iterAll, hi]
  · simp [UView.iter, UView.iterAll]
  · simp [UView.iter, UView.iterNonMasked]
  · simp [UView.enumNonMasked, UView.iterNonMasked, Function.comp_def]
  · simp only [UView.enumNonMasked, List.map_map, Function.comp_def, List.map_id']
    exact List.Pairwise.filter _ List.pairwise_lt_range
  · intro i p
    simp only [UView.enumNonMasked, List.mem_map, List.mem_filter, List.mem_range, Prod.mk.injEq, Bool.not_eq_true']
    have hm : v.maskedAt i = false ↔ ¬ ∃ (l : List (V × Bool)) (x : V), v.data = some l ∧ l[i]? = some (x, true) := by
      unfold UView.maskedAt
      cases hd : v.data with
      | none => simp
      | some l =>
        cases hi : l[i]? with
        | none => simp [hi]
        | some x =>
          obtain ⟨x, b⟩ := x
          cases b <;> simp [hi]
    rw [← hm]
    constructor
    · rintro ⟨j, ⟨h1, h2⟩, rfl, rfl⟩; exact ⟨h1, h2, rfl⟩
    · rintro ⟨h1, h2, rfl⟩; exact ⟨i, ⟨h1, h2⟩, rfl, rfl⟩

/-- C53 is violated: data without latitude have no view at all. -/
theorem c53_no_latitude_violated :
    ∃ v : UView ℚ ℚ, Spec.Aligned v 2 ∧ v.alt = some [1, 2] ∧ v.length = none :=
  ⟨⟨none, none, some [1, 2], none, none, some [(5, false), (6, false)]⟩,
    ⟨by simp, by simp, by rintro l ⟨⟩; rfl, by simp, by simp, by rintro l ⟨⟩; rfl⟩, rfl, rfl⟩

example : Spec.Aligned (⟨some [1, 2], some [3, 4], none, none, some [5, 6], some [(7, false), (8, true)]⟩ : UView ℚ ℚ) 2 :=
  ⟨by rintro l ⟨⟩; rfl, by rintro l ⟨⟩; rfl, by simp, by simp, by rintro l ⟨⟩; rfl, by rintro l ⟨⟩; rfl⟩

/-! ### Gridded views -/

theorem dimCoords_cube (cs : List (String × List K)) : dimCoords (Spec.cube cs) = cs := by
  simp [dimCoords, Spec.cube, List.filterMap_map, Function.comp_def]

theorem findStd_iff (cs : List (String × List K)) (hn : (cs.map Prod.fst).Nodup) (nm : String) (pts : List K) (j : Nat) :
    findStd cs nm = some (pts, j) ↔ cs[j]? = some (nm, pts) := by
  have uniq : ∀ (i j : Nat) (a b : List K), cs[i]? = some (nm, a) → cs[j]? = some (nm, b) → i = j := by
    intro i j a b hi hj
    have h1 : (cs.map Prod.fst)[i]? = some nm := by simp [hi]
    have h2 : (cs.map Prod.fst)[j]? = some nm := by simp [hj]
    have hi' : i < (cs.map Prod.fst).length := by
      rw [List.getElem?_eq_some_iff] at h1; exact h1.1
    exact (List.getElem?_inj hi' hn).1 (h1.trans h2.symm)
  unfold findStd
  rw [Option.map_eq_some_iff]
  constructor
  · rintro ⟨⟨c, i⟩, h, he⟩
    have hm := List.mem_of_find?_eq_some h
    have hp := List.find?_some h
    rw [List.mem_zipIdx_iff_getElem?] at hm
    simp only [beq_iff_eq] at hp
    simp only [Prod.mk.injEq] at he
    obtain ⟨rfl, rfl⟩ := he
    rw [← hp]; exact hm
  · intro h
    cases hf : cs.zipIdx.find? (fun c => c.1.1 == nm) with
    | none =>
      rw [List.find?_eq_none] at hf
      exact absurd (beq_self_eq_true nm) (hf ((nm, pts), j) (List.mem_zipIdx_iff_getElem?.2 h))
    | some e =>
      obtain ⟨⟨n', p'⟩, i⟩ := e
      have hm := List.mem_of_find?_eq_some hf
      have hp := List.find?_some hf
      rw [List.mem_zipIdx_iff_getElem?] at hm
      simp only [beq_iff_eq] at hp hm
      subst hp
      have hij := uniq i j _ _ hm h
      subst hij
      rw [hm] at h
      cases h
      exact ⟨_, rfl, rfl⟩

/-- One step of the loop that assigns coordinates to dimensions. -/
def fillStep (acc : List (Option (List K × Nat))) (sc : Option (List K × Nat) × Nat) : List (Option (List K × Nat)) :=
  match sc.1 with
  | none => acc
  | some cd => acc.set cd.2 (some (cd.1, sc.2))

theorem fillStep_length (acc : List (Option (List K × Nat))) (sc : Option (List K × Nat) × Nat) :
    (fillStep acc sc).length = acc.length := by
  unfold fillStep; split <;> simp

theorem foldl_fillStep_length (l : List (Option (List K × Nat) × Nat)) (acc : List (Option (List K × Nat))) :
    (l.foldl fillStep acc).length = acc.length := by
  induction l generalizing acc with
  | nil => rfl
  | cons e l ih => rw [List.foldl_cons, ih, fillStep_length]

theorem foldl_fillStep_get (l : List (Option (List K × Nat) × Nat)) (acc : List (Option (List K × Nat))) (j : Nat)
    (x : List K) (s : Nat) (hj : j < acc.length) (hm : (some (x, j), s) ∈ l)
    (hu : ∀ x' s', (some (x', j), s') ∈ l → x' = x ∧ s' = s) :
    (l.foldl fillStep acc)[j]? = some (some (x, s)) := by
  induction l using List.reverseRecOn with
  | nil => simp at hm
  | append_singleton l e ih =>
    rw [List.foldl_append, List.foldl_cons, List.foldl_nil]
    have hlen := foldl_fillStep_length l acc
    obtain ⟨o, s'⟩ := e
    cases o with
    | none =>
      rw [fillStep]
      simp only
      apply ih
      · simpa using hm
      · intro x' s' h; exact hu x' s' (by simp [h])
    | some cd =>
      obtain ⟨x', j'⟩ := cd
      rw [fillStep]
      simp only
      by_cases hjj : j' = j
      · subst hjj
        obtain ⟨rfl, rfl⟩ := hu x' s' (by simp)
        rw [List.getElem?_set_self (by rw [hlen]; exact hj)]
      · rw [List.getElem?_set_ne hjj]
        apply ih
        · rw [List.mem_append] at hm
          rcases hm with hm | hm
          · exact hm
          · simp at hm; exact absurd hm.1.2.symm hjj
        · intro x' s' h; exact hu x' s' (by simp [h])

/-- The number of a standard name. -/
def stdIdx (nm : String) : Nat := Spec.names.idxOf nm

theorem fillCoords_cube (cs : List (String × List K)) (hn : (cs.map Prod.fst).Nodup)
    (hs : ∀ c ∈ cs, c.1 ∈ Spec.names) :
    fillCoords (findStandard (Spec.cube cs)) (Spec.cube cs).length = cs.map (fun c => some (c.2, stdIdx c.1)) := by
  have hfold : fillCoords (findStandard (Spec.cube cs)) (Spec.cube cs).length =
      ((Spec.names.map (findStd cs)).zipIdx).foldl fillStep (List.replicate cs.length none) := by
    rw [fillCoords, findStandard, dimCoords_cube]
    simp only [Spec.cube, List.length_map]
    rfl
  rw [hfold]
  have hlen := foldl_fillStep_length ((Spec.names.map (findStd cs)).zipIdx) (List.replicate cs.length none)
  apply List.ext_getElem?
  intro j
  by_cases hj : j < cs.length
  · rw [List.getElem?_map, List.getElem?_eq_getElem hj, Option.map_some]
    have hcj : cs[j]? = some (cs[j].1, cs[j].2) := List.getElem?_eq_getElem hj
    have hmem := hs cs[j] (List.getElem_mem hj)
    have hidx : Spec.names[stdIdx cs[j].1]? = some cs[j].1 := by
      have hlt : stdIdx cs[j].1 < Spec.names.length := List.idxOf_lt_length_iff.2 hmem
      rw [List.getElem?_eq_getElem hlt]
      simp only [stdIdx, List.getElem_idxOf]
    apply foldl_fillStep_get
    · simpa using hj
    · rw [List.mem_zipIdx_iff_getElem?, List.getElem?_map]
      simp only [hidx, Option.map_some, Option.some.injEq]
      exact (findStd_iff cs hn _ _ _).2 hcj
    · intro x' s' h
      rw [List.mem_zipIdx_iff_getElem?, List.getElem?_map, Option.map_eq_some_iff] at h
      obtain ⟨nm, h1, h2⟩ := h
      rw [findStd_iff cs hn] at h2
      rw [hcj, Option.some.injEq, Prod.mk.injEq] at h2
      refine ⟨h2.2.symm, ?_⟩
      simp only at h1
      rw [← h2.1] at h1
      have hnd : Spec.names.Nodup := by decide
      have hlt : s' < Spec.names.length := by
        rw [List.getElem?_eq_some_iff] at h1; exact h1.1
      exact (List.getElem?_inj hlt hnd).1 (h1.trans hidx.symm)
  · rw [List.getElem?_eq_none (by rw [hlen]; simpa using hj), List.getElem?_eq_none (by simpa using hj)]

theorem fillVals_some (cs : List (List K × Nat)) (idx : List Nat) (val : List (Option K)) (e : Nat)
    (hv : List.Forall₂ (fun i d => i < d) idx (cs.map (fun c => c.1.length)))
    (hn : (cs.map Prod.snd).Nodup) (hb : ∀ c ∈ cs, c.2 < val.length) :
    ∃ val', fillVals (cs.map some) idx val e = some (val', e) ∧ val'.length = val.length ∧
      (∀ (j : Nat) (c : List K) (s i : Nat), cs[j]? = some (c, s) → idx[j]? = some i → val'[s]? = some c[i]?) ∧
      (∀ s, s ∉ cs.map Prod.snd → val'[s]? = val[s]?) := by
  induction cs generalizing idx val with
  | nil =>
    cases hv
    exact ⟨val, rfl, rfl, by simp, by simp⟩
  | cons c cs ih =>
    obtain ⟨c, s⟩ := c
    rw [List.map_cons] at hv
    cases hv with
    | @cons i d is' ds hi hv =>
      simp only [List.map_cons, List.nodup_cons] at hn
      have hget : c[i]? = some c[i] := List.getElem?_eq_getElem hi
      obtain ⟨val', h1, h2, h3, h4⟩ := ih is' (val.set s (some c[i])) hv hn.2 (by
        intro d hd; rw [List.length_set]; exact hb d (by simp [hd]))
      refine ⟨val', ?_, by rw [h2, List.length_set], ?_, ?_⟩
      · rw [List.map_cons, fillVals, hget]; exact h1
      · intro j c' s' i' hj hi'
        cases j with
        | zero =>
          simp only [List.getElem?_cons_zero, Option.some.injEq, Prod.mk.injEq] at hj hi'
          obtain ⟨rfl, rfl⟩ := hj
          subst hi'
          rw [h4 s hn.1, List.getElem?_set_self (hb (c, s) (by simp)), hget]
        | succ j =>
          simp only [List.getElem?_cons_succ] at hj hi'
          exact h3 j c' s' i' hj hi'
      · intro s' hs'
        simp only [List.map_cons, List.mem_cons, not_or] at hs'
        rw [h4 s' hs'.2, List.getElem?_set_ne (Ne.symm hs'.1)]

theorem component_eq (la lo al pr ti : Option K) (v : List V) (nm : String) (h : nm ∈ Spec.names) :
    [la, lo, al, pr, ti][stdIdx nm]? = some (Spec.component ⟨la, lo, al, pr, ti, v⟩ nm) := by
  simp only [Spec.names, List.mem_cons, List.not_mem_nil, or_false] at h
  rcases h with rfl | rfl | rfl | rfl | rfl <;> rfl

theorem stdIdx_inj {a b : String} (ha : a ∈ Spec.names) (h : stdIdx a = stdIdx b) : a = b :=
  (List.idxOf_inj ha).1 h

/-- C53. On a grid each of whose dimensions has a dimension coordinate with its own standard name, the item at an index has as its
value the data there, each coordinate is that of the index in the coordinate's own dimension, and there are no other coordinates.
Missing: dimensions without (standard) coordinate, for which it is false. -/
theorem c53_gridded_item (cs : List (String × List K)) (data : List Nat → V) (hn : (cs.map Prod.fst).Nodup)
    (hs : ∀ c ∈ cs, c.1 ∈ Spec.names) (idx : List Nat)
    (hv : IndexIter.Spec.Valid (cs.map (fun c => c.2.length)) idx) :
    ∃ p, (gview (Spec.cube cs) data).get idx = some p ∧ p.val = [data idx] ∧
      (∀ (j : Nat) (nm : String) (pts : List K) (i : Nat), cs[j]? = some (nm, pts) → idx[j]? = some i →
        Spec.component p nm = pts[i]?) ∧
      (∀ nm, nm ∉ cs.map Prod.fst → Spec.component p nm = none) := by
  have hcs : (gview (Spec.cube cs) data).coords = (cs.map (fun c => (c.2, stdIdx c.1))).map some := by
    show fillCoords _ _ = _
    rw [fillCoords_cube cs hn hs]; simp [Function.comp_def]
  have hnd : ((cs.map (fun c => (c.2, stdIdx c.1))).map Prod.snd).Nodup := by
    rw [List.map_map]
    have : (Prod.snd ∘ fun c : String × List K => (c.2, stdIdx c.1)) = stdIdx ∘ Prod.fst := rfl
    rw [this, ← List.map_map]
    apply List.Nodup.map_on _ hn
    intro a ha b _ hab
    obtain ⟨c, hc, rfl⟩ := List.mem_map.1 ha
    exact stdIdx_inj (hs c hc) hab
  have h5 : ∀ c ∈ cs.map (fun c => (c.2, stdIdx c.1)), c.2 < (List.replicate 5 (none : Option K)).length := by
    intro c hc
    obtain ⟨c', hc', rfl⟩ := List.mem_map.1 hc
    exact List.idxOf_lt_length_iff.2 (hs c' hc')
  obtain ⟨val', h1, h2, h3, h4⟩ := fillVals_some (cs.map (fun c => (c.2, stdIdx c.1))) idx (List.replicate 5 none) 0
    (by rw [List.map_map]; exact hv) hnd h5
  have hshape : ∃ la lo al pr ti, val' = [la, lo, al, pr, ti] := by
    simp only [List.length_replicate] at h2
    match val', h2 with
    | [la, lo, al, pr, ti], _ => exact ⟨la, lo, al, pr, ti, rfl⟩
  obtain ⟨la, lo, al, pr, ti, rfl⟩ := hshape
  refine ⟨⟨la, lo, al, pr, ti, [data idx]⟩, ?_, rfl, ?_, ?_⟩
  · rw [GView.get, hcs, h1]; rfl
  · intro j nm pts i hj hi
    have hnm : nm ∈ Spec.names := hs (nm, pts) (List.mem_of_getElem? hj)
    have := h3 j pts (stdIdx nm) i (by rw [List.getElem?_map, hj]; rfl) hi
    rw [component_eq la lo al pr ti [data idx] nm hnm] at this
    exact Option.some.inj this
  · intro nm hnm
    by_cases hstd : nm ∈ Spec.names
    · have := h4 (stdIdx nm) (by
        rw [List.map_map]
        intro hmem
        obtain ⟨c, hc, he⟩ := List.mem_map.1 hmem
        have : c.1 = nm := stdIdx_inj (hs c hc) he
        exact hnm (List.mem_map.2 ⟨c, hc, this⟩))
      rw [component_eq la lo al pr ti [data idx] nm hstd] at this
      have hlt : stdIdx nm < 5 := List.idxOf_lt_length_iff.2 hstd
      rw [List.getElem?_replicate, if_pos hlt] at this
      exact Option.some.inj this
    · simp only [Spec.names, List.mem_cons, List.not_mem_nil, or_false, not_or] at hstd
      simp [Spec.component, hstd]

/-- C53. `iter_all_points` gives one point for each cell in C order, the `i`-th being item `i` of the view. -/
theorem c53_gridded_iter_all (v : GView K V) :
    v.iterAll.length = IndexIter.Spec.cells v.shape ∧
    (∀ i < IndexIter.Spec.cells v.shape, v.iterAll[i]? = some (v.getFlat i)) ∧
    (∀ idx, IndexIter.Spec.Valid v.shape idx → v.getFlat (IndexIter.Spec.position v.shape idx) = v.get idx) ∧
    (∀ i, IndexIter.Spec.cells v.shape ≤ i → v.getFlat i = none) := by
  refine ⟨by simp [GView.iterAll, IndexIter.length_indexIterator], ?_, ?_, ?_⟩
  · intro i hi
    have hi' : i < (IndexIter.indexIterator v.shape).length := by rw [IndexIter.length_indexIterator]; exact hi
    simp [GView.iterAll, GView.getFlat, unravel, List.getElem?_eq_getElem hi']
  · intro idx hv
    have := (IndexIter.c03_index_iterator_position v.shape _ idx).2 ⟨hv, rfl⟩
    simp [GView.getFlat, unravel, this]
  · intro i hi
    have : (IndexIter.indexIterator v.shape)[i]? = none :=
      List.getElem?_eq_none (by rw [IndexIter.length_indexIterator]; exact hi)
    rw [GView.getFlat, unravel, this]; rfl

/-- C53. `enumerate_non_masked_points` gives, in increasing order, exactly the positions of values that are not masked, with the item
there. -/
theorem c53_gridded_enum_non_masked (v : GView K V) (masked : V → Bool) :
    ((v.enumNonMasked masked).map Prod.fst).Pairwise (· < ·) ∧
    ∀ (i : Nat) (p : Option (HP K V)), (i, p) ∈ v.enumNonMasked masked ↔
      ∃ idx, IndexIter.Spec.Valid v.shape idx ∧ IndexIter.Spec.position v.shape idx = i ∧ masked (v.data idx) = false ∧
        p = v.get idx := by
  constructor
  · simp only [GView.enumNonMasked, List.map_map, Function.comp_def, List.map_id']
    exact List.Pairwise.filter _ List.pairwise_lt_range
  · intro i p
    simp only [GView.enumNonMasked, List.mem_map, List.mem_filter, List.mem_range, Prod.mk.injEq]
    rw [IndexIter.numIterations_eq]
    constructor
    · rintro ⟨j, ⟨h1, h2⟩, rfl, rfl⟩
      obtain ⟨idx, hi, hv, hp⟩ := IndexIter.getElem_indexIterator v.shape j h1
      rw [unravel, hi] at h2
      exact ⟨idx, hv, hp, by simpa using h2, by simp [GView.getFlat, unravel, hi]⟩
    · rintro ⟨idx, hv, rfl, hm, rfl⟩
      have := (IndexIter.c03_index_iterator_position v.shape _ idx).2 ⟨hv, rfl⟩
      refine ⟨_, ⟨IndexIter.position_lt hv, ?_⟩, rfl, ?_⟩
      · simp [unravel, this, hm]
      · simp [GView.getFlat, unravel, this]

/-- C53. If every dimension has a coordinate and is longer than one, default iteration goes over the cells in C order as well. -/
theorem c53_gridded_iter (cs : List (String × List K)) (data : List Nat → V) (hn : (cs.map Prod.fst).Nodup)
    (hs : ∀ c ∈ cs, c.1 ∈ Spec.names) (h1 : ∀ c ∈ cs, 1 < c.2.length) :
    (gview (Spec.cube cs) data).iterIndices = IndexIter.indexIterator (gview (Spec.cube cs) data).shape := by
  have hcs : (gview (Spec.cube cs) data).coords = cs.map (fun c => some (c.2, stdIdx c.1)) := fillCoords_cube cs hn hs
  have hsh : (gview (Spec.cube cs) data).shape = cs.map (fun c => c.2.length) := by
    simp [gview, Spec.cube, Function.comp_def]
  rw [GView.iterIndices, GView.iterShape, hcs, hsh]
  congr 1
  rw [List.filterMap_map, ← List.filterMap_eq_map]
  apply List.filterMap_congr
  intro c hc
  simp [Function.comp, h1 c hc]

/-- C53 is violated: with a dimension of length one, default iteration indexes the view with too few indices, so that coordinates are
missing in the points. -/
theorem c53_gridded_iter_violated :
    ∃ (cs : List (String × List ℚ)) (data : List Nat → ℚ), (cs.map Prod.fst).Nodup ∧ (∀ c ∈ cs, c.1 ∈ Spec.names) ∧
      (gview (Spec.cube cs) data).iterIndices = [[0], [1]] ∧
      (∀ idx ∈ (gview (Spec.cube cs) data).iterIndices, ∃ p, (gview (Spec.cube cs) data).get idx = some p ∧ p.lon = none) ∧
      (gview (Spec.cube cs) data).iterAll.map (Option.map HP.lon) = [some (some 7), some (some 7)] := by
  refine ⟨[("latitude", [1, 2]), ("longitude", [7])], fun _ => 0, by decide, by decide, by decide +kernel, ?_, by decide +kernel⟩
  have : (gview (Spec.cube [("latitude", [(1 : ℚ), 2]), ("longitude", [7])]) (fun _ => (0 : ℚ))).iterIndices = [[0], [1]] := by
    decide +kernel
  rw [this]
  intro idx hidx
  simp only [List.mem_cons, List.not_mem_nil, or_false] at hidx
  rcases hidx with rfl | rfl
  · exact ⟨⟨some 1, none, none, none, none, [0]⟩, by decide +kernel, rfl⟩
  · exact ⟨⟨some 2, none, none, none, none, [0]⟩, by decide +kernel, rfl⟩

/-- C53 is violated: on a grid with a dimension that has no coordinate, no item can be had. -/
theorem c53_gridded_anonymous_violated :
    ∃ (dims : List (GDim ℚ)) (data : List Nat → ℚ),
      ∀ idx ∈ IndexIter.indexIterator (gview dims data).shape, (gview dims data).get idx = none := by
  refine ⟨[⟨2, none⟩, ⟨2, some ("latitude", [1, 2])⟩], fun _ => 0, by decide +kernel⟩

/-- C53 is violated: the latitude of a grid with an anonymous first dimension is assigned to the wrong dimension. -/
theorem c53_gridded_wrong_dimension_violated :
    ∃ (dims : List (GDim ℚ)), dims.map GDim.coord = [none, some ("latitude", [1, 2])] ∧
      findStandard dims = [some ([1, 2], 0), none, none, none, none] :=
  ⟨[⟨2, none⟩, ⟨2, some ("latitude", [1, 2])⟩], rfl, by decide +kernel⟩

example : (gview (Spec.cube [("time", [(10 : ℚ), 20]), ("latitude", [1, 2])]) (fun i => i)).get [1, 0] =
    some ⟨some 1, none, none, none, some 20, [[1, 0]]⟩ := by decide +kernel
example : IndexIter.Spec.Valid ([("time", [(10 : ℚ), 20]), ("latitude", [1, 2])].map (fun c => c.2.length)) [1, 0] :=
  .cons (by decide) (.cons (by decide) .nil)

end Cis.Hyper
