import Verif.GridColloc.Spec
import Mathlib.Tactic
set_option linter.unusedSectionVars false
set_option linter.unusedSimpArgs false
namespace Cis.GridColloc
open Spec
variable {K V : Type}

/-! ### Positions in flattened arrays -/

/-- Valid multi-index of a shape. -/
def InShape (sh idx : List Nat) : Prop := List.Forall₂ (fun n i => i < n) sh idx

theorem ravel_lt {sh idx : List Nat} (h : InShape sh idx) : ravel sh idx < sh.prod := by
  induction h with
  | nil => simp [ravel]
  | @cons n i sh idx h _ ih =>
    rw [ravel, List.prod_cons]
    calc i * sh.prod + ravel sh idx < i * sh.prod + sh.prod := by omega
      _ = (i + 1) * sh.prod := by ring
      _ ≤ n * sh.prod := Nat.mul_le_mul_right _ h

theorem unravel_ravel {sh idx : List Nat} (h : InShape sh idx) : unravel sh (ravel sh idx) = idx := by
  induction h with
  | nil => simp [unravel]
  | @cons n i sh idx h hs ih =>
    have h1 := ravel_lt hs
    rw [ravel, unravel]
    have hp : 0 < sh.prod := by omega
    congr 1
    · rw [Nat.add_comm, Nat.add_mul_div_right _ _ hp, Nat.div_eq_of_lt h1]; omega
    · rw [Nat.add_comm, Nat.add_mul_mod_self_right, Nat.mod_eq_of_lt h1, ih]

theorem ravel_append {sh idx : List Nat} (sh2 j : List Nat) (h : InShape sh idx) :
    ravel (sh ++ sh2) (idx ++ j) = ravel sh idx * sh2.prod + ravel sh2 j := by
  induction h with
  | nil => simp [ravel]
  | @cons n i sh idx h hs ih =>
    rw [List.cons_append, List.cons_append, ravel, ravel, ih, List.prod_append]
    ring

theorem ravel_ones {sh idx : List Nat} (h1 : ∀ n ∈ sh, n = 1) (h : InShape sh idx) : ravel sh idx = 0 := by
  have := ravel_lt h
  rw [List.prod_eq_one h1] at this
  omega

/-! ### The loop over the coordinates -/

theorem classify_eq (s : Sample K) (l : List (Coord K)) :
    classify s l = (l.filterMap (fun c => (s.find c.name).map (fun sc => ((c.name, sc.pts.length), s.pos c.name))),
      (l.filter (fun c => (s.find c.name).isNone)).map (fun c => (c.name, c.pts.length)),
      ((l.filter (fun c => (s.find c.name).isNone)).map (fun c => c.pts.length)).prod) := by
  induction l with
  | nil => rfl
  | cons c t ih =>
    rw [classify, ih]
    cases h : s.find c.name <;> simp [h]

theorem find_of_mem {l : List (Coord K)} (h : Distinct l) {c : Coord K} (hc : c ∈ l) :
    l.find? (fun x => x.name == c.name) = some c := by
  induction l with
  | nil => cases hc
  | cons x t ih =>
    unfold Distinct at h
    rw [List.map_cons, List.nodup_cons] at h
    rw [List.find?_cons]
    rcases List.mem_cons.1 hc with rfl | hc
    · simp
    · have : x.name ≠ c.name := fun e => h.1 (e ▸ List.mem_map_of_mem hc)
      simp only [beq_eq_false_iff_ne.2 this]
      exact ih h.2 hc

theorem findIdx_of_getElem {l : List (Coord K)} (h : Distinct l) {i : Nat} {c : Coord K} (hc : l[i]? = some c) :
    l.findIdx (fun x => x.name == c.name) = i := by
  obtain ⟨hi, rfl⟩ := List.getElem?_eq_some_iff.1 hc
  rw [List.findIdx_eq hi]
  refine ⟨by simp, ?_⟩
  intro j hj
  have hne : j ≠ i := by omega
  rw [beq_eq_false_iff_ne]
  intro e
  apply hne
  have h1 : (l.map Coord.name)[j]'(by simp; omega) = (l.map Coord.name)[i]'(by simpa using hi) := by simpa using e
  exact (List.Nodup.getElem_inj_iff h).1 h1

theorem find_some {s : Sample K} {n : String} {c : Coord K} (h : s.find n = some c) : c ∈ s.coords ∧ c.name = n := by
  unfold Sample.find at h
  exact ⟨List.mem_of_find?_eq_some h, by simpa using List.find?_some h⟩

theorem find_none_iff {s : Sample K} {n : String} : s.find n = none ↔ ∀ c ∈ s.coords, c.name ≠ n := by
  unfold Sample.find
  rw [List.find?_eq_none]
  simp

/-- The shared coordinates of the sample. -/
def sharedCoords (s : Sample K) (dims : List (Coord K)) : List (Coord K) :=
  s.coords.filter (fun c => dims.any (fun d => d.name == c.name))

/-- The dimensions of the data that are not in the sample. -/
def extraCoords (s : Sample K) (dims : List (Coord K)) : List (Coord K) := dims.filter (fun c => (s.find c.name).isNone)

theorem outDims_eq (s : Sample K) (data : Cube K V) : outDims s data = sharedCoords s data.dims ++ extraCoords s data.dims := by
  unfold outDims sharedCoords extraCoords Sample.coords
  congr 1
  apply List.filter_congr
  intro d _
  unfold Sample.find Sample.coords
  rw [Bool.eq_iff_iff]
  rw [Option.isNone_iff_eq_none, List.find?_eq_none]
  simp only [List.any_append, Bool.not_or, Bool.and_eq_true, Bool.not_eq_true', List.any_eq_false, beq_iff_eq, List.mem_append]
  exact ⟨fun h x hx => hx.elim (h.1 x) (h.2 x), fun h => ⟨fun x hx => h x (Or.inl hx), fun x hx => h x (Or.inr hx)⟩⟩

/-- Sorting a permutation of a list with strictly increasing keys. -/
theorem insertionSort_eq {A : Type} (l b : List (A × Nat)) (hp : l.Perm b) (hb : b.Pairwise (fun x y => x.2 < y.2)) :
    l.insertionSort (fun x y => x.2 ≤ y.2) = b := by
  have h1 : (l.insertionSort (fun x y => x.2 ≤ y.2)).Pairwise (fun x y => x.2 ≤ y.2) := by
    have : IsTrans (A × Nat) (fun x y => x.2 ≤ y.2) := ⟨fun a b c h h' => le_trans h h'⟩
    have : Std.Total (α := A × Nat) (fun x y => x.2 ≤ y.2) := ⟨fun a b => le_total a.2 b.2⟩
    exact List.pairwise_insertionSort _ l
  have hp2 : (l.insertionSort (fun x y => x.2 ≤ y.2)).Perm b := (List.perm_insertionSort _ l).trans hp
  have hn : ((l.insertionSort (fun x y => x.2 ≤ y.2)).map Prod.snd).Nodup := by
    refine (List.Perm.nodup_iff (hp2.map Prod.snd)).2 ?_
    exact List.Pairwise.imp (fun h => ne_of_lt h) (List.pairwise_map.2 hb)
  have h2 : (l.insertionSort (fun x y => x.2 ≤ y.2)).Pairwise (fun x y => x.2 < y.2) := by
    have := List.pairwise_map.1 hn
    exact List.Pairwise.imp₂ (fun a b h h' => lt_of_le_of_ne h h') h1 this
  exact hp2.eq_of_pairwise (fun a b _ _ h h' => absurd h (lt_asymm h')) h2 hb

theorem sortShared_eq (s : Sample K) (dims : List (Coord K)) (hs : Distinct s.coords) (hd : Distinct dims) :
    sortShared (dims.filterMap (fun c => (s.find c.name).map (fun sc => ((c.name, sc.pts.length), s.pos c.name)))) =
      (sharedCoords s dims).map (fun c => (c.name, c.pts.length)) := by
  have key : (dims.filterMap (fun c => (s.find c.name).map (fun sc => ((c.name, sc.pts.length), s.pos c.name)))).insertionSort
      (fun x y => x.2 ≤ y.2) = (sharedCoords s dims).map (fun c => ((c.name, c.pts.length), s.pos c.name)) := by
    apply insertionSort_eq
    · rw [List.perm_ext_iff_of_nodup]
      · rintro ⟨⟨n, k⟩, p⟩
        simp only [List.mem_filterMap, List.mem_map, Option.map_eq_some_iff, sharedCoords, List.mem_filter, List.any_eq_true, beq_iff_eq]
        constructor
        · rintro ⟨d, hd', sc, hsc, he⟩
          obtain ⟨h1, h2⟩ := find_some hsc
          refine ⟨sc, ⟨h1, d, hd', h2.symm⟩, ?_⟩
          rw [h2]; exact he
        · rintro ⟨c, ⟨hc, d, hd', he⟩, he2⟩
          refine ⟨d, hd', c, ?_, ?_⟩
          · rw [he]; exact find_of_mem hs hc
          · rw [he]; exact he2
      · have : ((dims.filterMap (fun c => (s.find c.name).map (fun sc => ((c.name, sc.pts.length), s.pos c.name)))).map
            (fun x => x.1.1)).Nodup := by
          refine List.Nodup.sublist ?_ hd
          clear hd
          induction dims with
          | nil => simp
          | cons c t ih =>
            rw [List.filterMap_cons]
            cases h : s.find c.name with
            | none => simp only [Option.map_none]; exact ih.trans (by simp)
            | some sc => simp only [Option.map_some, List.map_cons]; exact ih.cons_cons _
        exact List.Nodup.of_map _ this
      · have : ((sharedCoords s dims).map (fun c => ((c.name, c.pts.length), s.pos c.name))).map (fun x => x.1.1)
            = (sharedCoords s dims).map Coord.name := by simp
        refine List.Nodup.of_map (fun x => x.1.1) ?_
        rw [this]
        exact List.Nodup.sublist (List.Sublist.map _ List.filter_sublist) hs
    · rw [List.pairwise_map]
      have h1 : s.coords.Pairwise (fun a b => s.pos a.name < s.pos b.name) := by
        rw [List.pairwise_iff_getElem]
        intro i j hi hj hij
        unfold Sample.pos
        rw [findIdx_of_getElem hs (List.getElem?_eq_getElem hi), findIdx_of_getElem hs (List.getElem?_eq_getElem hj)]
        exact hij
      exact List.Pairwise.sublist List.filter_sublist h1
  unfold sortShared
  rw [key, List.map_map]
  rfl

theorem newCoords_eq (s : Sample K) (dims : List (Coord K)) (hs : Distinct s.coords) :
    ((sharedCoords s dims).map (fun c => (c.name, c.pts.length)) ++ (extraCoords s dims).map (fun c => (c.name, c.pts.length))).filterMap
      (fun x : NS => s.find x.1) = sharedCoords s dims := by
  rw [List.filterMap_append]
  have h1 : ((sharedCoords s dims).map (fun c => (c.name, c.pts.length))).filterMap (fun x : NS => s.find x.1) = sharedCoords s dims := by
    rw [List.filterMap_map]
    have : ∀ l : List (Coord K), (∀ c ∈ l, c ∈ s.coords) →
        l.filterMap ((fun x : NS => s.find x.1) ∘ (fun c => (c.name, c.pts.length))) = l := by
      intro l hl
      induction l with
      | nil => rfl
      | cons c t ih =>
        rw [List.filterMap_cons]
        have : s.find c.name = some c := find_of_mem hs (hl c (by simp))
        simp only [Function.comp, this]
        rw [show List.filterMap (fun c : Coord K => s.find c.name) t = t from ih (fun c hc => hl c (by simp [hc]))]
    exact this _ (fun c hc => (List.mem_filter.1 hc).1)
  have h2 : ((extraCoords s dims).map (fun c => (c.name, c.pts.length))).filterMap (fun x : NS => s.find x.1) = [] := by
    rw [List.filterMap_eq_nil_iff]
    intro x hx
    obtain ⟨c, hc, rfl⟩ := List.mem_map.1 hx
    have := (List.mem_filter.1 hc).2
    simpa using this
  rw [h1, h2, List.append_nil]

/-- The points asked of `interpolate`. -/
theorem pairs_eq (s : Sample K) (dims : List (Coord K)) :
    List.zipWith (fun (x : NS) (c : Coord K) => (x.1, c.pts)) ((sharedCoords s dims).map (fun c => (c.name, c.pts.length)))
      (sharedCoords s dims) = (sharedCoords s dims).map (fun c => (c.name, c.pts)) := by
  generalize sharedCoords s dims = l
  induction l with
  | nil => rfl
  | cons c t ih => rw [List.map_cons, List.zipWith_cons_cons, ih, List.map_cons]

theorem pairs_find (s : Sample K) (dims : List (Coord K)) (hs : Distinct s.coords) {d : Coord K} (hd : d ∈ dims) :
    ((sharedCoords s dims).map (fun c => (c.name, c.pts))).find? (fun p => p.1 == d.name) =
      (s.find d.name).map (fun c => (c.name, c.pts)) := by
  rw [List.find?_map]
  congr 1
  cases h : s.find d.name with
  | none =>
    rw [List.find?_eq_none]
    intro c hc
    have := find_none_iff.1 h c (List.mem_filter.1 hc).1
    simpa using this
  | some c =>
    obtain ⟨h1, h2⟩ := find_some h
    have h3 : c ∈ sharedCoords s dims := List.mem_filter.2 ⟨h1, by simp only [List.any_eq_true, beq_iff_eq]; exact ⟨d, hd, h2.symm⟩⟩
    have h4 : Distinct (sharedCoords s dims) := List.Nodup.sublist (List.Sublist.map _ List.filter_sublist) hs
    have := find_of_mem h4 h3
    rw [h2] at this
    exact this

/-- The coordinate of the output along dimension `d` of the data. -/
def newDim (s : Sample K) (d : Coord K) : Coord K := (s.find d.name).getD d

theorem newDim_name (s : Sample K) (d : Coord K) : (newDim s d).name = d.name := by
  unfold newDim
  cases h : s.find d.name with
  | none => rfl
  | some c => exact (find_some h).2

theorem interpolate_dims (interp : Cube K V → List (Target K) → Option V) (s : Sample K) (data : Cube K V) (hs : Distinct s.coords) :
    (interpolateCube interp data ((sharedCoords s data.dims).map (fun c => (c.name, c.pts)))).dims = data.dims.map (newDim s) := by
  unfold interpolateCube
  apply List.map_congr_left
  intro d hd
  rw [pairs_find s _ hs hd]
  unfold newDim
  cases h : s.find d.name with
  | none => rfl
  | some c =>
    have := (find_some h).2
    simp only [Option.map_some, Option.getD_some]
    rw [← this]

theorem outDims_distinct (s : Sample K) (data : Cube K V) (hs : Distinct s.coords) (hd : Distinct data.dims) :
    Distinct (outDims s data) := by
  rw [outDims_eq]
  unfold Distinct
  rw [List.map_append, List.nodup_append]
  refine ⟨List.Nodup.sublist (List.Sublist.map _ List.filter_sublist) hs, List.Nodup.sublist (List.Sublist.map _ List.filter_sublist) hd, ?_⟩
  intro a ha b hb
  obtain ⟨c, hc, rfl⟩ := List.mem_map.1 ha
  obtain ⟨d, hd', rfl⟩ := List.mem_map.1 hb
  have h1 := (List.mem_filter.1 hd').2
  rw [Option.isNone_iff_eq_none] at h1
  exact find_none_iff.1 h1 c (List.mem_filter.1 hc).1

theorem mem_outDims {s : Sample K} {data : Cube K V} {c : Coord K} (hc : c ∈ outDims s data) :
    ∃ d ∈ data.dims, d.name = c.name ∧ newDim s d = (if (s.find d.name).isSome then (s.find d.name).getD d else d) := by
  rw [outDims_eq, List.mem_append] at hc
  rcases hc with hc | hc
  · have := (List.mem_filter.1 hc).2
    rw [List.any_eq_true] at this
    obtain ⟨d, hd, he⟩ := this
    refine ⟨d, hd, by simpa using he, ?_⟩
    unfold newDim
    cases h : s.find d.name <;> simp
  · refine ⟨c, (List.mem_filter.1 hc).1, rfl, ?_⟩
    unfold newDim
    cases h : s.find c.name <;> simp

/-- Each dimension of the output is the new coordinate of a dimension of the data, and conversely. -/
theorem mem_outDims_iff {s : Sample K} {data : Cube K V} (hs : Distinct s.coords) {c : Coord K} :
    c ∈ outDims s data ↔ ∃ d ∈ data.dims, newDim s d = c := by
  rw [outDims_eq, List.mem_append]
  constructor
  · rintro (hc | hc)
    · have h1 := List.mem_filter.1 hc
      rw [List.any_eq_true] at h1
      obtain ⟨h0, d, hd, he⟩ := h1
      refine ⟨d, hd, ?_⟩
      unfold newDim
      rw [show s.find d.name = some c by rw [beq_iff_eq.1 he]; exact find_of_mem hs h0]
      rfl
    · have h1 := List.mem_filter.1 hc
      refine ⟨c, h1.1, ?_⟩
      unfold newDim
      rw [Option.isNone_iff_eq_none.1 h1.2]
      rfl
  · rintro ⟨d, hd, rfl⟩
    unfold newDim
    cases h : s.find d.name with
    | none => exact Or.inr (List.mem_filter.2 ⟨hd, by simp [h]⟩)
    | some c =>
      obtain ⟨h1, h2⟩ := find_some h
      exact Or.inl (List.mem_filter.2 ⟨h1, by rw [List.any_eq_true]; exact ⟨d, hd, by simp [h2]⟩⟩)

theorem lookup_eq (s : Sample K) (data : Cube K V) {n : String} (hn : ∃ d ∈ data.dims, d.name = n) :
    lookupDim (data.dims.map (newDim s)) n = some (data.dims.findIdx (fun d => d.name == n)) := by
  unfold lookupDim
  have h1 : (fun c : Coord K => c.name == n) ∘ newDim s = fun d => d.name == n := by
    funext d; simp [newDim_name]
  rw [List.any_map, List.findIdx_map, h1, if_pos]
  rw [List.any_eq_true]
  obtain ⟨d, hd, he⟩ := hn
  exact ⟨d, hd, by simpa using he⟩

/-- The order of the transposition. -/
def order (s : Sample K) (data : Cube K V) : List Nat :=
  (outDims s data).map (fun c => data.dims.findIdx (fun d => d.name == c.name))

theorem order_eq (s : Sample K) (data : Cube K V) (hs : Distinct s.coords) :
    ((sharedCoords s data.dims).map (fun c => (c.name, c.pts.length)) ++
      (extraCoords s data.dims).map (fun c => (c.name, c.pts.length))).mapM
      (fun x : NS => lookupDim (data.dims.map (newDim s)) x.1) = some (order s data) := by
  rw [← List.map_append, ← outDims_eq]
  unfold order
  have : ∀ l : List (Coord K), (∀ c ∈ l, c ∈ outDims s data) →
      (l.map (fun c => (c.name, c.pts.length))).mapM (fun x : NS => lookupDim (data.dims.map (newDim s)) x.1) =
        some (l.map (fun c => data.dims.findIdx (fun d => d.name == c.name))) := by
    intro l hl
    induction l with
    | nil => rfl
    | cons c t ih =>
      obtain ⟨d, hd, he⟩ := (mem_outDims_iff hs).1 (hl c (by simp))
      rw [List.map_cons, List.mapM_cons, lookup_eq s data ⟨d, hd, by rw [← he, newDim_name]⟩, ih (fun c hc => hl c (by simp [hc]))]
      rfl
  exact this _ (fun c hc => hc)

theorem order_dims (s : Sample K) (data : Cube K V) (hs : Distinct s.coords) (hd : Distinct data.dims) :
    (order s data).filterMap (fun k => (data.dims.map (newDim s))[k]?) = outDims s data := by
  unfold order
  rw [List.filterMap_map]
  have : ∀ l : List (Coord K), (∀ c ∈ l, c ∈ outDims s data) →
      l.filterMap ((fun k => (data.dims.map (newDim s))[k]?) ∘ (fun c => data.dims.findIdx (fun d => d.name == c.name))) = l := by
    intro l hl
    induction l with
    | nil => rfl
    | cons c t ih =>
      obtain ⟨d, hd', he⟩ := (mem_outDims_iff hs).1 (hl c (by simp))
      obtain ⟨i, hi⟩ := List.mem_iff_getElem?.1 hd'
      have hn : c.name = d.name := by rw [← he, newDim_name]
      rw [List.filterMap_cons]
      simp only [Function.comp]
      rw [hn, findIdx_of_getElem hd hi, List.getElem?_map, hi]
      simp only [Option.map_some, he]
      congr 1
      exact ih (fun c hc => hl c (by simp [hc]))
  exact this _ (fun c hc => hc)

theorem order_idx (s : Sample K) (data : Cube K V) (hs : Distinct s.coords) (hd : Distinct data.dims) {k : Nat} {d : Coord K}
    (hk : data.dims[k]? = some d) : (order s data).idxOf k = (outDims s data).findIdx (fun c => c.name == d.name) := by
  unfold order
  rw [List.idxOf, List.findIdx_map]
  have : ∀ l : List (Coord K), (∀ c ∈ l, c ∈ outDims s data) →
      l.findIdx ((fun x => x == k) ∘ (fun c : Coord K => data.dims.findIdx (fun d => d.name == c.name))) =
        l.findIdx (fun c => c.name == d.name) := by
    intro l hl
    induction l with
    | nil => rfl
    | cons c t ih =>
      rw [List.findIdx_cons, List.findIdx_cons, ih (fun c hc => hl c (by simp [hc]))]
      have : (((fun x => x == k) ∘ (fun c : Coord K => data.dims.findIdx (fun d => d.name == c.name))) c) = (c.name == d.name) := by
        obtain ⟨e, he', he⟩ := (mem_outDims_iff hs).1 (hl c (by simp))
        obtain ⟨i, hi⟩ := List.mem_iff_getElem?.1 he'
        have hn : c.name = e.name := by rw [← he, newDim_name]
        simp only [Function.comp]
        rw [hn, findIdx_of_getElem hd hi, Bool.eq_iff_iff, beq_iff_eq, beq_iff_eq]
        constructor
        · rintro rfl
          rw [hi] at hk; cases hk; rfl
        · intro h
          have h1 := findIdx_of_getElem hd hi
          have h2 := findIdx_of_getElem hd hk
          rw [← h1, ← h2, h]
      rw [this]
  exact this _ (fun c hc => hc)

theorem get_eq (interp : Cube K V → List (Target K) → Option V) (s : Sample K) (data : Cube K V) (hs : Distinct s.coords)
    (hd : Distinct data.dims) (idx : List Nat) :
    (transpose (interpolateCube interp data ((sharedCoords s data.dims).map (fun c => (c.name, c.pts)))) (order s data)).get idx =
      interp data (data.dims.map (target s (outDims s data) idx)) := by
  unfold transpose
  simp only
  rw [interpolate_dims interp s data hs, List.length_map]
  unfold interpolateCube
  simp only
  congr 1
  apply List.ext_getElem?
  intro k
  rw [List.getElem?_zipWith, List.getElem?_map, List.getElem?_map]
  cases hk : data.dims[k]? with
  | none => rfl
  | some d =>
    have hlt := (List.getElem?_eq_some_iff.1 hk).1
    rw [List.getElem?_range hlt]
    simp only [Option.map_some]
    rw [order_idx s data hs hd hk, pairs_find s _ hs (List.mem_of_getElem? hk)]
    unfold target along Sample.find Sample.coords
    cases hf : (s.dims ++ s.aux).find? (fun c => c.name == d.name) with
    | none => rfl
    | some c =>
      simp only [Option.map_some]
      cases c.pts[idx.getD ((outDims s data).findIdx (fun c => c.name == d.name)) 0]? <;> rfl

/-- The whole function without the mask. -/
theorem irisInterpolate_eq (interp : Cube K V → List (Target K) → Option V) (s : Sample K) (data : Cube K V) (hs : Distinct s.coords)
    (hd : Distinct data.dims) (mask : Option (List Nat → Bool)) :
    ∃ r, irisInterpolate interp ((sharedCoords s data.dims).map (fun c => (c.name, c.pts.length)) ++
      (extraCoords s data.dims).map (fun c => (c.name, c.pts.length))) ((sharedCoords s data.dims).map (fun c => (c.name, c.pts.length)))
      data mask (sharedCoords s data.dims) = .ok r ∧ r.dims = outDims s data ∧
      ∀ idx, r.get idx = applyMask (fun idx => interp data (data.dims.map (target s (outDims s data) idx))) mask idx := by
  unfold irisInterpolate
  simp only
  rw [pairs_eq, interpolate_dims interp s data hs, order_eq s data hs]
  simp only
  refine ⟨_, rfl, ?_, ?_⟩
  · simp only [transpose]
    rw [interpolate_dims interp s data hs, order_dims s data hs hd]
  · intro idx
    simp only
    congr 1
    funext i
    exact get_eq interp s data hs hd i

theorem collocate_eq (interp : Cube K V → List (Target K) → Option V) (missing : Bool) (s : Sample K) (data : Cube K V)
    (hs : Distinct s.coords) (hd : Distinct data.dims) :
    collocate interp true missing s data =
      if missing then
        match makeOutputMask s ((sharedCoords s data.dims).map (fun c => (c.name, c.pts.length)))
          ((outDims s data).map (fun c => c.pts.length)) ((extraCoords s data.dims).map (fun c => c.pts.length)).prod with
        | .error e => .error e
        | .ok mask => irisInterpolate interp ((sharedCoords s data.dims).map (fun c => (c.name, c.pts.length)) ++
            (extraCoords s data.dims).map (fun c => (c.name, c.pts.length)))
            ((sharedCoords s data.dims).map (fun c => (c.name, c.pts.length))) data mask (sharedCoords s data.dims)
      else irisInterpolate interp ((sharedCoords s data.dims).map (fun c => (c.name, c.pts.length)) ++
            (extraCoords s data.dims).map (fun c => (c.name, c.pts.length)))
            ((sharedCoords s data.dims).map (fun c => (c.name, c.pts.length))) data none (sharedCoords s data.dims) := by
  unfold collocate
  simp only [Bool.not_true, Bool.false_eq_true, if_false, classify_eq]
  rw [sortShared_eq s data.dims hs hd]
  have hn := newCoords_eq s data.dims hs
  unfold extraCoords at hn ⊢
  rw [hn]
  have ho : (outDims s data).map (fun c => c.pts.length) = ((sharedCoords s data.dims).map (fun c => (c.name, c.pts.length)) ++
      (data.dims.filter (fun c => (s.find c.name).isNone)).map (fun c => (c.name, c.pts.length))).map Prod.snd := by
    rw [outDims_eq, List.map_append, List.map_append, List.map_map, List.map_map]
    rfl
  rw [ho]
  cases missing with
  | false => rfl
  | true =>
    simp only [if_true]
    generalize makeOutputMask s _ _ _ = q
    cases q <;> rfl

end Cis.GridColloc
