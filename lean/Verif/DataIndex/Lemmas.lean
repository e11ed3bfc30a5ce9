import Verif.DataIndex.Spec
import Mathlib.Data.List.Forall2
import Mathlib.Data.List.Nodup
import Mathlib.Data.List.Pairwise
import Mathlib.Tactic.Ring
import Mathlib.Tactic.Linarith
set_option linter.unusedSectionVars false
set_option linter.unusedSimpArgs false
namespace Cis.DataIndex
variable {K : Type} [LinearOrder K]

/-- On a strictly increasing list, the position found is characterised by its neighbours. -/
theorem searchsortedRight_spec (a : List K) (v : K) (h : a.Pairwise (· < ·)) (k : Nat) :
    searchsortedRight a v = k ↔ k ≤ a.length ∧ (∀ j b, j < k → a[j]? = some b → b ≤ v) ∧
      (∀ b, a[k]? = some b → v < b) := by
  unfold searchsortedRight
  induction a generalizing k with
  | nil =>
    simp only [List.takeWhile_nil, List.length_nil, List.getElem?_nil]
    constructor
    · rintro rfl; simp
    · rintro ⟨h, -⟩; omega
  | cons x t ih =>
    obtain ⟨hx, ht⟩ := List.pairwise_cons.1 h
    by_cases hv : x ≤ v
    · rw [List.takeWhile_cons_of_pos (by simpa using hv), List.length_cons]
      cases k with
      | zero =>
        simp only [Nat.add_eq_zero_iff, one_ne_zero, and_false, false_iff, not_and]
        intro _ _ hc
        exact absurd (hc x rfl) (not_lt.2 hv)
      | succ k =>
        rw [Nat.add_right_cancel_iff, ih ht]
        constructor
        · rintro ⟨h1, h2, h3⟩
          refine ⟨by simpa using h1, ?_, h3⟩
          intro j b hj hb
          cases j with
          | zero => simp at hb; subst hb; exact hv
          | succ j => exact h2 j b (by omega) (by simpa using hb)
        · rintro ⟨h1, h2, h3⟩
          exact ⟨by simpa using h1, fun j b hj hb => h2 (j + 1) b (by omega) (by simpa using hb), h3⟩
    · rw [List.takeWhile_cons_of_neg (by simpa using hv)]
      constructor
      · rintro rfl
        refine ⟨by simp, by intro j b hj; simp at hj, ?_⟩
        intro b hb; simp at hb; subst hb; exact not_le.1 hv
      · rintro ⟨h1, h2, h3⟩
        cases k with
        | zero => rfl
        | succ k => exact absurd (h2 0 x (by omega) rfl) hv

theorem searchsortedRight_le (a : List K) (v : K) : searchsortedRight a v ≤ a.length := by
  unfold searchsortedRight
  exact (List.takeWhile_sublist _).length_le

/-- `i` is the last position whose value is `≤ v`. -/
theorem searchsortedRight_succ (a : List K) (v : K) (h : a.Pairwise (· < ·)) (i : Nat) :
    searchsortedRight a v = i + 1 ↔ (∃ b, a[i]? = some b ∧ b ≤ v) ∧ (∀ b, a[i + 1]? = some b → v < b) := by
  rw [searchsortedRight_spec a v h]
  constructor
  · rintro ⟨h1, h2, h3⟩
    exact ⟨⟨a[i], by simp, h2 i _ (by omega) (by simp)⟩, h3⟩
  · rintro ⟨⟨b, hb, hv⟩, h3⟩
    have hi : i < a.length := (List.getElem?_eq_some_iff.1 hb).1
    refine ⟨by omega, ?_, h3⟩
    intro j c hj hc
    by_cases hji : j = i
    · subst hji; rw [hb] at hc; cases hc; exact hv
    · have hj' : j < a.length := by omega
      have := List.pairwise_iff_getElem.1 h j i hj' hi (by omega)
      rw [List.getElem?_eq_getElem hj'] at hc; cases hc
      rw [List.getElem?_eq_getElem hi] at hb; cases hb
      exact (this.le.trans hv)

theorem lower_sorted {c : Coord K} (h : Spec.Monotonic c) : c.lower.Pairwise (· < ·) := by
  unfold Coord.lower
  cases hd : c.decreasing
  · simp only [Bool.false_eq_true, if_false]
    rw [List.pairwise_map]
    obtain ⟨h1, h2⟩ := h.inc hd
    exact h2.imp_of_mem (fun ha _ hab => lt_of_lt_of_le (h1 _ ha) hab)
  · simp only [if_true]
    rw [List.pairwise_reverse, List.pairwise_map]
    obtain ⟨h1, h2⟩ := h.dec hd
    exact h2.imp_of_mem (fun _ hb hab => lt_of_lt_of_le (h1 _ hb) hab)

theorem lower_length (c : Coord K) : c.lower.length = c.bounds.length := by
  unfold Coord.lower; split <;> simp

/-! ### GridCellBinIndex, one coordinate -/

theorem binIndex_iff {c : Coord K} (h : Spec.Monotonic c) (v : K) (i : Nat) :
    binIndex c v = some i ↔ Spec.InInterval c i v := by
  have hs := lower_sorted h
  unfold binIndex Spec.InInterval
  simp only
  cases hd : c.decreasing
  · -- increasing
    obtain ⟨h1, h2⟩ := h.inc hd
    have hl : c.lower = c.bounds.map Prod.fst := by simp [Coord.lower, hd]
    have hu : c.upper = c.bounds.map Prod.snd := by simp [Coord.upper, hd]
    rw [hl] at hs ⊢
    rw [hu]
    constructor
    · intro he
      split at he
      · simp at he
      rename_i hne
      split at he
      · simp at he
      rename_i u hu'
      split at he
      · rename_i hvu
        simp only [Bool.false_eq_true, if_false, Option.some.injEq] at he
        obtain ⟨⟨b, hb, hbv⟩, -⟩ := (searchsortedRight_succ _ v hs i).1 (by omega)
        rw [he] at hu'
        rw [List.getElem?_map, Option.map_eq_some_iff] at hb hu'
        obtain ⟨p, hp, rfl⟩ := hb
        obtain ⟨p', hp', rfl⟩ := hu'
        rw [hp] at hp'; cases hp'
        have hlt := h1 p (List.mem_of_getElem? hp)
        exact ⟨p, hp, by rw [min_eq_left hlt.le]; exact hbv, by rw [max_eq_right hlt.le]; exact hvu⟩
      · simp at he
    · rintro ⟨p, hp, hlo, hhi⟩
      have hlt := h1 p (List.mem_of_getElem? hp)
      rw [min_eq_left hlt.le] at hlo
      rw [max_eq_right hlt.le] at hhi
      have hss : searchsortedRight (c.bounds.map Prod.fst) v = i + 1 := by
        rw [searchsortedRight_succ _ v hs]
        refine ⟨⟨p.1, by simp [hp], hlo⟩, ?_⟩
        intro b hb
        rw [List.getElem?_map, Option.map_eq_some_iff] at hb
        obtain ⟨p', hp', rfl⟩ := hb
        have hi := (List.getElem?_eq_some_iff.1 hp)
        have hi' := (List.getElem?_eq_some_iff.1 hp')
        have := List.pairwise_iff_getElem.1 h2 i (i + 1) hi.1 hi'.1 (by omega)
        rw [hi.2, hi'.2] at this
        exact lt_of_lt_of_le hhi this
      rw [hss]
      simp [hp, hhi]
  · -- decreasing
    obtain ⟨h1, h2⟩ := h.dec hd
    have hl : c.lower = (c.bounds.map Prod.snd).reverse := by simp [Coord.lower, hd]
    have hu : c.upper = (c.bounds.map Prod.fst).reverse := by simp [Coord.upper, hd]
    have hsz := h.size
    rw [hl] at hs ⊢
    rw [hu]
    constructor
    · intro he
      split at he
      · simp at he
      rename_i hne
      split at he
      · simp at he
      rename_i u hu'
      split at he
      · rename_i hvu
        simp only [if_true, Option.some.injEq] at he
        obtain ⟨s, hsdef⟩ : ∃ s, searchsortedRight (c.bounds.map Prod.snd).reverse v = s + 1 := ⟨_, (Nat.succ_pred hne).symm⟩
        rw [hsdef] at he hu'
        simp only [Nat.add_sub_cancel] at he hu'
        obtain ⟨⟨b, hb, hbv⟩, -⟩ := (searchsortedRight_succ _ v hs s).1 hsdef
        have hsl : s < c.bounds.length := by simpa using (List.getElem?_eq_some_iff.1 hb).1
        rw [List.getElem?_reverse (by simpa using hsl), List.getElem?_map, Option.map_eq_some_iff] at hb hu'
        obtain ⟨p, hp, rfl⟩ := hb
        obtain ⟨p', hp', rfl⟩ := hu'
        simp only [List.length_map] at hp hp'
        rw [hp] at hp'; cases hp'
        have hlt := h1 p (List.mem_of_getElem? hp)
        refine ⟨p, ?_, by rw [min_eq_right hlt.le]; exact hbv, by rw [max_eq_left hlt.le]; exact hvu⟩
        rw [← hp]; congr 1; omega
      · simp at he
    · rintro ⟨p, hp, hlo, hhi⟩
      have hlt := h1 p (List.mem_of_getElem? hp)
      rw [min_eq_right hlt.le] at hlo
      rw [max_eq_left hlt.le] at hhi
      have hi := (List.getElem?_eq_some_iff.1 hp)
      have hil : i < c.bounds.length := hi.1
      obtain ⟨s, hsdef⟩ : ∃ s, s = c.bounds.length - 1 - i := ⟨_, rfl⟩
      have hsl : s < c.bounds.length := by omega
      have hsi : c.bounds.length - 1 - s = i := by omega
      have hss : searchsortedRight (c.bounds.map Prod.snd).reverse v = s + 1 := by
        rw [searchsortedRight_succ _ v hs]
        refine ⟨⟨p.2, ?_, hlo⟩, ?_⟩
        · rw [List.getElem?_reverse (by simpa using hsl), List.getElem?_map, List.length_map, hsi, hp]; rfl
        · intro b hb
          have hsl' : s + 1 < c.bounds.length := by simpa using (List.getElem?_eq_some_iff.1 hb).1
          rw [List.getElem?_reverse (by simpa using hsl'), List.getElem?_map, Option.map_eq_some_iff, List.length_map] at hb
          obtain ⟨p', hp', rfl⟩ := hb
          have hi' := (List.getElem?_eq_some_iff.1 hp')
          have := List.pairwise_iff_getElem.1 h2 _ i hi'.1 hi.1 (by omega)
          rw [hi.2, hi'.2] at this
          exact lt_of_lt_of_le hhi this
      rw [hss, if_neg (by omega), Nat.add_sub_cancel, List.getElem?_reverse (by simpa using hsl), List.getElem?_map,
        List.length_map, hsi, hp]
      simp only [Option.map_some, hhi, if_true, Option.some.injEq]
      omega

theorem mapM_some_iff {α β : Type} (f : α → Option β) (l : List α) (r : List β) :
    l.mapM f = some r ↔ List.Forall₂ (fun a b => f a = some b) l r := by
  induction l generalizing r with
  | nil => cases r <;> simp
  | cons a t ih =>
    rw [List.mapM_cons]
    cases hf : f a with
    | none =>
      simp only [Option.bind_eq_bind, Option.bind_none, reduceCtorEq, false_iff]
      intro h; cases h with | cons h1 h2 => rw [hf] at h1; cases h1
    | some b =>
      cases ht : t.mapM f with
      | none =>
        simp only [Option.bind_eq_bind, Option.bind_some, ht, Option.bind_none, reduceCtorEq, false_iff]
        intro h; cases h with | cons h1 h2 => rw [← ih, ht] at h2; cases h2
      | some t' =>
        simp only [Option.bind_eq_bind, Option.bind_some, ht, Option.pure_def, Option.some.injEq]
        constructor
        · rintro rfl; exact List.Forall₂.cons hf ((ih _).1 ht)
        · intro h
          cases h with
          | cons h1 h2 => rw [hf] at h1; cases h1; rw [← ih, ht] at h2; cases h2; rfl

theorem binCell_iff {dims : List (Dim K)} (h : ∀ d ∈ dims, Spec.Monotonic d.1) (p : Nat) (cell : List Nat) :
    binCell dims p = some cell ↔ Spec.InCell dims cell p := by
  unfold binCell Spec.InCell
  rw [mapM_some_iff]
  induction dims generalizing cell with
  | nil => simp
  | cons d t ih =>
    constructor
    · intro hf
      cases hf with
      | cons h1 h2 =>
        exact .cons ((binIndex_iff (h d (by simp)) _ _).1 h1) ((ih (fun d hd => h d (by simp [hd])) _).1 h2)
    · intro hf
      cases hf with
      | cons h1 h2 =>
        exact .cons ((binIndex_iff (h d (by simp)) _ _).2 h1) ((ih (fun d hd => h d (by simp [hd])) _).2 h2)

theorem binIndexData_foldl (dims : List (Dim K)) (l : List Nat) (init : List Nat → List Nat) (cell : List Nat) :
    l.foldl (binAdd dims) init cell =
    init cell ++ l.filter (fun p => decide (binCell dims p = some cell)) := by
  induction l generalizing init with
  | nil => simp
  | cons p t ih =>
    rw [List.foldl_cons, ih]
    unfold binAdd
    cases hb : binCell dims p with
    | none => simp [hb]
    | some c =>
      by_cases hc : cell = c
      · subst hc; simp [hb]
      · have : ¬ c = cell := fun h => hc h.symm
        simp [hb, hc, this]

/-! ### GridCellBinIndexInSlices, one coordinate -/

/-- The cell found by the slice index: the containing cell, except that the first cell of a decreasing coordinate is never
found. -/
def Found (c : Coord K) (i : Nat) (v : K) : Prop := Spec.InInterval c i v ∧ (c.decreasing = true → i ≠ 0)

theorem sliceIndex_iff {c : Coord K} (h : Spec.Monotonic c) (hc : Spec.Contiguous c) (v : K) (i : Nat) :
    (0 ≤ rawIndex c v ∧ fixIndex c (rawIndex c v) = (i : Int)) ↔ Found c i v := by
  have hs := lower_sorted h
  have hpos := h.pos
  have hsz := h.size
  unfold Found
  cases hd : c.decreasing
  · -- increasing
    obtain ⟨h1, h2⟩ := h.inc hd
    have hl : c.lower = c.bounds.map Prod.fst := by simp [Coord.lower, hd]
    obtain ⟨last, hlast⟩ : ∃ b, c.bounds.getLast? = some b :=
      ⟨_, List.getLast?_eq_some_getLast (List.ne_nil_of_length_pos hpos)⟩
    have hmx : c.maxBound = some last.2 := by simp [Coord.maxBound, hd, hlast]
    have hlast' : c.bounds[c.bounds.length - 1]? = some last := by rw [← hlast, List.getLast?_eq_getElem?]
    rw [hl] at hs
    simp only [rawIndex, fixIndex, hd, hmx, hl, Bool.false_eq_true, if_false, false_implies, and_true]
    constructor
    · rintro ⟨hge, heq⟩
      split at heq
      swap
      · rw [if_neg (by assumption)] at hge; omega
      rename_i hv
      obtain ⟨⟨b, hb, hbv⟩, hnext⟩ := (searchsortedRight_succ _ v hs i).1 (by omega)
      rw [List.getElem?_map, Option.map_eq_some_iff] at hb
      obtain ⟨p, hp, rfl⟩ := hb
      have hlt := h1 p (List.mem_of_getElem? hp)
      refine ⟨p, hp, by rw [min_eq_left hlt.le]; exact hbv, ?_⟩
      rw [max_eq_right hlt.le]
      have hi := (List.getElem?_eq_some_iff.1 hp).1
      by_cases hn : i + 1 < c.bounds.length
      · have hp' := List.getElem?_eq_getElem hn
        rw [hc i p _ hp hp']
        exact hnext _ (by simp [hn])
      · have : c.bounds.length - 1 = i := by omega
        rw [this, hp] at hlast'; cases hlast'; exact hv
    · rintro ⟨p, hp, hlo, hhi⟩
      have hlt := h1 p (List.mem_of_getElem? hp)
      rw [min_eq_left hlt.le] at hlo
      rw [max_eq_right hlt.le] at hhi
      have hi := (List.getElem?_eq_some_iff.1 hp)
      have hil : i < c.bounds.length := hi.1
      have hl' := (List.getElem?_eq_some_iff.1 hlast')
      have hv : v < last.2 := by
        by_cases he : i = c.bounds.length - 1
        · rw [← he, hp] at hlast'; cases hlast'; exact hhi
        · have := List.pairwise_iff_getElem.1 h2 i (c.bounds.length - 1) hi.1 hl'.1 (by omega)
          rw [hi.2, hl'.2] at this
          exact lt_of_lt_of_le hhi (this.trans (h1 last (List.mem_of_getElem? hlast')).le)
      have hss : searchsortedRight (c.bounds.map Prod.fst) v = i + 1 := by
        rw [searchsortedRight_succ _ v hs]
        refine ⟨⟨p.1, by simp [hp], hlo⟩, ?_⟩
        intro b hb
        rw [List.getElem?_map, Option.map_eq_some_iff] at hb
        obtain ⟨p', hp', rfl⟩ := hb
        rw [← hc i p p' hp hp']; exact hhi
      rw [if_pos hv, hss]; omega
  · -- decreasing
    obtain ⟨h1, h2⟩ := h.dec hd
    have hl : c.lower = (c.bounds.map Prod.snd).reverse := by simp [Coord.lower, hd]
    obtain ⟨top, htop⟩ : ∃ b, c.bounds.head? = some b := ⟨_, List.head?_eq_some_head (List.ne_nil_of_length_pos hpos)⟩
    have hmx : c.maxBound = some top.2 := by simp [Coord.maxBound, hd, htop]
    have htop' : c.bounds[0]? = some top := by rw [← htop, List.head?_eq_getElem?]
    rw [hl] at hs
    simp only [rawIndex, fixIndex, hd, hmx, hl, if_true, true_implies]
    constructor
    · rintro ⟨hge, heq⟩
      split at heq
      swap
      · rw [if_neg (by assumption)] at hge; omega
      rename_i hv
      rw [if_pos hv] at hge
      obtain ⟨s, hsdef⟩ : ∃ s, searchsortedRight (c.bounds.map Prod.snd).reverse v = s + 1 :=
        ⟨_, (Nat.succ_pred (by omega)).symm⟩
      obtain ⟨⟨b, hb, hbv⟩, hnext⟩ := (searchsortedRight_succ _ v hs s).1 hsdef
      have hsl : s < c.bounds.length := by simpa using (List.getElem?_eq_some_iff.1 hb).1
      rw [List.getElem?_reverse (by simpa using hsl), List.getElem?_map, Option.map_eq_some_iff, List.length_map] at hb
      obtain ⟨p, hp, rfl⟩ := hb
      have hlt := h1 p (List.mem_of_getElem? hp)
      have hidx : c.bounds.length - 1 - s = i := by omega
      rw [hidx] at hp
      have hi0 : i ≠ 0 := by
        rintro rfl
        rw [htop'] at hp; cases hp
        exact absurd hv (not_lt.2 hbv)
      refine ⟨⟨p, hp, by rw [min_eq_right hlt.le]; exact hbv, ?_⟩, hi0⟩
      rw [max_eq_left hlt.le]
      obtain ⟨i', rfl⟩ : ∃ i', i = i' + 1 := ⟨i - 1, by omega⟩
      have hi'l : i' < c.bounds.length := by omega
      have hp' := List.getElem?_eq_getElem hi'l
      rw [← hc i' _ p hp' hp]
      refine hnext _ ?_
      rw [List.getElem?_reverse (by rw [List.length_map]; omega), List.getElem?_map, List.length_map,
        show c.bounds.length - 1 - (s + 1) = i' by omega, hp']; rfl
    · rintro ⟨⟨p, hp, hlo, hhi⟩, hi0⟩
      have hlt := h1 p (List.mem_of_getElem? hp)
      rw [min_eq_right hlt.le] at hlo
      rw [max_eq_left hlt.le] at hhi
      have hi := (List.getElem?_eq_some_iff.1 hp)
      have hil : i < c.bounds.length := hi.1
      have ht := (List.getElem?_eq_some_iff.1 htop')
      have hv : v < top.2 := by
        have := List.pairwise_iff_getElem.1 h2 0 i ht.1 hi.1 (by omega)
        rw [hi.2, ht.2] at this
        exact lt_of_lt_of_le hhi this
      obtain ⟨s, hsdef⟩ : ∃ s, s = c.bounds.length - 1 - i := ⟨_, rfl⟩
      have hsl : s < c.bounds.length := by omega
      have hsi : c.bounds.length - 1 - s = i := by omega
      have hss : searchsortedRight (c.bounds.map Prod.snd).reverse v = s + 1 := by
        rw [searchsortedRight_succ _ v hs]
        refine ⟨⟨p.2, ?_, hlo⟩, ?_⟩
        · rw [List.getElem?_reverse (by simpa using hsl), List.getElem?_map, List.length_map, hsi, hp]; rfl
        · intro b hb
          have hsl' : s + 1 < c.bounds.length := by simpa using (List.getElem?_eq_some_iff.1 hb).1
          rw [List.getElem?_reverse (by simpa using hsl'), List.getElem?_map, Option.map_eq_some_iff, List.length_map] at hb
          obtain ⟨p', hp', rfl⟩ := hb
          have hi' := (List.getElem?_eq_some_iff.1 hp')
          have := List.pairwise_iff_getElem.1 h2 _ i hi'.1 hi.1 (by omega)
          rw [hi.2, hi'.2] at this
          exact lt_of_lt_of_le hhi this
      rw [if_pos hv, hss]; omega

end Cis.DataIndex
