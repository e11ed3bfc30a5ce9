import Verif.IndexIter.Lemmas
/-! Property C03: grid index iteration. -/
namespace Cis.IndexIter

/-- C03. The `n`-th tuple yielded is `idx` iff `idx` is a valid index for `shape` and `n` is its row-major position. In
particular every valid index is visited exactly once, and nothing else. -/
theorem c03_index_iterator_position (shape : List Nat) (n : Nat) (idx : List Nat) :
    (indexIterator shape)[n]? = some idx ↔ Spec.Valid shape idx ∧ Spec.position shape idx = n := by
  constructor
  · intro h
    have hn : n < Spec.cells shape := by
      rw [← length_indexIterator]; exact (List.getElem?_eq_some_iff.1 h).1
    obtain ⟨i, hi, hv, hp⟩ := getElem_indexIterator shape n hn
    rw [hi] at h; cases h; exact ⟨hv, hp⟩
  · rintro ⟨hv, hp⟩
    have hn : n < Spec.cells shape := hp ▸ position_lt hv
    obtain ⟨i, hi, hv', hp'⟩ := getElem_indexIterator shape n hn
    rw [hi, position_inj hv' hv (hp'.trans hp.symm)]

/-- C03. Membership, no repetition, lexicographic order and count. -/
theorem c03_index_iterator_lex (shape : List Nat) :
    (∀ idx, idx ∈ indexIterator shape ↔ Spec.Valid shape idx) ∧
    (indexIterator shape).Pairwise (· < ·) ∧
    (indexIterator shape).length = Spec.cells shape := by
  refine ⟨?_, ?_, length_indexIterator shape⟩
  · intro idx
    rw [List.mem_iff_getElem?]
    constructor
    · rintro ⟨n, h⟩; exact ((c03_index_iterator_position shape n idx).1 h).1
    · intro h; exact ⟨_, (c03_index_iterator_position shape _ idx).2 ⟨h, rfl⟩⟩
  · rw [List.pairwise_iff_getElem]
    intro i j hi hj hij
    have h1 := (c03_index_iterator_position shape i _).1 (List.getElem?_eq_getElem hi)
    have h2 := (c03_index_iterator_position shape j _).1 (List.getElem?_eq_getElem hj)
    rw [lex_iff_position h1.1 h2.1, h1.2, h2.2]; exact hij

/-- C03, masked variant, relative to what `nditer` reports: exactly the valid indices whose item is not reported as the
masked constant, still in lexicographic order. -/
theorem c03_non_masked_iterator (shape : List Nat) (isMasked : List Nat → Bool) :
    (∀ idx, idx ∈ nonMaskedIterator shape isMasked ↔ Spec.Valid shape idx ∧ isMasked idx = false) ∧
    (nonMaskedIterator shape isMasked).Pairwise (· < ·) := by
  obtain ⟨h1, h2, -⟩ := c03_index_iterator_lex shape
  constructor
  · intro idx; simp [nonMaskedIterator, h1]
  · exact h2.filter _

/-- C03 is violated by the masked variant: with numpy's contract for `nditer`, a masked index is still yielded. -/
theorem c03_masked_variant_violated :
    ∃ (shape : List Nat) (mask : List Nat → Bool),
      ¬ (∀ idx, idx ∈ indexIteratorForNonMaskedData shape mask ↔ Spec.Valid shape idx ∧ mask idx = false) := by
  refine ⟨[2], fun i => i == [1], ?_⟩
  intro h
  have := (h [1]).1 (by decide)
  exact absurd this.2 (by decide)

-- a concrete non-trivial shape
example : indexIterator [2, 3] = [[0,0],[0,1],[0,2],[1,0],[1,1],[1,2]] := by decide
example : Spec.Valid [2, 3] [1, 2] ∧ Spec.position [2, 3] [1, 2] = 5 := by
  refine ⟨?_, by decide⟩
  exact .cons (by decide) (.cons (by decide) .nil)

end Cis.IndexIter
