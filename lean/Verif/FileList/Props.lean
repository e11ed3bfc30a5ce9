import Verif.FileList.Lemmas
/-! Property C02: file list expansion. -/
namespace Cis.FileList
open Spec

/-- C02. The argument is cut into its elements `es`. If no element is invalid the call returns the distinct files, in order
of first occurrence, of the concatenation of the (sorted) expansions of the elements; if some element is invalid the call
raises ValueError naming an invalid element. (The two cases are exhaustive and exclusive.) -/
theorem c02_expand_filelist (fs : FS) (a : Arg) :
    ∃ es, Elements a es ∧
      ((∀ e ∈ es, ¬ Invalid fs e) →
        ∃ xss l, List.Forall₂ (Expands fs) es xss ∧ expandFilelist fs a = .ok (some l) ∧
          FirstOccurrences l xss.flatten) ∧
      ((∃ e ∈ es, Invalid fs e) → ∃ e ∈ es, Invalid fs e ∧ expandFilelist fs a = .error e) := by
  refine ⟨inputList a, inputList_spec a, ?_, ?_⟩
  · intro hv
    obtain ⟨xss, h1, h2⟩ := expandLoop_ok fs _ hv
    obtain ⟨as, r⟩ := rep_addAll (OrderedSet.rep_init (α := Str)) xss.flatten
    refine ⟨xss, _, h1, ?_, addAbs_first [] [] xss.flatten ⟨by simp, by simp, by simp⟩⟩
    simp only [expandFilelist, h2]
    rw [r.iter]
  · intro hv
    obtain ⟨e, he, hi, hx⟩ := expandLoop_error fs _ hv OrderedSet.init
    exact ⟨e, he, hi, by simp [expandFilelist, hx]⟩

/-- The expansion of an element is unique (so the specification determines the result). -/
theorem c02_expands_unique (fs : FS) (e : Str) (xs ys : List Str) (hx : Expands fs e xs) (hy : Expands fs e ys) :
    xs = ys := by
  have key : ∀ l l1 l2 : List Str, SortedOf l1 l → SortedOf l2 l → l1 = l2 := by
    intro l l1 l2 h1 h2
    exact (h1.2.trans h2.2.symm).eq_of_pairwise (fun a b _ _ h h' => le_antisymm h h') h1.1 h2.1
  cases hx with
  | pattern xs hp hs =>
    cases hy with
    | pattern _ _ hs' => exact key _ _ _ hs hs'
    | dir _ hp' => exact absurd hp hp'
    | file hp' => exact absurd hp hp'
  | dir ns hp hd hs =>
    cases hy with
    | pattern _ hp' => exact absurd hp' hp
    | dir ns' _ _ hs' => rw [key _ _ _ hs hs']
    | file _ hd' => rw [hd] at hd'; exact absurd hd' (by simp)
  | file hp hd hf =>
    cases hy with
    | pattern _ hp' => exact absurd hp' hp
    | dir _ _ hd' => rw [hd] at hd'; exact absurd hd' (by simp)
    | file => rfl

/-- A small file system used as witness: directory `d` with files `b`, `a` and sub-directory `c`. -/
def demoFS : FS where
  glob := fun _ => [['d', '/', 'b'], ['d', '/', 'a']]
  isdir := fun s => s == ['d']
  listdir := fun _ => [['b'], ['c'], ['a']]
  join := fun a b => a ++ '/' :: b
  isfile := fun s => s == ['d', '/', 'a'] || s == ['d', '/', 'b']

-- both branches of c02 are inhabited: one valid mixed argument, one with an invalid element
example : expandFilelist demoFS (.str ['d', '/', 'b', ',', 'd', ',', '*']) = .ok (some [['d', '/', 'b'], ['d', '/', 'a']]) := by decide +kernel
example : expandFilelist demoFS (.list [['d', '/', 'b'], ['x']]) = .error ['x'] := by decide +kernel
example : Invalid demoFS ['x'] := by unfold Invalid IsPattern; decide

end Cis.FileList
