import Verif.FileList.Spec
import Verif.OrderedSet.Lemmas
import Mathlib.Data.List.Sort
import Mathlib.Data.List.Basic
import Mathlib.Data.Char
set_option linter.unusedSectionVars false
set_option linter.unusedSimpArgs false
namespace Cis.FileList
open Spec

/-- Abstract counterpart of repeated `add`. -/
def addAbs (l : List Str) (x : Str) : List Str := if x ∈ l then l else l ++ [x]

theorem rep_addAll {s : OrderedSet.St Str} {as l} (r : OrderedSet.Rep s as l) (xs : List Str) :
    ∃ as', OrderedSet.Rep (addAll s xs) as' (xs.foldl addAbs l) := by
  induction xs generalizing s as l with
  | nil => exact ⟨as, r⟩
  | cons x t ih =>
    obtain ⟨as', r'⟩ := OrderedSet.rep_add r x
    refine ih (as := as') ?_
    unfold addAbs
    by_cases h : x ∈ l
    · simpa [h] using r'
    · simpa [h] using r'

theorem foldl_filter_add (fs : FS) (e : Str) (s : OrderedSet.St Str) (ns : List Str) :
    ns.foldl (fun s f => let full := fs.join e f; if fs.isfile full then OrderedSet.add s full else s) s
      = addAll s ((ns.map (fs.join e)).filter (fs.isfile ·)) := by
  induction ns generalizing s with
  | nil => rfl
  | cons n t ih =>
    simp only [List.foldl_cons, List.map_cons, List.filter_cons]
    rw [ih]
    split <;> simp [addAll]

theorem hasWildcard_iff (e : Str) : hasWildcard e = true ↔ IsPattern e := by
  simp [hasWildcard, IsPattern]

theorem sortStrs_sorted (l : List Str) : SortedOf (sortStrs l) l := by
  constructor
  · exact List.pairwise_insertionSort _ l
  · exact List.perm_insertionSort _ l

theorem expandElement_spec (fs : FS) (e : Str) :
    (Invalid fs e ∧ ∀ s, expandElement fs s e = .error e) ∨
    (∃ xs, Expands fs e xs ∧ ¬ Invalid fs e ∧ ∀ s, expandElement fs s e = .ok (addAll s xs)) := by
  unfold expandElement
  by_cases hw : hasWildcard e = true
  · right
    refine ⟨sortStrs (fs.glob e), .pattern _ ((hasWildcard_iff e).1 hw) (sortStrs_sorted _), ?_, ?_⟩
    · intro h; exact h.1 ((hasWildcard_iff e).1 hw)
    · intro s; simp [hw]
  · have hw' : ¬ IsPattern e := fun h => hw ((hasWildcard_iff e).2 h)
    by_cases hd : fs.isdir e = true
    · right
      refine ⟨_, .dir (sortStrs (fs.listdir e)) hw' hd (sortStrs_sorted _), ?_, ?_⟩
      · intro h; rw [h.2.1] at hd; exact absurd hd (by simp)
      · intro s; simp only [hw, hd, if_true]
        rw [foldl_filter_add]; simp
    · by_cases hf : fs.isfile e = true
      · right
        refine ⟨[e], .file hw' (by simpa using hd) hf, ?_, ?_⟩
        · intro h; rw [h.2.2] at hf; exact absurd hf (by simp)
        · intro s; simp [hw, hd, hf, addAll]
      · left
        refine ⟨⟨hw', by simpa using hd, by simpa using hf⟩, ?_⟩
        intro s; simp [hw, hd, hf]

theorem expandLoop_ok (fs : FS) (es : List Str) (hv : ∀ e ∈ es, ¬ Invalid fs e) :
    ∃ xss, List.Forall₂ (Expands fs) es xss ∧ ∀ s, expandLoop fs s es = .ok (addAll s xss.flatten) := by
  induction es with
  | nil => exact ⟨[], .nil, fun s => rfl⟩
  | cons e t ih =>
    obtain ⟨xss, h1, h2⟩ := ih (fun x hx => hv x (by simp [hx]))
    rcases expandElement_spec fs e with h | ⟨xs, hx, -, hs⟩
    · exact absurd h.1 (hv e (by simp))
    · refine ⟨xs :: xss, .cons hx h1, ?_⟩
      intro s; simp only [expandLoop, hs, h2, List.flatten_cons, addAll, List.foldl_append]

theorem expandLoop_error (fs : FS) (es : List Str) (hv : ∃ e ∈ es, Invalid fs e) (s) :
    ∃ e ∈ es, Invalid fs e ∧ expandLoop fs s es = .error e := by
  induction es generalizing s with
  | nil => obtain ⟨e, he, -⟩ := hv; simp at he
  | cons e t ih =>
    rcases expandElement_spec fs e with h | ⟨xs, hx, hni, hs⟩
    · exact ⟨e, by simp, h.1, by simp [expandLoop, h.2]⟩
    · obtain ⟨x, hx, hi⟩ := hv
      have : x ∈ t := by
        rcases List.mem_cons.1 hx with rfl | h
        · exact absurd hi hni
        · exact h
      obtain ⟨y, hy, hi', he⟩ := ih ⟨x, this, hi⟩ (addAll s xs)
      exact ⟨y, by simp [hy], hi', by simp [expandLoop, hs, he]⟩

theorem addAbs_first (pre l xs : List Str) (h : FirstOccurrences l pre) :
    FirstOccurrences (xs.foldl addAbs l) (pre ++ xs) := by
  induction xs generalizing pre l with
  | nil => simpa using h
  | cons x t ih =>
    have : FirstOccurrences (addAbs l x) (pre ++ [x]) := by
      obtain ⟨h1, h2, h3⟩ := h
      unfold addAbs
      have hidx : ∀ a ∈ l, (pre ++ [x]).idxOf a = pre.idxOf a := by
        intro a ha; exact List.idxOf_append_of_mem ((h2 a).1 ha)
      split
      · rename_i hx
        refine ⟨h1, ?_, ?_⟩
        · intro y; simp only [List.mem_append, List.mem_singleton]
          constructor
          · intro hy; left; exact (h2 y).1 hy
          · rintro (hy | hy)
            · exact (h2 y).2 hy
            · rw [hy]; exact hx
        · refine h3.imp_of_mem ?_
          intro a b ha hb hab; rw [hidx a ha, hidx b hb]; exact hab
      · rename_i hx
        refine ⟨?_, ?_, ?_⟩
        · rw [List.nodup_append]; refine ⟨h1, by simp, ?_⟩
          intro a ha b hb; simp at hb; rw [hb]; exact fun h => hx (h ▸ ha)
        · intro y; simp [h2 y]
        · rw [List.pairwise_append]
          refine ⟨?_, by simp, ?_⟩
          · refine h3.imp_of_mem ?_
            intro a b ha hb hab; rw [hidx a ha, hidx b hb]; exact hab
          · intro a ha b hb
            simp at hb; subst hb
            rw [hidx a ha, List.idxOf_append_of_notMem (fun h => hx ((h2 b).2 h))]
            have := List.idxOf_lt_length_of_mem ((h2 a).1 ha)
            simp; exact this
    have := ih (pre ++ [x]) _ this
    simpa using this

theorem splitComma_ne_nil (s : Str) : splitComma s ≠ [] := by
  cases s with
  | nil => simp [splitComma]
  | cons c t => simp only [splitComma]; split
                · simp
                · split <;> simp

theorem splitComma_spec (s : Str) : Elements (.str s) (splitComma s) := by
  refine ⟨splitComma_ne_nil s, ?_, ?_⟩
  · induction s with
    | nil => simp [splitComma]
    | cons c t ih =>
      intro e he
      simp only [splitComma] at he
      split at he
      · rcases List.mem_cons.1 he with rfl | h
        · simp
        · exact ih e h
      · rename_i hc
        split at he
        · simp at he; subst he; simp; exact fun h => hc h.symm
        · rename_i h r heq
          rcases List.mem_cons.1 he with rfl | h'
          · simp only [List.mem_cons, not_or]; exact ⟨fun h => hc h.symm, ih h (by rw [heq]; simp)⟩
          · exact ih e (by rw [heq]; simp [h'])
  · induction s with
    | nil => simp [splitComma]
    | cons c t ih =>
      simp only [splitComma]
      split
      · rename_i hc
        cases h : splitComma t with
        | nil => exact absurd h (splitComma_ne_nil t)
        | cons a b => rw [h] at ih; simp [List.intercalate_cons_cons, ih, hc]
      · split
        · rename_i heq; exact absurd heq (splitComma_ne_nil t)
        · rename_i h r heq
          rw [heq] at ih
          cases r with
          | nil => simp at ih ⊢; exact ih
          | cons a b => simp only [List.intercalate_cons_cons] at ih ⊢; simp [← ih]

theorem inputList_spec (a : Arg) : Elements a (inputList a) := by
  cases a with
  | str s => exact splitComma_spec s
  | list l => rfl

end Cis.FileList
