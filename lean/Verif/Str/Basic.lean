import Mathlib.Data.List.Basic
import Mathlib.Algebra.Order.Group.Unbundled.Basic
set_option linter.unusedSectionVars false
set_option linter.unusedSimpArgs false
/-!
Python string operations used by the command line parsing of CIS: a string is a list of characters. Library behaviour
(`str.split`, `str.join`, `int`), restricted to ASCII digits and white space.
-/
namespace Cis.Str

abbrev Str := List Char

/-- `s.split(c)` for a one-character separator. -/
def splitChar (c : Char) : Str → List Str
  | [] => [[]]
  | x :: t => if x = c then [] :: splitChar c t else match splitChar c t with
    | [] => [[x]]
    | f :: fs => (x :: f) :: fs

/-- `c.join(fields)`. -/
def join (c : Char) : List Str → Str
  | [] => []
  | [f] => f
  | f :: fs => f ++ c :: join c fs

theorem splitChar_ne_nil (c : Char) (s : Str) : splitChar c s ≠ [] := by
  cases s with
  | nil => simp [splitChar]
  | cons x t => simp only [splitChar]; split
                · simp
                · split <;> simp

theorem splitChar_cons (c x : Char) (t : Str) (h : x ≠ c) : ∃ f fs, splitChar c t = f :: fs ∧ splitChar c (x :: t) = (x :: f) :: fs := by
  cases hs : splitChar c t with
  | nil => exact absurd hs (splitChar_ne_nil c t)
  | cons f fs => exact ⟨f, fs, rfl, by simp [splitChar, h, hs]⟩

/-- Joining the pieces gives the string back. -/
theorem join_splitChar (c : Char) (s : Str) : join c (splitChar c s) = s := by
  induction s with
  | nil => rfl
  | cons x t ih =>
    by_cases h : x = c
    · subst h
      simp only [splitChar, if_true]
      cases hs : splitChar x t with
      | nil => exact absurd hs (splitChar_ne_nil _ _)
      | cons f fs => rw [hs] at ih; simp [join, ih]
    · obtain ⟨f, fs, h1, h2⟩ := splitChar_cons c x t h
      rw [h2]
      rw [h1] at ih
      cases fs with
      | nil => simp [join] at ih ⊢; exact ih
      | cons g gs => simp [join] at ih ⊢; exact ih

/-- No piece contains the separator. -/
theorem splitChar_not_mem (c : Char) (s : Str) : ∀ f ∈ splitChar c s, c ∉ f := by
  induction s with
  | nil => simp [splitChar]
  | cons x t ih =>
    by_cases h : x = c
    · subst h
      simp only [splitChar, if_true, List.mem_cons]
      rintro f (rfl | hf)
      · simp
      · exact ih f hf
    · obtain ⟨f, fs, h1, h2⟩ := splitChar_cons c x t h
      rw [h2]; rw [h1] at ih
      intro g hg
      rcases List.mem_cons.1 hg with rfl | hg
      · have := ih f (by simp)
        simp only [List.mem_cons, not_or]; exact ⟨fun e => h e.symm, this⟩
      · exact ih g (by simp [hg])

theorem splitChar_append (c : Char) (f s : Str) (h : c ∉ f) : splitChar c (f ++ c :: s) = f :: splitChar c s := by
  induction f with
  | nil => simp [splitChar]
  | cons x t ih =>
    simp only [List.mem_cons, not_or] at h
    have h' : x ≠ c := fun e => h.1 e.symm
    obtain ⟨g, gs, h1, h2⟩ := splitChar_cons c x (t ++ c :: s) h'
    rw [List.cons_append, h2]
    rw [ih h.2] at h1
    simp only [List.cons.injEq] at h1
    rw [h1.1, h1.2]

theorem splitChar_single (c : Char) (f : Str) (h : c ∉ f) : splitChar c f = [f] := by
  induction f with
  | nil => rfl
  | cons x t ih =>
    simp only [List.mem_cons, not_or] at h
    obtain ⟨g, gs, h1, h2⟩ := splitChar_cons c x t (fun e => h.1 e.symm)
    rw [h2]; rw [ih h.2] at h1
    simp only [List.cons.injEq] at h1
    rw [← h1.1, ← h1.2]

/-- Splitting a joined list of fields free of the separator gives the fields back. -/
theorem splitChar_join (c : Char) (fs : List Str) (hne : fs ≠ []) (h : ∀ f ∈ fs, c ∉ f) : splitChar c (join c fs) = fs := by
  induction fs with
  | nil => exact absurd rfl hne
  | cons f t ih =>
    cases t with
    | nil => exact splitChar_single c f (h f (by simp))
    | cons g gs =>
      show splitChar c (f ++ c :: join c (g :: gs)) = _
      rw [splitChar_append c f _ (h f (by simp)), ih (by simp) (fun x hx => h x (by simp [hx]))]

/-! ### `int` -/

/-- ASCII white space stripped by `int`, `float` and `str.strip`. -/
def isSpace (c : Char) : Bool := c = ' ' || c = '\t' || c = '\n' || c = '\r' || c.toNat = 11 || c.toNat = 12

/-- `s.strip()`. -/
def strip (s : Str) : Str := ((s.dropWhile isSpace).reverse.dropWhile isSpace).reverse

/-- The digits of an `int`, single underscores allowed between digits; `prev` says whether the last character was a digit. -/
def intDigits : Str → Bool → Nat → Option Nat
  | [], prev, acc => if prev then some acc else none
  | c :: t, prev, acc =>
    if c.isDigit then intDigits t true (10 * acc + (c.toNat - 48))
    else if c = '_' && prev then intDigits t false acc
    else none

/-- `int(s)`; `none` is ValueError. -/
def pyInt (s : Str) : Option Int :=
  match strip s with
  | '+' :: r => (intDigits r false 0).map (fun n => (n : Int))
  | '-' :: r => (intDigits r false 0).map (fun n => -(n : Int))
  | r => (intDigits r false 0).map (fun n => (n : Int))

/-- A non-empty string of digits. -/
def IsNumeral (s : Str) : Prop := s ≠ [] ∧ ∀ c ∈ s, c.isDigit

/-- The number a string of digits denotes, in decimal. -/
def value (s : Str) : Nat := s.foldl (fun a c => 10 * a + (c.toNat - 48)) 0

theorem intDigits_numeral (s : Str) (h : ∀ c ∈ s, c.isDigit) : ∀ prev acc, (s ≠ [] ∨ prev = true) →
    intDigits s prev acc = some (s.foldl (fun a c => 10 * a + (c.toNat - 48)) acc) := by
  induction s with
  | nil => intro prev acc hp; simp at hp; simp [intDigits, hp]
  | cons c t ih =>
    intro prev acc _
    simp only [intDigits, h c (by simp), if_true, List.foldl_cons]
    exact ih (fun d hd => h d (by simp [hd])) true _ (Or.inr rfl)

theorem digit_not_space {c : Char} (h : c.isDigit = true) : isSpace c = false := by
  unfold Char.isDigit at h
  unfold isSpace
  simp only [Bool.and_eq_true, decide_eq_true_eq, ge_iff_le] at h
  have h1 : 48 ≤ c.toNat := by simpa using UInt32.le_iff_toNat_le.1 h.1
  have : ∀ d : Char, d.toNat < 48 → c ≠ d := by
    rintro d hd rfl; omega
  simp only [Bool.or_eq_false_iff, decide_eq_false_iff_not]
  refine ⟨⟨⟨⟨⟨?_, ?_⟩, ?_⟩, ?_⟩, ?_⟩, ?_⟩
  · exact this ' ' (by decide)
  · exact this '\t' (by decide)
  · exact this '\n' (by decide)
  · exact this '\r' (by decide)
  · omega
  · omega

theorem strip_of_ends {s : Str} (h : ∀ c ∈ s, isSpace c = false) : strip s = s := by
  unfold strip
  have h1 : s.dropWhile isSpace = s := by
    cases s with
    | nil => rfl
    | cons a t => rw [List.dropWhile_cons_of_neg (by simp [h a])]
  rw [h1]
  have h2 : s.reverse.dropWhile isSpace = s.reverse := by
    cases hr : s.reverse with
    | nil => rfl
    | cons a t =>
      have : a ∈ s := by rw [← List.mem_reverse, hr]; simp
      rw [List.dropWhile_cons_of_neg (by simp [h a this])]
  rw [h2, List.reverse_reverse]

theorem pyInt_numeral {s : Str} (h : IsNumeral s) : pyInt s = some (value s : Int) := by
  unfold pyInt
  rw [strip_of_ends (fun c hc => digit_not_space (h.2 c hc))]
  have := intDigits_numeral s h.2 false 0 (Or.inl h.1)
  split
  · rename_i r; have := h.2 '+' (by simp); simp at this
  · rename_i r; have := h.2 '-' (by simp); simp at this
  · rw [this]; rfl

/-- `value` is the inverse of writing a number in decimal. -/
theorem value_toDigits (n : Nat) : value (Nat.toDigits 10 n) = n := by
  induction n using Nat.strong_induction_on with
  | _ n ih =>
    rw [Nat.toDigits_eq_if (by omega)]
    split
    · rename_i h
      unfold value
      simp [Nat.toNat_digitChar_sub_48_of_lt_ten h]
    · rename_i h
      have := ih (n / 10) (by omega)
      unfold value at this ⊢
      rw [List.foldl_append, this]
      simp only [List.foldl_cons, List.foldl_nil]
      rw [Nat.toNat_digitChar_sub_48_of_lt_ten (by omega)]
      omega

theorem numeral_toDigits (n : Nat) : IsNumeral (Nat.toDigits 10 n) :=
  ⟨Nat.toDigits_ne_nil, fun _ hc => Nat.isDigit_of_mem_toDigits (by omega) (by omega) hc⟩

end Cis.Str
