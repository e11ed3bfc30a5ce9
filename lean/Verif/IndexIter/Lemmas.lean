import Verif.IndexIter.Model
import Verif.IndexIter.Spec
import Mathlib.Data.List.Lex
import Mathlib.Data.List.Induction
import Mathlib.Tactic.Ring
import Mathlib.Algebra.BigOperators.Group.List.Basic
set_option linter.unusedSimpArgs false
namespace Cis.IndexIter
open Spec

theorem numIterations_eq (shape : List Nat) : numIterations shape = cells shape := by
  unfold numIterations cells; rw [List.prod_eq_foldl]

theorem length_loop (shape n idx) : (loop shape n idx).length = n := by
  induction n generalizing idx with
  | zero => rfl
  | succ n ih => simp [loop, ih]

theorem length_indexIterator (shape) : (indexIterator shape).length = cells shape := by
  unfold indexIterator; rw [length_loop, numIterations_eq]

theorem position_lt {shape idx} (h : Valid shape idx) : position shape idx < cells shape := by
  induction h with
  | nil => simp [position, cells]
  | cons h1 _ ih =>
    rename_i i d is ds _
    simp only [position, cells, List.prod_cons] at *
    calc i * ds.prod + position ds is < i * ds.prod + ds.prod := by omega
      _ = (i + 1) * ds.prod := by ring
      _ ≤ d * ds.prod := Nat.mul_le_mul_right _ h1

theorem lex_iff_position {shape a b} (ha : Valid shape a) (hb : Valid shape b) :
    a < b ↔ position shape a < position shape b := by
  induction ha generalizing b with
  | nil => cases hb; simp [position]
  | cons h1 h2 ih =>
    rename_i i d is ds
    cases hb with
    | cons h3 h4 =>
      rename_i j js
      have p1 := position_lt h2
      have p2 := position_lt h4
      rw [List.cons_lt_cons_iff, ih h4]
      simp only [position]
      constructor
      · rintro (h | ⟨rfl, h⟩)
        · calc i * cells ds + position ds is < (i + 1) * cells ds := by rw [Nat.succ_mul]; omega
            _ ≤ j * cells ds := Nat.mul_le_mul_right _ h
            _ ≤ _ := by omega
        · omega
      · intro h
        rcases Nat.lt_trichotomy i j with h' | h' | h'
        · exact Or.inl h'
        · subst h'; right; exact ⟨rfl, by omega⟩
        · exfalso
          have : (j + 1) * cells ds ≤ i * cells ds := Nat.mul_le_mul_right _ h'
          rw [Nat.succ_mul] at this; omega

theorem position_inj {shape a b} (ha : Valid shape a) (hb : Valid shape b)
    (h : position shape a = position shape b) : a = b := by
  rcases lt_trichotomy a b with h' | h' | h'
  · rw [lex_iff_position ha hb] at h'; omega
  · exact h'
  · rw [lex_iff_position hb ha] at h'; omega

theorem Valid.length {shape idx} (h : Valid shape idx) : idx.length = shape.length := List.Forall₂.length_eq h

/-- Only the first `j` entries matter to `bump _ j`. -/
theorem bump_append (sp ss ip is : List Nat) (j : Nat) (h : ip.length = sp.length) (hj : j ≤ ip.length) :
    bump (sp ++ ss) j (ip ++ is) = bump sp j ip ++ is := by
  induction j generalizing ip with
  | zero => rfl
  | succ j ih =>
    have h1 : j < ip.length := hj
    have h2 : j < sp.length := h ▸ h1
    simp only [bump]
    have e1 : (ip ++ is).getD j 0 = ip.getD j 0 := by simp [List.getD, List.getElem?_append_left h1]
    have e2 : (sp ++ ss).getD j 0 = sp.getD j 0 := by simp [List.getD, List.getElem?_append_left h2]
    have e3 : ∀ v, (ip ++ is).set j v = ip.set j v ++ is := fun v => List.set_append_left _ _ h1
    rw [e1, e2, e3]
    have e4 : (ip.set j (ip.getD j 0 + 1) ++ is).getD j 0 = (ip.set j (ip.getD j 0 + 1)).getD j 0 := by
      have : j < (ip.set j (ip.getD j 0 + 1)).length := by simpa using h1
      unfold List.getD at *
      rw [List.getElem?_append_left this]
    rw [e4]
    split
    · rfl
    · rw [List.set_append_left _ _ (by simpa using h1), ih]
      · simpa using h
      · simp; omega

theorem bump_snoc (sp ip : List Nat) (d x : Nat) (h : ip.length = sp.length) :
    bump (sp ++ [d]) (sp ++ [d]).length (ip ++ [x]) =
      if x + 1 < d then ip ++ [x + 1] else bump sp sp.length ip ++ [0] := by
  simp only [List.length_append, List.length_cons, List.length_nil, Nat.zero_add, bump]
  rw [← h]
  have e1 : (ip ++ [x]).getD ip.length 0 = x := by simp [List.getD]
  have e2 : (sp ++ [d]).getD ip.length 0 = d := by simp [List.getD, h]
  have e3 : (ip ++ [x]).set ip.length (x + 1) = ip ++ [x + 1] := by simp
  have e4 : (ip ++ [x + 1]).getD ip.length 0 = x + 1 := by simp [List.getD]
  rw [e1, e2, e3, e4]
  split
  · rfl
  · have : (ip ++ [x + 1]).set ip.length 0 = ip ++ [0] := by simp
    rw [this, bump_append _ _ _ _ _ h (Nat.le_refl _)]

theorem position_snoc (sp ip : List Nat) (d x : Nat) (h : ip.length = sp.length) :
    position (sp ++ [d]) (ip ++ [x]) = position sp ip * d + x := by
  induction sp generalizing ip with
  | nil =>
    have : ip = [] := by simpa using h
    subst this; simp [position, cells]
  | cons s sp ih =>
    cases ip with
    | nil => simp at h
    | cons i ip =>
      simp only [List.cons_append, position]
      rw [ih ip (by simpa using h)]
      simp only [cells, List.prod_append, List.prod_cons, List.prod_nil]
      ring

theorem valid_snoc {sp ip : List Nat} {d x : Nat} (hl : ip.length = sp.length) :
    Valid (sp ++ [d]) (ip ++ [x]) ↔ Valid sp ip ∧ x < d := by
  unfold Valid
  induction sp generalizing ip with
  | nil =>
    have : ip = [] := by simpa using hl
    subst this; simp
  | cons s sp ih =>
    cases ip with
    | nil => simp at hl
    | cons i ip =>
      simp only [List.cons_append, List.forall₂_cons]
      rw [ih (by simpa using hl)]; tauto

theorem bump_length (shape idx : List Nat) (j : Nat) : (bump shape j idx).length = idx.length := by
  induction j generalizing idx with
  | zero => rfl
  | succ j ih => simp only [bump]; split <;> simp [ih]

/-- One step of the odometer advances the position by one and stays valid (wrapping to 0 at the end). -/
theorem bump_spec (shape idx : List Nat) (h : Valid shape idx) :
    Valid shape (bump shape shape.length idx) ∧
    position shape (bump shape shape.length idx) =
      if position shape idx + 1 < cells shape then position shape idx + 1 else 0 := by
  induction shape using List.reverseRecOn generalizing idx with
  | nil => cases h; simp [bump, Valid, position, cells]
  | append_singleton sp d ih =>
    have hl := Valid.length h
    rcases List.eq_nil_or_concat' idx with rfl | ⟨ip, x, rfl⟩
    · simp at hl
    have hl' : ip.length = sp.length := by simpa using hl
    rw [valid_snoc hl'] at h
    obtain ⟨hv, hx⟩ := h
    obtain ⟨i1, i2⟩ := ih ip hv
    have hpl := position_lt hv
    have hc : cells (sp ++ [d]) = cells sp * d := by simp [cells]
    rw [bump_snoc _ _ _ _ hl', position_snoc _ _ _ _ hl', hc]
    have hle : (position sp ip + 1) * d ≤ cells sp * d := Nat.mul_le_mul_right _ hpl
    rw [Nat.succ_mul] at hle
    split
    · rename_i hlt
      rw [position_snoc _ _ _ _ hl', valid_snoc hl']
      refine ⟨⟨hv, hlt⟩, ?_⟩
      rw [if_pos (by omega)]; omega
    · rename_i hge
      have hbl : (bump sp sp.length ip).length = sp.length := by rw [bump_length, hl']
      rw [position_snoc _ _ _ _ hbl, valid_snoc hbl]
      refine ⟨⟨i1, by omega⟩, ?_⟩
      rw [i2]
      have hxd : x + 1 = d := by omega
      split
      · rename_i hlt
        have : (position sp ip + 1 + 1) * d ≤ cells sp * d := Nat.mul_le_mul_right _ hlt
        have e : (position sp ip + 1) * d = position sp ip * d + d := Nat.succ_mul _ _
        have e' : (position sp ip + 1 + 1) * d = position sp ip * d + d + d := by
          rw [Nat.succ_mul, Nat.succ_mul]
        rw [if_pos (by omega)]; omega
      · rename_i hge
        have : position sp ip + 1 = cells sp := by omega
        have e : (position sp ip + 1) * d = position sp ip * d + d := Nat.succ_mul _ _
        rw [this] at e
        rw [if_neg (by omega)]; omega

theorem loop_spec (shape : List Nat) (n : Nat) (idx : List Nat) (h : Valid shape idx)
    (hn : position shape idx + n ≤ cells shape) (m : Nat) (hm : m < n) :
    ∃ i, (loop shape n idx)[m]? = some i ∧ Valid shape i ∧ position shape i = position shape idx + m := by
  induction n generalizing idx m with
  | zero => omega
  | succ n ih =>
    cases m with
    | zero => exact ⟨idx, by simp [loop], h, by simp⟩
    | succ m =>
      obtain ⟨h1, h2⟩ := bump_spec shape idx h
      rw [if_pos (by omega)] at h2
      obtain ⟨i, e1, e2, e3⟩ := ih (bump shape shape.length idx) h1 (by omega) m (by omega)
      exact ⟨i, by simpa [loop] using e1, e2, by omega⟩

theorem position_zero (shape : List Nat) : position shape (List.replicate shape.length 0) = 0 := by
  induction shape with
  | nil => rfl
  | cons d ds ih => simp [List.replicate_succ, position, ih]

theorem valid_zero (shape : List Nat) (h : 0 < cells shape) : Valid shape (List.replicate shape.length 0) := by
  induction shape with
  | nil => simp [Valid]
  | cons d ds ih =>
    simp only [cells, List.prod_cons] at h
    simp only [List.length_cons, List.replicate_succ, Valid, List.forall₂_cons]
    exact ⟨Nat.pos_of_mul_pos_right h, ih (Nat.pos_of_mul_pos_left h)⟩

theorem getElem_indexIterator (shape : List Nat) (n : Nat) (hn : n < cells shape) :
    ∃ i, (indexIterator shape)[n]? = some i ∧ Valid shape i ∧ position shape i = n := by
  unfold indexIterator
  rw [numIterations_eq]
  have := loop_spec shape (cells shape) _ (valid_zero shape (by omega)) (by rw [position_zero]; omega) n hn
  rwa [position_zero, Nat.zero_add] at this

end Cis.IndexIter
