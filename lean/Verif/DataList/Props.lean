import Verif.DataList.Model
import Mathlib.Data.List.Zip
import Mathlib.Data.List.Induction
set_option linter.unusedSectionVars false
set_option linter.unusedSimpArgs false
/-! Properties C46 (lists of data stay homogeneous) and C54 (history is append-only). -/
namespace Cis.DataList
variable {K : Type}

/-- Two shapes agree as far as both go. -/
def Spec.Agree (s t : List Nat) : Prop := ∀ (i a b : Nat), s[i]? = some a → t[i]? = some b → a = b

/-- The number of coordinates is the same and the shapes of corresponding coordinates agree. -/
def Spec.Compatible (x y : Obj K) : Prop :=
  x.coords.length = y.coords.length ∧
    ∀ (i : Nat) (c d : Crd K), x.coords[i]? = some c → y.coords[i]? = some d → Spec.Agree c.shape d.shape

theorem shapesClash_iff (s t : List Nat) : shapesClash s t = false ↔ Spec.Agree s t := by
  unfold shapesClash Spec.Agree
  rw [List.any_eq_false]
  constructor
  · intro h i a b ha hb
    have : (a, b) ∈ s.zip t := by
      apply List.mem_of_getElem? (i := i)
      rw [List.getElem?_zip_eq_some]; exact ⟨ha, hb⟩
    simpa using h _ this
  · rintro h ⟨a, b⟩ hab
    obtain ⟨i, hi⟩ := List.mem_iff_getElem?.1 hab
    rw [List.getElem?_zip_eq_some] at hi
    simpa using h i a b hi.1 hi.2

theorem compat_iff (y x : Obj K) (hl : y.coords.length = x.coords.length) :
    (y.coords.zip x.coords).any (fun c => shapesClash c.1.shape c.2.shape) = false ↔ Spec.Compatible y x := by
  rw [List.any_eq_false]
  constructor
  · intro h
    refine ⟨hl, ?_⟩
    intro i c d hc hd
    have : (c, d) ∈ y.coords.zip x.coords := by
      apply List.mem_of_getElem? (i := i)
      rw [List.getElem?_zip_eq_some]; exact ⟨hc, hd⟩
    have := h _ this
    simp only [Bool.not_eq_true] at this
    exact (shapesClash_iff _ _).1 this
  · rintro ⟨-, h⟩ ⟨c, d⟩ hcd
    obtain ⟨i, hi⟩ := List.mem_iff_getElem?.1 hcd
    rw [List.getElem?_zip_eq_some] at hi
    have := (shapesClash_iff _ _).2 (h i c d hi.1 hi.2)
    simp [this]

open Classical in
/-- C46. Exactly when appending succeeds: the object is of the kind of the list and (unless the list is empty) has as many coordinates
as the first element, with agreeing shapes; it is then added at the end. The wrong kind raises TypeError, everything else
ValueError. -/
theorem c46_append (kind : Bool) (l : List (Obj K)) (x : Obj K) :
    append kind l x =
      if x.gridded ≠ some kind then .error .typeError
      else if ∀ y, l.head? = some y → Spec.Compatible y x then .ok (l ++ [x]) else .error .valueError := by
  unfold append
  split
  · rfl
  · cases l with
    | nil => simp
    | cons y t =>
      simp only [List.head?_cons, Option.some.injEq, forall_eq']
      by_cases hl : y.coords.length = x.coords.length
      · rw [if_neg (by simpa using hl)]
        cases hc : (y.coords.zip x.coords).any (fun c => shapesClash c.1.shape c.2.shape) with
        | false => rw [if_neg (by simp), if_pos ((compat_iff y x hl).1 hc)]
        | true =>
          rw [if_pos rfl, if_neg]
          intro h
          rw [(compat_iff y x hl).2 h] at hc
          cases hc
      · rw [if_pos (by simpa using hl), if_neg]
        intro h; exact hl h.1

/-- The invariant: all elements are of the kind of the list and compatible with the first. -/
def Spec.Homogeneous (kind : Bool) (l : List (Obj K)) : Prop :=
  (∀ x ∈ l, x.gridded = some kind) ∧ ∀ y, l.head? = some y → ∀ x ∈ l, Spec.Compatible y x

theorem compatible_refl (x : Obj K) : Spec.Compatible x x := by
  refine ⟨rfl, ?_⟩
  intro i c d hc hd
  rw [hc] at hd; cases hd
  intro j a b ha hb
  rw [ha] at hb; cases hb; rfl

theorem append_homogeneous (kind : Bool) (l l' : List (Obj K)) (x : Obj K) (h : Spec.Homogeneous kind l)
    (ha : append kind l x = .ok l') : Spec.Homogeneous kind l' := by
  rw [c46_append] at ha
  split at ha
  · cases ha
  · rename_i hk
    split at ha
    · rename_i hc
      cases ha
      simp only [ne_eq, not_not] at hk
      constructor
      · intro z hz
        rw [List.mem_append, List.mem_singleton] at hz
        rcases hz with hz | rfl
        · exact h.1 z hz
        · exact hk
      · intro y hy z hz
        rw [List.mem_append, List.mem_singleton] at hz
        cases l with
        | nil =>
          simp at hy hz; subst hy; subst hz; exact compatible_refl _
        | cons w t =>
          simp only [List.cons_append, List.head?_cons, Option.some.injEq] at hy
          subst hy
          rcases hz with hz | rfl
          · exact h.2 w rfl z hz
          · exact hc w rfl
    · cases ha

theorem extend_homogeneous (kind : Bool) (xs l : List (Obj K)) (h : Spec.Homogeneous kind l) :
    Spec.Homogeneous kind (extend kind l xs).1 := by
  induction xs generalizing l with
  | nil => exact h
  | cons x xs ih =>
    rw [extend]
    cases ha : append kind l x with
    | ok l' => exact ih l' (append_homogeneous kind l l' x h ha)
    | error e => exact h

/-- C46. Whatever is appended or extended by, and whatever of it fails, all elements are of the kind of the list, have the same number
of coordinates as the first, and the shapes of their coordinates agree with those of the first as far as both go. -/
theorem c46_homogeneous (kind : Bool) (ops : List (Op K)) : Spec.Homogeneous kind (run kind ops) := by
  have : ∀ (ops : List (Op K)) (l : List (Obj K)), Spec.Homogeneous kind l → Spec.Homogeneous kind (ops.foldl (step kind) l) := by
    intro ops
    induction ops with
    | nil => intro l h; exact h
    | cons op ops ih =>
      intro l h
      rw [List.foldl_cons]
      apply ih
      cases op with
      | append x =>
        rw [step]
        cases ha : append kind l x with
        | ok l' => exact append_homogeneous kind l l' x h ha
        | error e => exact h
      | extend xs => exact extend_homogeneous kind xs l h
  exact this ops [] ⟨by simp, by simp⟩

/-- C46. If corresponding coordinates have the same number of dimensions as those of the first element, their shapes are equal. -/
theorem c46_equal_shapes (kind : Bool) (ops : List (Op K)) (y x : Obj K) (hy : (run kind ops).head? = some y)
    (hx : x ∈ run kind ops)
    (hd : ∀ (i : Nat) (c d : Crd K), y.coords[i]? = some c → x.coords[i]? = some d → c.shape.length = d.shape.length) :
    y.coords.map Crd.shape = x.coords.map Crd.shape := by
  obtain ⟨h1, h2⟩ := (c46_homogeneous kind ops).2 y hy x hx
  apply List.ext_getElem?
  intro i
  rw [List.getElem?_map, List.getElem?_map]
  by_cases hi : i < y.coords.length
  · have hi' : i < x.coords.length := h1 ▸ hi
    rw [List.getElem?_eq_getElem hi, List.getElem?_eq_getElem hi', Option.map_some, Option.map_some]
    congr 1
    have hl := hd i _ _ (List.getElem?_eq_getElem hi) (List.getElem?_eq_getElem hi')
    have ha := h2 i _ _ (List.getElem?_eq_getElem hi) (List.getElem?_eq_getElem hi')
    apply List.ext_getElem hl
    intro n hn hn'
    exact ha n _ _ (List.getElem?_eq_getElem hn) (List.getElem?_eq_getElem hn')
  · rw [List.getElem?_eq_none (by omega), List.getElem?_eq_none (by omega)]

/-- C46 is violated: coordinates of different dimensionality count as compatible. -/
theorem c46_shapes_violated :
    ∃ (ops : List (Op ℕ)) (x y : Obj ℕ), x ∈ run false ops ∧ y ∈ run false ops ∧
      x.coords.map Crd.shape = [[2]] ∧ y.coords.map Crd.shape = [[2, 3]] :=
  ⟨[.append ⟨some false, [⟨[2], [5, 6]⟩]⟩, .append ⟨some false, [⟨[2, 3], [1, 2, 3, 4, 5, 6]⟩]⟩],
    ⟨some false, [⟨[2], [5, 6]⟩]⟩, ⟨some false, [⟨[2, 3], [1, 2, 3, 4, 5, 6]⟩]⟩, by decide, by decide, rfl, rfl⟩

/-- C46 is violated: coordinate values are not compared, although "all objects must have the same coordinates and coordinate
values". -/
theorem c46_values_violated :
    ∃ (ops : List (Op ℕ)) (x y : Obj ℕ), x ∈ run false ops ∧ y ∈ run false ops ∧
      x.coords.map Crd.points = [[5, 6]] ∧ y.coords.map Crd.points = [[7, 8]] :=
  ⟨[.append ⟨some false, [⟨[2], [5, 6]⟩]⟩, .append ⟨some false, [⟨[2], [7, 8]⟩]⟩],
    ⟨some false, [⟨[2], [5, 6]⟩]⟩, ⟨some false, [⟨[2], [7, 8]⟩]⟩, by decide, by decide, rfl, rfl⟩

/-- C46 is violated: a failed `extend` leaves the objects before the failing one in the list. -/
theorem c46_extend_violated :
    ∃ (l xs : List (Obj ℕ)), (extend false l xs).2 = some .typeError ∧ (extend false l xs).1 ≠ l :=
  ⟨[], [⟨some false, []⟩, ⟨some true, []⟩], by decide, by decide⟩

/-- C46. What a failed `extend` leaves: the list with exactly the objects before the first that cannot be appended. -/
theorem c46_extend_prefix (kind : Bool) (l xs : List (Obj K)) :
    ∃ n, (extend kind l xs).1 = l ++ xs.take n ∧ ((extend kind l xs).2 = none → n = xs.length) ∧
      (∀ e, (extend kind l xs).2 = some e → ∃ x, xs[n]? = some x ∧ append kind (l ++ xs.take n) x = .error e) := by
  induction xs generalizing l with
  | nil => exact ⟨0, by simp [extend], by simp, by simp [extend]⟩
  | cons x xs ih =>
    rw [extend]
    cases ha : append kind l x with
    | error e =>
      refine ⟨0, by simp, by simp, ?_⟩
      intro e' he
      simp only [Option.some.injEq] at he
      subst he
      exact ⟨x, rfl, by simpa using ha⟩
    | ok l' =>
      have hl' : l' = l ++ [x] := by
        rw [c46_append] at ha
        split at ha
        · cases ha
        · split at ha
          · cases ha; rfl
          · cases ha
      subst hl'
      obtain ⟨n, h1, h2, h3⟩ := ih (l ++ [x])
      refine ⟨n + 1, ?_, ?_, ?_⟩
      · simp only [h1]; simp
      · intro h; simp [h2 h]
      · intro e he
        obtain ⟨y, hy, hy'⟩ := h3 e he
        refine ⟨y, by simpa using hy, ?_⟩
        simpa using hy'

example : Spec.Compatible (⟨some false, [⟨[2], [5, 6]⟩]⟩ : Obj ℕ) ⟨some false, [⟨[2], [7, 8]⟩]⟩ := by
  refine ⟨rfl, ?_⟩
  intro i c d hc hd
  cases i with
  | zero => cases hc; cases hd; intro j a b ha hb; rw [ha] at hb; cases hb; rfl
  | succ i => simp at hc

/-! ### History -/

/-- A history of additions to ungridded data. -/
def additionsU (h : Option (List Char)) (es : List (List Char × List Char)) : Option (List Char) :=
  es.foldl (fun h e => addHistoryU h e.1 e.2) h

/-- A history of additions to gridded data. -/
def additionsG (h : Option (List Char)) (es : List (List Char × List Char)) : Option (List Char) :=
  es.foldl (fun h e => addHistoryG h e.1 e.2) h

/-- The lines of a history: those there were (none if there was no history) and one time-stamped line for each addition. -/
def Spec.lines (h : Option (List Char)) (es : List (List Char × List Char)) : List (List Char) :=
  h.toList ++ es.map (fun e => e.1 ++ e.2)

theorem intercalate_snoc (sep x : List Char) (l : List (List Char)) (hl : l ≠ []) :
    sep.intercalate (l ++ [x]) = sep.intercalate l ++ (sep ++ x) := by
  induction l with
  | nil => exact absurd rfl hl
  | cons a l ih =>
    cases l with
    | nil => simp [List.intercalate, List.intersperse]
    | cons b l =>
      have := ih (by simp)
      simp only [List.intercalate, List.cons_append, List.intersperse_cons_cons, List.flatten_cons] at this ⊢
      rw [this]; simp

/-- C54. The history of gridded data is, after any additions, the previous history and the time-stamped additions, joined by line
breaks. -/
theorem c54_history_gridded (h : Option (List Char)) (es : List (List Char × List Char)) (hne : h.isSome ∨ es ≠ []) :
    additionsG h es = some (['\n'].intercalate (Spec.lines h es)) := by
  induction es using List.reverseRecOn with
  | nil =>
    rcases hne with hne | hne
    · obtain ⟨x, rfl⟩ := Option.isSome_iff_exists.1 hne
      simp [additionsG, Spec.lines, List.intercalate]
    · exact absurd rfl hne
  | append_singleton es e ih =>
    have hstep : additionsG h (es ++ [e]) = addHistoryG (additionsG h es) e.1 e.2 := by
      simp [additionsG]
    rw [hstep]
    by_cases h' : h.isSome ∨ es ≠ []
    · rw [ih h', addHistoryG]
      have : Spec.lines h (es ++ [e]) = Spec.lines h es ++ [e.1 ++ e.2] := by simp [Spec.lines]
      rw [this, intercalate_snoc]
      · simp
      · rcases h' with h' | h'
        · obtain ⟨x, rfl⟩ := Option.isSome_iff_exists.1 h'
          simp [Spec.lines]
        · simp [Spec.lines, h']
    · rw [not_or, not_not, Bool.not_eq_true, Option.isSome_eq_false_iff, Option.isNone_iff_eq_none] at h'
      obtain ⟨rfl, rfl⟩ := h'
      simp [additionsG, addHistoryG, Spec.lines, List.intercalate]

/-- C54. The same for ungridded data, an empty history counting as none (time stamps are not empty). -/
theorem c54_history_ungridded (h : Option (List Char)) (es : List (List Char × List Char))
    (hst : ∀ e ∈ es, e.1 ≠ []) (hne : es ≠ []) :
    additionsU h es = some (['\n'].intercalate (Spec.lines (if h = some [] then none else h) es)) := by
  have key : ∀ es : List (List Char × List Char), (∀ e ∈ es, e.1 ≠ []) → es ≠ [] →
      additionsU h es = additionsG (if h = some [] then none else h) es ∧
        ∀ x, additionsU h es = some x → x ≠ [] := by
    intro es
    induction es using List.reverseRecOn with
    | nil => intro _ h; exact absurd rfl h
    | append_singleton es e ih =>
      intro hst _
      have he : e.1 ≠ [] := hst e (by simp)
      have h1 : additionsU h (es ++ [e]) = addHistoryU (additionsU h es) e.1 e.2 := by simp [additionsU]
      have h2 : ∀ h, additionsG h (es ++ [e]) = addHistoryG (additionsG h es) e.1 e.2 := by intro h; simp [additionsG]
      rw [h1, h2]
      by_cases hes : es = []
      · subst hes
        simp only [additionsU, additionsG, List.foldl_nil]
        cases h with
        | none => simp [addHistoryU, addHistoryG, he]
        | some x =>
          cases x with
          | nil => simp [addHistoryU, addHistoryG, he]
          | cons c x => simp [addHistoryU, addHistoryG]
      · obtain ⟨h3, h4⟩ := ih (fun e he => hst e (by simp [he])) hes
        cases hU : additionsU h es with
        | none =>
          rw [← h3, hU]
          simp [addHistoryU, addHistoryG, he]
        | some x =>
          have hx := h4 x hU
          rw [← h3, hU]
          simp [addHistoryU, addHistoryG, List.length_pos_iff.2 hx]
  rw [(key es hst hne).1]
  exact c54_history_gridded _ es (Or.inr hne)

/-- C54. No addition ever changes what was there: the old history is the beginning of the new one. -/
theorem c54_history_prefix (h : List Char) (stamp new : List Char) :
    (∃ t, addHistoryU (some h) stamp new = some (h ++ t) ∧ (stamp ++ new) <:+ t) ∧
    (∃ t, addHistoryG (some h) stamp new = some (h ++ t) ∧ (stamp ++ new) <:+ t) := by
  constructor
  · rw [addHistoryU]
    split
    · exact ⟨_, rfl, List.suffix_cons _ _⟩
    · rename_i hl
      have : h = [] := by simpa using hl
      subst this
      exact ⟨_, rfl, List.suffix_refl _⟩
  · exact ⟨_, rfl, List.suffix_cons _ _⟩

/-- C54. Adding to a list adds to every object of it. -/
theorem c54_history_list (hs : List (Option (List Char))) (stamp new : List Char) (i : Nat) :
    (addHistoryL hs stamp new)[i]? = (hs[i]?).map (fun h => addHistoryU h stamp new) := by
  simp [addHistoryL]

example : additionsU (some "a".toList) [("T1 ".toList, "x".toList), ("T2 ".toList, "y".toList)] = some "a\nT1 x\nT2 y".toList := by
  decide

end Cis.DataList
