import Verif.Time.Props
import Verif.Time.ParseModel
set_option linter.unusedSectionVars false
set_option linter.unusedSimpArgs false
/-! Properties C25 (date-time strings) and C26 (durations). -/
namespace Cis.Time
open Cis.Str

namespace Spec
/-- The string with date fields `ds`, and time fields `ts` after the separator `sep`. -/
def written (ds : List Str) (sep : Char) (ts : List Str) : Str :=
  join '-' ds ++ (if ts = [] then [] else sep :: join ':' ts)

/-- An optional field followed by its letter. -/
def field (f : Option Str) (c : Char) : Str := match f with | some n => n ++ [c] | none => []

/-- A duration as written. -/
def duration (y m d : Option Str) (t : Option (Char × Option Str × Option Str × Option Str)) : Str :=
  'P' :: (field y 'Y' ++ field m 'M' ++ field d 'D' ++
    match t with | some (sep, h, mi, s) => sep :: (field h 'H' ++ field mi 'M' ++ field s 'S') | none => [])

/-- The number an optional field denotes. -/
def num (f : Option Str) : Nat := match f with | some n => value n | none => 0
end Spec

theorem ofPrefix_eq (l : List Int) : partialOfComponents l = ofPrefix l := by
  match l with
  | [] | [_] | [_, _] | [_, _, _] | [_, _, _, _] | [_, _, _, _, _] | _ :: _ :: _ :: _ :: _ :: _ :: _ => rfl

theorem digit_not_sep {c : Char} (h : c.isDigit = true) : isSep c = false := by
  unfold isSep
  have : ∀ d : Char, d.isDigit = false → c ≠ d := by rintro d hd rfl; rw [h] at hd; cases hd
  simp [this 'T' (by decide), this ' ' (by decide), this ':' (by decide)]

theorem intFields_numerals (l : List Str) (h : ∀ f ∈ l, IsNumeral f) : intFields l = some (l.map (fun f => (value f : Int))) := by
  induction l with
  | nil => rfl
  | cons f t ih => simp [intFields, pyInt_numeral (h f (by simp)), ih (fun g hg => h g (by simp [hg]))]

theorem join_chars (c : Char) (fs : List Str) (p : Char → Prop) (hc : p c) (h : ∀ f ∈ fs, ∀ x ∈ f, p x) : ∀ x ∈ join c fs, p x := by
  induction fs with
  | nil => simp [join]
  | cons f t ih =>
    cases t with
    | nil => simp only [join]; exact h f (by simp)
    | cons g gs =>
      intro x hx
      have : x ∈ f ++ c :: join c (g :: gs) := hx
      rcases List.mem_append.1 this with hx | hx
      · exact h f (by simp) x hx
      · rcases List.mem_cons.1 hx with rfl | hx
        · exact hc
        · exact ih (fun f hf => h f (by simp [hf])) x hx

theorem join_ne_nil (c : Char) (fs : List Str) (hne : fs ≠ []) (h : ∀ f ∈ fs, f ≠ []) : join c fs ≠ [] := by
  cases fs with
  | nil => exact absurd rfl hne
  | cons f t =>
    cases t with
    | nil => exact h f (by simp)
    | cons g gs => show f ++ _ ≠ []; simp

theorem takeWhile_self {p : Char → Bool} {l : Str} (h : ∀ x ∈ l, p x = true) : l.takeWhile p = l ∧ l.dropWhile p = [] := by
  induction l with
  | nil => simp
  | cons a t ih =>
    have := ih (fun x hx => h x (by simp [hx]))
    simp [List.takeWhile_cons, List.dropWhile_cons, h a (by simp), this]

theorem splitDateTime_cases (s : Str) :
    (∃ a as c b bs, s.takeWhile (fun c => !isSep c) = a :: as ∧ s.dropWhile (fun c => !isSep c) = c :: b :: bs ∧
      splitDateTime s = (a :: as, some (b :: bs))) ∨ splitDateTime s = (s, none) := by
  unfold splitDateTime
  split
  · rename_i a as c b bs e1 e2
    exact Or.inl ⟨a, as, c, b, bs, e1, e2, rfl⟩
  · exact Or.inr rfl

theorem takeWhile_all {p : Char → Bool} {l r : Str} (h : ∀ x ∈ l, p x = true) (c : Char) (hc : p c = false) :
    (l ++ c :: r).takeWhile p = l ∧ (l ++ c :: r).dropWhile p = c :: r := by
  constructor
  · rw [List.takeWhile_append_of_pos h, List.takeWhile_cons_of_neg (by simp [hc]), List.append_nil]
  · rw [List.dropWhile_append_of_pos h, List.dropWhile_cons_of_neg (by simp [hc])]

theorem not_mem_of_digit {f : Str} (h : ∀ x ∈ f, x.isDigit = true) (c : Char) (hc : c.isDigit = false) : c ∉ f := by
  intro hm; rw [h c hm] at hc; cases hc

theorem splitDateTime_written (ds ts : List Str) (sep : Char) (hsep : isSep sep = true) (hne : ds ≠ [])
    (hd : ∀ f ∈ ds, IsNumeral f) (ht : ∀ f ∈ ts, IsNumeral f) :
    splitDateTime (Spec.written ds sep ts) = (join '-' ds, if ts = [] then none else some (join ':' ts)) := by
  have hdig : ∀ x ∈ join '-' ds, (!isSep x) = true := by
    apply join_chars
    · decide
    · intro f hf x hx; rw [digit_not_sep ((hd f hf).2 x hx)]; rfl
  have hjne := join_ne_nil '-' ds hne (fun f hf => (hd f hf).1)
  unfold splitDateTime Spec.written
  by_cases hts : ts = []
  · subst hts
    simp only [if_true, List.append_nil]
    have h2 : (join '-' ds).dropWhile (fun c => !isSep c) = [] := (takeWhile_self hdig).2
    rw [h2]
    split
    · rename_i h; simp at h
    · rfl
  · simp only [if_neg hts]
    obtain ⟨h1, h2⟩ := takeWhile_all (r := join ':' ts) hdig sep (by simp [hsep])
    rw [h1, h2]
    have htne := join_ne_nil ':' ts hts (fun f hf => (ht f hf).1)
    split
    · rename_i a as b t ts' e1 e2
      rw [e1]
      simp only [List.cons.injEq] at e2
      rw [e2.2]
    · rename_i hno
      exfalso
      cases h3 : join '-' ds with
      | nil => exact hjne h3
      | cons a as =>
        cases h4 : join ':' ts with
        | nil => exact htne h4
        | cons b bs => exact hno a as sep b bs h3 (by rw [h4])

/-- C25: a string made of numerals in the grammar parses to the partial date with exactly those components (if it is a real
one, C24); too many components, or a time without a full date, are rejected. -/
theorem c25_grammar (ds ts : List Str) (sep : Char) (hsep : sep = 'T' ∨ sep = ' ' ∨ sep = ':') (hne : ds ≠ [])
    (hd : ∀ f ∈ ds, IsNumeral f) (ht : ∀ f ∈ ts, IsNumeral f) :
    parsePartial (Spec.written ds sep ts) =
      if ds.length ≤ 3 ∧ ts.length ≤ 3 ∧ (ts ≠ [] → ds.length = 3) then
        newPartial (partialOfComponents ((ds ++ ts).map (fun f => (value f : Int))))
      else .error .value := by
  have hs : isSep sep = true := by rcases hsep with rfl | rfl | rfl <;> decide
  unfold parsePartial
  rw [splitDateTime_written ds ts sep hs hne hd ht]
  simp only
  have h1 : intFields (splitChar '-' (join '-' ds)) = some (ds.map (fun f => (value f : Int))) := by
    rw [splitChar_join '-' ds hne (fun f hf => not_mem_of_digit (hd f hf).2 _ (by decide)), intFields_numerals ds hd]
  rw [h1]
  have h2 : timeFields (if ts = [] then none else some (join ':' ts)) = some (ts.map (fun f => (value f : Int))) := by
    by_cases hts : ts = []
    · subst hts; simp [timeFields]
    · rw [if_neg hts, timeFields]
      rw [splitChar_join ':' ts hts (fun f hf => not_mem_of_digit (ht f hf).2 _ (by decide)), intFields_numerals ts ht]
  rw [h2]
  simp only [List.length_map]
  have hl : ts ≠ [] ↔ 0 < ts.length := by rw [List.length_pos_iff]
  have hl' : 0 < ds.length := List.length_pos_iff.2 hne
  split
  · rename_i hh
    rw [if_neg]
    rintro ⟨a, b, c⟩
    rw [hl] at c
    omega
  · rename_i hh
    rw [if_pos]
    · rw [List.map_append]
    · refine ⟨by omega, by omega, fun h => ?_⟩
      rw [hl] at h; omega

theorem intFields_some (l : List Str) (v : List Int) : intFields l = some v ↔ List.Forall₂ (fun f n => pyInt f = some n) l v := by
  induction l generalizing v with
  | nil =>
    simp only [intFields, Option.some.injEq]
    constructor
    · rintro rfl; exact .nil
    · intro h; cases h; rfl
  | cons f t ih =>
    simp only [intFields]
    constructor
    · intro h
      split at h
      · rename_i n l' h1 h2
        simp only [Option.some.injEq] at h
        subst h
        exact .cons h1 ((ih l').1 h2)
      · cases h
    · intro h
      cases h with
      | cons h1 h2 => rw [h1, (ih _).2 h2]

/-- C25, nothing else is accepted: an accepted string consists of at most three fields separated by `-` and, after a
separator and only with a full date, at most three fields separated by `:`, each accepted by `int`; the result has exactly
these components. -/
theorem c25_only (s : Str) (p : Partial) (h : parsePartial s = .ok p) :
    ∃ (ds ts : List Str) (dv tv : List Int) (sep : Char), s = Spec.written ds sep ts ∧
      List.Forall₂ (fun f n => pyInt f = some n) ds dv ∧ List.Forall₂ (fun f n => pyInt f = some n) ts tv ∧
      1 ≤ ds.length ∧ ds.length ≤ 3 ∧ ts.length ≤ 3 ∧ (ts ≠ [] → (sep = 'T' ∨ sep = ' ' ∨ sep = ':') ∧ ds.length = 3) ∧
      p = partialOfComponents (dv ++ tv) := by
  unfold parsePartial at h
  split at h
  · rename_i times dates h1 h2
    split at h
    · cases h
    · rename_i hlen
      have hp : p = partialOfComponents (dates ++ times) := by
        unfold newPartial at h
        split at h
        · cases h
        · split at h
          · cases h
          · cases h
          · simpa using h.symm
      have hdl := (intFields_some _ _).1 h2
      have hd := hdl.length_eq
      have hne := splitChar_ne_nil '-' (splitDateTime s).1
      have hne' : 0 < (splitChar '-' (splitDateTime s).1).length := List.length_pos_iff.2 hne
      rcases splitDateTime_cases s with ⟨a, as, c, b, bs, e1, e2, e3⟩ | e3
      · rw [e3] at h1 hdl hd hne hne'
        dsimp only at hdl hd hne hne'
        rw [timeFields] at h1
        have htl := (intFields_some _ _).1 h1
        have ht := htl.length_eq
        have htne := splitChar_ne_nil ':' (b :: bs)
        have htne' : 0 < (splitChar ':' (b :: bs)).length := List.length_pos_iff.2 htne
        have hcsep : isSep c = true := by
          have := List.head_dropWhile_not (p := fun c => !isSep c) (l := s) (by rw [e2]; simp)
          simp only [e2, List.head_cons] at this
          simpa using this
        refine ⟨splitChar '-' (a :: as), splitChar ':' (b :: bs), dates, times, c, ?_, hdl, htl, by omega, by omega, by omega, ?_, hp⟩
        · unfold Spec.written
          rw [if_neg htne, join_splitChar, join_splitChar]
          have := List.takeWhile_append_dropWhile (p := fun c => !isSep c) (l := s)
          rw [e1, e2] at this
          exact this.symm
        · intro _
          refine ⟨?_, by omega⟩
          unfold isSep at hcsep
          simp only [Bool.or_eq_true, decide_eq_true_eq] at hcsep
          grind
      · rw [e3] at h1 hdl hd hne hne'
        dsimp only at hdl hd hne hne'
        rw [timeFields] at h1
        simp only [Option.some.injEq] at h1
        subst h1
        refine ⟨splitChar '-' s, [], dates, [], ':', ?_, hdl, .nil, by omega, by simp at hlen; omega, by simp, fun h => absurd rfl h, hp⟩
        unfold Spec.written
        rw [if_pos rfl, join_splitChar, List.append_nil]
  · cases h

/-- The components of the result for written fields, and a rejected form. -/
example : parsePartial "2008-02-29T12:30".toList = .ok ⟨some 2008, some 2, some 29, some 12, some 30, none⟩ := by decide +kernel
example : parsePartial "2008-02T12".toList = .error .value := by decide +kernel
example : parsePartial "2007-02-29".toList = .error .value := by decide +kernel
example : (∀ f ∈ ["2008".toList, "02".toList], IsNumeral f) := by simp [IsNumeral]

/-- A component too large for a C int is rejected with OverflowError, which the command line does not report (it expects
ValueError, parse_datetime.py:65-69). -/
theorem c25_huge_year : parsePartial "99999999999".toList = .error .overflow := by decide +kernel

/-! ### C26 -/

theorem findTokens_field (f : Option Str) (c : Char) (hc : c.isUpper = true) (hf : ∀ n, f = some n → IsNumeral n) (r : Str) :
    findTokens [] (Spec.field f c ++ r) = (match f with | some n => [(n, c)] | none => []) ++ findTokens [] r := by
  cases f with
  | none => simp [Spec.field]
  | some n =>
    have hn := (hf n rfl).2
    simp only [Spec.field]
    have hcd : c.isDigit = false := by
      by_contra h
      rw [Bool.not_eq_false] at h
      unfold Char.isDigit at h; unfold Char.isUpper at hc
      simp only [Bool.and_eq_true, decide_eq_true_eq, ge_iff_le] at h hc
      have h1 := UInt32.le_iff_toNat_le.1 h.2
      have h2 := UInt32.le_iff_toNat_le.1 hc.1
      simp at h1 h2
      omega
    have key : ∀ (n run : Str), (∀ x ∈ n, x.isDigit = true) → findTokens run (n ++ [c] ++ r) = (run ++ n, c) :: findTokens [] r := by
      intro n
      induction n with
      | nil => intro run _; simp [findTokens, hcd, hc]
      | cons x t ih =>
        intro run hx
        simp only [List.cons_append, findTokens, hx x (by simp), if_true]
        have := ih (run ++ [x]) (fun y hy => hx y (by simp [hy]))
        simp only [List.cons_append, List.append_assoc] at this ⊢
        rw [this]; simp
    have := key n [] hn
    simpa using this

theorem field_chars (f : Option Str) (c : Char) (hf : ∀ n, f = some n → IsNumeral n) : ∀ x ∈ Spec.field f c, x.isDigit = true ∨ x = c := by
  cases f with
  | none => simp [Spec.field]
  | some n =>
    intro x hx
    simp only [Spec.field, List.mem_append, List.mem_singleton] at hx
    rcases hx with hx | hx
    · exact Or.inl ((hf n rfl).2 x hx)
    · exact Or.inr hx

theorem intDigits_value {n : Str} (h : IsNumeral n) : intDigits n false 0 = some (value n) :=
  intDigits_numeral n h.2 false 0 (Or.inl h.1)

/-- C26: a duration in the grammar, in upper or lower case, denotes the sum of its components (years of 365 days, months of
30 days), unless it is a billion days or more. -/
theorem c26_grammar (y m d : Option Str) (t : Option (Char × Option Str × Option Str × Option Str)) (s : Str)
    (hy : ∀ n, y = some n → IsNumeral n) (hm : ∀ n, m = some n → IsNumeral n) (hd : ∀ n, d = some n → IsNumeral n)
    (ht : ∀ sep h mi sc, t = some (sep, h, mi, sc) → (sep = 'T' ∨ sep = ' ' ∨ sep = ':') ∧ (∀ n, h = some n → IsNumeral n) ∧
      (∀ n, mi = some n → IsNumeral n) ∧ (∀ n, sc = some n → IsNumeral n))
    (hs : s.map Char.toUpper = Spec.duration y m d t) (total : Nat)
    (htotal : total = 86400 * (365 * Spec.num y + 30 * Spec.num m + Spec.num d) +
      match t with | some (_, h, mi, sc) => 3600 * Spec.num h + 60 * Spec.num mi + Spec.num sc | none => 0)
    (hbig : total < 86400 * 1000000000) :
    parseDelta s = .ok total ∧ parseDeltaDays s = .ok ((total : ℚ) / 86400) := by
  have hmain : parseDelta s = .ok total := by
    unfold parseDelta
    rw [hs]
    unfold Spec.duration
    simp only
    have hdate : ∀ x ∈ Spec.field y 'Y' ++ Spec.field m 'M' ++ Spec.field d 'D', (!isSep x) = true := by
      intro x hx
      simp only [List.mem_append] at hx
      rcases hx with (hx | hx) | hx
      · rcases field_chars y 'Y' hy x hx with h | rfl
        · simp [digit_not_sep h]
        · decide
      · rcases field_chars m 'M' hm x hx with h | rfl
        · simp [digit_not_sep h]
        · decide
      · rcases field_chars d 'D' hd x hx with h | rfl
        · simp [digit_not_sep h]
        · decide
    have hds : dateTokens (findTokens [] (Spec.field y 'Y' ++ Spec.field m 'M' ++ Spec.field d 'D')) ⟨0, 0, 0, 0, 0, 0⟩ =
        some ⟨Spec.num y, Spec.num m, Spec.num d, 0, 0, 0⟩ := by
      rw [List.append_assoc, findTokens_field y 'Y' (by decide) hy, findTokens_field m 'M' (by decide) hm]
      have := findTokens_field d 'D' (by decide) hd []
      rw [List.append_nil] at this
      rw [this]
      cases y with
      | none =>
        cases m with
        | none => cases d with
          | none => simp [findTokens, dateTokens, Spec.num]
          | some d => simp [findTokens, dateTokens, Spec.num, intDigits_value (hd d rfl)]
        | some m => cases d with
          | none => simp [findTokens, dateTokens, Spec.num, intDigits_value (hm m rfl)]
          | some d => simp [findTokens, dateTokens, Spec.num, intDigits_value (hd d rfl), intDigits_value (hm m rfl)]
      | some y =>
        cases m with
        | none => cases d with
          | none => simp [findTokens, dateTokens, Spec.num, intDigits_value (hy y rfl)]
          | some d => simp [findTokens, dateTokens, Spec.num, intDigits_value (hd d rfl), intDigits_value (hy y rfl)]
        | some m => cases d with
          | none => simp [findTokens, dateTokens, Spec.num, intDigits_value (hm m rfl), intDigits_value (hy y rfl)]
          | some d => simp [findTokens, dateTokens, Spec.num, intDigits_value (hd d rfl), intDigits_value (hm m rfl), intDigits_value (hy y rfl)]
    cases t with
    | none =>
      simp only [List.append_nil]
      have h1 : (Spec.field y 'Y' ++ Spec.field m 'M' ++ Spec.field d 'D').takeWhile (fun c => !isSep c) =
          Spec.field y 'Y' ++ Spec.field m 'M' ++ Spec.field d 'D' := (takeWhile_self hdate).1
      have h2 : (Spec.field y 'Y' ++ Spec.field m 'M' ++ Spec.field d 'D').dropWhile (fun c => !isSep c) = [] := (takeWhile_self hdate).2
      rw [h1, h2, hds]
      simp only [List.drop_nil, findTokens, timeTokens, toTimedelta]
      simp only at htotal
      rw [if_neg (by omega), htotal]
      congr 1; ring
    | some q =>
      obtain ⟨sep, h, mi, sc⟩ := q
      obtain ⟨hsep, hh, hmi, hsc⟩ := ht sep h mi sc rfl
      have hs' : isSep sep = true := by rcases hsep with rfl | rfl | rfl <;> decide
      simp only
      obtain ⟨h1, h2⟩ := takeWhile_all (r := Spec.field h 'H' ++ Spec.field mi 'M' ++ Spec.field sc 'S') hdate sep (by simp [hs'])
      rw [h1, h2, hds]
      simp only [List.drop_succ_cons, List.drop_zero]
      have hts : timeTokens (findTokens [] (Spec.field h 'H' ++ Spec.field mi 'M' ++ Spec.field sc 'S'))
          ⟨Spec.num y, Spec.num m, Spec.num d, 0, 0, 0⟩ =
          some ⟨Spec.num y, Spec.num m, Spec.num d, Spec.num h, Spec.num mi, Spec.num sc⟩ := by
        rw [List.append_assoc, findTokens_field h 'H' (by decide) hh, findTokens_field mi 'M' (by decide) hmi]
        have := findTokens_field sc 'S' (by decide) hsc []
        rw [List.append_nil] at this
        rw [this]
        cases h with
        | none =>
          cases mi with
          | none => cases sc with
            | none => simp [findTokens, timeTokens, Spec.num]
            | some d => simp [findTokens, timeTokens, Spec.num, intDigits_value (hsc d rfl)]
          | some m => cases sc with
            | none => simp [findTokens, timeTokens, Spec.num, intDigits_value (hmi m rfl)]
            | some d => simp [findTokens, timeTokens, Spec.num, intDigits_value (hsc d rfl), intDigits_value (hmi m rfl)]
        | some y =>
          cases mi with
          | none => cases sc with
            | none => simp [findTokens, timeTokens, Spec.num, intDigits_value (hh y rfl)]
            | some d => simp [findTokens, timeTokens, Spec.num, intDigits_value (hsc d rfl), intDigits_value (hh y rfl)]
          | some m => cases sc with
            | none => simp [findTokens, timeTokens, Spec.num, intDigits_value (hmi m rfl), intDigits_value (hh y rfl)]
            | some d => simp [findTokens, timeTokens, Spec.num, intDigits_value (hsc d rfl), intDigits_value (hmi m rfl), intDigits_value (hh y rfl)]
      rw [hts]
      simp only [toTimedelta]
      simp only at htotal
      rw [if_neg (by omega), htotal]
      congr 1; ring
  refine ⟨hmain, ?_⟩
  unfold parseDeltaDays
  rw [hmain]
  simp only [Except.ok.injEq]
  ring

/-- What is made of a sequence of date components in any order and number: the last one of each unit counts. -/
theorem dateTokens_last : ∀ (cs : List (Str × Char)) (d : Delta), (∀ c ∈ cs, IsNumeral c.1 ∧ (c.2 = 'Y' ∨ c.2 = 'M' ∨ c.2 = 'D')) →
    dateTokens cs d = some
      { d with
        years := ((cs.filter (fun c => c.2 = 'Y')).getLast?.map (fun c => value c.1)).getD d.years
        months := ((cs.filter (fun c => c.2 = 'M')).getLast?.map (fun c => value c.1)).getD d.months
        days := ((cs.filter (fun c => c.2 = 'D')).getLast?.map (fun c => value c.1)).getD d.days } := by
  intro cs
  induction cs with
  | nil => intro d _; simp [dateTokens]
  | cons c t ih =>
    intro d h
    obtain ⟨n, u⟩ := c
    obtain ⟨h1, h2⟩ := h (n, u) (by simp)
    have ht : ∀ c ∈ t, IsNumeral c.1 ∧ (c.2 = 'Y' ∨ c.2 = 'M' ∨ c.2 = 'D') := fun c hc => h c (by simp [hc])
    have hv := intDigits_value h1
    simp only [dateTokens]
    simp only at h2 hv
    rw [hv]
    have key : ∀ l : List (Str × Char), ((List.getLast? ((n, u) :: l)).map (fun c => value c.1)) =
        some ((l.getLast?.map (fun c => value c.1)).getD (value n)) := by
      intro l
      cases l with
      | nil => simp
      | cons a b => rw [List.getLast?_cons_cons, List.getLast?_eq_some_getLast (by simp)]; simp
    rcases h2 with rfl | rfl | rfl <;> simp [ih _ ht, key]

/-- C26: date components in any order, possibly repeated: the last one of each unit counts, none being zero. -/
theorem c26_any_order (cs : List (Str × Char)) (h : ∀ c ∈ cs, IsNumeral c.1 ∧ (c.2 = 'Y' ∨ c.2 = 'M' ∨ c.2 = 'D'))
    (s : Str) (hs : s.map Char.toUpper = 'P' :: cs.flatMap (fun c => c.1 ++ [c.2])) (last : Char → Nat)
    (hlast : ∀ u, last u = ((cs.filter (fun c => c.2 = u)).getLast?.map (fun c => value c.1)).getD 0) (total : Nat)
    (htotal : total = 86400 * (365 * last 'Y' + 30 * last 'M' + last 'D')) (hbig : total < 86400 * 1000000000) :
    parseDelta s = .ok total := by
  have hsep : ∀ x ∈ cs.flatMap (fun c => c.1 ++ [c.2]), (!isSep x) = true := by
    intro x hx
    obtain ⟨c, hc, hx⟩ := List.mem_flatMap.1 hx
    obtain ⟨h1, h2⟩ := h c hc
    rcases List.mem_append.1 hx with hx | hx
    · simp [digit_not_sep (h1.2 x hx)]
    · simp only [List.mem_singleton] at hx
      subst hx
      rcases h2 with e | e | e <;> rw [e] <;> decide
  have htok : ∀ l : List (Str × Char), (∀ c ∈ l, IsNumeral c.1 ∧ (c.2 = 'Y' ∨ c.2 = 'M' ∨ c.2 = 'D')) →
      findTokens [] (l.flatMap (fun c => c.1 ++ [c.2])) = l := by
    intro l
    induction l with
    | nil => intro _; simp [findTokens]
    | cons c t ih =>
      intro hl
      obtain ⟨h1, h2⟩ := hl c (by simp)
      have hu : c.2.isUpper = true := by rcases h2 with e | e | e <;> rw [e] <;> decide
      have := findTokens_field (some c.1) c.2 hu (by rintro n hn; cases hn; exact h1) (t.flatMap (fun c => c.1 ++ [c.2]))
      simp only [Spec.field] at this
      rw [List.flatMap_cons, this, ih (fun c hc => hl c (by simp [hc]))]
      simp
  unfold parseDelta
  rw [hs]
  simp only
  rw [(takeWhile_self hsep).1, (takeWhile_self hsep).2, htok cs h, dateTokens_last cs _ h]
  simp only [List.drop_nil, findTokens, timeTokens, toTimedelta, ← hlast]
  rw [if_neg (by omega), htotal]
  congr 1; ring

/-- C26: a string that does not start with P (or p) is rejected. -/
theorem c26_needs_p (s : Str) (h : ∀ r, s ≠ 'P' :: r ∧ s ≠ 'p' :: r) : parseDelta s = .error .value := by
  unfold parseDelta
  split
  · rename_i r hr
    cases s with
    | nil => simp at hr
    | cons c t =>
      simp only [List.map_cons, List.cons.injEq] at hr
      exfalso
      have : c = 'P' ∨ c = 'p' := by
        have h1 := hr.1
        unfold Char.toUpper at h1
        split at h1
        · right
          rename_i hc
          have h2 := congrArg Char.val h1
          have h3 : c.val.toNat + ('A'.val - 'a'.val).toNat = c.val.toNat + ('A'.val - 'a'.val).toNat := rfl
          apply Char.ext
          simp only at h2
          have h4 := congrArg (fun (v : UInt32) => v - ('A'.val - 'a'.val)) h2
          simp only [UInt32.add_sub_cancel] at h4
          rw [h4]; decide
        · left; exact h1
      rcases this with rfl | rfl
      · exact (h t).1 rfl
      · exact (h t).2 rfl
  · rfl

/-- C26 is violated for strings outside the grammar: a fraction or a sign is not rejected but dropped with what precedes it. -/
theorem c26_fraction_violated : parseDelta "P1.5D".toList = .ok (5 * 86400) ∧ parseDelta "P-2D".toList = .ok (2 * 86400) := by
  constructor <;> decide +kernel

/-- The example in the error message is itself rejected. -/
theorem c26_documented_example : parseDelta "PY2M3DT4H5M6S".toList = .error .value := by decide +kernel

example : parseDelta "p1y2m3dt4h5m6s".toList = .ok (86400 * (365 + 60 + 3) + 4 * 3600 + 5 * 60 + 6) := by decide +kernel
example : parseDelta "P1D2Y3D".toList = .ok (86400 * (365 * 2 + 3)) := by decide +kernel
example : ("p1dt2h".toList).map Char.toUpper = Spec.duration none none (some "1".toList) (some ('T', some "2".toList, none, none)) := by
  decide +kernel
end Cis.Time
