import Mathlib.Tactic
set_option linter.unusedSectionVars false
set_option linter.unusedSimpArgs false
/-!
Model of reading MODIS level 3 data: `MODIS_L3` (cis/data_io/products/MODIS.py:66-191), with `calculate_mid_time` (cis/time_util.py:128-136).
Property C105.

Contract: `dateutil` parses a date and a time of day, and takes the day of today for a missing date and midnight for a missing time; it
refuses the empty text. Iris merges cubes on the same grid along their times, in order of time, and refuses equal times and different grids.
The attributes of a file are texts or numbers, in the order of the dictionary. Texts are lists of characters.
-/
namespace Cis.ModisL3

abbrev Text := List Char

/-- `str.find`: the position of the first occurrence. -/
def find (pat : Text) : Text → Option Nat
  | [] => if pat = [] then some 0 else none
  | c :: t => if pat.isPrefixOf (c :: t) then some 0 else (find pat t).map (· + 1)

/-- `s[start:stop]` with numbers that may be negative. -/
def slice (s : Text) (start stop : Int) : Text :=
  let at' (i : Int) : Nat := if i < 0 then ((s.length : Int) + i).toNat else i.toNat
  (s.take (at' stop)).drop (at' start)

def asInt : Option Nat → Int
  | some n => n
  | none => -1

/-- What lies between the keyword and the following `END_OBJECT` (MODIS.py:75-78). -/
def region (keyword s : Text) : Text :=
  let start := asInt (find keyword s)
  let stop := asInt (find "END_OBJECT".toList (slice s start s.length))
  slice s start (start + stop)

/-- `str.split('\n')`: the lines, within which the regular expression is matched. -/
def lines : Text → List Text
  | [] => [[]]
  | c :: t => if c = '\n' then [] :: lines t else
    match lines t with
    | [] => [[c]]
    | h :: r => (c :: h) :: r

/-- The match of `".*"` in a line, without its quotation marks (MODIS.py:79-81): from the first to the last of them. -/
def quoted (line : Text) : Option Text :=
  match line.dropWhile (fun c => c ≠ '"') with
  | [] => none
  | _ :: r => if '"' ∈ r then some ((r.reverse.dropWhile (fun c => c ≠ '"')).reverse.filter (fun c => c ≠ '"')) else none

inductive Attr
  | text (s : Text)
  | number

inductive Err
  /-- AttributeError: a number has no `find`. -/
  | attribute
  /-- ValueError of the date parser. -/
  | value
  /-- MergeError. -/
  | merge
deriving DecidableEq

/-- The loop of `_parse_datetime` (MODIS.py:71-84); `res` is the result so far. -/
def search (keyword : Text) : List Attr → Text → Except Err Text
  | [], res => .ok res
  | .number :: _, _ => .error .attribute
  | .text s :: t, res => match (lines (region keyword s)).findSome? quoted with
    | none => search keyword t res
    | some m => if m ≠ [] then .ok m else search keyword t m

/-- `_parse_datetime` (MODIS.py:71-84). -/
def parseDatetime (attrs : List Attr) (keyword : Text) : Except Err Text := search keyword attrs []

/-- The parser of dates and times of day, and the day of today. -/
structure Clock where
  day : Text → Option ℚ
  time : Text → Option ℚ
  today : ℚ

/-- `parse_datetimestr_to_std_time(date + " " + time)` (contract). -/
def standardTime (k : Clock) (date time : Text) : Except Err ℚ :=
  if date = [] ∧ time = [] then .error .value
  else match (if date = [] then some k.today else k.day date), (if time = [] then some 0 else k.time time) with
    | some d, some t => .ok (d + t)
    | _, _ => .error .value

/-- `_get_start_date`, `_get_end_date` (MODIS.py:86-100). -/
def instant (k : Clock) (attrs : List Attr) (dateKey timeKey : Text) : Except Err ℚ :=
  match parseDatetime attrs dateKey with
  | .error e => .error e
  | .ok d => match parseDatetime attrs timeKey with
    | .error e => .error e
    | .ok t => standardTime k d t

/-- A file: its attributes, its grid and the values of the variable. -/
structure File where
  attrs : List Attr
  grid : List ℚ × List ℚ
  values : List (Option ℚ)

structure Slice where
  time : ℚ
  bounds : ℚ × ℚ
  grid : List ℚ × List ℚ
  values : List (Option ℚ)

/-- The cube of one file (MODIS.py:137-164). -/
def fileCube (k : Clock) (f : File) : Except Err Slice :=
  match instant k f.attrs "RANGEBEGINNINGDATE".toList "RANGEBEGINNINGTIME".toList with
  | .error e => .error e
  | .ok a => match instant k f.attrs "RANGEENDINGDATE".toList "RANGEENDINGTIME".toList with
    | .error e => .error e
    | .ok b => .ok ⟨a + (b - a) / 2, (a, b), f.grid, f.values⟩

/-- The cubes of all files. -/
def cubes (k : Clock) : List File → Except Err (List Slice)
  | [] => .ok []
  | f :: t => match fileCube k f with
    | .error e => .error e
    | .ok s => match cubes k t with
      | .error e => .error e
      | .ok l => .ok (s :: l)

/-- `merge_cube` (contract). -/
def merge (l : List Slice) : Except Err (List Slice) :=
  if (l.map Slice.time).Nodup ∧ ∀ a ∈ l, ∀ b ∈ l, a.grid = b.grid then .ok (l.mergeSort (fun a b => decide (a.time ≤ b.time)))
  else .error .merge

/-- `_create_cube` (MODIS.py:123-168). -/
def createCube (k : Clock) (files : List File) : Except Err (List Slice) :=
  match cubes k files with
  | .error e => .error e
  | .ok l => merge l

/-! ### Specification -/

/-- A text states a value for a keyword: the first occurrence of the keyword is followed, before the first `END_OBJECT` after it, by the
value in quotation marks, the first marks after the keyword and the only ones on their line. -/
structure Spec.States (keyword s v : Text) : Prop where
  parts : ∃ pre a b post, s = pre ++ (keyword ++ a ++ '"' :: v ++ '"' :: b ++ "END_OBJECT".toList ++ post) ∧
    (∀ n < pre.length, ¬ keyword <+: s.drop n) ∧
    (∀ n < (keyword ++ a ++ '"' :: v ++ '"' :: b).length,
      ¬ "END_OBJECT".toList <+: (keyword ++ a ++ '"' :: v ++ '"' :: b ++ "END_OBJECT".toList ++ post).drop n) ∧
    '"' ∉ a ∧ '"' ∉ b.takeWhile (fun c => c ≠ '\n')
  plain : '"' ∉ v ∧ '\n' ∉ v ∧ v ≠ []
  key : '"' ∉ keyword

/-- The attributes state a value: one of them does, and those before it are texts without the keyword. -/
def Spec.Stated (attrs : List Attr) (keyword v : Text) : Prop :=
  ∃ (before : List Text) (s : Text) (after : List Attr), attrs = before.map Attr.text ++ Attr.text s :: after ∧ (∀ x ∈ before, ¬ keyword <:+: x) ∧ Spec.States keyword s v

/-! ### Proofs -/

theorem prefix_iff (p s : Text) : p.isPrefixOf s = true ↔ p <+: s := List.isPrefixOf_iff_prefix

theorem find_some (pat rest : Text) : ∀ pre : Text, (∀ n < pre.length, ¬ pat <+: (pre ++ (pat ++ rest)).drop n) →
    find pat (pre ++ (pat ++ rest)) = some pre.length
  | [], _ => by
    rw [List.nil_append]
    cases hs : pat ++ rest with
    | nil =>
      have : pat = [] := (List.append_eq_nil_iff.1 hs).1
      simp [find, this]
    | cons c t =>
      unfold find
      rw [if_pos]
      · rfl
      · rw [prefix_iff, ← hs]; exact List.prefix_append _ _
  | c :: t, h => by
    rw [List.cons_append]
    unfold find
    rw [if_neg]
    · rw [find_some pat rest t]
      · rfl
      · intro n hn
        have := h (n + 1) (by simp; omega)
        simpa using this
    · intro hp
      have := h 0 (by simp)
      rw [prefix_iff] at hp
      exact this (by simpa using hp)

theorem find_none (pat : Text) (hp : pat ≠ []) : ∀ s : Text, ¬ pat <:+: s → find pat s = none
  | [], _ => by simp [find, hp]
  | c :: t, h => by
    unfold find
    rw [if_neg, find_none pat hp t]
    · rfl
    · intro hi; exact h (hi.trans (List.suffix_cons c t).isInfix)
    · intro hpre; exact h ((prefix_iff _ _).1 hpre).isInfix

theorem region_none (keyword s : Text) (hk : keyword ≠ []) (h : ¬ keyword <:+: s) : region keyword s = [] := by
  unfold region
  rw [find_none keyword hk s h]
  simp only [asInt]
  have hlen : (slice s (-1) s.length).length ≤ 1 := by
    unfold slice
    simp only [List.length_drop, List.length_take]
    split <;> split <;> omega
  have hnot : ¬ "END_OBJECT".toList <:+: slice s (-1) s.length := by
    intro hi
    have := hi.length_le
    have h10 : "END_OBJECT".toList.length = 10 := rfl
    omega
  rw [find_none _ (by decide) _ hnot]
  simp only
  unfold slice
  rw [List.drop_eq_nil_iff]
  simp only [List.length_take]
  split <;> split <;> omega

theorem slice_ends (s : Text) (i : Nat) (h : i ≤ s.length) : slice s i s.length = s.drop i := by
  unfold slice
  have h1 : ¬ ((i : Int) < 0) := by omega
  have h2 : ¬ ((s.length : Int) < 0) := by omega
  simp only [h1, h2, if_false, Int.toNat_natCast, List.take_length]

theorem slice_nat (s : Text) (i j : Nat) : slice s i ((i : Int) + (j : Int)) = (s.drop i).take j := by
  unfold slice
  have h1 : ¬ ((i : Int) < 0) := by omega
  have h2 : ¬ ((i : Int) + (j : Int) < 0) := by omega
  have h3 : ((i : Int) + (j : Int)).toNat = i + j := by omega
  simp only [h1, h2, if_false, Int.toNat_natCast, h3]
  rw [List.drop_take]
  congr 1
  omega

theorem region_some (keyword s pre mid post : Text) (hs : s = pre ++ (keyword ++ mid ++ "END_OBJECT".toList ++ post))
    (h1 : ∀ n < pre.length, ¬ keyword <+: s.drop n)
    (h2 : ∀ n < (keyword ++ mid).length, ¬ "END_OBJECT".toList <+: (keyword ++ mid ++ "END_OBJECT".toList ++ post).drop n) :
    region keyword s = keyword ++ mid := by
  have e1 : s = pre ++ (keyword ++ (mid ++ "END_OBJECT".toList ++ post)) := by rw [hs]; simp
  have f1 : find keyword s = some pre.length := by
    rw [e1]
    apply find_some
    intro n hn
    rw [← e1]
    exact h1 n hn
  have hd : s.drop pre.length = keyword ++ mid ++ "END_OBJECT".toList ++ post := by rw [hs]; simp
  unfold region
  rw [f1]
  simp only [asInt]
  rw [slice_ends s _ (by rw [hs]; simp), hd]
  have e2 : keyword ++ mid ++ "END_OBJECT".toList ++ post = (keyword ++ mid) ++ ("END_OBJECT".toList ++ post) := by simp
  have f2 : find "END_OBJECT".toList (keyword ++ mid ++ "END_OBJECT".toList ++ post) = some (keyword ++ mid).length := by
    rw [e2]
    apply find_some
    intro n hn
    rw [← e2]
    exact h2 n hn
  rw [f2]
  simp only
  rw [slice_nat, hd, e2, List.take_left]

theorem dropWhile_all (p : Char → Bool) : ∀ l : Text, (∀ c ∈ l, p c = true) → l.dropWhile p = []
  | [], _ => rfl
  | c :: t, h => by
    rw [List.dropWhile_cons, if_pos (h c (by simp)), dropWhile_all p t (fun x hx => h x (by simp [hx]))]

theorem dropWhile_some (p : Char → Bool) (x : Char) (hx : p x = false) : ∀ l : Text, x ∈ l → l.dropWhile p ≠ []
  | [], h => by simp at h
  | c :: t, h => by
    rw [List.dropWhile_cons]
    split
    · rename_i hc
      rcases List.mem_cons.1 h with rfl | h
      · rw [hx] at hc; cases hc
      · exact dropWhile_some p x hx t h
    · simp

theorem takeWhile_mem (p : Char → Bool) (x : Char) : ∀ l : Text, x ∈ l.takeWhile p → p x = true
  | [], h => by simp at h
  | c :: t, h => by
    rw [List.takeWhile_cons] at h
    split at h
    · rename_i hc
      rcases List.mem_cons.1 h with rfl | h
      · exact hc
      · exact takeWhile_mem p x t h
    · simp at h

theorem lines_cons (c : Char) (t : Text) (hc : c ≠ '\n') : lines (c :: t) = match lines t with
    | [] => [[c]]
    | h :: r => (c :: h) :: r := by
  rw [lines, if_neg hc]

theorem lines_ne (s : Text) : lines s ≠ [] := by
  cases s with
  | nil => simp [lines]
  | cons c t =>
    unfold lines
    split
    · simp
    · split <;> simp

theorem quoted_none (l : Text) (h : '"' ∉ l) : quoted l = none := by
  unfold quoted
  have : l.dropWhile (fun c => c ≠ '"') = [] := by
    apply dropWhile_all
    intro c hc
    simp only [ne_eq, decide_eq_true_eq]
    rintro rfl
    exact h hc
  rw [this]

theorem quoted_one (a v b : Text) (ha : '"' ∉ a) (hv : '"' ∉ v) (hb : '"' ∉ b) : quoted (a ++ '"' :: v ++ '"' :: b) = some v := by
  unfold quoted
  have h1 : (a ++ '"' :: v ++ '"' :: b).dropWhile (fun c => c ≠ '"') = '"' :: (v ++ '"' :: b) := by
    rw [List.append_assoc, List.dropWhile_append_of_pos]
    · simp
    · intro c hc
      simp only [ne_eq, decide_eq_true_eq]
      rintro rfl
      exact ha hc
  rw [h1]
  simp only
  rw [if_pos (by simp)]
  have h2 : ((v ++ '"' :: b).reverse.dropWhile (fun c => c ≠ '"')) = '"' :: v.reverse := by
    rw [List.reverse_append, List.reverse_cons, List.append_assoc, List.dropWhile_append_of_pos]
    · simp
    · intro c hc
      simp only [ne_eq, decide_eq_true_eq]
      rintro rfl
      exact hb (by simpa using hc)
  rw [h2]
  simp only [List.reverse_cons, List.reverse_reverse, List.filter_append]
  rw [List.filter_eq_self.2]
  · simp
  · intro c hc
    simp only [ne_eq, decide_eq_true_eq]
    rintro rfl
    exact hv hc

/-- The first quoted text: no quotes before it, none of line ends or quotes in it, no further quotes on its line. -/
theorem first_quoted : ∀ (a v b : Text), '"' ∉ a → '"' ∉ v → '\n' ∉ v → '"' ∉ b.takeWhile (fun c => c ≠ '\n') →
    (lines (a ++ '"' :: v ++ '"' :: b)).findSome? quoted = some v := by
  -- the lines of a text without line ends before the first one
  have hsplit : ∀ (p q : Text), '\n' ∉ p → lines (p ++ '\n' :: q) = p :: lines q := by
    intro p q
    induction p with
    | nil => intro _; simp [lines]
    | cons c t ih =>
      intro h
      have hc : c ≠ '\n' := fun e => h (by simp [e])
      rw [List.cons_append]
      rw [lines_cons c _ hc, ih (fun e => h (by simp [e]))]
  have hone : ∀ p : Text, '\n' ∉ p → lines p = [p] := by
    intro p
    induction p with
    | nil => intro _; rfl
    | cons c t ih =>
      intro h
      have hc : c ≠ '\n' := fun e => h (by simp [e])
      rw [lines_cons c _ hc, ih (fun e => h (by simp [e]))]
  intro a v b ha hv hv' hb
  -- a without line ends
  have main : ∀ a' : Text, '\n' ∉ a' → '"' ∉ a' → (lines (a' ++ '"' :: v ++ '"' :: b)).findSome? quoted = some v := by
    intro a' hn hq
    have hbs : b = b.takeWhile (fun c => c ≠ '\n') ++ b.dropWhile (fun c => c ≠ '\n') := List.takeWhile_append_dropWhile.symm
    have hbn : '\n' ∉ b.takeWhile (fun c => c ≠ '\n') := by
      intro hm
      have := takeWhile_mem _ _ _ hm
      simp at this
    cases hd : b.dropWhile (fun c => c ≠ '\n') with
    | nil =>
      rw [hd, List.append_nil] at hbs
      rw [hbs]
      rw [hone]
      · rw [List.findSome?_cons, quoted_one a' v _ hq hv hb]
      · simp only [List.mem_append, List.mem_cons, not_or]
        refine ⟨⟨hn, by decide, hv'⟩, by decide, hbn⟩
    | cons c q =>
      have hc : c = '\n' := by
        have := List.head?_dropWhile_not (fun c => decide (c ≠ '\n')) b
        rw [hd] at this
        simp at this
        exact this
      rw [hd, hc] at hbs
      have e : a' ++ '"' :: v ++ '"' :: b = (a' ++ '"' :: v ++ '"' :: b.takeWhile (fun c => c ≠ '\n')) ++ '\n' :: q := by
        conv_lhs => rw [hbs]
        simp
      rw [e, hsplit]
      · rw [List.findSome?_cons, quoted_one a' v _ hq hv hb]
      · simp only [List.mem_append, List.mem_cons, not_or]
        refine ⟨⟨hn, by decide, hv'⟩, by decide, hbn⟩
  -- the lines of a
  have hrec : ∀ (n : Nat) (a : Text), a.length ≤ n → '"' ∉ a → (lines (a ++ '"' :: v ++ '"' :: b)).findSome? quoted = some v := by
    intro n
    induction n with
    | zero =>
      intro a hl hq
      have : a = [] := List.length_eq_zero_iff.1 (by omega)
      subst this
      exact main [] (by simp) (by simp)
    | succ n ih =>
      intro a hl hq
      by_cases hn : '\n' ∈ a
      · obtain ⟨p', q', e', hp'⟩ : ∃ p q, a = p ++ '\n' :: q ∧ '\n' ∉ p := by
          refine ⟨a.takeWhile (fun c => c ≠ '\n'), (a.dropWhile (fun c => c ≠ '\n')).tail, ?_, ?_⟩
          · have hne : a.dropWhile (fun c => c ≠ '\n') ≠ [] := by
              exact dropWhile_some _ '\n' (by simp) a hn
            have hh : a.dropWhile (fun c => c ≠ '\n') = '\n' :: (a.dropWhile (fun c => c ≠ '\n')).tail := by
              cases hd : a.dropWhile (fun c => c ≠ '\n') with
              | nil => exact absurd hd hne
              | cons c q =>
                have := List.head?_dropWhile_not (fun c => decide (c ≠ '\n')) a
                rw [hd] at this
                simp at this
                simp [this]
            rw [← hh]
            exact List.takeWhile_append_dropWhile.symm
          · intro hm
            have := takeWhile_mem _ _ _ hm
            simp at this
        have hq' : '"' ∉ q' := fun h => hq (by rw [e']; simp [h])
        have hp'' : '"' ∉ p' := fun h => hq (by rw [e']; simp [h])
        have e2 : a ++ '"' :: v ++ '"' :: b = p' ++ '\n' :: (q' ++ '"' :: v ++ '"' :: b) := by rw [e']; simp
        rw [e2, hsplit _ _ hp', List.findSome?_cons, quoted_none p' hp'']
        simp only
        exact ih q' (by rw [e'] at hl; simp at hl; omega) hq'
      · exact main a hn hq
  exact hrec a.length a (le_refl _) ha

theorem lines_nil_quoted : (lines []).findSome? quoted = none := by decide

/-- C105: the value stated for a keyword in the attributes of a file is found. -/
theorem c105_value (attrs : List Attr) (keyword v : Text) (hk : keyword ≠ []) (h : Spec.Stated attrs keyword v) :
    parseDatetime attrs keyword = .ok v := by
  obtain ⟨before, s, after, rfl, hb, hs⟩ := h
  obtain ⟨⟨pre, a, b, post, e, h1, h2, h3, h4⟩, ⟨p1, p2, p3⟩, hq⟩ := hs
  unfold parseDatetime
  have hone : ∀ res, search keyword (Attr.text s :: after) res = .ok v := by
    intro res
    unfold search
    have hr : region keyword s = keyword ++ (a ++ '"' :: v ++ '"' :: b) := by
      apply region_some keyword s pre _ post
      · rw [e]; simp
      · exact h1
      · intro n hn
        have := h2 n (by simpa using hn)
        simpa using this
    rw [hr]
    have hf := first_quoted (keyword ++ a) v b (by simp [hq, h3]) p1 p2 h4
    have e3 : keyword ++ (a ++ '"' :: v ++ '"' :: b) = keyword ++ a ++ '"' :: v ++ '"' :: b := by simp
    rw [e3, hf]
    simp only
    rw [if_pos p3]
  have hskip : ∀ (l : List Text) (res : Text), (∀ x ∈ l, ¬ keyword <:+: x) →
      search keyword (l.map Attr.text ++ Attr.text s :: after) res = .ok v := by
    intro l
    induction l with
    | nil => intro res _; exact hone res
    | cons x t ih =>
      intro res hx
      rw [List.map_cons, List.cons_append]
      unfold search
      rw [region_none keyword x hk (hx x (by simp)), lines_nil_quoted]
      exact ih res (fun y hy => hx y (by simp [hy]))
  exact hskip before [] hb

/-- C105: a keyword that no attribute has gives the empty text. -/
theorem c105_absent (texts : List Text) (keyword : Text) (hk : keyword ≠ []) (h : ∀ x ∈ texts, ¬ keyword <:+: x) :
    parseDatetime (texts.map Attr.text) keyword = .ok [] := by
  unfold parseDatetime
  induction texts with
  | nil => rfl
  | cons x t ih =>
    rw [List.map_cons]
    unfold search
    rw [region_none keyword x hk (h x (by simp)), lines_nil_quoted]
    exact ih (fun y hy => h y (by simp [hy]))

/-- The attributes of a file state when it begins and ends. -/
structure Spec.Timed (k : Clock) (f : File) (a b : ℚ) : Prop where
  times : ∃ d1 t1 d2 t2 x1 y1 x2 y2, Spec.Stated f.attrs "RANGEBEGINNINGDATE".toList d1 ∧ Spec.Stated f.attrs "RANGEBEGINNINGTIME".toList t1 ∧
    Spec.Stated f.attrs "RANGEENDINGDATE".toList d2 ∧ Spec.Stated f.attrs "RANGEENDINGTIME".toList t2 ∧
    k.day d1 = some x1 ∧ k.time t1 = some y1 ∧ k.day d2 = some x2 ∧ k.time t2 = some y2 ∧ a = x1 + y1 ∧ b = x2 + y2

theorem stated_ne (attrs : List Attr) (kw v : Text) (h : Spec.Stated attrs kw v) : v ≠ [] := by
  obtain ⟨_, _, _, _, _, hs⟩ := h
  exact hs.plain.2.2

theorem fileCube_ok (k : Clock) (f : File) (a b : ℚ) (h : Spec.Timed k f a b) :
    fileCube k f = .ok ⟨a + (b - a) / 2, (a, b), f.grid, f.values⟩ := by
  obtain ⟨d1, t1, d2, t2, x1, y1, x2, y2, s1, s2, s3, s4, e1, e2, e3, e4, rfl, rfl⟩ := h.times
  have i1 : instant k f.attrs "RANGEBEGINNINGDATE".toList "RANGEBEGINNINGTIME".toList = .ok (x1 + y1) := by
    unfold instant
    rw [c105_value _ _ _ (by decide) s1, c105_value _ _ _ (by decide) s2]
    simp [standardTime, stated_ne _ _ _ s1, stated_ne _ _ _ s2, e1, e2]
  have i2 : instant k f.attrs "RANGEENDINGDATE".toList "RANGEENDINGTIME".toList = .ok (x2 + y2) := by
    unfold instant
    rw [c105_value _ _ _ (by decide) s3, c105_value _ _ _ (by decide) s4]
    simp [standardTime, stated_ne _ _ _ s3, stated_ne _ _ _ s4, e3, e4]
  unfold fileCube
  rw [i1]
  simp only
  rw [i2]

/-- C105: files whose attributes state when they begin and end, on one grid and with different middle times, give one slice for each file,
ordered by time: its values on the grid, half way between its beginning and its end, with these as bounds. -/
theorem c105_slices (k : Clock) (files : List File) (span : File → ℚ × ℚ) (h : ∀ f ∈ files, Spec.Timed k f (span f).1 (span f).2)
    (hg : ∀ f ∈ files, ∀ g ∈ files, f.grid = g.grid) (hd : (files.map (fun f => ((span f).1 + (span f).2) / 2)).Nodup) :
    ∃ l, createCube k files = .ok l ∧ l.Pairwise (fun a b => a.time < b.time) ∧
      l.Perm (files.map (fun f => ⟨((span f).1 + (span f).2) / 2, span f, f.grid, f.values⟩)) := by
  have hc : ∀ fs : List File, (∀ f ∈ fs, Spec.Timed k f (span f).1 (span f).2) →
      cubes k fs = .ok (fs.map (fun f => ⟨((span f).1 + (span f).2) / 2, span f, f.grid, f.values⟩)) := by
    intro fs
    induction fs with
    | nil => intro _; rfl
    | cons f t ih =>
      intro hf
      unfold cubes
      rw [fileCube_ok k f _ _ (hf f (by simp))]
      simp only
      rw [ih (fun x hx => hf x (by simp [hx])), List.map_cons]
      have : (span f).1 + ((span f).2 - (span f).1) / 2 = ((span f).1 + (span f).2) / 2 := by ring
      rw [this]
  unfold createCube
  rw [hc files h]
  simp only
  unfold merge
  have hnd : ((files.map (fun f => (⟨((span f).1 + (span f).2) / 2, span f, f.grid, f.values⟩ : Slice))).map Slice.time).Nodup := by
    rw [List.map_map]; exact hd
  rw [if_pos]
  · refine ⟨_, rfl, ?_, List.mergeSort_perm _ _⟩
    have hs := List.pairwise_mergeSort (le := fun (a b : Slice) => decide (a.time ≤ b.time))
      (by intro a b c; simp only [decide_eq_true_eq]; exact le_trans) (by intro a b; simp only [Bool.or_eq_true, decide_eq_true_eq]; exact le_total _ _)
      (files.map (fun f => (⟨((span f).1 + (span f).2) / 2, span f, f.grid, f.values⟩ : Slice)))
    have hn2 := ((List.mergeSort_perm (files.map (fun f => (⟨((span f).1 + (span f).2) / 2, span f, f.grid, f.values⟩ : Slice)))
      (fun (a b : Slice) => decide (a.time ≤ b.time))).map Slice.time).nodup_iff.2 hnd
    rw [List.Nodup, List.pairwise_map] at hn2
    refine (hs.and hn2).imp ?_
    rintro a b ⟨h1, h2⟩
    exact lt_of_le_of_ne (by simpa using h1) h2
  · refine ⟨hnd, ?_⟩
    intro a ha b hb
    obtain ⟨f, hf, rfl⟩ := List.mem_map.1 ha
    obtain ⟨g, hg', rfl⟩ := List.mem_map.1 hb
    exact hg f hf g hg'

/-! ### A concrete case, and where the property fails -/

def exText : Text :=
  "OBJECT = RANGEBEGINNINGDATE\n  NUM_VAL = 1\n  VALUE = \"2010-01-02\"\nEND_OBJECT = RANGEBEGINNINGDATE\n".toList

example : parseDatetime [.text "HDFEOS_V2".toList, .text exText] "RANGEBEGINNINGDATE".toList = .ok "2010-01-02".toList := by decide +kernel

theorem not_prefix_drop (p s : Text) (m : Nat) (h : (List.range m).all (fun n => !(p.isPrefixOf (s.drop n))) = true) :
    ∀ n < m, ¬ p <+: s.drop n := by
  intro n hn hp
  rw [List.all_eq_true] at h
  have := h n (List.mem_range.2 hn)
  rw [(prefix_iff _ _).2 hp] at this
  cases this

example : Spec.Stated [.text "HDFEOS_V2".toList, .text exText] "RANGEBEGINNINGDATE".toList "2010-01-02".toList := by
  refine ⟨["HDFEOS_V2".toList], exText, [], rfl, ?_, ⟨"OBJECT = ".toList, "\n  NUM_VAL = 1\n  VALUE = ".toList, "\n".toList,
    " = RANGEBEGINNINGDATE\n".toList, by decide +kernel, not_prefix_drop _ _ _ (by decide +kernel), not_prefix_drop _ _ _ (by decide +kernel),
    by decide, by decide⟩, ⟨by decide, by decide, by decide⟩, by decide⟩
  intro x hx
  simp only [List.mem_singleton] at hx
  subst hx
  intro hi
  have h1 := hi.length_le
  exact absurd h1 (by decide)

/-- C105 is violated by a file without a date: its data are dated today. -/
theorem c105_today_violated (k : Clock) (texts : List Text) (t : Text) (y : ℚ)
    (h : ∀ x ∈ texts, ¬ "RANGEBEGINNINGDATE".toList <:+: x) (ht : Spec.Stated (texts.map Attr.text) "RANGEBEGINNINGTIME".toList t)
    (hy : k.time t = some y) :
    instant k (texts.map Attr.text) "RANGEBEGINNINGDATE".toList "RANGEBEGINNINGTIME".toList = .ok (k.today + y) := by
  unfold instant
  rw [c105_absent _ _ (by decide) h, c105_value _ _ _ (by decide) ht]
  simp [standardTime, stated_ne _ _ _ ht, hy]

/-- C105 is violated by an attribute that is a number, if it comes before the one that states the value. -/
theorem c105_number_violated (attrs : List Attr) (keyword : Text) : parseDatetime (.number :: attrs) keyword = .error .attribute := rfl

/-- C105 is violated by two values on a line: they are run together. -/
theorem c105_two_values_violated : parseDatetime [.text "K VALUE = (\"2010\", \"2011\") END_OBJECT".toList] "K".toList =
    .ok "2010, 2011".toList := by decide +kernel

/-- C105 is violated by a text that begins with the keyword and has no END_OBJECT: the value of another object is taken. -/
theorem c105_unbounded_violated : parseDatetime [.text "RANGEBEGINNINGDATE\nGRANULE \"MOD08\"\n".toList] "RANGEBEGINNINGDATE".toList =
    .ok "MOD08".toList := by decide +kernel

end Cis.ModisL3
