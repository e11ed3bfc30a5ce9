import Verif.Parse.Model
import Mathlib.Tactic
set_option linter.unusedSectionVars false
set_option linter.unusedSimpArgs false
/-!
Model of the parsing of subset limits and aggregation grids: `get_subset_limits` (cis/parse.py:509-568), `get_aggregate_grid`
(parse.py:440-487), `parse_float` (parse.py:302-319), `parse_as_number_or_datetime` (parse_datetime.py:176-195). Properties C81, C82.

The conversions of strings to numbers and dates are parameters (they are the subject of C24-C26). A `float` is a rational
number, an infinity or NaN; rounding is not modelled. The regular expressions are modelled by hand; `$` before a final line feed is
not.
-/
namespace Cis.Limits
open Cis.Str Cis.Parse

/-- A `float`. -/
inductive Fl
  | fin (q : ℚ)
  | pinf
  | ninf
  | nan
deriving DecidableEq

/-- `a <= b`. -/
def Fl.le : Fl → Fl → Bool
  | .nan, _ => false
  | _, .nan => false
  | .ninf, _ => true
  | _, .pinf => true
  | .fin a, .fin b => decide (a ≤ b)
  | _, _ => false

/-- `a - b`. -/
def Fl.sub : Fl → Fl → Fl
  | .nan, _ => .nan
  | _, .nan => .nan
  | .pinf, .pinf => .nan
  | .ninf, .ninf => .nan
  | .pinf, _ => .pinf
  | .ninf, _ => .ninf
  | _, .pinf => .ninf
  | _, .ninf => .pinf
  | .fin a, .fin b => .fin (a - b)

/-- Exceptions: `parser.error` (which ends the program with a message), TypeError, ArgumentTypeError, IndexError. -/
inductive Err
  | parser
  | type
  | argument
  | index
deriving DecidableEq

/-- A limit: none, a number or a date. -/
inductive Val (D : Type)
  | none
  | num (f : Fl)
  | date (d : D)
deriving DecidableEq

/-- The limits of a dimension, or the text of a shape. -/
inductive Lim (D : Type)
  | pair (a b : Val D)
  | shape (s : Str)
deriving DecidableEq

/-- The conversions: `float(s)`, dates, and dates standing for an interval. -/
structure Conv (D : Type) where
  flt : Str → Option Fl
  date : Str → Option D
  interval : Str → Option (D × D)
  delta : Str → Option D

variable {D : Type}

/-- The segment split by the regular expression (parse.py:529): dimension, start and end. -/
def matchLimits (seg : Str) : Option (Str × Str × Option Str) :=
  let dim := seg.takeWhile (· != '=')
  match seg.drop dim.length with
  | '=' :: '[' :: t =>
    let start := t.takeWhile (fun c => c != ']' && c != ',')
    if dim = [] ∨ start = [] then none
    else match t.drop start.length with
      | [']'] => some (dim, start, none)
      | ',' :: u =>
        let e := u.takeWhile (fun c => c != ']' && c != ',')
        if e = [] then none
        else match u.drop e.length with
          | [']'] => some (dim, start, some e)
          | _ => none
      | _ => none
  | _ => none

/-- `parse_float` (parse.py:302-319). -/
def parseFloat (cv : Conv D) (s : Option Str) : Except Err (Val D) :=
  match s with
  | none => .ok .none
  | some s =>
    if s = "None".toList then .ok .none
    else match cv.flt s with
      | some f => .ok (.num f)
      | none => .error .parser

/-- `parse_as_number_or_datetime` (parse_datetime.py:176-195); an `int` is a `float` here. -/
def parseValue (cv : Conv D) (s : Option Str) : Except Err (Val D) :=
  match s with
  | none => .ok .none
  | some s =>
    if s = "None".toList then .ok .none
    else match cv.flt s with
      | some f => .ok (.num f)
      | none => match cv.date s with
        | some d => .ok (.date d)
        | none => .error .argument

/-- `parse_datetime` of the parser (parse_datetime.py): an error of the parser if it is not a date. -/
def parseDate (cv : Conv D) (s : Str) : Except Err (Val D) :=
  if s = "None".toList then .ok .none
  else match cv.date s with
    | some d => .ok (.date d)
    | none => .error .parser

def lower (s : Str) : Str := s.map Char.toLower

/-- The check of longitudes (parse.py:556-562, 476-482); comparisons with None or a date raise TypeError. -/
def checkLon (a b : Val D) : Except Err Unit :=
  match a, b with
  | .num a, .num b =>
    if !(a.le b) then .error .parser
    else if !((b.sub a).le (.fin 360)) then .error .parser
    else .ok ()
  | _, _ => .error .type

/-- One segment of the limits (parse.py:525-567): name and limits. -/
def subsetSeg (cv : Conv D) (seg : Str) : Except Err (Str × Lim D) :=
  if ("shape".toList).isPrefixOf seg then
    match (splitChar '=' seg)[1]? with
    | some s => .ok ("shape".toList, .shape s)
    | none => .error .index
  else match matchLimits seg with
    | none => .error .parser
    | some (dim, l1, l2) =>
      if lower dim = "t".toList ∨ lower dim = "time".toList then
        match l2 with
        | none => match cv.interval l1 with
          | some (a, b) => .ok (dim, .pair (.date a) (.date b))
          | none => .error .parser
        | some l2 => match parseDate cv l1 with
          | .error e => .error e
          | .ok a => match parseDate cv l2 with
            | .error e => .error e
            | .ok b => .ok (dim, .pair a b)
      else if lower dim = "x".toList ∨ lower dim = "y".toList ∨ lower dim = "z".toList then
        match parseFloat cv (some l1) with
        | .error e => .error e
        | .ok a => match parseFloat cv l2 with
          | .error e => .error e
          | .ok b =>
            if lower dim = "x".toList then
              match checkLon a b with
              | .error e => .error e
              | .ok _ => .ok (dim, .pair a b)
            else .ok (dim, .pair a b)
      else match parseValue cv (some l1) with
        | .error e => .error e
        | .ok a => match parseValue cv l2 with
          | .error e => .error e
          | .ok b => .ok (dim, .pair a b)

/-- Assignment to a dictionary. -/
def dictSet {V : Type} (d : List (Str × V)) (k : Str) (v : V) : List (Str × V) :=
  if d.any (fun e => e.1 == k) then d.map (fun e => if e.1 == k then (k, v) else e) else d ++ [(k, v)]

/-- The loop over the segments. -/
def segLoop {V : Type} (f : Str → Except Err (Str × V)) : List Str → List (Str × V) → Except Err (List (Str × V))
  | [], d => .ok d
  | s :: t, d =>
    match f s with
    | .error e => .error e
    | .ok (k, v) => segLoop f t (dictSet d k v)

/-- `get_subset_limits` (parse.py:509-568). -/
def subsetLimits (cv : Conv D) (s : Str) : Except Err (List (Str × Lim D)) :=
  let segs := splitOutside [','] defaultClose s
  if segs.length = 0 then .error .parser else segLoop (subsetSeg cv) segs []

/-- The part of the regular expression in brackets (parse.py:457-458): start, end and spacing, each may be missing. `none`: no match. -/
def matchGridBrackets (t : Str) : Option (Option Str × Option Str × Option Str) :=
  let opt := fun (s : Str) => if s = [] then none else some s
  let delta := fun (u : Str) => -- `(?:,(?P<delta>[^]]+))?\]`
    match u with
    | ']' :: _ => some none
    | ',' :: w =>
      let d := w.takeWhile (· != ']')
      if d = [] then none else match w.drop d.length with
        | ']' :: _ => some (some d)
        | _ => none
    | _ => none
  let start := t.takeWhile (fun c => c != ']' && c != ',')
  let u := t.drop start.length
  let withoutEnd := (delta u).map (fun d => (opt start, none, d))
  match u with
  | ',' :: w =>
    let e := w.takeWhile (fun c => c != ']' && c != ',')
    if e = [] then withoutEnd
    else match delta (w.drop e.length) with
      | some d => some (opt start, some e, d)
      | none => withoutEnd
  | _ => withoutEnd

/-- The regular expression of the grid (parse.py:457-458): dimension, start, end and spacing. -/
def matchGrid (seg : Str) : Option (Str × Option Str × Option Str × Option Str) :=
  let dim := seg.takeWhile (· != '=')
  if dim = [] then none
  else
    let rest := match seg.drop dim.length with
      | '=' :: t => t
      | t => t
    match rest with
    | '[' :: t => match matchGridBrackets t with
      | some r => some (dim, r)
      | none => some (dim, none, none, none)
    | _ => some (dim, none, none, none)

/-- The grid of a dimension: none for a complete collapse, or start, end and spacing. -/
inductive Grid (D : Type)
  | collapse
  | slice (a b : Val D) (delta : Val D)
deriving DecidableEq

/-- `parse_as_number_or_datetime_delta` (parse_datetime.py:212-229). -/
def parseDelta (cv : Conv D) (s : Str) : Except Err (Val D) :=
  match cv.flt s with
  | some f => .ok (.num f)
  | none => match cv.delta s with
    | some d => .ok (.date d)
    | none => .error .argument

/-- One segment of the grid (parse.py:454-485). -/
def gridSeg (cv : Conv D) (seg : Str) : Except Err (Str × Grid D) :=
  match matchGrid seg with
  | none => .error .parser
  | some (dim, s, e, d) =>
    if s = none ∧ d = none then .ok (dim, .collapse)
    else match e, d with
      | none, _ => .error .parser
      | _, none => .error .parser
      | some e, some d =>
        match parseValue cv s with
        | .error x => .error x
        | .ok a => match parseValue cv (some e) with
          | .error x => .error x
          | .ok b => match parseDelta cv d with
            | .error x => .error x
            | .ok dl =>
              if lower dim = "x".toList then
                match checkLon a b with
                | .error x => .error x
                | .ok _ => .ok (dim, .slice a b dl)
              else .ok (dim, .slice a b dl)

/-- `get_aggregate_grid` (parse.py:440-487). -/
def aggregateGrid (cv : Conv D) (s : Str) : Except Err (List (Str × Grid D)) :=
  let segs := splitOutside [','] defaultClose s
  if segs.length = 0 then .error .parser else segLoop (gridSeg cv) segs []

/-! ### Specification -/

/-- A non-empty string without any of the given characters. -/
def Spec.Word (bad : List Char) (s : Str) : Prop := s ≠ [] ∧ ∀ c ∈ s, c ∉ bad

/-- `dim=[start]` or `dim=[start,end]`. -/
def Spec.render (dim start : Str) (e : Option Str) : Str :=
  dim ++ "=[".toList ++ start ++ (match e with | none => [] | some e => ',' :: e) ++ "]".toList

/-- What a value of `x` must satisfy. -/
def Spec.LonRange (a b : Val D) : Prop := ∃ p q : ℚ, a = .num (.fin p) ∧ b = .num (.fin q) ∧ p ≤ q ∧ q ≤ p + 360

/-! ### Proofs -/

theorem takeWhile_append_stop (p : Char → Bool) (w : Str) (c : Char) (t : Str) (hw : ∀ x ∈ w, p x = true) (hc : p c = false) :
    (w ++ c :: t).takeWhile p = w := by
  rw [List.takeWhile_append_of_pos hw, List.takeWhile_cons_of_neg (by simp [hc]), List.append_nil]

/-- What the first part is. -/
theorem takeWhile_spec (p : Char → Bool) (s : Str) : (∀ x ∈ s.takeWhile p, p x = true) ∧ s = s.takeWhile p ++ s.drop (s.takeWhile p).length := by
  induction s with
  | nil => simp
  | cons c t ih =>
    by_cases h : p c = true
    · rw [List.takeWhile_cons_of_pos h]
      refine ⟨?_, ?_⟩
      · intro x hx
        rcases List.mem_cons.1 hx with rfl | hx
        · exact h
        · exact ih.1 x hx
      · rw [List.length_cons, List.drop_succ_cons, List.cons_append, ← ih.2]
    · rw [List.takeWhile_cons_of_neg h]
      simp

/-- The check of two numbers either passes or ends the program with a message. -/
theorem checkLon_num (a b : Fl) : checkLon (.num a : Val D) (.num b) = .ok () ∨ checkLon (.num a : Val D) (.num b) = .error .parser := by
  unfold checkLon
  simp only
  split
  · exact Or.inr rfl
  · split
    · exact Or.inr rfl
    · exact Or.inl rfl

/-- The regular expression of the limits accepts exactly the rendered segments. -/
theorem matchLimits_iff (seg dim start : Str) (e : Option Str) : matchLimits seg = some (dim, start, e) ↔
    Spec.Word ['='] dim ∧ Spec.Word [']', ','] start ∧ (∀ x, e = some x → Spec.Word [']', ','] x) ∧ seg = Spec.render dim start e := by
  constructor
  · intro h
    unfold matchLimits at h
    simp only at h
    obtain ⟨a1, a2⟩ := takeWhile_spec (· != '=') seg
    generalize hd : seg.takeWhile (· != '=') = dm at h a1 a2
    split at h
    · rename_i t ht
      rw [ht] at a2
      obtain ⟨b1, b2⟩ := takeWhile_spec (fun c => c != ']' && c != ',') t
      generalize hs : t.takeWhile (fun c => c != ']' && c != ',') = st at h b1 b2
      split at h
      · cases h
      · rename_i hne
        rw [not_or] at hne
        have w1 : Spec.Word ['='] dm := ⟨hne.1, fun c hc => by simpa using a1 c hc⟩
        have w2 : Spec.Word [']', ','] st := ⟨hne.2, fun c hc => by simpa using b1 c hc⟩
        split at h
        · rename_i h1
          cases h
          rw [h1] at b2
          refine ⟨w1, w2, by simp, ?_⟩
          rw [a2, b2]
          simp [Spec.render]
        · rename_i u h1
          rw [h1] at b2
          obtain ⟨c1, c2⟩ := takeWhile_spec (fun c => c != ']' && c != ',') u
          generalize he : u.takeWhile (fun c => c != ']' && c != ',') = ee at h c1 c2
          split at h
          · cases h
          · rename_i hne2
            split at h
            · rename_i h2
              cases h
              rw [h2] at c2
              refine ⟨w1, w2, ?_, ?_⟩
              · intro x hx
                cases hx
                exact ⟨hne2, fun c hc => by simpa using c1 c hc⟩
              · rw [a2, b2, c2]
                simp [Spec.render]
            · cases h
        · cases h
    · cases h
  · rintro ⟨w1, w2, w3, rfl⟩
    have h1 : ∀ x ∈ dim, (x != '=') = true := fun x hx => by simpa using w1.2 x hx
    have h2 : ∀ x ∈ start, (x != ']' && x != ',') = true := fun x hx => by simpa using w2.2 x hx
    cases e with
    | none =>
      have e1 : Spec.render dim start none = dim ++ '=' :: ('[' :: (start ++ ']' :: [])) := by simp [Spec.render]
      unfold matchLimits
      rw [e1]
      simp only [takeWhile_append_stop _ dim '=' _ h1 (by rfl), List.drop_left]
      simp only [takeWhile_append_stop _ start ']' _ h2 (by rfl), List.drop_left]
      rw [if_neg (by rw [not_or]; exact ⟨w1.1, w2.1⟩)]
    | some e =>
      have h3 : ∀ x ∈ e, (x != ']' && x != ',') = true := fun x hx => by simpa using (w3 e rfl).2 x hx
      have e1 : Spec.render dim start (some e) = dim ++ '=' :: ('[' :: (start ++ ',' :: (e ++ ']' :: []))) := by simp [Spec.render]
      unfold matchLimits
      rw [e1]
      simp only [takeWhile_append_stop _ dim '=' _ h1 (by rfl), List.drop_left]
      simp only [takeWhile_append_stop _ start ',' _ h2 (by rfl), List.drop_left]
      rw [if_neg (by rw [not_or]; exact ⟨w1.1, w2.1⟩)]
      simp only [takeWhile_append_stop _ e ']' _ h3 (by rfl), List.drop_left]
      rw [if_neg (w3 e rfl).1]

/-- The check accepts exactly the finite pairs at most 360 apart, in order. -/
theorem checkLon_iff (a b : Val D) : checkLon a b = .ok () ↔ Spec.LonRange a b := by
  unfold Spec.LonRange
  constructor
  · intro h
    unfold checkLon at h
    split at h
    · rename_i a b
      split at h
      · cases h
      · rename_i h1
        split at h
        · cases h
        · rename_i h2
          rw [Bool.not_eq_true, Bool.not_eq_false'] at h1 h2
          cases a with
          | nan => cases b <;> simp [Fl.le] at h1
          | ninf => cases b <;> simp [Fl.le, Fl.sub] at h1 h2
          | pinf => cases b <;> simp [Fl.le, Fl.sub] at h1 h2
          | fin p =>
            cases b with
            | fin q =>
              simp only [Fl.le, Fl.sub, decide_eq_true_eq] at h1 h2
              exact ⟨p, q, rfl, rfl, h1, by linarith⟩
            | nan => simp [Fl.le] at h1
            | pinf => simp [Fl.le, Fl.sub] at h2
            | ninf => simp [Fl.le] at h1
    · cases h
  · rintro ⟨p, q, rfl, rfl, h1, h2⟩
    have h3 : q - p ≤ 360 := by linarith
    simp [checkLon, Fl.le, Fl.sub, h1, h3]

/-- C81: accepted longitude limits, under the name `x`, are finite, in order and at most 360 degrees apart. -/
theorem c81_longitude (cv : Conv D) (seg dim : Str) (l : Lim D) (h : subsetSeg cv seg = .ok (dim, l)) (hx : lower dim = "x".toList) :
    ∃ a b, l = .pair a b ∧ Spec.LonRange a b := by
  unfold subsetSeg at h
  split at h
  · split at h
    · cases h
      exact absurd hx (by decide +kernel)
    · cases h
  · split at h
    · cases h
    · rename_i dm l1 l2 hm
      split at h
      · rename_i ht
        exfalso
        have : dm = dim := by
          split at h
          · split at h
            · cases h; rfl
            · cases h
          · split at h
            · cases h
            · split at h
              · cases h
              · cases h; rfl
        subst this
        rw [hx] at ht
        revert ht
        decide +kernel
      · split at h
        · split at h
          · cases h
          · rename_i a ha
            split at h
            · cases h
            · rename_i b hb
              split at h
              · split at h
                · cases h
                · rename_i hc
                  cases h
                  exact ⟨a, b, rfl, (checkLon_iff a b).1 hc⟩
              · rename_i hne
                cases h
                exact absurd hx hne
        · rename_i hn
          have : dm = dim := by
            split at h
            · cases h
            · split at h
              · cases h
              · cases h; rfl
          subst this
          exact absurd (Or.inl hx) hn

/-- C81: a segment `x=[a,b]` is accepted iff the numbers are finite, in order and at most 360 apart, and gives these numbers. -/
theorem c81_longitude_accepts (cv : Conv D) (s e : Str) (a b : Fl) (hs : Spec.Word [']', ','] s) (he : Spec.Word [']', ','] e)
    (hsn : s ≠ "None".toList) (hen : e ≠ "None".toList) (ha : cv.flt s = some a) (hb : cv.flt e = some b) :
    (Spec.LonRange (D := D) (.num a) (.num b) → subsetSeg cv (Spec.render "x".toList s (some e)) = .ok ("x".toList, .pair (.num a) (.num b))) ∧
      (¬ Spec.LonRange (D := D) (.num a) (.num b) → subsetSeg cv (Spec.render "x".toList s (some e)) = .error .parser) := by
  have hm : matchLimits (Spec.render "x".toList s (some e)) = some ("x".toList, s, some e) :=
    (matchLimits_iff _ _ _ _).2 ⟨⟨by decide, by decide⟩, hs, by rintro x ⟨⟩; exact he, rfl⟩
  have h0 : ("shape".toList).isPrefixOf (Spec.render "x".toList s (some e)) = false := by
    simp only [Spec.render]
    rfl
  have hstep : subsetSeg cv (Spec.render "x".toList s (some e)) = match checkLon (.num a : Val D) (.num b) with
      | .error e => .error e
      | .ok _ => .ok ("x".toList, .pair (.num a) (.num b)) := by
    unfold subsetSeg
    rw [h0, hm]
    simp only [Bool.false_eq_true, if_false]
    rw [if_neg (by decide +kernel), if_pos (by decide +kernel)]
    simp only [parseFloat, if_neg hsn, if_neg hen, ha, hb]
    rw [if_pos (by decide +kernel)]
  rw [hstep]
  constructor
  · intro h
    rw [(checkLon_iff _ _).2 h]
  · intro h
    rcases checkLon_num (D := D) a b with hc | hc
    · exact absurd ((checkLon_iff _ _).1 hc) h
    · rw [hc]

/-- C81 for the other dimensions: a segment `dim=[a,b]` (or `dim=[a]`) gives the values of both limits under its own name. -/
theorem c81_values (cv : Conv D) (dim s : Str) (e : Option Str) (a b : Val D) (hd : Spec.Word ['='] dim) (hs : Spec.Word [']', ','] s)
    (he : ∀ x, e = some x → Spec.Word [']', ','] x) (hsh : ¬ "shape".toList <+: dim)
    (hn : lower dim ∉ ["t".toList, "time".toList, "x".toList, "y".toList, "z".toList])
    (ha : parseValue cv (some s) = .ok a) (hb : parseValue cv e = .ok b) :
    subsetSeg cv (Spec.render dim s e) = .ok (dim, .pair a b) := by
  have hm : matchLimits (Spec.render dim s e) = some (dim, s, e) := (matchLimits_iff _ _ _ _).2 ⟨hd, hs, he, rfl⟩
  have h0 : ("shape".toList).isPrefixOf (Spec.render dim s e) = false := by
    rw [Bool.eq_false_iff]
    intro h
    rw [List.isPrefixOf_iff_prefix] at h
    have h2 : ∃ t, Spec.render dim s e = dim ++ '=' :: t :=
      ⟨'[' :: (s ++ ((match e with | none => [] | some e => ',' :: e) ++ "]".toList)), by cases e <;> simp [Spec.render]⟩
    obtain ⟨t, h2⟩ := h2
    rw [h2] at h
    rcases List.prefix_or_prefix_of_prefix h (List.prefix_append dim ('=' :: t)) with h3 | ⟨w, h3⟩
    · exact hsh h3
    · cases w with
      | nil => rw [List.append_nil] at h3; exact hsh (by rw [h3])
      | cons c w =>
        have h5 : c = '=' := by
          obtain ⟨z, hz⟩ := h
          rw [← h3, List.append_assoc] at hz
          have hz' := congrArg List.head? (List.append_cancel_left hz)
          simpa using hz'
        have : '=' ∈ "shape".toList := by rw [← h3, h5]; simp
        revert this
        decide
  unfold subsetSeg
  rw [h0, hm]
  simp only [List.mem_cons, not_or, List.not_mem_nil] at hn
  obtain ⟨n1, n2, n3, n4, n5, -⟩ := hn
  simp only [Bool.false_eq_true, if_false]
  rw [if_neg (by rw [not_or]; exact ⟨n1, n2⟩), if_neg (by rw [not_or, not_or]; exact ⟨n3, n4, n5⟩), ha, hb]

theorem dictSet_new {V : Type} (d : List (Str × V)) (k : Str) (v : V) (h : k ∉ d.map Prod.fst) : dictSet d k v = d ++ [(k, v)] := by
  unfold dictSet
  rw [if_neg]
  intro hc
  rw [List.any_eq_true] at hc
  obtain ⟨e, he, h2⟩ := hc
  rw [beq_iff_eq] at h2
  exact h (by rw [← h2]; exact List.mem_map_of_mem (f := Prod.fst) he)

/-- C81, C82: if all segments are accepted, with different names, the result has their limits in order; if one is refused, so is
the whole. -/
theorem c81_all_segments {V : Type} (f : Str → Except Err (Str × V)) (segs : List Str) :
    (∀ r, segs.map f = r.map .ok → (r.map Prod.fst).Nodup → segLoop f segs [] = .ok r) ∧
      ((∃ s ∈ segs, ∃ e, f s = .error e) → ∃ e, segLoop f segs [] = .error e) := by
  constructor
  · have key : ∀ (segs : List Str) (r d : List (Str × V)), segs.map f = r.map .ok → ((d ++ r).map Prod.fst).Nodup →
        segLoop f segs d = .ok (d ++ r) := by
      intro segs
      induction segs with
      | nil => intro r d h _; cases r with
        | nil => simp [segLoop]
        | cons _ _ => simp at h
      | cons s t ih =>
        intro r d h hn
        cases r with
        | nil => simp at h
        | cons x r =>
          simp only [List.map_cons, List.cons.injEq] at h
          rw [segLoop, h.1]
          simp only
          have hx : x.1 ∉ d.map Prod.fst := by
            rw [List.map_append, List.nodup_append] at hn
            intro hm
            exact hn.2.2 _ hm x.1 (by simp) rfl
          rw [dictSet_new d x.1 x.2 hx, ih r (d ++ [x]) h.2 (by simpa using hn)]
          simp
    intro r h hn
    simpa using key segs r [] h (by simpa using hn)
  · have key : ∀ (segs : List Str) (d : List (Str × V)), (∃ s ∈ segs, ∃ e, f s = .error e) → ∃ e, segLoop f segs d = .error e := by
      intro segs
      induction segs with
      | nil => rintro d ⟨s, hs, -⟩; cases hs
      | cons s t ih =>
        rintro d ⟨x, hx, e, he⟩
        rw [segLoop]
        cases hs : f s with
        | error e => exact ⟨e, rfl⟩
        | ok kv =>
          simp only
          apply ih
          rcases List.mem_cons.1 hx with rfl | hx
          · rw [hs] at he; cases he
          · exact ⟨x, hx, e, he⟩
    exact key segs []

/-- C81 is violated by longitudes under another name: they are not checked. -/
theorem c81_other_name_violated (cv : Conv D) (h90 : cv.flt "90".toList = some (.fin 90)) (hm90 : cv.flt "-90".toList = some (.fin (-90))) :
    subsetSeg cv "longitude=[90,-90]".toList = .ok ("longitude".toList, .pair (.num (.fin 90)) (.num (.fin (-90)))) := by
  have := c81_values cv "longitude".toList "90".toList (some "-90".toList) (.num (.fin 90)) (.num (.fin (-90)))
    ⟨by decide, by decide⟩ ⟨by decide, by decide⟩ (by rintro x ⟨⟩; exact ⟨by decide, by decide⟩) (by decide) (by decide +kernel)
    (by unfold parseValue; simp only [if_neg (show "90".toList ≠ "None".toList by decide), h90])
    (by unfold parseValue; simp only [if_neg (show "-90".toList ≠ "None".toList by decide), hm90])
  exact this

/-- C81 is violated by `x` with a single limit: TypeError instead of a message. -/
theorem c81_single_longitude_violated (cv : Conv D) (h : cv.flt "5".toList = some (.fin 5)) : subsetSeg cv "x=[5]".toList = .error .type := by
  have hm : matchLimits "x=[5]".toList = some ("x".toList, "5".toList, none) := by decide +kernel
  unfold subsetSeg
  rw [hm, if_neg (by decide)]
  simp only
  rw [if_neg (by decide +kernel), if_pos (by decide +kernel)]
  have : parseFloat cv (some "5".toList) = .ok (.num (.fin 5)) := by
    unfold parseFloat
    simp only [if_neg (show "5".toList ≠ "None".toList by decide), h]
  rw [this]
  simp only [parseFloat]
  rw [if_pos (by decide +kernel)]
  rfl

/-- C81 is violated by dimensions whose names begin with `shape`: the limits are taken for a shape. -/
theorem c81_shape_prefix_violated (cv : Conv D) : subsetSeg cv "shapefactor=[1,2]".toList = .ok ("shape".toList, .shape "[1,2]".toList) := by
  unfold subsetSeg
  rw [if_pos (by decide)]
  rfl

/-! ### Grids -/

/-- `dim=[a,b,c]`. -/
def Spec.renderGrid (dim a b c : Str) : Str := dim ++ "=[".toList ++ a ++ ",".toList ++ b ++ ",".toList ++ c ++ "]".toList

theorem matchGrid_render (dim a b c : Str) (hd : Spec.Word ['='] dim) (ha : Spec.Word [']', ','] a) (hb : Spec.Word [']', ','] b)
    (hc : Spec.Word [']'] c) : matchGrid (Spec.renderGrid dim a b c) = some (dim, some a, some b, some c) := by
  have e1 : Spec.renderGrid dim a b c = dim ++ '=' :: ('[' :: (a ++ ',' :: (b ++ ',' :: (c ++ ']' :: [])))) := by simp [Spec.renderGrid]
  have h1 : ∀ x ∈ dim, (x != '=') = true := fun x hx => by simpa using hd.2 x hx
  have h2 : ∀ x ∈ a, (x != ']' && x != ',') = true := fun x hx => by simpa using ha.2 x hx
  have h3 : ∀ x ∈ b, (x != ']' && x != ',') = true := fun x hx => by simpa using hb.2 x hx
  have h4 : ∀ x ∈ c, (x != ']') = true := fun x hx => by simpa using hc.2 x hx
  have hg : matchGridBrackets (a ++ ',' :: (b ++ ',' :: (c ++ ']' :: []))) = some (some a, some b, some c) := by
    unfold matchGridBrackets
    simp only [takeWhile_append_stop _ a ',' _ h2 (by rfl), List.drop_left]
    simp only [takeWhile_append_stop _ b ',' _ h3 (by rfl), List.drop_left]
    rw [if_neg hb.1]
    simp only [takeWhile_append_stop _ c ']' _ h4 (by rfl), List.drop_left]
    rw [if_neg hc.1, if_neg ha.1]
  unfold matchGrid
  rw [e1]
  simp only [takeWhile_append_stop _ dim '=' _ h1 (by rfl), List.drop_left]
  rw [if_neg hd.1, hg]

/-- C82: a segment `dim=[a,b,c]` gives start, end and spacing under its own name; for `x` it is refused unless start and end are
finite, in order and at most 360 apart. -/
theorem c82_grid (cv : Conv D) (dim a b c : Str) (va vb vc : Val D) (hd : Spec.Word ['='] dim) (ha : Spec.Word [']', ','] a)
    (hb : Spec.Word [']', ','] b) (hc : Spec.Word [']'] c) (pa : parseValue cv (some a) = .ok va) (pb : parseValue cv (some b) = .ok vb)
    (pc : parseDelta cv c = .ok vc) :
    (lower dim ≠ "x".toList ∨ Spec.LonRange va vb → gridSeg cv (Spec.renderGrid dim a b c) = .ok (dim, .slice va vb vc)) ∧
      (lower dim = "x".toList → ¬ Spec.LonRange va vb → ∃ e, gridSeg cv (Spec.renderGrid dim a b c) = .error e) := by
  have hm := matchGrid_render dim a b c hd ha hb hc
  have hs : gridSeg cv (Spec.renderGrid dim a b c) = if lower dim = "x".toList then
      (match checkLon va vb with
        | .error x => .error x
        | .ok _ => .ok (dim, .slice va vb vc)) else .ok (dim, .slice va vb vc) := by
    unfold gridSeg
    rw [hm]
    simp only
    rw [if_neg (by simp)]
    simp only [pa, pb, pc]
  rw [hs]
  constructor
  · rintro (h | h)
    · rw [if_neg h]
    · rw [(checkLon_iff va vb).2 h]
      split <;> rfl
  · intro hx h
    rw [if_pos hx]
    cases hk : checkLon va vb with
    | error e => exact ⟨e, rfl⟩
    | ok u => exact absurd ((checkLon_iff va vb).1 hk) h

/-- C82: a bare name stands for a complete collapse. -/
theorem c82_bare_name (cv : Conv D) (dim : Str) (hd : Spec.Word ['='] dim) : gridSeg cv dim = .ok (dim, .collapse) := by
  have h1 : dim.takeWhile (· != '=') = dim := by
    have h := takeWhile_append_stop (· != '=') dim '=' [] (fun x hx => by simpa using hd.2 x hx) (by rfl)
    rw [List.takeWhile_append_of_pos (fun x hx => by simpa using hd.2 x hx)] at h
    simpa using List.takeWhile_append_of_pos (p := (· != '=')) (l₁ := dim) (l₂ := []) (fun x hx => by simpa using hd.2 x hx)
  unfold gridSeg matchGrid
  simp only [h1, if_neg hd.1, List.drop_length]
  rfl

/-- C82: start and end without spacing are refused. -/
theorem c82_no_delta (cv : Conv D) (dim a b : Str) (hd : Spec.Word ['='] dim) (ha : Spec.Word [']', ','] a) (hb : Spec.Word [']', ','] b) :
    gridSeg cv (Spec.render dim a (some b)) = .error .parser := by
  have e1 : Spec.render dim a (some b) = dim ++ '=' :: ('[' :: (a ++ ',' :: (b ++ ']' :: []))) := by simp [Spec.render]
  have h1 : ∀ x ∈ dim, (x != '=') = true := fun x hx => by simpa using hd.2 x hx
  have h2 : ∀ x ∈ a, (x != ']' && x != ',') = true := fun x hx => by simpa using ha.2 x hx
  have h3 : ∀ x ∈ b, (x != ']' && x != ',') = true := fun x hx => by simpa using hb.2 x hx
  have hg : matchGridBrackets (a ++ ',' :: (b ++ ']' :: [])) = some (some a, some b, none) := by
    unfold matchGridBrackets
    simp only [takeWhile_append_stop _ a ',' _ h2 (by rfl), List.drop_left]
    simp only [takeWhile_append_stop _ b ']' _ h3 (by rfl), List.drop_left]
    rw [if_neg hb.1, if_neg ha.1]
  unfold gridSeg matchGrid
  rw [e1]
  simp only [takeWhile_append_stop _ dim '=' _ h1 (by rfl), List.drop_left]
  rw [if_neg hd.1, hg]
  simp

/-- C82 is violated by a grid whose bracket is not closed: the grid is ignored, and the dimension collapsed completely. -/
theorem c82_unclosed_violated (cv : Conv D) : gridSeg cv "x=[0,360,30".toList = .ok ("x".toList, .collapse) := by
  have : matchGrid "x=[0,360,30".toList = some ("x".toList, none, none, none) := by decide +kernel
  unfold gridSeg
  rw [this]
  simp

/-- C82 is violated by anything else after the name: it is ignored. -/
theorem c82_garbage_violated (cv : Conv D) : gridSeg cv "x=10".toList = .ok ("x".toList, .collapse) ∧
    gridSeg cv "x=[,5]".toList = .ok ("x".toList, .collapse) := by
  have h1 : matchGrid "x=10".toList = some ("x".toList, none, none, none) := by decide +kernel
  have h2 : matchGrid "x=[,5]".toList = some ("x".toList, none, some "5".toList, none) := by decide +kernel
  constructor
  · unfold gridSeg; rw [h1]; simp
  · unfold gridSeg; rw [h2]; simp

/-- Numbers for the examples. -/
def exConv : Conv Unit where
  flt := fun s => (pyInt s).map (fun n => .fin n)
  date := fun _ => none
  interval := fun s => if s = "2010".toList then some ((), ()) else none
  delta := fun _ => none

example : subsetLimits exConv "x=[-10,20],y=[0,5],t=[2010]".toList =
    .ok [("x".toList, .pair (.num (.fin (-10))) (.num (.fin 20))), ("y".toList, .pair (.num (.fin 0)) (.num (.fin 5))),
      ("t".toList, .pair (.date ()) (.date ()))] := by decide +kernel

example : aggregateGrid exConv "x=[0,360,30],time".toList =
    .ok [("x".toList, .slice (.num (.fin 0)) (.num (.fin 360)) (.num (.fin 30))), ("time".toList, .collapse)] := by decide +kernel

example : subsetSeg exConv "x=[90,-90]".toList = .error .parser := by decide +kernel

end Cis.Limits
