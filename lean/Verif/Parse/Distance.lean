import Verif.Str.Basic
import Mathlib.Tactic
set_option linter.unusedSectionVars false
set_option linter.unusedSimpArgs false
/-!
Model of the parsing of distances with units: `split_into_float_and_units`, `parse_distance_with_units_to_float_km` and
`parse_distance_with_units_to_float_m` (cis/utils.py:486-547), used for the horizontal and vertical separations of collocation
(col_implementations.py:220-223, 275-281). Property C84.

`float` of a numeral is a parameter with rational values: rounding is not modelled. `\d` is one of the ten digits.
-/
namespace Cis.Distance
open Cis.Str

def isDigit (c : Char) : Bool := decide ('0' ≤ c ∧ c ≤ '9')

/-- The class `[a-zA-z]` (utils.py:541), which also contains the characters between `Z` and `a`. -/
def isUnitChar (c : Char) : Bool := decide ('a' ≤ c ∧ c ≤ 'z') || decide ('A' ≤ c ∧ c ≤ 'z')

/-- `\d*`. -/
def digits (s : Str) : Str := s.takeWhile isDigit

/-- `(?:\d+(?:\.\d*)?|\.\d+)` at the start of `s`: the longest match. -/
def scanMantissa (s : Str) : Option Str :=
  let d := digits s
  if d ≠ [] then
    match s.drop d.length with
    | '.' :: t => some (d ++ '.' :: digits t)
    | _ => some d
  else match s with
    | '.' :: t => if digits t ≠ [] then some ('.' :: digits t) else none
    | _ => none

/-- `[-+]?`. -/
def scanSign (s : Str) : Str :=
  match s with
  | c :: _ => if c = '-' ∨ c = '+' then [c] else []
  | [] => []

/-- `(?:[eE][-+]?\d+)?`. -/
def scanExponent (s : Str) : Str :=
  match s with
  | c :: t =>
    if c = 'e' ∨ c = 'E' then
      let sg := scanSign t
      let d := digits (t.drop sg.length)
      if d ≠ [] then c :: (sg ++ d) else []
    else []
  | [] => []

/-- The regular expression of a number (utils.py:527) at the start of `s`. -/
def scanNumber (s : Str) : Option Str :=
  let sg := scanSign s
  match scanMantissa (s.drop sg.length) with
  | none => none
  | some m => some (sg ++ m ++ scanExponent (s.drop (sg ++ m).length))

/-- `re.findall` (utils.py:527); the fuel is the length of the string. -/
def findNumbers : Nat → Str → List Str
  | 0, _ => []
  | fuel + 1, s =>
    match s with
    | [] => []
    | _ :: t =>
      match scanNumber s with
      | some w => w :: findNumbers fuel (s.drop w.length)
      | none => findNumbers fuel t

/-- `s.replace(w, " ")` (utils.py:537). -/
def replaceBlank (w : Str) : Nat → Str → Str
  | 0, s => s
  | fuel + 1, s =>
    match s with
    | [] => []
    | c :: t => if w.isPrefixOf s then ' ' :: replaceBlank w fuel (s.drop w.length) else c :: replaceBlank w fuel t

/-- `re.findall(r'[a-zA-z]+', s)` (utils.py:540): the maximal runs. -/
def runs (p : Char → Bool) : Str → List Str
  | [] => []
  | c :: t =>
    if p c then
      match t with
      | d :: _ => if p d then (match runs p t with | r :: rs => (c :: r) :: rs | [] => [[c]]) else [c] :: runs p t
      | [] => [[c]]
    else runs p t

/-- The errors: no number, more than one, more than one unit, unknown unit (all InvalidCommandLineOptionError). -/
inductive Err
  | noNumber
  | numbers
  | units
  | unknown
deriving DecidableEq

/-- `split_into_float_and_units` (utils.py:517-547): the text of the number and the units. -/
def splitUnits (s : Str) : Except Err (Str × Option Str) :=
  match findNumbers s.length s with
  | [] => .error .noNumber
  | [w] =>
    match runs isUnitChar (replaceBlank w s.length s) with
    | [] => .ok (w, none)
    | [u] => .ok (w, some u)
    | _ => .error .units
  | _ => .error .numbers

/-- `parse_distance_with_units_to_float_km` (utils.py:486-501). -/
def parseKm (flt : Str → ℚ) (s : Str) : Except Err ℚ :=
  match splitUnits s with
  | .error e => .error e
  | .ok (w, u) =>
    if u = some ['m'] then .ok (flt w / 1000)
    else if u = some ['k', 'm'] ∨ u = none then .ok (flt w)
    else .error .unknown

/-- `parse_distance_with_units_to_float_m` (utils.py:504-514). -/
def parseM (flt : Str → ℚ) (s : Str) : Except Err ℚ :=
  match splitUnits s with
  | .error e => .error e
  | .ok (w, u) =>
    if u = none then .ok (flt w)
    else match parseKm flt s with
      | .error e => .error e
      | .ok d => .ok (d * 1000)

/-! ### Specification -/

/-- Non-empty digits. -/
def Spec.Digits (d : Str) : Prop := d ≠ [] ∧ ∀ c ∈ d, isDigit c = true

/-- Numerals: optional sign, digits with an optional decimal point, optional exponent. -/
inductive Spec.Mantissa : Str → Prop
  | int (d : Str) (h : Spec.Digits d) : Spec.Mantissa d
  | frac (d f : Str) (h : Spec.Digits d) (hf : ∀ c ∈ f, isDigit c = true) : Spec.Mantissa (d ++ '.' :: f)
  | point (f : Str) (h : Spec.Digits f) : Spec.Mantissa ('.' :: f)

def Spec.Sign (s : Str) : Prop := s = [] ∨ s = ['-'] ∨ s = ['+']

inductive Spec.Exponent : Str → Prop
  | none : Spec.Exponent []
  | exp (e : Char) (sg d : Str) (he : e = 'e' ∨ e = 'E') (hs : Spec.Sign sg) (hd : Spec.Digits d) : Spec.Exponent (e :: (sg ++ d))

def Spec.Numeral (w : Str) : Prop := ∃ sg m e, w = sg ++ m ++ e ∧ Spec.Sign sg ∧ Spec.Mantissa m ∧ Spec.Exponent e

/-- A unit: letters. -/
def Spec.Letters (u : Str) : Prop := ∀ c ∈ u, ('a' ≤ c ∧ c ≤ 'z') ∨ ('A' ≤ c ∧ c ≤ 'Z')

/-- Blanks. -/
def Spec.Blanks (b : Str) : Prop := ∀ c ∈ b, c = ' '

/-! ### Proofs -/

/-- Text without digits and points. -/
def NoNum (r : Str) : Prop := ∀ c ∈ r, isDigit c = false ∧ c ≠ '.'

theorem digits_append (d r : Str) (hd : ∀ c ∈ d, isDigit c = true) (hr : ∀ c t, r = c :: t → isDigit c = false) : digits (d ++ r) = d := by
  unfold digits
  rw [List.takeWhile_append_of_pos hd]
  cases r with
  | nil => simp
  | cons c t => rw [List.takeWhile_cons_of_neg (by simp [hr c t rfl])]; simp

theorem digits_noNum (r : Str) (hr : NoNum r) : digits r = [] := by
  have := digits_append [] r (by simp) (fun c t h => (hr c (by simp [h])).1)
  simpa using this

theorem noNum_tail (r : Str) (n : Nat) (h : NoNum r) : NoNum (r.drop n) := fun c hc => h c (List.mem_of_mem_drop hc)

theorem scanMantissa_noNum (r : Str) (h : NoNum r) : scanMantissa r = none := by
  unfold scanMantissa
  rw [digits_noNum r h]
  simp only [ne_eq, not_true_eq_false, if_false]
  split
  · rename_i t
    exact absurd rfl (h '.' (by simp)).2
  · rfl

theorem scanNumber_noNum (r : Str) (h : NoNum r) : scanNumber r = none := by
  unfold scanNumber
  simp only [scanMantissa_noNum _ (noNum_tail r _ h)]

theorem findNumbers_noNum (fuel : Nat) (r : Str) (h : NoNum r) : findNumbers fuel r = [] := by
  induction fuel generalizing r with
  | zero => rfl
  | succ n ih =>
    cases r with
    | nil => rfl
    | cons c t =>
      rw [findNumbers, scanNumber_noNum _ h]
      exact ih t (fun x hx => h x (by simp [hx]))

theorem sign_head (s : Str) (h : ∀ c t, s = c :: t → c ≠ '-' ∧ c ≠ '+') : scanSign s = [] := by
  unfold scanSign
  split
  · rename_i c t
    have := h c t rfl
    rw [if_neg (by rw [not_or]; exact this)]
  · rfl

theorem digit_not_sign (c : Char) (h : isDigit c = true) : c ≠ '-' ∧ c ≠ '+' ∧ c ≠ '.' := by
  refine ⟨?_, ?_, ?_⟩ <;> (rintro rfl; revert h; decide)

theorem scanSign_append (sg t : Str) (hs : Spec.Sign sg) (ht : ∀ c u, t = c :: u → c ≠ '-' ∧ c ≠ '+') : scanSign (sg ++ t) = sg := by
  rcases hs with rfl | rfl | rfl
  · simpa using sign_head t ht
  · rfl
  · rfl

theorem scanExponent_append (e r : Str) (he : Spec.Exponent e) (hr : NoNum r) : scanExponent (e ++ r) = e := by
  cases he with
  | none =>
    rw [List.nil_append]
    unfold scanExponent
    split
    · rename_i c t
      split
      · have ht : NoNum t := fun x hx => hr x (by simp [hx])
        simp only [digits_noNum _ (noNum_tail t _ ht)]
        simp
      · rfl
    · rfl
  | exp c sg d hc hs hd =>
    have hd0 : ∀ x u, d ++ r = x :: u → x ≠ '-' ∧ x ≠ '+' := by
      intro x u hx
      obtain ⟨y, d', rfl⟩ := List.exists_cons_of_ne_nil hd.1
      simp only [List.cons_append, List.cons.injEq] at hx
      rw [← hx.1]
      have := digit_not_sign y (hd.2 y (by simp))
      exact ⟨this.1, this.2.1⟩
    have h1 : scanSign (sg ++ (d ++ r)) = sg := scanSign_append sg _ hs hd0
    have h2 : digits (d ++ r) = d := digits_append d r hd.2 (fun x u hx => (hr x (by simp [hx])).1)
    unfold scanExponent
    simp only [List.cons_append, List.append_assoc]
    rw [if_pos hc]
    simp only [h1, List.drop_left, h2]
    rw [if_pos hd.1]

theorem scanMantissa_append (m t : Str) (hm : Spec.Mantissa m) (ht : ∀ c u, t = c :: u → isDigit c = false ∧ c ≠ '.') :
    scanMantissa (m ++ t) = some m := by
  unfold scanMantissa
  cases hm with
  | int _ h =>
    have h1 : digits (m ++ t) = m := digits_append m t h.2 (fun c u hc => (ht c u hc).1)
    simp only [h1, List.drop_left]
    rw [if_pos h.1]
    split
    · rename_i u
      exact absurd rfl (ht '.' u rfl).2
    · rfl
  | frac d f h hf =>
    have h1 : digits (d ++ '.' :: (f ++ t)) = d := digits_append d _ h.2 (by rintro c u ⟨⟩; decide)
    have h2 : digits (f ++ t) = f := digits_append f t hf (fun c u hc => (ht c u hc).1)
    rw [List.append_assoc, List.cons_append]
    simp only [h1, List.drop_left, h2]
    rw [if_pos h.1]
  | point f h =>
    have h1 : digits ('.' :: (f ++ t)) = [] := by
      have := digits_append [] ('.' :: (f ++ t)) (by simp) (by rintro c u ⟨⟩; decide)
      simpa using this
    have h2 : digits (f ++ t) = f := digits_append f t h.2 (fun c u hc => (ht c u hc).1)
    rw [List.cons_append]
    simp only [h1, h2]
    simp [h.1]

theorem mantissa_head (m : Str) (hm : Spec.Mantissa m) : ∃ c u, m = c :: u ∧ c ≠ '-' ∧ c ≠ '+' := by
  cases hm with
  | int _ h =>
    obtain ⟨c, u, rfl⟩ := List.exists_cons_of_ne_nil h.1
    have := digit_not_sign c (h.2 c (by simp))
    exact ⟨c, u, rfl, this.1, this.2.1⟩
  | frac d f h hf =>
    obtain ⟨c, u, rfl⟩ := List.exists_cons_of_ne_nil h.1
    have := digit_not_sign c (h.2 c (by simp))
    exact ⟨c, _, rfl, this.1, this.2.1⟩
  | point f h => exact ⟨'.', f, rfl, by decide, by decide⟩

theorem mantissa_digit (m : Str) (hm : Spec.Mantissa m) : ∃ c ∈ m, isDigit c = true := by
  cases hm with
  | int _ h =>
    obtain ⟨c, u, rfl⟩ := List.exists_cons_of_ne_nil h.1
    exact ⟨c, by simp, h.2 c (by simp)⟩
  | frac d f h hf =>
    obtain ⟨c, u, rfl⟩ := List.exists_cons_of_ne_nil h.1
    exact ⟨c, by simp, h.2 c (by simp)⟩
  | point f h =>
    obtain ⟨c, u, rfl⟩ := List.exists_cons_of_ne_nil h.1
    exact ⟨c, by simp, h.2 c (by simp)⟩

/-- A numeral followed by text without digits is found as a whole. -/
theorem scanNumber_append (w r : Str) (hw : Spec.Numeral w) (hr : NoNum r) : scanNumber (w ++ r) = some w := by
  obtain ⟨sg, m, e, rfl, hs, hm, he⟩ := hw
  have h1 : scanSign (sg ++ (m ++ (e ++ r))) = sg := by
    apply scanSign_append sg _ hs
    intro c u hc
    obtain ⟨c', u', rfl, h2⟩ := mantissa_head m hm
    simp only [List.cons_append, List.cons.injEq] at hc
    rw [← hc.1]
    exact h2
  have h2 : scanMantissa (m ++ (e ++ r)) = some m := by
    apply scanMantissa_append m _ hm
    intro c u hc
    cases he with
    | none => exact hr c (by rw [List.nil_append] at hc; simp [hc])
    | exp x sg' d hx _ _ =>
      simp only [List.cons_append, List.cons.injEq] at hc
      rw [← hc.1]
      rcases hx with rfl | rfl <;> decide
  unfold scanNumber
  have e1 : sg ++ m ++ e ++ r = sg ++ (m ++ (e ++ r)) := by simp
  rw [e1]
  simp only [h1, List.drop_left, h2]
  have e2 : (sg ++ (m ++ (e ++ r))).drop (sg ++ m).length = e ++ r := by
    rw [← List.append_assoc, List.drop_left]
  rw [e2, scanExponent_append e r he hr]

theorem numeral_ne (w : Str) (hw : Spec.Numeral w) : w ≠ [] ∧ ∃ c ∈ w, isDigit c = true := by
  obtain ⟨sg, m, e, rfl, hs, hm, he⟩ := hw
  obtain ⟨c, hc, hd⟩ := mantissa_digit m hm
  have : c ∈ sg ++ m ++ e := by simp [hc]
  exact ⟨List.ne_nil_of_mem this, c, this, hd⟩

theorem findNumbers_append (w r : Str) (hw : Spec.Numeral w) (hr : NoNum r) : findNumbers (w ++ r).length (w ++ r) = [w] := by
  obtain ⟨c, u, rfl⟩ := List.exists_cons_of_ne_nil (numeral_ne w hw).1
  have hs := scanNumber_append _ r hw hr
  rw [List.cons_append] at hs ⊢
  rw [List.length_cons, findNumbers]
  simp only [hs]
  have : (c :: (u ++ r)).drop (c :: u).length = r := by rw [← List.cons_append, List.drop_left]
  rw [this, findNumbers_noNum _ r hr]

theorem replaceBlank_none (w : Str) (hw : ∃ c ∈ w, isDigit c = true) (fuel : Nat) (r : Str) (hr : NoNum r) : replaceBlank w fuel r = r := by
  induction fuel generalizing r with
  | zero => rfl
  | succ n ih =>
    cases r with
    | nil => rfl
    | cons c t =>
      rw [replaceBlank, if_neg, ih t (fun x hx => hr x (by simp [hx]))]
      intro h
      rw [List.isPrefixOf_iff_prefix] at h
      obtain ⟨x, hx, hd⟩ := hw
      have := (hr x (h.subset hx)).1
      rw [hd] at this
      cases this

theorem replaceBlank_append (w r : Str) (hw : Spec.Numeral w) (hr : NoNum r) : replaceBlank w (w ++ r).length (w ++ r) = ' ' :: r := by
  obtain ⟨h1, h2⟩ := numeral_ne w hw
  obtain ⟨c, u, rfl⟩ := List.exists_cons_of_ne_nil h1
  rw [List.cons_append, List.length_cons, replaceBlank]
  rw [if_pos (by rw [List.isPrefixOf_iff_prefix]; exact ⟨r, by simp⟩)]
  have : (c :: (u ++ r)).drop (c :: u).length = r := by rw [← List.cons_append, List.drop_left]
  rw [this, replaceBlank_none _ h2 _ r hr]

theorem runs_all (p : Char → Bool) (u : Str) (hu : ∀ c ∈ u, p c = true) (hne : u ≠ []) : runs p u = [u] := by
  induction u with
  | nil => exact absurd rfl hne
  | cons c t ih =>
    cases t with
    | nil => simp [runs, hu c (by simp)]
    | cons d t =>
      have := ih (fun x hx => hu x (by simp at hx ⊢; tauto)) (by simp)
      rw [runs, if_pos (hu c (by simp)), if_pos (hu d (by simp)), this]

theorem runs_blanks (b u : Str) (hb : Spec.Blanks b) : runs isUnitChar (b ++ u) = runs isUnitChar u := by
  induction b with
  | nil => rfl
  | cons c t ih =>
    have : c = ' ' := hb c (by simp)
    subst this
    have hu : runs isUnitChar (' ' :: (t ++ u)) = runs isUnitChar (t ++ u) := by
      cases t ++ u with
      | nil => decide
      | cons x y => rw [runs, if_neg (by decide)]
    rw [List.cons_append, hu]
    exact ih (fun x hx => hb x (by simp [hx]))

theorem letter_spec (c : Char) (h : ('a' ≤ c ∧ c ≤ 'z') ∨ ('A' ≤ c ∧ c ≤ 'Z')) : isUnitChar c = true ∧ isDigit c = false ∧ c ≠ '.' := by
  have n1 : ('a' : Char).val.toNat = 97 := by decide
  have n2 : ('z' : Char).val.toNat = 122 := by decide
  have n3 : ('A' : Char).val.toNat = 65 := by decide
  have n4 : ('Z' : Char).val.toNat = 90 := by decide
  have n5 : ('0' : Char).val.toNat = 48 := by decide
  have n6 : ('9' : Char).val.toNat = 57 := by decide
  refine ⟨?_, ?_, ?_⟩
  · unfold isUnitChar
    rw [Bool.or_eq_true, decide_eq_true_eq, decide_eq_true_eq]
    simp only [Char.le_def, UInt32.le_iff_toNat_le] at h ⊢
    omega
  · unfold isDigit
    rw [decide_eq_false_iff_not]
    simp only [Char.le_def, UInt32.le_iff_toNat_le] at h ⊢
    omega
  · rintro rfl
    revert h
    decide

/-- C84: number and units are separated as written. -/
theorem splitUnits_append (w b u : Str) (hw : Spec.Numeral w) (hb : Spec.Blanks b) (hu : Spec.Letters u) :
    splitUnits (w ++ (b ++ u)) = .ok (w, if u = [] then none else some u) := by
  have hr : NoNum (b ++ u) := by
    intro c hc
    rcases List.mem_append.1 hc with hc | hc
    · rw [hb c hc]; decide
    · exact (letter_spec c (hu c hc)).2
  unfold splitUnits
  rw [findNumbers_append w _ hw hr]
  simp only
  rw [replaceBlank_append w _ hw hr]
  have : runs isUnitChar (' ' :: (b ++ u)) = runs isUnitChar u := by
    have := runs_blanks (' ' :: b) u (by intro c hc; rcases List.mem_cons.1 hc with rfl | hc; rfl; exact hb c hc)
    simpa using this
  rw [this]
  by_cases h : u = []
  · subst h; rfl
  · rw [runs_all isUnitChar u (fun c hc => (letter_spec c (hu c hc)).1) h, if_neg h]

/-- C84: distances in km. A number without units is in km; any other units are refused. -/
theorem c84_km (flt : Str → ℚ) (w b u : Str) (hw : Spec.Numeral w) (hb : Spec.Blanks b) (hu : Spec.Letters u) :
    parseKm flt (w ++ (b ++ u)) = if u = [] ∨ u = "km".toList then .ok (flt w) else if u = "m".toList then .ok (flt w / 1000) else .error .unknown := by
  unfold parseKm
  rw [splitUnits_append w b u hw hb hu]
  have e1 : "km".toList = ['k', 'm'] := rfl
  have e2 : "m".toList = ['m'] := rfl
  rw [e1, e2]
  simp only
  by_cases h : u = []
  · subst h; simp
  · by_cases h2 : u = ['m']
    · subst h2; simp
    · simp [h, h2]

/-- C84: distances in m. A number without units is in m; any other units are refused. -/
theorem c84_m (flt : Str → ℚ) (w b u : Str) (hw : Spec.Numeral w) (hb : Spec.Blanks b) (hu : Spec.Letters u) :
    parseM flt (w ++ (b ++ u)) = if u = [] ∨ u = "m".toList then .ok (flt w) else if u = "km".toList then .ok (flt w * 1000) else .error .unknown := by
  unfold parseM
  rw [splitUnits_append w b u hw hb hu]
  simp only
  by_cases h : u = []
  · subst h; simp
  · rw [if_neg h, if_neg (by simp)]
    rw [c84_km flt w b u hw hb hu]
    by_cases h2 : u = "km".toList
    · subst h2; simp
    · by_cases h3 : u = "m".toList
      · subst h3
        rw [if_neg (by decide), if_pos rfl, if_pos (by decide)]
        simp
      · rw [if_neg (by rw [not_or]; exact ⟨h, h2⟩), if_neg h3, if_neg (by rw [not_or]; exact ⟨h, h3⟩), if_neg h2]

/-- C84: text without digits is refused. -/
theorem c84_no_number (flt : Str → ℚ) (s : Str) (h : ∀ c ∈ s, isDigit c = false ∧ c ≠ '.') :
    parseKm flt s = .error .noNumber ∧ parseM flt s = .error .noNumber := by
  have : splitUnits s = .error .noNumber := by
    unfold splitUnits
    rw [findNumbers_noNum _ s h]
  simp [parseKm, parseM, this]

/-- C84 is violated by units with characters outside the class of letters: they are skipped, 10 micrometres are 10 metres. -/
theorem c84_micrometre_violated (flt : Str → ℚ) : parseM flt "10µm".toList = .ok (flt "10".toList / 1000 * 1000) ∧
    parseKm flt "10%".toList = .ok (flt "10".toList) := by
  have h1 : splitUnits "10µm".toList = .ok ("10".toList, some "m".toList) := by decide +kernel
  have h2 : splitUnits "10%".toList = .ok ("10".toList, none) := by decide +kernel
  constructor
  · unfold parseM
    rw [h1]
    simp only
    rw [if_neg (by simp)]
    unfold parseKm
    rw [h1]
    simp only
    rw [if_pos (by decide)]
  · unfold parseKm
    rw [h2]
    simp

example : Spec.Numeral "-1.5e3".toList :=
  ⟨['-'], "1.5".toList, "e3".toList, rfl, Or.inr (Or.inl rfl),
    .frac ['1'] ['5'] ⟨by decide, by decide⟩ (by decide), .exp 'e' [] ['3'] (Or.inl rfl) (Or.inl rfl) ⟨by decide, by decide⟩⟩

example : Spec.Letters "km".toList ∧ splitUnits "-1.5e3 km".toList = .ok ("-1.5e3".toList, some "km".toList) := by
  refine ⟨by unfold Spec.Letters; decide, by decide +kernel⟩

example : splitUnits "1 2km".toList = .error .numbers := by decide +kernel

end Cis.Distance
