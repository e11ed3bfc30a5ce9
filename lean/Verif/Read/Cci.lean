import Verif.Time.Lemmas
import Verif.Str.Basic
import Mathlib.Tactic
set_option linter.unusedSectionVars false
set_option linter.unusedSimpArgs false
/-!
Model of the ESA CCI products (cis/data_io/products/CCI.py): the times in the attributes of the gridded products and the coordinates
of the ungridded ones. Property C94.

`strptime` of the Python library is modelled for the two formats used: regular expressions with the alternatives in Python's order and
backtracking, letters in either case, then the check of the date. Unicode digits and locale are not modelled. The conversion of a date
to a number (`units.date2num`) is a parameter. The ungridded times are converted by C27.
-/
namespace Cis.Cci
open Cis.Time Cis.Str

/-- Exceptions: KeyError, ValueError, NameError, InvalidVariableError, IndexError. -/
inductive Err
  | key
  | value
  | name
  | invalidVariable
  | index
deriving DecidableEq, Repr

/-! ### strptime -/

/-- A directive of the format, or a letter. -/
inductive Dir
  | Y | m | d | H | M | S
  | lit (c : Char)
deriving DecidableEq

def dig (c : Char) : Option Nat := if '0' ≤ c ∧ c ≤ '9' then some (c.toNat - 48) else none

/-- A pair of digits within bounds, or one digit: what one alternative of the regular expressions matches. -/
def two (s : Str) (ok : Nat → Nat → Bool) : List (Nat × Str) :=
  match s with
  | a :: b :: t => match dig a, dig b with
    | some x, some y => if ok x y then [(10 * x + y, t)] else []
    | _, _ => []
  | _ => []

def one (s : Str) (ok : Nat → Bool) : List (Nat × Str) :=
  match s with
  | a :: t => match dig a with
    | some x => if ok x then [(x, t)] else []
    | none => []
  | _ => []

/-- `%Y`: four digits. -/
def four (s : Str) : List (Nat × Str) :=
  match s with
  | a :: b :: c :: d :: t => match dig a, dig b, dig c, dig d with
    | some w, some x, some y, some z => [(1000 * w + 100 * x + 10 * y + z, t)]
    | _, _, _, _ => []
  | _ => []

/-- What a directive can match at the start of the text, in the order in which the regular expression tries it (`_strptime.py`). -/
def options (x : Dir) (s : Str) : List (Nat × Str) :=
  match x with
  | .Y => four s
  | .m => two s (fun a b => a = 1 ∧ b ≤ 2) ++ two s (fun a b => a = 0 ∧ 1 ≤ b) ++ one s (fun a => 1 ≤ a)
  | .d => two s (fun a b => a = 3 ∧ b ≤ 1) ++ two s (fun a _ => a = 1 ∨ a = 2) ++ two s (fun a b => a = 0 ∧ 1 ≤ b) ++ one s (fun a => 1 ≤ a) ++
      (match s with | ' ' :: t => one t (fun a => 1 ≤ a) | _ => [])
  | .H => two s (fun a b => a = 2 ∧ b ≤ 3) ++ two s (fun a _ => a ≤ 1) ++ one s (fun _ => true)
  | .M => two s (fun a _ => a ≤ 5) ++ one s (fun _ => true)
  | .S => two s (fun a b => a = 6 ∧ b ≤ 1) ++ two s (fun a _ => a ≤ 5) ++ one s (fun _ => true)
  | .lit c => match s with
    | a :: t => if a.toUpper = c.toUpper then [(0, t)] else []
    | [] => []

/-- The first match of the format at the start of the text: the values and what is left. -/
def scan : List Dir → Str → Option (List Nat × Str)
  | [], s => some ([], s)
  | x :: f, s => (options x s).findSome? (fun o => (scan f o.2).map (fun r => (o.1 :: r.1, r.2)))

/-- `datetime.strptime`: all of the text must match and the date must exist; a directive that is missing is 1 (day). -/
def strptimeDay (s : Str) : Except Err DateTime :=
  match scan [.Y, .m, .d, .lit 'T', .H, .M, .S, .lit 'Z'] s with
  | some ([y, m, d, _, h, mi, sec, _], []) =>
    if validDT ⟨y, m, d, h, mi, sec, 0⟩ then .ok ⟨y, m, d, h, mi, sec, 0⟩ else .error .value
  | _ => .error .value

def strptimeMonth (s : Str) : Except Err DateTime :=
  match scan [.Y, .m, .lit 'T', .H, .M, .S, .lit 'Z'] s with
  | some ([y, m, _, h, mi, sec, _], []) =>
    if validDT ⟨y, m, 1, h, mi, sec, 0⟩ then .ok ⟨y, m, 1, h, mi, sec, 0⟩ else .error .value
  | _ => .error .value

/-! ### The product -/

/-- `time_str.replace("44T", "T")`. -/
def replace44 : Str → Str
  | [] => []
  | [a] => [a]
  | [a, b] => [a, b]
  | a :: b :: c :: t => if a = '4' ∧ b = '4' ∧ c = 'T' then 'T' :: replace44 t else a :: replace44 (b :: c :: t)

/-- `"44T" in time_str`. -/
def has44 : Str → Bool
  | [] => false
  | a :: t => "44T".toList.isPrefixOf (a :: t) || has44 t

/-- `time + relativedelta(months=1)` (dateutil): the day is cut off at the length of the month. -/
def addMonth (t : DateTime) : Except Err DateTime :=
  let y := if t.month = 12 then t.year + 1 else t.year
  let m := if t.month = 12 then 1 else t.month + 1
  if y ≤ 9999 then .ok { t with year := y, month := m, day := min (daysInMonth y m) t.day } else .error .value

/-- `time + timedelta(days=-1)`. -/
def subDay (t : DateTime) : Except Err DateTime :=
  match prevDay (t.year, t.month, t.day) with
  | some (y, m, d) => .ok { t with year := y, month := m, day := d }
  | none => .error .value

/-- `convert_time_string_to_number` (CCI.py:88-98), without the last step, the conversion to a number. -/
def timeString (s : Str) : Except Err DateTime :=
  if has44 s then
    match strptimeMonth (replace44 s) with
    | .error e => .error e
    | .ok t => match addMonth t with
      | .error e => .error e
      | .ok u => subDay u
  else strptimeDay s

/-- The attributes of a cube. -/
abbrev Attrs := List (Str × Str)

def popAttr (a : Attrs) (k : Str) : Except Err (Str × Attrs) :=
  match a.find? (fun e => e.1 == k) with
  | none => .error .key
  | some e => .ok (e.2, a.filter (fun e => e.1 != k))

/-- The two bounds from the attributes (CCI.py:114-116, 148-150), and the attributes that are left. -/
def bounds (num : DateTime → ℚ) (a : Attrs) : Except Err ((ℚ × ℚ) × Attrs) :=
  match popAttr a "time_coverage_start".toList with
  | .error e => .error e
  | .ok (s, a1) => match timeString s with
    | .error e => .error e
    | .ok t0 => match popAttr a1 "time_coverage_end".toList with
      | .error e => .error e
      | .ok (s', a2) => match timeString s' with
        | .error e => .error e
        | .ok t1 => .ok ((num t0, num t1), a2)

/-- Does the file name contain the text. -/
def hasText (m : Str) : Str → Bool
  | [] => m.isEmpty
  | c :: t => m.isPrefixOf (c :: t) || hasText m t

/-- `Aerosol_CCI_L3.load_single_file_callback` (CCI.py:142-162): centre and bounds of the time of the cube, and its attributes.
`time_coord` in line 156 has no value yet: NameError. -/
def aerosolTime (num : DateTime → ℚ) (filename : Str) (a : Attrs) : Except Err (ℚ × (ℚ × ℚ) × Attrs) :=
  match bounds num a with
  | .ok (b, a') => .ok (1 / 2 * (b.1 + b.2), b, a')
  | .error .value => if hasText "201101-ESACCI".toList filename then .error .name else .error .value
  | .error e => .error e

/-! ### Ungridded products -/

variable {V : Type}

/-- A file: the values of its variables. -/
abbrev File (V : Type) := Str → Option (List V)

/-- `read_many_files_individually` for one variable: all files, one after the other. -/
def readAll : List (File V) → Str → Except Err (List V)
  | [], _ => .ok []
  | f :: t, n => match f n with
    | none => .error .invalidVariable
    | some l => match readAll t n with
      | .error e => .error e
      | .ok r => .ok (l ++ r)

/-- `CCI_L2._create_coord_list` (CCI.py:20-41): longitude, latitude and time, with `fix` for the conversion of times. -/
def coordList (fix : V → V) (files : List (File V)) : Except Err (List V × List V × List V) :=
  let r := fun (lon lat : Str) =>
    match readAll files lon, readAll files lat, readAll files "time".toList with
    | .ok a, .ok b, .ok c => Except.ok (a, b, c.map fix)
    | .error e, _, _ => .error e
    | _, .error e, _ => .error e
    | _, _, .error e => .error e
  match files with
  | [] => .error .index
  | _ => match r "lon".toList "lat".toList with
    | .ok x => .ok x
    | .error _ => r "longitude".toList "latitude".toList

/-- `CCI_L2.create_data_object` (CCI.py:50-57): the values and their coordinates. -/
def createL2 (fix : V → V) (files : List (File V)) (variable' : Str) : Except Err (List V × List V × List V × List V) :=
  match coordList fix files with
  | .error e => .error e
  | .ok (x, y, t) => match readAll files variable' with
    | .error e => .error e
    | .ok d => .ok (d, x, y, t)

/-! ### Specification -/

/-- A digit. -/
def Spec.digit (n : Nat) : Char := Char.ofNat (48 + n % 10)

def Spec.two (n : Nat) : Str := [Spec.digit (n / 10), Spec.digit n]

def Spec.four (n : Nat) : Str := [Spec.digit (n / 1000), Spec.digit (n / 100), Spec.digit (n / 10), Spec.digit n]

/-- `YYYYMMDDThhmmssZ`. -/
def Spec.render (t : DateTime) : Str :=
  Spec.four t.year ++ Spec.two t.month ++ Spec.two t.day ++ "T".toList ++ Spec.two t.hour ++ Spec.two t.minute ++ Spec.two t.second ++ "Z".toList

/-- The same with 44 in place of the day, as in the monthly products. -/
def Spec.render44 (t : DateTime) : Str :=
  Spec.four t.year ++ Spec.two t.month ++ "44T".toList ++ Spec.two t.hour ++ Spec.two t.minute ++ Spec.two t.second ++ "Z".toList

/-! ### Proofs -/

theorem digit_facts : ∀ n : Nat, n < 10 → dig (Char.ofNat (48 + n)) = some n ∧ Char.ofNat (48 + n) ≠ 'T' ∧
    (Char.ofNat (48 + n) = '4' → n = 4) := by decide

theorem dig_digit (n : Nat) : dig (Spec.digit n) = some (n % 10) := (digit_facts (n % 10) (Nat.mod_lt _ (by decide))).1

theorem digit_ne_T (n : Nat) : Spec.digit n ≠ 'T' := (digit_facts (n % 10) (Nat.mod_lt _ (by decide))).2.1

theorem digit_four (n : Nat) (h : Spec.digit n = '4') : n % 10 = 4 := (digit_facts (n % 10) (Nat.mod_lt _ (by decide))).2.2 h

theorem two_eq (n : Nat) (t : Str) (ok : Nat → Nat → Bool) (hn : n < 100) :
    two (Spec.two n ++ t) ok = if ok (n / 10) (n % 10) then [(n, t)] else [] := by
  have h1 : n / 10 % 10 = n / 10 := by omega
  simp only [Spec.two, List.cons_append, List.nil_append, two, dig_digit, h1]
  rw [show 10 * (n / 10) + n % 10 = n by omega]

theorem findSome_first {A B : Type} (f : A → Option B) (l : List A) (a : A) (b : B) (h : l.head? = some a) (hf : f a = some b) :
    l.findSome? f = some b := by
  cases l with
  | nil => cases h
  | cons x t =>
    simp only [List.head?_cons, Option.some.injEq] at h
    subst h
    simp [hf]

theorem head_options_m (n : Nat) (t : Str) (h1 : 1 ≤ n) (h2 : n ≤ 12) : (options .m (Spec.two n ++ t)).head? = some (n, t) := by
  simp only [options, two_eq n t _ (by omega : n < 100)]
  by_cases h : n / 10 = 1
  · have : n % 10 ≤ 2 := by omega
    simp [h, this]
  · have h0 : n / 10 = 0 := by omega
    have : 1 ≤ n % 10 := by omega
    simp [h0, this]

theorem head_options_d (n : Nat) (t : Str) (h1 : 1 ≤ n) (h2 : n ≤ 31) : (options .d (Spec.two n ++ t)).head? = some (n, t) := by
  simp only [options, two_eq n t _ (by omega : n < 100)]
  by_cases h : n / 10 = 3
  · have : n % 10 ≤ 1 := by omega
    simp [h, this]
  · by_cases h' : n / 10 = 1 ∨ n / 10 = 2
    · simp [h, h']
    · have h0 : n / 10 = 0 := by omega
      have : 1 ≤ n % 10 := by omega
      simp [h0, this]

theorem head_options_H (n : Nat) (t : Str) (h2 : n ≤ 23) : (options .H (Spec.two n ++ t)).head? = some (n, t) := by
  simp only [options, two_eq n t _ (by omega : n < 100)]
  by_cases h : n / 10 = 2
  · have : n % 10 ≤ 3 := by omega
    simp [h, this]
  · have h0 : n / 10 ≤ 1 := by omega
    simp [h, h0]

theorem head_options_M (n : Nat) (t : Str) (h2 : n ≤ 59) : (options .M (Spec.two n ++ t)).head? = some (n, t) := by
  simp only [options, two_eq n t _ (by omega : n < 100)]
  have : n / 10 ≤ 5 := by omega
  simp [this]

theorem head_options_S (n : Nat) (t : Str) (h2 : n ≤ 59) : (options .S (Spec.two n ++ t)).head? = some (n, t) := by
  simp only [options, two_eq n t _ (by omega : n < 100)]
  have h1 : n / 10 ≤ 5 := by omega
  have h3 : n / 10 ≠ 6 := by omega
  simp [h1, h3]

theorem head_options_Y (n : Nat) (t : Str) (h2 : n ≤ 9999) : (options .Y (Spec.four n ++ t)).head? = some (n, t) := by
  simp only [options, Spec.four, List.cons_append, List.nil_append, four, dig_digit]
  simp only [List.head?_cons, Option.some.injEq, Prod.mk.injEq, and_true]
  omega

theorem head_options_lit (c : Char) (t : Str) : (options (.lit c) (c :: t)).head? = some (0, t) := by
  simp [options]

theorem scan_cons (x : Dir) (f : List Dir) (s t u : Str) (n : Nat) (r : List Nat) (h : (options x s).head? = some (n, t))
    (hr : scan f t = some (r, u)) : scan (x :: f) s = some (n :: r, u) := by
  rw [scan]
  exact findSome_first _ _ (n, t) _ h (by simp [hr])

theorem scan_time (t : DateTime) (ht : Time.Spec.Real t) :
    scan [.lit 'T', .H, .M, .S, .lit 'Z'] ('T' :: (Spec.two t.hour ++ (Spec.two t.minute ++ (Spec.two t.second ++ ['Z'])))) =
      some ([0, t.hour, t.minute, t.second, 0], []) := by
  obtain ⟨-, -, -, -, -, -, h1, h2, h3, -⟩ := ht
  refine scan_cons _ _ _ _ _ _ _ (head_options_lit 'T' _) ?_
  refine scan_cons _ _ _ _ _ _ _ (head_options_H _ _ h1) ?_
  refine scan_cons _ _ _ _ _ _ _ (head_options_M _ _ h2) ?_
  refine scan_cons _ _ _ _ _ _ _ (head_options_S _ _ h3) ?_
  exact scan_cons _ _ _ _ _ _ _ (head_options_lit 'Z' _) rfl

/-- **C94**: a time written `YYYYMMDDThhmmssZ` is read as that instant, for every date and time of day of the calendar. -/
theorem c94_exact (t : DateTime) (ht : Time.Spec.Real t) (hm : t.microsecond = 0) : timeString (Spec.render t) = .ok t := by
  have hr := ht
  obtain ⟨y1, y2, m1, m2, d1, d2, h1, h2, h3, -⟩ := ht
  have hd : t.day ≤ 31 := le_trans d2 (dim_bounds _ _).2
  have e : Spec.render t = Spec.four t.year ++ (Spec.two t.month ++ (Spec.two t.day ++
      ('T' :: (Spec.two t.hour ++ (Spec.two t.minute ++ (Spec.two t.second ++ ['Z'])))))) := by
    simp [Spec.render]
  have h44 : has44 (Spec.render t) = false := by
    have hT := digit_ne_T
    rw [e]
    have hno : ¬ (Spec.digit (t.day / 10) = '4' ∧ Spec.digit t.day = '4') := by
      rintro ⟨a, b⟩
      have := digit_four _ a
      have := digit_four _ b
      omega
    have hT' : ∀ n, ('T' == Spec.digit n) = false := fun n => by
      rw [beq_eq_false_iff_ne]; exact (hT n).symm
    have h4 : ('4' == Spec.digit (t.day / 10) && ('4' == Spec.digit t.day)) = false := by
      rw [Bool.and_eq_false_iff, beq_eq_false_iff_ne, beq_eq_false_iff_ne]
      by_contra hc
      rw [not_or, not_not, not_not] at hc
      exact hno ⟨hc.1.symm, hc.2.symm⟩
    have hTZ : ('T' == 'Z') = false := by decide
    have h44s : "44T".toList = ['4', '4', 'T'] := rfl
    simp only [Spec.four, Spec.two, List.cons_append, List.nil_append, has44, h44s, List.isPrefixOf, hT', hTZ,
      Bool.and_false, Bool.false_or, Bool.false_and, Bool.and_true, Bool.or_false]
    have h4' := h4
    rw [Bool.and_eq_false_iff] at h4'
    rcases h4' with h5 | h5 <;> simp [h5]
  unfold timeString
  rw [h44]
  simp only [Bool.false_eq_true, if_false]
  unfold strptimeDay
  have hs : scan [.Y, .m, .d, .lit 'T', .H, .M, .S, .lit 'Z'] (Spec.render t) =
      some ([t.year, t.month, t.day, 0, t.hour, t.minute, t.second, 0], []) := by
    rw [e]
    refine scan_cons _ _ _ _ _ _ _ (head_options_Y _ _ y2) ?_
    refine scan_cons _ _ _ _ _ _ _ (head_options_m _ _ m1 m2) ?_
    refine scan_cons _ _ _ _ _ _ _ (head_options_d _ _ d1 hd) ?_
    exact scan_time t hr
  rw [hs]
  simp only
  have ev : (⟨t.year, t.month, t.day, t.hour, t.minute, t.second, 0⟩ : DateTime) = t := by rw [← hm]
  rw [ev, if_pos ((valid_iff t).2 hr)]

theorem replace44_render (t : DateTime) : replace44 (Spec.render44 t) = Spec.four t.year ++ (Spec.two t.month ++
      ('T' :: (Spec.two t.hour ++ (Spec.two t.minute ++ (Spec.two t.second ++ ['Z']))))) := by
  have hT : ∀ n, Spec.digit n ≠ 'T' := digit_ne_T
  simp [Spec.render44, Spec.four, Spec.two, replace44, hT]

theorem has44_render (t : DateTime) : has44 (Spec.render44 t) = true := by
  simp [Spec.render44, Spec.four, Spec.two, has44, List.isPrefixOf]

/-- **C94**: 44 in place of the day stands for the last day of the month, at the time of day written; the last month of year 9999 is out
of range. -/
theorem c94_last_day (t : DateTime) (ht : Time.Spec.Real t) (hm : t.microsecond = 0) (hl : t.day = daysInMonth t.year t.month)
    (hy : t.year < 9999 ∨ t.month < 12) : timeString (Spec.render44 t) = .ok t := by
  have hr := ht
  obtain ⟨y1, y2, m1, m2, d1, d2, h1, h2, h3, -⟩ := ht
  unfold timeString
  rw [has44_render, if_pos rfl, replace44_render]
  have hs : scan [.Y, .m, .lit 'T', .H, .M, .S, .lit 'Z'] (Spec.four t.year ++ (Spec.two t.month ++
      ('T' :: (Spec.two t.hour ++ (Spec.two t.minute ++ (Spec.two t.second ++ ['Z'])))))) =
      some ([t.year, t.month, 0, t.hour, t.minute, t.second, 0], []) := by
    refine scan_cons _ _ _ _ _ _ _ (head_options_Y _ _ y2) ?_
    refine scan_cons _ _ _ _ _ _ _ (head_options_m _ _ m1 m2) ?_
    exact scan_time t hr
  have hp : strptimeMonth (Spec.four t.year ++ (Spec.two t.month ++
      ('T' :: (Spec.two t.hour ++ (Spec.two t.minute ++ (Spec.two t.second ++ ['Z'])))))) =
      .ok ⟨t.year, t.month, 1, t.hour, t.minute, t.second, 0⟩ := by
    unfold strptimeMonth
    rw [hs]
    simp only
    rw [if_pos]
    rw [valid_iff]
    exact ⟨y1, y2, m1, m2, le_refl 1, le_trans (by decide : 1 ≤ 28) (dim_bounds _ _).1, h1, h2, h3, by simp⟩
  rw [hp]
  simp only [addMonth]
  have hmin : ∀ y m, min (daysInMonth y m) 1 = 1 := fun y m => min_eq_right (le_trans (by decide : 1 ≤ 28) (dim_bounds y m).1)
  by_cases hm12 : t.month = 12
  · have hy' : t.year + 1 ≤ 9999 := by omega
    have h31 : t.day = 31 := by rw [hl, hm12]; rfl
    simp only [hm12, if_true, hy', hmin, subDay, prevDay]
    have : (1 : ℕ) < t.year + 1 := by omega
    simp only [lt_irrefl, if_false, this, if_true, Nat.add_sub_cancel]
    rw [← hm, ← hm12, ← h31]
  · simp only [if_neg hm12, if_pos y2, hmin, subDay, prevDay]
    have : (1 : ℕ) < t.month + 1 := by omega
    simp only [lt_irrefl, if_false, this, if_true, Nat.add_sub_cancel]
    rw [← hm, ← hl]

/-- **C94**: attributes written this way become the bounds, their middle is the time, and both attributes are gone while all others stay. -/
theorem c94_time_coordinate (num : DateTime → ℚ) (filename : Str) (a : Attrs) (s s' : Str) (t0 t1 : DateTime)
    (h0 : a.find? (fun e => e.1 == "time_coverage_start".toList) = some ("time_coverage_start".toList, s))
    (h1 : a.find? (fun e => e.1 == "time_coverage_end".toList) = some ("time_coverage_end".toList, s'))
    (hs : timeString s = .ok t0) (hs' : timeString s' = .ok t1) :
    ∃ c a', aerosolTime num filename a = .ok (c, (num t0, num t1), a') ∧ c - num t0 = num t1 - c ∧
      (num t0 ≤ num t1 → num t0 ≤ c ∧ c ≤ num t1) ∧
      ∀ e, e ∈ a' ↔ e ∈ a ∧ e.1 ≠ "time_coverage_start".toList ∧ e.1 ≠ "time_coverage_end".toList := by
  have h1' : (a.filter (fun e => e.1 != "time_coverage_start".toList)).find? (fun e => e.1 == "time_coverage_end".toList) =
      some ("time_coverage_end".toList, s') := by
    rw [List.find?_filter]
    rw [← h1]
    congr 1
    funext e
    by_cases he : e.1 = "time_coverage_end".toList
    · rw [he]; decide
    · have : (e.1 == "time_coverage_end".toList) = false := by rw [beq_eq_false_iff_ne]; exact he
      rw [this]; simp
  have hb : bounds num a = .ok ((num t0, num t1), (a.filter (fun e => e.1 != "time_coverage_start".toList)).filter
      (fun e => e.1 != "time_coverage_end".toList)) := by
    unfold bounds popAttr
    simp only [h0, hs, h1', hs']
  unfold aerosolTime
  rw [hb]
  refine ⟨_, _, rfl, by ring, fun h => ⟨by linarith, by linarith⟩, ?_⟩
  intro e
  simp only [List.mem_filter, bne_iff_ne, ne_eq]
  tauto

/-- **C94** is violated by the one file that the code tries to repair: NameError. -/
theorem c94_repair_violated (num : DateTime → ℚ) (filename : Str) (a : Attrs) (h : hasText "201101-ESACCI".toList filename = true)
    (hb : bounds num a = .error .value) : aerosolTime num filename a = .error .name := by
  unfold aerosolTime
  rw [hb]
  simp only [h, if_true]

/-- Such attributes: the month is 13. -/
example : bounds (fun _ => 0) [("time_coverage_start".toList, "20111301T000000Z".toList)] = .error .value := by decide +kernel

example : hasText "201101-ESACCI".toList "201101-ESACCI-L3C_AEROSOL.nc".toList = true := by decide +kernel

/-- **C94** is violated by text of another length: a month and a day of one digit each are guessed, one of them wrongly. The first of
November and the eleventh of January are written alike. -/
theorem c94_ambiguous_violated : timeString "2011111T000000Z".toList = .ok ⟨2011, 11, 1, 0, 0, 0, 0⟩ := by decide +kernel

example : timeString "20110244T235959Z".toList = .ok ⟨2011, 2, 28, 23, 59, 59, 0⟩ := by decide +kernel

example : timeString "20111301T000000Z".toList = .error .value := by decide +kernel

example : Time.Spec.Real ⟨2012, 2, 29, 23, 59, 59, 0⟩ ∧ Spec.render ⟨2012, 2, 29, 23, 59, 59, 0⟩ = "20120229T235959Z".toList ∧
    (29 = daysInMonth 2012 2) := by
  refine ⟨⟨by decide, by decide, by decide, by decide, by decide, by decide, by decide, by decide, by decide, by decide⟩, by decide +kernel, by decide +kernel⟩

/-! ### Ungridded -/

theorem readAll_ok (files : List (File V)) (n : Str) (vs : List (List V)) (h : files.map (fun f => f n) = vs.map some) :
    readAll files n = .ok vs.flatten := by
  induction files generalizing vs with
  | nil => cases vs with
    | nil => rfl
    | cons _ _ => simp at h
  | cons f t ih =>
    cases vs with
    | nil => simp at h
    | cons v vs =>
      simp only [List.map_cons, List.cons.injEq] at h
      simp only [readAll, h.1, ih vs h.2, List.flatten_cons]

/-- **C94** for the ungridded products: if all files have `lon`, `lat`, `time` and the variable, the data of all files are read one after
the other, and the coordinates likewise. -/
theorem c94_ungridded (fix : V → V) (files : List (File V)) (hne : files ≠ []) (nm : Str) (x y t d : List (List V))
    (hx : files.map (fun f => f "lon".toList) = x.map some) (hy : files.map (fun f => f "lat".toList) = y.map some)
    (ht : files.map (fun f => f "time".toList) = t.map some) (hd : files.map (fun f => f nm) = d.map some) :
    createL2 fix files nm = .ok (d.flatten, x.flatten, y.flatten, (t.map (List.map fix)).flatten) := by
  unfold createL2 coordList
  simp only [readAll_ok files _ x hx, readAll_ok files _ y hy, readAll_ok files _ t ht]
  cases files with
  | nil => exact absurd rfl hne
  | cons f fs =>
    simp only [readAll_ok (f :: fs) nm d hd, List.map_flatten]

/-- **C94** for the ungridded products: files with `longitude` and `latitude` instead. -/
theorem c94_ungridded_long_names (fix : V → V) (files : List (File V)) (hne : files ≠ []) (nm : Str) (x y t d : List (List V))
    (hno : ∃ e, readAll files "lon".toList = .error e) (hx : files.map (fun f => f "longitude".toList) = x.map some)
    (hy : files.map (fun f => f "latitude".toList) = y.map some)
    (ht : files.map (fun f => f "time".toList) = t.map some) (hd : files.map (fun f => f nm) = d.map some) :
    createL2 fix files nm = .ok (d.flatten, x.flatten, y.flatten, (t.map (List.map fix)).flatten) := by
  obtain ⟨e, he⟩ := hno
  unfold createL2 coordList
  simp only [he, readAll_ok files _ x hx, readAll_ok files _ y hy, readAll_ok files _ t ht]
  cases files with
  | nil => exact absurd rfl hne
  | cons f fs =>
    simp only [readAll_ok (f :: fs) nm d hd, List.map_flatten]

/-- What the two theorems give for a single point: point `i` of file `k` has the coordinates of point `i` of file `k`, if the variables
of each file have the same length. -/
theorem c94_aligned (a b : List (List V)) (h : a.map List.length = b.map List.length) (k i : Nat) (u w : List V) (hu : a[k]? = some u)
    (hw : b[k]? = some w) (hi : i < u.length) :
    a.flatten[((a.take k).map List.length).sum + i]? = u[i]? ∧ b.flatten[((a.take k).map List.length).sum + i]? = w[i]? := by
  have key : ∀ (l : List (List V)) (k : Nat) (v : List V), l[k]? = some v → i < v.length →
      l.flatten[((l.take k).map List.length).sum + i]? = v[i]? := by
    intro l
    induction l with
    | nil => intro k v hv; simp at hv
    | cons x t ih =>
      intro k v hv hi
      cases k with
      | zero =>
        simp only [List.getElem?_cons_zero, Option.some.injEq] at hv
        subst hv
        simp [List.getElem?_append_left hi]
      | succ k =>
        simp only [List.getElem?_cons_succ] at hv
        rw [List.take_succ_cons, List.map_cons, List.sum_cons, List.flatten_cons, Nat.add_assoc, List.getElem?_append_right (by omega),
          Nat.add_sub_cancel_left]
        exact ih k v hv hi
  have hlen : u.length = w.length := by
    have h1 : (a.map List.length)[k]? = some u.length := by simp [hu]
    have h2 : (b.map List.length)[k]? = some w.length := by simp [hw]
    rw [h, h2] at h1
    simpa using h1.symm
  have hsum : ((a.take k).map List.length).sum = ((b.take k).map List.length).sum := by
    rw [List.map_take, List.map_take, h]
  exact ⟨key a k u hu hi, by rw [hsum]; exact key b k w hw (by omega)⟩

example : createL2 (· + 100) [(fun n => if n = "lon".toList then some [1, 2] else if n = "lat".toList then some [3, 4]
    else if n = "time".toList then some [5, 6] else if n = "v".toList then some [7, 8] else none : File Nat)] "v".toList =
    .ok ([7, 8], [1, 2], [3, 4], [105, 106]) := by decide +kernel

end Cis.Cci
