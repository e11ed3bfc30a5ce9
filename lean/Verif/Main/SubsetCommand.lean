import Verif.Parse.LimitsProps
import Verif.Coords.Props
import Verif.Subset.Props
import Verif.Time.Parse
import Verif.Time.Order
set_option linter.unusedSectionVars false
set_option linter.unusedSimpArgs false

/-!
# `cis subset`: from the text of the limits to the points kept

The command as a whole, for one ungridded variable: the limits argument is read (`get_subset_limits`, C81), each name is looked up among the
coordinates (C66), missing ends are filled in, longitudes are converted, dates are compared with the dates of the points, and the points within
all limits are kept. `float()` is a parameter. `dateutil.parser.parse` is modelled for the documented form `YYYY[-MM[-DD[{T| }hh[:mm[:ss]]]]]`
(components that are not written are those of the current day), and is a parameter for every other text. Shapes are left out here (C36, C140),
as is the multi-dimensional form of the data (C43 flattens them). Dates of the points are those `num2date` gives for their numbers.
-/
namespace Cis.SubsetCmd
open Cis.Str Cis.Time

variable {V : Type}

/-! ### Reading dates -/

/-- The numbers of a text of the form `YYYY[-MM[-DD[{T| }hh[:mm[:ss]]]]]`, as `dateutil.parser.parse` splits it (parse_datetime.py:11-18). -/
def dateFields (s : Str) : Option (List Nat) :=
  let d := s.takeWhile (fun c => c ≠ 'T' && c ≠ ' ')
  let ds := splitChar '-' d
  let ts := match s.drop d.length with
    | [] => []
    | _ :: t => splitChar ':' t
  if ds.length ≤ 3 ∧ ts.length ≤ 3 ∧ (ts = [] ∨ ds.length = 3) ∧ (∀ f ∈ ds ++ ts, ∀ c ∈ f, c.isDigit = true) ∧
      (ds ++ ts).map List.length = 4 :: List.replicate ((ds ++ ts).length - 1) 2 ∧ 1000 ≤ value (ds.headD [])
  then some ((ds ++ ts).map value) else none

/-- `dateutil.parser.parse` replaces, in the current day at midnight, what is written; a day beyond the end of the month becomes its last day if
it is not written. -/
def complete (today : DateTime) (l : List Nat) : Option DateTime :=
  let y := l.getD 0 today.year
  let m := l.getD 1 today.month
  let t : DateTime := ⟨y, m, (l[2]?).getD (min today.day (daysInMonth y m)), l.getD 3 0, l.getD 4 0, l.getD 5 0, 0⟩
  if validDT t then some t else none

/-- What is outside the code: `float()`, the day of the call, and `dateutil.parser.parse` of other texts. -/
structure Env where
  flt : Str → Option Limits.Fl
  today : DateTime
  other : Str → Option DateTime

/-- `_parse_datetime` (parse_datetime.py:11-18); `none` is its `ValueError`. -/
def parseDatetime (e : Env) (s : Str) : Option DateTime :=
  match dateFields s with
  | some l => complete e.today l
  | none => e.other s

/-- The conversions `get_subset_limits` uses (parse.py:505-559): `float`, `_parse_datetime` (parse_datetime.py:11-18) and the range of
`parse_partial_datetime` (parse_datetime.py:52-70, time_util.py:41-104; the range is taken in `subset`, subset.py:52-55). -/
def conv (e : Env) : Limits.Conv DateTime where
  flt := e.flt
  date := parseDatetime e
  interval := fun s => match parsePartial s with
    | .error _ => none
    | .ok p => match p.range with
      | .ok r => some r
      | .error _ => none
  delta := fun _ => none

/-! ### The data -/

/-- A coordinate's array, with the conversion of its numbers to dates if its units are those of time (`units.num2date`); the identity of the object. -/
structure Column where
  id : Nat
  points : List ℚ
  dates : Option (ℚ → DateTime)

abbrev Crd := Coords.Coord Column

/-- An ungridded variable. -/
structure Data (V : Type) where
  coords : List Crd
  values : List V

/-- The coordinate with another array. -/
def setPoints (c : Crd) (l : List ℚ) : Crd := { c with payload := { c.payload with points := l } }

inductive Err
  | parse (e : Limits.Err)  -- the argument is refused
  | shape                   -- not modelled
  | notFound                -- CoordinateNotFoundError
  | type                    -- TypeError or ValueError: dates where numbers are needed or conversely
  | noData                  -- NoDataInSubsetError

/-- A limit as `subset` passes it on. -/
inductive Bound
  | num (f : Limits.Fl)
  | date (t : DateTime)

/-- `utils.standard_axes` (utils.py:568). -/
def standardAxes : String → Option String
  | "X" => some "longitude"
  | "Y" => some "latitude"
  | "Z" => some "altitude"
  | "T" => some "time"
  | "P" => some "air_pressure"
  | _ => none

/-- A start that is not given is the least value (subset.py:62). -/
def fillStart (c : Column) : Limits.Val DateTime → Bound
  | .none => .num (.fin (Subset.minOf c.points))
  | .num f => .num f
  | .date t => .date t

/-- A stop that is not given is the greatest value (subset.py:63). -/
def fillStop (c : Column) : Limits.Val DateTime → Bound
  | .none => .num (.fin (Subset.maxOf c.points))
  | .num f => .num f
  | .date t => .date t

/-- `Coord.name()` as the key of the dictionary. -/
def key (c : Crd) : Str := ((Coords.name c).getD "").toList

/-- The loop of `subset` (subset.py:29-65): coordinates by `_get_coord`, limits under their names. -/
def keywords (cs : List Crd) : List (Str × Limits.Lim DateTime) → List (Str × Bound × Bound) → Except Err (List (Str × Bound × Bound))
  | [], acc => .ok acc
  | (_, .shape _) :: _, _ => .error .shape
  | (dim, .pair a b) :: t, acc =>
    match Coords.lookupCoord standardAxes cs (String.ofList dim) with
    | none => .error .notFound
    | some c => keywords cs t (Limits.dictSet acc (key c) (fillStart c.payload a, fillStop c.payload b))

/-- `<` of floats. -/
def lt (a b : Limits.Fl) : Bool := a.le b && !(b.le a)

/-- The range of longitudes the data are converted to, if any (subset.py:249-267). -/
def newRange (lons : List ℚ) (start stop : Limits.Fl) : Option ℚ :=
  let dataBelowZero := lons.any (fun x => decide (x < 0))
  let dataAbove180 := lons.any (fun x => decide (x > 180))
  let limitsBelowZero := lt start (.fin 0) || lt stop (.fin 0)
  let limitsAbove180 := lt (.fin 180) start || lt (.fin 180) stop
  if dataBelowZero && !dataAbove180 then
    if limitsAbove180 && !limitsBelowZero then some 0 else none
  else if dataAbove180 && !dataBelowZero then
    if limitsBelowZero && !limitsAbove180 then some (-180) else none
  else none

/-- `_create_data_for_subset` (subset.py:229-268): the longitude of the copy is converted; limits that are dates cannot be compared with numbers. -/
def convert : List (Str × Bound × Bound) → List Crd → Except Err (List Crd)
  | [], cs => .ok cs
  | (n, a, b) :: t, cs =>
    match Coords.getCoord cs { sel := .byName (String.ofList n) } with
    | .error _ => convert t cs
    | .ok c =>
      if c.stdName = some "longitude" then
        match a, b with
        | .num a, .num b =>
          match newRange c.payload.points a b with
          | some s => convert t (cs.map (fun x => if x.payload.id = c.payload.id then setPoints x (Lon.fixLongitudeRange x.payload.points s) else x))
          | none => convert t cs
        | _, _ => .error .type
      else convert t cs

/-- The comparison of `datetime` objects, component by component. -/
def dateLe (a b : DateTime) : Bool :=
  decide (a.year < b.year) || (decide (a.year = b.year) && (decide (a.month < b.month) || (decide (a.month = b.month) &&
    (decide (a.day < b.day) || (decide (a.day = b.day) && (decide (a.hour < b.hour) || (decide (a.hour = b.hour) &&
      (decide (a.minute < b.minute) || (decide (a.minute = b.minute) && (decide (a.second < b.second) || (decide (a.second = b.second) &&
        decide (a.microsecond ≤ b.microsecond))))))))))))

/-- The mask of one limit (subset.py:203-210): dates are compared if the start is a date. -/
def limitMask (c : Column) (a b : Bound) : Except Err (List Bool) :=
  match a, b with
  | .num a, .num b => .ok (c.points.map (fun x => (Limits.Fl.fin x).le b && a.le (.fin x)))
  | .date a, .date b =>
    match c.dates with
    | none => .error .type
    | some f => .ok (c.points.map (fun x => dateLe (f x) b && dateLe a (f x)))
  | _, _ => .error .type

/-- The combined mask (subset.py:199-212). -/
def masks (cs : List Crd) : List (Str × Bound × Bound) → List Bool → Except Err (List Bool)
  | [], m => .ok m
  | (n, a, b) :: t, m =>
    match Coords.getCoord cs { sel := .byName (String.ofList n) } with
    | .error _ => .error .notFound
    | .ok c =>
      match limitMask c.payload a b with
      | .error e => .error e
      | .ok k => masks cs t (List.zipWith (· && ·) m k)

/-- `subset` of one variable (subset.py:12-72), once the keyword arguments are limits of the two forms `Lim`, with
`UngriddedSubsetConstraint.constrain` (subset.py:177-227). -/
def call (d : Data V) (l : List (Str × Limits.Lim DateTime)) : Except Err (Data V) :=
  match keywords d.coords l [] with
  | .error x => .error x
  | .ok k =>
    match convert k d.coords with
    | .error x => .error x
    | .ok cs =>
      match masks cs k (List.replicate d.values.length true) with
      | .error x => .error x
      | .ok m =>
        if (Subset.select m d.values).length = 0 then .error .noData
        else .ok ⟨cs.map (fun c => setPoints c (Subset.select m c.payload.points)), Subset.select m d.values⟩

/-- `subset_cmd` (cis_main.py:102-121) up to the save. -/
def run (e : Env) (d : Data V) (text : Str) : Except Err (Data V) :=
  match Limits.subsetLimits (conv e) text with
  | .error x => .error (.parse x)
  | .ok l => call d l

/-! ### Specification -/

/-- A range of numbers, possibly open, or of instants. -/
inductive Spec.Range
  | num (lo hi : Option ℚ)
  | time (lo hi : DateTime)

/-- A number lies in the range: as a number, or as the instant it stands for. -/
def Spec.In (c : Column) : Spec.Range → ℚ → Prop
  | .num lo hi, x => (∀ a, lo = some a → a ≤ x) ∧ (∀ b, hi = some b → x ≤ b)
  | .time lo hi, x => ∃ f, c.dates = some f ∧ Time.Spec.instant lo ≤ Time.Spec.instant (f x) ∧ Time.Spec.instant (f x) ≤ Time.Spec.instant hi

/-- The text is the limit: a finite number, or `None` or the infinity for none. -/
def Spec.Number (e : Env) (s : Str) (inf : Limits.Fl) (v : Option ℚ) : Prop :=
  (s = "None".toList ∧ v = none) ∨ (s ≠ "None".toList ∧ e.flt s = some inf ∧ v = none) ∨
    (s ≠ "None".toList ∧ ∃ q, e.flt s = some (.fin q) ∧ v = some q)

/-- The text is a whole date, `YYYY-MM-DD`, or with the time after `T` or a blank, `hh`, `hh:mm` or `hh:mm:ss`. -/
def Spec.FullDate (s : Str) (t : DateTime) : Prop :=
  Time.Spec.Real t ∧ ∃ (y m d : Str) (sep : Char) (ts : List Str), (∀ f ∈ [y, m, d] ++ ts, ∀ c ∈ f, c.isDigit = true) ∧ y.length = 4 ∧
    1000 ≤ t.year ∧ (∀ f ∈ [m, d] ++ ts, f.length = 2) ∧ ts.length ≤ 3 ∧ (sep = 'T' ∨ sep = ' ') ∧
    s = join '-' [y, m, d] ++ (if ts = [] then [] else sep :: join ':' ts) ∧
    t = ⟨value y, value m, value d, (ts.map value).getD 0 0, (ts.map value).getD 1 0, (ts.map value).getD 2 0, 0⟩

/-- What `dim=[first]` or `dim=[first,second]` says. -/
def Spec.Denotes (e : Env) (dim first : Str) (second : Option Str) : Spec.Range → Prop
  | .num lo hi =>
    Limits.lower dim ∉ ["t".toList, "time".toList] ∧ Spec.Number e first .ninf lo ∧
      ((second = none ∧ hi = none) ∨ ∃ s, second = some s ∧ Spec.Number e s .pinf hi) ∧
      (Limits.lower dim = "x".toList → ∃ a b, lo = some a ∧ hi = some b ∧ a ≤ b ∧ b ≤ a + 360)
  | .time lo hi =>
    (Limits.lower dim ∈ ["t".toList, "time".toList] ∧ second = none ∧ ∃ p, parsePartial first = .ok p ∧ p.range = .ok (lo, hi)) ∨
      (Limits.lower dim ∉ ["x".toList, "y".toList, "z".toList] ∧ ∃ s, second = some s ∧ Spec.FullDate first lo ∧ Spec.FullDate s hi ∧
        e.flt first = none ∧ e.flt s = none)

/-- One limit: as it is written, the coordinate it is for and the range it says. -/
structure Spec.Asked where
  dim : Str
  first : Str
  second : Option Str
  coord : Crd
  range : Spec.Range

/-- Arrays of one length, objects of their own, names that are different. -/
def Data.WF (d : Data V) : Prop :=
  (∀ c ∈ d.coords, c.payload.points.length = d.values.length) ∧ (d.coords.map (fun c => c.payload.id)).Nodup ∧
    (d.coords.map key).Nodup

/-! ### Proofs -/

open Classical in
/-- The shift of longitudes done for the limits. -/
noncomputable def shiftOf : List Spec.Asked → Nat → ℚ → ℚ
  | [] => fun _ => id
  | a :: t => fun i =>
    if a.coord.payload.id = i ∧ a.coord.stdName = some "longitude" then
      match a.range with
      | .num (some lo) (some hi) => Subset.convertFun a.coord.payload.points lo hi
      | _ => id
    else shiftOf t i

/-- The values read for a range. -/
def Fits : Spec.Range → Limits.Val DateTime → Limits.Val DateTime → Prop
  | .num lo hi, va, vb => ((va = .none ∧ lo = none) ∨ (va = .num .ninf ∧ lo = none) ∨ ∃ q, va = .num (.fin q) ∧ lo = some q) ∧
      ((vb = .none ∧ hi = none) ∨ (vb = .num .pinf ∧ hi = none) ∨ ∃ q, vb = .num (.fin q) ∧ hi = some q)
  | .time lo hi, va, vb => va = .date lo ∧ vb = .date hi ∧ Time.Spec.Real lo ∧ Time.Spec.Real hi

theorem join_no (c : Char) (fs : List Str) (x : Char) (hc : x ≠ c) (h : ∀ f ∈ fs, x ∉ f) : x ∉ join c fs := by
  intro hx
  have := Time.join_chars c fs (fun y => y ≠ x) (Ne.symm hc) (fun f hf y hy => by rintro rfl; exact h f hf hy) x hx
  exact this rfl

theorem digit_ne {c x : Char} (h : c.isDigit = true) (hx : x.isDigit = false) : c ≠ x := by rintro rfl; simp [hx] at h

theorem fullDate_parse {e : Env} {s : Str} {t : DateTime} (h : Spec.FullDate s t) : parseDatetime e s = some t ∧ s ≠ "None".toList := by
  obtain ⟨hr, y, m, d, sep, ts, hdig, hy, hy1, hl2, hlen, hsep, rfl, ht⟩ := h
  have hm2 : m.length = 2 := hl2 m (by simp)
  have hd2 : d.length = 2 := hl2 d (by simp)
  have hnd : ∀ f ∈ [y, m, d] ++ ts, ∀ x, x.isDigit = false → x ∉ f := fun f hf x hx hm => by
    have := hdig f hf x hm; simp [hx] at this
  have hjd : ∀ c ∈ join '-' [y, m, d], (c ≠ 'T' && c ≠ ' ') = true := by
    apply Time.join_chars '-' _ (fun c => (c ≠ 'T' && c ≠ ' ') = true) (by decide)
    intro f hf x hx
    have := hdig f (by simp only [List.mem_append]; exact .inl hf) x hx
    have h1 : x ≠ 'T' := digit_ne this (by decide)
    have h2 : x ≠ ' ' := digit_ne this (by decide)
    simp [h1, h2]
  have hsp : splitChar '-' (join '-' [y, m, d]) = [y, m, d] := by
    apply splitChar_join
    · simp
    · intro f hf
      exact hnd f (by simp only [List.mem_append]; exact .inl hf) '-' (by decide)
  have hts : ts ≠ [] → splitChar ':' (join ':' ts) = ts := by
    intro hne
    apply splitChar_join _ _ hne
    intro f hf
    exact hnd f (by simp only [List.mem_append]; exact .inr hf) ':' (by decide)
  have hfields : dateFields (join '-' [y, m, d] ++ (if ts = [] then [] else sep :: join ':' ts)) = some (([y, m, d] ++ ts).map value) := by
    have htw : (join '-' [y, m, d] ++ (if ts = [] then [] else sep :: join ':' ts)).takeWhile (fun c => c ≠ 'T' && c ≠ ' ') = join '-' [y, m, d] := by
      by_cases hn : ts = []
      · rw [if_pos hn, List.append_nil]; exact (Time.takeWhile_self hjd).1
      · rw [if_neg hn, List.takeWhile_append_of_pos hjd, List.takeWhile_cons, if_neg, List.append_nil]
        rcases hsep with rfl | rfl <;> simp
    rw [dateFields]
    simp only [htw, List.drop_left, hsp]
    have hmatch : (match (if ts = [] then [] else sep :: join ':' ts) with | [] => [] | _ :: t => splitChar ':' t) = ts := by
      by_cases hn : ts = []
      · simp [hn]
      · rw [if_neg hn]; exact hts hn
    rw [hmatch, if_pos]
    refine ⟨by simp, hlen, .inr rfl, hdig, ?_, ?_⟩
    · have : ts.map List.length = List.replicate ts.length 2 := by
        rw [List.eq_replicate_iff]
        refine ⟨by simp, ?_⟩
        intro n hn
        obtain ⟨f, hf, rfl⟩ := List.mem_map.1 hn
        exact hl2 f (by simp [hf])
      simp only [List.map_append, List.map_cons, List.map_nil, this, hy, hm2, hd2, List.length_append, List.length_cons, List.length_nil]
      have : 0 + 1 + 1 + 1 + ts.length - 1 = (ts.length + 1) + 1 := by omega
      rw [this, List.replicate_succ, List.replicate_succ]
      rfl
    · rw [ht] at hy1; exact hy1
  refine ⟨?_, ?_⟩
  · rw [parseDatetime, hfields]
    dsimp only
    rw [complete]
    have hval : ∀ t : DateTime, Time.Spec.Real t → (if validDT t then some t else none) = some t := by
      intro t ht; rw [if_pos ((Time.valid_iff t).2 ht)]
    have : (⟨(([y, m, d] ++ ts).map value).getD 0 e.today.year, (([y, m, d] ++ ts).map value).getD 1 e.today.month,
        ((([y, m, d] ++ ts).map value)[2]?).getD (min e.today.day (daysInMonth ((([y, m, d] ++ ts).map value).getD 0 e.today.year)
          ((([y, m, d] ++ ts).map value).getD 1 e.today.month))), (([y, m, d] ++ ts).map value).getD 3 0, (([y, m, d] ++ ts).map value).getD 4 0,
        (([y, m, d] ++ ts).map value).getD 5 0, 0⟩ : DateTime) = t := by
      rw [ht]; simp
    rw [this]
    exact hval t hr
  · intro hN
    have h0 := congrArg List.head? hN
    cases y with
    | nil => simp at hy
    | cons c y =>
      have hc := hdig (c :: y) (by simp) c (by simp)
      have : c = 'N' := by simpa [join] using h0
      rw [this] at hc; revert hc; decide

theorem interval_parse {e : Env} {s : Str} {p : Partial} {lo hi : DateTime} (h : parsePartial s = .ok p) (hr : p.range = .ok (lo, hi)) :
    (conv e).interval s = some (lo, hi) ∧ Time.Spec.Real lo ∧ Time.Spec.Real hi := by
  have hp : newPartial p = .ok p := by
    rw [parsePartial] at h
    split at h
    · split at h
      · cases h
      · have h' := h
        unfold newPartial at h'
        split at h'
        · cases h'
        · split at h' <;> try cases h'
          exact h
    · cases h
  obtain ⟨⟨h1, -⟩, ⟨h2, -⟩, -⟩ := Time.c24_range p hp lo hi hr
  refine ⟨?_, h1, h2⟩
  show (match parsePartial s with | .error _ => none | .ok p => match p.range with | .ok r => some r | .error _ => none) = _
  rw [h]; dsimp only; rw [hr]

theorem number_val {e : Env} {s : Str} {inf : Limits.Fl} {v : Option ℚ} (h : Spec.Number e s inf v) :
    ∃ va : Limits.Val DateTime, Limits.parseFloat (conv e) (some s) = .ok va ∧ Limits.parseValue (conv e) (some s) = .ok va ∧
      ((va = .none ∧ v = none) ∨ (va = .num inf ∧ v = none) ∨ ∃ q, va = .num (.fin q) ∧ v = some q) := by
  rcases h with ⟨h1, h2⟩ | ⟨h1, h2, h3⟩ | ⟨h1, q, h2, h3⟩
  · exact ⟨.none, by simp [Limits.parseFloat, h1], by simp [Limits.parseValue, h1], .inl ⟨rfl, h2⟩⟩
  · have : (conv e).flt s = some inf := h2
    exact ⟨.num inf, by simp only [Limits.parseFloat, if_neg h1, this], by simp only [Limits.parseValue, if_neg h1, this], .inr (.inl ⟨rfl, h3⟩)⟩
  · have : (conv e).flt s = some (.fin q) := h2
    exact ⟨.num (.fin q), by simp only [Limits.parseFloat, if_neg h1, this], by simp only [Limits.parseValue, if_neg h1, this], .inr (.inr ⟨q, rfl, h3⟩)⟩

theorem seg_ok {e : Env} {a : Spec.Asked} (hd : Limits.Spec.Word ['='] a.dim) (hs : Limits.Spec.Word [']', ','] a.first)
    (he : ∀ x, a.second = some x → Limits.Spec.Word [']', ','] x) (hsh : ¬ "shape".toList <+: a.dim)
    (h : Spec.Denotes e a.dim a.first a.second a.range) :
    ∃ va vb, Limits.subsetSeg (conv e) (Limits.Spec.render a.dim a.first a.second) = .ok (a.dim, .pair va vb) ∧ Fits a.range va vb := by
  obtain ⟨h0, hm⟩ := Limits.subsetSeg_eq a.dim a.first a.second hd hs he hsh
  cases hr : a.range with
  | num lo hi =>
    rw [hr] at h
    obtain ⟨h1, h2, h3, h4⟩ := h
    obtain ⟨va, f1, f2, f3⟩ := number_val h2
    obtain ⟨vb, g1, g2, g3⟩ : ∃ vb : Limits.Val DateTime, Limits.parseFloat (conv e) a.second = .ok vb ∧ Limits.parseValue (conv e) a.second = .ok vb ∧
        ((vb = .none ∧ hi = none) ∨ (vb = .num .pinf ∧ hi = none) ∨ ∃ q, vb = .num (.fin q) ∧ hi = some q) := by
      rcases h3 with ⟨h3, h5⟩ | ⟨s, h3, h5⟩
      · exact ⟨.none, by rw [h3]; rfl, by rw [h3]; rfl, .inl ⟨rfl, h5⟩⟩
      · rw [h3]; exact number_val h5
    refine ⟨va, vb, ?_, f3, g3⟩
    rw [Limits.subsetSeg, h0, hm]
    simp only [Bool.false_eq_true, if_false]
    rw [if_neg (by simpa using h1)]
    split
    · rw [f1]; dsimp only; rw [g1]; dsimp only
      split
      · rename_i hx
        obtain ⟨p, q, rfl, rfl, hpq, hpq'⟩ := h4 hx
        obtain ⟨rfl⟩ : va = .num (.fin p) := by rcases f3 with ⟨-, h⟩ | ⟨-, h⟩ | ⟨q', h, h'⟩ <;> simp_all
        obtain ⟨rfl⟩ : vb = .num (.fin q) := by rcases g3 with ⟨-, h⟩ | ⟨-, h⟩ | ⟨q', h, h'⟩ <;> simp_all
        have : Limits.checkLon (D := DateTime) (.num (.fin p)) (.num (.fin q)) = .ok () := by
          have h2 : q - p ≤ 360 := by linarith
          simp [Limits.checkLon, Limits.Fl.le, Limits.Fl.sub, hpq, h2]
        rw [this]
      · rfl
    · rw [f2]; dsimp only; rw [g2]
  | time lo hi =>
    rw [hr] at h
    rcases h with ⟨ht, h2, p, h3, h4⟩ | ⟨hx, s, h2, h3, h4, h5, h6⟩
    · obtain ⟨h5, h6, h7⟩ := interval_parse (e := e) h3 h4
      refine ⟨.date lo, .date hi, ?_, rfl, rfl, h6, h7⟩
      rw [h2]
      exact (Limits.c81_time_interval (conv e) a.dim a.first hd hs (by simpa using ht)).1 lo hi h5
    · obtain ⟨p1, n1⟩ := fullDate_parse (e := e) h3
      obtain ⟨p2, n2⟩ := fullDate_parse (e := e) h4
      refine ⟨.date lo, .date hi, ?_, rfl, rfl, h3.1, h4.1⟩
      have q1 : (conv e).date a.first = some lo := p1
      have q2 : (conv e).date s = some hi := p2
      have q3 : (conv e).flt a.first = none := h5
      have q4 : (conv e).flt s = none := h6
      by_cases ht : Limits.lower a.dim = "t".toList ∨ Limits.lower a.dim = "time".toList
      · rw [h2]
        exact Limits.c81_time_pair (conv e) a.dim a.first s _ _ hd hs (he s h2) ht (.inr ⟨n1, lo, q1, rfl⟩) (.inr ⟨n2, hi, q2, rfl⟩)
      · rw [h2]
        apply Limits.c81_values (conv e) a.dim a.first (some s) _ _ hd hs (by rw [← h2]; exact he) hsh
        · simp only [List.mem_cons, List.not_mem_nil, or_false, not_or] at hx ht ⊢
          exact ⟨ht.1, ht.2, hx.1, hx.2.1, hx.2.2⟩
        · simp only [Limits.parseValue, if_neg n1, q3, q1]
        · simp only [Limits.parseValue, if_neg n2, q4, q2]

/-! Lookups by name -/

theorem name_some (c : Crd) : ∃ s, Coords.name c = some s := by
  unfold Coords.name Coords.orElse
  split
  · rename_i h; cases hc : c.stdName with | none => simp [hc, Coords.truthy] at h | some s => exact ⟨s, rfl⟩
  · split
    · rename_i h; cases hc : c.longName with | none => simp [hc, Coords.truthy] at h | some s => exact ⟨s, rfl⟩
    · split
      · rename_i h; cases hc : c.varName with | none => simp [hc, Coords.truthy] at h | some s => exact ⟨s, rfl⟩
      · exact ⟨_, rfl⟩

theorem key_inj {c c' : Crd} : key c = key c' ↔ Coords.name c = Coords.name c' := by
  obtain ⟨s, hs⟩ := name_some c
  obtain ⟨s', hs'⟩ := name_some c'
  simp [key, hs, hs', String.ext_iff]

theorem filter_unique {α β : Type} [BEq β] [LawfulBEq β] (f : α → β) : ∀ (l : List α), (l.map f).Nodup → ∀ x ∈ l, l.filter (fun y => f y == f x) = [x]
  | [], _, x, h => by cases h
  | a :: t, hn, x, h => by
    simp only [List.map_cons, List.nodup_cons] at hn
    rcases List.mem_cons.1 h with rfl | h
    · have : t.filter (fun y => f y == f x) = [] := by
        rw [List.filter_eq_nil_iff]
        intro y hy he
        exact hn.1 (List.mem_map.2 ⟨y, hy, by simpa using he⟩)
      simp [this]
    · have hne : f a ≠ f x := by
        intro he; exact hn.1 (List.mem_map.2 ⟨x, h, he.symm⟩)
      rw [List.filter_cons, if_neg (by simpa using hne)]
      exact filter_unique f t hn.2 x h

/-- Shifted longitudes of a list of coordinates. -/
def app (sh : Nat → ℚ → ℚ) (c : Crd) : Crd := setPoints c (c.payload.points.map (sh c.payload.id))

theorem app_name (sh : Nat → ℚ → ℚ) (c : Crd) : Coords.name (app sh c) = Coords.name c := rfl

theorem getCoord_key (cs : List Crd) (sh : Nat → ℚ → ℚ) (hn : (cs.map key).Nodup) (c : Crd) (hc : c ∈ cs) :
    Coords.getCoord (cs.map (app sh)) { sel := .byName (String.ofList (key c)) } = .ok (app sh c) := by
  rw [Coords.c45_get_coord_exact]
  left
  have : Coords.getCoords (cs.map (app sh)) { sel := .byName (String.ofList (key c)) } =
      (cs.map (app sh)).filter (fun x => Coords.name x == some (String.ofList (key c))) := rfl
  rw [this]
  have h2 : (fun x : Crd => Coords.name x == some (String.ofList (key c))) = fun x => key x == key (app sh c) := by
    funext x
    obtain ⟨s, hs⟩ := name_some c
    have e1 : some (String.ofList (key c)) = Coords.name c := by simp [key, hs]
    have e2 : key (app sh c) = key c := rfl
    rw [e1, e2, Bool.eq_iff_iff]
    simp only [beq_iff_eq]
    exact key_inj.symm
  rw [h2]
  apply filter_unique key
  · rw [List.map_map]; exact hn
  · exact List.mem_map.2 ⟨c, hc, rfl⟩

theorem lookup_mem (axes : String → Option String) (cs : List Crd) (n : String) (c : Crd) (h : Coords.lookupCoord axes cs n = some c) : c ∈ cs := by
  have ht : ∀ k : Coords.Criteria Column, Coords.tryCoord cs k = some c → c ∈ cs := by
    intro k hk
    unfold Coords.tryCoord at hk
    split at hk
    · rename_i x hx
      obtain rfl : x = c := by simpa using hk
      rcases (Coords.c45_get_coord_exact cs k x).1 hx with h | ⟨-, ⟨-, h⟩ | ⟨n, -, h⟩⟩
      · have : x ∈ Coords.getCoords cs k := by rw [h]; simp
        rw [Coords.c45_get_coords] at this
        exact (List.mem_filter.1 this).1
      · rw [h]; simp
      · have : x ∈ cs.filter (fun y => y.stdName == some n) := by rw [h]; simp
        exact (List.mem_filter.1 this).1
    · cases hk
  unfold Coords.lookupCoord at h
  simp only [Option.orElse_eq_orElse, Option.orElse_eq_or, Option.or_eq_some_iff] at h
  rcases h with h | ⟨-, h⟩
  · exact ht _ h
  · rcases h with h | ⟨-, h⟩
    · exact ht _ h
    · rcases h with h | ⟨-, h⟩
      · exact ht _ h
      · rcases h with h | ⟨-, h⟩
        · exact ht _ h
        · exact ht _ h

/-! The steps of the command -/

/-- A limit with the values read for it. -/
abbrev Read := Spec.Asked × Limits.Val DateTime × Limits.Val DateTime

/-- Its entry in the dictionary of `subset`. -/
def entry (r : Read) : Str × Bound × Bound := (key r.1.coord, fillStart r.1.coord.payload r.2.1, fillStop r.1.coord.payload r.2.2)

theorem dictSet_new {W : Type} (d : List (Str × W)) (k : Str) (v : W) (h : k ∉ d.map Prod.fst) : Limits.dictSet d k v = d ++ [(k, v)] := by
  rw [Limits.dictSet, if_neg]
  simp only [List.any_eq_true, not_exists, not_and, beq_iff_eq]
  intro x hx hk
  exact h (List.mem_map.2 ⟨x, hx, hk⟩)

theorem keywords_ok (cs : List Crd) : ∀ (L : List Read) (acc : List (Str × Bound × Bound)),
    (∀ r ∈ L, Coords.lookupCoord standardAxes cs (String.ofList r.1.dim) = some r.1.coord) →
    (acc.map Prod.fst ++ L.map (fun r => key r.1.coord)).Nodup →
    keywords cs (L.map (fun r => (r.1.dim, .pair r.2.1 r.2.2))) acc = .ok (acc ++ L.map entry)
  | [], acc, _, _ => by simp [keywords]
  | r :: t, acc, h, hn => by
    simp only [List.map_cons, keywords]
    rw [h r (by simp)]
    dsimp only
    rw [dictSet_new, keywords_ok cs t _ (fun r hr => h r (by simp [hr]))]
    · simp [entry]
    · simpa [List.append_assoc] using hn
    · intro hk
      rw [List.nodup_append] at hn
      exact hn.2.2 _ hk _ (by simp) rfl

theorem newRange_fin (lons : List ℚ) (a b : ℚ) : newRange lons (.fin a) (.fin b) = Subset.newRange lons a b := by
  have e1 : ∀ x y : ℚ, lt (.fin x) (.fin y) = decide (x < y) := by
    intro x y
    rw [lt, Bool.eq_iff_iff]
    simp only [Limits.Fl.le, Bool.and_eq_true, decide_eq_true_eq, Bool.not_eq_true', decide_eq_false_iff_not, not_le]
    exact ⟨fun h => h.2, fun h => ⟨h.le, h⟩⟩
  simp only [newRange, Subset.newRange, e1, gt_iff_lt]

/-- The condition on what is asked for a longitude: both ends are given. -/
def BothGiven (a : Spec.Asked) : Prop := a.coord.stdName = some "longitude" → ∃ lo hi, a.range = .num (some lo) (some hi)

theorem shiftOf_none (L : List Spec.Asked) (i : Nat) (h : i ∉ L.map (fun a => a.coord.payload.id)) : shiftOf L i = id := by
  induction L with
  | nil => rfl
  | cons a t ih =>
    simp only [List.map_cons, List.mem_cons, not_or] at h
    rw [shiftOf]
    simp only
    rw [if_neg (fun hc => h.1 hc.1.symm), ih h.2]

theorem app_eq (sh sh' : Nat → ℚ → ℚ) (c : Crd) (h : ∀ x, sh c.payload.id x = sh' c.payload.id x) : app sh c = app sh' c := by
  have : sh c.payload.id = sh' c.payload.id := funext h
  rw [app, app, this]

theorem setPoints_points (c : Crd) : setPoints c c.payload.points = c := rfl

theorem convert_ok (cs : List Crd) (hk : (cs.map key).Nodup) : ∀ (L : List Read) (sh : Nat → ℚ → ℚ),
    (∀ r ∈ L, r.1.coord ∈ cs ∧ BothGiven r.1 ∧ Fits r.1.range r.2.1 r.2.2) →
    (L.map (fun r => r.1.coord.payload.id)).Nodup → (∀ r ∈ L, sh r.1.coord.payload.id = id) →
    convert (L.map entry) (cs.map (app sh)) = .ok (cs.map (app (fun i x => shiftOf (L.map Prod.fst) i (sh i x))))
  | [], sh, _, _, _ => by simp [convert, shiftOf]
  | r :: t, sh, h, hn, hid => by
    obtain ⟨hmem, hboth, hfit⟩ := h r (by simp)
    have hsh := hid r (by simp)
    simp only [List.map_cons, List.nodup_cons] at hn
    have hself : app sh r.1.coord = r.1.coord := by rw [app, hsh, List.map_id]; rfl
    rw [List.map_cons, entry, convert]
    rw [getCoord_key cs sh hk r.1.coord hmem]
    dsimp only
    rw [hself]
    have hnot : ∀ i, shiftOf (List.map Prod.fst t) i = id ∨ i ≠ r.1.coord.payload.id := by
      intro i
      by_cases hi : i = r.1.coord.payload.id
      · left; apply shiftOf_none; rw [hi, List.map_map]; exact hn.1
      · exact .inr hi
    by_cases hlon : r.1.coord.stdName = some "longitude"
    · obtain ⟨lo, hi, hr⟩ := hboth hlon
      rw [hr] at hfit
      obtain ⟨hva, hvb⟩ := hfit
      have ha : r.2.1 = .num (.fin lo) := by rcases hva with ⟨-, h⟩ | ⟨-, h⟩ | ⟨q, h, h'⟩ <;> simp_all
      have hb : r.2.2 = .num (.fin hi) := by rcases hvb with ⟨-, h⟩ | ⟨-, h⟩ | ⟨q, h, h'⟩ <;> simp_all
      rw [if_pos hlon, ha, hb, fillStart, fillStop]
      dsimp only
      rw [newRange_fin]
      have hcf : ∀ sh1 : Nat → ℚ → ℚ, (∀ i x, sh1 i x = if i = r.1.coord.payload.id then Subset.convertFun r.1.coord.payload.points lo hi x else sh i x) →
          convert (t.map entry) (cs.map (app sh1)) = .ok (cs.map (app (fun i x => shiftOf (List.map Prod.fst (r :: t)) i (sh i x)))) := by
        intro sh1 hsh1
        rw [convert_ok cs hk t sh1 (fun r hr => h r (by simp [hr])) hn.2]
        · congr 1
          apply List.map_congr_left
          intro c hc
          apply app_eq
          intro x
          rw [hsh1, List.map_cons, shiftOf]
          simp only
          by_cases he : c.payload.id = r.1.coord.payload.id
          · rw [if_pos he, if_pos ⟨he.symm, hlon⟩, hr]
            simp only
            rcases hnot c.payload.id with h | h
            · rw [h, he, hsh]; rfl
            · exact absurd he h
          · rw [if_neg he, if_neg (fun hc => he hc.1.symm)]
        · intro r' hr'
          have : r'.1.coord.payload.id ≠ r.1.coord.payload.id := by
            intro he; exact hn.1 (List.mem_map.2 ⟨r', hr', he⟩)
          funext x
          rw [hsh1, if_neg this, hid r' (by simp [hr'])]
      cases hnr : Subset.newRange r.1.coord.payload.points lo hi with
      | none =>
        dsimp only
        have hid' : Subset.convertFun r.1.coord.payload.points lo hi = id := by
          unfold Subset.convertFun; rw [hnr]
        apply hcf
        intro i x
        rw [hid']
        split
        · rename_i he; rw [he, hsh]
        · rfl
      | some s =>
        dsimp only
        have hmap : (cs.map (app sh)).map (fun x => if x.payload.id = r.1.coord.payload.id then setPoints x (Lon.fixLongitudeRange x.payload.points s) else x) =
            cs.map (app (fun i x => if i = r.1.coord.payload.id then Subset.convertFun r.1.coord.payload.points lo hi x else sh i x)) := by
          rw [List.map_map]
          apply List.map_congr_left
          intro c hc
          simp only [Function.comp_apply]
          by_cases he : c.payload.id = r.1.coord.payload.id
          · rw [if_pos (by simpa [app, setPoints] using he)]
            have e1 : (app sh c).payload.points = c.payload.points := by
              simp only [app, setPoints, he, hsh, List.map_id]
            have e3 : Lon.fixLongitudeRange c.payload.points s = c.payload.points.map (Subset.convertFun r.1.coord.payload.points lo hi) := by
              unfold Subset.convertFun; rw [hnr]; rfl
            rw [e1, e3]
            show setPoints c _ = setPoints c _
            congr 1
            apply List.map_congr_left
            intro x _
            dsimp only
            rw [if_pos he]
          · rw [if_neg (by simpa [app, setPoints] using he)]
            apply app_eq
            intro x
            rw [if_neg he]
        rw [hmap]
        apply hcf
        intro i x; rfl
    · rw [if_neg hlon, convert_ok cs hk t sh (fun r hr => h r (by simp [hr])) hn.2 (fun r hr => hid r (by simp [hr]))]
      congr 1
      apply List.map_congr_left
      intro c hc
      apply app_eq
      intro x
      rw [List.map_cons, shiftOf]
      simp only
      rw [if_neg (fun hc => hlon hc.2)]

theorem dateLe_iff (a b : DateTime) : dateLe a b = true ↔ Time.Lex a b := by
  simp only [dateLe, Time.Lex, Bool.or_eq_true, Bool.and_eq_true, decide_eq_true_eq]

open Classical in
theorem limitMask_ok (a : Spec.Asked) (va vb : Limits.Val DateTime) (hfit : Fits a.range va vb) (sh : Nat → ℚ → ℚ)
    (hsh : (∃ lo hi, a.range = .num (some lo) (some hi)) ∨ sh a.coord.payload.id = id)
    (hdates : ∀ lo hi, a.range = .time lo hi → ∃ f, a.coord.payload.dates = some f ∧ ∀ x ∈ a.coord.payload.points, Time.Spec.Real (f x)) :
    limitMask (app sh a.coord).payload (fillStart a.coord.payload va) (fillStop a.coord.payload vb) =
      .ok (a.coord.payload.points.map (fun x => decide (Spec.In a.coord.payload a.range (sh a.coord.payload.id x)))) := by
  have hpts : (app sh a.coord).payload.points = a.coord.payload.points.map (sh a.coord.payload.id) := rfl
  cases hr : a.range with
  | num lo hi =>
    rw [hr] at hfit
    obtain ⟨hva, hvb⟩ := hfit
    obtain ⟨fa, ha, hfa⟩ : ∃ fa, fillStart a.coord.payload va = .num fa ∧ ∀ x ∈ a.coord.payload.points,
        (fa.le (.fin (sh a.coord.payload.id x)) = true ↔ ∀ q, lo = some q → q ≤ sh a.coord.payload.id x) := by
      rcases hva with ⟨rfl, rfl⟩ | ⟨rfl, rfl⟩ | ⟨q, rfl, rfl⟩
      · refine ⟨_, rfl, ?_⟩
        intro x hx
        rcases hsh with ⟨lo', hi', h⟩ | h
        · rw [hr] at h; simp at h
        · rw [h]; simp [Limits.Fl.le, (Subset.open_limit a.coord.payload.points x hx).1]
      · exact ⟨_, rfl, fun x _ => by simp [Limits.Fl.le]⟩
      · exact ⟨_, rfl, fun x _ => by simp [Limits.Fl.le]⟩
    obtain ⟨fb, hb, hfb⟩ : ∃ fb, fillStop a.coord.payload vb = .num fb ∧ ∀ x ∈ a.coord.payload.points,
        ((Limits.Fl.fin (sh a.coord.payload.id x)).le fb = true ↔ ∀ q, hi = some q → sh a.coord.payload.id x ≤ q) := by
      rcases hvb with ⟨rfl, rfl⟩ | ⟨rfl, rfl⟩ | ⟨q, rfl, rfl⟩
      · refine ⟨_, rfl, ?_⟩
        intro x hx
        rcases hsh with ⟨lo', hi', h⟩ | h
        · rw [hr] at h; simp at h
        · rw [h]; simp [Limits.Fl.le, (Subset.open_limit a.coord.payload.points x hx).2]
      · exact ⟨_, rfl, fun x _ => by simp [Limits.Fl.le]⟩
      · exact ⟨_, rfl, fun x _ => by simp [Limits.Fl.le]⟩
    rw [ha, hb, limitMask, hpts, List.map_map]
    congr 1
    apply List.map_congr_left
    intro x hx
    rw [Function.comp_apply, Bool.eq_iff_iff, Bool.and_eq_true, decide_eq_true_eq, hfa x hx, hfb x hx, Spec.In]
    exact And.comm
  | time lo hi =>
    obtain ⟨f, hf, hreal⟩ := hdates lo hi hr
    rw [hr] at hfit
    obtain ⟨rfl, rfl, hlo, hhi⟩ := hfit
    have hid : sh a.coord.payload.id = id := by
      rcases hsh with ⟨lo', hi', h⟩ | h
      · rw [hr] at h; cases h
      · exact h
    have hd : (app sh a.coord).payload.dates = some f := hf
    rw [fillStart, fillStop, limitMask, hd]
    dsimp only
    rw [hpts, List.map_map, hid]
    congr 1
    apply List.map_congr_left
    intro x hx
    rw [Function.comp_apply, Bool.eq_iff_iff, Bool.and_eq_true, decide_eq_true_eq, dateLe_iff, dateLe_iff, id, Time.lex_iff (hreal x hx) hhi,
      Time.lex_iff hlo (hreal x hx), Spec.In]
    constructor
    · rintro ⟨h1, h2⟩; exact ⟨f, hf, h2, h1⟩
    · rintro ⟨g, hg, h1, h2⟩
      rw [hf] at hg; cases hg; exact ⟨h2, h1⟩

theorem map_range_getD (l : List ℚ) {β : Type} (g : ℚ → β) : l.map g = (List.range l.length).map (fun i => g (l.getD i 0)) := by
  apply List.ext_getElem
  · simp
  · intro i h1 h2
    simp only [List.length_map] at h1
    simp [List.getD_eq_getElem?_getD, h1]

open Classical in
theorem masks_ok (cs : List Crd) (hk : (cs.map key).Nodup) (n : Nat) (hlen : ∀ c ∈ cs, c.payload.points.length = n) (sh : Nat → ℚ → ℚ) :
    ∀ (L : List Read) (p : Nat → Bool),
    (∀ r ∈ L, r.1.coord ∈ cs ∧ Fits r.1.range r.2.1 r.2.2 ∧
      ((∃ lo hi, r.1.range = .num (some lo) (some hi)) ∨ sh r.1.coord.payload.id = id) ∧
      (∀ lo hi, r.1.range = .time lo hi → ∃ f, r.1.coord.payload.dates = some f ∧ ∀ x ∈ r.1.coord.payload.points, Time.Spec.Real (f x))) →
    masks (cs.map (app sh)) (L.map entry) ((List.range n).map p) =
      .ok ((List.range n).map (fun i => p i && L.all (fun r =>
        decide (Spec.In r.1.coord.payload r.1.range (sh r.1.coord.payload.id (r.1.coord.payload.points.getD i 0))))))
  | [], p, _ => by simp [masks]
  | r :: t, p, h => by
    obtain ⟨h1, h2, h3, h4⟩ := h r (by simp)
    rw [List.map_cons, entry, masks, getCoord_key cs sh hk r.1.coord h1]
    dsimp only
    rw [limitMask_ok r.1 r.2.1 r.2.2 h2 sh h3 h4]
    dsimp only
    rw [map_range_getD, hlen _ h1, Subset.zipWith_and_map, masks_ok cs hk n hlen sh t _ (fun r hr => h r (by simp [hr]))]
    congr 1
    apply List.map_congr_left
    intro i _
    rw [List.all_cons, Bool.and_assoc]

theorem select_range {α : Type} : ∀ (l : List α) (p : Nat → Bool),
    Subset.select ((List.range l.length).map p) l = ((List.range l.length).filter p).filterMap (fun i => l[i]?)
  | [], p => by simp
  | x :: l, p => by
    rw [List.length_cons, List.range_succ_eq_map, List.map_cons, Subset.select_cons, List.map_map, select_range l (p ∘ Nat.succ),
      List.filter_cons, List.filter_map]
    split
    · rw [List.filterMap_cons, List.filterMap_map]; rfl
    · rw [List.filterMap_map]; rfl

/-! ### C180 -/

open Classical in
/-- `subset` with the keyword arguments `L`, that have been understood as the ranges `asked`. -/
theorem call_ok (d : Data V) (hwf : d.WF) (asked : List Spec.Asked) (L : List Read) (hL1 : L.map Prod.fst = asked)
    (hL2 : ∀ r ∈ L, Fits r.1.range r.2.1 r.2.2)
    (hfind : ∀ a ∈ asked, Coords.lookupCoord standardAxes d.coords (String.ofList a.dim) = some a.coord)
    (hdiff : (asked.map (fun a => key a.coord)).Nodup)
    (hlon : ∀ a ∈ asked, a.coord.stdName = some "longitude" → ∃ lo hi, a.range = .num (some lo) (some hi))
    (htime : ∀ a ∈ asked, ∀ lo hi, a.range = .time lo hi →
      ∃ f, a.coord.payload.dates = some f ∧ ∀ x ∈ a.coord.payload.points, Time.Spec.Real (f x)) :
    ∃ shift : Nat → ℚ → ℚ, (∀ j x, Lon.Spec.Same (shift j x) x) ∧
      (∀ a ∈ asked, a.coord.stdName = some "longitude" → ∀ lo hi, a.range = .num (some lo) (some hi) →
        shift a.coord.payload.id = Subset.convertFun a.coord.payload.points lo hi) ∧
      (∀ c ∈ d.coords, c.stdName ≠ some "longitude" ∨ c ∉ asked.map Spec.Asked.coord → shift c.payload.id = id) ∧
      let keep := (List.range d.values.length).filter (fun i => decide (∀ a ∈ asked,
        Spec.In a.coord.payload a.range (shift a.coord.payload.id (a.coord.payload.points.getD i 0))))
      call d (L.map (fun r => (r.1.dim, .pair r.2.1 r.2.2))) =
        if keep = [] then .error .noData
        else .ok ⟨d.coords.map (fun c => setPoints c (keep.filterMap (fun i => (c.payload.points[i]?).map (shift c.payload.id)))),
          keep.filterMap (fun i => d.values[i]?)⟩ := by
  obtain ⟨hlen, hids, hkeys⟩ := hwf
  have hmem : ∀ a ∈ asked, a.coord ∈ d.coords := fun a ha => lookup_mem _ _ _ _ (hfind a ha)
  have hidinj : ∀ c ∈ d.coords, ∀ c' ∈ d.coords, c.payload.id = c'.payload.id → c = c' := fun c hc c' hc' h =>
    List.inj_on_of_nodup_map hids hc hc' h
  have hkeyinj : ∀ c ∈ d.coords, ∀ c' ∈ d.coords, key c = key c' → c = c' := fun c hc c' hc' h =>
    List.inj_on_of_nodup_map hkeys hc hc' h
  have hidn : (asked.map (fun a => a.coord.payload.id)).Nodup := by
    have h1 : (asked.map Spec.Asked.coord).Nodup := by
      have : asked.map (fun a => key a.coord) = (asked.map Spec.Asked.coord).map key := by rw [List.map_map]; rfl
      rw [this] at hdiff; exact hdiff.of_map _
    have : asked.map (fun a => a.coord.payload.id) = (asked.map Spec.Asked.coord).map (fun c => c.payload.id) := by rw [List.map_map]; rfl
    rw [this]
    apply List.Nodup.map_on _ h1
    intro c hc c' hc' h
    obtain ⟨a, ha, rfl⟩ := List.mem_map.1 hc
    obtain ⟨a', ha', rfl⟩ := List.mem_map.1 hc'
    exact hidinj _ (hmem a ha) _ (hmem a' ha') h
  have hLm : ∀ r ∈ L, r.1 ∈ asked := fun r hr => by rw [← hL1]; exact List.mem_map.2 ⟨r, hr, rfl⟩
  have hkw : keywords d.coords (L.map (fun r => (r.1.dim, .pair r.2.1 r.2.2))) [] = .ok (L.map entry) := by
    have := keywords_ok d.coords L [] (fun r hr => hfind r.1 (hLm r hr)) (by
      have : L.map (fun r => key r.1.coord) = (L.map Prod.fst).map (fun a => key a.coord) := by rw [List.map_map]; rfl
      rw [List.map_nil, List.nil_append, this, hL1]; exact hdiff)
    simpa using this
  have happ0 : d.coords.map (app (fun _ => id)) = d.coords := by
    conv_rhs => rw [← List.map_id d.coords]
    apply List.map_congr_left
    intro c _
    rw [app, List.map_id]; rfl
  have hLid : L.map (fun r => r.1.coord.payload.id) = asked.map (fun a => a.coord.payload.id) := by rw [← hL1, List.map_map]; rfl
  have hconv : convert (L.map entry) d.coords = .ok (d.coords.map (app (shiftOf asked))) := by
    have := convert_ok d.coords hkeys L (fun _ => id) (fun r hr => ⟨hmem _ (hLm r hr), hlon _ (hLm r hr), hL2 r hr⟩)
      (by rw [hLid]; exact hidn) (fun _ _ => rfl)
    rw [happ0, hL1] at this
    exact this
  -- properties of the shift
  have hs1 : ∀ (M : List Spec.Asked) j x, Lon.Spec.Same (shiftOf M j x) x := by
    intro M j x
    induction M with
    | nil => exact ⟨0, by simp [shiftOf]⟩
    | cons a t ih =>
      rw [shiftOf]
      simp only
      split
      · cases hr : a.range with
        | time lo hi => exact ⟨0, by simp⟩
        | num lo hi =>
          cases lo with
          | none => exact ⟨0, by simp⟩
          | some lo =>
            cases hi with
            | none => exact ⟨0, by simp⟩
            | some hi => exact Subset.convertFun_same _ _ _ _
      · exact ih
  have hs2 : ∀ (M : List Spec.Asked), (M.map (fun a => a.coord.payload.id)).Nodup → ∀ a ∈ M, a.coord.stdName = some "longitude" →
      ∀ lo hi, a.range = .num (some lo) (some hi) → shiftOf M a.coord.payload.id = Subset.convertFun a.coord.payload.points lo hi := by
    intro M hM a ha hl lo hi hr
    induction M with
    | nil => cases ha
    | cons b t ih =>
      simp only [List.map_cons, List.nodup_cons] at hM
      rw [shiftOf]
      simp only
      rcases List.mem_cons.1 ha with rfl | ha
      · rw [if_pos ⟨rfl, hl⟩, hr]
      · rw [if_neg (fun hc => hM.1 (List.mem_map.2 ⟨a, ha, hc.1.symm⟩))]
        exact ih hM.2 ha
  have hs3 : ∀ c ∈ d.coords, c.stdName ≠ some "longitude" ∨ c ∉ asked.map Spec.Asked.coord → shiftOf asked c.payload.id = id := by
    intro c hc h
    have : ∀ M : List Spec.Asked, (∀ a ∈ M, a ∈ asked) → shiftOf M c.payload.id = id := by
      intro M hM
      induction M with
      | nil => rfl
      | cons a t ih =>
        rw [shiftOf]
        simp only
        rw [if_neg, ih (fun b hb => hM b (by simp [hb]))]
        rintro ⟨h1, h2⟩
        have ha := hM a (by simp)
        have : a.coord = c := hidinj _ (hmem a ha) _ hc h1
        rcases h with h | h
        · exact h (this ▸ h2)
        · exact h (List.mem_map.2 ⟨a, ha, this⟩)
    exact this asked (fun a ha => ha)
  refine ⟨shiftOf asked, hs1 asked, hs2 asked hidn, hs3, ?_⟩
  have hmask : masks (d.coords.map (app (shiftOf asked))) (L.map entry) (List.replicate d.values.length true) =
      .ok ((List.range d.values.length).map (fun i => decide (∀ a ∈ asked,
        Spec.In a.coord.payload a.range (shiftOf asked a.coord.payload.id (a.coord.payload.points.getD i 0))))) := by
    have h0 : List.replicate d.values.length true = (List.range d.values.length).map (fun _ => true) := by simp
    rw [h0, masks_ok d.coords hkeys d.values.length hlen (shiftOf asked) L (fun _ => true)]
    · congr 1
      apply List.map_congr_left
      intro i _
      rw [Bool.true_and, Bool.eq_iff_iff, List.all_eq_true, decide_eq_true_eq]
      constructor
      · intro h a ha
        rw [← hL1] at ha
        obtain ⟨r, hr, rfl⟩ := List.mem_map.1 ha
        exact of_decide_eq_true (h r hr)
      · intro h r hr
        exact decide_eq_true (h r.1 (hLm r hr))
    · intro r hr
      refine ⟨hmem _ (hLm r hr), hL2 r hr, ?_, htime _ (hLm r hr)⟩
      by_cases hl : r.1.coord.stdName = some "longitude"
      · exact .inl (hlon _ (hLm r hr) hl)
      · exact .inr (hs3 _ (hmem _ (hLm r hr)) (.inl hl))
  intro keep
  rw [call, hkw]
  dsimp only
  rw [hconv]
  dsimp only
  rw [hmask]
  dsimp only
  rw [select_range]
  have hkeep : (List.range d.values.length).filter (fun i => decide (∀ a ∈ asked,
        Spec.In a.coord.payload a.range (shiftOf asked a.coord.payload.id (a.coord.payload.points.getD i 0)))) = keep := rfl
  rw [hkeep]
  have hempty : (keep.filterMap (fun i => d.values[i]?)).length = 0 ↔ keep = [] := by
    constructor
    · intro h
      rw [List.length_eq_zero_iff, List.filterMap_eq_nil_iff] at h
      apply List.eq_nil_iff_forall_not_mem.2
      intro i hi
      have h1 := h i hi
      have h2 : i < d.values.length := by simpa using (List.mem_filter.1 hi).1
      simp [h2] at h1
    · intro h; rw [h]; rfl
  by_cases hk : keep = []
  · rw [if_pos (hempty.2 hk), if_pos hk]
  · rw [if_neg (fun h => hk (hempty.1 h)), if_neg hk]
    congr 2
    rw [List.map_map]
    apply List.map_congr_left
    intro c hc
    simp only [Function.comp_apply]
    show setPoints c (Subset.select _ (c.payload.points.map (shiftOf asked c.payload.id))) = _
    congr 1
    have hl : (c.payload.points.map (shiftOf asked c.payload.id)).length = d.values.length := by rw [List.length_map, hlen c hc]
    have := select_range (c.payload.points.map (shiftOf asked c.payload.id)) (fun i => decide (∀ a ∈ asked,
        Spec.In a.coord.payload a.range (shiftOf asked a.coord.payload.id (a.coord.payload.points.getD i 0))))
    rw [hl, hkeep] at this
    rw [this]
    congr 1
    funext i
    rw [List.getElem?_map]

open Classical in
/-- **C180.** A limits argument of `cis subset` made of limits `name=[a,b]` or `name=[a]`, in any number and order, where every name finds a
coordinate, different ones, and every text says a range (for longitudes: with both ends): kept are exactly the points that lie in all the ranges
written, in order, with all coordinates and the values at the same positions; without any, there is no output. Only longitudes that are limited
may be moved, by `shift`, by whole turns. -/
theorem c180_subset (e : Env) (d : Data V) (hwf : d.WF) (asked : List Spec.Asked) (hne : asked ≠ [])
    (hword : ∀ a ∈ asked, Limits.Spec.Word ['=', ',', '[', '('] a.dim ∧ Limits.Spec.Word [']', ',', '[', '('] a.first ∧
      ∀ s, a.second = some s → Limits.Spec.Word [']', ',', '[', '('] s)
    (hshape : ∀ a ∈ asked, ¬ "shape".toList <+: a.dim)
    (hsays : ∀ a ∈ asked, Spec.Denotes e a.dim a.first a.second a.range)
    (hfind : ∀ a ∈ asked, Coords.lookupCoord standardAxes d.coords (String.ofList a.dim) = some a.coord)
    (hdims : (asked.map Spec.Asked.dim).Nodup) (hdiff : (asked.map (fun a => key a.coord)).Nodup)
    (hlon : ∀ a ∈ asked, a.coord.stdName = some "longitude" → ∃ lo hi, a.range = .num (some lo) (some hi))
    (htime : ∀ a ∈ asked, ∀ lo hi, a.range = .time lo hi →
      ∃ f, a.coord.payload.dates = some f ∧ ∀ x ∈ a.coord.payload.points, Time.Spec.Real (f x)) :
    ∃ shift : Nat → ℚ → ℚ, (∀ j x, Lon.Spec.Same (shift j x) x) ∧
      (∀ a ∈ asked, a.coord.stdName = some "longitude" → ∀ lo hi, a.range = .num (some lo) (some hi) →
        shift a.coord.payload.id = Subset.convertFun a.coord.payload.points lo hi) ∧
      (∀ c ∈ d.coords, c.stdName ≠ some "longitude" ∨ c ∉ asked.map Spec.Asked.coord → shift c.payload.id = id) ∧
      let keep := (List.range d.values.length).filter (fun i => decide (∀ a ∈ asked,
        Spec.In a.coord.payload a.range (shift a.coord.payload.id (a.coord.payload.points.getD i 0))))
      run e d (Parse.joinBy ',' (asked.map (fun a => Limits.Spec.render a.dim a.first a.second))) =
        if keep = [] then .error .noData
        else .ok ⟨d.coords.map (fun c => setPoints c (keep.filterMap (fun i => (c.payload.points[i]?).map (shift c.payload.id)))),
          keep.filterMap (fun i => d.values[i]?)⟩ := by
  -- the values read
  have hseg : ∀ a ∈ asked, ∃ va vb, Limits.subsetSeg (conv e) (Limits.Spec.render a.dim a.first a.second) = .ok (a.dim, .pair va vb) ∧
      Fits a.range va vb := by
    intro a ha
    obtain ⟨w1, w2, w3⟩ := hword a ha
    have sub : ∀ {b b' : List Char} {s : Str}, b' ⊆ b → Limits.Spec.Word b s → Limits.Spec.Word b' s :=
      fun hb h => ⟨h.1, fun c hc hm => h.2 c hc (hb hm)⟩
    exact seg_ok (sub (by simp) w1) (sub (by simp) w2) (fun s hs => sub (by simp) (w3 s hs)) (hshape a ha) (hsays a ha)
  obtain ⟨L, hL1, hL2⟩ : ∃ L : List Read, L.map Prod.fst = asked ∧ ∀ r ∈ L,
      Limits.subsetSeg (conv e) (Limits.Spec.render r.1.dim r.1.first r.1.second) = .ok (r.1.dim, .pair r.2.1 r.2.2) ∧ Fits r.1.range r.2.1 r.2.2 := by
    clear hne hword hshape hsays hfind hdims hdiff hlon htime
    induction asked with
    | nil => exact ⟨[], rfl, by simp⟩
    | cons a t ih =>
      obtain ⟨L, h1, h2⟩ := ih (fun b hb => hseg b (by simp [hb]))
      obtain ⟨va, vb, h3, h4⟩ := hseg a (by simp)
      refine ⟨(a, va, vb) :: L, by simp [h1], ?_⟩
      intro r hr
      rcases List.mem_cons.1 hr with rfl | hr
      · exact ⟨h3, h4⟩
      · exact h2 r hr
  have hLm : ∀ r ∈ L, r.1 ∈ asked := fun r hr => by rw [← hL1]; exact List.mem_map.2 ⟨r, hr, rfl⟩
  have hparse : Limits.subsetLimits (conv e) (Parse.joinBy ',' (asked.map (fun a => Limits.Spec.render a.dim a.first a.second))) =
      .ok (L.map (fun r => (r.1.dim, .pair r.2.1 r.2.2))) := by
    have h := (Limits.c81_argument (conv e) (asked.map (fun a => (a.dim, a.first, a.second))) (by simpa using hne) (by
      intro x hx
      obtain ⟨a, ha, rfl⟩ := List.mem_map.1 hx
      exact hword a ha)).1 (L.map (fun r => (r.1.dim, .pair r.2.1 r.2.2)))
    have hmm : asked.map (fun a => Limits.Spec.render a.dim a.first a.second) =
        (asked.map (fun a => (a.dim, a.first, a.second))).map (fun x => Limits.Spec.render x.1 x.2.1 x.2.2) := by rw [List.map_map]; rfl
    rw [hmm]
    apply h
    · rw [List.map_map, List.map_map, ← hL1, List.map_map]
      apply List.map_congr_left
      intro r hr
      exact (hL2 r hr).1
    · rw [List.map_map]
      have : L.map (Prod.fst ∘ fun r : Read => (r.1.dim, (Limits.Lim.pair r.2.1 r.2.2 : Limits.Lim DateTime))) = (L.map Prod.fst).map Spec.Asked.dim := by
        rw [List.map_map]; rfl
      rw [this, hL1]; exact hdims
  obtain ⟨shift, h1, h2, h3, h4⟩ := call_ok d hwf asked L hL1 (fun r hr => (hL2 r hr).2) hfind hdiff hlon htime
  refine ⟨shift, h1, h2, h3, ?_⟩
  intro keep
  rw [run, hparse]
  exact h4

/-- C180, longitudes: if the data and the limits follow one of the two conventions (C37), a longitude is in the range after the shift iff it is,
up to whole turns, one between the limits. -/
theorem c180_longitude (c : Column) (lo hi : ℚ) (hdata : (∀ x ∈ c.points, -180 < x ∧ x < 180) ∨ (∀ x ∈ c.points, 0 ≤ x ∧ x < 360 ∧ x ≠ 180))
    (hlim : (-180 ≤ lo ∧ hi < 180) ∨ (0 ≤ lo ∧ hi < 360)) (hab : lo ≤ hi) (x : ℚ) (hx : x ∈ c.points) :
    Spec.In c (.num (some lo) (some hi)) (Subset.convertFun c.points lo hi x) ↔ ∃ y, Lon.Spec.Same y x ∧ lo ≤ y ∧ y ≤ hi := by
  rw [← Subset.subset_longitude c.points lo hi hdata hlim hab x hx, Spec.In]
  simp

/-- C180, `t=[2008-05]`: the points in the range of a partial date are those whose date matches it (all of them, if the dates have whole
seconds). -/
theorem c180_partial_date (c : Column) (f : ℚ → DateTime) (hf : c.dates = some f) (s : Str) (p : Partial) (lo hi : DateTime)
    (hp : parsePartial s = .ok p) (hr : p.range = .ok (lo, hi)) (x : ℚ) (hx : Time.Spec.Real (f x)) :
    (Spec.In c (.time lo hi) x → Time.Spec.Matches p (f x)) ∧
    ((f x).microsecond = 0 → Time.Spec.Matches p (f x) → Spec.In c (.time lo hi) x) := by
  have hp' : newPartial p = .ok p := by
    rw [parsePartial] at hp
    split at hp
    · split at hp
      · cases hp
      · have h' := hp
        unfold newPartial at h'
        split at h'
        · cases h'
        · split at h' <;> try cases h'
          exact hp
    · cases hp
  constructor
  · rintro ⟨g, hg, h1, h2⟩
    rw [hf] at hg; cases hg
    exact Time.c24_between p hp' lo hi hr (f x) hx h1 h2
  · intro h0 hm
    obtain ⟨-, -, -, h⟩ := Time.c24_range p hp' lo hi hr
    exact ⟨f, hf, h (f x) hx h0 hm⟩

/-- A name that finds no coordinate stops `subset`. -/
theorem call_unknown (d : Data V) (l : List (Str × Limits.Lim DateTime)) (hs : ∀ x ∈ l, ∀ s, x.2 ≠ .shape s)
    (h : ∃ x ∈ l, Coords.lookupCoord standardAxes d.coords (String.ofList x.1) = none) : call d l = .error .notFound := by
  have : ∀ (l : List (Str × Limits.Lim DateTime)) acc, (∀ x ∈ l, ∀ s, x.2 ≠ .shape s) →
      (∃ x ∈ l, Coords.lookupCoord standardAxes d.coords (String.ofList x.1) = none) → keywords d.coords l acc = .error .notFound := by
    intro l
    induction l with
    | nil => rintro acc - ⟨x, hx, -⟩; cases hx
    | cons y t ih =>
      rintro acc hs ⟨x, hx, hn⟩
      obtain ⟨dim, lim⟩ := y
      cases lim with
      | shape s => exact absurd rfl (hs (dim, .shape s) (by simp) s)
      | pair a b =>
        rw [keywords]
        cases hc : Coords.lookupCoord standardAxes d.coords (String.ofList dim) with
        | none => rfl
        | some c =>
          dsimp only
          apply ih _ (fun x hx => hs x (by simp [hx]))
          rcases List.mem_cons.1 hx with rfl | hx
          · rw [hc] at hn; cases hn
          · exact ⟨x, hx, hn⟩
  rw [call, this l [] hs h]

/-- C180: a name that finds no coordinate is reported, whatever else is asked. -/
theorem c180_unknown (e : Env) (d : Data V) (l : List (Str × Limits.Lim DateTime)) (text : Str) (hl : Limits.subsetLimits (conv e) text = .ok l)
    (hs : ∀ x ∈ l, ∀ s, x.2 ≠ .shape s)
    (h : ∃ x ∈ l, Coords.lookupCoord standardAxes d.coords (String.ofList x.1) = none) : run e d text = .error .notFound := by
  rw [run, hl]
  exact call_unknown d l hs h

/-! ### C181: what the documentation says and the command does not do -/

/-- A `float()` for the examples. -/
def exFlt (s : Str) : Option Limits.Fl :=
  if s = "5".toList then some (.fin 5) else if s = "0".toList then some (.fin 0) else if s = "10".toList then some (.fin 10)
  else if s = "20".toList then some (.fin 20) else if s = "-170".toList then some (.fin (-170)) else if s = "-180".toList then some (.fin (-180)) else if s = "350".toList then some (.fin 350)
  else if s = "2008".toList then some (.fin 2008) else none

def exEnv : Env := ⟨exFlt, ⟨2020, 6, 15, 0, 0, 0, 0⟩, fun _ => none⟩

def exLon (l : List ℚ) : Crd := ⟨some "longitude", none, some "lon", "X", [], ⟨0, l, none⟩⟩
def exLat (l : List ℚ) : Crd := ⟨some "latitude", none, some "lat", "Y", [], ⟨1, l, none⟩⟩

/-- Days of the year 2008, as dates. -/
def exDates (x : ℚ) : DateTime := if x ≤ 31 then ⟨2008, 1, 31, 12, 0, 0, 0⟩ else if x ≤ 167 then ⟨2008, 6, 15, 0, 0, 0, 0⟩ else ⟨2008, 12, 31, 0, 0, 0, 0⟩
def exTime (l : List ℚ) : Crd := ⟨some "time", none, some "time", "T", [], ⟨2, l, some exDates⟩⟩

def exData : Data Nat := ⟨[exLon [350, 3, 12], exLat [1, 5, 7], exTime [31, 167, 366]], [1, 2, 3]⟩

/-- The values a command keeps. -/
def keptBy (e : Env) (d : Data Nat) (s : String) : Option (List Nat) :=
  match run e d s.toList with
  | .ok r => some r.values
  | .error _ => none

/-- C181 violated, `variable=[value]`: "value is taken as the start and end value", but `y=[5]` also keeps the point at latitude 7, and
`x=[5]` is refused altogether. -/
theorem c181_single_violated : keptBy exEnv exData "y=[5]" = some [2, 3] ∧ keptBy exEnv exData "y=[5,5]" = some [2] ∧
    keptBy exEnv exData "x=[5]" = none := by
  decide +kernel

/-- C181 violated, for every number: a single limit of `y` leaves the range open. -/
theorem c181_single_open_violated (e : Env) (s : Str) (q : ℚ) (hs : Limits.Spec.Word [']', ','] s) (hn : s ≠ "None".toList) (h : e.flt s = some (.fin q)) :
    Limits.subsetSeg (conv e) (Limits.Spec.render "y".toList s none) = .ok ("y".toList, .pair (.num (.fin q)) .none) := by
  apply Limits.c81_yz (conv e) "y".toList s none
  · exact ⟨by decide, by decide⟩
  · exact hs
  · simp
  · exact .inl (by decide)
  · exact .inr (.inr ⟨s, .fin q, rfl, hn, h, rfl⟩)
  · exact .inl ⟨rfl, rfl⟩

/-- C181 violated, dates as ends of a range: "the earliest date/time compatible" as start and "the latest" as end, but the components that are
not written are those of the day on which the command runs. So `t=[2008,2008]` means one midnight, which depends on the day of the call. -/
theorem c181_range_dates_violated (e : Env) (hm : 1 ≤ e.today.month ∧ e.today.month ≤ 12) (hd : 1 ≤ e.today.day) :
    parseDatetime e "2008".toList = some ⟨2008, e.today.month, min e.today.day (daysInMonth 2008 e.today.month), 0, 0, 0, 0⟩ ∧
    parseDatetime e "2010-04".toList = some ⟨2010, 4, min e.today.day 30, 0, 0, 0, 0⟩ := by
  have h1 : dateFields "2008".toList = some [2008] := by decide +kernel
  have h2 : dateFields "2010-04".toList = some [2010, 4] := by decide +kernel
  have hb := Time.dim_bounds 2008 e.today.month
  have hc : daysInMonth 2010 4 = 30 := by decide
  rw [parseDatetime, parseDatetime, h1, h2]
  dsimp only
  rw [complete, complete]
  constructor
  · simp only [List.getD_cons_zero, List.getD_cons_succ, List.getD_nil, List.getElem?_cons_succ, List.getElem?_nil, Option.getD_none]
    rw [if_pos]
    rw [Time.valid_iff, Time.Spec.Real]
    dsimp only
    omega
  · simp only [List.getD_cons_zero, List.getD_cons_succ, List.getD_nil, List.getElem?_cons_succ, List.getElem?_nil, Option.getD_none, hc]
    rw [if_pos]
    rw [Time.valid_iff, Time.Spec.Real]
    dsimp only
    rw [hc]
    omega

/-- The same command keeps other points on another day; the year alone, `t=[2008]`, is understood as documented. -/
theorem c181_today_violated : keptBy exEnv exData "t=[2008,2008]" = some [2] ∧
    keptBy { exEnv with today := ⟨2020, 6, 16, 0, 0, 0, 0⟩ } exData "t=[2008,2008]" = none ∧ keptBy exEnv exData "t=[2008]" = some [1, 2, 3] := by
  decide +kernel

/-- C181 violated, ranges of dates open at one end: always an error, for every coordinate and date. -/
theorem c181_open_dates_violated (c : Column) (t : DateTime) :
    limitMask c (fillStart c (.date t)) (fillStop c .none) = .error .type ∧ limitMask c (fillStart c .none) (fillStop c (.date t)) = .error .type :=
  ⟨rfl, rfl⟩

/-- C181 violated: of two limits for one coordinate under two names only the later is used; a longitude range open at one end is compared with the
least longitude before the conversion, so that points within it are lost. -/
theorem c181_names_violated : keptBy exEnv exData "x=[0,10],longitude=[10,20]" = some [3] ∧
    keptBy exEnv ⟨[exLon [10, 185]], [1, 2]⟩ "lon=[None,-170]" = none ∧
    keptBy exEnv ⟨[exLon [10, 185]], [1, 2]⟩ "lon=[-180,-170]" = some [2] := by
  decide +kernel

/-! ### Examples -/

/-- The hypotheses of `c180_subset` hold for `lat=[5,10],t=[2008]` on the example. -/
example : exData.WF ∧ (∀ a ∈ ([⟨"lat".toList, "5".toList, some "10".toList, exLat [1, 5, 7], .num (some 5) (some 10)⟩,
      ⟨"t".toList, "2008".toList, none, exTime [31, 167, 366], .time ⟨2008, 1, 1, 0, 0, 0, 0⟩ ⟨2008, 12, 31, 23, 59, 59, 0⟩⟩] : List Spec.Asked),
    Spec.Denotes exEnv a.dim a.first a.second a.range ∧
      Coords.lookupCoord standardAxes exData.coords (String.ofList a.dim) = some a.coord) ∧
    ∀ x, Time.Spec.Real (exDates x) := by
  refine ⟨⟨?_, ?_, ?_⟩, ?_, ?_⟩
  · intro c hc
    simp only [exData, List.mem_cons, List.not_mem_nil, or_false] at hc
    rcases hc with rfl | rfl | rfl <;> rfl
  · decide
  · decide +kernel
  · intro a ha
    simp only [List.mem_cons, List.not_mem_nil, or_false] at ha
    rcases ha with rfl | rfl
    · refine ⟨⟨by decide, .inr (.inr ⟨by decide, 5, by decide +kernel, rfl⟩), .inr ⟨_, rfl, .inr (.inr ⟨by decide, 10, by decide +kernel, rfl⟩)⟩, ?_⟩, by with_unfolding_all rfl⟩
      exact fun _ => ⟨5, 10, rfl, rfl, by norm_num, by norm_num⟩
    · exact ⟨.inl ⟨by decide, rfl, ⟨some 2008, none, none, none, none, none⟩, by decide +kernel, by decide +kernel⟩, by with_unfolding_all rfl⟩
  · intro x
    unfold exDates
    split
    · unfold Time.Spec.Real; decide
    · split <;> (unfold Time.Spec.Real; decide)

example : Spec.FullDate "2008-05-12T06:30".toList ⟨2008, 5, 12, 6, 30, 0, 0⟩ :=
  ⟨by unfold Time.Spec.Real; decide, "2008".toList, "05".toList, "12".toList, 'T', ["06".toList, "30".toList], by decide, rfl, by decide, by decide,
    by decide, .inl rfl, by decide, by decide⟩

end Cis.SubsetCmd
