import Verif.Time.Props
import Mathlib.Data.Nat.Pairing
set_option linter.unusedSectionVars false
set_option linter.unusedSimpArgs false
/-!
Time coordinates and their units. Model of `Coord.convert_julian_to_std_time`, `convert_TAI_time_to_std_time`, `convert_to_std_time`,
`convert_datetime_to_standard_time`, `convert_standard_time_to_datetime` (cis/data_io/Coord.py:60-104) with the functions they call
(cis/time_util.py:139-206), and of `change_year_of_ungridded_data` (time_util.py:257-278). Properties C110 and C28.

Instants are numbers of days after 1600-01-01 00:00, which is the origin of the standard time of CIS (time_util.py:5-10). Date-times are
instants here: `num2date` and `date2num` of cf_units are exact (their rounding to microseconds is not modelled). The flattened copy of the
values, which most of the conversions forget, is the subject of C44.
-/
namespace Cis.Time.Convert
open Cis.Time
abbrev Str := List Char

/-- Units of a coordinate. -/
inductive Units
  /-- a `cf_units.Unit` of the form "<unit> since <reference>": the length of the unit in days, and the reference -/
  | since (scale ref : ℚ)
  /-- another `cf_units.Unit` -/
  | plain
  /-- a string -/
  | text (s : Str)
deriving DecidableEq

/-- The standard time of CIS, days since 1600-01-01 (time_util.py:5-10). -/
def std : Units := .since 1 0

/-- Values: numbers, or date-time objects. -/
inductive Vals
  | nums (l : List ℚ)
  | dates (l : List ℚ)
deriving DecidableEq

structure TCoord where
  data : Vals
  units : Units
deriving DecidableEq

inductive CErr
  | value      -- ValueError
  | type       -- TypeError
  | attribute  -- AttributeError
deriving DecidableEq

/-- What udunits knows: the length in days of a unit of time, the instant of a time stamp, and whether a string is a unit. -/
structure Udunits where
  scale : Str → Option ℚ
  stamp : Str → Option ℚ
  parses : Str → Bool

/-- `str.split()`: the first word. -/
def firstWord (s : Str) : Str := (s.dropWhile Char.isWhitespace).takeWhile (fun c => !c.isWhitespace)

/-- `units.num2date(values)` (library): date-times cannot be converted. -/
def num2date (scale ref : ℚ) : Vals → Except CErr Vals
  | .nums l => .ok (.dates (l.map (fun v => ref + scale * v)))
  | .dates _ => .error .type

/-- `cis_standard_time_unit.date2num(values)` (library, convert_datetime_to_std_time time_util.py:191-192). -/
def date2num : Vals → Except CErr Vals
  | .dates l => .ok (.nums l)
  | .nums _ => .error .attribute

/-- `convert_time_since_to_std_time` (time_util.py:139-147). -/
def sinceToStd (scale ref : ℚ) (v : Vals) : Except CErr Vals :=
  match num2date scale ref v with
  | .error e => .error e
  | .ok d => date2num d

/-- `convert_time_using_time_stamp_info_to_std_time` (time_util.py:150-165). -/
def stampToStd (U : Udunits) (v : Vals) (units stamp : Str) : Except CErr Vals :=
  if firstWord units = [] then .error .value
  else match U.scale (firstWord units), U.stamp stamp with
    | some k, some r => sinceToStd k r v
    | _, _ => .error .value

/-- `Coord.convert_to_std_time` (Coord.py:72-93). -/
def toStd (U : Udunits) (stamp : Option Str) (c : TCoord) : Except CErr TCoord :=
  let new := match c.units with
    | .since k r => sinceToStd k r c.data
    | .plain => .error .value
    | .text s =>
      if "datetime".toList.isPrefixOf (s.map Char.toLower) then date2num c.data
      else match stamp with
        | none => .error .value
        | some t => stampToStd U c.data s t
  match new with
  | .error e => .error e
  | .ok v => .ok ⟨v, std⟩

/-- `Coord.convert_datetime_to_standard_time` (Coord.py:95-98). -/
def datetimeToStd (c : TCoord) : Except CErr TCoord :=
  match date2num c.data with
  | .error e => .error e
  | .ok v => .ok ⟨v, std⟩

/-- `Coord.convert_standard_time_to_datetime` (Coord.py:100-104): the comparison with a string that is no unit raises ValueError. -/
def stdToDatetime (U : Udunits) (c : TCoord) : Except CErr TCoord :=
  match c.units with
  | .text s => if U.parses s then .ok c else .error .value
  | u => if u = std then
      (match num2date 1 0 c.data with
        | .error e => .error e
        | .ok v => .ok ⟨v, .text "DateTime Object".toList⟩)
    else .ok c

/-- The Julian date of 1600-01-01 00:00 (Gregorian), `toordinal(fractional=True)` of the library. -/
def julianOfEpoch : ℚ := 2305447 + 1 / 2

/-- `Coord.convert_julian_to_std_time` (Coord.py:60-65, time_util.py:195-206). -/
def julianToStd (c : TCoord) : Except CErr TCoord :=
  match c.data with
  | .nums l => .ok ⟨.nums (l.map (fun v => v - julianOfEpoch)), std⟩
  | .dates _ => .error .type

/-- `Coord.convert_TAI_time_to_std_time` (Coord.py:67-70); the reference in days. -/
def taiToStd (ref : ℚ) (c : TCoord) : Except CErr TCoord :=
  match c.data with
  | .nums l => .ok ⟨.nums (l.map (fun v => secSinceToStdTime v (ref * 86400))), std⟩
  | .dates _ => .error .type

/-! ## Specification -/

/-- What a coordinate with its units says: the instants, in days after 1600-01-01. `stamp` is the reference of the file, used if the
units are a plain unit of time. -/
inductive Spec.Says (U : Udunits) (stamp : Option Str) : TCoord → List ℚ → Prop
  | since (k r : ℚ) (l : List ℚ) : Says U stamp ⟨.nums l, .since k r⟩ (l.map (fun v => r + k * v))
  | dates (s : Str) (l : List ℚ) (h : "datetime".toList.isPrefixOf (s.map Char.toLower) = true) : Says U stamp ⟨.dates l, .text s⟩ l
  | stamped (s t : Str) (k r : ℚ) (l : List ℚ) (h : "datetime".toList.isPrefixOf (s.map Char.toLower) = false) (hs : stamp = some t)
      (hw : firstWord s ≠ []) (hk : U.scale (firstWord s) = some k) (hr : U.stamp t = some r) :
      Says U stamp ⟨.nums l, .text s⟩ (l.map (fun v => r + k * v))

/-- The conversions between numbers and date-times. -/
inductive Op
  | toStd
  | toDatetime
  | datetimeToStd

def step (U : Udunits) (stamp : Option Str) (c : TCoord) : Op → Except CErr TCoord
  | .toStd => toStd U stamp c
  | .toDatetime => stdToDatetime U c
  | .datetimeToStd => datetimeToStd c

/-- A program that goes on after a failed conversion (which leaves the coordinate as it was). -/
def run (U : Udunits) (stamp : Option Str) (c : TCoord) (ops : List Op) : TCoord :=
  ops.foldl (fun c op => match step U stamp c op with | .ok c' => c' | .error _ => c) c

/-! ## Proofs -/

theorem map_std (l : List ℚ) : l.map (fun v => (0 : ℚ) + 1 * v) = l := by
  induction l with
  | nil => rfl
  | cons a l ih => simp [ih]

/-- The prefix of the units of date-times, as the code writes them. -/
theorem prefix_dt : "datetime".toList.isPrefixOf ("DateTime Object".toList.map Char.toLower) = true := by decide

/-- C110: `convert_to_std_time` succeeds exactly if the values and units say instants, and then the new values are these instants in
days after 1600-01-01 and the units are the standard time. -/
theorem c110_to_standard (U : Udunits) (stamp : Option Str) (c c' : TCoord) :
    toStd U stamp c = .ok c' ↔ ∃ l, Spec.Says U stamp c l ∧ c' = ⟨.nums l, std⟩ := by
  obtain ⟨d, u⟩ := c
  constructor
  · intro h
    cases u with
    | since k r =>
      cases d with
      | nums l => cases h; exact ⟨_, .since k r l, rfl⟩
      | dates l => cases h
    | plain => cases h
    | text s =>
      simp only [toStd] at h
      cases hp : "datetime".toList.isPrefixOf (s.map Char.toLower) with
      | true =>
        rw [hp] at h
        cases d with
        | nums l => cases h
        | dates l => cases h; exact ⟨_, .dates s l hp, rfl⟩
      | false =>
        rw [hp] at h
        cases hs : stamp with
        | none => rw [hs] at h; cases h
        | some t =>
          rw [hs] at h
          by_cases hw : firstWord s = []
          · simp [stampToStd, hw] at h
          · cases hk : U.scale (firstWord s) with
            | none => simp [stampToStd, hw, hk] at h
            | some k =>
              cases hr : U.stamp t with
              | none => simp [stampToStd, hw, hk, hr] at h
              | some r =>
                cases d with
                | dates l => simp [stampToStd, hw, hk, hr, sinceToStd, num2date] at h
                | nums l =>
                  simp [stampToStd, hw, hk, hr, sinceToStd, num2date, date2num] at h
                  exact ⟨_, .stamped s t k r l hp rfl hw hk hr, h.symm⟩
  · rintro ⟨l, h, rfl⟩
    cases h with
    | since k r l => rfl
    | dates s _ hp =>
      simp only [toStd]
      rw [hp]
      rfl
    | stamped s t k r l hp hs hw hk hr =>
      simp only [toStd]
      rw [hp, hs]
      simp [stampToStd, hw, hk, hr, sinceToStd, num2date, date2num]

theorem says_unique (U : Udunits) (stamp : Option Str) (c : TCoord) (l l' : List ℚ) (h : Spec.Says U stamp c l) (h' : Spec.Says U stamp c l') :
    l = l' := by
  have h1 := (c110_to_standard U stamp c ⟨.nums l, std⟩).2 ⟨l, h, rfl⟩
  have h2 := (c110_to_standard U stamp c ⟨.nums l', std⟩).2 ⟨l', h', rfl⟩
  rw [h1] at h2
  cases h2
  rfl

/-- C110: converting again changes nothing. -/
theorem c110_idempotent (U : Udunits) (stamp stamp' : Option Str) (c c' : TCoord) (h : toStd U stamp c = .ok c') :
    toStd U stamp' c' = .ok c' := by
  obtain ⟨l, -, rfl⟩ := (c110_to_standard U stamp c c').1 h
  rw [c110_to_standard]
  refine ⟨l, ?_, rfl⟩
  have := Spec.Says.since (U := U) (stamp := stamp') 1 0 l
  rwa [map_std] at this

/-- C110: no history of conversions, some of which may fail, changes the instants that a coordinate says, and the result says them without
the time stamp once one conversion has succeeded. -/
theorem c110_history (U : Udunits) (stamp : Option Str) (c : TCoord) (l : List ℚ) (h : Spec.Says U stamp c l) (ops : List Op) :
    Spec.Says U stamp (run U stamp c ops) l := by
  induction ops generalizing c with
  | nil => exact h
  | cons op ops ih =>
    apply ih
    simp only
    cases e : step U stamp c op with
    | error _ => exact h
    | ok c' =>
      show Spec.Says U stamp c' l
      have hstd : ∀ l : List ℚ, Spec.Says U stamp ⟨.nums l, std⟩ l := by
        intro l
        have := Spec.Says.since (U := U) (stamp := stamp) 1 0 l
        rwa [map_std] at this
      cases op with
      | toStd =>
        obtain ⟨l', h', rfl⟩ := (c110_to_standard U stamp c c').1 e
        rw [says_unique U stamp c l l' h h']
        exact hstd l'
      | datetimeToStd =>
        simp only [step, datetimeToStd] at e
        cases h with
        | since => cases e
        | stamped => cases e
        | dates s l hp => cases e; exact hstd l
      | toDatetime =>
        simp only [step, stdToDatetime] at e
        cases h with
        | since k r l =>
          simp only at e
          split at e
          · rename_i hu
            cases hu
            cases e
            rw [map_std]
            exact .dates _ _ prefix_dt
          · cases e; exact .since k r l
        | stamped s t k r l hp hs hw hk hr =>
          simp only at e
          split at e
          · cases e; exact .stamped s t k r l hp hs hw hk hr
          · cases e
        | dates s l hp =>
          simp only at e
          split at e
          · cases e; exact .dates s _ hp
          · cases e

/-- C110: standard time, date-times and back: the same numbers. -/
theorem c110_round_trip (U : Udunits) (l : List ℚ) :
    ∃ c, stdToDatetime U ⟨.nums l, std⟩ = .ok c ∧ c.data = .dates l ∧ toStd U none c = .ok ⟨.nums l, std⟩ ∧
      datetimeToStd c = .ok ⟨.nums l, std⟩ := by
  have e : stdToDatetime U ⟨.nums l, std⟩ = .ok ⟨.dates l, .text "DateTime Object".toList⟩ := by
    have := map_std l
    simp only [stdToDatetime, std, if_true, num2date]
    rw [this]
  refine ⟨_, e, rfl, ?_, rfl⟩
  rw [c110_to_standard]
  exact ⟨l, .dates _ l prefix_dt, rfl⟩

/-- C110: Julian dates. They count days, and 2451545 is 2000-01-01 12:00, which is 400 years and half a day after the origin. -/
theorem c110_julian (u : Units) (l : List ℚ) :
    julianToStd ⟨.nums l, u⟩ =
      .ok ⟨.nums (l.map (fun v => (v - 2451545) + ((Cis.Time.Spec.daysBeforeYear 2000 - Cis.Time.Spec.daysBeforeYear 1600 : Nat) : ℚ) + 1 / 2)), std⟩ := by
  have e : Cis.Time.Spec.daysBeforeYear 2000 - Cis.Time.Spec.daysBeforeYear 1600 = 146097 := by decide +kernel
  have f : (fun v : ℚ => (v - 2451545) + ((Cis.Time.Spec.daysBeforeYear 2000 - Cis.Time.Spec.daysBeforeYear 1600 : Nat) : ℚ) + 1 / 2) =
      fun v => v - julianOfEpoch := by
    funext v
    rw [e]
    unfold julianOfEpoch
    push_cast
    ring
  rw [f]
  rfl

/-- C110: seconds after a reference at the beginning of a day. -/
theorem c110_tai (ref : ℤ) (u : Units) (l : List ℚ) :
    taiToStd ref ⟨.nums l, u⟩ = .ok ⟨.nums (l.map (fun v => (ref : ℚ) + v / 86400)), std⟩ := by
  unfold taiToStd
  simp only
  congr 3
  apply List.map_congr_left
  intro v _
  rw [(c27_std_time v ((ref : ℚ) * 86400)).2 ⟨ref, by ring⟩]
  ring

/-- C110 violated: the conversions from Julian dates and from seconds do not look at the units. Done to a coordinate in standard time they
move every instant: by 2305447.5 days, or to a fraction of a day after the reference. -/
theorem c110_repeated_violated (l : List ℚ) (hne : l ≠ []) :
    ∃ l', julianToStd ⟨.nums l, std⟩ = .ok ⟨.nums l', std⟩ ∧ l' ≠ l := by
  refine ⟨_, rfl, ?_⟩
  cases l with
  | nil => exact absurd rfl hne
  | cons a l =>
    intro h
    have := (List.cons.inj h).1
    unfold julianOfEpoch at this
    linarith

/-- C110 violated: a second conversion to date-times fails (`ValueError`) instead of doing nothing, as "DateTime Object" is not a unit that
udunits can compare. -/
theorem c110_twice_violated (U : Udunits) (h : U.parses "DateTime Object".toList = false) (l : List ℚ) :
    ∃ c, stdToDatetime U ⟨.nums l, std⟩ = .ok c ∧ stdToDatetime U c = .error .value := by
  refine ⟨⟨.dates (l.map (fun v => (0 : ℚ) + 1 * v)), .text "DateTime Object".toList⟩, rfl, ?_⟩
  simp only [stdToDatetime]
  rw [h]
  rfl

/-- Hours after 1970 (135140 days after 1600), in a file whose units are "Hours from the file time reference". -/
def exU : Udunits :=
  ⟨fun s => if s = "Hours".toList then some (1 / 24) else none, fun s => if s = "1970-01-01".toList then some 135140 else none, fun _ => false⟩

example : toStd exU (some "1970-01-01".toList) ⟨.nums [0, 36], .text "Hours from the file time reference".toList⟩ =
    .ok ⟨.nums [135140, 135141 + 1/2], std⟩ := by decide +kernel

example : Spec.Says exU (some "1970-01-01".toList) ⟨.nums [0, 36], .text "Hours from the file time reference".toList⟩ [135140, 135141 + 1/2] := by
  have := (c110_to_standard exU (some "1970-01-01".toList) ⟨.nums [0, 36], .text "Hours from the file time reference".toList⟩
    ⟨.nums [135140, 135141 + 1/2], std⟩).1 (by decide +kernel)
  obtain ⟨l, h, e⟩ := this
  cases e
  exact h

/-! ## The year of data -/

/-- `change_year_of_ungridded_data` (time_util.py:257-278): `toDT` and `ofDT` are `num2date` and `date2num` of the standard time.
`np.vectorize` needs a value, `date2num` cannot convert `None`. -/
def changeYear (toDT : ℚ → DateTime) (ofDT : DateTime → ℚ) (times : List ℚ) (y : Int) : Except CErr (List ℚ) :=
  match times with
  | [] => .error .value
  | _ =>
    let updated := times.map (fun t => setYear (toDT t) y)
    if updated.any Option.isNone then .error .attribute
    else .ok ((updated.filterMap id).map ofDT)

/-- C28 for data: with a time for each date, the years of all points are replaced and nothing else, in order; or there is an error, and this is
exactly when there are no points, or some point is a 29 February that the new year does not have. -/
theorem c28_data (toDT : ℚ → DateTime) (ofDT : DateTime → ℚ) (hinv : ∀ d, Spec.Real d → toDT (ofDT d) = d) (hreal : ∀ t, Spec.Real (toDT t))
    (times : List ℚ) (y : Int) (hy : 1 ≤ y ∧ y ≤ 9999) :
    (∀ new, changeYear toDT ofDT times y = .ok new → List.Forall₂ (fun t t' => toDT t' = { toDT t with year := y.toNat }) times new) ∧
    ((∃ e, changeYear toDT ofDT times y = .error e) ↔
      times = [] ∨ ((¬ (4 ∣ y ∧ (¬ 100 ∣ y ∨ 400 ∣ y))) ∧ ∃ t ∈ times, (toDT t).month = 2 ∧ (toDT t).day = 29)) := by
  have hsome : ∀ t u, setYear (toDT t) y = some u → u = { toDT t with year := y.toNat } ∧ Spec.Real u := by
    intro t u h
    refine ⟨?_, ((c28_set_year (toDT t) (hreal t) y hy).1 u h).1⟩
    unfold setYear at h
    split at h
    · exact (Option.some.inj h).symm
    · cases h
  have hcond : (∃ t ∈ times, setYear (toDT t) y = none) ↔
      ((¬ (4 ∣ y ∧ (¬ 100 ∣ y ∨ 400 ∣ y))) ∧ ∃ t ∈ times, (toDT t).month = 2 ∧ (toDT t).day = 29) := by
    constructor
    · rintro ⟨t, ht, h⟩
      have := (c28_set_year (toDT t) (hreal t) y hy).2.1 h
      exact ⟨this.2, t, ht, this.1⟩
    · rintro ⟨hl, t, ht, h⟩
      exact ⟨t, ht, (c28_set_year (toDT t) (hreal t) y hy).2.2 ⟨h, hl⟩⟩
  have hany : ((times.map (fun t => setYear (toDT t) y)).any Option.isNone = true) ↔ ∃ t ∈ times, setYear (toDT t) y = none := by
    simp [List.any_eq_true]
  have hval : ∀ (l : List ℚ), (∀ t ∈ l, ∃ u, setYear (toDT t) y = some u) →
      List.Forall₂ (fun t t' => toDT t' = { toDT t with year := y.toNat }) l
        (((l.map (fun t => setYear (toDT t) y)).filterMap id).map ofDT) := by
    intro l
    induction l with
    | nil => intro _; exact .nil
    | cons a l ih =>
      intro h
      obtain ⟨u, hu⟩ := h a List.mem_cons_self
      simp only [List.map_cons, hu]
      rw [List.filterMap_cons_some (f := id) rfl, List.map_cons]
      refine .cons ?_ (ih (fun t ht => h t (List.mem_cons_of_mem _ ht)))
      obtain ⟨h1, h2⟩ := hsome a u hu
      rw [hinv u h2, h1]
  cases times with
  | nil =>
    refine ⟨fun new h => (by cases h), ?_⟩
    simp [changeYear]
  | cons a l =>
    by_cases hn : ((a :: l).map (fun t => setYear (toDT t) y)).any Option.isNone = true
    · have e : changeYear toDT ofDT (a :: l) y = .error .attribute := by
        unfold changeYear
        simp only
        rw [if_pos hn]
      rw [e]
      refine ⟨fun new h => (by cases h), ⟨fun _ => Or.inr (hcond.1 (hany.1 hn)), fun _ => ⟨_, rfl⟩⟩⟩
    · have e : changeYear toDT ofDT (a :: l) y = .ok ((((a :: l).map (fun t => setYear (toDT t) y)).filterMap id).map ofDT) := by
        unfold changeYear
        simp only
        rw [if_neg hn]
      rw [e]
      constructor
      · intro new h
        cases h
        apply hval
        intro t ht
        cases hs : setYear (toDT t) y with
        | some u => exact ⟨u, rfl⟩
        | none => exact absurd (hany.2 ⟨t, ht, hs⟩) hn
      · constructor
        · rintro ⟨_, h⟩; cases h
        · rintro (h | h)
          · cases h
          · exact absurd (hany.2 (hcond.2 h)) hn

/-- There is a numbering of the dates with these properties (that of cf_units is another), and a case with three dates. -/
example : ∃ (toDT : ℚ → DateTime) (ofDT : DateTime → ℚ), (∀ d, Cis.Time.Spec.Real d → toDT (ofDT d) = d) ∧ (∀ t, Cis.Time.Spec.Real (toDT t)) ∧
    ∃ times, changeYear toDT ofDT times 2001 = .error .attribute ∧ times.length = 3 := by
  classical
  let ofDT : DateTime → ℚ := fun d => ((Nat.pair d.year (Nat.pair d.month (Nat.pair d.day (Nat.pair d.hour (Nat.pair d.minute
    (Nat.pair d.second d.microsecond))))) : Nat) : ℚ)
  have inj : ∀ a b, ofDT a = ofDT b → a = b := by
    rintro ⟨a1, a2, a3, a4, a5, a6, a7⟩ ⟨b1, b2, b3, b4, b5, b6, b7⟩ h
    have h' := Nat.cast_injective (R := ℚ) h
    simp only [Nat.pair_eq_pair] at h'
    obtain ⟨rfl, rfl, rfl, rfl, rfl, rfl, rfl⟩ := h'
    rfl
  let toDT : ℚ → DateTime := fun q => if h : ∃ d, Cis.Time.Spec.Real d ∧ ofDT d = q then h.choose else ⟨1600, 1, 1, 0, 0, 0, 0⟩
  have inv : ∀ d, Cis.Time.Spec.Real d → toDT (ofDT d) = d := by
    intro d hd
    have h : ∃ d', Cis.Time.Spec.Real d' ∧ ofDT d' = ofDT d := ⟨d, hd, rfl⟩
    show (if h : _ then _ else _) = d
    rw [dif_pos h]
    exact inj _ _ h.choose_spec.2
  have real : ∀ t, Cis.Time.Spec.Real (toDT t) := by
    intro t
    by_cases h : ∃ d, Cis.Time.Spec.Real d ∧ ofDT d = t
    · show Cis.Time.Spec.Real (if h : _ then _ else _)
      rw [dif_pos h]
      exact h.choose_spec.1
    · show Cis.Time.Spec.Real (if h : _ then _ else _)
      rw [dif_neg h, ← valid_iff]
      decide
  have r : ∀ d : DateTime, validDT d = true → Cis.Time.Spec.Real d := fun d h => (valid_iff d).1 h
  refine ⟨toDT, ofDT, inv, real, [ofDT ⟨2000, 2, 28, 0, 0, 0, 0⟩, ofDT ⟨2000, 2, 29, 12, 0, 0, 0⟩, ofDT ⟨2000, 3, 1, 0, 0, 0, 0⟩], ?_, rfl⟩
  simp only [changeYear, List.map_cons, List.map_nil]
  rw [inv _ (r _ (by decide)), inv _ (r _ (by decide)), inv _ (r _ (by decide))]
  rfl

end Cis.Time.Convert
