import Mathlib.Algebra.Order.Floor.Ring
import Mathlib.Data.Rat.Floor
/-!
Model of the date and time functions of CIS (time_util.py, parse_datetime.py). Python's `datetime` (proleptic Gregorian
calendar, years 1 to 9999) is modelled by its documented behaviour.
-/
namespace Cis.Time

/-- Python exceptions. -/
inductive Err
  | value     -- ValueError
  | type      -- TypeError
  | overflow  -- OverflowError
deriving Repr, DecidableEq

/-- `datetime.datetime`. -/
structure DateTime where
  year : Nat
  month : Nat
  day : Nat
  hour : Nat
  minute : Nat
  second : Nat
  microsecond : Nat
deriving Repr, DecidableEq

/-- Leap years of the Gregorian calendar (library). -/
def isLeap (y : Nat) : Bool := y % 4 == 0 && (y % 100 != 0 || y % 400 == 0)

/-- Length of a month (library). -/
def daysInMonth (y m : Nat) : Nat :=
  if m = 2 then (if isLeap y then 29 else 28) else if m = 4 ∨ m = 6 ∨ m = 9 ∨ m = 11 then 30 else 31

/-- The ranges checked by `datetime(...)` (library). -/
def validDT (t : DateTime) : Bool :=
  decide (1 ≤ t.year ∧ t.year ≤ 9999 ∧ 1 ≤ t.month ∧ t.month ≤ 12 ∧ 1 ≤ t.day ∧ t.day ≤ daysInMonth t.year t.month ∧
    t.hour ≤ 23 ∧ t.minute ≤ 59 ∧ t.second ≤ 59 ∧ t.microsecond < 1000000)

/-- The integer fits into a C int. -/
def isCInt (n : Int) : Bool := decide (-2147483648 ≤ n ∧ n ≤ 2147483647)

/-- `datetime(*components)` with six integers (library): OverflowError if one does not fit into a C int, ValueError if one is
out of range; another number of components does not occur (TypeError here). -/
def mkDatetime : List Int → Except Err DateTime
  | [y, m, d, h, mi, s] =>
    if !([y, m, d, h, mi, s].all isCInt) then .error .overflow
    else if 0 ≤ y ∧ 0 ≤ m ∧ 0 ≤ d ∧ 0 ≤ h ∧ 0 ≤ mi ∧ 0 ≤ s then
      (if validDT ⟨y.toNat, m.toNat, d.toNat, h.toNat, mi.toNat, s.toNat, 0⟩ then
        .ok ⟨y.toNat, m.toNat, d.toNat, h.toNat, mi.toNat, s.toNat, 0⟩ else .error .value)
    else .error .value
  | _ => .error .type

/-- A date (year, month, day). -/
abbrev Date := Nat × Nat × Nat

/-- The day after (library: addition of a timedelta); `none` is OverflowError. -/
def nextDay : Date → Option Date
  | (y, m, d) => if d < daysInMonth y m then some (y, m, d + 1) else if m < 12 then some (y, m + 1, 1)
    else if y < 9999 then some (y + 1, 1, 1) else none

/-- The day before. -/
def prevDay : Date → Option Date
  | (y, m, d) => if 1 < d then some (y, m, d - 1) else if 1 < m then some (y, m - 1, daysInMonth y (m - 1))
    else if 1 < y then some (y - 1, 12, 31) else none

/-- Adding a number of days to a date (library). -/
def addDays : Nat → Date → Option Date
  | 0, d => some d
  | n + 1, d => (nextDay d).bind (addDays n)

/-- Subtracting a number of days from a date (library). -/
def subDays : Nat → Date → Option Date
  | 0, d => some d
  | n + 1, d => (prevDay d).bind (subDays n)

/-- `find_last_day_of_month` (time_util.py:115-125). -/
def findLastDayOfMonth (year month : Int) : Except Err Int :=
  match mkDatetime [year, month, 28, 0, 0, 0] with
  | .error e => .error e
  | .ok t =>
    match addDays 4 (t.year, t.month, t.day) with
    | none => .error .overflow
    | some n =>
      match subDays n.2.2 n with
      | none => .error .overflow
      | some l => .ok (l.2.2 : Int)

/-- `PartialDateTime` (time_util.py:28-33). -/
structure Partial where
  year : Option Int
  month : Option Int
  day : Option Int
  hour : Option Int
  minute : Option Int
  second : Option Int
deriving Repr, DecidableEq

/-- The components in order (time_util.py:35-38). -/
def Partial.components (p : Partial) : List (Option Int) := [p.year, p.month, p.day, p.hour, p.minute, p.second]

/-- The components given (time_util.py:79, 99). -/
def Partial.given (p : Partial) : List Int := p.components.filterMap id

/-- The check of the constructor: something given after a missing component (time_util.py:39). -/
def gap (c : List (Option Int)) : Bool := (c.dropWhile Option.isSome).any Option.isSome

/-- One step of filling in the lower limits (time_util.py:76, 82-86); a `None` as a component is a TypeError of `datetime`. -/
def minStep (a : List Int) (i : Nat) : Except Err (List Int) :=
  match ([none, some 1, some 1, some 0, some 0, some 0] : List (Option Int))[i]? with
  | some (some v) => .ok (a ++ [v])
  | _ => .error .type

/-- The loop over the remaining fields. -/
def fill (step : List Int → Nat → Except Err (List Int)) : List Nat → List Int → Except Err (List Int)
  | [], a => .ok a
  | i :: t, a => match step a i with
    | .error e => .error e
    | .ok b => fill step t b

/-- `PartialDateTime.min` (time_util.py:69-87). -/
def Partial.min (p : Partial) : Except Err DateTime :=
  match fill minStep ((List.range 6).drop p.given.length) p.given with
  | .error e => .error e
  | .ok c => mkDatetime c

/-- One step of filling in the upper limits (time_util.py:96, 102-107). -/
def maxStep (a : List Int) (i : Nat) : Except Err (List Int) :=
  if i = 2 then
    match a with
    | [y, m] =>
      match findLastDayOfMonth y m with
      | .ok d => .ok (a ++ [d])
      | .error e => .error e
    | _ => .error .type
  else match ([none, some 12, none, some 23, some 59, some 59] : List (Option Int))[i]? with
    | some (some v) => .ok (a ++ [v])
    | _ => .error .type

/-- `PartialDateTime.max` (time_util.py:89-109). -/
def Partial.max (p : Partial) : Except Err DateTime :=
  match fill maxStep ((List.range 6).drop p.given.length) p.given with
  | .error e => .error e
  | .ok c => mkDatetime c

/-- The constructor (time_util.py:16-46). -/
def newPartial (p : Partial) : Except Err Partial :=
  if gap p.components then .error .value
  else match p.min with
    | .error .type => .error .value
    | .error e => .error e
    | .ok _ => .ok p

/-- `PartialDateTime.range` (time_util.py:48-67). -/
def Partial.range (p : Partial) : Except Err (DateTime × DateTime) :=
  match p.min, p.max with
  | .ok a, .ok b => .ok (a, b)
  | .error e, _ => .error e
  | _, .error e => .error e

/-! ### Years and mid time -/

/-- `datetime.replace(year=...)` (library) and `set_year` (time_util.py:241-254). -/
def setYear (t : DateTime) (y : Int) : Option DateTime :=
  if 0 ≤ y ∧ validDT { t with year := y.toNat } then some { t with year := y.toNat } else none

/-- `calculate_mid_time` (time_util.py:128-136), exact arithmetic. -/
def midTime (t1 t2 : ℚ) : ℚ := t1 + (t2 - t1) / 2

/-! ### Standard time -/

/-- `convert_sec_since_to_std_time` (time_util.py:168-184): `ref` is the reference in seconds after 1600-01-01 (microseconds
as fractions), `timedelta.days` is the floor of the number of days. -/
def secSinceToStdTime (seconds ref : ℚ) : ℚ := ((⌊ref / 86400⌋ : Int) : ℚ) + seconds / 86400

end Cis.Time
