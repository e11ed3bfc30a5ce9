import Verif.Time.Model
/-! Specification for dates and times. -/
namespace Cis.Time.Spec

/-- A real date and time of day of the Gregorian calendar, years 1 to 9999. -/
def Real (t : DateTime) : Prop :=
  1 ≤ t.year ∧ t.year ≤ 9999 ∧ 1 ≤ t.month ∧ t.month ≤ 12 ∧ 1 ≤ t.day ∧ t.day ≤ daysInMonth t.year t.month ∧
    t.hour ≤ 23 ∧ t.minute ≤ 59 ∧ t.second ≤ 59 ∧ t.microsecond < 1000000

/-- Number of days before a year, counting from the year 1. -/
def daysBeforeYear (y : Nat) : Nat := ((List.range (y - 1)).map (fun k => if isLeap (k + 1) then 366 else 365)).sum

/-- Number of days before a month in a year. -/
def daysBeforeMonth (y m : Nat) : Nat := ((List.range (m - 1)).map (fun k => daysInMonth y (k + 1))).sum

/-- Microseconds since the beginning of the year 1: the order of instants. -/
def instant (t : DateTime) : Nat :=
  ((((daysBeforeYear t.year + daysBeforeMonth t.year t.month + (t.day - 1)) * 24 + t.hour) * 60 + t.minute) * 60 + t.second)
    * 1000000 + t.microsecond

/-- A date-time has the components given. -/
def Matches (p : Partial) (t : DateTime) : Prop :=
  (∀ v, p.year = some v → (t.year : Int) = v) ∧ (∀ v, p.month = some v → (t.month : Int) = v) ∧
  (∀ v, p.day = some v → (t.day : Int) = v) ∧ (∀ v, p.hour = some v → (t.hour : Int) = v) ∧
  (∀ v, p.minute = some v → (t.minute : Int) = v) ∧ (∀ v, p.second = some v → (t.second : Int) = v)

/-- Something is given although something before it is not. -/
def Gap (p : Partial) : Prop :=
  ∃ (i j : Nat) (a : Int), i < j ∧ p.components[i]? = some none ∧ p.components[j]? = some (some a)

end Cis.Time.Spec
