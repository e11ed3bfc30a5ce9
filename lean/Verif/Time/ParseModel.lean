import Verif.Str.Basic
import Verif.Time.Model
/-!
Model of parse_datetime.py: partial date-times and durations. Strings contain no newline (in the regular expressions `.` does
not match one).
-/
namespace Cis.Time
open Cis.Str

/-- `[T :]` (parse_datetime.py:33, 103). -/
def isSep (c : Char) : Bool := c = 'T' || c = ' ' || c = ':'

/-- The match of `(?P<date>[^T :]+)(?:[T :])(?P<time>.+)$` (parse_datetime.py:33-39): the date and time parts, or the whole
string as date and no time. The first group takes all characters before the first separator. -/
def splitDateTime (s : Str) : Str × Option Str :=
  match s.takeWhile (fun c => !isSep c), s.dropWhile (fun c => !isSep c) with
  | d :: ds, _ :: t :: ts => (d :: ds, some (t :: ts))
  | _, _ => (s, none)

/-- `[int(x) for x in fields]`; `none` is ValueError. -/
def intFields : List Str → Option (List Int)
  | [] => some []
  | f :: t => match pyInt f, intFields t with
    | some n, some l => some (n :: l)
    | _, _ => none

/-- `PartialDateTime(*components)` for 1 to 6 integers. -/
def partialOfComponents : List Int → Partial
  | [] => ⟨none, none, none, none, none, none⟩
  | [a] => ⟨some a, none, none, none, none, none⟩
  | [a, b] => ⟨some a, some b, none, none, none, none⟩
  | [a, b, c] => ⟨some a, some b, some c, none, none, none⟩
  | [a, b, c, d] => ⟨some a, some b, some c, some d, none, none⟩
  | [a, b, c, d, e] => ⟨some a, some b, some c, some d, some e, none⟩
  | a :: b :: c :: d :: e :: f :: _ => ⟨some a, some b, some c, some d, some e, some f⟩

/-- The time components (parse_datetime.py:36, 39). -/
def timeFields : Option Str → Option (List Int)
  | some t => intFields (splitChar ':' t)
  | none => some []

/-- `_parse_partial_datetime` (parse_datetime.py:21-50). -/
def parsePartial (s : Str) : Except Err Partial :=
  match timeFields (splitDateTime s).2, intFields (splitChar '-' (splitDateTime s).1) with
  | some times, some dates =>
    if dates.length > 3 ∨ times.length > 3 ∨ (dates.length < 3 ∧ times.length > 0) then .error .value
    else newPartial (partialOfComponents (dates ++ times))
  | _, _ => .error .value

/-! ### Durations -/

/-- `re.findall('[0-9]*[A-Z]', s)` (parse_datetime.py:118-119): the digits directly before each capital letter, with the
letter. `run` are the digits just before. -/
def findTokens : Str → Str → List (Str × Char)
  | _, [] => []
  | run, c :: t =>
    if c.isDigit then findTokens (run ++ [c]) t
    else if c.isUpper then (run, c) :: findTokens [] t
    else findTokens [] t

/-- The six numbers (parse_datetime.py:121-126). -/
structure Delta where
  years : Nat
  months : Nat
  days : Nat
  hours : Nat
  minutes : Nat
  seconds : Nat
deriving Repr, DecidableEq

/-- The loop over the date tokens (parse_datetime.py:128-137); `none` is ValueError. -/
def dateTokens : List (Str × Char) → Delta → Option Delta
  | [], d => some d
  | (num, c) :: t, d =>
    match intDigits num false 0 with
    | none => none
    | some v =>
      if c = 'Y' then dateTokens t { d with years := v }
      else if c = 'M' then dateTokens t { d with months := v }
      else if c = 'D' then dateTokens t { d with days := v }
      else none

/-- The loop over the time tokens (parse_datetime.py:139-148). -/
def timeTokens : List (Str × Char) → Delta → Option Delta
  | [], d => some d
  | (num, c) :: t, d =>
    match intDigits num false 0 with
    | none => none
    | some v =>
      if c = 'H' then timeTokens t { d with hours := v }
      else if c = 'M' then timeTokens t { d with minutes := v }
      else if c = 'S' then timeTokens t { d with seconds := v }
      else none

/-- `timedelta(seconds=…, minutes=…, hours=…, days=days + months*30 + years*365)` (parse_datetime.py:151), in seconds;
OverflowError for a billion days or more (library). -/
def toTimedelta (d : Delta) : Except Err Nat :=
  let s := d.seconds + 60 * d.minutes + 3600 * d.hours + 86400 * (d.days + d.months * 30 + d.years * 365)
  if s / 86400 > 999999999 then .error .overflow else .ok s

/-- `_parse_datetime_delta` (parse_datetime.py:93-152). The match of `(?:[P])(?P<date>[^T :]+)?(?:[T :])?(?P<time>.+)?$`: the
date is everything up to the first separator, the time everything after it. -/
def parseDelta (s : Str) : Except Err Nat :=
  match s.map Char.toUpper with
  | 'P' :: r =>
    match dateTokens (findTokens [] (r.takeWhile (fun c => !isSep c))) ⟨0, 0, 0, 0, 0, 0⟩ with
    | none => .error .value
    | some d => match timeTokens (findTokens [] ((r.dropWhile (fun c => !isSep c)).drop 1)) d with
      | none => .error .value
      | some d => toTimedelta d
  | _ => .error .value

/-- `_datetime_delta_to_float_days`, `parse_datetimestr_delta_to_float_days` (parse_datetime.py:155-173), exact. -/
def parseDeltaDays (s : Str) : Except Err ℚ :=
  match parseDelta s with
  | .ok n => .ok ((n : ℚ) * (1 / (24 * 60 * 60)))
  | .error e => .error e

end Cis.Time
