import Mathlib.Data.Rat.Floor
import Mathlib.Tactic.Ring
import Mathlib.Tactic.Linarith
import Mathlib.Tactic.FieldSimp
import Mathlib.Tactic.NormNum
import Verif.Time.Parse
set_option linter.unusedSectionVars false
set_option linter.unusedSimpArgs false
/-!
Property C121: time axes of plots. Model of the conversion of a time coordinate for a plot (cis/plotting/genericplot.py:88-92 for lines and
scatter plots, 183-206 for maps, contours and other plots against two coordinates), of the labels that `set_x_axis_as_time` gives the
ticks (cis/plotting/plot.py:117-141), of limits given as dates and of steps given as durations (cis/plotting/formatted_plot.py:88-107) and of
`matplotlib.dates.num2date` and `date2num`, which count days from an epoch: 1970-01-01 from matplotlib 3.3 on, before that the day before
0001-01-01 (setup.py:20 asks for 2.0 or later). Times are exact (`num2date` rounds to microseconds, and for some dates more coarsely, which
is left out); the calendar is the (proleptic) Gregorian one.
-/
namespace Cis.TimeAxis
open Cis.Time Cis.Str

/-- Microseconds of a day. -/
def dayMicros : ℕ := 86400000000

/-- The day a number of days after 0001-01-01. -/
def dateOf (n : ℕ) : Option Date := addDays n (1, 1, 1)

/-- The date-time a number of microseconds after 0001-01-01. -/
def fromMicros (m : ℕ) : Option DateTime :=
  let r := m % dayMicros
  (dateOf (m / dayMicros)).map (fun d =>
    ⟨d.1, d.2.1, d.2.2, r / 3600000000, r / 60000000 % 60, r / 1000000 % 60, r % 1000000⟩)

/-- `matplotlib.dates.num2date` with the epoch that many days after 0001-01-01 (`none`: ValueError, out of range). -/
def num2date (epoch : ℤ) (x : ℚ) : Option DateTime :=
  let m := ⌊(x + epoch) * dayMicros⌋
  if m < 0 then none else fromMicros m.toNat

/-- `matplotlib.dates.date2num`. -/
def date2num (epoch : ℤ) (t : DateTime) : ℚ := (Spec.instant t : ℚ) / dayMicros - epoch

/-- 1600-01-01, the reference of the standard time, and 1970-01-01, in days after 0001-01-01. -/
def ref1600 : ℤ := 584022
def ref1970 : ℤ := 719162

/-- The epoch of matplotlib: from 3.3 on, and before (0001-01-01 is day 1). -/
def newEpoch : ℤ := ref1970
def oldEpoch : ℤ := -1

/-- Units of a time coordinate: so many days per unit, since so many days after 0001-01-01. -/
structure TUnit where
  scale : ℚ
  ref : ℚ

/-- The standard time of cis (time_util.py:6). -/
def stdUnit : TUnit := ⟨1, ref1600⟩

/-- Lines and scatter plots are one class (`GenericPlot`), plots against two coordinates another (`Generic2DPlot`). -/
inductive PlotClass where
  | generic | twoD
  deriving DecidableEq

/-- What is plotted for a value of a time coordinate (genericplot.py:88-92 converts to days since 1970; `unpack_data_items`, 183-206, takes
the points as they are). -/
def plotX (c : PlotClass) (u : TUnit) (v : ℚ) : ℚ :=
  match c with
  | .generic => u.scale * v + u.ref - ref1970
  | .twoD => v

/-- A number with at least so many digits (`"%02d"`), for numbers with no more. -/
def pad : ℕ → ℕ → Str
  | 0, _ => []
  | k + 1, n => pad k (n / 10) ++ [Nat.digitChar (n % 10)]

/-- `str(date)`. -/
def dateStr (t : DateTime) : Str := join '-' [pad 4 t.year, pad 2 t.month, pad 2 t.day]

/-- `datetime.isoformat(' ')` of a time in UTC (`num2date` gives it a time zone). -/
def isoStr (t : DateTime) : Str :=
  dateStr t ++ ' ' :: (pad 2 t.hour ++ ':' :: (pad 2 t.minute ++ ':' :: (pad 2 t.second ++
    ((if t.microsecond = 0 then [] else '.' :: pad 6 t.microsecond) ++ "+00:00".toList))))

/-- `format_datetime` (plot.py:124-136) for an axis from `lo` to `hi`. -/
def tickLabel (lo hi : ℚ) (t : DateTime) : Str :=
  if hi - lo < 1 ∧ t.second = 0 then pad 2 t.hour ++ ':' :: pad 2 t.minute
  else if hi - lo < 1 then pad 2 t.hour ++ ':' :: (pad 2 t.minute ++ ':' :: pad 2 t.second)
  else if hi - lo > 5 then dateStr t
  else isoStr t

/-- The tick label at a place on the axis. -/
def labelAt (epoch : ℤ) (lo hi x : ℚ) : Option Str := (num2date epoch x).map (tickLabel lo hi)

/-- A limit of an axis as the command line gives it (parse.py:122-135). -/
inductive Limit where
  | number (x : ℚ) | date (t : DateTime)

/-- `ax.set_xlim` (formatted_plot.py:93). -/
def Limit.place (epoch : ℤ) : Limit → ℚ
  | .number x => x
  | .date t => date2num epoch t

/-- A step of an axis as the command line gives it: a number, or a `timedelta` of so many seconds. -/
inductive Step where
  | number (x : ℚ) | delta (seconds : ℕ)

/-- The end of `np.arange(min_val, max_val + xstep, xstep)` (formatted_plot.py:96-100): a float and a `timedelta` cannot be added. -/
def stepEnd (hi : ℚ) : Step → Except Err ℚ
  | .number s => .ok (hi + s)
  | .delta _ => .error .type

/-! ## Specification -/

/-- The value `v` of a coordinate with these units is the time `t`. -/
def Spec.Says (u : TUnit) (v : ℚ) (t : DateTime) : Prop := (u.scale * v + u.ref) * dayMicros = Spec.instant t

/-- A time without fractions of seconds. -/
def Spec.WholeSecond (t : DateTime) : Prop := t.microsecond = 0

/-! ## The calendar -/

def dayNo (d : Date) : ℕ := Spec.daysBeforeYear d.1 + Spec.daysBeforeMonth d.1 d.2.1 + (d.2.2 - 1)

def RealDate (d : Date) : Prop :=
  1 ≤ d.1 ∧ d.1 ≤ 9999 ∧ 1 ≤ d.2.1 ∧ d.2.1 ≤ 12 ∧ 1 ≤ d.2.2 ∧ d.2.2 ≤ daysInMonth d.1 d.2.1

theorem dby_succ (y : ℕ) (h : 1 ≤ y) : Spec.daysBeforeYear (y + 1) = Spec.daysBeforeYear y + if isLeap y then 366 else 365 := by
  unfold Spec.daysBeforeYear
  have e : y + 1 - 1 = (y - 1) + 1 := by omega
  rw [e, List.range_succ, List.map_append, List.sum_append]
  have : y - 1 + 1 = y := by omega
  simp [this]

theorem dbm_succ (y m : ℕ) (h : 1 ≤ m) : Spec.daysBeforeMonth y (m + 1) = Spec.daysBeforeMonth y m + daysInMonth y m := by
  unfold Spec.daysBeforeMonth
  have e : m + 1 - 1 = (m - 1) + 1 := by omega
  rw [e, List.range_succ, List.map_append, List.sum_append]
  have : m - 1 + 1 = m := by omega
  simp [this]

theorem dbm_one (y : ℕ) : Spec.daysBeforeMonth y 1 = 0 := by simp [Spec.daysBeforeMonth]

theorem prev_next (d : Date) (h : RealDate d) (h1 : d ≠ (1, 1, 1)) :
    ∃ p, RealDate p ∧ nextDay p = some d ∧ dayNo d = dayNo p + 1 := by
  obtain ⟨y, m, k⟩ := d
  obtain ⟨a1, a2, a3, a4, a5, a6⟩ := h
  simp only at a1 a2 a3 a4 a5 a6
  by_cases hk : 1 < k
  · refine ⟨(y, m, k - 1), ⟨a1, a2, a3, a4, by show 1 ≤ k - 1; omega, by show k - 1 ≤ daysInMonth y m; omega⟩, ?_, ?_⟩
    · unfold nextDay
      simp only
      rw [if_pos (by omega)]
      have : k - 1 + 1 = k := by omega
      rw [this]
    · simp only [dayNo]; omega
  · have ek : k = 1 := by omega
    subst ek
    by_cases hm : 1 < m
    · have hb := dim_bounds y (m - 1)
      refine ⟨(y, m - 1, daysInMonth y (m - 1)), ⟨a1, a2, by show 1 ≤ m - 1; omega, by show m - 1 ≤ 12; omega, by show 1 ≤ daysInMonth y (m - 1); omega, le_refl _⟩, ?_, ?_⟩
      · unfold nextDay
        simp only
        rw [if_neg (by omega), if_pos (by omega)]
        have : m - 1 + 1 = m := by omega
        rw [this]
      · have := dbm_succ y (m - 1) (by omega)
        have e : m - 1 + 1 = m := by omega
        rw [e] at this
        simp only [dayNo]; omega
    · have em : m = 1 := by omega
      subst em
      have hy : 1 < y := by
        by_contra hc
        have : y = 1 := by omega
        subst this
        exact h1 rfl
      have h31 : daysInMonth (y - 1) 12 = 31 := by simp [daysInMonth]
      refine ⟨(y - 1, 12, 31), ⟨by show 1 ≤ y - 1; omega, by show y - 1 ≤ 9999; omega, by show 1 ≤ 12; omega, by show 12 ≤ 12; omega, by show 1 ≤ 31; omega, by show 31 ≤ _; rw [h31]⟩, ?_, ?_⟩
      · unfold nextDay
        simp only [h31]
        rw [if_neg (by omega), if_neg (by omega), if_pos (by omega)]
        have : y - 1 + 1 = y := by omega
        rw [this]
      · have := dby_succ (y - 1) (by omega)
        have e : y - 1 + 1 = y := by omega
        rw [e] at this
        have h13 := daysBeforeMonth_13 (y - 1)
        have h12 := dbm_succ (y - 1) 12 (by omega)
        have h1' := dbm_one y
        simp only [dayNo]
        split at this <;> simp_all <;> omega

theorem addDays_succ (n : ℕ) (d : Date) : addDays (n + 1) d = (addDays n d).bind nextDay := by
  induction n generalizing d with
  | zero => simp [addDays]
  | succ n ih =>
    rw [addDays]
    cases h : nextDay d with
    | none => simp [addDays, h]
    | some e =>
      simp only [Option.bind_some]
      rw [ih]
      simp [addDays, h]

/-- Counting days from 0001-01-01 gives every date at its number. -/
theorem dateOf_dayNo (d : Date) (h : RealDate d) : dateOf (dayNo d) = some d := by
  suffices hs : ∀ n d, RealDate d → dayNo d = n → dateOf n = some d from hs _ d h rfl
  intro n
  induction n with
  | zero =>
    intro d h h0
    by_cases h1 : d = (1, 1, 1)
    · subst h1; rfl
    · obtain ⟨p, _, _, hp⟩ := prev_next d h h1
      omega
  | succ n ih =>
    intro d h h0
    by_cases h1 : d = (1, 1, 1)
    · subst h1
      simp [dayNo, Spec.daysBeforeYear, Spec.daysBeforeMonth] at h0
    · obtain ⟨p, hp, hn, hd⟩ := prev_next d h h1
      unfold dateOf
      rw [addDays_succ]
      have := ih p hp (by omega)
      unfold dateOf at this
      rw [this]
      exact hn

theorem real_date (t : DateTime) (h : Spec.Real t) : RealDate (t.year, t.month, t.day) :=
  ⟨h.1, h.2.1, h.2.2.1, h.2.2.2.1, h.2.2.2.2.1, h.2.2.2.2.2.1⟩

theorem instant_split (t : DateTime) : Spec.instant t = dayNo (t.year, t.month, t.day) * dayMicros +
    (((t.hour * 60 + t.minute) * 60 + t.second) * 1000000 + t.microsecond) := by
  unfold Spec.instant dayNo dayMicros
  simp only
  ring

theorem fromMicros_instant (t : DateTime) (h : Spec.Real t) : fromMicros (Spec.instant t) = some t := by
  have hr := real_date t h
  obtain ⟨_, _, _, _, _, _, h7, h8, h9, h10⟩ := h
  have hlt : ((t.hour * 60 + t.minute) * 60 + t.second) * 1000000 + t.microsecond < dayMicros := by unfold dayMicros; omega
  have hd : Spec.instant t / dayMicros = dayNo (t.year, t.month, t.day) := by
    rw [instant_split, Nat.add_comm, Nat.add_mul_div_right _ _ (by decide), Nat.div_eq_of_lt hlt, Nat.zero_add]
  have hm : Spec.instant t % dayMicros = ((t.hour * 60 + t.minute) * 60 + t.second) * 1000000 + t.microsecond := by
    rw [instant_split, Nat.add_comm, Nat.add_mul_mod_self_right, Nat.mod_eq_of_lt hlt]
  unfold fromMicros
  simp only
  rw [hd, hm, dateOf_dayNo _ hr]
  obtain ⟨y, mo, d, hh, mi, s, us⟩ := t
  simp only [Option.map_some, Option.some.injEq, DateTime.mk.injEq, true_and]
  simp only at h7 h8 h9 h10
  refine ⟨?_, ?_, ?_, ?_⟩ <;> omega

theorem num2date_of (epoch : ℤ) (x : ℚ) (t : DateTime) (h : Spec.Real t) (hx : (x + epoch) * dayMicros = Spec.instant t) :
    num2date epoch x = some t := by
  unfold num2date
  have : ⌊(x + epoch) * dayMicros⌋ = (Spec.instant t : ℤ) := by
    rw [hx]; exact Int.floor_natCast _
  simp only [this]
  rw [if_neg (by omega), Int.toNat_natCast]
  exact fromMicros_instant t h

theorem num2date_inj (epoch : ℤ) (x : ℚ) (t t' : DateTime) (h' : Spec.Real t')
    (hx : num2date epoch x = some t) (hx' : (x + epoch) * dayMicros = Spec.instant t') : t = t' := by
  rw [num2date_of epoch x t' h' hx'] at hx
  exact (Option.some.inj hx).symm

/-! ## C121: the place of the data -/

/-- C121: on line and scatter plots the axis says, at the place of a point, the time of the point. -/
theorem c121_line (u : TUnit) (v : ℚ) (t : DateTime) (ht : Spec.Real t) (h : Spec.Says u v t) :
    num2date newEpoch (plotX .generic u v) = some t := by
  apply num2date_of _ _ _ ht
  unfold Spec.Says at h
  unfold plotX newEpoch
  simp only
  rw [← h]
  ring

/-- C121: points are drawn in the order of their times and at distances of so many days (line and scatter plots). -/
theorem c121_distance (u : TUnit) (v w : ℚ) (t s : DateTime) (h : Spec.Says u v t) (h' : Spec.Says u w s) :
    (plotX .generic u w - plotX .generic u v) * dayMicros = (Spec.instant s : ℚ) - Spec.instant t := by
  unfold Spec.Says at h h'
  rw [← h, ← h']
  simp only [plotX]
  ring

/-- C121: limits given as dates include a point of a line or scatter plot exactly if its time is within them, whatever the version of
matplotlib counts from, provided that it counts from 1970. -/
theorem c121_limits (u : TUnit) (v : ℚ) (t lo hi : DateTime) (h : Spec.Says u v t) :
    ((Limit.date lo).place newEpoch ≤ plotX .generic u v ∧ plotX .generic u v ≤ (Limit.date hi).place newEpoch) ↔
      (Spec.instant lo ≤ Spec.instant t ∧ Spec.instant t ≤ Spec.instant hi) := by
  have hd : (0 : ℚ) < dayMicros := by norm_num [dayMicros]
  have hx : plotX .generic u v = (Spec.instant t : ℚ) / dayMicros - (newEpoch : ℤ) := by
    unfold Spec.Says at h
    rw [← h, mul_div_cancel_right₀ _ hd.ne']
    simp only [plotX, newEpoch]
  rw [hx]
  simp only [Limit.place, date2num]
  constructor
  · rintro ⟨h1, h2⟩
    have h1 : (Spec.instant lo : ℚ) / dayMicros ≤ (Spec.instant t : ℚ) / dayMicros := by linarith
    have h2 : (Spec.instant t : ℚ) / dayMicros ≤ (Spec.instant hi : ℚ) / dayMicros := by linarith
    rw [div_le_div_iff_of_pos_right hd] at h1 h2
    exact ⟨by exact_mod_cast h1, by exact_mod_cast h2⟩
  · rintro ⟨h1, h2⟩
    have h1 : (Spec.instant lo : ℚ) ≤ Spec.instant t := by exact_mod_cast h1
    have h2 : (Spec.instant t : ℚ) ≤ Spec.instant hi := by exact_mod_cast h2
    have := (div_le_div_iff_of_pos_right hd).2 h1
    have := (div_le_div_iff_of_pos_right hd).2 h2
    constructor <;> linarith

/-- C121: plots against two coordinates say the time of the data at their place if the coordinate is in days since 1970. -/
theorem c121_2d (v : ℚ) (t : DateTime) (ht : Spec.Real t) (h : Spec.Says ⟨1, ref1970⟩ v t) :
    num2date newEpoch (plotX .twoD ⟨1, ref1970⟩ v) = some t := by
  apply num2date_of _ _ _ ht
  unfold Spec.Says at h
  unfold plotX newEpoch
  simp only
  rw [← h]
  push_cast
  ring

/-- C121, violated: on plots against two coordinates (heatmaps, contours, maps of scattered points) of times in standard units, the axis says
a time 135140 days (370 years) after that of the point. -/
theorem c121_2d_violated (v : ℚ) (t s : DateTime) (hs : Spec.Real s) (h : Spec.Says stdUnit v t)
    (hst : Spec.instant s = Spec.instant t + 135140 * dayMicros) : num2date newEpoch (plotX .twoD stdUnit v) = some s ∧ s ≠ t := by
  constructor
  · apply num2date_of _ _ _ hs
    unfold Spec.Says at h
    have : (Spec.instant s : ℚ) = Spec.instant t + 135140 * dayMicros := by exact_mod_cast hst
    rw [this, ← h]
    simp only [plotX, newEpoch, stdUnit, ref1970, ref1600]
    push_cast
    ring
  · rintro rfl
    have : 0 < dayMicros := by decide
    omega

/-- C121, violated: so limits given as dates (less than 370 years apart) leave out of such a plot exactly the points they are to show. -/
theorem c121_2d_limits_violated (v : ℚ) (t lo hi : DateTime) (h : Spec.Says stdUnit v t) (h1 : Spec.instant lo ≤ Spec.instant t)
    (hd : Spec.instant hi < Spec.instant lo + 135140 * dayMicros) :
    ¬ plotX .twoD stdUnit v ≤ (Limit.date hi).place newEpoch := by
  have hp : (0 : ℚ) < dayMicros := by norm_num [dayMicros]
  unfold Spec.Says at h
  have e : v * dayMicros = (Spec.instant t : ℚ) - ref1600 * dayMicros := by
    rw [← h]; simp only [stdUnit]; ring
  simp only [plotX, Limit.place, date2num]
  rw [not_le, sub_lt_iff_lt_add, div_lt_iff₀ hp, add_mul, e]
  have h1' : (Spec.instant lo : ℚ) ≤ Spec.instant t := by exact_mod_cast h1
  have hd' : (Spec.instant hi : ℚ) < Spec.instant lo + 135140 * dayMicros := by exact_mod_cast hd
  simp only [newEpoch, ref1970, ref1600]
  push_cast
  nlinarith

/-- C121, violated: with a matplotlib before 3.3, which setup.py allows, a line or scatter plot says a time 719163 days (1969 years) before
that of the point, or there is none. -/
theorem c121_old_matplotlib_violated (u : TUnit) (v : ℚ) (t : DateTime) (h : Spec.Says u v t) :
    (Spec.instant t < 719163 * dayMicros → num2date oldEpoch (plotX .generic u v) = none) ∧
    ∀ s, Spec.Real s → Spec.instant s + 719163 * dayMicros = Spec.instant t → num2date oldEpoch (plotX .generic u v) = some s := by
  have e : (plotX .generic u v + oldEpoch) * dayMicros = ((Spec.instant t : ℤ) - 719163 * dayMicros : ℤ) := by
    unfold Spec.Says at h
    push_cast
    rw [← h]
    simp only [plotX, oldEpoch, ref1970]
    push_cast
    ring
  constructor
  · intro hlt
    unfold num2date
    simp only
    rw [e, Int.floor_intCast, if_pos (by omega)]
  · intro s hs hst
    apply num2date_of _ _ _ hs
    rw [e]
    have : ((Spec.instant t : ℤ) - 719163 * dayMicros : ℤ) = (Spec.instant s : ℤ) := by omega
    rw [this]
    simp

/-! ## C121: the labels -/

theorem digit_isDigit (n : ℕ) (h : n < 10) : (Nat.digitChar n).isDigit = true ∧ (Nat.digitChar n).toNat - 48 = n := by
  interval_cases n <;> decide

theorem pad_length (k n : ℕ) : (pad k n).length = k := by
  induction k generalizing n with
  | zero => rfl
  | succ k ih => simp [pad, ih]

theorem pad_digits (k n : ℕ) : ∀ c ∈ pad k n, c.isDigit = true := by
  induction k generalizing n with
  | zero => simp [pad]
  | succ k ih =>
    intro c hc
    rw [pad, List.mem_append, List.mem_singleton] at hc
    rcases hc with hc | rfl
    · exact ih _ c hc
    · exact (digit_isDigit _ (Nat.mod_lt _ (by omega))).1

theorem pad_value (k n : ℕ) (h : n < 10 ^ k) : value (pad k n) = n := by
  induction k generalizing n with
  | zero => simp at h; subst h; rfl
  | succ k ih =>
    have h' : n / 10 < 10 ^ k := by
      rw [Nat.div_lt_iff_lt_mul (by omega), ← pow_succ]; exact h
    have := ih _ h'
    unfold value at this ⊢
    rw [pad, List.foldl_append, this, List.foldl_cons, List.foldl_nil, (digit_isDigit _ (Nat.mod_lt _ (by omega))).2]
    omega

theorem pad_inj (k a b : ℕ) (ha : a < 10 ^ k) (hb : b < 10 ^ k) (h : pad k a = pad k b) : a = b := by
  rw [← pad_value k a ha, ← pad_value k b hb, h]

theorem append_cons_inj {a b : Str} {c : Char} {r s : Str} (hl : a.length = b.length) (h : a ++ c :: r = b ++ c :: s) : a = b ∧ r = s := by
  obtain ⟨h1, h2⟩ := List.append_inj h hl
  exact ⟨h1, (List.cons.inj h2).2⟩

/-- C121: an axis of more than five days says the date: labels are the same exactly on the same day. -/
theorem c121_dates (lo hi : ℚ) (t s : DateTime) (ht : Spec.Real t) (hs : Spec.Real s) (hr : hi - lo > 5) :
    tickLabel lo hi t = tickLabel lo hi s ↔ (t.year = s.year ∧ t.month = s.month ∧ t.day = s.day) := by
  have d := dim_bounds t.year t.month
  have d' := dim_bounds s.year s.month
  obtain ⟨t1, t2, t3, t4, t5, t6, -⟩ := ht
  obtain ⟨s1, s2, s3, s4, s5, s6, -⟩ := hs
  have e : ∀ x : DateTime, tickLabel lo hi x = dateStr x := by
    intro x
    unfold tickLabel
    rw [if_neg (by rintro ⟨h, _⟩; linarith), if_neg (by linarith), if_pos hr]
  rw [e, e]
  constructor
  · intro h
    simp only [dateStr, join] at h
    obtain ⟨h1, h⟩ := append_cons_inj (by simp [pad_length]) h
    obtain ⟨h2, h3⟩ := append_cons_inj (by simp [pad_length]) h
    exact ⟨pad_inj 4 _ _ (by omega) (by omega) h1, pad_inj 2 _ _ (by omega) (by omega) h2, pad_inj 2 _ _ (by omega) (by omega) h3⟩
  · rintro ⟨h1, h2, h3⟩
    unfold dateStr
    rw [h1, h2, h3]

/-- C121: the labels of such an axis are dates that cis reads: given back as a limit, a label is that day. -/
theorem c121_dates_read (lo hi : ℚ) (t : DateTime) (ht : Spec.Real t) (hr : hi - lo > 5) :
    parsePartial (tickLabel lo hi t) = .ok ⟨some t.year, some t.month, some t.day, none, none, none⟩ := by
  have d := dim_bounds t.year t.month
  have ht' := ht
  obtain ⟨t1, t2, t3, t4, t5, t6, -⟩ := ht
  have e : tickLabel lo hi t = Spec.written [pad 4 t.year, pad 2 t.month, pad 2 t.day] ' ' [] := by
    unfold tickLabel
    rw [if_neg (by rintro ⟨h, _⟩; linarith), if_neg (by linarith), if_pos hr]
    simp [Spec.written, dateStr]
  rw [e, c25_grammar _ _ _ (by simp) (by simp)]
  · rw [if_pos (by simp)]
    simp only [List.append_nil, List.map_cons, List.map_nil]
    rw [pad_value 4 _ (by omega), pad_value 2 _ (by omega), pad_value 2 _ (by omega)]
    have key := (c24_accepted ⟨some t.year, some t.month, some t.day, none, none, none⟩).1.2 ?_
    · exact key
    · refine ⟨rfl, ?_, t, ht', ?_⟩
      · rw [← gap_iff]
        simp [gap, Partial.components]
      · simp [Spec.Matches]
  · intro f hf
    simp only [List.mem_cons, List.not_mem_nil, or_false] at hf
    rcases hf with rfl | rfl | rfl <;> exact ⟨by intro h; simpa [pad_length] using congrArg List.length h, pad_digits _ _⟩
  · simp

theorem instant_eq (t s : DateTime) (ht : Spec.Real t) (hs : Spec.Real s) (h : Spec.instant t = Spec.instant s) : t = s := by
  have h1 := fromMicros_instant t ht
  rw [h, fromMicros_instant s hs] at h1
  exact (Option.some.inj h1).symm

/-- C121: two ticks at different whole seconds, on an axis of at most five days on which both lie, have different labels. -/
theorem c121_labels_distinct (epoch : ℤ) (lo hi x y : ℚ) (t s : DateTime) (ht : Spec.Real t) (hs : Spec.Real s)
    (hx : (x + epoch) * dayMicros = Spec.instant t) (hy : (y + epoch) * dayMicros = Spec.instant s)
    (wt : Spec.WholeSecond t) (ws : Spec.WholeSecond s) (x1 : lo ≤ x) (x2 : x ≤ hi) (y1 : lo ≤ y) (y2 : y ≤ hi) (hr : hi - lo ≤ 5)
    (h : labelAt epoch lo hi x = labelAt epoch lo hi y) : x = y := by
  have hp : (0 : ℚ) < dayMicros := by norm_num [dayMicros]
  unfold labelAt at h
  rw [num2date_of epoch x t ht hx, num2date_of epoch y s hs hy] at h
  simp only [Option.map_some, Option.some.injEq] at h
  suffices hts : t = s by
    subst hts
    rw [← hx] at hy
    have := mul_right_cancel₀ hp.ne' hy
    linarith
  have ht0 := ht
  have hs0 := hs
  have d := dim_bounds t.year t.month
  have d' := dim_bounds s.year s.month
  obtain ⟨a1, a2, a3, a4, a5, a6, a7, a8, a9, a10⟩ := ht
  obtain ⟨b1, b2, b3, b4, b5, b6, b7, b8, b9, b10⟩ := hs
  unfold Spec.WholeSecond at wt ws
  by_cases hr1 : hi - lo < 1
  · -- less than a day: hours, minutes and seconds agree
    have hms : t.hour = s.hour ∧ t.minute = s.minute ∧ t.second = s.second := by
      unfold tickLabel at h
      simp only [hr1, true_and, if_true] at h
      have len1 : ∀ a b : ℕ, (pad 2 a ++ ':' :: pad 2 b).length = 5 := by intro a b; simp [pad_length]
      have len2 : ∀ a b c : ℕ, (pad 2 a ++ ':' :: (pad 2 b ++ ':' :: pad 2 c)).length = 8 := by intro a b c; simp [pad_length]
      by_cases c1 : t.second = 0 <;> by_cases c2 : s.second = 0
      · rw [if_pos c1, if_pos c2] at h
        obtain ⟨h1, h2⟩ := append_cons_inj (by simp [pad_length]) h
        exact ⟨pad_inj 2 _ _ (by omega) (by omega) h1, pad_inj 2 _ _ (by omega) (by omega) h2, by omega⟩
      · rw [if_pos c1, if_neg c2] at h
        have := congrArg List.length h
        rw [len1, len2] at this
        omega
      · rw [if_neg c1, if_pos c2] at h
        have := congrArg List.length h
        rw [len1, len2] at this
        omega
      · rw [if_neg c1, if_neg c2] at h
        obtain ⟨h1, h⟩ := append_cons_inj (by simp [pad_length]) h
        obtain ⟨h2, h3⟩ := append_cons_inj (by simp [pad_length]) h
        exact ⟨pad_inj 2 _ _ (by omega) (by omega) h1, pad_inj 2 _ _ (by omega) (by omega) h2, pad_inj 2 _ _ (by omega) (by omega) h3⟩
    obtain ⟨e1, e2, e3⟩ := hms
    have ist := instant_split t
    have iss := instant_split s
    have hlt : (Spec.instant t : ℚ) < Spec.instant s + dayMicros := by
      rw [← hx, ← hy]; nlinarith
    have hlt' : (Spec.instant s : ℚ) < Spec.instant t + dayMicros := by
      rw [← hx, ← hy]; nlinarith
    have hlt : Spec.instant t < Spec.instant s + dayMicros := by exact_mod_cast hlt
    have hlt' : Spec.instant s < Spec.instant t + dayMicros := by exact_mod_cast hlt'
    apply instant_eq t s ht0 hs0
    rw [ist, iss, e1, e2, e3, wt, ws] at hlt hlt' ⊢
    have k1 : dayNo (t.year, t.month, t.day) * dayMicros < (dayNo (s.year, s.month, s.day) + 1) * dayMicros := by
      rw [Nat.add_mul]; omega
    have k2 : dayNo (s.year, s.month, s.day) * dayMicros < (dayNo (t.year, t.month, t.day) + 1) * dayMicros := by
      rw [Nat.add_mul]; omega
    have k1 := Nat.lt_of_mul_lt_mul_right k1
    have k2 := Nat.lt_of_mul_lt_mul_right k2
    have : dayNo (t.year, t.month, t.day) = dayNo (s.year, s.month, s.day) := by omega
    rw [this]
  · -- date and time
    have e : ∀ x : DateTime, tickLabel lo hi x = isoStr x := by
      intro x
      unfold tickLabel
      rw [if_neg (by rintro ⟨h, _⟩; exact hr1 h), if_neg hr1, if_neg (by linarith)]
    rw [e, e] at h
    unfold isoStr at h
    rw [wt, ws] at h
    have ldate : (dateStr t).length = (dateStr s).length := by simp [dateStr, join, pad_length]
    obtain ⟨h1, h⟩ := append_cons_inj ldate h
    obtain ⟨h2, h⟩ := append_cons_inj (by simp [pad_length]) h
    obtain ⟨h3, h⟩ := append_cons_inj (by simp [pad_length]) h
    obtain ⟨h4, -⟩ := List.append_inj h (by simp [pad_length])
    simp only [dateStr, join] at h1
    obtain ⟨g1, h1⟩ := append_cons_inj (by simp [pad_length]) h1
    obtain ⟨g2, g3⟩ := append_cons_inj (by simp [pad_length]) h1
    have e1 := pad_inj 4 _ _ (by omega) (by omega) g1
    have e2 := pad_inj 2 _ _ (by omega) (by omega) g2
    have e3 := pad_inj 2 _ _ (by omega) (by omega) g3
    have e4 := pad_inj 2 _ _ (by omega) (by omega) h2
    have e5 := pad_inj 2 _ _ (by omega) (by omega) h3
    have e6 := pad_inj 2 _ _ (by omega) (by omega) h4
    cases t; cases s
    simp_all

/-- C121: the label of a tick of an axis of less than a day is the hour and the minute, and the second if that is not 0. -/
theorem c121_time_of_day (lo hi : ℚ) (t : DateTime) (hr : hi - lo < 1) :
    tickLabel lo hi t = join ':' (if t.second = 0 then [pad 2 t.hour, pad 2 t.minute] else [pad 2 t.hour, pad 2 t.minute, pad 2 t.second]) := by
  unfold tickLabel
  split <;> rename_i h
  · rw [if_pos h.2]; rfl
  · rw [if_neg (fun c => h ⟨hr, c⟩)]; first | rfl | (rw [if_pos hr]; rfl)

/-- C121, violated: ticks at fractions of seconds (which a short axis has) can have the same label. -/
theorem c121_subsecond_violated : ∃ t s : DateTime, Spec.Real t ∧ Spec.Real s ∧ t ≠ s ∧ ∀ lo hi : ℚ, hi - lo < 1 → tickLabel lo hi t = tickLabel lo hi s :=
  ⟨⟨2008, 7, 10, 12, 30, 0, 0⟩, ⟨2008, 7, 10, 12, 30, 0, 500000⟩, by unfold Spec.Real; decide, by unfold Spec.Real; decide, by decide, fun lo hi h => by simp [tickLabel, h]⟩

/-- C121, violated: a duration as the step of an axis (documented, as is the way to write it) fails, whatever it is. -/
theorem c121_step_violated (hi : ℚ) (n : ℕ) : stepEnd hi (.delta n) = .error .type := rfl

/-- C121, violated: the example of the manual for such a step ("1m6S") is not even read. -/
theorem c121_documented_step : parseDelta "1m6S".toList = .error .value := by decide +kernel

/-- A number as the step is added. -/
theorem c121_step_number (hi x : ℚ) : stepEnd hi (.number x) = .ok (hi + x) := rfl

/-! ## Examples -/

theorem dby_eq (y : ℕ) : Spec.daysBeforeYear (y + 1) = 365 * y + y / 4 - y / 100 + y / 400 ∧ y / 100 ≤ y / 4 := by
  induction y with
  | zero => simp [Spec.daysBeforeYear]
  | succ y ih =>
    rw [dby_succ (y + 1) (by omega), ih.1]
    refine ⟨?_, by omega⟩
    by_cases hl : isLeap (y + 1) = true
    · rw [if_pos hl]
      simp only [isLeap, Bool.and_eq_true, Bool.or_eq_true, beq_iff_eq, bne_iff_ne] at hl
      omega
    · rw [if_neg hl]
      simp only [isLeap, Bool.and_eq_true, Bool.or_eq_true, beq_iff_eq, bne_iff_ne, not_and, not_or, not_not] at hl
      omega

/-- The references are the days they are called. -/
theorem refs : Spec.instant ⟨1600, 1, 1, 0, 0, 0, 0⟩ = ref1600 * dayMicros ∧ Spec.instant ⟨1970, 1, 1, 0, 0, 0, 0⟩ = ref1970 * dayMicros := by
  have h1 := (dby_eq 1599).1
  have h2 := (dby_eq 1969).1
  norm_num at h1 h2
  constructor <;> simp [Spec.instant, h1, h2, dbm_one, ref1600, ref1970, dayMicros]

/-- 10 July 2008, 12:00, in standard time. -/
example : Spec.Says stdUnit 149210.5 ⟨2008, 7, 10, 12, 0, 0, 0⟩ := by
  have h1 := (dby_eq 2007).1
  norm_num at h1
  have h2 : Spec.daysBeforeMonth 2008 7 = 182 := by decide
  simp [Spec.Says, stdUnit, ref1600, Spec.instant, h1, h2, dayMicros]
  norm_num

/-- The line plot says that. -/
example : num2date newEpoch (plotX .generic stdUnit 149210.5) = some ⟨2008, 7, 10, 12, 0, 0, 0⟩ := by
  apply c121_line _ _ _ (by unfold Spec.Real; decide)
  have h1 := (dby_eq 2007).1
  norm_num at h1
  have h2 : Spec.daysBeforeMonth 2008 7 = 182 := by decide
  simp [Spec.Says, stdUnit, ref1600, Spec.instant, h1, h2, dayMicros]
  norm_num

/-- A heatmap says 11 July 2378. -/
example : num2date newEpoch (plotX .twoD stdUnit 149210.5) = some ⟨2378, 7, 11, 12, 0, 0, 0⟩ := by
  have h1 := (dby_eq 2007).1
  have h3 := (dby_eq 2377).1
  norm_num at h1 h3
  have h2 : Spec.daysBeforeMonth 2008 7 = 182 := by decide
  have h4 : Spec.daysBeforeMonth 2378 7 = 181 := by decide
  refine (c121_2d_violated _ ⟨2008, 7, 10, 12, 0, 0, 0⟩ _ (by unfold Spec.Real; decide) ?_ ?_).1
  · simp [Spec.Says, stdUnit, ref1600, Spec.instant, h1, h2, dayMicros]
    norm_num
  · simp [Spec.instant, h1, h2, h3, h4, dayMicros]

example : ((tickLabel 0 10 ⟨2008, 7, 10, 12, 0, 0, 0⟩) = "2008-07-10".toList) ∧
    ((tickLabel 0 3 ⟨2008, 7, 10, 12, 0, 5, 0⟩) = "2008-07-10 12:00:05+00:00".toList) ∧
    ((tickLabel 0 (1/2) ⟨2008, 7, 10, 12, 0, 5, 0⟩) = "12:00:05".toList) ∧ ((tickLabel 0 (1/2) ⟨2008, 7, 10, 12, 30, 0, 0⟩) = "12:30".toList) := by
  decide +kernel

end Cis.TimeAxis
