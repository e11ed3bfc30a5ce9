import Mathlib.Algebra.Order.Floor.Ring
import Mathlib.Algebra.Order.Archimedean.Basic
import Mathlib.Data.Rat.Floor
import Mathlib.Tactic.Ring
import Mathlib.Tactic.Linarith
import Mathlib.Tactic.Positivity
import Mathlib.Tactic.FieldSimp
import Mathlib.Tactic.NormNum
/-!
Model of the formatting of a plot (plotting/formatted_plot.py:88-135, 216-238; plotting/plot.py:37-66, 173-221;
utils.py:234-248; plotting/contourplot.py:9-32). Numbers are exact (rationals).
-/
set_option linter.unusedSectionVars false
set_option linter.unusedSimpArgs false
namespace Cis.Plot

/-- `numpy.arange(start, stop, step)` (library): `ceil((stop - start) / step)` numbers. -/
def arange (start stop step : ℚ) : List ℚ :=
  (List.range (Int.toNat ⌈(stop - start) / step⌉)).map (fun k : ℕ => start + (k : ℚ) * step)

/-- The limits of an axis: (first, last); an inverted axis has first > last. `ax.set_xlim(xmin, xmax)` (library) keeps the limits
that are `None`. -/
def setLim (cur : ℚ × ℚ) (lo hi : Option ℚ) : ℚ × ℚ := (lo.getD cur.1, hi.getD cur.2)

/-- `apply_axis_limits` (formatted_plot.py:88-108) for one axis: new limits and, if a step is given, ticks. -/
def applyLimits (cur : ℚ × ℚ) (lo hi step : Option ℚ) : (ℚ × ℚ) × Option (List ℚ) :=
  let l := setLim cur lo hi
  (l, step.map (fun s => arange l.1 (l.2 + s) s))

/-- `set_width_and_height` (formatted_plot.py:221-238), returns width and height. -/
def figSize (width height : Option ℚ) : ℚ × ℚ :=
  match height, width with
  | some h, some w => (w, h)
  | some h, none => (h * (4 / 3), h)
  | none, some w => (w, w * (3 / 4))
  | none, none => (8, 6)

/-- The search for a resolution (plot.py:184-188, 213-217): the last entry whose scale is larger than the extent, or the first. -/
def resolution (first : String) (rest : List (ℚ × String)) (ext : ℚ) : String :=
  rest.foldl (fun r p => if p.1 > ext then p.2 else r) first

/-- plot.py:178. -/
def coastlineRes (ext : ℚ) : String := resolution "110m" [(500, "50m"), (100, "10m")] ext

/-- plot.py:206-208 (the names of the images abbreviated to their widths). -/
def bluemarbleRes (ext : ℚ) : String := resolution "1350" [(5000, "2700"), (2500, "5400")] ext

/-- What a data object gives for its longitude: the points, or one of the two errors called `CoordinateNotFoundError`
(gridded data: iris, ungridded: cis/exceptions.py:50). -/
inductive LonLookup where
  | points (l : List ℚ) | irisError | cisError

/-- `find_longitude_wrap_start` (utils.py:234-248): only the error of iris is caught. The points are not empty. -/
def wrapStart : LonLookup → Except Unit (Option ℚ)
  | .points l => .ok (some (if l.min?.getD 0 < 0 then -180 else 0))
  | .irisError => .ok none
  | .cisError => .error ()

/-- `get_x_wrap_start` (formatted_plot.py:111-135); `user` is the lower limit of the x axis if it is a number. -/
def xWrapStart (data : List LonLookup) (user : Option ℚ) : Except Unit (Option ℚ) := do
  let starts ← data.mapM wrapStart
  pure (match user with
    | some u => some (if u < 0 then -180 else 0)
    | none => (starts.filterMap id).min?)

/-- formatted_plot.py:169-171. -/
def centralLongitude (start : ℚ) : ℚ := start - 180

/-- The levels of a contour plot (contourplot.py:9-32). `Generic2DPlot.__init__` is called without the step, so `self.vstep` is
`None`. `sum.inl` are levels, `sum.inr` is a number of levels. -/
def contourLevels (levels : List ℚ) (selfVstep : Option ℚ) (vstep : ℚ) (vmin vmax : ℚ) (nlevels : ℕ) : List ℚ ⊕ ℚ :=
  if levels ≠ [] then .inl levels
  else if selfVstep.any (· ≠ 0) then .inr ((vmax - vmin) / vstep)
  else .inr nlevels

def contourLevelsOf (levels : List ℚ) (vstep : Option ℚ) (vmin vmax : ℚ) (nlevels : ℕ) : List ℚ ⊕ ℚ :=
  contourLevels levels none (vstep.getD 0) vmin vmax nlevels

/-- `format_units` and `get_label` (plot.py:37-66); `time`: the units contain "since". -/
def formatUnits (units : String) (time : Bool) : String :=
  if time then "" else if units ≠ "" then "(" ++ units ++ ")" else ""

def label (name units : String) (time withUnits : Bool) : String :=
  if withUnits then (if name ≠ "" then name ++ " " else name) ++ formatUnits units time else name

/-! ### Properties -/

/-- **C91.** With a positive step, the ticks of an axis from `lo` to `hi` start at `lo`, are a step apart, and go as far as the
end of the axis but less than a step further. -/
theorem c91_ticks (cur : ℚ × ℚ) (lo hi : Option ℚ) (s : ℚ) (hs : 0 < s)
    (hle : (setLim cur lo hi).1 ≤ (setLim cur lo hi).2) :
    ∃ (l : ℚ × ℚ) (ticks : List ℚ), applyLimits cur lo hi (some s) = (l, some ticks) ∧
      (∀ v, lo = some v → l.1 = v) ∧ (lo = none → l.1 = cur.1) ∧ (∀ v, hi = some v → l.2 = v) ∧ (hi = none → l.2 = cur.2) ∧
      ticks.head? = some l.1 ∧
      (∀ (k : ℕ) (t u : ℚ), ticks[k]? = some t → ticks[k + 1]? = some u → u = t + s) ∧
      ∃ last, ticks.getLast? = some last ∧ l.2 ≤ last ∧ last < l.2 + s := by
  set l := setLim cur lo hi with hl
  set n := Int.toNat ⌈(l.2 + s - l.1) / s⌉ with hn
  have hpos : 0 < (l.2 + s - l.1) / s := div_pos (by linarith) hs
  have hceil : 0 < ⌈(l.2 + s - l.1) / s⌉ := Int.ceil_pos.2 hpos
  have hnc : (n : ℤ) = ⌈(l.2 + s - l.1) / s⌉ := Int.toNat_of_nonneg hceil.le
  have hn0 : 0 < n := by omega
  have hnq : (n : ℚ) = (⌈(l.2 + s - l.1) / s⌉ : ℤ) := by exact_mod_cast hnc
  refine ⟨l, arange l.1 (l.2 + s) s, rfl, ?_, ?_, ?_, ?_, ?_, ?_, l.1 + ((n - 1 : ℕ) : ℚ) * s, ?_, ?_, ?_⟩
  · intro v hv; rw [hl, hv]; rfl
  · intro hv; rw [hl, hv]; rfl
  · intro v hv; rw [hl, hv]; rfl
  · intro hv; rw [hl, hv]; rfl
  · unfold arange
    rw [← hn, List.head?_map]
    have : (List.range n).head? = some 0 := by
      rw [List.head?_range, if_neg (by omega)]
    rw [this]; simp
  · intro k t u ht hu
    unfold arange at ht hu
    rw [List.getElem?_map] at ht hu
    rw [← hn] at ht hu
    by_cases hk : k + 1 < n
    · rw [List.getElem?_range (by omega)] at ht
      rw [List.getElem?_range hk] at hu
      simp only [Option.map_some, Option.some.injEq] at ht hu
      rw [← ht, ← hu]; push_cast; ring
    · rw [List.getElem?_eq_none (by simp; omega)] at hu; cases hu
  · unfold arange
    rw [← hn, List.getLast?_map, List.getLast?_range, if_neg (by omega)]
    simp
  · have h1 : (l.2 + s - l.1) / s ≤ n := by rw [hnq]; exact Int.le_ceil _
    have h2 : l.2 + s - l.1 ≤ n * s := (div_le_iff₀ hs).1 h1
    rw [Nat.cast_sub (by omega)]
    push_cast
    linarith
  · have h1 : (n : ℚ) < (l.2 + s - l.1) / s + 1 := by rw [hnq]; exact Int.ceil_lt_add_one _
    have h2 : ((n : ℚ) - 1) * s < l.2 + s - l.1 := by
      have : (n : ℚ) - 1 < (l.2 + s - l.1) / s := by linarith
      exact (lt_div_iff₀ hs).1 this
    rw [Nat.cast_sub (by omega)]
    push_cast
    linarith

/-- **C91** is violated for an inverted axis (the axis of pressure, plot.py:391-392): it gets no ticks at all. -/
theorem c91_inverted_violated (first last s : ℚ) (hs : 0 < s) (h : last + s ≤ first) :
    (applyLimits (first, last) none none (some s)).2 = some [] := by
  have : ⌈(last + s - first) / s⌉ ≤ 0 := by
    rw [Int.ceil_le]
    push_cast
    exact div_nonpos_of_nonpos_of_nonneg (by linarith) hs.le
  simp [applyLimits, setLim, arange, Int.toNat_of_nonpos this]

/-- **C91.** The figure has the width and the height asked for, in the ratio 4:3 if only one is given and 8 by 6 if none. -/
theorem c91_size (width height : Option ℚ) :
    (∀ w, width = some w → (figSize width height).1 = w) ∧ (∀ h, height = some h → (figSize width height).2 = h) ∧
    ((width = none ∨ height = none) → 3 * (figSize width height).1 = 4 * (figSize width height).2) ∧
    (width = none → height = none → figSize width height = (8, 6)) := by
  cases width <;> cases height <;> simp [figSize] <;> ring

/-- **C91.** The smaller the extent of a map the finer the coastlines and the background, with the documented limits. -/
theorem c91_resolution (ext : ℚ) :
    coastlineRes ext = (if ext < 100 then "10m" else if ext < 500 then "50m" else "110m") ∧
    bluemarbleRes ext = (if ext < 2500 then "5400" else if ext < 5000 then "2700" else "1350") := by
  constructor
  · simp only [coastlineRes, resolution, List.foldl_cons, List.foldl_nil, gt_iff_lt]
  · simp only [bluemarbleRes, resolution, List.foldl_cons, List.foldl_nil, gt_iff_lt]

/-- All of `ls` are shown by a map centred at `c` (360 degrees wide) without wrapping if they are within 180 degrees of `c`,
up to a common number of full turns. -/
def Unwrapped (c : ℚ) (ls : List ℚ) : Prop := ∃ k : ℤ, ∀ l ∈ ls, c - 180 ≤ l + k * 360 ∧ l + k * 360 ≤ c + 180

/-- **C91.** Without a lower limit, longitudes from -180 to 180 or from 0 to 360 are shown without being wrapped, if
all data objects have longitudes in the same of the two ranges. -/
theorem c91_central (data : List (List ℚ)) (hne : ∀ l ∈ data, l ≠ []) (hd : data ≠ [])
    (h : (∀ l ∈ data, ∀ x ∈ l, 0 ≤ x ∧ x ≤ 360) ∨ ((∀ l ∈ data, ∀ x ∈ l, -180 ≤ x ∧ x ≤ 180) ∧ ∃ l ∈ data, ∃ x ∈ l, x < 0)) :
    ∃ s, xWrapStart (data.map .points) none = .ok (some s) ∧ ∀ l ∈ data, Unwrapped (centralLongitude s) l := by
  have hmap : (data.map LonLookup.points).mapM wrapStart
      = .ok (data.map (fun l => some (if l.min?.getD 0 < 0 then (-180 : ℚ) else 0))) := by
    clear hne hd h
    induction data with
    | nil => rfl
    | cons a t ih => simp only [List.map_cons, List.mapM_cons, ih]; rfl
  set f : List ℚ → ℚ := fun l => if l.min?.getD 0 < 0 then (-180 : ℚ) else 0 with hf
  have hfm : (data.map (fun l => some (f l))).filterMap id = data.map f := by
    clear hmap hne hd h
    induction data with
    | nil => rfl
    | cons a t ih => simp
  have hres : xWrapStart (data.map .points) none = .ok ((data.map f).min?) := by
    unfold xWrapStart
    rw [hmap]
    show Except.ok _ = _
    rw [hfm]
  have hmin : ∀ l ∈ data, ∃ m ∈ l, l.min? = some m ∧ ∀ x ∈ l, m ≤ x := by
    intro l hl
    cases hm : l.min? with
    | none => exact absurd (List.min?_eq_none_iff.1 hm) (hne l hl)
    | some m =>
      have := List.min?_eq_some_iff.1 hm
      exact ⟨m, this.1, rfl, this.2⟩
  rcases h with h | ⟨h, l0, hl0, x0, hx0, hneg⟩
  · have hall : ∀ l ∈ data, f l = 0 := by
      intro l hl
      obtain ⟨m, hm, hm', -⟩ := hmin l hl
      rw [hf]
      simp only [hm', Option.getD_some]
      rw [if_neg (by linarith [(h l hl m hm).1])]
    have : (data.map f).min? = some 0 := by
      rw [List.min?_eq_some_iff]
      refine ⟨?_, ?_⟩
      · obtain ⟨l, hl⟩ := List.exists_mem_of_ne_nil _ hd
        exact List.mem_map.2 ⟨l, hl, hall l hl⟩
      · intro b hb
        obtain ⟨l, hl, rfl⟩ := List.mem_map.1 hb
        rw [hall l hl]
    refine ⟨0, by rw [hres, this], ?_⟩
    intro l hl
    refine ⟨-1, ?_⟩
    intro x hx
    have := h l hl x hx
    unfold centralLongitude
    constructor <;> push_cast <;> linarith
  · have hlow : f l0 = -180 := by
      obtain ⟨m, hm, hm', hm''⟩ := hmin l0 hl0
      rw [hf]
      simp only [hm', Option.getD_some]
      rw [if_pos (by linarith [hm'' x0 hx0])]
    have : (data.map f).min? = some (-180) := by
      rw [List.min?_eq_some_iff]
      refine ⟨List.mem_map.2 ⟨l0, hl0, hlow⟩, ?_⟩
      intro b hb
      obtain ⟨l, hl, rfl⟩ := List.mem_map.1 hb
      rw [hf]
      dsimp only
      split <;> norm_num
    refine ⟨-180, by rw [hres, this], ?_⟩
    intro l hl
    refine ⟨-1, ?_⟩
    intro x hx
    have := h l hl x hx
    unfold centralLongitude
    constructor <;> push_cast <;> linarith

/-- **C91.** A lower limit of the x axis decides alone: the map starts at -180 or at 0. -/
theorem c91_central_user (data : List LonLookup) (u : ℚ) (r : Option ℚ) (h : xWrapStart data (some u) = .ok r) :
    r = some (if u < 0 then -180 else 0) := by
  unfold xWrapStart at h
  cases hm : data.mapM wrapStart with
  | error e => rw [hm] at h; cases h
  | ok s => rw [hm] at h; cases h; rfl

/-- **C91** is violated: ungridded data without a longitude cannot be plotted from the command line, not even against time (the
wrong error is caught). -/
theorem c91_no_longitude_violated (rest : List LonLookup) (user : Option ℚ) :
    xWrapStart (.cisError :: rest) user = .error () := by
  unfold xWrapStart
  simp only [List.mapM_cons, wrapStart]
  rfl

/-- **C91.** Contour levels: those given; without them the given number of levels. -/
theorem c91_levels (levels : List ℚ) (vmin vmax : ℚ) (n : ℕ) :
    (levels ≠ [] → ∀ vstep, contourLevelsOf levels vstep vmin vmax n = .inl levels) ∧
    contourLevelsOf [] none vmin vmax n = .inr n := by
  constructor
  · intro h v; simp [contourLevelsOf, contourLevels, h]
  · simp [contourLevelsOf, contourLevels]

/-- **C91** is violated for the step between contour levels: it has no effect. -/
theorem c91_step_violated (levels : List ℚ) (v v' : Option ℚ) (vmin vmax : ℚ) (n : ℕ) :
    contourLevelsOf levels v vmin vmax n = contourLevelsOf levels v' vmin vmax n := by
  by_cases h : levels = [] <;> simp [contourLevelsOf, contourLevels, h]

/-- **C91.** Labels have the units in brackets, except for times and if there are none. -/
theorem c91_label (name units : String) (time : Bool) (hn : name ≠ "") :
    label name units time true =
      (if time = false ∧ units ≠ "" then name ++ " (" ++ units ++ ")" else name ++ " ") ∧
    label name units time false = name := by
  constructor
  · cases time <;> by_cases hu : units = "" <;> simp [label, formatUnits, hn, hu, String.append_assoc]
    apply String.ext
    simp
  · simp [label]

/-! ### Examples -/

example : (applyLimits (0, 10) (some 1) none (some 4)).2 = some [1, 5, 9, 13] := by decide +kernel
example : (0 : ℚ) < 4 ∧ (setLim (0, 10) (some 1) none).1 ≤ (setLim (0, 10) (some 1) none).2 := by decide +kernel
example : (applyLimits (1000, 100) none none (some 100)).2 = some [] := c91_inverted_violated 1000 100 100 (by norm_num) (by norm_num)
example : ∃ s, xWrapStart (([[-10, 20], [5]] : List (List ℚ)).map .points) none = .ok (some s) ∧
    ∀ l ∈ ([[-10, 20], [5]] : List (List ℚ)), Unwrapped (centralLongitude s) l :=
  c91_central _ (by decide) (by decide) (.inr ⟨by decide +kernel, by decide +kernel⟩)

end Cis.Plot
