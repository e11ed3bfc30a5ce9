import Mathlib.Data.Rat.Floor
import Mathlib.Algebra.Order.Floor.Ring
import Mathlib.Tactic.Ring
import Mathlib.Tactic.Linarith
import Mathlib.Tactic.FieldSimp
import Mathlib.Tactic.NormNum
import Verif.Plot.Format
set_option linter.unusedSectionVars false
set_option linter.unusedSimpArgs false
/-!
Property C122: the limits of maps and of axes with a step. Model of `apply_map_axis_limits` (cis/plotting/formatted_plot.py:44-85), of the
setting of ticks there and in `apply_axis_limits` (88-107), of the ticks of maps (`get_best_map_ticks`, cis/plotting/plot.py:221-262) and of
`no_autoscale` (cis/utils.py:727-733), with what cartopy and matplotlib do: a map with central longitude `c` has, for the longitude `l`,
the abscissa `l - c` reduced to [-180, 180]; `get_extent()` gives the limits in these abscissae; `set_extent` with the coordinate system
`PlateCarree(360)` takes longitudes (up to multiples of 360) and sets the limits to the bounds of the area between them, which is the
whole width if it crosses the edge of the map; `set_ticks` widens the limits to include all ticks. Numbers are exact; maps with other
projections, which have no limits, are left out.
-/
namespace Cis.MapLimits
open Cis.Plot (arange)

/-- What a map shows: limits of its abscissae and of its latitudes. -/
structure View where
  x1 : ℚ
  x2 : ℚ
  y1 : ℚ
  y2 : ℚ
  deriving DecidableEq

/-- `ax.set_global()`. -/
def globalView : View := ⟨-180, 180, -90, 90⟩

/-- The abscissa of a longitude on a map with central longitude `c`, in [-180, 180). -/
def native (c l : ℚ) : ℚ := l - c - 360 * ⌊(l - c + 180) / 360⌋

/-- `ax.set_extent([xmin, xmax, ymin, ymax], crs=PlateCarree(360))`. -/
def setExtent (c xmin xmax ymin ymax : ℚ) : View :=
  let a := native c xmin
  let b := a + (xmax - xmin)
  if b ≤ 180 then ⟨a, b, ymin, ymax⟩ else ⟨-180, 180, ymin, ymax⟩

/-- The limits of the user. -/
structure Limits where
  xmin : Option ℚ
  xmax : Option ℚ
  ymin : Option ℚ
  ymax : Option ℚ

/-- No limit given. -/
def Limits.none? (l : Limits) : Bool := l.xmin.isNone && l.xmax.isNone && l.ymin.isNone && l.ymax.isNone

/-- The setting of limits in `apply_map_axis_limits` (formatted_plot.py:54-71). -/
def mapLimits (c : ℚ) (v : View) (l : Limits) : View :=
  if l.none? ∧ (v.y2 - v.y1 > 180 * (4 / 5) ∨ v.x2 - v.x1 > 360 * (4 / 5)) then globalView
  else setExtent c (l.xmin.getD v.x1) (l.xmax.getD v.x2) (l.ymin.getD v.y1) (l.ymax.getD v.y2)

/-- `set_xticks`: the limits are widened to include all ticks. -/
def setTicks (lim : ℚ × ℚ) (ticks : List ℚ) : ℚ × ℚ := (ticks.foldl min lim.1, ticks.foldl max lim.2)

/-- The limits after a step is applied (formatted_plot.py:77-85 and 95-107). -/
def withStep (lim : ℚ × ℚ) (step : ℚ) : ℚ × ℚ := setTicks lim (arange lim.1 (lim.2 + step) step)

/-- The ticks of a map that are kept (plot.py:257-261), from those matplotlib proposes. -/
def bestTicks (lon lat : List ℚ) : List ℚ × List ℚ := (lon.filter (fun t => |t| ≤ 360), lat.filter (fun t => |t| ≤ 90))

/-- `no_autoscale` (utils.py:727-733): scaling is switched off, and on again after the body unless that fails. -/
def noAutoscale {σ : Type} (body : Bool → σ → Except Unit σ) (_auto : Bool) (s : σ) : Bool × Except Unit σ :=
  match body false s with
  | .ok s' => (true, .ok s')
  | .error e => (false, .error e)

/-! ## Specification -/

/-- The map shows a longitude (its abscissa, or that of the other edge, is between the limits). -/
def Spec.Shows (c : ℚ) (v : View) (l : ℚ) : Prop := ∃ k : ℤ, v.x1 ≤ l - c + 360 * k ∧ l - c + 360 * k ≤ v.x2

/-- A longitude is between two others, on the circle. -/
def Spec.Between (a b l : ℚ) : Prop := ∃ k : ℤ, a ≤ l + 360 * k ∧ l + 360 * k ≤ b

/-- The view is one of the map. -/
def Spec.Proper (v : View) : Prop := -180 ≤ v.x1 ∧ v.x1 ≤ v.x2 ∧ v.x2 ≤ 180 ∧ v.x1 < 180 ∧ -90 ≤ v.y1 ∧ v.y1 ≤ v.y2 ∧ v.y2 ≤ 90

/-- No limit is given. -/
def Spec.Free (l : Limits) : Prop := l.xmin = none ∧ l.xmax = none ∧ l.ymin = none ∧ l.ymax = none

/-! ## C122 -/

theorem free_iff (l : Limits) : Spec.Free l ↔ l.none? = true := by
  simp [Spec.Free, Limits.none?, and_assoc]

theorem native_range (c l : ℚ) : -180 ≤ native c l ∧ native c l < 180 := by
  unfold native
  have h1 := Int.floor_le ((l - c + 180) / 360)
  have h2 := Int.lt_floor_add_one ((l - c + 180) / 360)
  rw [le_div_iff₀ (by norm_num)] at h1
  rw [div_lt_iff₀ (by norm_num)] at h2
  constructor <;> linarith

theorem native_of (c l : ℚ) (k : ℤ) (h1 : -180 ≤ l - c + 360 * k) (h2 : l - c + 360 * k < 180) : native c l = l - c + 360 * k := by
  have : ⌊(l - c + 180) / 360⌋ = -k := by
    rw [Int.floor_eq_iff]
    push_cast
    rw [le_div_iff₀ (by norm_num), div_lt_iff₀ (by norm_num)]
    constructor <;> linarith
  unfold native
  rw [this]
  push_cast
  ring

theorem setExtent_shows (c xmin xmax ymin ymax l : ℚ) (hfit : native c xmin + (xmax - xmin) ≤ 180) :
    Spec.Shows c (setExtent c xmin xmax ymin ymax) l ↔ Spec.Between xmin xmax l := by
  unfold setExtent
  simp only
  rw [if_pos hfit]
  unfold Spec.Shows Spec.Between
  simp only
  have e : native c xmin = xmin - c - 360 * ⌊(xmin - c + 180) / 360⌋ := rfl
  generalize ⌊(xmin - c + 180) / 360⌋ = m at e
  rw [e]
  constructor
  · rintro ⟨k, h1, h2⟩
    refine ⟨k + m, ?_, ?_⟩ <;> push_cast <;> linarith
  · rintro ⟨k, h1, h2⟩
    refine ⟨k - m, ?_, ?_⟩ <;> push_cast <;> linarith

/-- C122: if both longitudes are given, from -180 to 180 or from 0 to 360, the map shows exactly what is between them (with the central
longitude that cis takes from the given minimum). -/
theorem c122_given (v : View) (l : Limits) (a b x : ℚ) (ha : l.xmin = some a) (hb : l.xmax = some b)
    (hr : (-180 ≤ a ∧ a < 0 ∧ b ≤ 180) ∨ (0 ≤ a ∧ a < 360 ∧ b ≤ 360)) :
    let c := Cis.Plot.centralLongitude (if a < 0 then -180 else 0)
    Spec.Shows c (mapLimits c v l) x ↔ Spec.Between a b x := by
  intro c
  have hn : l.none? = false := by simp [Limits.none?, ha]
  unfold mapLimits
  rw [hn]
  simp only [Bool.false_eq_true, false_and, if_false, ha, hb, Option.getD_some]
  apply setExtent_shows
  rcases hr with ⟨h1, h2, h3⟩ | ⟨h1, h2, h3⟩
  · have hc : c = -360 := by
      show Cis.Plot.centralLongitude (if a < 0 then -180 else 0) = -360
      rw [if_pos h2]; norm_num [Cis.Plot.centralLongitude]
    rw [hc, native_of (-360) a (-1) (by push_cast; linarith) (by push_cast; linarith)]
    push_cast; linarith
  · have hc : c = -180 := by
      show Cis.Plot.centralLongitude (if a < 0 then -180 else 0) = -180
      rw [if_neg (by linarith)]; norm_num [Cis.Plot.centralLongitude]
    rw [hc, native_of (-180) a (-1) (by push_cast; linarith) (by push_cast; linarith)]
    push_cast; linarith

/-- C122: latitudes given are the limits of the map; those not given stay as they were unless the whole globe is shown. -/
theorem c122_latitudes (c : ℚ) (v : View) (l : Limits) (h : ¬ (Spec.Free l ∧ (v.y2 - v.y1 > 144 ∨ v.x2 - v.x1 > 288))) :
    (mapLimits c v l).y1 = l.ymin.getD v.y1 ∧ (mapLimits c v l).y2 = l.ymax.getD v.y2 := by
  unfold mapLimits
  norm_num
  rw [free_iff] at h
  norm_num at h
  rw [if_neg (by rintro ⟨h1, h2⟩; rcases h2 with h2 | h2 <;> [linarith [(h h1).1]; linarith [(h h1).2]])]
  unfold setExtent
  simp only
  split <;> simp

/-- C122: the whole globe is shown for data that span more than 4/5 of it, unless a limit is given. -/
theorem c122_global (c : ℚ) (v : View) (l : Limits) (hn : l.xmin = none ∧ l.xmax = none ∧ l.ymin = none ∧ l.ymax = none)
    (hs : v.y2 - v.y1 > 144 ∨ v.x2 - v.x1 > 288) : mapLimits c v l = globalView := by
  unfold mapLimits
  rw [if_pos]
  refine ⟨by simp [Limits.none?, hn], ?_⟩
  norm_num
  rcases hs with h | h
  · left; linarith
  · right; linarith

/-- C122: on maps of data with negative longitudes (central longitude -360) the limits not given stay. -/
theorem c122_kept (v : View) (hv : Spec.Proper v) (l : Limits) (hx : l.xmin = none ∧ l.xmax = none)
    (h : ¬ (Spec.Free l ∧ (v.y2 - v.y1 > 144 ∨ v.x2 - v.x1 > 288))) :
    mapLimits (-360) v l = ⟨v.x1, v.x2, l.ymin.getD v.y1, l.ymax.getD v.y2⟩ := by
  obtain ⟨h1, h2, h3, h4, -⟩ := hv
  unfold mapLimits
  rw [free_iff] at h
  norm_num at h ⊢
  rw [if_neg (by rintro ⟨g1, g2⟩; rcases g2 with g2 | g2 <;> [linarith [(h g1).1]; linarith [(h g1).2]])]
  unfold setExtent
  simp only [hx, Option.getD_none]
  rw [native_of (-360) v.x1 (-1) (by push_cast; linarith) (by push_cast; linarith)]
  have e : v.x1 - -360 + 360 * (((-1 : ℤ)) : ℚ) = v.x1 := by push_cast; ring
  rw [e]
  rw [if_pos (by linarith)]
  congr 1
  ring

/-- C122, violated: on maps of data without negative longitudes (central longitude -180), the map shows the side of the earth opposite to
the data, if no longitude is given (with or without latitudes) and it does not show the whole globe. -/
theorem c122_opposite_violated (v : View) (hv : Spec.Proper v) (l : Limits) (hx : l.xmin = none ∧ l.xmax = none)
    (h : ¬ (Spec.Free l ∧ (v.y2 - v.y1 > 144 ∨ v.x2 - v.x1 > 288))) (hside : v.x2 < 0 ∨ 0 ≤ v.x1) (x : ℚ) :
    Spec.Shows (-180) (mapLimits (-180) v l) x ↔ Spec.Shows (-180) v (x + 180) := by
  obtain ⟨h1, h2, h3, h4, -⟩ := hv
  have e0 : mapLimits (-180) v l = setExtent (-180) v.x1 v.x2 (l.ymin.getD v.y1) (l.ymax.getD v.y2) := by
    unfold mapLimits
    rw [free_iff] at h
    norm_num at h ⊢
    rw [if_neg (by rintro ⟨g1, g2⟩; rcases g2 with g2 | g2 <;> [linarith [(h g1).1]; linarith [(h g1).2]])]
    simp [hx]
  rw [e0, setExtent_shows]
  · unfold Spec.Between Spec.Shows
    constructor
    · rintro ⟨k, g1, g2⟩
      exact ⟨k - 1, by push_cast; linarith, by push_cast; linarith⟩
    · rintro ⟨k, g1, g2⟩
      exact ⟨k + 1, by push_cast; linarith, by push_cast; linarith⟩
  · rcases hside with hs | hs
    · rw [native_of (-180) v.x1 0 (by push_cast; linarith) (by push_cast; linarith)]
      push_cast; linarith
    · rw [native_of (-180) v.x1 (-1) (by push_cast; linarith) (by push_cast; linarith)]
      push_cast; linarith

/-- C122, violated: then no point of data that span less than 180 degrees is shown. -/
theorem c122_data_lost_violated (v : View) (hv : Spec.Proper v) (l : Limits) (hx : l.xmin = none ∧ l.xmax = none)
    (h : ¬ (Spec.Free l ∧ (v.y2 - v.y1 > 144 ∨ v.x2 - v.x1 > 288))) (hside : v.x2 < 0 ∨ 0 ≤ v.x1) (hw : v.x2 - v.x1 < 180) (x : ℚ)
    (hxs : Spec.Shows (-180) v x) : ¬ Spec.Shows (-180) (mapLimits (-180) v l) x := by
  rw [c122_opposite_violated v hv l hx h hside]
  rintro ⟨j, g1, g2⟩
  obtain ⟨k, f1, f2⟩ := hxs
  have a1 : (180 : ℚ) + 360 * (j - k) < 180 := by linarith
  have a2 : (-180 : ℚ) < 180 + 360 * (j - k) := by linarith
  have b1 : ((j - k : ℤ) : ℚ) < 0 := by push_cast; linarith
  have b2 : ((-1 : ℤ) : ℚ) < ((j - k : ℤ) : ℚ) := by push_cast; linarith
  have b1 : j - k < 0 := by exact_mod_cast b1
  have b2 : -1 < j - k := by exact_mod_cast b2
  omega

/-- C122, violated: limits on both sides of the edge of the map are not kept, everything is shown. -/
theorem c122_edge_violated (v : View) (ys : Option ℚ × Option ℚ) (a b x : ℚ) (h : a < 0) (h1 : -180 ≤ a) (h2 : 180 < b) :
    let c := Cis.Plot.centralLongitude (if a < 0 then -180 else 0)
    Spec.Shows c (mapLimits c v ⟨some a, some b, ys.1, ys.2⟩) x := by
  intro c
  have hc : c = -360 := by
    show Cis.Plot.centralLongitude (if a < 0 then -180 else 0) = -360
    rw [if_pos h]; norm_num [Cis.Plot.centralLongitude]
  rw [hc]
  unfold mapLimits setExtent
  simp only [Limits.none?, Option.isNone_some, Bool.false_and, Bool.false_eq_true, false_and, if_false, Option.getD_some]
  rw [native_of (-360) a (-1) (by push_cast; linarith) (by push_cast; linarith), if_neg (by push_cast; linarith)]
  have r := native_range (-360) x
  refine ⟨-⌊(x - -360 + 180) / 360⌋, ?_, ?_⟩ <;> push_cast <;> simp only [native] at r <;> linarith

/-! ## Ticks -/

theorem foldl_min_le (t : List ℚ) (a : ℚ) : t.foldl min a ≤ a ∧ (∀ x ∈ t, t.foldl min a ≤ x) ∧ (t.foldl min a = a ∨ t.foldl min a ∈ t) := by
  induction t generalizing a with
  | nil => simp
  | cons b t ih =>
    obtain ⟨h1, h2, h3⟩ := ih (min a b)
    simp only [List.foldl_cons]
    refine ⟨le_trans h1 (min_le_left _ _), ?_, ?_⟩
    · intro x hx
      rcases List.mem_cons.1 hx with rfl | hx
      · exact le_trans h1 (min_le_right _ _)
      · exact h2 x hx
    · rcases h3 with h3 | h3
      · rcases min_choice a b with h | h
        · left; rw [h3, h]
        · right; rw [h3, h]; simp
      · right; simp [h3]

theorem foldl_max_le (t : List ℚ) (a : ℚ) : a ≤ t.foldl max a ∧ (∀ x ∈ t, x ≤ t.foldl max a) ∧ (t.foldl max a = a ∨ t.foldl max a ∈ t) := by
  induction t generalizing a with
  | nil => simp
  | cons b t ih =>
    obtain ⟨h1, h2, h3⟩ := ih (max a b)
    simp only [List.foldl_cons]
    refine ⟨le_trans (le_max_left _ _) h1, ?_, ?_⟩
    · intro x hx
      rcases List.mem_cons.1 hx with rfl | hx
      · exact le_trans (le_max_right _ _) h1
      · exact h2 x hx
    · rcases h3 with h3 | h3
      · rcases max_choice a b with h | h
        · left; rw [h3, h]
        · right; rw [h3, h]; simp
      · right; simp [h3]

/-- C122: the limits with a step: the lower one stays; the upper one becomes the first tick that is not below it. -/
theorem c122_step (lo hi s : ℚ) (hs : 0 < s) (h : lo ≤ hi) :
    withStep (lo, hi) s = (lo, lo + ⌈(hi - lo) / s⌉ * s) := by
  have hc : (0 : ℤ) ≤ ⌈(hi - lo) / s⌉ := Int.ceil_nonneg (div_nonneg (by linarith) hs.le)
  have hn : ⌈(hi + s - lo) / s⌉ = ⌈(hi - lo) / s⌉ + 1 := by
    have : (hi + s - lo) / s = (hi - lo) / s + 1 := by field_simp; ring
    rw [this, Int.ceil_add_one]
  obtain ⟨n, hn'⟩ := Int.eq_ofNat_of_zero_le hc
  have hmem : ∀ x : ℚ, x ∈ arange lo (hi + s) s ↔ ∃ k : ℕ, k ≤ n ∧ x = lo + k * s := by
    intro x
    unfold arange
    rw [hn, hn']
    simp only [List.mem_map, List.mem_range]
    have : ((n : ℤ) + 1).toNat = n + 1 := by omega
    rw [this]
    constructor
    · rintro ⟨k, hk, rfl⟩; exact ⟨k, by omega, rfl⟩
    · rintro ⟨k, hk, rfl⟩; exact ⟨k, by omega, rfl⟩
  have hup : hi ≤ lo + n * s := by
    have := Int.le_ceil ((hi - lo) / s)
    rw [hn', div_le_iff₀ hs] at this
    push_cast at this
    linarith
  rw [hn']
  unfold withStep setTicks
  simp only [Prod.mk.injEq]
  constructor
  · obtain ⟨g1, g2, g3⟩ := foldl_min_le (arange lo (hi + s) s) lo
    rcases g3 with g3 | g3
    · exact g3
    · obtain ⟨k, hk, e⟩ := (hmem _).1 g3
      have : 0 ≤ (k : ℚ) * s := mul_nonneg (Nat.cast_nonneg k) hs.le
      linarith
  · obtain ⟨g1, g2, g3⟩ := foldl_max_le (arange lo (hi + s) s) hi
    have hlast := g2 (lo + n * s) ((hmem _).2 ⟨n, le_refl _, rfl⟩)
    apply le_antisymm
    · rcases g3 with g3 | g3
      · rw [g3]; push_cast; exact hup
      · obtain ⟨k, hk, e⟩ := (hmem _).1 g3
        rw [e]
        have : (k : ℚ) ≤ n := by exact_mod_cast hk
        push_cast
        nlinarith
    · push_cast; exact hlast

/-- C122, violated: so the upper limit the user gives is kept only if the step divides the range. -/
theorem c122_step_violated (lo hi s : ℚ) (hs : 0 < s) (h : lo ≤ hi) :
    withStep (lo, hi) s = (lo, hi) ↔ ∃ k : ℕ, hi = lo + k * s := by
  rw [c122_step lo hi s hs h]
  have hc : (0 : ℤ) ≤ ⌈(hi - lo) / s⌉ := Int.ceil_nonneg (div_nonneg (by linarith) hs.le)
  obtain ⟨n, hn⟩ := Int.eq_ofNat_of_zero_le hc
  simp only [Prod.mk.injEq, true_and]
  constructor
  · intro e
    exact ⟨n, by rw [hn] at e; push_cast at e; exact e.symm⟩
  · rintro ⟨k, rfl⟩
    have : (lo + k * s - lo) / s = (k : ℤ) := by push_cast; field_simp; ring
    rw [this, Int.ceil_intCast]
    push_cast
    ring

/-- C122: the ticks of a map are the proposed ones in order, without those that are no latitudes or no longitudes. -/
theorem c122_ticks (lon lat : List ℚ) : (bestTicks lon lat).1.Sublist lon ∧ (bestTicks lon lat).2.Sublist lat ∧
    (∀ t : ℚ, t ∈ (bestTicks lon lat).1 ↔ t ∈ lon ∧ -360 ≤ t ∧ t ≤ 360) ∧
    (∀ t : ℚ, t ∈ (bestTicks lon lat).2 ↔ t ∈ lat ∧ -90 ≤ t ∧ t ≤ 90) := by
  refine ⟨List.filter_sublist, List.filter_sublist, ?_, ?_⟩ <;> intro t <;> simp [bestTicks, abs_le]

/-- C122, violated: with a step ticks beyond the pole are set, which get no label that makes sense. -/
theorem c122_pole_violated : withStep (-90, 90) 40 = (-90, 110) := by
  rw [c122_step (-90) 90 40 (by norm_num) (by norm_num)]
  have : ⌈((90 : ℚ) - -90) / 40⌉ = 5 := by rw [Int.ceil_eq_iff]; norm_num
  rw [this]; norm_num

/-- C122: drawing the background does not scale the plot: it is drawn with scaling off. -/
theorem c122_background {σ : Type} (body : Bool → σ → Except Unit σ) (auto : Bool) (s s' : σ) (h : body false s = .ok s') :
    noAutoscale body auto s = (true, .ok s') := by simp [noAutoscale, h]

/-- C122, violated: scaling that was off (after limits were set) is on after it, and scaling that was on is off if drawing fails. -/
theorem c122_autoscale_violated {σ : Type} (s : σ) : (noAutoscale (fun _ x => .ok x) false s).1 = true ∧
    (noAutoscale (fun _ (_ : σ) => .error ()) true s).1 = false := ⟨rfl, rfl⟩

/-! ## Examples -/

/-- Data between 10 and 30 degrees east are at abscissae -170 to -150; the map without limits shows 190 to 210 degrees. -/
example : native (-180) 10 = -170 ∧ mapLimits (-180) ⟨-170, -150, 40, 60⟩ ⟨none, none, none, none⟩ = ⟨10, 30, 40, 60⟩ := by
  constructor <;> decide +kernel
example : Spec.Proper ⟨-170, -150, 40, 60⟩ ∧ ¬ (Spec.Free ⟨none, none, none, none⟩ ∧ ((60 : ℚ) - 40 > 144 ∨ (-150 : ℚ) - -170 > 288)) := by
  constructor
  · unfold Spec.Proper; norm_num
  · norm_num
/-- The limits given are shown. -/
example : mapLimits (-180) ⟨-180, 180, -90, 90⟩ ⟨some 10, some 30, none, some 60⟩ = ⟨-170, -150, -90, 60⟩ := by decide +kernel
example : withStep (0, 10) 4 = (0, 12) := by decide +kernel
example : withStep (0, 12) 4 = (0, 12) := by decide +kernel
example : bestTicks [-400, -180, 0, 180] [-100, -90, 0, 90] = ([-180, 0, 180], [-90, 0, 90]) := by decide +kernel

end Cis.MapLimits
