import Mathlib.Data.List.Basic
import Mathlib.Algebra.BigOperators.Group.List.Basic
import Mathlib.Algebra.Order.BigOperators.Group.List
import Mathlib.Data.Real.Sqrt
import Mathlib.Tactic.Ring
import Mathlib.Tactic.Linarith
import Mathlib.Tactic.FieldSimp
import Mathlib.Tactic.Positivity
import Verif.Masks.Model
set_option linter.unusedSectionVars false
set_option linter.unusedSimpArgs false
/-!
Properties C119 and C120: regression, rank correlation and relative differences of the `stats` command. Model of `StatsAnalyzer.spearmans_rank` and
`linear_regression` (cis/stats.py:404-423) with what `scipy.stats.mstats.linregress` and `spearmanr` compute: the positions missing in
either variable are left out, the gradient is the quotient of the sums of products and squares of deviations, the rank correlation is the
correlation of the ranks, equal values having the mean of their ranks; and of the relative difference (cis/stats.py:386-402).
Numbers are real; rounding is left out, and so are p-values (which cis does not show).
-/
namespace Cis.Regress
open Cis.Masks (MArr)

/-- The pairs of values at positions that are masked in neither array. -/
def validPairs (a b : MArr ℝ) : List (ℝ × ℝ) := ((a.zip b).filter (fun p => !(p.1.2 || p.2.2))).map (fun p => (p.1.1, p.2.1))

/-- The mean of a function of the pairs. -/
noncomputable def mean (f : ℝ × ℝ → ℝ) (ps : List (ℝ × ℝ)) : ℝ := (ps.map f).sum / ps.length

/-- The sums of squares and products of deviations (`numpy.cov`, up to a factor that cancels). -/
noncomputable def cross (f g : ℝ × ℝ → ℝ) (ps : List (ℝ × ℝ)) : ℝ := (ps.map (fun p => (f p - mean f ps) * (g p - mean g ps))).sum

/-- Pearson's correlation of two functions of the pairs (0 if one is constant, as in scipy). -/
noncomputable def corr (f g : ℝ × ℝ → ℝ) (ps : List (ℝ × ℝ)) : ℝ :=
  if cross f f ps * cross g g ps = 0 then 0 else cross f g ps / √(cross f f ps * cross g g ps)

/-- What the regression gives. -/
structure Line where
  gradient : ℝ
  intercept : ℝ
  r : ℝ
  stderr : ℝ

/-- `linear_regression` (stats.py:413-423): `none` if there is no valid pair or all x are equal. -/
noncomputable def regression (a b : MArr ℝ) : Option Line :=
  let ps := validPairs a b
  if cross Prod.fst Prod.fst ps = 0 then none
  else
    let g := cross Prod.fst Prod.snd ps / cross Prod.fst Prod.fst ps
    let r := corr Prod.fst Prod.snd ps
    some ⟨g, mean Prod.snd ps - g * mean Prod.fst ps, r,
      if ps.length ≤ 2 then 0 else √((1 - r ^ 2) * cross Prod.snd Prod.snd ps / cross Prod.fst Prod.fst ps / (ps.length - 2))⟩

/-- The rank of a value among values: equal values have the mean of their ranks (`rankdata`). -/
noncomputable def rank (l : List ℝ) (x : ℝ) : ℝ := (l.filter (fun y => y < x)).length + ((l.filter (fun y => y = x)).length + 1) / 2

/-- `spearmans_rank` (stats.py:404-411). -/
noncomputable def spearman (a b : MArr ℝ) : ℝ :=
  let ps := validPairs a b
  corr (fun p => rank (ps.map Prod.fst) p.1) (fun p => rank (ps.map Prod.snd) p.2) ps

/-- The relative differences that are used (stats.py:386-402): `numpy.ma` masks divisions by zero. -/
noncomputable def relative (a b : MArr ℝ) : List ℝ :=
  ((validPairs a b).filter (fun p => p.1 ≠ 0)).map (fun p => (p.2 - p.1) / p.1)

/-! ## Specification -/

/-- The sum of the squared vertical distances of the points from a line. -/
def Spec.residual (ps : List (ℝ × ℝ)) (g c : ℝ) : ℝ := (ps.map (fun p => (p.2 - (g * p.1 + c)) ^ 2)).sum

/-- Two arrays that differ only where one of the pair is masked. -/
def Spec.SameValid (a a' b b' : MArr ℝ) : Prop :=
  List.Forall₂ (fun p q : (ℝ × Bool) × (ℝ × Bool) => p.1.2 = q.1.2 ∧ p.2.2 = q.2.2 ∧
    (p.1.2 = false → p.2.2 = false → p.1.1 = q.1.1 ∧ p.2.1 = q.2.1)) (a.zip b) (a'.zip b')

/-- Not all x values are equal. -/
def Spec.Varied (f : ℝ × ℝ → ℝ) (ps : List (ℝ × ℝ)) : Prop := ∃ p ∈ ps, ∃ q ∈ ps, f p ≠ f q

/-! ## Sums -/

theorem sum_expand (ps : List (ℝ × ℝ)) (u v : ℝ × ℝ → ℝ) (g e : ℝ) :
    (ps.map (fun p => (u p - g * v p + e) ^ 2)).sum = (ps.map (fun p => u p * u p)).sum - 2 * g * (ps.map (fun p => v p * u p)).sum +
      g ^ 2 * (ps.map (fun p => v p * v p)).sum + ps.length * e ^ 2 + 2 * e * (ps.map u).sum - 2 * g * e * (ps.map v).sum := by
  induction ps with
  | nil => simp
  | cons p t ih =>
    simp only [List.map_cons, List.sum_cons, List.length_cons, Nat.cast_succ, ih]
    ring

theorem sum_sub_const (ps : List (ℝ × ℝ)) (u : ℝ × ℝ → ℝ) (c : ℝ) : (ps.map (fun p => u p - c)).sum = (ps.map u).sum - ps.length * c := by
  induction ps with
  | nil => simp
  | cons p t ih =>
    simp only [List.map_cons, List.sum_cons, List.length_cons, Nat.cast_succ, ih]
    ring

theorem sum_dev (ps : List (ℝ × ℝ)) (u : ℝ × ℝ → ℝ) : (ps.map (fun p => u p - mean u ps)).sum = 0 := by
  rw [sum_sub_const]
  unfold mean
  by_cases h : ps = []
  · subst h; simp
  · have : (ps.length : ℝ) ≠ 0 := by simpa using h
    field_simp
    ring

theorem sum_sq_nonneg (ps : List (ℝ × ℝ)) (u : ℝ × ℝ → ℝ) : 0 ≤ (ps.map (fun p => (u p) ^ 2)).sum := by
  apply List.sum_nonneg
  intro x hx
  obtain ⟨p, _, rfl⟩ := List.mem_map.1 hx
  positivity

theorem sum_sq_zero (ps : List (ℝ × ℝ)) (u : ℝ × ℝ → ℝ) (h : (ps.map (fun p => (u p) ^ 2)).sum = 0) : ∀ p ∈ ps, u p = 0 := by
  induction ps with
  | nil => simp
  | cons p t ih =>
    rw [List.map_cons, List.sum_cons] at h
    have h1 := sum_sq_nonneg t u
    have h2 : 0 ≤ (u p) ^ 2 := by positivity
    intro q hq
    rcases List.mem_cons.1 hq with rfl | hq
    · exact pow_eq_zero_iff (two_ne_zero) |>.1 (by linarith)
    · exact ih (by linarith) q hq

theorem cross_self (f : ℝ × ℝ → ℝ) (ps : List (ℝ × ℝ)) : cross f f ps = (ps.map (fun p => (f p - mean f ps) ^ 2)).sum := by
  unfold cross
  congr 1
  apply List.map_congr_left
  intro p _
  ring

theorem cross_nonneg (f : ℝ × ℝ → ℝ) (ps : List (ℝ × ℝ)) : 0 ≤ cross f f ps := by
  rw [cross_self]; exact sum_sq_nonneg ps (fun p => f p - mean f ps)

theorem cross_comm (f g : ℝ × ℝ → ℝ) (ps : List (ℝ × ℝ)) : cross f g ps = cross g f ps := by
  unfold cross
  congr 1
  apply List.map_congr_left
  intro p _
  ring

/-- The residuals of a line, by the distance of the line from the best one. -/
theorem residual_general (f h : ℝ × ℝ → ℝ) (ps : List (ℝ × ℝ)) (g c : ℝ) :
    (ps.map (fun p => (h p - (g * f p + c)) ^ 2)).sum = cross h h ps - 2 * g * cross f h ps + g ^ 2 * cross f f ps +
      ps.length * (mean h ps - g * mean f ps - c) ^ 2 := by
  have e := sum_expand ps (fun p => h p - mean h ps) (fun p => f p - mean f ps) g (mean h ps - g * mean f ps - c)
  rw [sum_dev ps h, sum_dev ps f] at e
  have l : ps.map (fun p => (h p - mean h ps - g * (f p - mean f ps) + (mean h ps - g * mean f ps - c)) ^ 2) =
      ps.map (fun p => (h p - (g * f p + c)) ^ 2) := by
    apply List.map_congr_left
    intro p _
    ring
  rw [l] at e
  rw [e]
  unfold cross
  ring

theorem cross_zero (f h : ℝ × ℝ → ℝ) (ps : List (ℝ × ℝ)) (h0 : cross f f ps = 0) : cross f h ps = 0 := by
  rw [cross_self] at h0
  have := sum_sq_zero ps (fun p => f p - mean f ps) h0
  unfold cross
  have e : ps.map (fun p => (f p - mean f ps) * (h p - mean h ps)) = ps.map (fun _ => (0 : ℝ)) := by
    apply List.map_congr_left
    intro p hp
    rw [this p hp, zero_mul]
  rw [e]
  simp

/-- Cauchy and Schwarz. -/
theorem cross_sq_le (f h : ℝ × ℝ → ℝ) (ps : List (ℝ × ℝ)) : cross f h ps ^ 2 ≤ cross f f ps * cross h h ps := by
  by_cases h0 : cross f f ps = 0
  · rw [cross_zero f h ps h0, h0]; simp
  · have hpos : 0 < cross f f ps := lt_of_le_of_ne (cross_nonneg f ps) (Ne.symm h0)
    have e := residual_general f h ps (cross f h ps / cross f f ps) (mean h ps - cross f h ps / cross f f ps * mean f ps)
    have hn := sum_sq_nonneg ps (fun p => h p - (cross f h ps / cross f f ps * f p + (mean h ps - cross f h ps / cross f f ps * mean f ps)))
    rw [e] at hn
    have e2 : cross h h ps - 2 * (cross f h ps / cross f f ps) * cross f h ps + (cross f h ps / cross f f ps) ^ 2 * cross f f ps +
        ps.length * (mean h ps - cross f h ps / cross f f ps * mean f ps - (mean h ps - cross f h ps / cross f f ps * mean f ps)) ^ 2 =
        cross h h ps - cross f h ps ^ 2 / cross f f ps := by
      field_simp
      ring
    rw [e2] at hn
    have : cross f h ps ^ 2 / cross f f ps ≤ cross h h ps := by linarith
    rw [div_le_iff₀ hpos] at this
    linarith

theorem corr_sq (f h : ℝ × ℝ → ℝ) (ps : List (ℝ × ℝ)) : corr f h ps ^ 2 * (cross f f ps * cross h h ps) = cross f h ps ^ 2 := by
  unfold corr
  split
  · rename_i h0
    rw [h0]
    have := cross_sq_le f h ps
    rw [h0] at this
    have h2 : 0 ≤ cross f h ps ^ 2 := by positivity
    linarith
  · rename_i h0
    have hp : 0 ≤ cross f f ps * cross h h ps := mul_nonneg (cross_nonneg f ps) (cross_nonneg h ps)
    rw [div_pow, Real.sq_sqrt hp]
    exact div_mul_cancel₀ _ h0

theorem corr_range (f h : ℝ × ℝ → ℝ) (ps : List (ℝ × ℝ)) : -1 ≤ corr f h ps ∧ corr f h ps ≤ 1 := by
  have key : corr f h ps ^ 2 ≤ 1 := by
    by_cases h0 : cross f f ps * cross h h ps = 0
    · unfold corr; rw [if_pos h0]; norm_num
    · have hp : 0 < cross f f ps * cross h h ps :=
        lt_of_le_of_ne (mul_nonneg (cross_nonneg f ps) (cross_nonneg h ps)) (Ne.symm h0)
      have e := corr_sq f h ps
      have l := cross_sq_le f h ps
      by_contra hc
      rw [not_le] at hc
      nlinarith
  exact abs_le.1 ((sq_le_one_iff_abs_le_one _).1 key)

theorem varied_cross (f : ℝ × ℝ → ℝ) (ps : List (ℝ × ℝ)) : cross f f ps ≠ 0 ↔ Spec.Varied f ps := by
  constructor
  · intro h
    by_contra hv
    apply h
    unfold Spec.Varied at hv
    push Not at hv
    rw [cross_self]
    have e : ps.map (fun p => (f p - mean f ps) ^ 2) = ps.map (fun _ => (0 : ℝ)) := by
      apply List.map_congr_left
      intro p hp
      have hsum : (ps.map f).sum = ps.length * f p := by
        have : ps.map f = ps.map (fun _ => f p) := List.map_congr_left (fun q hq => hv q hq p hp)
        rw [this]; simp
      have hl : (ps.length : ℝ) ≠ 0 := by
        have := List.length_pos_of_mem hp
        positivity
      have : mean f ps = f p := by
        unfold mean
        rw [hsum]
        field_simp
      rw [this]; ring
    rw [e]
    simp
  · rintro ⟨p, hp, q, hq, hne⟩ h
    rw [cross_self] at h
    have := sum_sq_zero ps (fun p => f p - mean f ps) h
    have h1 := this p hp
    have h2 := this q hq
    exact hne (by linarith)

/-! ## Theorems -/

theorem regression_some (a b : MArr ℝ) (l : Line) (h : regression a b = some l) :
    cross Prod.fst Prod.fst (validPairs a b) ≠ 0 ∧
    l.gradient = cross Prod.fst Prod.snd (validPairs a b) / cross Prod.fst Prod.fst (validPairs a b) ∧
    l.intercept = mean Prod.snd (validPairs a b) - l.gradient * mean Prod.fst (validPairs a b) ∧
    l.r = corr Prod.fst Prod.snd (validPairs a b) ∧
    l.stderr = if (validPairs a b).length ≤ 2 then 0 else √((1 - l.r ^ 2) * cross Prod.snd Prod.snd (validPairs a b) /
      cross Prod.fst Prod.fst (validPairs a b) / ((validPairs a b).length - 2)) := by
  unfold regression at h
  simp only at h
  split at h
  · cases h
  · rename_i h0
    cases h
    exact ⟨h0, rfl, rfl, rfl, rfl⟩

/-- C119: there is a regression line exactly if the first variable is not constant over the positions valid in both. -/
theorem c119_line_exists (a b : MArr ℝ) : (∃ l, regression a b = some l) ↔ Spec.Varied Prod.fst (validPairs a b) := by
  rw [← varied_cross]
  unfold regression
  simp only
  split
  · rename_i h; simp [h]
  · rename_i h; simp [h]

/-- C119: the gradient and the intercept are those of the line with the least squared distances, and of no other. -/
theorem c119_least_squares (a b : MArr ℝ) (l : Line) (h : regression a b = some l) (g c : ℝ) :
    Spec.residual (validPairs a b) l.gradient l.intercept ≤ Spec.residual (validPairs a b) g c ∧
      (Spec.residual (validPairs a b) g c ≤ Spec.residual (validPairs a b) l.gradient l.intercept → g = l.gradient ∧ c = l.intercept) := by
  obtain ⟨h0, hg, hi, _, _⟩ := regression_some a b l h
  generalize hps : validPairs a b = ps at *
  have hpos : 0 < cross Prod.fst Prod.fst ps := lt_of_le_of_ne (cross_nonneg _ ps) (Ne.symm h0)
  have hlen : (0 : ℝ) < ps.length := by
    have : ps ≠ [] := by rintro rfl; simp [cross] at h0
    have := List.length_pos_iff.2 this
    positivity
  have e1 := residual_general Prod.fst Prod.snd ps l.gradient l.intercept
  have e2 := residual_general Prod.fst Prod.snd ps g c
  unfold Spec.residual
  rw [e1, e2, hi]
  have hg' : cross Prod.fst Prod.snd ps = l.gradient * cross Prod.fst Prod.fst ps := by rw [hg]; field_simp
  rw [hg']
  have d : (cross Prod.snd Prod.snd ps - 2 * g * (l.gradient * cross Prod.fst Prod.fst ps) + g ^ 2 * cross Prod.fst Prod.fst ps +
      ps.length * (mean Prod.snd ps - g * mean Prod.fst ps - c) ^ 2) -
      (cross Prod.snd Prod.snd ps - 2 * l.gradient * (l.gradient * cross Prod.fst Prod.fst ps) + l.gradient ^ 2 * cross Prod.fst Prod.fst ps +
      ps.length * (mean Prod.snd ps - l.gradient * mean Prod.fst ps - (mean Prod.snd ps - l.gradient * mean Prod.fst ps)) ^ 2) =
      cross Prod.fst Prod.fst ps * (g - l.gradient) ^ 2 + ps.length * (mean Prod.snd ps - g * mean Prod.fst ps - c) ^ 2 := by ring
  have p1 : 0 ≤ cross Prod.fst Prod.fst ps * (g - l.gradient) ^ 2 := by positivity
  have p2 : 0 ≤ ps.length * (mean Prod.snd ps - g * mean Prod.fst ps - c) ^ 2 := by positivity
  constructor
  · linarith
  · intro hle
    have z1 : cross Prod.fst Prod.fst ps * (g - l.gradient) ^ 2 = 0 := by linarith
    have z2 : ps.length * (mean Prod.snd ps - g * mean Prod.fst ps - c) ^ 2 = 0 := by linarith
    have y1 : g - l.gradient = 0 := by
      rcases mul_eq_zero.1 z1 with h | h
      · exact absurd h h0
      · exact pow_eq_zero_iff two_ne_zero |>.1 h
    have y2 : mean Prod.snd ps - g * mean Prod.fst ps - c = 0 := by
      rcases mul_eq_zero.1 z2 with h | h
      · exact absurd h (ne_of_gt hlen)
      · exact pow_eq_zero_iff two_ne_zero |>.1 h
    have y3 : g = l.gradient := by linarith
    refine ⟨y3, ?_⟩
    rw [← y3]
    linarith

/-- C119: the r-value lies between -1 and 1, its square is the part of the squared deviations that the line explains, and it has the sign
of the gradient. -/
theorem c119_r (a b : MArr ℝ) (l : Line) (h : regression a b = some l) :
    (-1 ≤ l.r ∧ l.r ≤ 1) ∧
    (1 - l.r ^ 2) * Spec.residual (validPairs a b) 0 (mean Prod.snd (validPairs a b)) = Spec.residual (validPairs a b) l.gradient l.intercept ∧
    0 ≤ l.r * l.gradient := by
  obtain ⟨h0, hg, hi, hr, _⟩ := regression_some a b l h
  generalize hps : validPairs a b = ps at *
  have hpos : 0 < cross Prod.fst Prod.fst ps := lt_of_le_of_ne (cross_nonneg _ ps) (Ne.symm h0)
  refine ⟨by rw [hr]; exact corr_range _ _ _, ?_, ?_⟩
  · have e1 := residual_general Prod.fst Prod.snd ps l.gradient l.intercept
    have e2 := residual_general Prod.fst Prod.snd ps 0 (mean Prod.snd ps)
    unfold Spec.residual
    rw [e1, e2, hi]
    have e3 := corr_sq Prod.fst Prod.snd ps
    rw [← hr] at e3
    have hg' : cross Prod.fst Prod.snd ps = l.gradient * cross Prod.fst Prod.fst ps := by rw [hg]; field_simp
    rw [hg'] at e3 ⊢
    have e4 : l.r ^ 2 * cross Prod.snd Prod.snd ps = l.gradient ^ 2 * cross Prod.fst Prod.fst ps := by
      have : cross Prod.fst Prod.fst ps * (l.r ^ 2 * cross Prod.snd Prod.snd ps) =
          cross Prod.fst Prod.fst ps * (l.gradient ^ 2 * cross Prod.fst Prod.fst ps) := by rw [mul_pow] at e3; linarith
      exact mul_left_cancel₀ h0 this
    have : (1 - l.r ^ 2) * cross Prod.snd Prod.snd ps = cross Prod.snd Prod.snd ps - l.gradient ^ 2 * cross Prod.fst Prod.fst ps := by
      rw [sub_mul, one_mul, e4]
    ring_nf
    ring_nf at this
    linarith
  · rw [hr, hg]
    unfold corr
    split
    · simp
    · have : 0 ≤ √(cross Prod.fst Prod.fst ps * cross Prod.snd Prod.snd ps) := Real.sqrt_nonneg _
      have e : cross Prod.fst Prod.snd ps / √(cross Prod.fst Prod.fst ps * cross Prod.snd Prod.snd ps) *
          (cross Prod.fst Prod.snd ps / cross Prod.fst Prod.fst ps) =
          cross Prod.fst Prod.snd ps ^ 2 / (√(cross Prod.fst Prod.fst ps * cross Prod.snd Prod.snd ps) * cross Prod.fst Prod.fst ps) := by
        rw [div_mul_div_comm, sq]
      rw [e]
      positivity

/-- C119: the standard error of the gradient: its square is the residual variance over the spread of the first variable. -/
theorem c119_stderr (a b : MArr ℝ) (l : Line) (h : regression a b = some l) (hn : 2 < (validPairs a b).length) :
    0 ≤ l.stderr ∧ l.stderr ^ 2 * (((validPairs a b).length : ℝ) - 2) * Spec.residual ((validPairs a b).map (fun p => (0, p.1))) 0
      (mean Prod.fst (validPairs a b)) = Spec.residual (validPairs a b) l.gradient l.intercept := by
  obtain ⟨h0, hg, hi, hr, hs⟩ := regression_some a b l h
  obtain ⟨⟨r1, r2⟩, hr2, _⟩ := c119_r a b l h
  generalize hps : validPairs a b = ps at *
  have hpos : 0 < cross Prod.fst Prod.fst ps := lt_of_le_of_ne (cross_nonneg _ ps) (Ne.symm h0)
  rw [if_neg (by omega)] at hs
  have hn' : (0 : ℝ) < ps.length - 2 := by
    have : (2 : ℝ) < ps.length := by exact_mod_cast hn
    linarith
  have hsq : 0 ≤ 1 - l.r ^ 2 := by nlinarith
  refine ⟨by rw [hs]; exact Real.sqrt_nonneg _, ?_⟩
  have hyy := cross_nonneg Prod.snd ps
  have hss : l.stderr ^ 2 = (1 - l.r ^ 2) * cross Prod.snd Prod.snd ps / cross Prod.fst Prod.fst ps / (ps.length - 2) := by
    rw [hs, Real.sq_sqrt (by positivity)]
  have e1 : Spec.residual (ps.map (fun p => ((0 : ℝ), p.1))) 0 (mean Prod.fst ps) = cross Prod.fst Prod.fst ps := by
    rw [cross_self]
    unfold Spec.residual
    rw [List.map_map]
    congr 1
    apply List.map_congr_left
    intro p _
    simp
  have e2 : Spec.residual ps 0 (mean Prod.snd ps) = cross Prod.snd Prod.snd ps := by
    rw [cross_self]
    unfold Spec.residual
    congr 1
    apply List.map_congr_left
    intro p _
    ring
  rw [e1, hss, ← hr2, e2]
  field_simp

theorem validPairs_same (a a' b b' : MArr ℝ) (h : Spec.SameValid a a' b b') : validPairs a b = validPairs a' b' := by
  unfold validPairs
  unfold Spec.SameValid at h
  generalize a.zip b = u at h
  generalize a'.zip b' = v at h
  induction h with
  | nil => rfl
  | @cons p q u v hpq _ ih =>
    obtain ⟨h1, h2, h3⟩ := hpq
    rw [List.filter_cons, List.filter_cons, h1, h2]
    cases hm : (q.1.2 || q.2.2) with
    | true => simpa using ih
    | false =>
      rw [Bool.or_eq_false_iff] at hm
      obtain ⟨e1, e2⟩ := h3 (h1.trans hm.1) (h2.trans hm.2)
      simp only [Bool.not_false, if_true, List.map_cons, e1, e2]
      rw [ih]

/-- C119: values at positions missing in either variable have no influence. -/
theorem c119_missing (a a' b b' : MArr ℝ) (h : Spec.SameValid a a' b b') :
    regression a b = regression a' b' ∧ spearman a b = spearman a' b' ∧ relative a b = relative a' b' := by
  unfold regression spearman relative
  rw [validPairs_same a a' b b' h]
  exact ⟨rfl, rfl, rfl⟩

theorem validPairs_swap (a b : MArr ℝ) : validPairs b a = (validPairs a b).map Prod.swap := by
  unfold validPairs
  rw [← List.zip_swap, List.filter_map, List.map_map, List.map_map]
  have : ((fun p : (ℝ × Bool) × (ℝ × Bool) => !(p.1.2 || p.2.2)) ∘ Prod.swap) = (fun p => !(p.1.2 || p.2.2)) := by
    funext p; simp [Bool.and_comm]
  rw [this]
  rfl

theorem cross_map (k : ℝ × ℝ → ℝ × ℝ) (f g : ℝ × ℝ → ℝ) (ps : List (ℝ × ℝ)) : cross f g (ps.map k) = cross (f ∘ k) (g ∘ k) ps := by
  have hm : ∀ f : ℝ × ℝ → ℝ, mean f (ps.map k) = mean (f ∘ k) ps := by
    intro f; unfold mean; rw [List.map_map, List.length_map]
  unfold cross
  rw [List.map_map, hm f, hm g]
  rfl

theorem corr_map (k : ℝ × ℝ → ℝ × ℝ) (f g : ℝ × ℝ → ℝ) (ps : List (ℝ × ℝ)) : corr f g (ps.map k) = corr (f ∘ k) (g ∘ k) ps := by
  unfold corr
  rw [cross_map, cross_map, cross_map]

theorem corr_comm (f g : ℝ × ℝ → ℝ) (ps : List (ℝ × ℝ)) : corr f g ps = corr g f ps := by
  unfold corr
  rw [cross_comm f g, mul_comm (cross f f ps)]

/-- C119: exchanging the two variables leaves the r-value and the rank correlation; the two gradients multiply to the square of r. -/
theorem c119_swap (a b : MArr ℝ) (l m : Line) (h : regression a b = some l) (h' : regression b a = some m) :
    m.r = l.r ∧ l.gradient * m.gradient = l.r ^ 2 ∧ spearman b a = spearman a b := by
  obtain ⟨h0, hg, _, hr, _⟩ := regression_some a b l h
  obtain ⟨k0, kg, _, kr, _⟩ := regression_some b a m h'
  rw [validPairs_swap a b] at k0 kg kr
  rw [cross_map] at k0
  rw [cross_map, cross_map] at kg
  rw [corr_map] at kr
  have c1 : (Prod.fst ∘ Prod.swap : ℝ × ℝ → ℝ) = Prod.snd := rfl
  have c2 : (Prod.snd ∘ Prod.swap : ℝ × ℝ → ℝ) = Prod.fst := rfl
  rw [c1] at k0
  rw [c1, c2] at kg kr
  refine ⟨by rw [kr, hr, corr_comm], ?_, ?_⟩
  · have e := corr_sq Prod.fst Prod.snd (validPairs a b)
    rw [← hr] at e
    rw [hg, kg, cross_comm Prod.snd Prod.fst]
    have : l.r ^ 2 = cross Prod.fst Prod.snd (validPairs a b) ^ 2 /
        (cross Prod.fst Prod.fst (validPairs a b) * cross Prod.snd Prod.snd (validPairs a b)) := by
      rw [← e]; field_simp
    rw [this]
    field_simp
  · unfold spearman
    simp only
    rw [validPairs_swap a b, corr_map, List.map_map, List.map_map]
    rw [corr_comm]
    rfl

/-! ### Ranks -/

theorem rank_congr (l : List ℝ) (f : ℝ → ℝ) (x : ℝ) (hf : ∀ y ∈ l, (f y < f x ↔ y < x) ∧ (f y = f x ↔ y = x)) :
    rank (l.map f) (f x) = rank l x := by
  unfold rank
  rw [List.filter_map, List.filter_map, List.length_map, List.length_map]
  have e1 : l.filter ((fun y => decide (y < f x)) ∘ f) = l.filter (fun y => decide (y < x)) := by
    apply List.filter_congr
    intro y hy
    simp [(hf y hy).1]
  have e2 : l.filter ((fun y => decide (y = f x)) ∘ f) = l.filter (fun y => decide (y = x)) := by
    apply List.filter_congr
    intro y hy
    simp [(hf y hy).2]
  rw [e1, e2]

theorem corr_congr (f f' g g' : ℝ × ℝ → ℝ) (ps : List (ℝ × ℝ)) (hf : ∀ p ∈ ps, f p = f' p) (hg : ∀ p ∈ ps, g p = g' p) :
    corr f g ps = corr f' g' ps := by
  have hm : ∀ f f' : ℝ × ℝ → ℝ, (∀ p ∈ ps, f p = f' p) → mean f ps = mean f' ps := by
    intro f f' h; unfold mean; rw [List.map_congr_left h]
  have hc : ∀ f f' g g' : ℝ × ℝ → ℝ, (∀ p ∈ ps, f p = f' p) → (∀ p ∈ ps, g p = g' p) → cross f g ps = cross f' g' ps := by
    intro f f' g g' h1 h2
    unfold cross
    rw [hm f f' h1, hm g g' h2]
    congr 1
    apply List.map_congr_left
    intro p hp
    rw [h1 p hp, h2 p hp]
  unfold corr
  rw [hc f f' f f' hf hf, hc g g' g g' hg hg, hc f f' g g' hf hg]

/-- The values of an array changed by a function, the mask kept. -/
def mapValues (f : ℝ → ℝ) (a : MArr ℝ) : MArr ℝ := a.map (fun p => (f p.1, p.2))

theorem validPairs_map (f g : ℝ → ℝ) (a b : MArr ℝ) : validPairs (mapValues f a) (mapValues g b) = (validPairs a b).map (Prod.map f g) := by
  unfold validPairs mapValues
  rw [List.zip_map, List.filter_map, List.map_map, List.map_map]
  rfl

/-- C119: the rank correlation does not change when either variable is replaced by a strictly increasing function of it. -/
theorem c119_rank_monotone (f g : ℝ → ℝ) (hf : StrictMono f) (hg : StrictMono g) (a b : MArr ℝ) :
    spearman (mapValues f a) (mapValues g b) = spearman a b := by
  unfold spearman
  simp only
  rw [validPairs_map, corr_map]
  apply corr_congr
  · intro p _
    show rank (((validPairs a b).map (Prod.map f g)).map Prod.fst) (f p.1) = _
    rw [List.map_map]
    have : (Prod.fst ∘ Prod.map f g) = f ∘ Prod.fst := rfl
    rw [this, ← List.map_map]
    exact rank_congr _ f p.1 (fun y _ => ⟨hf.lt_iff_lt, hf.injective.eq_iff⟩)
  · intro p _
    show rank (((validPairs a b).map (Prod.map f g)).map Prod.snd) (g p.2) = _
    rw [List.map_map]
    have : (Prod.snd ∘ Prod.map f g) = g ∘ Prod.snd := rfl
    rw [this, ← List.map_map]
    exact rank_congr _ g p.2 (fun y _ => ⟨hg.lt_iff_lt, hg.injective.eq_iff⟩)

theorem corr_self (f : ℝ × ℝ → ℝ) (ps : List (ℝ × ℝ)) (h : cross f f ps ≠ 0) : corr f f ps = 1 := by
  unfold corr
  rw [if_neg (mul_ne_zero h h), Real.sqrt_mul_self (cross_nonneg f ps)]
  exact div_self h

theorem filter_sub_length (l : List ℝ) (p q : ℝ → Bool) (h : ∀ y ∈ l, p y = true → q y = true) :
    (l.filter p).length ≤ (l.filter q).length := by
  induction l with
  | nil => simp
  | cons a t ih =>
    have := ih (fun y hy => h y (List.mem_cons_of_mem _ hy))
    have ha := h a List.mem_cons_self
    rw [List.filter_cons, List.filter_cons]
    split <;> split
    · simpa using this
    · rename_i h1 h2; exact absurd (ha h1) h2
    · simp only [List.length_cons]; omega
    · exact this

theorem rank_lt (l : List ℝ) (x y : ℝ) (hx : x ∈ l) (hy : y ∈ l) (h : x < y) : rank l x < rank l y := by
  unfold rank
  have h1 : (l.filter (fun z => z < x)).length + (l.filter (fun z => z = x)).length = (l.filter (fun z => z ≤ x)).length := by
    clear hx hy
    induction l with
    | nil => simp
    | cons a t ih =>
      rcases lt_trichotomy a x with ha | ha | ha
      · simp [List.filter_cons, ha, ne_of_lt ha, le_of_lt ha]; omega
      · subst ha; simp [List.filter_cons]; omega
      · simp [List.filter_cons, not_lt.2 (le_of_lt ha), ne_of_gt ha, not_le.2 ha]; omega
  have h2 : (l.filter (fun z => z ≤ x)).length ≤ (l.filter (fun z => z < y)).length := by
    apply filter_sub_length
    intro z _ hz
    simp only [decide_eq_true_eq] at *
    exact lt_of_le_of_lt hz h
  have h3 : 1 ≤ (l.filter (fun z => z = x)).length := by
    rw [Nat.one_le_iff_ne_zero]
    intro e
    rw [List.length_eq_zero_iff, List.filter_eq_nil_iff] at e
    exact e x hx (by simp)
  have h4 : 1 ≤ (l.filter (fun z => z = y)).length := by
    rw [Nat.one_le_iff_ne_zero]
    intro e
    rw [List.length_eq_zero_iff, List.filter_eq_nil_iff] at e
    exact e y hy (by simp)
  have h1' : ((l.filter (fun z => z < x)).length : ℝ) + (l.filter (fun z => z = x)).length = (l.filter (fun z => z ≤ x)).length := by
    exact_mod_cast h1
  have h2' : ((l.filter (fun z => z ≤ x)).length : ℝ) ≤ (l.filter (fun z => z < y)).length := by exact_mod_cast h2
  have h3' : (1 : ℝ) ≤ (l.filter (fun z => z = x)).length := by exact_mod_cast h3
  have h4' : (1 : ℝ) ≤ (l.filter (fun z => z = y)).length := by exact_mod_cast h4
  linarith

/-- C119: the rank correlation lies between -1 and 1. -/
theorem c119_rank_range (a b : MArr ℝ) : -1 ≤ spearman a b ∧ spearman a b ≤ 1 := corr_range _ _ _

/-- C119: it is 1 if the two variables (not constant) have the same order. -/
theorem c119_rank_one (a b : MArr ℝ) (hv : Spec.Varied Prod.fst (validPairs a b))
    (ho : ∀ p ∈ validPairs a b, ∀ q ∈ validPairs a b, p.1 < q.1 ↔ p.2 < q.2) : spearman a b = 1 := by
  unfold spearman
  simp only
  generalize hps : validPairs a b = ps at *
  have heq : ∀ p ∈ ps, rank (ps.map Prod.snd) p.2 = rank (ps.map Prod.fst) p.1 := by
    intro p hp
    unfold rank
    rw [List.filter_map, List.filter_map, List.filter_map, List.filter_map, List.length_map, List.length_map, List.length_map, List.length_map]
    have e1 : ps.filter ((fun y => decide (y < p.2)) ∘ Prod.snd) = ps.filter ((fun y => decide (y < p.1)) ∘ Prod.fst) := by
      apply List.filter_congr
      intro q hq
      simp [ho q hq p hp]
    have e2 : ps.filter ((fun y => decide (y = p.2)) ∘ Prod.snd) = ps.filter ((fun y => decide (y = p.1)) ∘ Prod.fst) := by
      apply List.filter_congr
      intro q hq
      have h1 := ho q hq p hp
      have h2 := ho p hp q hq
      have : q.2 = p.2 ↔ q.1 = p.1 := by
        constructor
        · intro e
          rcases lt_trichotomy q.1 p.1 with h | h | h
          · have := h1.1 h; rw [e] at this; exact absurd this (lt_irrefl _)
          · exact h
          · have := h2.1 h; rw [e] at this; exact absurd this (lt_irrefl _)
        · intro e
          rcases lt_trichotomy q.2 p.2 with h | h | h
          · have := h1.2 h; rw [e] at this; exact absurd this (lt_irrefl _)
          · exact h
          · have := h2.2 h; rw [e] at this; exact absurd this (lt_irrefl _)
      simp [this]
    rw [e1, e2]
  rw [corr_congr _ _ _ (fun p => rank (ps.map Prod.fst) p.1) ps (fun _ _ => rfl) heq]
  apply corr_self
  rw [varied_cross]
  obtain ⟨p, hp, q, hq, hne⟩ := hv
  refine ⟨p, hp, q, hq, ?_⟩
  have m1 := List.mem_map_of_mem (f := Prod.fst) hp
  have m2 := List.mem_map_of_mem (f := Prod.fst) hq
  rcases lt_or_gt_of_ne hne with h | h
  · exact ne_of_lt (rank_lt _ _ _ m1 m2 h)
  · exact ne_of_gt (rank_lt _ _ _ m2 m1 h)

/-- C120: the relative differences are those of the valid pairs whose first value is not zero, in order. -/
theorem c120_relative (a b : MArr ℝ) (h : ∀ p ∈ validPairs a b, p.1 ≠ 0) :
    relative a b = (validPairs a b).map (fun p => (p.2 - p.1) / p.1) := by
  unfold relative
  rw [List.filter_eq_self.2]
  intro p hp
  simpa using h p hp

/-- C120 violated: a valid pair whose first value is zero is left out of the relative differences, so these are not of the number of points
that is reported. -/
theorem c120_relative_violated (a b : MArr ℝ) (h : ∃ p ∈ validPairs a b, p.1 = 0) : (relative a b).length < (validPairs a b).length := by
  unfold relative
  rw [List.length_map]
  obtain ⟨p, hp, h0⟩ := h
  rcases Nat.lt_or_ge ((validPairs a b).filter (fun p => p.1 ≠ 0)).length (validPairs a b).length with hl | hl
  · exact hl
  · have := List.Sublist.eq_of_length_le List.filter_sublist hl
    rw [← this] at hp
    have := (List.mem_filter.1 hp).2
    simp [h0] at this

/-! ## The pairs are those counted -/

/-- C119: the pairs used are as many as the number of points that is reported (C35). -/
theorem c119_count (a b : MArr ℝ) : (validPairs a b).length = (Cis.Masks.compressed (Cis.Masks.maOp (· + ·) a b)).length := by
  unfold validPairs Cis.Masks.compressed Cis.Masks.maOp
  rw [List.length_map, List.length_map]
  induction a generalizing b with
  | nil => simp
  | cons p a ih =>
    cases b with
    | nil => simp
    | cons q b =>
      rw [List.zip_cons_cons, List.zipWith_cons_cons, List.filter_cons, List.filter_cons]
      simp only
      split
      · simp only [List.length_cons, ih b]
      · exact ih b

/-! ## Examples -/

example : validPairs [(1, false), (2, false), (3, true)] [(2, false), (4, false), (0, false)] = [(1, 2), (2, 4)] := by
  simp [validPairs]

/-- Two points on the line y = 2 x; the third is missing. -/
example : ∃ l, regression [(1, false), (2, false), (3, true)] [(2, false), (4, false), (0, false)] = some l := by
  rw [c119_line_exists]
  exact ⟨(1, 2), by simp [validPairs], (2, 4), by simp [validPairs], by norm_num⟩

example : spearman [(1, false), (2, false), (3, true)] [(2, false), (4, false), (0, false)] = 1 := by
  apply c119_rank_one
  · exact ⟨(1, 2), by simp [validPairs], (2, 4), by simp [validPairs], by norm_num⟩
  · intro p hp q hq
    simp [validPairs] at hp hq
    rcases hp with rfl | rfl <;> rcases hq with rfl | rfl <;> norm_num

example : ∃ p ∈ validPairs [(0, false)] [(1, false)], p.1 = 0 := ⟨(0, 1), by simp [validPairs], rfl⟩

end Cis.Regress
