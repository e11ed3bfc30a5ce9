import Mathlib.Algebra.Order.Field.Basic
import Mathlib.Data.Rat.Floor
import Mathlib.Data.List.Basic
import Mathlib.Algebra.BigOperators.Group.List.Basic
import Mathlib.Analysis.SpecialFunctions.Pow.Real
import Mathlib.Analysis.SpecialFunctions.Log.Base
/-!
Model of the masked array functions of utils.py, of the comparison statistics of stats.py, of the histogram bin edges and of
the NaN-aware equality. A (flattened) masked array is the list of its values with mask bits, a plain array has no bit set
(`nomask` is all bits clear).
-/
namespace Cis.Masks

abbrev MArr (α : Type) := List (α × Bool)

variable {α : Type}

/-- `create_masked_array_for_missing_data` (utils.py:138-140); `eq` is numpy's `==` (not reflexive for NaN). `ma.array` keeps
an existing mask. -/
def maskMissing (eq : α → α → Bool) (a : MArr α) (missing : α) : MArr α := a.map (fun p => (p.1, p.2 || eq p.1 missing))

/-- `create_masked_array_for_missing_values` (utils.py:143-151): `masked_where(missing_value == mdata, mdata)` for each given
value; a comparison with a masked element is masked, which `masked_where` takes as true. -/
def maskMissingValues (eq : α → α → Bool) (a : MArr α) (missing : List (Option α)) : MArr α :=
  missing.foldl (fun m v => match v with
    | some x => m.map (fun p => (p.1, p.2 || (p.2 || eq x p.1)))
    | none => m) a

/-- `apply_mask_to_numpy_array` (utils.py:154-170). -/
def applyMask (a : MArr α) (mask : List Bool) : MArr α :=
  if mask.any id then List.zipWith (fun p m => (p.1, p.2 || m)) a mask else a

/-- `apply_intersection_mask_to_two_arrays` (utils.py:384-400): `masked_array(x, mask)` keeps the mask of `x`. -/
def intersect {β : Type} (a : MArr α) (b : MArr β) : MArr α × MArr β :=
  (List.zipWith (fun p q => (p.1, p.2 || q.2)) a b, List.zipWith (fun p q => (q.1, q.2 || p.2)) a b)

section Stats
variable {K : Type} [Field K] [DecidableEq K]

/-- A binary operation of `numpy.ma`: masked where either operand is. -/
def maOp (f : K → K → K) (a b : MArr K) : MArr K := List.zipWith (fun p q => (f p.1 q.1, p.2 || q.2)) a b

/-- `numpy.ma` division: masked as well where the divisor is zero. -/
def maDiv (a b : MArr K) : MArr K := List.zipWith (fun p q => (p.1 / q.1, p.2 || q.2 || decide (q.1 = 0))) a b

/-- The elements that are not masked. -/
def compressed (a : MArr α) : List α := (a.filter (fun p => !p.2)).map Prod.fst

/-- `numpy.mean` of a masked array; `none` is `masked`. -/
def maMean (a : MArr K) : Option K :=
  if (compressed a).length = 0 then none else some ((compressed a).sum / ((compressed a).length : K))

/-- The square of `numpy.std(…, ddof=1)` of a masked array; `none` is `masked`. -/
def maVar (a : MArr K) : Option K :=
  match maMean a with
  | none => none
  | some m => if (compressed a).length ≤ 1 then none else
      some (((compressed a).map (fun x => (x - m) ^ 2)).sum / (((compressed a).length - 1 : Nat) : K))

/-- The results of the analysis (stats.py:334-402), standard deviations squared; Spearman's rank and the regression are from
scipy and are not modelled. -/
structure Results (K : Type) where
  count : Nat
  mean1 : Option K
  mean2 : Option K
  var1 : Option K
  var2 : Option K
  absMean : Option K
  absVar : Option K
  relMean : Option K
  relVar : Option K

/-- `StatsAnalyzer.analyze` (stats.py:316-402) for flattened arrays of the same size. -/
def analyze (a b : MArr K) : Results K where
  count := (compressed (maOp (· + ·) a b)).length
  mean1 := maMean (intersect a b).1
  mean2 := maMean (intersect a b).2
  var1 := maVar (intersect a b).1
  var2 := maVar (intersect a b).2
  absMean := maMean (maOp (fun x y => y - x) a b)
  absVar := maVar (maOp (fun x y => y - x) a b)
  relMean := maMean (maDiv (maOp (fun x y => y - x) a b) a)
  relVar := maVar (maDiv (maOp (fun x y => y - x) a b) a)

end Stats

/-! ### Histogram bin edges -/

/-- `user or data` (utils.py:60-61): zero counts as not given. -/
def orData (user : Option ℚ) (data : ℚ) : ℚ :=
  match user with
  | none => data
  | some u => if u = 0 then data else u

/-- The loop (utils.py:78-83) from the value `i` with `n` edges already there; `limit` is 11 if the step was not given. `none`:
not finished after `fuel` turns. -/
def edgeLoop (step stop : ℚ) (limit : Option Nat) : Nat → Nat → ℚ → Option (List ℚ)
  | 0, _, _ => none
  | fuel + 1, n, i =>
    if i < stop then
      if limit = some n then some []
      else (edgeLoop step stop limit fuel (n + 1) (i + step)).map (i :: ·)
    else some []

/-- `Decimal(val_range) % Decimal(step)`, exact, truncated towards zero as `Decimal` does: for positive arguments the
remainder. -/
def remainder (x y : ℚ) : ℚ := x - y * ⌊x / y⌋

/-- `stop` (utils.py:73). -/
def stopAt (maxV range step : ℚ) : ℚ := if remainder range step < 1 / 10 ^ 7 then maxV + step else maxV

/-- `calculate_histogram_bin_edges` on a linear axis or with a given step (utils.py:46-83); exact arithmetic. -/
def binEdges (fuel : Nat) (dataMin dataMax : ℚ) (userMin userMax step : Option ℚ) : Option (List ℚ) :=
  let minV := orData userMin dataMin
  let maxV := orData userMax dataMax
  match step with
  | some s => edgeLoop s (stopAt maxV (maxV - minV) s) none fuel 0 minV
  | none => edgeLoop ((maxV - minV) / 10) (stopAt maxV (maxV - minV) ((maxV - minV) / 10)) (some 11) fuel 0 minV

/-- Edge `k` on a logarithmic axis without a given step (utils.py:85-89): `logspace(log10(min), log10(stop), num=11)`. -/
noncomputable def logEdge (minV maxV : ℚ) (k : Nat) : ℝ :=
  (10 : ℝ) ^ (Real.logb 10 minV + k * (Real.logb 10 (stopAt maxV (maxV - minV) ((maxV - minV) / 10) : ℚ) - Real.logb 10 minV) / 10)

/-! ### Equality with NaN -/

/-- A float: `none` is NaN. `i != j` of floats. -/
def fne (i j : Option ℚ) : Bool :=
  match i, j with
  | some x, some y => decide (x ≠ y)
  | _, _ => true

/-- The loop of `array_equal_including_nan` (utils.py:185-189) over the pairs of elements. -/
def eqLoop : List (Option ℚ × Option ℚ) → Bool
  | [] => true
  | (i, j) :: t => if fne i i then eqLoop t else if fne i j then false else eqLoop t

/-- `array_equal_including_nan` (utils.py:173-193): shape and elements in C order. -/
def arrayEqual (shape1 shape2 : List Nat) (a1 a2 : List (Option ℚ)) : Bool :=
  if shape1 ≠ shape2 then false else eqLoop (a1.zip a2)

end Cis.Masks
