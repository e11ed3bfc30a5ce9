import Verif.Stats.Regress
import Verif.Masks.Props
set_option linter.unusedSectionVars false
set_option linter.unusedSimpArgs false

/-!
# `cis stats`: from the datagroups to what is printed and saved (C185)

The two variables are read (C79), flattened and compared; the results are printed one to a line and, if an output is given, saved as one variable each.
Numbers are real.
-/
namespace Cis.StatsCmd
open Cis.Masks (MArr)

/-! ### Model -/

/-- A variable read by `read_datagroups` (data_reader.py:167-180), its values in C order (`data.flatten()`, stats.py:312-313). -/
structure DataSet where
  name : String
  shape : List Nat
  values : MArr ℝ

/-- A `StatisticsResult`: what `pprint` writes before the colon, the names of the cube of `as_cube`, and the value in both; `none` stands for a
masked value. -/
structure Result where
  text : String
  varName : String
  longName : String
  value : Option ℝ

inductive Err
  | type   -- TypeError: not two variables
  | value  -- ValueError: sizes that do not fit, or fewer than two points
deriving DecidableEq

/-- `numpy.std(..., ddof=1)` from the corrected variance. -/
noncomputable def std (v : Option ℝ) : Option ℝ := v.map Real.sqrt

/-- `PointsCount` (stats.py:28-46). -/
noncomputable def pointsCount (n : Nat) : Result := ⟨"Number of points", "num_points", "Number of points used in calculations", some n⟩

/-- `DatasetMean` (stats.py:49-69). -/
def datasetMean (m : Option ℝ) (name no : String) : Result :=
  ⟨"Mean value of dataset " ++ no, "dataset_mean_" ++ no, "Mean value of " ++ name, m⟩

/-- `DatasetStddev` (stats.py:72-93). -/
def datasetStddev (s : Option ℝ) (name no : String) : Result :=
  ⟨"Standard deviation for dataset " ++ no, "dataset_stddev_" ++ no, "Corrected sample standard deviation of " ++ name, s⟩

/-- `AbsoluteMean` (stats.py:96-115). -/
def absoluteMean (m : Option ℝ) : Result := ⟨"Mean of absolute difference", "abs_mean", "Mean of the absolute difference (data2 - data1)", m⟩

/-- `AbsoluteStddev` (stats.py:118-138). -/
def absoluteStddev (s : Option ℝ) : Result :=
  ⟨"Standard deviation of absolute difference", "abs_stddev", "Corrected sample standard deviation of the absolute difference (data2 - data1)", s⟩

/-- `RelativeMean` (stats.py:141-161). -/
def relativeMean (m : Option ℝ) : Result :=
  ⟨"Mean of relative difference", "rel_mean", "Mean of the relative difference (data2 - data1)/data1", m⟩

/-- `RelativeStddev` (stats.py:164-184). -/
def relativeStddev (s : Option ℝ) : Result :=
  ⟨"Standard deviation of relative difference", "rel_stddev",
    "Corrected sample standard deviation of the relative difference (data2 - data1)/data1", s⟩

/-- `SpearmansRank` (stats.py:187-206). -/
def spearmansRank (s : Option ℝ) : Result := ⟨"Spearman's rank coefficient", "spearman", "Spearman's rank correlation coefficient", s⟩

/-- The four results of the regression (stats.py:209-292). -/
def regressionResults (l : Option Regress.Line) : List Result :=
  [⟨"Linear regression gradient", "regression_gradient", "Linear regression gradient", l.map Regress.Line.gradient⟩,
   ⟨"Linear regression intercept", "regression_intercept", "Linear regression intercept", l.map Regress.Line.intercept⟩,
   ⟨"Linear regression r-value", "regression_r", "Linear regression r-value (Pearson product-moment correlation coefficient)", l.map Regress.Line.r⟩,
   ⟨"Linear regression standard error", "regression_stderr", "Linear regression standard error of the estimate", l.map Regress.Line.stderr⟩]

/-- `StatsAnalyzer(data1, data2).analyze()` (stats.py:300-335): arrays of different sizes cannot be added (where one has a single element `spearmanr`
refuses it), and `spearmanr` needs two points. If all values of the first variable are equal there is no line, and nothing is said about what scipy
makes of it. -/
noncomputable def analyze (d1 d2 : DataSet) : Except Err (List Result) :=
  if d1.values.length ≠ d2.values.length then .error .value
  else
    let r := Masks.analyze d1.values d2.values
    if r.count < 2 then .error .value
    else .ok ([pointsCount r.count, datasetMean r.mean1 d1.name "1", datasetMean r.mean2 d2.name "2", datasetStddev (std r.var1) d1.name "1",
      datasetStddev (std r.var2) d2.name "2", absoluteMean r.absMean, absoluteStddev (std r.absVar), relativeMean r.relMean,
      relativeStddev (std r.relVar), spearmansRank (some (Regress.spearman d1.values d2.values))] ++
      regressionResults (Regress.regression d1.values d2.values))

/-- What the command leaves: the lines printed after the heading, and the variables saved (name, long name, value). -/
structure Report where
  lines : List String
  saved : Option (List (String × String × Option ℝ))

/-- `stats_cmd` (cis_main.py:189-222) after reading: `StatsAnalyzer(*data_list)`; `show` is Python's `'%s' %`. The history that is added to the
variables is left out. -/
noncomputable def run (shown : Option ℝ → String) (data : List DataSet) (output : Bool) : Except Err Report :=
  match data with
  | [d1, d2] =>
    match analyze d1 d2 with
    | .error e => .error e
    | .ok rs => .ok ⟨rs.map (fun r => r.text ++ ": " ++ shown r.value),
        if output then some (rs.map (fun r => (r.varName, r.longName, r.value))) else none⟩
  | _ => .error .type

/-! ### Specification -/

/-- The pairs of values at the positions that are missing in neither. -/
def Spec.pairs : MArr ℝ → MArr ℝ → List (ℝ × ℝ)
  | (x, false) :: s, (y, false) :: t => (x, y) :: Spec.pairs s t
  | _ :: s, _ :: t => Spec.pairs s t
  | _, _ => []

/-- The mean. -/
noncomputable def Spec.avg (l : List ℝ) : ℝ := l.sum / l.length

/-- The corrected sample standard deviation. -/
noncomputable def Spec.sd (l : List ℝ) : ℝ := √((l.map (fun x => (x - Spec.avg l) ^ 2)).sum / (l.length - 1))

/-- The sum of the squared distances of the points from the line `y = g x + c`. -/
def Spec.residual (ps : List (ℝ × ℝ)) (g c : ℝ) : ℝ := (ps.map (fun p => (p.2 - (g * p.1 + c)) ^ 2)).sum

/-- The value printed for `text` and saved as `name`. -/
def Spec.Reports (rs : List Result) (text name : String) (v : ℝ) : Prop :=
  ∃ r ∈ rs, r.text = text ∧ r.varName = name ∧ r.value = some v

/-! ### Proofs -/

theorem pairs_masks (a : MArr ℝ) : ∀ b : MArr ℝ, Masks.validPairs a b = Spec.pairs a b := by
  induction a with
  | nil => intro b; cases b <;> simp [Masks.validPairs, Spec.pairs]
  | cons p t ih =>
    intro b
    cases b with
    | nil => obtain ⟨x, m⟩ := p; cases m <;> simp [Masks.validPairs, Spec.pairs]
    | cons q s =>
      obtain ⟨x, m⟩ := p
      obtain ⟨y, n⟩ := q
      have := ih s
      unfold Masks.validPairs at this ⊢
      cases m <;> cases n <;> simp_all [List.filterMap_cons, Spec.pairs]

theorem pairs_regress (a : MArr ℝ) : ∀ b : MArr ℝ, Regress.validPairs a b = Spec.pairs a b := by
  induction a with
  | nil => intro b; cases b <;> simp [Regress.validPairs, Spec.pairs]
  | cons p t ih =>
    intro b
    cases b with
    | nil => obtain ⟨x, m⟩ := p; cases m <;> simp [Regress.validPairs, Spec.pairs]
    | cons q s =>
      obtain ⟨x, m⟩ := p
      obtain ⟨y, n⟩ := q
      have := ih s
      unfold Regress.validPairs at this ⊢
      cases m <;> cases n <;> simp_all [Spec.pairs]

theorem residual_eq (ps : List (ℝ × ℝ)) (g c : ℝ) : Regress.Spec.residual ps g c = Spec.residual ps g c := rfl

theorem mean_avg {l : List ℝ} (h : l ≠ []) : Masks.mean l = some (Spec.avg l) := by rw [Masks.mean, if_neg h, Spec.avg]

theorem var_sd {l : List ℝ} (h : 2 ≤ l.length) : std (Masks.variance l) = some (Spec.sd l) := by
  rw [Masks.variance, if_neg (by omega), std, Option.map_some, Spec.sd, Spec.avg, Nat.cast_sub (by omega), Nat.cast_one]

/-- The results for data that are accepted. -/
theorem analyze_ok {d1 d2 : DataSet} (hl : d1.values.length = d2.values.length) (h2 : 2 ≤ (Spec.pairs d1.values d2.values).length) :
    analyze d1 d2 = .ok ([pointsCount (Spec.pairs d1.values d2.values).length,
      datasetMean (some (Spec.avg ((Spec.pairs d1.values d2.values).map Prod.fst))) d1.name "1",
      datasetMean (some (Spec.avg ((Spec.pairs d1.values d2.values).map Prod.snd))) d2.name "2",
      datasetStddev (some (Spec.sd ((Spec.pairs d1.values d2.values).map Prod.fst))) d1.name "1",
      datasetStddev (some (Spec.sd ((Spec.pairs d1.values d2.values).map Prod.snd))) d2.name "2",
      absoluteMean (some (Spec.avg ((Spec.pairs d1.values d2.values).map (fun p => p.2 - p.1)))),
      absoluteStddev (some (Spec.sd ((Spec.pairs d1.values d2.values).map (fun p => p.2 - p.1)))),
      relativeMean (Masks.mean (((Spec.pairs d1.values d2.values).filter (fun p => p.1 ≠ 0)).map (fun p => (p.2 - p.1) / p.1))),
      relativeStddev (std (Masks.variance (((Spec.pairs d1.values d2.values).filter (fun p => p.1 ≠ 0)).map (fun p => (p.2 - p.1) / p.1)))),
      spearmansRank (some (Regress.spearman d1.values d2.values))] ++ regressionResults (Regress.regression d1.values d2.values)) := by
  classical
  obtain ⟨e0, e1, e2, e3, e4, e5, e6, e7, e8⟩ := Masks.stats_valid d1.values d2.values
  rw [pairs_masks] at e0 e1 e2 e3 e4 e5 e6 e7 e8
  have hne : Spec.pairs d1.values d2.values ≠ [] := by intro h; rw [h] at h2; simp at h2
  rw [mean_avg (by simpa using hne)] at e1 e2 e5
  rw [analyze, if_neg (not_not.2 hl)]
  dsimp only
  rw [if_neg (by rw [e0]; omega), e0, e1, e2, e3, e4, e5, e6, e7, e8, var_sd (by simpa using h2), var_sd (by simpa using h2),
    var_sd (by simpa using h2)]

/-- **C185**: what is accepted: two variables with as many points, at least two of them missing in neither. -/
theorem c185_accepted (shown : Option ℝ → String) (data : List DataSet) (output : Bool) :
    (∃ rep, run shown data output = .ok rep) ↔ ∃ d1 d2, data = [d1, d2] ∧ d1.values.length = d2.values.length ∧
      2 ≤ (Spec.pairs d1.values d2.values).length := by
  constructor
  · rintro ⟨rep, h⟩
    match data, h with
    | [d1, d2], h =>
      refine ⟨d1, d2, rfl, ?_⟩
      rw [run] at h
      by_cases hl : d1.values.length = d2.values.length
      · refine ⟨hl, ?_⟩
        by_contra hc
        have e : analyze d1 d2 = .error .value := by
          classical
          obtain ⟨e0, -⟩ := Masks.stats_valid d1.values d2.values
          rw [pairs_masks] at e0
          rw [analyze, if_neg (not_not.2 hl)]
          dsimp only
          rw [if_pos (by rw [e0]; omega)]
        rw [e] at h
        cases h
      · have e : analyze d1 d2 = .error .value := by rw [analyze, if_pos hl]
        rw [e] at h
        cases h
    | [], h => cases h
    | [_], h => cases h
    | _ :: _ :: _ :: _, h => cases h
  · rintro ⟨d1, d2, rfl, hl, h2⟩
    rw [run, analyze_ok hl h2]
    exact ⟨_, rfl⟩

/-- The texts printed and the names of the variables saved. -/
def Spec.table : List (String × String) :=
  [("Number of points", "num_points"), ("Mean value of dataset 1", "dataset_mean_1"), ("Mean value of dataset 2", "dataset_mean_2"),
   ("Standard deviation for dataset 1", "dataset_stddev_1"), ("Standard deviation for dataset 2", "dataset_stddev_2"),
   ("Mean of absolute difference", "abs_mean"), ("Standard deviation of absolute difference", "abs_stddev"),
   ("Mean of relative difference", "rel_mean"), ("Standard deviation of relative difference", "rel_stddev"),
   ("Spearman's rank coefficient", "spearman"), ("Linear regression gradient", "regression_gradient"),
   ("Linear regression intercept", "regression_intercept"), ("Linear regression r-value", "regression_r"),
   ("Linear regression standard error", "regression_stderr")]

/-- **C185**: every statistic is printed once, in the order of the table, and saved once with the same value; no two variables saved share a name,
whatever the variables compared are called. -/
theorem c185_complete (shown : Option ℝ → String) (data : List DataSet) (rep : Report) (h : run shown data true = .ok rep) :
    ∃ (saved : List (String × String × Option ℝ)), rep.saved = some saved ∧ (saved.map Prod.fst).Nodup ∧
      saved.map Prod.fst = Spec.table.map Prod.snd ∧
      rep.lines = List.zipWith (fun t v => t ++ ": " ++ shown v) (Spec.table.map Prod.fst) (saved.map (fun v => v.2.2)) := by
  obtain ⟨d1, d2, rfl, hl, h2⟩ := (c185_accepted shown data true).1 ⟨rep, h⟩
  rw [run, analyze_ok hl h2] at h
  injection h with h
  subst h
  refine ⟨_, rfl, ?_, ?_, ?_⟩
  · exact (by decide : (Spec.table.map Prod.snd).Nodup)
  · rfl
  · rfl

/-- **C185**: what is saved with each value says what it is. -/
theorem c185_described (shown : Option ℝ → String) (d1 d2 : DataSet) (rep : Report) (saved : List (String × String × Option ℝ))
    (h : run shown [d1, d2] true = .ok rep) (hs : rep.saved = some saved) :
    saved.map (fun v => v.2.1) = ["Number of points used in calculations", "Mean value of " ++ d1.name, "Mean value of " ++ d2.name,
      "Corrected sample standard deviation of " ++ d1.name, "Corrected sample standard deviation of " ++ d2.name,
      "Mean of the absolute difference (data2 - data1)", "Corrected sample standard deviation of the absolute difference (data2 - data1)",
      "Mean of the relative difference (data2 - data1)/data1", "Corrected sample standard deviation of the relative difference (data2 - data1)/data1",
      "Spearman's rank correlation coefficient", "Linear regression gradient", "Linear regression intercept",
      "Linear regression r-value (Pearson product-moment correlation coefficient)", "Linear regression standard error of the estimate"] := by
  obtain ⟨e1, e2, e, hl, h2⟩ := (c185_accepted shown [d1, d2] true).1 ⟨rep, h⟩
  cases e
  rw [run, analyze_ok hl h2] at h
  injection h with h
  subst h
  cases hs
  rfl

/-- **C185**: under each name there is one value. -/
theorem c185_unique (d1 d2 : DataSet) (rs : List Result) (h : analyze d1 d2 = .ok rs) (t t' n : String) (v v' : ℝ)
    (h1 : Spec.Reports rs t n v) (h2 : Spec.Reports rs t' n v') : v = v' := by
  obtain ⟨d, d', e, hl, h3⟩ := (c185_accepted (fun _ => "") [d1, d2] false).1 ⟨_, by rw [run, h]⟩
  injection e with e e'
  injection e' with e' _
  subst e; subst e'
  rw [analyze_ok hl h3] at h
  injection h with h
  have hn : (rs.map Result.varName).Nodup := by
    rw [← h]; exact (by decide : (Spec.table.map Prod.snd).Nodup)
  obtain ⟨r, hr, -, hn1, hv⟩ := h1
  obtain ⟨r', hr', -, hn2, hv'⟩ := h2
  obtain rfl := List.inj_on_of_nodup_map hn hr hr' (hn1.trans hn2.symm)
  exact Option.some.inj (hv.symm.trans hv')

/-- **C185**: the number of points, means, standard deviations, and the mean and standard deviation of the difference are over exactly the points
missing in neither variable. -/
theorem c185_values (d1 d2 : DataSet) (hl : d1.values.length = d2.values.length) (h2 : 2 ≤ (Spec.pairs d1.values d2.values).length) :
    ∃ rs, analyze d1 d2 = .ok rs ∧
      Spec.Reports rs "Number of points" "num_points" (Spec.pairs d1.values d2.values).length ∧
      Spec.Reports rs "Mean value of dataset 1" "dataset_mean_1" (Spec.avg ((Spec.pairs d1.values d2.values).map Prod.fst)) ∧
      Spec.Reports rs "Mean value of dataset 2" "dataset_mean_2" (Spec.avg ((Spec.pairs d1.values d2.values).map Prod.snd)) ∧
      Spec.Reports rs "Standard deviation for dataset 1" "dataset_stddev_1" (Spec.sd ((Spec.pairs d1.values d2.values).map Prod.fst)) ∧
      Spec.Reports rs "Standard deviation for dataset 2" "dataset_stddev_2" (Spec.sd ((Spec.pairs d1.values d2.values).map Prod.snd)) ∧
      Spec.Reports rs "Mean of absolute difference" "abs_mean" (Spec.avg ((Spec.pairs d1.values d2.values).map (fun p => p.2 - p.1))) ∧
      Spec.Reports rs "Standard deviation of absolute difference" "abs_stddev"
        (Spec.sd ((Spec.pairs d1.values d2.values).map (fun p => p.2 - p.1))) := by
  refine ⟨_, analyze_ok hl h2, ⟨_, .head _, rfl, rfl, rfl⟩, ⟨_, .tail _ (.head _), rfl, rfl, rfl⟩, ⟨_, .tail _ (.tail _ (.head _)), rfl, rfl, rfl⟩,
    ⟨_, .tail _ (.tail _ (.tail _ (.head _))), rfl, rfl, rfl⟩, ⟨_, .tail _ (.tail _ (.tail _ (.tail _ (.head _)))), rfl, rfl, rfl⟩,
    ⟨_, .tail _ (.tail _ (.tail _ (.tail _ (.tail _ (.head _))))), rfl, rfl, rfl⟩,
    ⟨_, .tail _ (.tail _ (.tail _ (.tail _ (.tail _ (.tail _ (.head _)))))), rfl, rfl, rfl⟩⟩

/-- **C185**: the relative differences, if the first variable is nowhere zero. -/
theorem c185_relative (d1 d2 : DataSet) (hl : d1.values.length = d2.values.length) (h2 : 2 ≤ (Spec.pairs d1.values d2.values).length)
    (h0 : ∀ p ∈ Spec.pairs d1.values d2.values, p.1 ≠ 0) :
    ∃ rs, analyze d1 d2 = .ok rs ∧
      Spec.Reports rs "Mean of relative difference" "rel_mean" (Spec.avg ((Spec.pairs d1.values d2.values).map (fun p => (p.2 - p.1) / p.1))) ∧
      Spec.Reports rs "Standard deviation of relative difference" "rel_stddev"
        (Spec.sd ((Spec.pairs d1.values d2.values).map (fun p => (p.2 - p.1) / p.1))) := by
  have hf : (Spec.pairs d1.values d2.values).filter (fun p => decide (p.1 ≠ 0)) = Spec.pairs d1.values d2.values :=
    List.filter_eq_self.2 (fun p hp => decide_eq_true (h0 p hp))
  have hne : Spec.pairs d1.values d2.values ≠ [] := by intro h; rw [h] at h2; simp at h2
  refine ⟨_, analyze_ok hl h2, ⟨_, .tail _ (.tail _ (.tail _ (.tail _ (.tail _ (.tail _ (.tail _ (.head _))))))), rfl, rfl, ?_⟩,
    ⟨_, .tail _ (.tail _ (.tail _ (.tail _ (.tail _ (.tail _ (.tail _ (.tail _ (.head _)))))))), rfl, rfl, ?_⟩⟩
  · rw [hf]
    exact mean_avg (by simpa using hne)
  · rw [hf]
    exact var_sd (by simpa using h2)

/-- **C185**: the line reported is the line of least squares and the r-value its correlation, if the first variable is not constant. -/
theorem c185_line (d1 d2 : DataSet) (hl : d1.values.length = d2.values.length) (h2 : 2 ≤ (Spec.pairs d1.values d2.values).length)
    (hv : ∃ p ∈ Spec.pairs d1.values d2.values, ∃ q ∈ Spec.pairs d1.values d2.values, p.1 ≠ q.1) :
    ∃ rs g c r e, analyze d1 d2 = .ok rs ∧ Spec.Reports rs "Linear regression gradient" "regression_gradient" g ∧
      Spec.Reports rs "Linear regression intercept" "regression_intercept" c ∧ Spec.Reports rs "Linear regression r-value" "regression_r" r ∧
      Spec.Reports rs "Linear regression standard error" "regression_stderr" e ∧
      (∀ g' c', Spec.residual (Spec.pairs d1.values d2.values) g c ≤ Spec.residual (Spec.pairs d1.values d2.values) g' c') ∧
      -1 ≤ r ∧ r ≤ 1 ∧ 0 ≤ r * g ∧
      (1 - r ^ 2) * Spec.residual (Spec.pairs d1.values d2.values) 0 (Spec.avg ((Spec.pairs d1.values d2.values).map Prod.snd)) =
        Spec.residual (Spec.pairs d1.values d2.values) g c := by
  have hv' : Regress.Spec.Varied Prod.fst (Regress.validPairs d1.values d2.values) := by rw [pairs_regress]; exact hv
  obtain ⟨l, hr⟩ := (Regress.c119_line_exists d1.values d2.values).2 hv'
  have h1 := Regress.c119_least_squares d1.values d2.values l hr
  obtain ⟨⟨h3, h4⟩, h5, h6⟩ := Regress.c119_r d1.values d2.values l hr
  rw [pairs_regress] at h5
  have ha : analyze d1 d2 = _ := analyze_ok hl h2
  rw [hr] at ha
  refine ⟨_, l.gradient, l.intercept, l.r, l.stderr, ha, ⟨_, List.mem_append_right _ (.head _), rfl, rfl, rfl⟩,
    ⟨_, List.mem_append_right _ (.tail _ (.head _)), rfl, rfl, rfl⟩, ⟨_, List.mem_append_right _ (.tail _ (.tail _ (.head _))), rfl, rfl, rfl⟩,
    ⟨_, List.mem_append_right _ (.tail _ (.tail _ (.tail _ (.head _)))), rfl, rfl, rfl⟩, ?_, h3, h4, h6, ?_⟩
  · intro g' c'
    have := h1 g' c'
    rw [pairs_regress] at this
    exact this.1
  · have hm : Regress.mean Prod.snd (Spec.pairs d1.values d2.values) = Spec.avg ((Spec.pairs d1.values d2.values).map Prod.snd) := by
      rw [Regress.mean, Spec.avg, List.length_map]
    rw [hm] at h5
    exact h5

/-- **C185**: the rank correlation lies between -1 and 1, and is 1 for variables (not constant) in the same order. -/
theorem c185_rank (d1 d2 : DataSet) (hl : d1.values.length = d2.values.length) (h2 : 2 ≤ (Spec.pairs d1.values d2.values).length) :
    ∃ rs s, analyze d1 d2 = .ok rs ∧ Spec.Reports rs "Spearman's rank coefficient" "spearman" s ∧ -1 ≤ s ∧ s ≤ 1 ∧
      ((∃ p ∈ Spec.pairs d1.values d2.values, ∃ q ∈ Spec.pairs d1.values d2.values, p.1 ≠ q.1) →
        (∀ p ∈ Spec.pairs d1.values d2.values, ∀ q ∈ Spec.pairs d1.values d2.values, p.1 < q.1 ↔ p.2 < q.2) → s = 1) := by
  obtain ⟨h3, h4⟩ := Regress.c119_rank_range d1.values d2.values
  refine ⟨_, _, analyze_ok hl h2,
    ⟨_, .tail _ (.tail _ (.tail _ (.tail _ (.tail _ (.tail _ (.tail _ (.tail _ (.tail _ (.head _))))))))), rfl, rfl, rfl⟩, h3, h4, ?_⟩
  intro hv ho
  exact Regress.c119_rank_one d1.values d2.values (by rw [pairs_regress]; exact hv) (by rw [pairs_regress]; exact ho)

/-! ### Laws -/

theorem cross_perm (f g : ℝ × ℝ → ℝ) {ps qs : List (ℝ × ℝ)} (h : ps.Perm qs) : Regress.cross f g ps = Regress.cross f g qs := by
  have hm : ∀ f, Regress.mean f ps = Regress.mean f qs := fun f => by
    rw [Regress.mean, Regress.mean, (h.map f).sum_eq, h.length_eq]
  rw [Regress.cross, Regress.cross, hm, hm]
  exact (h.map _).sum_eq

theorem corr_perm (f g : ℝ × ℝ → ℝ) {ps qs : List (ℝ × ℝ)} (h : ps.Perm qs) : Regress.corr f g ps = Regress.corr f g qs := by
  rw [Regress.corr, Regress.corr, cross_perm f f h, cross_perm g g h, cross_perm f g h]

theorem rank_perm {l m : List ℝ} (h : l.Perm m) : Regress.rank l = Regress.rank m := by
  funext x
  rw [Regress.rank, Regress.rank, (h.filter _).length_eq, (h.filter _).length_eq]

theorem avg_perm {l m : List ℝ} (h : l.Perm m) : Spec.avg l = Spec.avg m := by rw [Spec.avg, Spec.avg, h.sum_eq, h.length_eq]

theorem sd_perm {l m : List ℝ} (h : l.Perm m) : Spec.sd l = Spec.sd m := by
  rw [Spec.sd, Spec.sd, avg_perm h, (h.map _).sum_eq, h.length_eq]

theorem masks_mean_perm {l m : List ℝ} (h : l.Perm m) : Masks.mean l = Masks.mean m := by
  rw [Masks.mean, Masks.mean, h.sum_eq, h.length_eq]
  by_cases hl : l = []
  · subst hl
    rw [if_pos rfl, if_pos (List.nil_perm.1 h)]
  · rw [if_neg hl, if_neg (fun e => hl (by rw [e] at h; exact List.perm_nil.1 h))]

theorem masks_var_perm {l m : List ℝ} (h : l.Perm m) : Masks.variance l = Masks.variance m := by
  rw [Masks.variance, Masks.variance, h.sum_eq, h.length_eq, (h.map _).sum_eq]

/-- **C185**: the results depend only on the names and on the pairs of values missing in neither variable, in any order: neither the shape, nor the
order of the points, nor points missing in either make a difference. -/
theorem c185_points_only (d1 d2 e1 e2 : DataSet) (hn : d1.name = e1.name ∧ d2.name = e2.name) (hl : d1.values.length = d2.values.length)
    (hl' : e1.values.length = e2.values.length) (hp : (Spec.pairs d1.values d2.values).Perm (Spec.pairs e1.values e2.values)) :
    analyze d1 d2 = analyze e1 e2 := by
  by_cases h2 : 2 ≤ (Spec.pairs d1.values d2.values).length
  · have h2' : 2 ≤ (Spec.pairs e1.values e2.values).length := by rw [← hp.length_eq]; exact h2
    rw [analyze_ok hl h2, analyze_ok hl' h2', hn.1, hn.2, hp.length_eq, avg_perm (hp.map _), avg_perm (hp.map _), avg_perm (hp.map _),
      sd_perm (hp.map _), sd_perm (hp.map _), sd_perm (hp.map _), masks_mean_perm ((hp.filter _).map _), masks_var_perm ((hp.filter _).map _)]
    have hs : Regress.spearman d1.values d2.values = Regress.spearman e1.values e2.values := by
      rw [Regress.spearman, Regress.spearman, pairs_regress, pairs_regress]
      rw [rank_perm (hp.map _), rank_perm (hp.map _), corr_perm _ _ hp]
    have hr : Regress.regression d1.values d2.values = Regress.regression e1.values e2.values := by
      rw [Regress.regression, Regress.regression, pairs_regress, pairs_regress]
      dsimp only
      have hm : ∀ f, Regress.mean f (Spec.pairs d1.values d2.values) = Regress.mean f (Spec.pairs e1.values e2.values) := fun f => by
        rw [Regress.mean, Regress.mean, (hp.map f).sum_eq, hp.length_eq]
      rw [cross_perm _ _ hp, cross_perm _ _ hp, cross_perm _ _ hp, corr_perm _ _ hp, hm, hm, hp.length_eq]
    rw [hs, hr]
  · have h2' : ¬ 2 ≤ (Spec.pairs e1.values e2.values).length := by rw [← hp.length_eq]; exact h2
    obtain ⟨a, -⟩ := Masks.stats_valid d1.values d2.values
    obtain ⟨b, -⟩ := Masks.stats_valid e1.values e2.values
    rw [pairs_masks] at a b
    rw [analyze, analyze, if_neg (not_not.2 hl), if_neg (not_not.2 hl')]
    dsimp only
    rw [if_pos (by rw [a]; omega), if_pos (by rw [b]; omega)]

theorem sq_eq_one_iff_of_side {x : ℝ} (h : x ^ 2 = 1) : x = 1 ∨ x = -1 := by
  have : (x - 1) * (x + 1) = 0 := by linear_combination h
  rcases mul_eq_zero.1 this with h | h
  · exact .inl (by linarith)
  · exact .inr (by linarith)

/-- **C185**: if the second variable is a line `g x + c` of the first (not constant) at every point missing in neither, exactly this line is reported,
with standard error 0 and r-value the sign of `g`. -/
theorem c185_exact_line (d1 d2 : DataSet) (hl : d1.values.length = d2.values.length) (h2 : 2 ≤ (Spec.pairs d1.values d2.values).length) (g c : ℝ)
    (hg : ∀ p ∈ Spec.pairs d1.values d2.values, p.2 = g * p.1 + c)
    (hv : ∃ p ∈ Spec.pairs d1.values d2.values, ∃ q ∈ Spec.pairs d1.values d2.values, p.1 ≠ q.1) :
    ∃ rs, analyze d1 d2 = .ok rs ∧ Spec.Reports rs "Linear regression gradient" "regression_gradient" g ∧
      Spec.Reports rs "Linear regression intercept" "regression_intercept" c ∧
      (g ≠ 0 → Spec.Reports rs "Linear regression r-value" "regression_r" (SignType.sign g) ∧
        Spec.Reports rs "Linear regression standard error" "regression_stderr" 0) := by
  have hv' : Regress.Spec.Varied Prod.fst (Regress.validPairs d1.values d2.values) := by rw [pairs_regress]; exact hv
  obtain ⟨l, hr⟩ := (Regress.c119_line_exists d1.values d2.values).2 hv'
  have h1 := Regress.c119_least_squares d1.values d2.values l hr g c
  obtain ⟨⟨h3, h4⟩, h5, h6⟩ := Regress.c119_r d1.values d2.values l hr
  rw [pairs_regress] at h1 h5
  have hz : Regress.Spec.residual (Spec.pairs d1.values d2.values) g c = 0 := by
    rw [Regress.Spec.residual]
    apply List.sum_eq_zero
    intro x hx
    obtain ⟨p, hp, rfl⟩ := List.mem_map.1 hx
    rw [hg p hp]; ring
  have hpos : ∀ g c, 0 ≤ Regress.Spec.residual (Spec.pairs d1.values d2.values) g c := by
    intro g c
    rw [Regress.Spec.residual]
    apply List.sum_nonneg
    intro x hx
    obtain ⟨p, hp, rfl⟩ := List.mem_map.1 hx
    positivity
  obtain ⟨e1, e2⟩ := h1.2 (by rw [hz]; exact hpos _ _)
  have ha : analyze d1 d2 = _ := analyze_ok hl h2
  rw [hr] at ha
  refine ⟨_, ha, ⟨_, List.mem_append_right _ (.head _), rfl, rfl, by rw [e1]; rfl⟩,
    ⟨_, List.mem_append_right _ (.tail _ (.head _)), rfl, rfl, by rw [e2]; rfl⟩, fun hg0 => ?_⟩
  -- the spread of the second variable is not zero
  have hvar : Regress.Spec.residual (Spec.pairs d1.values d2.values) 0 (Regress.mean Prod.snd (Spec.pairs d1.values d2.values)) ≠ 0 := by
    intro h0
    obtain ⟨p, hp, q, hq, hpq⟩ := hv
    have hall : ∀ p ∈ Spec.pairs d1.values d2.values, p.2 = Regress.mean Prod.snd (Spec.pairs d1.values d2.values) := by
      intro p hp
      rw [Regress.Spec.residual] at h0
      have := List.all_zero_of_le_zero_le_of_sum_eq_zero (l := (Spec.pairs d1.values d2.values).map
        (fun p => (p.2 - (0 * p.1 + Regress.mean Prod.snd (Spec.pairs d1.values d2.values))) ^ 2))
        (by intro x hx; obtain ⟨p, hp, rfl⟩ := List.mem_map.1 hx; positivity) h0 (List.mem_map_of_mem hp)
      have h' := pow_eq_zero_iff (two_ne_zero) |>.1 this
      linarith
    have e : g * p.1 + c = g * q.1 + c := by rw [← hg p hp, ← hg q hq, hall p hp, hall q hq]
    exact hpq (mul_left_cancel₀ hg0 (by linarith))
  have hr2 : l.r ^ 2 = 1 := by
    rw [← e1, ← e2, hz] at h5
    have := (mul_eq_zero.1 h5).resolve_right hvar
    linarith
  constructor
  · refine ⟨_, List.mem_append_right _ (.tail _ (.tail _ (.head _))), rfl, rfl, ?_⟩
    show some l.r = _
    congr 1
    rw [← e1] at h6
    rcases lt_or_gt_of_ne hg0 with h | h
    · rw [sign_neg h]
      rcases sq_eq_one_iff_of_side hr2 with e | e
      · rw [e] at h6; exact absurd h6 (by linarith)
      · rw [e]; simp
    · rw [sign_pos h]
      rcases sq_eq_one_iff_of_side hr2 with e | e
      · rw [e]; simp
      · rw [e] at h6; exact absurd h6 (by linarith)
  · refine ⟨_, List.mem_append_right _ (.tail _ (.tail _ (.tail _ (.head _)))), rfl, rfl, ?_⟩
    show some l.stderr = _
    congr 1
    rw [Regress.regression] at hr
    dsimp only at hr
    split at hr
    · cases hr
    · injection hr with hr
      subst hr
      dsimp only at hr2 ⊢
      split
      · rfl
      · rw [hr2]; simp

theorem pairs_self (a : MArr ℝ) : ∀ p ∈ Spec.pairs a a, p.2 = p.1 := by
  induction a with
  | nil => simp [Spec.pairs]
  | cons x t ih =>
    obtain ⟨x, m⟩ := x
    cases m <;> simp only [Spec.pairs] <;> intro p hp
    · rcases List.mem_cons.1 hp with rfl | hp
      · rfl
      · exact ih p hp
    · exact ih p hp

theorem pairs_swap (a : MArr ℝ) : ∀ b : MArr ℝ, Spec.pairs b a = (Spec.pairs a b).map Prod.swap := by
  induction a with
  | nil => intro b; cases b with
    | nil => simp [Spec.pairs]
    | cons q s => obtain ⟨y, n⟩ := q; cases n <;> simp [Spec.pairs]
  | cons p t ih =>
    intro b
    cases b with
    | nil => obtain ⟨x, m⟩ := p; cases m <;> simp [Spec.pairs]
    | cons q s =>
      obtain ⟨x, m⟩ := p
      obtain ⟨y, n⟩ := q
      cases m <;> cases n <;> simp [Spec.pairs, ih s]

/-- **C185**: data compared with themselves: the mean difference, its standard deviation, and (if no value is zero) the relative ones are 0; the
line is `x` with r-value 1, and so is the rank correlation (if not all values are equal). -/
theorem c185_self (d1 d2 : DataSet) (hd : d1.values = d2.values) (h2 : 2 ≤ (Spec.pairs d1.values d2.values).length)
    (hv : ∃ p ∈ Spec.pairs d1.values d2.values, ∃ q ∈ Spec.pairs d1.values d2.values, p.1 ≠ q.1) :
    ∃ rs, analyze d1 d2 = .ok rs ∧ Spec.Reports rs "Mean of absolute difference" "abs_mean" 0 ∧
      Spec.Reports rs "Standard deviation of absolute difference" "abs_stddev" 0 ∧
      ((∀ p ∈ Spec.pairs d1.values d2.values, p.1 ≠ 0) → Spec.Reports rs "Mean of relative difference" "rel_mean" 0 ∧
        Spec.Reports rs "Standard deviation of relative difference" "rel_stddev" 0) ∧
      Spec.Reports rs "Spearman's rank coefficient" "spearman" 1 ∧ Spec.Reports rs "Linear regression gradient" "regression_gradient" 1 ∧
      Spec.Reports rs "Linear regression intercept" "regression_intercept" 0 ∧ Spec.Reports rs "Linear regression r-value" "regression_r" 1 ∧
      Spec.Reports rs "Linear regression standard error" "regression_stderr" 0 := by
  have hl : d1.values.length = d2.values.length := by rw [hd]
  have hs : ∀ p ∈ Spec.pairs d1.values d2.values, p.2 = p.1 := by rw [hd]; exact pairs_self _
  obtain ⟨rs, e, -, -, -, -, -, ha, hb⟩ := c185_values d1 d2 hl h2
  have inj : ∀ {rs'}, analyze d1 d2 = .ok rs' → rs' = rs := fun h => Except.ok.inj (h.symm.trans e)
  have zero : ∀ f : ℝ × ℝ → ℝ, (∀ p ∈ Spec.pairs d1.values d2.values, f p = 0) →
      Spec.avg ((Spec.pairs d1.values d2.values).map f) = 0 ∧ Spec.sd ((Spec.pairs d1.values d2.values).map f) = 0 := by
    intro f hf
    have h1 : (Spec.pairs d1.values d2.values).map f = (Spec.pairs d1.values d2.values).map (fun _ => 0) := List.map_congr_left hf
    have h0 : Spec.avg ((Spec.pairs d1.values d2.values).map f) = 0 := by rw [h1, Spec.avg]; simp
    refine ⟨h0, ?_⟩
    rw [Spec.sd, h0, h1]; simp
  obtain ⟨z1, z2⟩ := zero (fun p => p.2 - p.1) (fun p hp => by rw [hs p hp]; ring)
  rw [z1] at ha
  rw [z2] at hb
  obtain ⟨rs1, e1, hc, hd1, hk⟩ := c185_exact_line d1 d2 hl h2 1 0 (fun p hp => by rw [hs p hp]; ring) hv
  obtain rfl := inj e1
  obtain ⟨hr, hse⟩ := hk one_ne_zero
  obtain ⟨rs2, s, e2, hsp, -, -, h1⟩ := c185_rank d1 d2 hl h2
  obtain rfl := inj e2
  obtain rfl := h1 hv (fun p hp q hq => by rw [hs p hp, hs q hq])
  refine ⟨_, e, ha, hb, ?_, hsp, hc, hd1, by simpa using hr, hse⟩
  intro h0
  obtain ⟨rs3, e3, hm, hn⟩ := c185_relative d1 d2 hl h2 h0
  obtain rfl := inj e3
  obtain ⟨z1, z2⟩ := zero (fun p => (p.2 - p.1) / p.1) (fun p hp => by rw [hs p hp]; simp)
  rw [z1] at hm
  rw [z2] at hn
  exact ⟨hm, hn⟩

/-- **C185**: exchanging the two variables exchanges their means and standard deviations and changes the sign of the mean difference; the number of
points and the standard deviation of the difference stay. -/
theorem c185_exchange (d1 d2 : DataSet) (hl : d1.values.length = d2.values.length) (h2 : 2 ≤ (Spec.pairs d1.values d2.values).length) :
    ∃ rs rs' m1 m2 s1 s2 d s, analyze d1 d2 = .ok rs ∧ analyze d2 d1 = .ok rs' ∧
      (∀ n, Spec.Reports rs "Number of points" "num_points" n ↔ Spec.Reports rs' "Number of points" "num_points" n) ∧
      Spec.Reports rs "Mean value of dataset 1" "dataset_mean_1" m1 ∧ Spec.Reports rs' "Mean value of dataset 2" "dataset_mean_2" m1 ∧
      Spec.Reports rs "Mean value of dataset 2" "dataset_mean_2" m2 ∧ Spec.Reports rs' "Mean value of dataset 1" "dataset_mean_1" m2 ∧
      Spec.Reports rs "Standard deviation for dataset 1" "dataset_stddev_1" s1 ∧ Spec.Reports rs' "Standard deviation for dataset 2" "dataset_stddev_2" s1 ∧
      Spec.Reports rs "Standard deviation for dataset 2" "dataset_stddev_2" s2 ∧ Spec.Reports rs' "Standard deviation for dataset 1" "dataset_stddev_1" s2 ∧
      Spec.Reports rs "Mean of absolute difference" "abs_mean" d ∧ Spec.Reports rs' "Mean of absolute difference" "abs_mean" (-d) ∧
      Spec.Reports rs "Standard deviation of absolute difference" "abs_stddev" s ∧
      Spec.Reports rs' "Standard deviation of absolute difference" "abs_stddev" s := by
  have hsw := pairs_swap d1.values d2.values
  have h2' : 2 ≤ (Spec.pairs d2.values d1.values).length := by rw [hsw, List.length_map]; exact h2
  obtain ⟨rs, e, ha, hb, hc, hd, he, hf, hg⟩ := c185_values d1 d2 hl h2
  obtain ⟨rs', e', ha', hb', hc', hd', he', hf', hg'⟩ := c185_values d2 d1 hl.symm h2'
  rw [hsw, List.length_map] at ha'
  rw [hsw, List.map_map] at hb' hc' hd' he' hf' hg'
  have hneg : (Spec.pairs d1.values d2.values).map ((fun p => p.2 - p.1) ∘ Prod.swap) =
      ((Spec.pairs d1.values d2.values).map (fun p => p.2 - p.1)).map (fun x => -x) := by
    rw [List.map_map]
    exact List.map_congr_left (fun p _ => by simp)
  have hav : ∀ l : List ℝ, Spec.avg (l.map (fun x => -x)) = - Spec.avg l := by
    intro l
    have hs : (l.map (fun x => -x)).sum = -l.sum := by
      induction l with
      | nil => simp
      | cons a t ih => rw [List.map_cons, List.sum_cons, List.sum_cons, ih]; ring
    rw [Spec.avg, Spec.avg, List.length_map, hs]
    ring
  have hsd : ∀ l : List ℝ, Spec.sd (l.map (fun x => -x)) = Spec.sd l := by
    intro l
    rw [Spec.sd, Spec.sd, hav, List.map_map, List.length_map]
    congr 3
    exact List.map_congr_left (fun x _ => by simp only [Function.comp]; ring)
  rw [hneg, hav] at hf'
  rw [hneg, hsd] at hg'
  refine ⟨rs, rs', _, _, _, _, _, _, e, e', ?_, hb, hc', hc, hb', hd, he', he, hd', hf, hf', hg, hg'⟩
  have one : ∀ {d1 d2 : DataSet} {rs}, d1.values.length = d2.values.length → 2 ≤ (Spec.pairs d1.values d2.values).length →
      analyze d1 d2 = .ok rs → ∀ n, Spec.Reports rs "Number of points" "num_points" n ↔ n = ((Spec.pairs d1.values d2.values).length : ℝ) := by
    intro d1 d2 rs hl h2 e n
    obtain ⟨rs', e', h, -⟩ := c185_values d1 d2 hl h2
    obtain rfl : rs' = rs := Except.ok.inj (e'.symm.trans e)
    exact ⟨fun h' => c185_unique d1 d2 rs' e _ _ _ _ _ h' h, fun h' => h' ▸ h⟩
  intro n
  rw [one hl h2 e n, one hl.symm h2' e' n, hsw, List.length_map]

/-! ### Non-vacuity -/

noncomputable def exA : DataSet := ⟨"a", [2, 2], [(1, false), (2, false), (3, true), (4, false)]⟩
noncomputable def exB : DataSet := ⟨"a", [4], [(3, false), (5, false), (0, false), (9, false)]⟩

/-- The second is twice the first plus one at the three common points. -/
example : ∃ rs, analyze exA exB = .ok rs ∧ Spec.Reports rs "Linear regression gradient" "regression_gradient" 2 ∧
    Spec.Reports rs "Linear regression intercept" "regression_intercept" 1 := by
  have hp : Spec.pairs exA.values exB.values = [(1, 3), (2, 5), (4, 9)] := rfl
  obtain ⟨rs, e, h1, h2, -⟩ := c185_exact_line exA exB rfl (by rw [hp]; decide) 2 1
    (by rw [hp]; intro p h; simp at h; rcases h with rfl | rfl | rfl <;> norm_num)
    (by rw [hp]; exact ⟨(1, 3), by simp, (2, 5), by simp, by norm_num⟩)
  exact ⟨rs, e, h1, h2⟩

end Cis.StatsCmd
