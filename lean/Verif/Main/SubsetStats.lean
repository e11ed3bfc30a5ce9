import Verif.Main.SubsetAggregate
import Verif.Stats.Command
set_option linter.unusedSectionVars false
set_option linter.unusedSimpArgs false

/-!
# `cis subset` of points and `cis stats` of the result, one after the other

Nothing new is modelled: the subset of Main/SubsetFiles.lean, for two variables on the same points, and the statistics of Stats/Command.lean.
-/
namespace Cis.SubsetStats
open Cis.Str
open Cis.StatsCmd (DataSet)
open Cis.SubsetCmd.Spec (Row Within)

/-! ### Specification -/

/-- A point with the values of two variables, where they are not missing. -/
abbrev Point := Row (Option ℝ × Option ℝ)

/-- The points with the values of the first variable only. -/
def Spec.first (rows : List Point) : List (Row (Option ℝ)) := rows.map (fun r => ⟨r.pos, r.value.1⟩)

/-- The points with the values of the second variable only. -/
def Spec.second (rows : List Point) : List (Row (Option ℝ)) := rows.map (fun r => ⟨r.pos, r.value.2⟩)

/-- A list of values as `cis stats` reads it. -/
def Spec.dataSet (name : String) (l : List (Option ℝ)) : DataSet :=
  ⟨name, [l.length], l.map (fun x => match x with | some v => (v, false) | none => (0, true))⟩

/-- The two values of a point, if neither is missing. -/
def Spec.both (r : Point) : Option (ℝ × ℝ) :=
  match r.value with
  | (some x, some y) => some (x, y)
  | _ => none

open Classical in
/-- The pairs of values of the points that are within all limits and miss neither. -/
noncomputable def Spec.inside (limits : List SubsetCmd.Spec.Asked) (rows : List Point) : List (ℝ × ℝ) :=
  (rows.filter (fun r => decide (Within limits r))).filterMap Spec.both

open Classical in
/-- The points, with both values missing where they are not within all limits. -/
noncomputable def Spec.blanked (limits : List SubsetCmd.Spec.Asked) (rows : List Point) : List Point :=
  rows.map (fun r => if Within limits r then r else ⟨r.pos, (none, none)⟩)

/-! ### Proofs -/

theorem pairs_both (n1 n2 : String) (rows : List Point) :
    StatsCmd.Spec.pairs (Spec.dataSet n1 (rows.map (fun r => r.value.1))).values (Spec.dataSet n2 (rows.map (fun r => r.value.2))).values =
      rows.filterMap Spec.both := by
  unfold Spec.dataSet
  dsimp only
  induction rows with
  | nil => rfl
  | cons r t ih =>
    obtain ⟨p, x, y⟩ := r
    rw [List.filterMap_cons]
    simp only [List.map_cons]
    cases x <;> cases y <;> simp only [Spec.both, StatsCmd.Spec.pairs] <;> rw [ih]

theorem blanked_both (limits : List SubsetCmd.Spec.Asked) (rows : List Point) : (Spec.blanked limits rows).filterMap Spec.both = Spec.inside limits rows := by
  unfold Spec.blanked Spec.inside
  induction rows with
  | nil => rfl
  | cons r t ih =>
    rw [List.map_cons, List.filterMap_cons, List.filter_cons]
    by_cases h : Within limits r
    · simp only [h, if_true, decide_true, List.filterMap_cons]
      rw [ih]
    · simp only [h, if_false, decide_false]
      rw [ih]
      rfl

open Classical in
/-- The subset of one of the variables. -/
theorem subset_one (e : SubsetCmd.Env) (meta' : List SubsetCmd.Crd) (hids : (meta'.map (fun c => c.payload.id)).Nodup)
    (hkeys : (meta'.map SubsetCmd.key).Nodup) (limits : List SubsetCmd.Spec.Asked) (hne : limits ≠ []) (hleg : SubsetCmd.Spec.Legible e meta' limits)
    (rows : List Point) (hconv : SubsetCmd.Spec.OneConvention limits rows) (f : Point → Option ℝ) (hsome : ∃ r ∈ rows, Within limits r) :
    SubsetCmd.run e (SubsetCmd.Spec.ofRows meta' (rows.map (fun r => (⟨r.pos, f r⟩ : Row (Option ℝ))))) (SubsetCmd.Spec.text limits) =
      .ok (SubsetCmd.Spec.ofRows meta' ((rows.filter (fun r => decide (Within limits r))).map (fun r => (⟨r.pos, f r⟩ : Row (Option ℝ))))) := by
  rw [SubsetCmd.c198_rows e meta' hids hkeys limits hne hleg]
  · have hf : (rows.map (fun r => (⟨r.pos, f r⟩ : Row (Option ℝ)))).filter (fun r => decide (Within limits r)) =
        (rows.filter (fun r => decide (Within limits r))).map (fun r => (⟨r.pos, f r⟩ : Row (Option ℝ))) := by
      rw [List.filter_map]
      rfl
    rw [hf, if_neg]
    obtain ⟨r, hr, hw⟩ := hsome
    intro h
    have : r ∈ rows.filter (fun r => decide (Within limits r)) := List.mem_filter.2 ⟨hr, by simpa using hw⟩
    rw [List.map_eq_nil_iff] at h
    rw [h] at this
    cases this
  · intro a ha hl
    obtain ⟨lo, hi, h1, h2⟩ := hconv a ha hl
    refine ⟨lo, hi, h1, ?_⟩
    rcases h2 with ⟨a1, a2, a3⟩ | ⟨a1, a2, a3⟩
    · left
      refine ⟨a1, a2, ?_⟩
      intro r hr
      obtain ⟨r', hr', rfl⟩ := List.mem_map.1 hr
      exact a3 r' hr'
    · right
      refine ⟨a1, a2, ?_⟩
      intro r hr
      obtain ⟨r', hr', rfl⟩ := List.mem_map.1 hr
      exact a3 r' hr'

/-- **C222.** `cis subset` of two variables on the same points by limits (C198), and `cis stats` of the result. If at least one point is within the
limits, the subset succeeds for both; `cis stats` then accepts the two if and only if at least two points within all limits miss neither value, and the
number of points, the means, the standard deviations, and the mean and the standard deviation of the difference are those of exactly these points. And
all that it prints and saves is what it prints and saves for all the points, with the values missing at those not within the limits. -/
theorem c222_subset_stats (e : SubsetCmd.Env) (meta' : List SubsetCmd.Crd) (hids : (meta'.map (fun c => c.payload.id)).Nodup)
    (hkeys : (meta'.map SubsetCmd.key).Nodup) (limits : List SubsetCmd.Spec.Asked) (hne : limits ≠ []) (hleg : SubsetCmd.Spec.Legible e meta' limits)
    (rows : List Point) (hconv : SubsetCmd.Spec.OneConvention limits rows) (hsome : ∃ r ∈ rows, Within limits r)
    (n1 n2 : String) (shown : Option ℝ → String) (output : Bool) :
    ∃ d1 d2, SubsetCmd.run e (SubsetCmd.Spec.ofRows meta' (Spec.first rows)) (SubsetCmd.Spec.text limits) = .ok d1 ∧
      SubsetCmd.run e (SubsetCmd.Spec.ofRows meta' (Spec.second rows)) (SubsetCmd.Spec.text limits) = .ok d2 ∧
      ((∃ rep, StatsCmd.run shown [Spec.dataSet n1 d1.values, Spec.dataSet n2 d2.values] output = .ok rep) ↔ 2 ≤ (Spec.inside limits rows).length) ∧
      StatsCmd.run shown [Spec.dataSet n1 d1.values, Spec.dataSet n2 d2.values] output =
        StatsCmd.run shown [Spec.dataSet n1 ((Spec.blanked limits rows).map (fun r => r.value.1)),
          Spec.dataSet n2 ((Spec.blanked limits rows).map (fun r => r.value.2))] output ∧
      (2 ≤ (Spec.inside limits rows).length → ∃ rs, StatsCmd.analyze (Spec.dataSet n1 d1.values) (Spec.dataSet n2 d2.values) = .ok rs ∧
        StatsCmd.Spec.Reports rs "Number of points" "num_points" (Spec.inside limits rows).length ∧
        StatsCmd.Spec.Reports rs "Mean value of dataset 1" "dataset_mean_1" (StatsCmd.Spec.avg ((Spec.inside limits rows).map Prod.fst)) ∧
        StatsCmd.Spec.Reports rs "Mean value of dataset 2" "dataset_mean_2" (StatsCmd.Spec.avg ((Spec.inside limits rows).map Prod.snd)) ∧
        StatsCmd.Spec.Reports rs "Standard deviation for dataset 1" "dataset_stddev_1" (StatsCmd.Spec.sd ((Spec.inside limits rows).map Prod.fst)) ∧
        StatsCmd.Spec.Reports rs "Standard deviation for dataset 2" "dataset_stddev_2" (StatsCmd.Spec.sd ((Spec.inside limits rows).map Prod.snd)) ∧
        StatsCmd.Spec.Reports rs "Mean of absolute difference" "abs_mean"
          (StatsCmd.Spec.avg ((Spec.inside limits rows).map (fun p => p.2 - p.1))) ∧
        StatsCmd.Spec.Reports rs "Standard deviation of absolute difference" "abs_stddev"
          (StatsCmd.Spec.sd ((Spec.inside limits rows).map (fun p => p.2 - p.1)))) := by
  classical
  refine ⟨_, _, subset_one e meta' hids hkeys limits hne hleg rows hconv (fun r => r.value.1) hsome,
    subset_one e meta' hids hkeys limits hne hleg rows hconv (fun r => r.value.2) hsome, ?_⟩
  have hv : ∀ (f : Point → Option ℝ) (l : List Point), (SubsetCmd.Spec.ofRows meta' (l.map (fun r => (⟨r.pos, f r⟩ : Row (Option ℝ))))).values = l.map f := by
    intro f l
    unfold SubsetCmd.Spec.ofRows
    simp only [List.map_map, Function.comp_def]
  rw [hv, hv]
  generalize hR : rows.filter (fun r => decide (Within limits r)) = R
  have hin : StatsCmd.Spec.pairs (Spec.dataSet n1 (R.map (fun r => r.value.1))).values (Spec.dataSet n2 (R.map (fun r => r.value.2))).values =
      Spec.inside limits rows := by
    rw [pairs_both, ← hR]
    unfold Spec.inside
    congr!
  have hbl : StatsCmd.Spec.pairs (Spec.dataSet n1 ((Spec.blanked limits rows).map (fun r => r.value.1))).values
      (Spec.dataSet n2 ((Spec.blanked limits rows).map (fun r => r.value.2))).values = Spec.inside limits rows := by
    rw [pairs_both, blanked_both]
  have hlen : ∀ l : List Point, (Spec.dataSet n1 (l.map (fun r => r.value.1))).values.length = (Spec.dataSet n2 (l.map (fun r => r.value.2))).values.length := by
    intro l; simp [Spec.dataSet]
  refine ⟨?_, ?_, ?_⟩
  · rw [StatsCmd.c185_accepted]
    constructor
    · rintro ⟨a, b, h, -, h2⟩
      injection h with h3 h4
      injection h4 with h4
      subst h3 h4
      rw [hin] at h2
      exact h2
    · intro h
      exact ⟨_, _, rfl, hlen R, by rw [hin]; exact h⟩
  · unfold StatsCmd.run
    dsimp only
    rw [StatsCmd.c185_points_only (Spec.dataSet n1 (R.map (fun r => r.value.1))) (Spec.dataSet n2 (R.map (fun r => r.value.2))) (Spec.dataSet n1 ((Spec.blanked limits rows).map (fun r => r.value.1)))
      (Spec.dataSet n2 ((Spec.blanked limits rows).map (fun r => r.value.2))) ⟨rfl, rfl⟩ (hlen R) (hlen _) (by rw [hin, hbl])]
  · intro h
    have := StatsCmd.c185_values _ _ (hlen R) (by rw [hin]; exact h)
    rw [hin] at this
    exact this

/-! ### Not vacuous: the last of the points is not within `y=[0,90]`, the third misses a value -/

def exPoint (lon lat : ℚ) (v : Option ℝ × Option ℝ) : Point := ⟨fun j => if j = 0 then lon else lat, v⟩
noncomputable def exPoints : List Point :=
  [exPoint 15 10 (some 1, some 2), exPoint 20 40 (some 3, some 6), exPoint 25 70 (some 4, none), exPoint 200 (-50) (some 7, some 7)]

theorem ex_within (r : Point) : Within AggCmd.exLimit r ↔ 0 ≤ r.pos 1 ∧ r.pos 1 ≤ 90 := by
  unfold Within AggCmd.exLimit
  constructor
  · intro h
    have := h _ (List.mem_singleton.2 rfl)
    exact ⟨this.1 0 rfl, this.2 90 rfl⟩
  · rintro ⟨h1, h2⟩ a ha
    rw [List.mem_singleton] at ha
    subst ha
    exact ⟨by rintro x ⟨⟩; exact h1, by rintro x ⟨⟩; exact h2⟩

theorem ex_inside : Spec.inside AggCmd.exLimit exPoints = [(1, 2), (3, 6)] := by
  unfold Spec.inside
  simp only [ex_within, exPoints, exPoint]
  norm_num [List.filter_cons]
  rfl

/-- The hypotheses of `c222_subset_stats` hold; the means are 2 and 4. -/
example (shown : Option ℝ → String) : ∃ d1 d2 rs, SubsetCmd.run AggCmd.exEnv' (SubsetCmd.Spec.ofRows AggCmd.exMeta (Spec.first exPoints)) "y=[0,90]".toList = .ok d1 ∧
    SubsetCmd.run AggCmd.exEnv' (SubsetCmd.Spec.ofRows AggCmd.exMeta (Spec.second exPoints)) "y=[0,90]".toList = .ok d2 ∧
    StatsCmd.analyze (Spec.dataSet "a" d1.values) (Spec.dataSet "b" d2.values) = .ok rs ∧
    StatsCmd.Spec.Reports rs "Mean value of dataset 1" "dataset_mean_1" 2 ∧ StatsCmd.Spec.Reports rs "Mean value of dataset 2" "dataset_mean_2" 4 := by
  obtain ⟨d1, d2, h1, h2, -, -, h3⟩ := c222_subset_stats AggCmd.exEnv' AggCmd.exMeta (by decide) (by decide +kernel) AggCmd.exLimit (by decide)
    AggCmd.exLimit_legible exPoints
    (by
      intro a ha hl
      rw [AggCmd.exLimit, List.mem_singleton] at ha
      subst ha
      exact absurd hl (by decide))
    ⟨exPoint 15 10 (some 1, some 2), by simp [exPoints], by rw [ex_within]; simp [exPoint]; norm_num⟩ "a" "b" shown false
  obtain ⟨rs, g1, -, g2, g3, -⟩ := h3 (by rw [ex_inside]; simp)
  have ht : SubsetCmd.Spec.text AggCmd.exLimit = "y=[0,90]".toList := by decide +kernel
  rw [ht] at h1 h2
  refine ⟨d1, d2, rs, h1, h2, g1, ?_, ?_⟩
  · rw [ex_inside] at g2
    have : StatsCmd.Spec.avg (List.map Prod.fst [((1 : ℝ), (2 : ℝ)), (3, 6)]) = 2 := by norm_num [StatsCmd.Spec.avg]
    rwa [this] at g2
  · rw [ex_inside] at g3
    have : StatsCmd.Spec.avg (List.map Prod.snd [((1 : ℝ), (2 : ℝ)), (3, 6)]) = 4 := by norm_num [StatsCmd.Spec.avg]
    rwa [this] at g3

end Cis.SubsetStats
