import Verif.Colloc.Options
import Verif.Colloc.Local
set_option linter.unusedSectionVars false
set_option linter.unusedSimpArgs false

/-!
# `cis col` of points onto points: from the text of the options to the values

The plan that the options make (C178) carried out by the collocator (C17) for a list of variables: each is collocated by itself with the same
constraint and kernel, the index made anew for each (col_implementations.py:41-48, 61-63), and the results are listed in order. Coordinates are those of
the data frames: altitudes in m, times in days.
-/
namespace Cis.ColCmd
open Cis.Str Cis.ColOpts

/-! ### Model -/

/-- The kernels of col_implementations.py:365-556 by name (`get_kernel`, col_framework.py); `nn_horizontal_only` and plugins are left out. -/
def kernelNamed (n : Str) : Option Colloc.Kernel :=
  if n = "mean".toList then some .mean else if n = "stddev".toList then some .stddev else if n = "min".toList then some .min
  else if n = "max".toList then some .max else if n = "sum".toList then some .sum else if n = "moments".toList then some .moments
  else if n = "nn_horizontal".toList then some .nnHorizontal else if n = "nn_altitude".toList then some .nnAltitude
  else if n = "nn_pressure".toList then some .nnPressure else if n = "nn_time".toList then some .nnTime else none

/-- The separations as real numbers. -/
noncomputable def toSeps (s : ColOpts.Seps) : Colloc.Seps := ⟨s.h.map (↑·), s.a.map (↑·), s.p.map (↑·), s.t.map (↑·)⟩

/-- A variable to be collocated: its metadata, the columns of its data frame and its points. -/
structure Var where
  names : Names
  cols : List Colloc.Col
  rows : List Colloc.Row

inductive Err
  | options (e : ColOpts.Err)
  | work (e : Colloc.Err)
  | notModelled

/-- The variables one by one (col_implementations.py:41-48): values and metadata of the results (col_implementations.py:66-71, 98-108). -/
noncomputable def eachVar (p : Plan) (s : ColOpts.Seps) (kname : Str) (k : Colloc.Kernel) (sampleVar : Bool) (cx : List Colloc.Col)
    (sample : List Colloc.Row) : List Var → Except Err (List (Out × List (Option ℝ)))
  | [] => .ok []
  | v :: t =>
    match Colloc.collocate (toSeps s) k p.missing sampleVar cx v.cols sample v.rows with
    | .error e => .error (.work e)
    | .ok vals =>
      match eachVar p s kname k sampleVar cx sample t with
      | .error e => .error e
      | .ok r => .ok (((details kname v.names).map (fun d => (⟨d, some p.fill⟩ : Out))).zip vals ++ r)

/-- `col_cmd` (cis_main.py:65-99) up to the save, for ungridded data and sample: the options, then `sampled_from`
(ungridded_data.py:1220-1255). A sample has values if a sample variable is given (cis_main.py:76-92). -/
noncomputable def run (num : Str → Option ℚ) (kernels : List Str) (sampleVar : Bool) (col kern : Option (Str × Opts)) (cx : List Colloc.Col)
    (sample : List Colloc.Row) (vars : List Var) : Except Err (List (Out × List (Option ℝ))) :=
  match colCommand num kernels sampleVar false false col kern with
  | .error e => .error (.options e)
  | .ok p =>
    match p.work with
    | .boxPoints s kname =>
      match kernelNamed kname with
      | none => .error .notModelled
      | some k => eachVar p s kname k sampleVar cx sample vars
    | _ => .error .notModelled

/-! ### Specification -/

/-- The names of the statistics; none is `moments`. -/
def Spec.statistics : List Str := ["mean".toList, "stddev".toList, "min".toList, "max".toList, "sum".toList, "moments".toList, []]

/-- The mean of some values. -/
noncomputable def Spec.avg (v : List ℝ) : ℝ := v.sum / v.length

/-- The corrected standard deviation of some values: there is none for a single value. -/
noncomputable def Spec.sd (v : List ℝ) : Option ℝ :=
  if v.length ≤ 1 then none else some √((v.map (fun x => (x - Spec.avg v) ^ 2)).sum / (v.length - 1))

/-- The results of a statistic for some values: one, and three for `moments`. -/
def Spec.Result (name : Str) (v : List ℝ) (out : List (Option ℝ)) : Prop :=
  (name = "mean".toList → out = [some (Spec.avg v)]) ∧ (name = "stddev".toList → out = [Spec.sd v]) ∧
  (name = "min".toList → ∃ m, out = [some m] ∧ m ∈ v ∧ ∀ x ∈ v, m ≤ x) ∧
  (name = "max".toList → ∃ m, out = [some m] ∧ m ∈ v ∧ ∀ x ∈ v, x ≤ m) ∧ (name = "sum".toList → out = [some v.sum]) ∧
  (name = "moments".toList ∨ name = [] → out = [some (Spec.avg v), Spec.sd v, some (v.length : ℝ)])

/-- What `kernelNamed` must find. -/
def Statistic : Str → Colloc.Kernel → Prop := fun n k =>
  (n = "mean".toList ∧ k = .mean) ∨ (n = "stddev".toList ∧ k = .stddev) ∨ (n = "min".toList ∧ k = .min) ∨ (n = "max".toList ∧ k = .max) ∨
  (n = "sum".toList ∧ k = .sum) ∨ ((n = "moments".toList ∨ n = []) ∧ k = .moments)

/-- What the options say about the separations. -/
def Spec.Written (num : Str → Option ℚ) (l : Opts) (s : ColOpts.Seps) : Prop :=
  ColOpts.Spec.Says (ColOpts.Spec.Km num) l kH s.h ∧ ColOpts.Spec.Says (ColOpts.Spec.Metre num) l kA s.a ∧
    ColOpts.Spec.Says (fun v x => num v = some x) l kP s.p ∧ ColOpts.Spec.Says ColOpts.Spec.Days l kT s.t

/-- The separations of the four coordinates as real numbers. -/
noncomputable def Spec.real (s : ColOpts.Seps) : Colloc.Seps where
  h := s.h.map (fun x => (x : ℝ))
  a := s.a.map (fun x => (x : ℝ))
  p := s.p.map (fun x => (x : ℝ))
  t := s.t.map (fun x => (x : ℝ))

/-- The values, not missing, of a variable within the separations around a point. -/
noncomputable def Spec.near (s : ColOpts.Seps) (v : Var) (r : Colloc.Row) : List ℝ :=
  (Colloc.Spec.selected (Spec.real s) r.loc (Colloc.dropna v.rows)).map Colloc.DRow.val

/-! ### Proofs -/

theorem statistic_named {n : Str} {k : Colloc.Kernel} (h : Statistic n k) :
    kernelNamed (if n = [] then moments else n) = some k ∧ k.dataOnly ∧
      (∀ m, (details (if n = [] then moments else n) m).length = k.size) := by
  rcases h with ⟨rfl, rfl⟩ | ⟨rfl, rfl⟩ | ⟨rfl, rfl⟩ | ⟨rfl, rfl⟩ | ⟨rfl, rfl⟩ | ⟨rfl | rfl, rfl⟩ <;>
    exact ⟨by with_unfolding_all rfl, trivial, fun m => by with_unfolding_all rfl⟩

theorem statistic_exists {n : Str} (h : n ∈ Spec.statistics) : ∃ k, Statistic n k := by
  simp only [Spec.statistics, List.mem_cons, List.not_mem_nil, or_false] at h
  rcases h with rfl | rfl | rfl | rfl | rfl | rfl | rfl
  · exact ⟨.mean, .inl ⟨rfl, rfl⟩⟩
  · exact ⟨.stddev, .inr (.inl ⟨rfl, rfl⟩)⟩
  · exact ⟨.min, .inr (.inr (.inl ⟨rfl, rfl⟩))⟩
  · exact ⟨.max, .inr (.inr (.inr (.inl ⟨rfl, rfl⟩)))⟩
  · exact ⟨.sum, .inr (.inr (.inr (.inr (.inl ⟨rfl, rfl⟩))))⟩
  · exact ⟨.moments, .inr (.inr (.inr (.inr (.inr ⟨.inl rfl, rfl⟩))))⟩
  · exact ⟨.moments, .inr (.inr (.inr (.inr (.inr ⟨.inr rfl, rfl⟩))))⟩

theorem npMin_some {v : List ℝ} (h : v ≠ []) : ∃ m, Colloc.npMin v = some m := by
  cases v with
  | nil => exact absurd rfl h
  | cons x t => exact ⟨_, rfl⟩

theorem npMax_some {v : List ℝ} (h : v ≠ []) : ∃ m, Colloc.npMax v = some m := by
  cases v with
  | nil => exact absurd rfl h
  | cons x t => exact ⟨_, rfl⟩

/-- The values of the kernels are the statistics. -/
theorem getValue_result {n : Str} {k : Colloc.Kernel} (h : Statistic n k) (cx cy : List Colloc.Col) (ref : Colloc.Loc) (data : List Colloc.DRow) :
    (data.map Colloc.DRow.val = [] → (Colloc.getValue k cx cy ref data).getD (List.replicate k.size none) = List.replicate k.size none) ∧
    (data.map Colloc.DRow.val ≠ [] → Spec.Result n (data.map Colloc.DRow.val)
      ((Colloc.getValue k cx cy ref data).getD (List.replicate k.size none))) := by
  constructor
  · intro h0
    rw [List.map_eq_nil_iff] at h0
    rw [(Colloc.c15_empty k cx cy ref data).2 h0]
    rfl
  · intro h0
    have hl : ¬ (data.map Colloc.DRow.val).length = 0 := by rwa [List.length_eq_zero_iff]
    obtain ⟨a, ha⟩ := npMin_some h0
    obtain ⟨b, hb⟩ := npMax_some h0
    rcases h with ⟨rfl, rfl⟩ | ⟨rfl, rfl⟩ | ⟨rfl, rfl⟩ | ⟨rfl, rfl⟩ | ⟨rfl, rfl⟩ | ⟨hn, rfl⟩
    · rw [Colloc.getValue]; dsimp only; rw [if_neg hl]
      exact ⟨fun _ => rfl, fun h => absurd h (by decide), fun h => absurd h (by decide), fun h => absurd h (by decide),
        fun h => absurd h (by decide), fun h => absurd h (by decide)⟩
    · rw [Colloc.getValue]; dsimp only; rw [if_neg hl]
      exact ⟨fun h => absurd h (by decide), fun _ => rfl, fun h => absurd h (by decide), fun h => absurd h (by decide),
        fun h => absurd h (by decide), fun h => absurd h (by decide)⟩
    · rw [Colloc.getValue]; dsimp only; rw [if_neg hl, ha]
      exact ⟨fun h => absurd h (by decide), fun h => absurd h (by decide), fun _ => ⟨a, rfl, Colloc.npMin_spec ha⟩, fun h => absurd h (by decide),
        fun h => absurd h (by decide), fun h => absurd h (by decide)⟩
    · rw [Colloc.getValue]; dsimp only; rw [if_neg hl, hb]
      exact ⟨fun h => absurd h (by decide), fun h => absurd h (by decide), fun h => absurd h (by decide), fun _ => ⟨b, rfl, Colloc.npMax_spec hb⟩,
        fun h => absurd h (by decide), fun h => absurd h (by decide)⟩
    · rw [Colloc.getValue]; dsimp only; rw [if_neg hl]
      exact ⟨fun h => absurd h (by decide), fun h => absurd h (by decide), fun h => absurd h (by decide), fun h => absurd h (by decide),
        fun _ => rfl, fun h => absurd h (by decide)⟩
    · rw [Colloc.getValue]; dsimp only; rw [if_neg hl]
      rcases hn with rfl | rfl <;> exact ⟨fun h => absurd h (by decide), fun h => absurd h (by decide), fun h => absurd h (by decide),
        fun h => absurd h (by decide), fun h => absurd h (by decide), fun _ => rfl⟩

/-- **C184.** `cis col` of points onto points with `box[...]`, any separations and general options in any order, and a statistic (`moments` if none is
given), for any number of variables: if for each variable the search is exact (C17: some value is valid, pressures positive where they are compared,
no point exactly at the horizontal separation, and, with one, all in a quarter of a hemisphere), every variable yields, in order, its results under
their names, of the length of the sample; at each sample point the values are the statistic of exactly the valid values within the separations written,
and missing if there are none, or if the sample value is missing and the flag says so. -/
theorem c184_collocate (num : Str → Option ℚ) (kernels : List Str) (sampleVar : Bool) (l : Opts) (kern : Str)
    (cx : List Colloc.Col) (sample : List Colloc.Row) (vars : List Var)
    (hl : Method.Spec.Plain "box".toList l) (hkeys : ∀ kv ∈ l, kv.1 ∈ ColOpts.Spec.keys)
    (hH : ∀ v, (kH, some v) ∈ l → ∃ x, ColOpts.Spec.Km num v x) (hA : ∀ v, (kA, some v) ∈ l → ∃ x, ColOpts.Spec.Metre num v x)
    (hP : ∀ v, (kP, some v) ∈ l → ∃ x, num v = some x) (hT : ∀ v, (kT, some v) ∈ l → ∃ x, ColOpts.Spec.Days v x)
    (hF : ∀ v, (kFill, some v) ∈ l → ∃ x, num v = some x) (hk : kern = [] ∨ kern ∈ kernels) (hstat : kern ∈ Spec.statistics)
    (hgood : ∀ s, Spec.Written num l s → ∀ v ∈ vars, Colloc.Spec.Good (Spec.real s) sample v.rows) :
    ∃ s fill res, Spec.Written num l s ∧ ColOpts.Spec.Says (fun v x => num v = some x) l kFill fill ∧
      run num kernels sampleVar (some (Method.methodArgs (Method.Spec.method "box".toList l))) (some (kern, [])) cx sample vars = .ok res.flatten ∧
      List.Forall₂ (fun (v : Var) (r : List (Out × List (Option ℝ))) => r.map (fun o => o.1.names.name) = ColOpts.Spec.names (if kern = [] then moments else kern) v.names.name ∧
        (∀ o ∈ r, o.1.missing = some fill ∧ o.2.length = sample.length) ∧
        ∀ (i : Nat) (p : Colloc.Row), sample[i]? = some p →
          if ((match l.lookup kMissing with | none => sampleVar | some v => checkBoolean v) = true ∧ sampleVar = true ∧ p.val = none) ∨
            Spec.near s v p = []
          then ∀ o ∈ r, o.2[i]? = some none
          else Spec.Result kern (Spec.near s v p) (r.map (fun o => (o.2[i]?).join))) vars res := by
  obtain ⟨k, hstat⟩ := statistic_exists hstat
  obtain ⟨p, s, e, hw, sH, sA, sP, sT, sF, hm⟩ := c178_box num kernels sampleVar l kern hl hkeys hH hA hP hT hF hk
  obtain ⟨hn, hd, hsz⟩ := statistic_named hstat
  have hwr : Spec.Written num l s := ⟨sH, sA, sP, sT⟩
  have key : ∃ res, eachVar p s (if kern = [] then moments else kern) k sampleVar cx sample vars = .ok res.flatten ∧
      List.Forall₂ (fun (v : Var) (r : List (Out × List (Option ℝ))) => r.map (fun o => o.1.names.name) = ColOpts.Spec.names (if kern = [] then moments else kern) v.names.name ∧
        (∀ o ∈ r, o.1.missing = some p.fill ∧ o.2.length = sample.length) ∧
        ∀ (i : Nat) (q : Colloc.Row), sample[i]? = some q →
          if (p.missing = true ∧ sampleVar = true ∧ q.val = none) ∨ Spec.near s v q = []
          then ∀ o ∈ r, o.2[i]? = some none
          else Spec.Result kern (Spec.near s v q) (r.map (fun o => (o.2[i]?).join))) vars res := by
    have hg : ∀ v ∈ vars, Colloc.Spec.Good (toSeps s) sample v.rows := hgood s hwr
    clear hgood
    induction vars with
    | nil => exact ⟨[], rfl, .nil⟩
    | cons v t ih =>
      obtain ⟨res, h1, h2⟩ := ih (fun v hv => hg v (by simp [hv]))
      have g := hg v (by simp)
      obtain ⟨out, ho, hol, hov, -⟩ := Colloc.good_statement g k p.missing sampleVar cx v.cols (Colloc.cols_of_dataOnly hd cx v.cols)
      have ho' : Colloc.collocate (toSeps s) k p.missing sampleVar cx v.cols sample v.rows = .ok out := ho
      obtain ⟨-, -, hval⟩ := Colloc.good_value g k hd p.missing sampleVar cx v.cols ho'
      have hlen : ((details (if kern = [] then moments else kern) v.names).map (fun d => (⟨d, some p.fill⟩ : Out))).length = out.length := by
        rw [List.length_map, hsz, hol]
      refine ⟨((details (if kern = [] then moments else kern) v.names).map (fun d => (⟨d, some p.fill⟩ : Out))).zip out :: res, ?_,
        .cons ⟨?_, ?_, ?_⟩ h2⟩
      · rw [eachVar, ho']
        dsimp only
        rw [h1]
        rfl
      · have h1 : (((details (if kern = [] then moments else kern) v.names).map (fun d => (⟨d, some p.fill⟩ : Out))).zip out).map (fun o => o.1.names.name) =
            ((((details (if kern = [] then moments else kern) v.names).map (fun d => (⟨d, some p.fill⟩ : Out))).zip out).map Prod.fst).map (fun o => o.names.name) := by
          rw [List.map_map]; rfl
        rw [h1, List.map_fst_zip (le_of_eq hlen), List.map_map]
        rw [details, ColOpts.Spec.names]
        generalize (if kern = [] then moments else kern) = kn
        by_cases hkn : kn = moments
        · rw [if_pos hkn, if_pos hkn]; rfl
        · rw [if_neg hkn, if_neg hkn]; rfl
      · intro o ho
        refine ⟨?_, hov _ (List.of_mem_zip ho).2⟩
        obtain ⟨d, -, hd⟩ := List.mem_map.1 (List.of_mem_zip ho).1
        rw [← hd]
      · intro i q hq
        have h1 : (((details (if kern = [] then moments else kern) v.names).map (fun d => (⟨d, some p.fill⟩ : Out))).zip out).map (fun o => (o.2[i]?).join) =
            ((((details (if kern = [] then moments else kern) v.names).map (fun d => (⟨d, some p.fill⟩ : Out))).zip out).map Prod.snd).map (fun o => (o[i]?).join) := by
          rw [List.map_map]; rfl
        have hcol := hval i q hq
        obtain ⟨v1, v2⟩ := getValue_result hstat cx v.cols q.loc (Colloc.Spec.selected (toSeps s) q.loc (Colloc.dropna v.rows))
        by_cases hc : (p.missing = true ∧ sampleVar = true ∧ q.val = none) ∨ Spec.near s v q = []
        · rw [if_pos hc]
          have hall : Colloc.column out i = List.replicate k.size none := by
            rw [hcol]
            by_cases hm : p.missing = true ∧ sampleVar = true ∧ q.val = none
            · rw [if_pos hm]
            · rw [if_neg hm]; exact v1 (hc.resolve_left hm)
          intro o ho
          have hmem := (List.of_mem_zip ho).2
          have hlo := hov _ hmem
          have hi : i < o.2.length := by rw [hlo]; exact (List.getElem?_eq_some_iff.1 hq).1
          have : (o.2[i]?).join ∈ Colloc.column out i := List.mem_map.2 ⟨o.2, hmem, rfl⟩
          rw [hall] at this
          have := List.eq_of_mem_replicate this
          rw [List.getElem?_eq_getElem hi] at this ⊢
          exact congrArg some this
        · rw [if_neg hc, h1, List.map_snd_zip (ge_of_eq hlen)]
          have hc' := not_or.1 hc
          have : out.map (fun o => (o[i]?).join) = _ := hcol
          rw [this, if_neg hc'.1]
          exact v2 hc'.2
  obtain ⟨res, h1, h2⟩ := key
  refine ⟨s, p.fill, res, hwr, sF, ?_, ?_⟩
  · rw [run, e]
    dsimp only
    rw [hw]
    dsimp only
    rw [hn]
    exact h1
  · rw [hm] at h2
    exact h2

/-! ### Non-vacuity: `box[t_sep=P1D]` with two variables, one of them missing at a point -/

def exOpts' : Opts := [(kT, some "P1D".toList)]

noncomputable def exAt (t : ℝ) (v : Option ℝ) : Colloc.Row := ⟨⟨0, 0, 0, 0, t⟩, v⟩

noncomputable def exVars : List Var :=
  [⟨⟨"a".toList, none, none, none⟩, [], [exAt 0 (some 1), exAt (1 / 2) (some 3), exAt 5 (some 7)]⟩,
   ⟨⟨"b".toList, none, none, none⟩, [], [exAt 0 none, exAt 1 (some 2)]⟩]

theorem ex_days : ∃ x, ColOpts.Spec.Days "P1D".toList x :=
  ⟨1, none, none, some "1".toList, none, 86400, by simp, by simp, by rintro n ⟨⟩; exact ⟨by decide, by decide⟩, by simp, by decide, by decide, by decide,
    by norm_num⟩

example : ∃ s fill res, Spec.Written exNum exOpts' s ∧ ColOpts.Spec.Says (fun v x => exNum v = some x) exOpts' kFill fill ∧
    run exNum ["mean".toList] false (some (Method.methodArgs (Method.Spec.method "box".toList exOpts'))) (some ("mean".toList, [])) []
      [exAt 0 none, exAt 9 none] exVars = .ok (List.flatten res) ∧ res.length = 2 := by
  obtain ⟨s, f, res, h1, h2, h3, h4⟩ := c184_collocate exNum ["mean".toList] false exOpts' "mean".toList [] [exAt 0 none, exAt 9 none] exVars
    ⟨by decide, by decide, by decide, by decide +kernel, by decide⟩ (by decide)
    (fun v hv => absurd (congrArg Prod.fst (List.eq_of_mem_singleton hv)) (by dsimp only; decide)) (fun v hv => absurd (congrArg Prod.fst (List.eq_of_mem_singleton hv)) (by dsimp only; decide))
    (fun v hv => absurd (congrArg Prod.fst (List.eq_of_mem_singleton hv)) (by dsimp only; decide))
    (by intro v hv; have h := congrArg Prod.snd (List.eq_of_mem_singleton hv); injection h with h; subst h; exact ex_days)
    (fun v hv => absurd (congrArg Prod.fst (List.eq_of_mem_singleton hv)) (by dsimp only; decide)) (.inr (by decide)) (by decide)
    (by
      rintro s ⟨hH, -, hP, -⟩ v hv
      have h0 : s.h = none := by
        rcases hH with ⟨w, x, hw, -⟩ | ⟨-, h⟩
        · exact absurd (List.eq_of_mem_singleton hw) (by intro h; exact absurd (congrArg Prod.fst h) (by dsimp only; decide))
        · exact h
      have p0 : s.p = none := by
        rcases hP with ⟨w, x, hw, -⟩ | ⟨-, h⟩
        · exact absurd (List.eq_of_mem_singleton hw) (by intro h; exact absurd (congrArg Prod.fst h) (by dsimp only; decide))
        · exact h
      refine ⟨?_, ?_, by simp [Spec.real, h0], by intro h e; simp [Spec.real, h0] at e, .inl (by simp [Spec.real, h0])⟩
      · simp [exVars] at hv
        rcases hv with rfl | rfl <;> simp [Colloc.dropna, exAt]
      · intro r hr
        simp [Colloc.PresOK, Spec.real, p0])
  exact ⟨s, f, res, h1, h2, h3, by simpa [exVars] using (h4.length_eq).symm⟩

end Cis.ColCmd
