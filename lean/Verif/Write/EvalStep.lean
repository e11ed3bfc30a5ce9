import Verif.Write.Pipeline
import Verif.Evaluate.Command
import Mathlib.Tactic.IntervalCases
set_option linter.unusedSectionVars false
set_option linter.unusedSimpArgs false

/-!
# Evaluation as a step of an analysis

`cis eval` on ungridded data (evaluate.py:23-94, modelled in `Evaluate/Model.lean` and `Evaluate/Commute.lean`) as a step of the analyses of
`Write/Pipeline.lean`: what is saved, and that it can follow and precede other steps through files.
-/
namespace Cis.RoundTrip
open Cis.Evaluate (Expr evaluateExpr)

/-! ### The step -/

/-- A variable as `evaluate` sees it; `called` is the alias of the variable with a name (data_reader.py:92-96), its name if none is given. -/
def varOf (called : String → String) (files : List String) (coords : List Obj) (o : Obj) : Cis.Evaluate.Var ℚ (Option ℚ) :=
  ⟨called o.info.name, o.info.name, files, false, [o.values.length], o.values,
    coords.map (fun c => ⟨c.info.std, c.values.filterMap id, [c.values.length]⟩)⟩

/-- What the user writes: the expression and its text, the output variable and its units; and what numpy makes of the types. -/
structure Calc where
  called : String → String
  e : Expr (Option ℚ)
  text : String
  out : Option String
  units : Option String
  dtype : List Bool → Bool

/-- `evaluate_cmd` between reading and saving (cis_main.py:174-186): `make_new_with_same_coordinates` (ungridded_data.py:502-532) gives the result new
metadata, without missing value and attributes, and the coordinates of the first variable. `files` and `stamp` are the names of the input files and
the time, which get into the history. No attributes are added. -/
def evalObjs (repr : List String → String) (version : String) (stamp : String → String) (files : List String) (q : Calc) (x : List Obj × List Obj) :
    Option (List Obj × List Obj) :=
  match evaluateExpr repr version (x.2.map (varOf q.called files x.1)) q.e q.text q.out q.units none with
  | .error _ => none
  | .ok r => some (x.1, [⟨⟨r.varName, "", r.longName, r.units, stamp r.history⟩, q.dtype (x.2.map Obj.isInt), true, r.vals, none, noPacking⟩])

/-! ### Specification -/

/-- The value of the variable called `s` at point number `i`. -/
def Spec.valueOf (called : String → String) (data : List Obj) (i : Nat) (s : String) : Option (Option ℚ) :=
  (data.reverse.find? (fun o => called o.info.name = s)).bind (fun o => o.values[i]?)

/-- The value of the expression at point number `i`, every name standing for the value there of the variable called so. -/
def Spec.result (q : Calc) (data : List Obj) (i : Nat) : Option ℚ := (Cis.Evaluate.Spec.at' (Spec.valueOf q.called data i) q.e).getD none

/-- The points of `n` with the value of the expression. -/
def Spec.evaluated (q : Calc) (x : List Obj × List Obj) (n : Nat) : List (List (Option ℚ) × Option ℚ) :=
  (List.range n).map (fun i => (x.1.map (fun c => c.values.getD i none), Spec.result q x.2 i))

/-- An expression that can be evaluated on the variables: elementwise, no `__`, with names, all of them those of variables. -/
structure Spec.Applies (q : Calc) (data : List Obj) : Prop where
  elementwise : Cis.Evaluate.Spec.Elementwise q.e
  named : Cis.EvalCmd.Spec.names q.e ≠ []
  known : ∀ s ∈ Cis.EvalCmd.Spec.names q.e, ∃ o ∈ data, q.called o.info.name = s
  text : ¬ Cis.Evaluate.Occurs "__" q.text
  out : q.out.getD "calculated_variable" ≠ "" ∧ q.out.getD "calculated_variable" ∉ Spec.coordNames

/-! ### Proofs -/

theorem valueAt_varOf (called : String → String) (files : List String) (coords data : List Obj) (i : Nat) (s : String) :
    Cis.Evaluate.Spec.valueAt (data.map (varOf called files coords)) i s = Spec.valueOf called data i s := by
  unfold Cis.Evaluate.Spec.valueAt Spec.valueOf
  rw [← List.map_reverse, List.find?_map]
  have : ((fun v : Cis.Evaluate.Var ℚ (Option ℚ) => decide (v.aliasName = s)) ∘ varOf called files coords) = fun o : Obj => decide (called o.info.name = s) := rfl
  rw [this]
  cases data.reverse.find? (fun o => called o.info.name = s) <;> rfl

/-- C212: evaluation is a step that can be made through files, for every expression. -/
theorem c212_eval_blind (dflt : Bool → ℚ) (repr : List String → String) (version : String) (stamp : String → String) (files : List String) (q : Calc) :
    Spec.Blind dflt (evalObjs repr version stamp files q) := by
  intro x x' h
  have key : ∀ x : List Obj × List Obj, (evalObjs repr version stamp files q (Spec.settle dflt x)).map (Spec.settle dflt) =
      (evalObjs repr version stamp files q x).map (Spec.settle dflt) := by
    intro x
    have hv : (Spec.settle dflt x).2.map (varOf q.called files (Spec.settle dflt x).1) = x.2.map (varOf q.called files x.1) := by
      simp only [Spec.settle, List.map_map]
      refine List.map_congr_left fun o _ => ?_
      simp only [varOf, List.map_map, Function.comp]
      rfl
    have hi : (Spec.settle dflt x).2.map Obj.isInt = x.2.map Obj.isInt := by
      simp only [Spec.settle, List.map_map]
      rfl
    unfold evalObjs
    rw [hv, hi]
    cases evaluateExpr repr version (x.2.map (varOf q.called files x.1)) q.e q.text q.out q.units none with
    | error e => rfl
    | ok r =>
      simp only [Option.map_some, Option.some.injEq]
      have := congrArg Prod.fst (settle_settle dflt x)
      exact Prod.ext this rfl
  rw [← key x, ← key x', h]

theorem range_map_of {α : Type} (l : List α) (n : Nat) (g : Nat → α) (hl : l.length = n) (h : ∀ i < n, l[i]? = some (g i)) : l = (List.range n).map g := by
  apply List.ext_getElem?
  intro i
  by_cases hi : i < n
  · rw [h i hi]; simp [hi]
  · rw [List.getElem?_eq_none (by omega)]; simp [hi]

theorem at_some {V : Type} (x : String → Option V) (e : Expr V) (he : Cis.Evaluate.Spec.Elementwise e)
    (h : ∀ s ∈ Cis.EvalCmd.Spec.names e, (x s).isSome) : (Cis.Evaluate.Spec.at' x e).isSome := by
  induction e with
  | name s => exact h s (by simp [Cis.EvalCmd.Spec.names])
  | number v => rfl
  | unary f e ih =>
    rw [Cis.Evaluate.Spec.at', Option.isSome_map]
    exact ih he h
  | binary f a b iha ihb =>
    obtain ⟨u, hu⟩ := Option.isSome_iff_exists.1 (iha he.1 (fun s hs => h s (by simp [Cis.EvalCmd.Spec.names, hs])))
    obtain ⟨v, hv⟩ := Option.isSome_iff_exists.1 (ihb he.2 (fun s hs => h s (by simp [Cis.EvalCmd.Spec.names, hs])))
    simp [Cis.Evaluate.Spec.at', hu, hv]
  | reduce f e ih => exact absurd he id

/-- The values that are calculated. -/
theorem evalObjs_eq (repr : List String → String) (version : String) (stamp : String → String) (files : List String) (q : Calc) (x : List Obj × List Obj)
    (n : Nat) (hn : ∀ o ∈ x.1 ++ x.2, o.values.length = n) (hc : ∀ c ∈ x.1, none ∉ c.values) (hx : x.2 ≠ []) (hq : Spec.Applies q x.2) :
    ∃ long history, evalObjs repr version stamp files q x = some (x.1, [⟨⟨q.out.getD "calculated_variable", "", long, q.units.getD "unknown", history⟩,
      q.dtype (x.2.map Obj.isInt), true, (List.range n).map (Spec.result q x.2), none, noPacking⟩]) := by
  obtain ⟨cs, ds⟩ := x
  cases ds with
  | nil => exact absurd rfl hx
  | cons o t =>
    simp only at hn hc hq ⊢
    have hd : Cis.Evaluate.Spec.SamePoints ((o :: t).map (varOf q.called files cs)) n (cs.map (fun c => c.values.filterMap id)) := by
      refine ⟨?_, ?_, ?_, ?_, ?_⟩
      · intro v hv; obtain ⟨o', _, rfl⟩ := List.mem_map.1 hv; rfl
      · intro v hv
        obtain ⟨o', ho', rfl⟩ := List.mem_map.1 hv
        refine ⟨by simp [varOf], ?_⟩
        simpa [varOf] using hn o' (List.mem_append.2 (.inr ho'))
      · intro v hv
        obtain ⟨o', ho', rfl⟩ := List.mem_map.1 hv
        exact hn o' (List.mem_append.2 (.inr ho'))
      · intro v hv
        obtain ⟨o', ho', rfl⟩ := List.mem_map.1 hv
        simp [varOf, Function.comp_def]
      · intro c hcm
        obtain ⟨c', hc', rfl⟩ := List.mem_map.1 hcm
        have := congrArg List.length (filterMap_some c'.values (hc c' hc'))
        rw [List.length_map] at this
        rw [this]
        exact hn c' (List.mem_append.2 (.inl hc'))
    have hk : Cis.Evaluate.Spec.Known ((o :: t).map (varOf q.called files cs)) q.e := by
      refine Cis.EvalCmd.known_of_names _ q.e fun s hs => ?_
      obtain ⟨o', ho', he⟩ := hq.known s hs
      exact ⟨_, List.mem_map.2 ⟨o', ho', rfl⟩, he⟩
    have ht : Cis.Evaluate.hasDunder q.text.toList = false := by
      rw [← Bool.not_eq_true, Cis.Evaluate.hasDunder_string]; exact hq.text
    obtain ⟨l, hl, hln, hli⟩ := (Cis.Evaluate.valueOf_pointwise _ n _ hd q.e hq.elementwise hk).1 (Cis.EvalCmd.named_of_names q.e hq.named)
    have hvals : l = (List.range n).map (Spec.result q (o :: t)) := by
      refine range_map_of l n _ hln fun i hi => ?_
      rw [hli i hi]
      have e : Cis.Evaluate.Spec.valueAt ((o :: t).map (varOf q.called files cs)) i = Spec.valueOf q.called (o :: t) i := by
        funext s; exact valueAt_varOf _ _ _ _ _ _
      rw [e]
      have hs : (Cis.Evaluate.Spec.at' (Spec.valueOf q.called (o :: t) i) q.e).isSome := by
        refine at_some _ q.e hq.elementwise fun s hs => ?_
        obtain ⟨o', ho', he⟩ := hq.known s hs
        unfold Spec.valueOf
        cases hf : (o :: t).reverse.find? (fun o => q.called o.info.name = s) with
        | none =>
          have := List.find?_eq_none.1 hf o' (List.mem_reverse.2 ho')
          simp [he] at this
        | some o'' =>
          have hm := List.mem_reverse.1 (List.mem_of_find?_eq_some hf)
          have := hn o'' (List.mem_append.2 (.inr hm))
          simp [this, hi]
      obtain ⟨r, hr⟩ := Option.isSome_iff_exists.1 hs
      rw [Spec.result, hr]
      rfl
    refine ⟨"Calculated value for expression \"" ++ q.text ++ "\"", stamp (Cis.Evaluate.makeHistory repr version ((o :: t).map (varOf q.called files cs)) q.text), ?_⟩
    unfold evalObjs
    simp only
    rw [List.map_cons] at hl hd ⊢
    have hs := hd.shape _ (List.mem_cons_self)
    rw [Cis.Evaluate.evaluateExpr_eq repr version _ _ rfl hs.1 q.e (fun k hk' => by rw [hl] at hk'; cases hk'; rw [hs.2, hln]), ht, hl]
    simp only [Cis.Evaluate.resultOf, hvals, Bool.false_eq_true, if_false]

/-- What has been calculated can be saved and read, if no value is the fill value. -/
theorem eval_sound (valid : String → Bool) (dflt : Bool → ℚ) (repr : List String → String) (version : String) (stamp : String → String)
    (files : List String) (q : Calc) (x : List Obj × List Obj) (hx : Spec.Sound valid dflt x) (hq : Spec.Applies q x.2) (n : Nat)
    (hn : ∀ o ∈ x.1 ++ x.2, o.values.length = n) (hfill : ∀ i < n, Spec.result q x.2 i ≠ some (dflt (q.dtype (x.2.map Obj.isInt)))) :
    ∃ o, evalObjs repr version stamp files q x = some (x.1, [o]) ∧ Spec.Sound valid dflt (x.1, [o]) ∧ o.info.name = q.out.getD "calculated_variable" ∧
      o.info.units = q.units.getD "unknown" ∧ o.values = (List.range n).map (Spec.result q x.2) := by
  obtain ⟨long, history, he⟩ := evalObjs_eq repr version stamp files q x n hn (fun c hc => (hx.good.std c hc).2.2) hx.good.some.2 hq
  refine ⟨_, he, ?_, rfl, rfl, rfl⟩
  refine ⟨?_, ?_⟩
  · obtain ⟨m, hm⟩ := hx.good.lengths
    refine ⟨⟨hx.good.some.1, by simp⟩, ⟨n, ?_⟩, hx.good.std, hx.good.different, ?_, by simp⟩
    · intro o ho
      rcases List.mem_append.1 ho with ho | ho
      · exact ⟨hn o (List.mem_append.2 (.inl ho)), (hm o (List.mem_append.2 (.inl ho))).2⟩
      · rw [List.mem_singleton] at ho
        subst ho
        refine ⟨by simp, rfl, ?_⟩
        refine ⟨by simp [noPacking, Cis.Read.Spec.attr], by simp [noPacking], ?_, by simp [noPacking], by simp [noPacking], by simp [noPacking]⟩
        intro v hv
        obtain ⟨i, hi, hr⟩ := List.mem_map.1 hv
        have := hfill i (List.mem_range.1 hi)
        rw [hr] at this
        simpa [Spec.stored, noPacking, Cis.Read.Spec.attr] using this
    · intro d hd
      rw [List.mem_singleton] at hd
      subst hd
      exact hq.out
  · intro o ho
    rw [List.mem_singleton] at ho
    subst ho
    exact .inr rfl

/-- Saved and read, a variable has the points it had. -/
theorem read_points (valid : String → Bool) (dflt : Bool → ℚ) (x : List Obj × List Obj) (hx : Spec.Sound valid dflt x) (o : Obj) (ho : o ∈ x.2) :
    ∃ f d, save dflt x.1 x.2 = .ok f ∧ createData valid true [f] o.info.name = .ok d ∧ d.info = o.info ∧
      Spec.table (d.coords.map (fun c => c.2.values)) d.values = Spec.table (x.1.map Obj.values) o.values := by
  obtain ⟨f, hf, -⟩ := c211_reread valid dflt x hx
  obtain ⟨files, d, h1, h2, h3, h4, h5, h6⟩ := c96_round_trip valid dflt x [] o (by simpa using hx.good) (by simp) ho (by simp) (hx.std o ho)
  have hfiles : files = [f] := by
    simp only [List.mapM_cons, List.mapM_nil, hf] at h1
    cases h1; rfl
  subst hfiles
  refine ⟨f, d, hf, h2, h3, ?_⟩
  have hv : d.values = o.values := by
    rw [h4]
    simp only [List.flatMap_cons, List.flatMap_nil, List.append_nil]
    exact spec_variable x.2 hx.good.own o ho
  have hc : d.coords.map (fun c => c.2.values) = x.1.map Obj.values := by
    rw [h6]
    refine List.map_congr_left fun c hc => ?_
    simp only [List.flatMap_cons, List.flatMap_nil, List.append_nil]
    exact spec_coordinate x.1 hx.good.different c hc
  rw [hv, hc]

theorem table_evaluated (q : Calc) (x : List Obj × List Obj) (n : Nat) :
    Spec.table (x.1.map Obj.values) ((List.range n).map (Spec.result q x.2)) = Spec.evaluated q x n := by
  unfold Spec.table Spec.evaluated
  rw [List.length_map, List.length_range]
  refine List.map_congr_left fun i hi => ?_
  have hi' := List.mem_range.1 hi
  simp [List.getD_eq_getElem?_getD, hi', Function.comp_def]

/-- **C212.** The file that `cis eval` writes, read again: the variable has the name and units given and, on all points of the inputs in their order,
the value of the expression there. -/
theorem c212_eval_file (valid : String → Bool) (dflt : Bool → ℚ) (repr : List String → String) (version : String) (stamp : String → String)
    (files : List String) (q : Calc) (x : List Obj × List Obj) (hx : Spec.Sound valid dflt x) (hq : Spec.Applies q x.2) (n : Nat)
    (hn : ∀ o ∈ x.1 ++ x.2, o.values.length = n) (hfill : ∀ i < n, Spec.result q x.2 i ≠ some (dflt (q.dtype (x.2.map Obj.isInt)))) :
    ∃ y f d, evalObjs repr version stamp files q x = some y ∧ save dflt y.1 y.2 = .ok f ∧
      createData valid true [f] (q.out.getD "calculated_variable") = .ok d ∧
      d.info.name = q.out.getD "calculated_variable" ∧ d.info.units = q.units.getD "unknown" ∧
      Spec.table (d.coords.map (fun c => c.2.values)) d.values = Spec.evaluated q x n := by
  obtain ⟨o, h1, h2, h3, h4, h5⟩ := eval_sound valid dflt repr version stamp files q x hx hq n hn hfill
  obtain ⟨f, d, e1, e2, e3, e4⟩ := read_points valid dflt (x.1, [o]) h2 o (by simp)
  refine ⟨_, f, d, h1, e1, by rw [← h3]; exact e2, by rw [e3, h3], by rw [e3, h4], ?_⟩
  rw [e4, h5]
  exact table_evaluated q x n

theorem result_select (q : Calc) (m : List Bool) (data : List Obj) (n : Nat) (hn : ∀ o ∈ data, o.values.length = n) (j : Nat)
    (hj : j < (Cis.Subset.select m (List.range n)).length) :
    Spec.result q (data.map (fun o => o.withValues (Cis.Subset.select m o.values))) j = Spec.result q data ((Cis.Subset.select m (List.range n))[j]) := by
  unfold Spec.result
  have : Spec.valueOf q.called (data.map (fun o => o.withValues (Cis.Subset.select m o.values))) j =
      Spec.valueOf q.called data ((Cis.Subset.select m (List.range n))[j]) := by
    funext s
    unfold Spec.valueOf
    rw [← List.map_reverse, List.find?_map]
    have e : ((fun o : Obj => decide (q.called o.info.name = s)) ∘ fun o : Obj => o.withValues (Cis.Subset.select m o.values)) =
        fun o : Obj => decide (q.called o.info.name = s) := rfl
    rw [e]
    cases hf : data.reverse.find? (fun o => q.called o.info.name = s) with
    | none => rfl
    | some o =>
      have hl := hn o (List.mem_reverse.1 (List.mem_of_find?_eq_some hf))
      simp only [Option.map_some, Option.bind_some, Obj.withValues]
      rw [select_as_map m o.values none, hl, List.getElem?_map, List.getElem?_eq_getElem hj, Option.map_some]
      have hmem : (Cis.Subset.select m (List.range n))[j] < n := List.mem_range.1 (select_sub _ m _ (List.getElem_mem hj))
      rw [List.getD_eq_getElem?_getD, List.getElem?_eq_getElem (by rw [hl]; exact hmem)]
      rfl
  rw [this]

/-- **C212.** `cis subset` and `cis eval` of what it wrote: the variable of the last file has exactly the points of the original data within the limits, with
the value of the expression at each. -/
theorem c212_subset_eval (valid : String → Bool) (dflt : Bool → ℚ) (repr : List String → String) (version : String) (stamp : String → String)
    (files : List String) (q : Calc) (x y : List Obj × List Obj) (hx : Spec.Sound valid dflt x) (hq : Spec.Applies q x.2) (n : Nat)
    (hn : ∀ o ∈ x.1 ++ x.2, o.values.length = n) (hfill : ∀ i < n, Spec.result q x.2 i ≠ some (dflt (q.dtype (x.2.map Obj.isInt))))
    (lon lat : Nat) (limits : List Cis.Subset.Limit) (hlim : ∀ l ∈ limits, l.coord < x.1.length)
    (hconv : ∀ l ∈ limits, l.coord = lon → Cis.Subset.newRange ((x.1.map (fun c => c.values.filterMap id)).getD lon []) l.start l.stop = none)
    (h1 : subsetObjs lon lat limits x.1 x.2 = some y) :
    ∃ f g d, save dflt x.1 x.2 = .ok f ∧
      (∀ g', Spec.ThroughFiles valid dflt [fun u => subsetObjs lon lat limits u.1 u.2, evalObjs repr version stamp files q] (Spec.names x) f g' ↔ g' = g) ∧
      createData valid true [g] (q.out.getD "calculated_variable") = .ok d ∧
      d.info.name = q.out.getD "calculated_variable" ∧ d.info.units = q.units.getD "unknown" ∧
      Spec.table (d.coords.map (fun c => c.2.values)) d.values = (Spec.evaluated q x n).filter (Spec.within limits) := by
  obtain ⟨hy, -, -⟩ := subset_sound valid dflt x y hx lon lat limits hlim hconv h1
  have hlc : ∀ c ∈ x.1, c.values.length = n := fun c hc => hn c (List.mem_append.2 (.inl hc))
  have hld : ∀ o ∈ x.2, o.values.length = n := fun c hc => hn c (List.mem_append.2 (.inr hc))
  obtain ⟨m, hml, hmw, hsub⟩ := subsetObjs_eq lon lat limits x.1 x.2 hx.good.some.2 n (fun c hc => (hx.good.std c hc).2.2) hlc hld hlim hconv
  rw [hsub] at h1
  have hyeq : y = (x.1.map (fun c => c.withValues (Cis.Subset.select m c.values)), x.2.map (fun o => o.withValues (Cis.Subset.select m o.values))) := by
    by_cases h0 : m.count true = 0
    · rw [if_pos h0] at h1; cases h1
    · rw [if_neg h0, Option.some.injEq] at h1
      exact h1.symm
  have h1' : subsetObjs lon lat limits x.1 x.2 = some y := by rw [hsub]; exact h1
  have hidx : (Cis.Subset.select m (List.range n)).length = m.count true := Cis.Subset.select_length m _ (by simp [hml])
  have hqy : Spec.Applies q y.2 := by
    refine ⟨hq.elementwise, hq.named, fun s hs => ?_, hq.text, hq.out⟩
    obtain ⟨o, ho, he⟩ := hq.known s hs
    rw [hyeq]
    exact ⟨_, List.mem_map.2 ⟨o, ho, rfl⟩, he⟩
  have hny : ∀ o ∈ y.1 ++ y.2, o.values.length = m.count true := by
    intro o ho
    rw [hyeq, ← List.map_append] at ho
    obtain ⟨o', ho', rfl⟩ := List.mem_map.1 ho
    exact Cis.Subset.select_length m _ (by rw [hml]; exact hn o' ho')
  have hres : ∀ (j : Nat) (hj : j < (Cis.Subset.select m (List.range n)).length),
      Spec.result q y.2 j = Spec.result q x.2 ((Cis.Subset.select m (List.range n))[j]) := by
    intro j hj
    rw [hyeq]
    exact result_select q m x.2 n hld j hj
  have hint : y.2.map Obj.isInt = x.2.map Obj.isInt := by
    rw [hyeq]
    simp only [List.map_map]
    rfl
  have hfy : ∀ i < m.count true, Spec.result q y.2 i ≠ some (dflt (q.dtype (y.2.map Obj.isInt))) := by
    intro i hi
    have hi' : i < (Cis.Subset.select m (List.range n)).length := by rw [hidx]; exact hi
    rw [hres i hi', hint]
    exact hfill _ (List.mem_range.1 (select_sub _ m _ (List.getElem_mem hi')))
  obtain ⟨o, k1, k2, k3, k4, k5⟩ := eval_sound valid dflt repr version stamp files q y hy hqy _ hny hfy
  obtain ⟨f, g, hf, hg, hiff⟩ := c211_analysis valid dflt [fun u => subsetObjs lon lat limits u.1 u.2, evalObjs repr version stamp files q]
    (by
      intro op hop
      simp only [List.mem_cons, List.not_mem_nil, or_false] at hop
      rcases hop with rfl | rfl
      · exact c211_subset_blind dflt lon lat _
      · exact c212_eval_blind dflt repr version stamp files q) x (y.1, [o])
    (.cons _ _ _ _ _ hx h1' (.cons _ _ _ _ _ hy k1 (.nil _ k2)))
  obtain ⟨g', d, e1, e2, e3, e4⟩ := read_points valid dflt (y.1, [o]) k2 o (by simp)
  simp only at hg e1
  rw [hg] at e1
  cases e1
  refine ⟨f, g, d, hf, hiff, by rw [← k3]; exact e2, by rw [e3, k3], by rw [e3, k4], ?_⟩
  rw [e4, k5]
  have hvals : (List.range (m.count true)).map (Spec.result q y.2) = Cis.Subset.select m ((List.range n).map (Spec.result q x.2)) := by
    rw [Cis.Evaluate.select_map']
    apply List.ext_getElem
    · simp [hidx]
    · intro i a b
      simp only [List.getElem_map, List.getElem_range]
      exact hres i (by simpa using b)
  have hco : y.1.map Obj.values = (x.1.map Obj.values).map (Cis.Subset.select m) := by
    rw [hyeq]; simp only [List.map_map]; rfl
  simp only
  rw [hvals, hco, table_select m _ _ (by
    intro c hc
    obtain ⟨c', hc', rfl⟩ := List.mem_map.1 hc
    simp [hlc c' hc']), table_evaluated]
  -- the mask is that of the points within the limits
  obtain ⟨o', ho'⟩ := List.exists_mem_of_ne_nil _ hx.good.some.2
  have hm : m = (Spec.evaluated q x n).map (Spec.within limits) := by
    rw [hmw o' ho']
    unfold Spec.table Spec.evaluated
    rw [hld o' ho', List.map_map, List.map_map]
    refine List.map_congr_left fun i _ => ?_
    simp [Spec.within, Function.comp_def]
  rw [hm, Cis.Subset.select_map]

/-- **C212.** The other way round, `cis eval` and `cis subset` of what it wrote: the variable of the last file has the same points with the same values. -/
theorem c212_eval_subset (valid : String → Bool) (dflt : Bool → ℚ) (repr : List String → String) (version : String) (stamp : String → String)
    (files : List String) (q : Calc) (x y : List Obj × List Obj) (hx : Spec.Sound valid dflt x) (hq : Spec.Applies q x.2) (n : Nat)
    (hn : ∀ o ∈ x.1 ++ x.2, o.values.length = n) (hfill : ∀ i < n, Spec.result q x.2 i ≠ some (dflt (q.dtype (x.2.map Obj.isInt))))
    (lon lat : Nat) (limits : List Cis.Subset.Limit) (hlim : ∀ l ∈ limits, l.coord < x.1.length)
    (hconv : ∀ l ∈ limits, l.coord = lon → Cis.Subset.newRange ((x.1.map (fun c => c.values.filterMap id)).getD lon []) l.start l.stop = none)
    (h1 : subsetObjs lon lat limits x.1 x.2 = some y) :
    ∃ f g d, save dflt x.1 x.2 = .ok f ∧
      (∀ g', Spec.ThroughFiles valid dflt [evalObjs repr version stamp files q, fun u => subsetObjs lon lat limits u.1 u.2] (Spec.names x) f g' ↔ g' = g) ∧
      createData valid true [g] (q.out.getD "calculated_variable") = .ok d ∧
      d.info.name = q.out.getD "calculated_variable" ∧ d.info.units = q.units.getD "unknown" ∧
      Spec.table (d.coords.map (fun c => c.2.values)) d.values = (Spec.evaluated q x n).filter (Spec.within limits) := by
  obtain ⟨o, k1, k2, k3, k4, k5⟩ := eval_sound valid dflt repr version stamp files q x hx hq n hn hfill
  obtain ⟨hnone, hsome⟩ := c157_subset_file valid dflt x.1 [o] k2.good o (by simp) (k2.std o (by simp)) lon lat limits hlim hconv
  have htab : Spec.table (x.1.map Obj.values) o.values = Spec.evaluated q x n := by rw [k5]; exact table_evaluated q x n
  cases hs : subsetObjs lon lat limits x.1 [o] with
  | none =>
    obtain ⟨o', ho'⟩ := List.exists_mem_of_ne_nil _ hx.good.some.2
    have := hnone.1 hs
    have hn' := (c157_subset_file valid dflt x.1 x.2 hx.good o' ho' (hx.std o' ho') lon lat limits hlim hconv).1.2 (by
      intro p hp
      have hlen : o'.values.length = o.values.length := by rw [k5]; simp [hn o' (List.mem_append.2 (.inr ho'))]
      obtain ⟨i, hi, rfl⟩ := List.mem_map.1 hp
      have := this (((x.1.map Obj.values).map (fun c => c.getD i none)), o.values.getD i none) (List.mem_map.2 ⟨i, by rw [← hlen]; exact hi, rfl⟩)
      simpa [Spec.within] using this)
    rw [h1] at hn'; cases hn'
  | some w =>
    obtain ⟨g, d, e1, -, e2, e3, -, e4⟩ := hsome w.1 w.2 hs
    obtain ⟨hw, -, -⟩ := subset_sound valid dflt (x.1, [o]) w k2 lon lat limits hlim hconv hs
    obtain ⟨f, g', hf, hg, hiff⟩ := c211_analysis valid dflt [evalObjs repr version stamp files q, fun u => subsetObjs lon lat limits u.1 u.2]
      (by
        intro op hop
        simp only [List.mem_cons, List.not_mem_nil, or_false] at hop
        rcases hop with rfl | rfl
        · exact c212_eval_blind dflt repr version stamp files q
        · exact c211_subset_blind dflt lon lat _) x w
      (.cons _ _ _ _ _ hx k1 (.cons _ _ _ _ _ k2 hs (.nil _ hw)))
    rw [hg] at e1
    cases e1
    exact ⟨f, _, d, hf, hiff, by rw [← k3]; exact e2, by rw [e3, k3], by rw [e3, k4], by rw [e4, htab]⟩

/-! The hypotheses are met: twice the temperature of the data at the end of `Pipeline.lean`; a missing value stays missing. -/

def exCalc : Calc where
  called := id
  e := .binary (fun a b => a.bind (fun u => b.map (fun v => u + v))) (.name "t") (.name "t")
  text := "t + t"
  out := some "t2"
  units := some "K"
  dtype := fun _ => false

example : Spec.Applies exCalc [exT3] where
  elementwise := ⟨trivial, trivial⟩
  named := by simp [exCalc, Cis.EvalCmd.Spec.names]
  known := by
    intro s hs
    simp only [exCalc, Cis.EvalCmd.Spec.names, List.cons_append, List.nil_append, List.mem_cons, List.not_mem_nil, or_false, or_self] at hs
    exact ⟨exT3, by simp, by rw [hs]; rfl⟩
  text := by rw [← Cis.Evaluate.hasDunder_string]; decide +kernel
  out := ⟨by decide, by decide⟩

example : (List.range 3).map (Spec.result exCalc [exT3]) = [some 560, some 580, none] ∧
    (Spec.evaluated exCalc ([exLat3, exLon3], [exT3]) 3).filter (Spec.within [⟨0, 15, 35⟩]) =
      [([some 20, some 5], some 580), ([some 30, some 9], none)] ∧
    (∀ i < 3, Spec.result exCalc [exT3] i ≠ some (defaultFill false)) ∧ (subsetObjs 1 0 [⟨0, 15, 35⟩] [exLat3, exLon3] [exT3]).isSome = true := by
  refine ⟨by decide +kernel, by decide +kernel, ?_, by decide +kernel⟩
  intro i hi
  interval_cases i <;> decide +kernel

end Cis.RoundTrip
