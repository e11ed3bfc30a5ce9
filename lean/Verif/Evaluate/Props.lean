import Verif.Evaluate.Model
import Mathlib.Data.List.Induction
set_option linter.unusedSectionVars false
set_option linter.unusedSimpArgs false
namespace Cis.Evaluate

variable {K V : Type}

/-- `t` occurs in `s`. -/
def Occurs (t s : String) : Prop := ∃ pre post, s = pre ++ t ++ post

theorem hasDunder_iff (l : List Char) : hasDunder l = true ↔ ∃ pre post, l = pre ++ '_' :: '_' :: post := by
  induction l with
  | nil => simp [hasDunder]
  | cons a r ih =>
    cases r with
    | nil => 
      simp only [hasDunder, Bool.false_eq_true, false_iff]
      rintro ⟨pre, post, h⟩
      cases pre with
      | nil => simp at h
      | cons x pre => simp at h
    | cons b r =>
      rw [hasDunder, Bool.or_eq_true, ih]
      constructor
      · rintro (h | ⟨pre, post, h⟩)
        · simp at h; exact ⟨[], r, by simp [h]⟩
        · exact ⟨a :: pre, post, by simp [h]⟩
      · rintro ⟨pre, post, h⟩
        cases pre with
        | nil => simp at h; left; simp [h]
        | cons x pre => simp at h; right; exact ⟨pre, post, h.2⟩

theorem hasDunder_string (s : String) : hasDunder s.toList = true ↔ Occurs "__" s := by
  rw [hasDunder_iff]
  constructor
  · rintro ⟨pre, post, h⟩
    refine ⟨String.ofList pre, String.ofList post, ?_⟩
    apply String.toList_inj.1
    simp [h]
  · rintro ⟨pre, post, rfl⟩
    exact ⟨pre.toList, post.toList, by simp⟩

theorem localsOf_append (data : List (Var K V)) (v : Var K V) (n : String) :
    localsOf (data ++ [v]) n = if n = v.aliasName then some (varArr v) else localsOf data n := by
  simp [localsOf]

theorem localsOf_none_iff (data : List (Var K V)) (n : String) : localsOf data n = none ↔ ∀ v ∈ data, v.aliasName ≠ n := by
  induction data using List.reverseRecOn with
  | nil => simp [localsOf]
  | append_singleton l a ih =>
    rw [localsOf_append]
    split
    · simp_all
    · simp_all; grind

/-- C48: an alias means the values of the last variable with this alias. -/
theorem c48_lookup_alias (data : List (Var K V)) (pre post : List (Var K V)) (v : Var K V) (h : data = pre ++ v :: post)
    (hl : ∀ w ∈ post, w.aliasName ≠ v.aliasName) : lookup data v.aliasName = some (.data (varArr v)) := by
  have : localsOf data v.aliasName = some (varArr v) := by
    subst h
    induction post using List.reverseRecOn with
    | nil => simp [localsOf_append]
    | append_singleton l a ih =>
      have e : pre ++ v :: (l ++ [a]) = (pre ++ v :: l) ++ [a] := by simp
      rw [e, localsOf_append, if_neg (fun hc => hl a (by simp) hc.symm)]
      exact ih (fun w hw => hl w (by simp [hw]))
  simp [lookup, this]

/-- The functions of Python that an expression can use. -/
def Spec.functions : List String := ["abs", "all", "any", "bool", "divmod", "enumerate", "filter", "int", "len", "map", "max", "min", "pow", "range",
  "reversed", "round", "sorted", "sum", "zip"]

/-- C48: the names known to an expression are the aliases, `numpy` and the listed functions - and the dictionary of these functions
under a name no accepted expression can contain. -/
theorem c48_names (data : List (Var K V)) (n : String) :
    lookup data n ≠ none ↔ (∃ v ∈ data, v.aliasName = n) ∨ n = "numpy" ∨ n ∈ Spec.functions ∨ n = "__builtins__" := by
  rw [show Spec.functions = safeBuiltins from rfl]
  unfold lookup
  cases h : localsOf data n with
  | some a =>
    have : ¬ ∀ v ∈ data, v.aliasName ≠ n := by rw [← localsOf_none_iff, h]; simp
    push Not at this
    simp; left; exact this
  | none =>
    rw [localsOf_none_iff] at h
    have h2 : ¬ ∃ v ∈ data, v.aliasName = n := by push Not; exact h
    simp only [safeModules, List.mem_singleton]
    by_cases h1 : n = "numpy"
    · simp [h1]
    · by_cases h3 : n = "__builtins__"
      · simp [h3]
      · by_cases h4 : n ∈ safeBuiltins <;> simp [h1, h3, h4, h2]

/-- The functions of Python that the documentation lists for expressions (doc/evaluation.rst:95-98). -/
def Spec.documented : List String := ["abs", "all", "any", "bool", "cmp", "divmod", "enumerate", "filter", "int", "len", "map", "max", "min", "pow", "range",
  "reduce", "reversed", "round", "sorted", "sum", "xrange", "zip"]

/-- C190 violated: of the functions listed in the documentation `cmp`, `reduce` and `xrange` are unknown to every expression over data without these
aliases; all the others are known to every expression. -/
theorem c190_documented_violated (data : List (Var K V)) (n : String) (hn : n ∈ Spec.documented) (hd : ∀ v ∈ data, v.aliasName ≠ n) :
    lookup data n = none ↔ n = "cmp" ∨ n = "reduce" ∨ n = "xrange" := by
  have h := c48_names data n
  have h2 : ¬ ∃ v ∈ data, v.aliasName = n := by push Not; exact hd
  rw [← not_iff_not, ← Ne, h]
  simp only [Spec.documented, List.mem_cons, List.not_mem_nil, or_false] at hn
  simp only [h2, false_or]
  rcases hn with rfl | rfl | rfl | rfl | rfl | rfl | rfl | rfl | rfl | rfl | rfl | rfl | rfl | rfl | rfl | rfl | rfl | rfl | rfl | rfl | rfl | rfl <;> decide

/-- C48: of two evaluators that agree on this expression and these names, the results are the same: nothing else is given to the
expression. Together with `c48_names`: whatever does not occur among these names has no influence. -/
theorem c48_only_names (repr : List String → String) (version : String) (e1 e2 : String → (String → Option (Binding V)) → Outcome V)
    (data : List (Var K V)) (expr : String) (o u : Option String) (at' : Option (List (String × String)))
    (h : e1 expr (lookup data) = e2 expr (lookup data)) :
    evaluate repr version e1 data expr o u at' = evaluate repr version e2 data expr o u at' := by
  unfold evaluate; rw [h]

/-- C48: an expression with two consecutive underscores is refused without being evaluated: whatever `eval` would do. -/
theorem c48_dunder (repr : List String → String) (version : String) (e : String → (String → Option (Binding V)) → Outcome V)
    (data : List (Var K V)) (expr : String) (o u : Option String) (at' : Option (List (String × String))) (h : Occurs "__" expr) :
    evaluate repr version e data expr o u at' = (data, .error .evaluation) := by
  unfold evaluate; rw [if_pos ((hasDunder_string _).2 h)]

/-- The names occurring in an accepted expression do not include the dictionary of functions. -/
theorem c48_no_builtins_name (n expr : String) (h : ¬ Occurs "__" expr) (hn : Occurs n expr) : n ≠ "__builtins__" := by
  rintro rfl
  obtain ⟨p, q, rfl⟩ := hn
  exact h ⟨p, "builtins__" ++ q, by
    apply String.toList_inj.1
    simp [String.toList_append]⟩

/-- The shape results must have: that of the first variable, flattened for ungridded data. -/
def SampleShape (s : Var K V) (sh : List Nat) : Prop := (s.gridded = true ∧ sh = s.shape) ∨ (s.gridded = false ∧ s.shape ≠ [] ∧ sh = [s.shape.prod])

/-- C48: when the evaluation succeeds, and with what. -/
theorem c48_ok_iff (repr : List String → String) (version : String) (e : String → (String → Option (Binding V)) → Outcome V)
    (data : List (Var K V)) (expr : String) (o u : Option String) (at' : Option (List (String × String))) (r : Result K V) :
    (evaluate repr version e data expr o u at').2 = .ok r ↔
      ¬ Occurs "__" expr ∧ ∃ s rest a, data = s :: rest ∧ e expr (lookup data) = .array a ∧ SampleShape s a.shape ∧
        r.varName = o.getD "calculated_variable" ∧ r.units = u.getD "unknown" ∧ r.attrs = at'.getD [] ∧ r.gridded = s.gridded ∧
        r.shape = a.shape ∧ r.vals = a.vals ∧ r.coords = newCoords s ∧
        r.longName = "Calculated value for expression \"" ++ expr ++ "\"" ∧ r.history = makeHistory repr version data expr := by
  rw [← hasDunder_string]
  unfold evaluate
  by_cases hd : hasDunder expr.toList = true
  · simp [hd]
  · rw [if_neg hd]
    cases he : e expr (lookup data) with
    | nameError => simp
    | valueError => simp
    | otherError => simp
    | scalar => cases data <;> simp; split <;> simp
    | array a =>
      cases data with
      | nil => simp
      | cons s rest =>
        simp only [hd, List.cons.injEq, Outcome.array.injEq]
        unfold SampleShape
        by_cases h1 : s.gridded = false ∧ s.shape = []
        · rw [if_pos h1]; simp; grind
        · rw [if_neg h1]
          by_cases h2 : (if s.gridded then s.shape else [s.shape.prod]) = a.shape
          · rw [if_pos h2]
            simp only [Except.ok.injEq]
            constructor
            · rintro rfl
              refine ⟨by simp, s, rest, a, ⟨rfl, rfl⟩, rfl, ?_, by simp⟩
              cases hg : s.gridded <;> simp_all
            · rintro ⟨-, s', rest', a', ⟨rfl, rfl⟩, rfl, -, h3⟩
              cases r; simp_all
          · rw [if_neg h2]
            simp only [reduceCtorEq, false_iff]
            rintro ⟨-, s', rest', a', ⟨rfl, rfl⟩, rfl, h3, -⟩
            cases hg : s.gridded <;> simp_all

/-- C48: the coordinates of the result are those of the first variable: same names and values, in the same order. -/
theorem c48_coords (s : Var K V) : (newCoords s).map (fun c => (c.name, c.vals)) = s.coords.map (fun c => (c.name, c.vals)) := by
  unfold newCoords; split <;> simp [Function.comp_def]

/-- C48: the values, names and aliases of the variables are not changed. -/
theorem c48_inputs_kept (repr : List String → String) (version : String) (e : String → (String → Option (Binding V)) → Outcome V)
    (data : List (Var K V)) (expr : String) (o u : Option String) (at' : Option (List (String × String))) :
    (evaluate repr version e data expr o u at').1.map (fun v => (v.aliasName, v.varName, v.shape, v.vals, v.coords.map (fun c => (c.name, c.vals)))) =
      data.map (fun v => (v.aliasName, v.varName, v.shape, v.vals, v.coords.map (fun c => (c.name, c.vals)))) := by
  unfold evaluate
  by_cases hd : hasDunder expr.toList = true
  · simp [hd]
  · rw [if_neg hd]
    cases he : e expr (lookup data) <;> cases data <;> simp <;> grind [sampleAfter, c48_coords]

/-- C48, violated: evaluating on ungridded data with more than one dimension overwrites the recorded shape of the coordinates of the
first variable - always when it succeeds. -/
theorem c48_coord_shape_violated (repr : List String → String) (version : String) (e : String → (String → Option (Binding V)) → Outcome V)
    (s : Var K V) (rest : List (Var K V)) (expr : String) (o u : Option String) (at' : Option (List (String × String))) (r : Result K V)
    (hg : s.gridded = false) (c : Coord K) (hc : c ∈ s.coords) (h2 : c.metaShape.length = 2)
    (h : (evaluate repr version e (s :: rest) expr o u at').2 = .ok r) :
    (evaluate repr version e (s :: rest) expr o u at').1 ≠ s :: rest := by
  have hs : (evaluate repr version e (s :: rest) expr o u at').1 = sampleAfter s :: rest := by
    unfold evaluate at *
    by_cases hd : hasDunder expr.toList = true
    · simp [hd] at h
    · rw [if_neg hd] at h ⊢
      cases he : e expr (lookup (s :: rest)) <;> simp only [he] at h ⊢ <;> grind
  rw [hs]
  simp only [ne_eq, List.cons.injEq, and_true]
  intro hcon
  have h3 : (newCoords s) = s.coords := by rw [← hcon]; simp [sampleAfter, newCoords, hg]
  have h4 : ∀ c' ∈ newCoords s, c'.metaShape.length = 1 := by
    simp only [newCoords, hg, Bool.false_eq_true, if_false, List.mem_map]
    rintro c' ⟨d, -, rfl⟩; simp
  rw [h3] at h4
  have := h4 c hc
  omega

/-- Otherwise the variables are left exactly as they were. -/
theorem c48_unchanged (repr : List String → String) (version : String) (e : String → (String → Option (Binding V)) → Outcome V)
    (data : List (Var K V)) (expr : String) (o u : Option String) (at' : Option (List (String × String)))
    (h : ∀ v ∈ data, v.gridded = true ∨ ∀ c ∈ v.coords, c.metaShape = [c.vals.length]) :
    (evaluate repr version e data expr o u at').1 = data := by
  have hs : ∀ v ∈ data, sampleAfter v = v := by
    intro v hv
    unfold sampleAfter newCoords
    rcases h v hv with hg | hg
    · cases v; simp_all
    · have : v.coords.map (fun c => { c with metaShape := [c.vals.length] }) = v.coords := by
        conv_rhs => rw [← List.map_id v.coords]
        apply List.map_congr_left
        intro c hc
        have := hg c hc
        cases c; simp_all
      split <;> simp [this]
  unfold evaluate
  by_cases hd : hasDunder expr.toList = true
  · simp [hd]
  · rw [if_neg hd]
    cases he : e expr (lookup data) <;> cases data <;> simp <;> grind

theorem occurs_append_left {t a : String} (b : String) (h : Occurs t a) : Occurs t (a ++ b) := by
  obtain ⟨p, q, rfl⟩ := h; exact ⟨p, q ++ b, by simp [String.append_assoc]⟩
theorem occurs_append_right {t b : String} (a : String) (h : Occurs t b) : Occurs t (a ++ b) := by
  obtain ⟨p, q, rfl⟩ := h; exact ⟨a ++ p, q, by simp [String.append_assoc]⟩
theorem occurs_self (t : String) : Occurs t t := ⟨"", "", by simp⟩

theorem occurs_join (sep t : String) (l : List String) (h : t ∈ l) : Occurs t (joinWith sep l) := by
  induction l with
  | nil => simp at h
  | cons a r ih =>
    cases r with
    | nil => simp at h; subst h; exact occurs_self _
    | cons b r =>
      rw [joinWith]
      rcases List.mem_cons.1 h with rfl | h
      · exact occurs_append_left _ (occurs_append_left _ (occurs_self _))
      · exact occurs_append_right _ (ih h)

theorem history_expr (repr : List String → String) (version : String) (data : List (Var K V)) (expr : String) :
    Occurs expr (makeHistory repr version data expr) := by
  unfold makeHistory
  apply occurs_append_left
  apply occurs_append_left
  apply occurs_append_left
  apply occurs_append_right
  exact occurs_self _

theorem history_var (repr : List String → String) (version : String) (data : List (Var K V)) (expr : String) (v : Var K V) (hv : v ∈ data) :
    Occurs (varInfo repr v) (makeHistory repr version data expr) := by
  unfold makeHistory
  apply occurs_append_left
  apply occurs_append_right
  exact occurs_join _ _ _ (List.mem_map.2 ⟨v, hv, rfl⟩)

/-- C48: the history of the result tells the expression and, for every variable, its name, its files and its alias if it has one. -/
theorem c48_history (repr : List String → String) (version : String) (data : List (Var K V)) (expr : String) :
    Occurs expr (makeHistory repr version data expr) ∧
    ∀ v ∈ data, Occurs ("'" ++ v.varName ++ "'" ++ (if v.aliasName ≠ v.varName then " (as '" ++ v.aliasName ++ "')" else "") ++ " from files " ++
      repr v.files) (makeHistory repr version data expr) :=
  ⟨history_expr repr version data expr, fun v hv => history_var repr version data expr v hv⟩

/-! ### Example -/

/-- Two ungridded `2 × 2` variables. -/
def exData : List (Var Nat Nat) :=
  [⟨"a", "a", ["f.nc"], false, [2, 2], [1, 2, 3, 4], [⟨"latitude", [0, 1, 2, 3], [2, 2]⟩]⟩,
   ⟨"b", "od550", ["g.nc"], false, [2, 2], [5, 6, 7, 8], [⟨"latitude", [0, 1, 2, 3], [2, 2]⟩]⟩]

/-- An evaluator that adds `a` and `b` when told to. -/
def exEval (s : String) (env : String → Option (Binding Nat)) : Outcome Nat :=
  if s = "a + b" then
    match env "a", env "b" with
    | some (.data x), some (.data y) => .array ⟨x.shape, List.zipWith (· + ·) x.vals y.vals⟩
    | _, _ => .nameError
  else .otherError

example : (evaluate (fun _ => "") "1" exEval exData "a + b" none none none).2.toOption.map Result.vals = some [6, 8, 10, 12] ∧
    (evaluate (fun _ => "") "1" exEval exData "a + b" none none none).1 ≠ exData ∧ Occurs "__" "a.__class__" ∧
    lookup exData "open" = none ∧ lookup exData "sum" ≠ none := by
  refine ⟨by decide +kernel, by decide +kernel, ⟨"a.", "class__", by decide⟩, by decide +kernel, by decide +kernel⟩

end Cis.Evaluate
