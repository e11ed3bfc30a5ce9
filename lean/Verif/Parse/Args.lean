import Verif.Read.Reader
import Verif.Str.Basic
set_option linter.unusedSectionVars false
set_option linter.unusedSimpArgs false
/-!
Values of command line arguments. Model of `convert_to_list_of_floats` (cis/parse.py:752-754), `_create_attributes_dictionary`
(parse.py:855-870), the dimensions of `validate_collapse_args` (parse.py:926-932), the number of variables in `validate_stats_args`
(parse.py:949-958) with what `stats_cmd` then reads (cis_main.py:189-200, data_reader.py:131-160), and `check_aggregate_kernel`
(parse.py:362-372) with what the kernels are used for (gridded_data.py:630-640, col_framework.py:274-288). Property C111.
-/
namespace Cis.Args
open Cis.Str

/-- `convert_to_list_of_floats` (parse.py:752-754); `float` is Python's, `none` is ValueError. `arg[1:-1]` is the text without its first and
last characters. -/
def levels (float : Str → Option ℚ) (arg : Str) : Option (List ℚ) := (splitChar ',' (arg.drop 1).dropLast).mapM float

/-- Assignment to a key of a dictionary. -/
def dset (d : List (Str × Str)) (k v : Str) : List (Str × Str) :=
  if d.any (fun e => e.1 == k) then d.map (fun e => if e.1 == k then (k, v) else e) else d ++ [(k, v)]

/-- One pair (parse.py:863-866). -/
def pairOf (s : Str) : Option (Str × Str) :=
  match splitChar '=' s with
  | [k, v] => if k = [] ∨ v = [] then none else some (k, v)
  | _ => none

/-- The loop over the pairs (parse.py:861-869); `none` is `parser.error`. -/
def attrLoop : List Str → List (Str × Str) → Option (List (Str × Str))
  | [], d => some d
  | p :: t, d =>
    match pairOf p with
    | none => none
    | some (k, v) => attrLoop t (dset d k v)

/-- `_create_attributes_dictionary` for a given text (parse.py:855-870). -/
def attributes (s : Str) : Option (List (Str × Str)) := attrLoop (splitChar ',' s) []

/-- The dimensions to collapse (parse.py:929-930). -/
def dimensions (args : List Str) : List Str :=
  match args with
  | [a] => splitChar ',' a
  | _ => args

/-- `validate_stats_args` (parse.py:949-956): the variables of all datagroups, patterns not expanded. -/
def statsAccepts (groups : List (List Str)) : Bool := (groups.map List.length).sum == 2

/-- What `stats_cmd` gives to the analyzer (cis_main.py:197-199): the variables read from all datagroups; each group comes with the variables
of its files. -/
def statsReads : List (List Str × List Str) → Except Reader.Err (List Str)
  | [] => .ok []
  | (fileVars, vars) :: t =>
    match Reader.expandWildcards fileVars vars with
    | .error e => .error e
    | .ok l => match statsReads t with
      | .error e => .error e
      | .ok r => .ok (l ++ r)

/-- Kernels for collapsing gridded data, the keys of `aggregation_kernels` (collapse_kernels.py:75-84). -/
def collapseKernels : List String := ["sum", "median", "gmean", "hmean", "peak", "RMS", "mean", "min", "max", "moments"]

/-- The kernel classes of `cis.collocation.col_implementations` (col_implementations.py:365-580, 750-762). -/
def colKernels : List String := ["mean", "stddev", "min", "max", "sum", "moments", "nn_horizontal", "nn_horizontal_only", "nn_altitude",
  "nn_pressure", "nn_time", "nn_h", "nn_a", "nn_p", "nn_t", "gridded_gridded_nn", "gridded_gridded_li"]

/-- `check_aggregate_kernel` (parse.py:362-372); `plugins` are the kernels of plugins. -/
def kernelAccepted (plugins : List String) (name : String) : Bool := name ∈ collapseKernels || name ∈ colKernels ++ plugins

/-- Whether the kernel exists for the data: `aggregation_kernels[kernel]` for gridded (gridded_data.py:634-635, else KeyError), `get_kernel` for
ungridded data (col_framework.py:274-288, else ValueError). -/
def kernelFound (plugins : List String) (gridded : Bool) (name : String) : Bool :=
  if gridded then name ∈ collapseKernels else name ∈ colKernels ++ plugins

/-! ## Specification -/

/-- A key and a value that can be written `key=value`. -/
def Spec.Writable (p : Str × Str) : Prop := p.1 ≠ [] ∧ p.2 ≠ [] ∧ '=' ∉ p.1 ∧ '=' ∉ p.2 ∧ ',' ∉ p.1 ∧ ',' ∉ p.2

/-- `key1=value1,key2=value2,...` -/
def Spec.write (l : List (Str × Str)) : Str := join ',' (l.map (fun p => p.1 ++ '=' :: p.2))

/-! ## Proofs -/

/-- C111, levels: a list of numbers in brackets is read as these numbers. -/
theorem c111_levels (float : Str → Option ℚ) (fields : List Str) (hne : fields ≠ []) (hc : ∀ f ∈ fields, ',' ∉ f) :
    levels float ('[' :: join ',' fields ++ [']']) = fields.mapM float := by
  unfold levels
  rw [List.cons_append, List.drop_one, List.tail_cons, List.dropLast_concat, splitChar_join ',' fields hne hc]

/-- C111 violated, levels: without brackets the first and the last character are dropped, whatever they are, and what remains is read. -/
theorem c111_levels_violated (float : Str → Option ℚ) (a b : Char) (s : Str) :
    levels float (a :: s ++ [b]) = levels float ('[' :: s ++ [']']) := by
  unfold levels
  simp

/-- The level 1234 becomes 23. -/
example : levels (fun s => (pyInt s).map (fun n => (n : ℚ))) "1234".toList = some [23] := by decide +kernel

theorem pairOf_iff (s : Str) (k v : Str) : pairOf s = some (k, v) ↔ s = k ++ '=' :: v ∧ k ≠ [] ∧ v ≠ [] ∧ '=' ∉ k ∧ '=' ∉ v := by
  constructor
  · intro h
    unfold pairOf at h
    split at h
    · rename_i a b e
      split at h
      · cases h
      · rename_i hn
        cases h
        have hj := join_splitChar '=' s
        have hm := splitChar_not_mem '=' s
        rw [e] at hj hm
        push Not at hn
        refine ⟨?_, hn.1, hn.2, hm k (by simp), hm v (by simp)⟩
        rw [← hj]
        rfl
    · cases h
  · rintro ⟨rfl, h1, h2, h3, h4⟩
    unfold pairOf
    rw [splitChar_append '=' k v h3, splitChar_single '=' v h4]
    simp [h1, h2]

theorem attrLoop_iff (l : List Str) : ∀ (d d' : List (Str × Str)), attrLoop l d = some d' ↔
    ∃ ps : List (Str × Str), l = ps.map (fun p => p.1 ++ '=' :: p.2) ∧ (∀ p ∈ ps, p.1 ≠ [] ∧ p.2 ≠ [] ∧ '=' ∉ p.1 ∧ '=' ∉ p.2) ∧
      d' = ps.foldl (fun d p => dset d p.1 p.2) d := by
  induction l with
  | nil =>
    intro d d'
    constructor
    · intro h; cases h; exact ⟨[], rfl, by simp, rfl⟩
    · rintro ⟨ps, h1, -, h3⟩
      have : ps = [] := by simpa using h1.symm
      subst this
      rw [h3]; rfl
  | cons s l ih =>
    intro d d'
    constructor
    · intro h
      unfold attrLoop at h
      cases hp : pairOf s with
      | none => rw [hp] at h; cases h
      | some kv =>
        obtain ⟨k, v⟩ := kv
        rw [hp] at h
        obtain ⟨ps, h1, h2, h3⟩ := (ih _ _).1 h
        obtain ⟨e1, e2⟩ := (pairOf_iff s k v).1 hp
        refine ⟨(k, v) :: ps, by rw [h1, e1]; rfl, ?_, h3⟩
        intro p hpm
        rcases List.mem_cons.1 hpm with rfl | hpm
        · exact e2
        · exact h2 p hpm
    · rintro ⟨ps, h1, h2, h3⟩
      cases ps with
      | nil => cases h1
      | cons p ps =>
        rw [List.map_cons, List.cons.injEq] at h1
        unfold attrLoop
        rw [(pairOf_iff s p.1 p.2).2 ⟨h1.1, h2 p List.mem_cons_self⟩]
        exact (ih _ _).2 ⟨ps, h1.2, fun q hq => h2 q (List.mem_cons_of_mem _ hq), h3⟩

/-- C111, attributes: accepted are exactly the texts `key=value,...` of writable keys and values, and they are put into the dictionary in this
order. -/
theorem c111_attributes (s : Str) (d : List (Str × Str)) :
    attributes s = some d ↔ ∃ ps : List (Str × Str), ps ≠ [] ∧ (∀ p ∈ ps, Spec.Writable p) ∧ s = Spec.write ps ∧
      d = ps.foldl (fun d p => dset d p.1 p.2) [] := by
  unfold attributes
  rw [attrLoop_iff]
  constructor
  · rintro ⟨ps, h1, h2, h3⟩
    have hne : ps ≠ [] := by
      rintro rfl
      exact splitChar_ne_nil ',' s h1
    have hm := splitChar_not_mem ',' s
    rw [h1] at hm
    refine ⟨ps, hne, ?_, ?_, h3⟩
    · intro p hp
      obtain ⟨a, b, c, e⟩ := h2 p hp
      have := hm _ (List.mem_map.2 ⟨p, hp, rfl⟩)
      rw [List.mem_append, List.mem_cons, not_or, not_or] at this
      exact ⟨a, b, c, e, this.1, this.2.2⟩
    · unfold Spec.write
      rw [← h1, join_splitChar]
  · rintro ⟨ps, hne, hw, rfl, h3⟩
    refine ⟨ps, ?_, fun p hp => ⟨(hw p hp).1, (hw p hp).2.1, (hw p hp).2.2.1, (hw p hp).2.2.2.1⟩, h3⟩
    unfold Spec.write
    rw [splitChar_join]
    · simpa using hne
    · intro f hf
      obtain ⟨p, hp, rfl⟩ := List.mem_map.1 hf
      obtain ⟨_, _, _, _, h5, h6⟩ := hw p hp
      rw [List.mem_append, List.mem_cons, not_or, not_or]
      exact ⟨h5, by decide, h6⟩

theorem lookup_cons_ite (a b k : Str) (d : List (Str × Str)) : ((a, b) :: d).lookup k = if k = a then some b else d.lookup k := by
  rw [List.lookup_cons]
  by_cases h : k = a
  · subst h; simp
  · have : (k == a) = false := by simpa using h
    rw [this, if_neg h]

theorem dset_lookup (d : List (Str × Str)) (k v k' : Str) : (dset d k v).lookup k' = if k' = k then some v else d.lookup k' := by
  unfold dset
  have key : ∀ d : List (Str × Str), (d.map (fun e => if e.1 == k then (k, v) else e)).lookup k' =
      if k' = k then (if d.any (fun e => e.1 == k) then some v else none) else d.lookup k' := by
    intro d
    induction d with
    | nil => simp
    | cons e d ih =>
      obtain ⟨a, b⟩ := e
      rw [List.map_cons]
      by_cases ha : a = k
      · subst ha
        have e1 : (if ((a, b) : Str × Str).1 == a then (a, v) else (a, b)) = (a, v) := by simp
        rw [e1, lookup_cons_ite, lookup_cons_ite, ih]
        by_cases h : k' = a
        · simp [h]
        · simp [h]
      · have e0 : (a == k) = false := by simpa using ha
        have e1 : (if ((a, b) : Str × Str).1 == k then (k, v) else (a, b)) = (a, b) := by simp [e0]
        rw [e1, lookup_cons_ite, lookup_cons_ite, ih, List.any_cons]
        by_cases h : k' = k
        · subst h
          have h' : ¬ k' = a := fun e => ha e.symm
          rw [e0, Bool.false_or]; simp [h']
        · simp [h]
  split
  · rename_i h
    rw [key, h]
    simp
  · rename_i h
    have happ : ∀ d : List (Str × Str), ¬ (d.any (fun e => e.1 == k)) = true → (d ++ [(k, v)]).lookup k' = if k' = k then some v else d.lookup k' := by
      intro d
      induction d with
      | nil =>
        intro _
        rw [List.nil_append, lookup_cons_ite]
      | cons e d ih =>
        intro hd
        obtain ⟨a, b⟩ := e
        simp only [List.any_cons, Bool.or_eq_true, not_or, beq_iff_eq] at hd
        rw [List.cons_append, lookup_cons_ite, lookup_cons_ite, ih hd.2]
        by_cases hb : k' = a
        · subst hb; simp [hd.1]
        · simp [hb]
    exact happ d h

/-- C111, attributes: each key has the value that was given for it last. -/
theorem c111_attributes_value (ps : List (Str × Str)) (hne : ps ≠ []) (hw : ∀ p ∈ ps, Spec.Writable p) (k : Str) :
    ∃ d, attributes (Spec.write ps) = some d ∧ d.lookup k = ps.reverse.lookup k := by
  refine ⟨_, (c111_attributes _ _).2 ⟨ps, hne, hw, rfl, rfl⟩, ?_⟩
  have : ∀ (ps d : List (Str × Str)), (ps.foldl (fun d p => dset d p.1 p.2) d).lookup k = (ps.reverse.lookup k).or (d.lookup k) := by
    intro ps
    induction ps with
    | nil => intro d; simp
    | cons p ps ih =>
      intro d
      rw [List.foldl_cons, ih, List.reverse_cons, List.lookup_append, dset_lookup]
      cases h : ps.reverse.lookup k with
      | some x => simp
      | none =>
        obtain ⟨a, b⟩ := p
        rw [lookup_cons_ite]
        by_cases e : k = a
        · simp [e]
        · simp [e]
  rw [this]
  simp

/-- C111 violated, attributes: of two values for one key the first is lost without a message. -/
theorem c111_attributes_violated (k v w : Str) (hv : Spec.Writable (k, v)) (hw : Spec.Writable (k, w)) :
    attributes (Spec.write [(k, v), (k, w)]) = some [(k, w)] := by
  rw [c111_attributes]
  refine ⟨_, by simp, ?_, rfl, ?_⟩
  · intro p hp
    rcases List.mem_cons.1 hp with rfl | hp
    · exact hv
    · rw [List.mem_singleton] at hp; subst hp; exact hw
  · simp [dset]

example : Spec.Writable ("title".toList, "a b".toList) := by unfold Spec.Writable; decide
example : attributes "title=a,author=me,title=b".toList = some [("title".toList, "b".toList), ("author".toList, "me".toList)] := by decide

/-- C111, dimensions: names given one by one, or in one argument separated by commas. -/
theorem c111_dimensions (ds : List Str) (hne : ds ≠ []) (hc : ∀ d ∈ ds, ',' ∉ d) :
    dimensions ds = ds ∧ dimensions [join ',' ds] = ds := by
  refine ⟨?_, splitChar_join ',' ds hne hc⟩
  match ds, hc with
  | [], _ => rfl
  | [a], hc => exact splitChar_single ',' a (hc a (by simp))
  | _ :: _ :: _, _ => rfl

/-- C111 violated, dimensions: among several arguments one with commas is taken for the name of one dimension. -/
theorem c111_dimensions_violated (a b d : Str) : dimensions [join ',' [a, b], d] ≠ [a, b, d] := by
  intro h
  have := congrArg List.length h
  simp [dimensions] at this

theorem reads_plain : ∀ (groups : List (List Str × List Str)), (∀ g ∈ groups, g.2 ≠ [] ∧ ∀ v ∈ g.2, FileList.hasWildcard v = false) →
    statsReads groups = .ok (groups.flatMap Prod.snd) := by
  intro groups
  induction groups with
  | nil => intro _; rfl
  | cons g t ih =>
    intro h
    obtain ⟨fv, vs⟩ := g
    obtain ⟨h1, h2⟩ := h _ List.mem_cons_self
    simp only at h1 h2
    have e : Reader.expandWildcards fv vs = .ok vs := by
      have : vs.flatMap (fun v => if FileList.hasWildcard v = true then fv.filter (Reader.fnmatch v) else [v]) = vs := by
        clear h1 h
        induction vs with
        | nil => rfl
        | cons v vs ihv =>
          rw [List.flatMap_cons, h2 v List.mem_cons_self]
          rw [ihv (fun w hw => h2 w (List.mem_cons_of_mem _ hw))]
          simp
      unfold Reader.expandWildcards
      simp only
      rw [this, if_neg]
      simpa using h1
    unfold statsReads
    rw [e]
    simp only
    rw [ih (fun g hg => h g (List.mem_cons_of_mem _ hg))]
    rfl

/-- C111, statistics: for names without wildcards, the command is accepted exactly if two variables are read. -/
theorem c111_stats (groups : List (List Str × List Str)) (h : ∀ g ∈ groups, g.2 ≠ [] ∧ ∀ v ∈ g.2, FileList.hasWildcard v = false) :
    ∃ l, statsReads groups = .ok l ∧ (statsAccepts (groups.map Prod.snd) = true ↔ l.length = 2) := by
  refine ⟨_, reads_plain groups h, ?_⟩
  unfold statsAccepts
  rw [List.length_flatMap, List.map_map]
  simp [Function.comp_def]

example : ∀ g ∈ [(["a".toList, "b".toList], ["a".toList]), (["c".toList], ["c".toList])], g.2 ≠ [] ∧ ∀ v ∈ g.2, FileList.hasWildcard v = false := by
  decide

/-- C111 violated, statistics: a pattern that stands for exactly the two variables of the file is refused. -/
theorem c111_stats_refused_violated :
    statsAccepts [["*".toList]] = false ∧ statsReads [(["a".toList, "b".toList], ["*".toList])] = .ok ["a".toList, "b".toList] := by
  decide

/-- C111 violated, statistics: two entries are accepted although three variables are read, which the comparison cannot take. -/
theorem c111_stats_accepted_violated :
    statsAccepts [["*".toList, "a".toList]] = true ∧
      statsReads [(["a".toList, "b".toList], ["*".toList, "a".toList])] = .ok ["a".toList, "b".toList, "a".toList] := by
  decide

/-- C111, kernels: a kernel that exists for the data is accepted. -/
theorem c111_kernel (plugins : List String) (gridded : Bool) (name : String) (h : kernelFound plugins gridded name = true) :
    kernelAccepted plugins name = true := by
  unfold kernelFound at h
  unfold kernelAccepted
  cases gridded with
  | true => simp only [if_true] at h; rw [h]; rfl
  | false => simp only [if_false, Bool.false_eq_true] at h; rw [h, Bool.or_true]

/-- C111 violated, kernels: exactly these names are accepted for `aggregate` although no kernel of that name exists for ungridded data. -/
theorem c111_kernel_ungridded_violated (name : String) :
    (kernelAccepted [] name = true ∧ kernelFound [] false name = false) ↔ name ∈ ["median", "gmean", "hmean", "peak", "RMS"] := by
  constructor
  · rintro ⟨h1, h2⟩
    simp only [kernelFound, Bool.false_eq_true, if_false] at h2
    simp only [kernelAccepted, h2, Bool.or_false, decide_eq_true_eq] at h1
    have h3 : name ∉ colKernels ++ [] := of_decide_eq_false h2
    simp only [collapseKernels, List.mem_cons, List.not_mem_nil, or_false] at h1
    rcases h1 with rfl | rfl | rfl | rfl | rfl | rfl | rfl | rfl | rfl | rfl <;> first | exact absurd (by decide) h3 | decide
  · intro h
    simp only [List.mem_cons, List.not_mem_nil, or_false] at h
    rcases h with rfl | rfl | rfl | rfl | rfl <;> decide

/-- C111 violated, kernels: and these for gridded data (`KeyError`). -/
theorem c111_kernel_gridded_violated (name : String) :
    (kernelAccepted [] name = true ∧ kernelFound [] true name = false) ↔
      name ∈ ["stddev", "nn_horizontal", "nn_horizontal_only", "nn_altitude", "nn_pressure", "nn_time", "nn_h", "nn_a", "nn_p",
        "nn_t", "gridded_gridded_nn", "gridded_gridded_li"] := by
  constructor
  · rintro ⟨h1, h2⟩
    simp only [kernelFound, if_true] at h2
    simp only [kernelAccepted, h2, Bool.false_or, decide_eq_true_eq, List.append_nil] at h1
    have h3 : name ∉ collapseKernels := of_decide_eq_false h2
    simp only [colKernels, List.mem_cons, List.not_mem_nil, or_false] at h1
    rcases h1 with rfl | rfl | rfl | rfl | rfl | rfl | rfl | rfl | rfl | rfl | rfl | rfl | rfl | rfl | rfl | rfl | rfl <;> first | exact absurd (by decide) h3 | decide
  · intro h
    simp only [List.mem_cons, List.not_mem_nil, or_false] at h
    rcases h with rfl | rfl | rfl | rfl | rfl | rfl | rfl | rfl | rfl | rfl | rfl | rfl <;> decide

end Cis.Args
