import Verif.Colloc.Command
set_option linter.unusedSectionVars false
set_option linter.unusedSimpArgs false

/-!
# The Python functions of a collocation of points, and the command

`data.collocated_onto(sample, ...)` (common_data.py:159-178, 403-422; ungridded_data.py:1001-1002), `sample.sampled_from(data, ...)`
(ungridded_data.py:813-831, 1004-1025, 1213-1255) and `cis col` (cis_main.py:67-101) for ungridded objects. Property C217.

Simplifications: the options are given as text, as on the command line; a kernel is given by name; the objects are the columns and rows of their
data frames.
-/
namespace Cis.ColApi
open Cis.Str Cis.ColOpts

/-! ### Model -/

/-- An ungridded object: `UngriddedData`, `UngriddedDataList` or `UngriddedCoordinates`. -/
inductive Obj
  | data (v : ColCmd.Var)
  | list (vs : List ColCmd.Var)
  | coords (cols : List Colloc.Col) (rows : List Colloc.Row)

inductive Err
  | notImplemented  -- NotImplementedError
  | attr            -- AttributeError: a list has no `sampled_from`
  | value           -- ValueError: the data are no data, or the kernel is unknown
  | failed (e : ColCmd.Err)

/-- The keyword arguments: `missing` is the flag `missing_data_for_missing_sample` if given; `opts` are the others. -/
structure Args where
  how : Str
  kernel : Str
  missing : Option Bool
  opts : Opts

/-- `get_kernel(kernel)` for a name (col.py:48-64): none, or an empty name, is `moments`. -/
def kernelArg (kernels : List Str) (n : Str) : Except Err (Option Str) :=
  if n = [] then .ok none else if n ∈ kernels then .ok (some n) else .error .value

/-- `_ungridded_sampled_from` for ungridded data (ungridded_data.py:1213-1255): the options, then the collocator for each variable. `hasVals`
says whether the frame of the sample has values, `UngriddedData` or `UngriddedCoordinates` (ungridded_data.py:608-622, 941-948). -/
noncomputable def sampleWith (num : Str → Option ℚ) (kernels : List Str) (hasVals : Bool) (cx : List Colloc.Col) (rows : List Colloc.Row)
    (a : Args) (missing : Bool) (vars : List ColCmd.Var) : Except Err (List (Out × List (Option ℝ))) :=
  match kernelArg kernels a.kernel with
  | .error e => .error e
  | .ok kernel =>
    match sampledFrom num false false a.how kernel missing a.opts with
    | .error e => .error (.failed (.options e))
    | .ok p =>
      match p.work with
      | .boxPoints s kname =>
        match ColCmd.kernelNamed kname with
        | none => .error (.failed .notModelled)
        | some k =>
          match ColCmd.eachVar p s kname k hasVals cx rows vars with
          | .error e => .error (.failed e)
          | .ok r => .ok r
      | _ => .error (.failed .notModelled)

/-- The data of a collocation (ungridded_data.py:1233, 1252-1253): anything else is refused. -/
def source : Obj → Except Err (List ColCmd.Var)
  | .data v => .ok [v]
  | .list vs => .ok vs
  | .coords _ _ => .error .value

/-- `sample.sampled_from(data, ...)`: the default of the flag is True for `UngriddedData` (ungridded_data.py:813-831), False for
`UngriddedCoordinates` (ungridded_data.py:1004-1025). A list has no such method (ungridded_data.py:1033-1110). -/
noncomputable def sampledFrom (num : Str → Option ℚ) (kernels : List Str) (self data : Obj) (a : Args) :
    Except Err (List (Out × List (Option ℝ))) :=
  match self with
  | .list _ => .error .attr
  | .data v => match source data with
    | .error e => .error e
    | .ok vars => sampleWith num kernels true v.cols v.rows a (a.missing.getD true) vars
  | .coords cols rows => match source data with
    | .error e => .error e
    | .ok vars => sampleWith num kernels false cols rows a (a.missing.getD false) vars

/-- `data.collocated_onto(sample, ...)` (common_data.py:159-178, 403-422): the flag is always passed on, True by default; coordinates refuse
(ungridded_data.py:1001-1002). -/
noncomputable def collocatedOnto (num : Str → Option ℚ) (kernels : List Str) (self sample : Obj) (a : Args) :
    Except Err (List (Out × List (Option ℝ))) :=
  match self with
  | .coords _ _ => .error .notImplemented
  | _ => sampledFrom num kernels sample self { a with missing := some (a.missing.getD true) }

/-! ### Specification -/

/-- `cis col data sample:collocator=how[...],kernel=...`: `sample` is given with its variable, or without. -/
noncomputable def Spec.command (num : Str → Option ℚ) (kernels : List Str) (vars : List ColCmd.Var) (sample : Obj) (how : Str) (o : Opts) (kern : Str) :
    Except ColCmd.Err (List (Out × List (Option ℝ))) :=
  match sample with
  | .data v => ColCmd.run num kernels true (some (how, o)) (some (kern, [])) v.cols v.rows vars
  | .coords cols rows => ColCmd.run num kernels false (some (how, o)) (some (kern, [])) cols rows vars
  | .list _ => .error .notModelled

/-- The object is something that can be sampled onto: data of one variable, or coordinates. -/
def Spec.Sample : Obj → Prop
  | .list _ => False
  | _ => True

/-- The arguments of a call without the flag. -/
def Spec.call (how kern : Str) (o : Opts) : Args where
  how := how
  kernel := kern
  missing := none
  opts := o

/-! ### Proofs -/

theorem kdIterator_flag (s : Colloc.Seps) (q : ℝ → Nat → List Nat) (d : List Colloc.DRow) (sample : List Colloc.Row) (m m' : Bool) :
    Colloc.kdIterator s q m false d sample = Colloc.kdIterator s q m' false d sample := by
  simp [Colloc.kdIterator]

theorem collocate_flag (s : Colloc.Seps) (k : Colloc.Kernel) (m m' : Bool) (cx cy : List Colloc.Col) (sample data : List Colloc.Row) :
    Colloc.collocate s k m false cx cy sample data = Colloc.collocate s k m' false cx cy sample data := by
  simp only [Colloc.collocate, Colloc.collocateWith, kdIterator_flag _ _ _ _ m m']

theorem eachVar_flag (p : Plan) (m : Bool) (s : ColOpts.Seps) (kn : Str) (k : Colloc.Kernel) (cx : List Colloc.Col) (sample : List Colloc.Row)
    (vars : List ColCmd.Var) :
    ColCmd.eachVar { p with missing := m } s kn k false cx sample vars = ColCmd.eachVar p s kn k false cx sample vars := by
  induction vars with
  | nil => rfl
  | cons v t ih => simp only [ColCmd.eachVar, ih, collocate_flag _ _ m p.missing]

theorem plan_flag (num : Str → Option ℚ) (how : Str) (k : Option Str) (m m' : Bool) (o : Opts) :
    ColOpts.sampledFrom num false false how k m' o = (ColOpts.sampledFrom num false false how k m o).map (fun p => { p with missing := m' }) := by
  simp only [ColOpts.sampledFrom]
  split
  · rfl
  · cases fillValue num o with
    | error e => rfl
    | ok f =>
      dsimp only
      split
      · rfl
      · cases sepConstraint num (rest o) <;> rfl

theorem sampleWith_flag (num : Str → Option ℚ) (kernels : List Str) (cx : List Colloc.Col) (rows : List Colloc.Row) (a : Args)
    (m m' : Bool) (vars : List ColCmd.Var) :
    sampleWith num kernels false cx rows a m vars = sampleWith num kernels false cx rows a m' vars := by
  simp only [sampleWith]
  cases kernelArg kernels a.kernel with
  | error e => rfl
  | ok k =>
    dsimp only
    rw [plan_flag num a.how k m m']
    cases ColOpts.sampledFrom num false false a.how k m a.opts with
    | error e => rfl
    | ok p =>
      obtain ⟨w, f, n, l, u, m0⟩ := p
      dsimp only [Except.map]
      cases w <;> dsimp only
      rename_i s kn
      cases ColCmd.kernelNamed kn <;> dsimp only
      rename_i k'
      rw [← eachVar_flag ⟨.boxPoints s kn, f, n, l, u, m0⟩ m']

theorem sampleWith_args (num : Str → Option ℚ) (kernels : List Str) (hv : Bool) (cx : List Colloc.Col) (rows : List Colloc.Row) (a : Args)
    (x : Option Bool) (m : Bool) (vars : List ColCmd.Var) :
    sampleWith num kernels hv cx rows { a with missing := x } m vars = sampleWith num kernels hv cx rows a m vars := rfl

/-- C217: `data.collocated_onto(sample, ...)` and `sample.sampled_from(data, ...)` give the same, whatever the arguments; also without the flag, although
its default is not the same for the two if the sample is coordinates. -/
theorem c217_same (num : Str → Option ℚ) (kernels : List Str) (data sample : Obj) (a : Args) (hd : ∀ c r, data ≠ .coords c r) :
    collocatedOnto num kernels data sample a = sampledFrom num kernels sample data a := by
  cases data with
  | coords c r => exact absurd rfl (hd c r)
  | data v =>
    cases sample with
    | list vs => rfl
    | data w => rfl
    | coords c r => exact sampleWith_flag num kernels c r a _ _ _
  | list vs =>
    cases sample with
    | list vs => rfl
    | data w => rfl
    | coords c r => exact sampleWith_flag num kernels c r a _ _ _

/-- C217: coordinates are no data for a collocation, and a list is no sample, in either way of calling it. -/
theorem c217_refused (num : Str → Option ℚ) (kernels : List Str) (x y : Obj) (a : Args) :
    ((∃ c r, x = .coords c r) ∨ (∃ vs, y = .list vs) →
      (∀ out, collocatedOnto num kernels x y a ≠ .ok out) ∧ (∀ out, sampledFrom num kernels y x a ≠ .ok out)) := by
  rintro (⟨c, r, rfl⟩ | ⟨vs, rfl⟩)
  · refine ⟨fun out h => ?_, fun out h => ?_⟩
    · cases h
    · cases y <;> cases h
  · refine ⟨fun out h => ?_, fun out h => ?_⟩
    · cases x <;> cases h
    · cases h

theorem run_sampleWith (num : Str → Option ℚ) (kernels : List Str) (hv : Bool) (cx : List Colloc.Col) (rows : List Colloc.Row) (how kern : Str)
    (o : Opts) (x : Option Bool) (vars : List ColCmd.Var) (out : List (Out × List (Option ℝ))) :
    ColCmd.run num kernels hv (some (how, o)) (some (kern, [])) cx rows vars = .ok out ↔
      sampleWith num kernels hv cx rows ⟨how, kern, x, o.filter (fun kv => kv.1 ≠ kMissing)⟩ (missingFlag hv o) vars = .ok out := by
  have hk : kernelOf kernels kern [] = (if kern = [] then .ok none else if kern ∈ kernels then .ok (some kern) else .error .value) := by
    unfold kernelOf
    by_cases h0 : kern = []
    · simp [h0]
    · by_cases h1 : kern ∈ kernels
      · by_cases h2 : kern = moments
        · subst h2; simp [h1, h0]
        · simp [h0, h1, h2]
      · simp [h0, h1]
  simp only [ColCmd.run, colCommand, Option.getD_some, sampleWith, hk, kernelArg]
  by_cases h0 : kern = []
  · simp only [h0, if_true]
    cases ColOpts.sampledFrom num false false how none (missingFlag hv o) (o.filter (fun kv => kv.1 ≠ kMissing)) with
    | error e => simp
    | ok p =>
      dsimp only
      cases p.work <;> dsimp only <;> try simp
      rename_i s kn
      cases ColCmd.kernelNamed kn <;> dsimp only <;> try simp
      cases ColCmd.eachVar p s kn _ hv cx rows vars <;> simp
  · simp only [h0, if_false]
    by_cases h1 : kern ∈ kernels
    · simp only [h1, if_true]
      cases ColOpts.sampledFrom num false false how (some kern) (missingFlag hv o) (o.filter (fun kv => kv.1 ≠ kMissing)) with
      | error e => simp
      | ok p =>
        dsimp only
        cases p.work <;> dsimp only <;> try simp
        rename_i s kn
        cases ColCmd.kernelNamed kn <;> dsimp only <;> try simp
        cases ColCmd.eachVar p s kn _ hv cx rows vars <;> simp
    · simp [h1]

theorem filter_none {o : Opts} (h : ∀ kv ∈ o, kv.1 ≠ kMissing) : o.filter (fun kv => kv.1 ≠ kMissing) = o :=
  List.filter_eq_self.2 (fun kv hkv => by simpa using h kv hkv)

theorem lookup_none {o : Opts} (h : ∀ kv ∈ o, kv.1 ≠ kMissing) : o.lookup kMissing = none := by
  rw [List.lookup_eq_none_iff]
  intro kv hkv
  simpa using fun e => h kv hkv e.symm

/-- C217: `cis col data sample` with options and kernel gives what `data.collocated_onto(sample, ...)` gives with the same options, and nothing if
that is refused; the flag for missing samples may be left out, or written with either value anywhere among the options. -/
theorem c217_command (num : Str → Option ℚ) (kernels : List Str) (data : Obj) (vars : List ColCmd.Var) (sample : Obj) (how kern : Str) (o o' : Opts)
    (ho : ∀ kv ∈ o, kv.1 ≠ "missing_data_for_missing_sample".toList) (ho' : ∀ kv ∈ o', kv.1 ≠ "missing_data_for_missing_sample".toList)
    (hd : data = .list vars ∨ ∃ v, data = .data v ∧ vars = [v]) (hs : Spec.Sample sample) (out : List (Out × List (Option ℝ))) :
    (Spec.command num kernels vars sample how o kern = .ok out ↔ collocatedOnto num kernels data sample (Spec.call how kern o) = .ok out) ∧
    (∀ (b : Bool) (w : Str), w.map Char.toLower = (if b then "true" else "false").toList →
      (Spec.command num kernels vars sample how (o ++ ("missing_data_for_missing_sample".toList, some w) :: o') kern = .ok out ↔
        collocatedOnto num kernels data sample { Spec.call how kern (o ++ o') with missing := some b } = .ok out)) := by
  have hsrc : source data = .ok vars := by
    rcases hd with rfl | ⟨v, rfl, rfl⟩ <;> rfl
  have hco : ∀ a, collocatedOnto num kernels data sample a = sampledFrom num kernels sample data { a with missing := some (a.missing.getD true) } := by
    intro a
    rcases hd with rfl | ⟨v, rfl, rfl⟩ <;> rfl
  have key : ∀ (b : Bool) (q : Opts), (∀ c, (missingFlag c q = b) ∨ (c = false)) →
      (Spec.command num kernels vars sample how q kern = .ok out ↔
        sampledFrom num kernels sample data ⟨how, kern, some b, q.filter (fun kv => kv.1 ≠ kMissing)⟩ = .ok out) := by
    intro b q hq
    cases sample with
    | list vs => exact absurd hs id
    | data v =>
      have hb : missingFlag true q = b := (hq true).resolve_right (by decide)
      simp only [Spec.command, sampledFrom, hsrc, Option.getD_some]
      rw [run_sampleWith (x := some b), hb]
    | coords c r =>
      simp only [Spec.command, sampledFrom, hsrc, Option.getD_some]
      rw [run_sampleWith (x := some b), sampleWith_flag _ _ _ _ _ _ b]
  constructor
  · rw [hco, key true o, filter_none ho]
    · rfl
    · intro c
      rw [missingFlag, lookup_none ho]
      cases c <;> simp
  · intro b w hw
    change (Spec.command num kernels vars sample how (o ++ (kMissing, some w) :: o') kern = .ok out ↔ _)
    have fil : (o ++ (kMissing, some w) :: o').filter (fun kv => kv.1 ≠ kMissing) = o ++ o' := by
      rw [List.filter_append, List.filter_cons_of_neg (by simp), filter_none ho, filter_none ho']
    have hl : (o ++ (kMissing, some w) :: o').lookup kMissing = some (some w) := by
      rw [List.lookup_append, lookup_none ho]
      simp [List.lookup_cons]
    rw [hco, key b _, fil]
    · rfl
    · intro c
      left
      rw [missingFlag, hl]
      dsimp only [checkBoolean]
      rw [hw]
      cases b <;> decide

theorem collocate_shape {s : Colloc.Seps} {k : Colloc.Kernel} {m h : Bool} {cx cy : List Colloc.Col} {sample data : List Colloc.Row}
    {out : List (List (Option ℝ))} (e : Colloc.collocate s k m h cx cy sample data = .ok out) :
    out.length = k.size ∧ ∀ v ∈ out, v.length = sample.length := by
  simp only [Colloc.collocate, Colloc.collocateWith] at e
  split at e
  · cases e
  · split at e
    · cases e
    · injection e with e
      subst e
      refine ⟨by simp, fun v hv => ?_⟩
      obtain ⟨i, -, rfl⟩ := List.mem_map.1 hv
      simp

theorem eachVar_shape {p : Plan} {s : ColOpts.Seps} {kn : Str} {k : Colloc.Kernel} {h : Bool} {cx : List Colloc.Col} {sample : List Colloc.Row}
    {vars : List ColCmd.Var} {out : List (Out × List (Option ℝ))} (hne : vars ≠ []) (hk : k.size ≠ 0)
    (e : ColCmd.eachVar p s kn k h cx sample vars = .ok out) : out ≠ [] ∧ ∀ o ∈ out, o.2.length = sample.length := by
  have hlen : ∀ (vars : List ColCmd.Var) (out), ColCmd.eachVar p s kn k h cx sample vars = .ok out → ∀ o ∈ out, o.2.length = sample.length := by
    intro vars
    induction vars with
    | nil => intro out e; simp only [ColCmd.eachVar] at e; injection e with e; subst e; simp
    | cons v t ih =>
      intro out e
      simp only [ColCmd.eachVar] at e
      split at e
      · cases e
      · rename_i vals hv
        split at e
        · cases e
        · rename_i r hr
          injection e with e
          subst e
          intro o ho
          rcases List.mem_append.1 ho with ho | ho
          · exact (collocate_shape hv).2 _ (List.of_mem_zip ho).2
          · exact ih _ hr o ho
  refine ⟨?_, hlen vars out e⟩
  cases vars with
  | nil => exact absurd rfl hne
  | cons v t =>
    simp only [ColCmd.eachVar] at e
    split at e
    · cases e
    · rename_i vals hv
      split at e
      · cases e
      · injection e with e
        subst e
        have h1 := (collocate_shape hv).1
        intro h0
        have h0 := congrArg List.length (List.append_eq_nil_iff.1 h0).1
        rw [List.length_zip, List.length_map, h1] at h0
        have hd : (details kn v.names).length ≠ 0 := by rw [details]; split <;> simp
        simp only [List.length_nil] at h0
        omega

theorem size_ne_zero (k : Colloc.Kernel) : k.size ≠ 0 := by cases k <;> decide

theorem sampleWith_shape {num : Str → Option ℚ} {kernels : List Str} {h : Bool} {cx : List Colloc.Col} {rows : List Colloc.Row} {a : Args} {m : Bool}
    {vars : List ColCmd.Var} {out : List (Out × List (Option ℝ))} (hne : vars ≠ [])
    (e : sampleWith num kernels h cx rows a m vars = .ok out) : out ≠ [] ∧ ∀ o ∈ out, o.2.length = rows.length := by
  simp only [sampleWith] at e
  split at e
  · cases e
  · split at e
    · cases e
    · split at e
      · split at e
        · cases e
        · split at e
          · cases e
          · rename_i he
            injection e with e
            subst e
            exact eachVar_shape hne (size_ne_zero _) he
      · cases e

/-- C217: of data with different numbers of points, `a.collocated_onto(b)` and `a.sampled_from(b)` never give the same: the first has the points of `b`,
the second those of `a`. -/
theorem c217_direction (num : Str → Option ℚ) (kernels : List Str) (a b : ColCmd.Var) (x y : Args) (r r' : List (Out × List (Option ℝ)))
    (h : collocatedOnto num kernels (.data a) (.data b) x = .ok r) (h' : sampledFrom num kernels (.data a) (.data b) y = .ok r') :
    r ≠ [] ∧ r' ≠ [] ∧ (∀ o ∈ r, o.2.length = b.rows.length) ∧ (∀ o ∈ r', o.2.length = a.rows.length) ∧
      (a.rows.length ≠ b.rows.length → r ≠ r') := by
  have h1 := sampleWith_shape (by simp) h
  have h2 := sampleWith_shape (by simp) h'
  refine ⟨h1.1, h2.1, h1.2, h2.2, ?_⟩
  rintro hne rfl
  obtain ⟨o, ho⟩ := List.exists_mem_of_ne_nil _ h1.1
  exact hne ((h2.2 o ho).symm.trans (h1.2 o ho))

/-! ### Non-vacuity and the example of the documentation -/

/-- Two points at the same place. -/
noncomputable def exA : ColCmd.Var := ⟨⟨"a".toList, none, none, none⟩, [], [ColCmd.exAt 0 (some 1), ColCmd.exAt 1 (some 3)]⟩
/-- One point. -/
noncomputable def exB : ColCmd.Var := ⟨⟨"b".toList, none, none, none⟩, [], [ColCmd.exAt 2 (some 5)]⟩

theorem ex_ok (num : Str → Option ℚ) (x y : ColCmd.Var) (hy : Colloc.dropna y.rows ≠ []) (m : Bool) :
    ∃ r, sampleWith num [] true x.cols x.rows (Spec.call [] [] []) m [y] = .ok r := by
  have hp : ColOpts.sampledFrom num false false [] none m [] = .ok ⟨.boxPoints ⟨none, none, none, none⟩ moments, none, none, none, none, m⟩ := rfl
  have g : Colloc.Spec.Good (ColCmd.toSeps ⟨none, none, none, none⟩) x.rows y.rows :=
    ⟨hy, by intro r hr; simp [Colloc.PresOK, ColCmd.toSeps], by simp [ColCmd.toSeps], by intro h e; simp [ColCmd.toSeps] at e, .inl rfl⟩
  obtain ⟨out, ho, -⟩ := Colloc.good_statement g .moments m true x.cols y.cols (Colloc.cols_of_dataOnly (k := .moments) trivial _ _)
  have ho' : Colloc.collocate (ColCmd.toSeps ⟨none, none, none, none⟩) .moments m true x.cols y.cols x.rows y.rows = .ok out := ho
  have hk : ColCmd.kernelNamed moments = some .moments := by with_unfolding_all rfl
  refine ⟨((details moments y.names).map (fun d => (⟨d, some none⟩ : Out))).zip out ++ [], ?_⟩
  simp only [sampleWith, kernelArg, Spec.call, if_true, hp, hk, ColCmd.eachVar, ho']

/-- C217: the documentation (cis_api.rst:65-80) says that `cis col Temperature:2010.nc 2009.nc:variable=Temperature` is
`temperature_2010.sampled_from(temperature_2009)`: that does not hold, it is the other way round. -/
theorem c217_documented_violated : ¬ ∀ (num : Str → Option ℚ) (kernels : List Str) (a b : ColCmd.Var) (r : List (Out × List (Option ℝ))),
    Spec.command num kernels [a] (.data b) [] [] [] = .ok r → sampledFrom num kernels (.data a) (.data b) (Spec.call [] [] []) = .ok r := by
  intro h
  obtain ⟨r, hr⟩ := ex_ok (fun _ => none) exB exA (by simp [Colloc.dropna, exA, ColCmd.exAt]) true
  have hc : collocatedOnto (fun _ => none) [] (.data exA) (.data exB) (Spec.call [] [] []) = .ok r := hr
  have := h (fun _ => none) [] exA exB r
    (((c217_command _ _ (.data exA) [exA] (.data exB) [] [] [] [] (by simp) (by simp) (.inr ⟨_, rfl, rfl⟩) trivial r).1).2 hc)
  exact (c217_direction _ _ _ _ _ _ _ _ hc this).2.2.2.2 (by decide) rfl

example : ∃ r, sampledFrom (fun _ => none) [] (.data exB) (.data exA) (Spec.call [] [] []) = .ok r ∧
    collocatedOnto (fun _ => none) [] (.data exA) (.data exB) (Spec.call [] [] []) = .ok r ∧
    Spec.command (fun _ => none) [] [exA] (.data exB) [] [] [] = .ok r := by
  obtain ⟨r, hr⟩ := ex_ok (fun _ => none) exB exA (by simp [Colloc.dropna, exA, ColCmd.exAt]) true
  exact ⟨r, hr, hr, ((c217_command _ _ (.data exA) [exA] (.data exB) [] [] [] [] (by simp) (by simp) (.inr ⟨_, rfl, rfl⟩) trivial r).1).2 hr⟩

end Cis.ColApi
