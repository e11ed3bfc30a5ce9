import Verif.Parse.Method
import Verif.Parse.Distance
import Verif.Time.Parse
set_option linter.unusedSectionVars false
set_option linter.unusedSimpArgs false
/-!
C178, C179: the options of a collocation, from the text of the command to the objects that do the work and the names of the results.
Model of `col_cmd` (cis_main.py:67-101), `collocated_onto` (common_data.py:159-178, 403-422), `sampled_from` (gridded_data.py:347-394,
ungridded_data.py:813-831, 1004-1025, 1213-1255), the constructors of the collocators (col_framework.py:13-30,
col_implementations.py:120-126, 585-589), of the separation constraint (col_implementations.py:265-297) and of the kernels
(col_implementations.py:428-460), and of the names and units of the variables they make.

Simplifications: `float()` is a parameter `num` (finite numbers); the kernels are those of CIS (none but `moments` takes arguments); data are
read from files, so they are gridded or ungridded; names of standard and units that data have are valid.
-/
namespace Cis.ColOpts
open Cis.Str

/-- Options in brackets: key and value, `none` for a key without value (parse.py:762-779). -/
abbrev Opts := List (Str × Option Str)

inductive Err
  | type      -- TypeError: unexpected or repeated keyword argument
  | value     -- ValueError
  | option    -- InvalidCommandLineOptionError
  | overflow  -- OverflowError: a duration of a billion days
  | failed    -- the collocation cannot be done (CoordinateNotFoundError and others)
deriving DecidableEq

def kH : Str := "h_sep".toList
def kA : Str := "a_sep".toList
def kP : Str := "p_sep".toList
def kT : Str := "t_sep".toList
def kFill : Str := "fill_value".toList
def kName : Str := "var_name".toList
def kLong : Str := "var_long_name".toList
def kUnits : Str := "var_units".toList
def kMissing : Str := "missing_data_for_missing_sample".toList
def moments : Str := "moments".toList

/-- The parameters of `collocated_onto` and `sampled_from` that are passed already (common_data.py:159-178): a second one is a TypeError. -/
def passed : List Str := ["self".toList, "sample".toList, "data".toList, "how".toList, "kernel".toList]

/-- The value of a keyword with default None (or '', which is treated alike): None if it is not given, or given without value. -/
def arg (o : Opts) (k : Str) : Option Str := (o.lookup k).join

/-- `float(fill_value) if fill_value is not None else np.nan` (col_framework.py:26); `none` is NaN. -/
def fillValue (num : Str → Option ℚ) (o : Opts) : Except Err (Option ℚ) :=
  match arg o kFill with
  | none => .ok none
  | some s => match num s with | some x => .ok (some x) | none => .error .value

structure Seps where
  h : Option ℚ
  a : Option ℚ
  p : Option ℚ
  t : Option ℚ
deriving DecidableEq

/-- One of the separations, read unless it is None. -/
def readSep (read : Str → Except Err ℚ) (v : Option Str) : Except Err (Option ℚ) :=
  match v with
  | none => .ok none
  | some s => match read s with | .ok x => .ok (some x) | .error e => .error e

/-- `parse_distance_with_units_to_float_km` (utils.py:486-501); all its errors are InvalidCommandLineOptionError. -/
def readKm (num : Str → Option ℚ) (s : Str) : Except Err ℚ :=
  match Distance.parseKm (fun w => (num w).getD 0) s with | .ok x => .ok x | .error _ => .error .option
/-- `parse_distance_with_units_to_float_m` (utils.py:504-514). -/
def readM (num : Str → Option ℚ) (s : Str) : Except Err ℚ :=
  match Distance.parseM (fun w => (num w).getD 0) s with | .ok x => .ok x | .error _ => .error .option
/-- `float(p_sep)` (col_implementations.py:284-287). -/
def readP (num : Str → Option ℚ) (s : Str) : Except Err ℚ :=
  match num s with | some x => .ok x | none => .error .option
/-- `parse_datetimestr_delta_to_float_days` (parse_datetime.py:165-173) with its ValueError replaced (col_implementations.py:290-294). -/
def readT (s : Str) : Except Err ℚ :=
  match Time.parseDeltaDays s with | .ok x => .ok x | .error .overflow => .error .overflow | .error _ => .error .option

/-- `SepConstraintKdtree(**kwargs)` (col_implementations.py:265-297). -/
def sepConstraint (num : Str → Option ℚ) (o : Opts) : Except Err Seps :=
  if o.all (fun kv => kv.1 ∈ [kH, kA, kP, kT]) then
    match readSep (readKm num) (arg o kH) with
    | .error e => .error e
    | .ok h =>
      match readSep (readM num) (arg o kA) with
      | .error e => .error e
      | .ok a =>
        match readSep (readP num) (arg o kP) with
        | .error e => .error e
        | .ok p =>
          match readSep readT (arg o kT) with
          | .error e => .error e
          | .ok t => .ok ⟨h, a, p, t⟩
  else .error .type

/-- `check_boolean(arg, logging)` (parse.py:782-788): `logging.error` only writes a message, and the result is then None. -/
def checkBoolean (v : Option Str) : Bool :=
  match v with
  | none => true
  | some s => s.map Char.toLower = "true".toList

/-- The flag of the command (cis_main.py:76-92): true if a sample variable is given, unless the option says otherwise. -/
def missingFlag (sampleVar : Bool) (o : Opts) : Bool :=
  match o.lookup kMissing with
  | none => sampleVar
  | some v => checkBoolean v

/-- `get_kernel(kern_name)(**kern_options) if kern_name else None` (cis_main.py:94). -/
def kernelOf (kernels : List Str) (name : Str) (o : Opts) : Except Err (Option Str) :=
  if name = [] then .ok none
  else if name ∉ kernels then .error .value
  else if name = moments then
    if o.all (fun kv => kv.1 ∈ ["mean_name".toList, "stddev_name".toList, "nopoints_name".toList]) then .ok (some name) else .error .type
  else if o = [] then .ok (some name) else .error .type

/-- What does the work: the collocator with its constraint and kernel. -/
inductive Work
  | boxPoints (s : Seps) (kernel : Str)   -- GeneralUngriddedCollocator, SepConstraintKdtree
  | binGrid (kernel : Str)                -- GeneralGriddedCollocator, BinnedCubeCellOnlyConstraint
  | boxGrid (s : Seps) (kernel : Str)     -- GeneralGriddedCollocator, SepConstraintKdtree
  | interpPoints (nearest : Bool) (extrapolate : Bool)  -- GriddedUngriddedCollocator
  | interpGrid (nearest : Bool) (extrapolate : Bool)    -- GriddedCollocator
deriving DecidableEq

/-- A collocator with the attributes set by its constructor (col_framework.py:13-30). -/
structure Plan where
  work : Work
  fill : Option ℚ
  name : Option Str
  long : Option Str
  units : Option Str
  missing : Bool
deriving DecidableEq

/-- The keyword arguments that are left for the constraint, `**kwargs` of `sampled_from`. -/
def rest (o : Opts) : Opts := o.filter (fun kv => kv.1 ∉ [kFill, kName, kLong, kUnits])

/-- `data.collocated_onto(sample, how, kernel, missing_data_for_missing_sample, **options)` up to the call of the collocator
(common_data.py:159-178; gridded_data.py:347-394; ungridded_data.py:1213-1255). `extrapolate` is never passed to a constructor. -/
def sampledFrom (num : Str → Option ℚ) (sampleGridded dataGridded : Bool) (how : Str) (kernel : Option Str) (missing : Bool) (o : Opts) :
    Except Err Plan :=
  if o.any (fun kv => kv.1 ∈ passed) then .error .type
  else
    let mk (w : Work) (f : Option ℚ) : Plan := ⟨w, f, arg o kName, arg o kLong, arg o kUnits, missing⟩
    match sampleGridded, dataGridded with
    | false, false =>
      match fillValue num o with
      | .error e => .error e
      | .ok f =>
        if how ∉ ["".toList, "box".toList] then .error .value
        else match sepConstraint num (rest o) with
          | .error e => .error e
          | .ok s => .ok (mk (.boxPoints s (kernel.getD moments)) f)
    | false, true =>
      match fillValue num o with
      | .error e => .error e
      | .ok f =>
        if how ∉ ["".toList, "lin".toList, "nn".toList] then .error .value
        else .ok (mk (.interpPoints (how = "nn".toList) false) f)
    | true, false =>
      if how = "".toList ∨ how = "bin".toList then
        match fillValue num o with
        | .error e => .error e
        | .ok f => .ok (mk (.binGrid (kernel.getD moments)) f)
      else if how = "box".toList then
        match sepConstraint num (rest o) with
        | .error e => .error e
        | .ok s =>
          match fillValue num o with
          | .error e => .error e
          | .ok f => .ok (mk (.boxGrid s (kernel.getD moments)) f)
      else .error .value
    | true, true =>
      if kernel ≠ none then .error .value
      else if how ∉ ["".toList, "lin".toList, "nn".toList] then .error .value
      else match fillValue num o with
        | .error e => .error e
        | .ok f => .ok (mk (.interpGrid (how = "nn".toList) false) f)

/-- `col_cmd` up to the call of the collocator for one datagroup (cis_main.py:67-101): the collocator and kernel of the samplegroup with their
options. The option of the flag is taken out of the dictionary first. -/
def colCommand (num : Str → Option ℚ) (kernels : List Str) (sampleVar sampleGridded dataGridded : Bool)
    (col kern : Option (Str × Opts)) : Except Err Plan :=
  let c := col.getD ([], [])
  let k := kern.getD ([], [])
  match kernelOf kernels k.1 k.2 with
  | .error e => .error e
  | .ok kernel =>
    sampledFrom num sampleGridded dataGridded c.1 kernel (missingFlag sampleVar c.2) (c.2.filter (fun kv => kv.1 ≠ kMissing))

/-- The names of a variable. -/
structure Names where
  name : Str
  long : Option Str
  standard : Option Str
  units : Option Str
deriving DecidableEq

/-- `'… %s' % long_name`. -/
def shown (l : Option Str) : Str := l.getD "None".toList

/-- `kernel.get_variable_details` (col_framework.py:78-87; moments: col_implementations.py:433-452, which sets its own names anew). -/
def details (kernel : Str) (m : Names) : List Names :=
  if kernel = moments then
    [m,
     ⟨m.name ++ "_std_dev".toList, some ("Corrected sample standard deviation of ".toList ++ shown m.long), none, m.units⟩,
     ⟨m.name ++ "_num_points".toList, some ("Number of points used to calculate the mean of ".toList ++ shown m.long), none, some []⟩]
  else [m]

/-- `self.var_name or data.var_name`. -/
def orElse (given : Option Str) (own : Option Str) : Option Str := if given = none ∨ given = some [] then own else given

/-- The names that the options of the collocator and the data give together (col_implementations.py:174-176, 866-870). -/
def override (p : Plan) (m : Names) : Names :=
  ⟨(orElse p.name (some m.name)).getD [], orElse p.long m.long, m.standard, orElse p.units m.units⟩

/-- One result: its names, and its missing value (`none` is NaN; the outer `none`: not set by the collocator). -/
structure Out where
  names : Names
  missing : Option (Option ℚ)
deriving DecidableEq

/-- The variables that `collocate` makes of the variables of the data. GeneralUngriddedCollocator replaces its own names by those of the data
(col_implementations.py:66-70, 99-104), GriddedCollocator uses none of its attributes but the flag (col_implementations.py:601-691), and the
iterator of the separation constraint calls `len` and `iterrows` of the sample, which a cube does not have
(col_implementations.py:330-342, 847-849). -/
def outputs (p : Plan) (vars : List Names) : Except Err (List Out) :=
  match p.work with
  | .boxPoints _ k => .ok (vars.flatMap (fun m => (details k m).map (fun d => ⟨d, some p.fill⟩)))
  | .binGrid k => .ok (vars.flatMap (fun m => (details k (override p m)).map (fun d => ⟨d, some p.fill⟩)))
  | .boxGrid _ _ => .error .failed
  | .interpPoints _ _ => .ok (vars.map (fun m => ⟨override p m, some p.fill⟩))
  | .interpGrid _ _ => .ok (vars.map (fun m => ⟨m, none⟩))

/-! ### Specification -/

/-- `s` says the distance `x` in km: a number, and `km` or nothing or `m` after it. -/
def Spec.Km (num : Str → Option ℚ) (s : Str) (x : ℚ) : Prop :=
  ∃ w b u v, s = w ++ (b ++ u) ∧ Distance.Spec.Numeral w ∧ Distance.Spec.Blanks b ∧ num w = some v ∧
    ((u = [] ∨ u = "km".toList) ∧ x = v ∨ u = "m".toList ∧ x = v / 1000)
/-- `s` says the distance `x` in m. -/
def Spec.Metre (num : Str → Option ℚ) (s : Str) (x : ℚ) : Prop :=
  ∃ w b u v, s = w ++ (b ++ u) ∧ Distance.Spec.Numeral w ∧ Distance.Spec.Blanks b ∧ num w = some v ∧
    ((u = [] ∨ u = "m".toList) ∧ x = v ∨ u = "km".toList ∧ x = v * 1000)
/-- `s` says a duration of `x` days: `P[nY][nM][nD][T[nH][nM][nS]]`. -/
def Spec.Days (s : Str) (x : ℚ) : Prop :=
  ∃ (y m d : Option Str) (t : Option (Char × Option Str × Option Str × Option Str)) (total : Nat),
    (∀ n, y = some n → IsNumeral n) ∧ (∀ n, m = some n → IsNumeral n) ∧ (∀ n, d = some n → IsNumeral n) ∧
    (∀ sep h mi sc, t = some (sep, h, mi, sc) → (sep = 'T' ∨ sep = ' ' ∨ sep = ':') ∧ (∀ n, h = some n → IsNumeral n) ∧
      (∀ n, mi = some n → IsNumeral n) ∧ (∀ n, sc = some n → IsNumeral n)) ∧
    s.map Char.toUpper = Time.Spec.duration y m d t ∧
    total = 86400 * (365 * Time.Spec.num y + 30 * Time.Spec.num m + Time.Spec.num d) +
      (match t with | some (_, h, mi, sc) => 3600 * Time.Spec.num h + 60 * Time.Spec.num mi + Time.Spec.num sc | none => 0) ∧
    total < 86400 * 1000000000 ∧ x = (total : ℚ) / 86400

/-- What the options say about one separation: the value that is written, or nothing if none is. -/
def Spec.Says (read : Str → ℚ → Prop) (l : Opts) (k : Str) (r : Option ℚ) : Prop :=
  (∃ v x, (k, some v) ∈ l ∧ read v x ∧ r = some x) ∨ ((∀ v, (k, some v) ∉ l) ∧ r = none)

/-- All the keys that may be written in the brackets of `box`. -/
def Spec.keys : List Str := [kH, kA, kP, kT, kFill, kName, kLong, kUnits, kMissing]

/-! ### Lemmas -/

theorem km_ok {num : Str → Option ℚ} {s : Str} {x : ℚ} (h : Spec.Km num s x) : readKm num s = .ok x := by
  obtain ⟨w, b, u, v, rfl, hw, hb, hv, h⟩ := h
  have hu : Distance.Spec.Letters u := by
    rcases h with ⟨rfl | rfl, -⟩ | ⟨rfl, -⟩
    · intro c hc; simp at hc
    · intro c hc; left; revert c; decide
    · intro c hc; left; revert c; decide
  rw [readKm, Distance.c84_km _ w b u hw hb hu]
  rcases h with ⟨h, rfl⟩ | ⟨rfl, rfl⟩
  · rw [if_pos h]; simp [hv]
  · rw [if_neg (by decide), if_pos rfl]; simp [hv]

theorem metre_ok {num : Str → Option ℚ} {s : Str} {x : ℚ} (h : Spec.Metre num s x) : readM num s = .ok x := by
  obtain ⟨w, b, u, v, rfl, hw, hb, hv, h⟩ := h
  have hu : Distance.Spec.Letters u := by
    rcases h with ⟨rfl | rfl, -⟩ | ⟨rfl, -⟩
    · intro c hc; simp at hc
    · intro c hc; left; revert c; decide
    · intro c hc; left; revert c; decide
  rw [readM, Distance.c84_m _ w b u hw hb hu]
  rcases h with ⟨h, rfl⟩ | ⟨rfl, rfl⟩
  · rw [if_pos h]; simp [hv]
  · rw [if_neg (by decide), if_pos rfl]; simp [hv]

theorem days_ok {s : Str} {x : ℚ} (h : Spec.Days s x) : readT s = .ok x := by
  obtain ⟨y, m, d, t, total, hy, hm, hd, ht, hs, htotal, hbig, rfl⟩ := h
  rw [readT, (Time.c26_grammar y m d t s hy hm hd ht hs total (by rcases t with _ | ⟨_, _, _, _⟩ <;> exact htotal) hbig).2]

theorem lookup_of_mem {l : Opts} (hd : (l.map Prod.fst).Nodup) {k : Str} {v : Option Str} (h : (k, v) ∈ l) : l.lookup k = some v := by
  induction l with
  | nil => simp at h
  | cons a t ih =>
    simp only [List.map_cons, List.nodup_cons] at hd
    rcases List.mem_cons.1 h with rfl | h
    · simp
    · have : a.1 ≠ k := fun e => hd.1 (e ▸ List.mem_map.2 ⟨(k, v), h, rfl⟩)
      rw [List.lookup_cons]
      have : (k == a.1) = false := by simpa using fun e => this e.symm
      rw [this]; exact ih hd.2 h

theorem mem_of_lookup {l : Opts} {k : Str} {v : Option Str} (h : l.lookup k = some v) : (k, v) ∈ l := by
  induction l with
  | nil => simp at h
  | cons a t ih =>
    rw [List.lookup_cons] at h
    by_cases e : k = a.1
    · subst e; simp at h; subst h; simp
    · have : (k == a.1) = false := by simpa using e
      rw [this] at h; exact List.mem_cons_of_mem _ (ih h)

theorem arg_some {l : Opts} (hd : (l.map Prod.fst).Nodup) {k v : Str} : arg l k = some v ↔ (k, some v) ∈ l := by
  constructor
  · intro h
    rw [arg, Option.join_eq_some_iff] at h
    exact mem_of_lookup h
  · intro h; rw [arg, lookup_of_mem hd h]; rfl

theorem readSep_says {read : Str → Except Err ℚ} {R : Str → ℚ → Prop} (hR : ∀ s x, R s x → read s = .ok x) {l : Opts}
    (hd : (l.map Prod.fst).Nodup) (k : Str) (hw : ∀ v, (k, some v) ∈ l → ∃ x, R v x) :
    ∃ r, readSep read (arg l k) = .ok r ∧ Spec.Says R l k r := by
  cases h : arg l k with
  | none =>
    refine ⟨none, rfl, .inr ⟨fun v hv => ?_, rfl⟩⟩
    rw [(arg_some hd).2 hv] at h; exact absurd h (by simp)
  | some v =>
    have hv := (arg_some hd).1 h
    obtain ⟨x, hx⟩ := hw v hv
    exact ⟨some x, by simp [readSep, hR v x hx], .inl ⟨v, x, hv, hx, rfl⟩⟩

/-! ### Theorems -/

/-- C178, from the text of the command: `collocator=box[...]` for ungridded data and sample, with any of the separations and of the general
options, in any order. It is accepted, and the separations used are exactly those written, in km, m, as a ratio and in days; a separation that is
not written does not restrict. The fill value and the kernel are those written (`moments` by default), and the flag for missing samples is the one
written, else it says whether a sample variable was given. -/
theorem c178_box (num : Str → Option ℚ) (kernels : List Str) (sampleVar : Bool) (l : Opts) (kern : Str)
    (hl : Method.Spec.Plain "box".toList l) (hkeys : ∀ kv ∈ l, kv.1 ∈ Spec.keys)
    (hH : ∀ v, (kH, some v) ∈ l → ∃ x, Spec.Km num v x) (hA : ∀ v, (kA, some v) ∈ l → ∃ x, Spec.Metre num v x)
    (hP : ∀ v, (kP, some v) ∈ l → ∃ x, num v = some x) (hT : ∀ v, (kT, some v) ∈ l → ∃ x, Spec.Days v x)
    (hF : ∀ v, (kFill, some v) ∈ l → ∃ x, num v = some x) (hk : kern = [] ∨ kern ∈ kernels) :
    ∃ p s, colCommand num kernels sampleVar false false (some (Method.methodArgs (Method.Spec.method "box".toList l))) (some (kern, [])) = .ok p ∧
      p.work = .boxPoints s (if kern = [] then moments else kern) ∧
      Spec.Says (Spec.Km num) l kH s.h ∧ Spec.Says (Spec.Metre num) l kA s.a ∧ Spec.Says (fun v x => num v = some x) l kP s.p ∧
      Spec.Says Spec.Days l kT s.t ∧ Spec.Says (fun v x => num v = some x) l kFill p.fill ∧
      p.missing = (match l.lookup kMissing with | none => sampleVar | some v => checkBoolean v) := by
  rw [Method.c85_method _ _ hl]
  have hd := hl.different
  set o := l.filter (fun kv => kv.1 ≠ kMissing) with ho
  have hod : (o.map Prod.fst).Nodup := hd.sublist ((List.filter_sublist).map _)
  have hmem : ∀ {k : Str} {v : Option Str}, k ≠ kMissing → ((k, v) ∈ o ↔ (k, v) ∈ l) := by
    intro k v h; simp [ho, h]
  have hk' : kernelOf kernels kern [] = .ok (if kern = [] then none else some kern) := by
    rw [kernelOf]
    by_cases e : kern = []
    · rw [if_pos e, if_pos e]
    · rw [if_neg e, if_neg (not_not.2 (hk.resolve_left e)), if_neg e]
      by_cases e2 : kern = moments
      · rw [if_pos e2]; rfl
      · rw [if_neg e2]; rfl
  have hpass : o.any (fun kv => kv.1 ∈ passed) = false := by
    rw [List.any_eq_false]
    intro kv hkv
    have := hkeys kv (List.mem_of_mem_filter hkv)
    have key : ∀ k ∈ Spec.keys, k ∉ passed := by decide
    simpa using key _ this
  set r := rest o with hr
  have hrd : (r.map Prod.fst).Nodup := hod.sublist ((List.filter_sublist).map _)
  have hrmem : ∀ {k : Str} {v : Option Str}, k ∈ [kH, kA, kP, kT] → ((k, v) ∈ r ↔ (k, v) ∈ l) := by
    intro k v h
    have h1 : k ≠ kMissing := by rintro rfl; revert h; decide
    have h2 : k ∉ [kFill, kName, kLong, kUnits] := by
      have : ∀ k ∈ [kH, kA, kP, kT], k ∉ [kFill, kName, kLong, kUnits] := by decide
      exact this k h
    rw [← hmem h1, hr, rest, List.mem_filter]
    simp only [decide_eq_true_eq]
    exact ⟨fun a => a.1, fun a => ⟨a, h2⟩⟩
  have hall : r.all (fun kv => kv.1 ∈ [kH, kA, kP, kT]) = true := by
    rw [List.all_eq_true]
    intro kv hkv
    rw [hr, rest, List.mem_filter] at hkv
    have h1 := hkeys kv (List.mem_of_mem_filter hkv.1)
    have h2 : kv.1 ≠ kMissing := by have := (List.mem_filter.1 hkv.1).2; simpa using this
    have h3 : kv.1 ∉ [kFill, kName, kLong, kUnits] := by simpa using hkv.2
    have key : ∀ k ∈ Spec.keys, k ≠ kMissing → k ∉ [kFill, kName, kLong, kUnits] → k ∈ [kH, kA, kP, kT] := by decide
    simpa using key _ h1 h2 h3
  have saysL : ∀ {R : Str → ℚ → Prop} {k x}, k ∈ [kH, kA, kP, kT] → Spec.Says R r k x → Spec.Says R l k x := by
    intro R k x hk h
    rcases h with ⟨v, y, hv, h⟩ | ⟨h, rfl⟩
    · exact .inl ⟨v, y, (hrmem hk).1 hv, h⟩
    · exact .inr ⟨fun v hv => h v ((hrmem hk).2 hv), rfl⟩
  obtain ⟨h, h1, h1'⟩ := readSep_says (read := readKm num) (R := Spec.Km num) (fun s x => km_ok) hrd kH (fun v hv => hH v ((hrmem (by decide)).1 hv))
  obtain ⟨a, h2, h2'⟩ := readSep_says (read := readM num) (R := Spec.Metre num) (fun s x => metre_ok) hrd kA (fun v hv => hA v ((hrmem (by decide)).1 hv))
  obtain ⟨p, h3, h3'⟩ := readSep_says (read := readP num) (R := fun v x => num v = some x) (fun s x e => by simp [readP, e]) hrd kP
    (fun v hv => hP v ((hrmem (by decide)).1 hv))
  obtain ⟨t, h4, h4'⟩ := readSep_says (read := readT) (R := Spec.Days) (fun s x => days_ok) hrd kT (fun v hv => hT v ((hrmem (by decide)).1 hv))
  have hsep : sepConstraint num r = .ok ⟨h, a, p, t⟩ := by
    rw [sepConstraint, if_pos hall]; simp [h1, h2, h3, h4]
  have hfm : ∀ {v : Option Str}, (kFill, v) ∈ o ↔ (kFill, v) ∈ l := hmem (by decide)
  obtain ⟨f, hf, hf'⟩ : ∃ f, fillValue num o = .ok f ∧ Spec.Says (fun v x => num v = some x) l kFill f := by
    cases e : arg o kFill with
    | none =>
      refine ⟨none, by simp [fillValue, e], .inr ⟨fun v hv => ?_, rfl⟩⟩
      rw [(arg_some hod).2 (hfm.2 hv)] at e; exact absurd e (by simp)
    | some v =>
      have hv := hfm.1 ((arg_some hod).1 e)
      obtain ⟨x, hx⟩ := hF v hv
      exact ⟨some x, by simp [fillValue, e, hx], .inl ⟨v, x, hv, hx, rfl⟩⟩
  refine ⟨⟨.boxPoints ⟨h, a, p, t⟩ (if kern = [] then moments else kern), f, arg o kName, arg o kLong, arg o kUnits, missingFlag sampleVar l⟩,
    ⟨h, a, p, t⟩, ?_, rfl, saysL (by decide) h1', saysL (by decide) h2', saysL (by decide) h3', saysL (by decide) h4', hf', rfl⟩
  rw [colCommand]
  simp only [Option.getD_some, hk']
  rw [sampledFrom, ← ho, if_neg (by rw [hpass]; simp)]
  simp only [hf, ← hr, hsep]
  rw [if_neg (by decide)]
  congr 2
  split <;> simp

/-- The separations in the options can be read. -/
def Spec.Readable (num : Str → Option ℚ) (o : Opts) : Prop :=
  (∀ kv ∈ o, kv.1 ∈ [kFill, kName, kLong, kUnits] ∨ kv.1 ∈ [kH, kA, kP, kT]) ∧
  (∀ v, arg o kH = some v → ∃ x, readKm num v = .ok x) ∧ (∀ v, arg o kA = some v → ∃ x, readM num v = .ok x) ∧
  (∀ v, arg o kP = some v → ∃ x, num v = some x) ∧ (∀ v, arg o kT = some v → ∃ x, readT v = .ok x)

theorem lookup_filter {l : Opts} {p : Str × Option Str → Bool} {k : Str} (h : ∀ v, p (k, v) = true) :
    (l.filter p).lookup k = l.lookup k := by
  induction l with
  | nil => rfl
  | cons a t ih =>
    obtain ⟨a, b⟩ := a
    rw [List.filter_cons]
    by_cases e : k = a
    · subst e
      rw [if_pos (h b), List.lookup_cons, List.lookup_cons]; simp
    · have e' : (k == a) = false := by simpa using e
      split
      · rw [List.lookup_cons, List.lookup_cons, e']; exact ih
      · rw [List.lookup_cons, e']; exact ih

theorem arg_rest (o : Opts) (k : Str) (h : k ∈ [kH, kA, kP, kT]) : arg (rest o) k = arg o k := by
  have h2 : k ∉ [kFill, kName, kLong, kUnits] := by
    have : ∀ k ∈ [kH, kA, kP, kT], k ∉ [kFill, kName, kLong, kUnits] := by decide
    exact this k h
  rw [arg, arg, rest, lookup_filter (fun v => by simpa using h2)]

theorem readSep_iff (read : Str → Except Err ℚ) (v : Option Str) :
    (∃ r, readSep read v = .ok r) ↔ ∀ s, v = some s → ∃ x, read s = .ok x := by
  cases v with
  | none => simp [readSep]
  | some s => cases h : read s <;> simp [readSep, h]

theorem sep_iff (num : Str → Option ℚ) (o : Opts) : (∃ s, sepConstraint num (rest o) = .ok s) ↔ Spec.Readable num o := by
  have hP : (∀ s, arg o kP = some s → ∃ x, readP num s = .ok x) ↔ ∀ v, arg o kP = some v → ∃ x, num v = some x := by
    refine forall_congr' fun s => imp_congr_right fun _ => ?_
    cases h : num s <;> simp [readP, h]
  have hk : (rest o).all (fun kv => kv.1 ∈ [kH, kA, kP, kT]) = true ↔
      ∀ kv ∈ o, kv.1 ∈ [kFill, kName, kLong, kUnits] ∨ kv.1 ∈ [kH, kA, kP, kT] := by
    rw [List.all_eq_true]
    constructor
    · intro h kv hkv
      by_cases e : kv.1 ∈ [kFill, kName, kLong, kUnits]
      · exact .inl e
      · exact .inr (by simpa using h kv (by rw [rest, List.mem_filter]; exact ⟨hkv, by simpa using e⟩))
    · intro h kv hkv
      rw [rest, List.mem_filter] at hkv
      have e : kv.1 ∉ [kFill, kName, kLong, kUnits] := by simpa using hkv.2
      simpa using (h kv hkv.1).resolve_left e
  rw [Spec.Readable, ← hk, ← hP, ← readSep_iff, ← readSep_iff, ← readSep_iff, ← readSep_iff, sepConstraint,
    arg_rest o kH (by decide), arg_rest o kA (by decide), arg_rest o kP (by decide), arg_rest o kT (by decide)]
  by_cases hall : (rest o).all (fun kv => kv.1 ∈ [kH, kA, kP, kT]) = true
  · rw [if_pos hall]
    cases readSep (readKm num) (arg o kH) with
    | error e => simp
    | ok h =>
      cases readSep (readM num) (arg o kA) with
      | error e => simp
      | ok a =>
        cases readSep (readP num) (arg o kP) with
        | error e => simp
        | ok p =>
          cases readSep readT (arg o kT) with
          | error e => simp
          | ok t => simpa using hall
  · rw [if_neg hall]
    exact ⟨fun ⟨_, h⟩ => absurd h (by simp), fun h => absurd h.1 hall⟩

theorem fill_iff (num : Str → Option ℚ) (o : Opts) : (∃ f, fillValue num o = .ok f) ↔ ∀ v, arg o kFill = some v → ∃ x, num v = some x := by
  rw [fillValue]
  cases arg o kFill with
  | none => simp
  | some v => cases h : num v <;> simp [h]

/-- The parameters of `collocated_onto` and of the methods it calls that an option cannot name. -/
def Spec.given : List Str := ["self".toList, "sample".toList, "data".toList, "how".toList, "kernel".toList]

theorem given_eq : Spec.given = passed := rfl

/-- Which methods there are (gridded sample, gridded data). -/
def Spec.methods : Bool → Bool → List Str
  | false, false => ["".toList, "box".toList]
  | false, true => ["".toList, "lin".toList, "nn".toList]
  | true, false => ["".toList, "bin".toList, "box".toList]
  | true, true => ["".toList, "lin".toList, "nn".toList]

/-- C178: what `collocated_onto` accepts, exactly: a method of the table; no parameter twice; a fill value that is a number; a kernel only if the
sample or the data are ungridded; and for `box` (the default for ungridded data on an ungridded sample) no options but the general ones and
separations that can be read. -/
theorem c178_accepted (num : Str → Option ℚ) (sg dg : Bool) (how : Str) (kernel : Option Str) (missing : Bool) (o : Opts) :
    (∃ p, sampledFrom num sg dg how kernel missing o = .ok p) ↔
      how ∈ Spec.methods sg dg ∧ (∀ kv ∈ o, kv.1 ∉ Spec.given) ∧ (∀ v, arg o kFill = some v → ∃ x, num v = some x) ∧
      (sg = true ∧ dg = true → kernel = none) ∧
      ((sg = false ∧ dg = false) ∨ (sg = true ∧ dg = false ∧ how = "box".toList) → Spec.Readable num o) := by
  rw [given_eq, ← fill_iff, ← sep_iff, sampledFrom]
  have hp : (o.any (fun kv => kv.1 ∈ passed) = true) ↔ ¬ ∀ kv ∈ o, kv.1 ∉ passed := by
    rw [List.any_eq_true]; push Not; simp
  by_cases h : ∀ kv ∈ o, kv.1 ∉ passed
  · rw [if_neg (by rw [hp]; exact not_not.2 h)]
    have h' : (∀ kv ∈ o, kv.1 ∉ passed) = True := eq_true h
    rw [h']
    cases sg <;> cases dg <;> dsimp only [Spec.methods]
    · by_cases hh : how ∈ ["".toList, "box".toList]
      · simp only [hh, not_true_eq_false, if_false]
        cases hf : fillValue num o with
        | error e => simp
        | ok f => cases hs : sepConstraint num (rest o) <;> simp
      · simp only [hh, not_false_eq_true, if_true]
        cases hf : fillValue num o <;> simp
    · by_cases hh : how ∈ ["".toList, "lin".toList, "nn".toList]
      · simp only [hh, not_true_eq_false, if_false]
        cases hf : fillValue num o <;> simp
      · simp only [hh, not_false_eq_true, if_true]
        cases hf : fillValue num o <;> simp
    · by_cases h1 : how = "".toList ∨ how = "bin".toList
      · rw [if_pos h1]
        have h2 : ¬ how = "box".toList := by rcases h1 with rfl | rfl <;> decide
        have h3 : how ∈ ["".toList, "bin".toList, "box".toList] := by rcases h1 with rfl | rfl <;> decide
        simp only [h2, h3]
        cases hf : fillValue num o <;> simp
      · rw [if_neg h1]
        by_cases h2 : how = "box".toList
        · rw [if_pos h2]
          have h3 : how ∈ ["".toList, "bin".toList, "box".toList] := by rw [h2]; decide
          rw [eq_true h3, eq_true h2]
          cases hs : sepConstraint num (rest o) with
          | error e => simp
          | ok s => cases hf : fillValue num o <;> simp
        · rw [if_neg h2]
          have h3 : how ∉ ["".toList, "bin".toList, "box".toList] := by
            intro hm; simp only [List.mem_cons, List.not_mem_nil, or_false] at hm
            rcases hm with e | e | e
            · exact h1 (.inl e)
            · exact h1 (.inr e)
            · exact h2 e
          rw [eq_false h3]; simp
    · by_cases hk : kernel = none
      · rw [if_neg (not_not.2 hk), eq_true hk]
        by_cases hh : how ∈ ["".toList, "lin".toList, "nn".toList]
        · simp only [hh, not_true_eq_false, if_false]
          cases hf : fillValue num o <;> simp
        · simp only [hh, not_false_eq_true, if_true]
          cases hf : fillValue num o <;> simp
      · rw [if_pos hk, eq_false hk]; simp
  · rw [if_pos (hp.2 h), eq_false h]; simp

/-- C178: who does the work, and with what. -/
theorem c178_work (num : Str → Option ℚ) (sg dg : Bool) (how : Str) (kernel : Option Str) (missing : Bool) (o : Opts) (p : Plan)
    (h : sampledFrom num sg dg how kernel missing o = .ok p) :
    p.missing = missing ∧ p.name = arg o kName ∧ p.long = arg o kLong ∧ p.units = arg o kUnits ∧ p.fill = (arg o kFill).bind num ∧
    match sg, dg with
    | false, false => ∃ s, sepConstraint num (rest o) = .ok s ∧ p.work = .boxPoints s (kernel.getD moments)
    | false, true => p.work = .interpPoints (how = "nn".toList) false
    | true, false => (how = "box".toList ∧ ∃ s, sepConstraint num (rest o) = .ok s ∧ p.work = .boxGrid s (kernel.getD moments)) ∨
        (how ≠ "box".toList ∧ p.work = .binGrid (kernel.getD moments))
    | true, true => p.work = .interpGrid (how = "nn".toList) false := by
  have hfill : ∀ f, fillValue num o = .ok f → f = (arg o kFill).bind num := by
    intro f hf
    rw [fillValue] at hf
    cases e : arg o kFill with
    | none => rw [e] at hf; simp at hf; simp [hf]
    | some v =>
      rw [e] at hf; simp only at hf
      cases e2 : num v with
      | none => rw [e2] at hf; simp at hf
      | some x => rw [e2] at hf; simp at hf; simp [hf, e2]
  rw [sampledFrom] at h
  split at h
  · exact absurd h (by simp)
  · cases sg <;> cases dg <;> simp only at h
    · cases hf : fillValue num o with
      | error e => rw [hf] at h; simp at h
      | ok f =>
        rw [hf] at h; simp only at h
        split at h
        · exact absurd h (by simp)
        · cases hs : sepConstraint num (rest o) with
          | error e => rw [hs] at h; simp at h
          | ok s => rw [hs] at h; simp at h; subst h; exact ⟨rfl, rfl, rfl, rfl, hfill f hf, s, rfl, rfl⟩
    · cases hf : fillValue num o with
      | error e => rw [hf] at h; simp at h
      | ok f =>
        rw [hf] at h; simp only at h
        split at h
        · exact absurd h (by simp)
        · simp at h; subst h; exact ⟨rfl, rfl, rfl, rfl, hfill f hf, rfl⟩
    · split at h
      · rename_i hh
        cases hf : fillValue num o with
        | error e => rw [hf] at h; simp at h
        | ok f =>
          rw [hf] at h; simp at h; subst h
          exact ⟨rfl, rfl, rfl, rfl, hfill f hf, .inr ⟨by rcases hh with rfl | rfl <;> decide, rfl⟩⟩
      · split at h
        · rename_i hb
          cases hs : sepConstraint num (rest o) with
          | error e => rw [hs] at h; simp at h
          | ok s =>
            rw [hs] at h; simp only at h
            cases hf : fillValue num o with
            | error e => rw [hf] at h; simp at h
            | ok f => rw [hf] at h; simp at h; subst h; exact ⟨rfl, rfl, rfl, rfl, hfill f hf, .inl ⟨hb, s, rfl, rfl⟩⟩
        · exact absurd h (by simp)
    · split at h
      · exact absurd h (by simp)
      · split at h
        · exact absurd h (by simp)
        · cases hf : fillValue num o with
          | error e => rw [hf] at h; simp at h
          | ok f => rw [hf] at h; simp at h; subst h; exact ⟨rfl, rfl, rfl, rfl, hfill f hf, rfl⟩

/-- The names of the results for one variable. -/
def Spec.names (kernel n : Str) : List Str :=
  if kernel = moments then [n, n ++ "_std_dev".toList, n ++ "_num_points".toList] else [n]

/-- C178: the results of `box` onto points: for every variable, in order, the variable with its own name, long name, standard name and units;
with `moments` also the standard deviation (same units) and the number of points. The missing value is the fill value. -/
theorem c178_box_results (p : Plan) (s : Seps) (k : Str) (hw : p.work = .boxPoints s k) (vars : List Names) :
    ∃ out, outputs p vars = .ok out ∧ out.map (fun r => r.names.name) = vars.flatMap (fun m => Spec.names k m.name) ∧
      (∀ m ∈ vars, (⟨m, some p.fill⟩ : Out) ∈ out) ∧
      (∀ r ∈ out, r.missing = some p.fill ∧ ∃ m ∈ vars, r.names.units = m.units ∨ r.names.name = m.name ++ "_num_points".toList) := by
  refine ⟨_, by rw [outputs, hw], ?_, ?_, ?_⟩
  · rw [List.map_flatMap]
    refine List.flatMap_congr fun m hm => ?_
    rw [details, Spec.names]; split <;> simp
  · intro m hm
    rw [List.mem_flatMap]
    refine ⟨m, hm, List.mem_map.2 ⟨m, ?_, rfl⟩⟩
    rw [details]; split <;> simp
  · intro r hr
    rw [List.mem_flatMap] at hr
    obtain ⟨m, hm, hr⟩ := hr
    obtain ⟨d, hd, rfl⟩ := List.mem_map.1 hr
    refine ⟨rfl, m, hm, ?_⟩
    rw [details] at hd
    split at hd
    · simp only [List.mem_cons, List.not_mem_nil, or_false] at hd
      rcases hd with rfl | rfl | rfl
      · exact .inl rfl
      · exact .inl rfl
      · exact .inr rfl
    · simp only [List.mem_cons, List.not_mem_nil, or_false] at hd
      subst hd; exact .inl rfl

/-- C178: results of different variables have different names if no name is another one with `_std_dev` or `_num_points` after it; so none is
lost when they are saved (C51). -/
theorem c178_distinct (k : Str) (names : List Str) (hd : names.Nodup)
    (hs : ∀ a ∈ names, ∀ b ∈ names, a ≠ b ++ "_std_dev".toList ∧ a ≠ b ++ "_num_points".toList) :
    (names.flatMap (Spec.names k)).Nodup := by
  have hne : ∀ a b : Str, a ++ "_std_dev".toList ≠ b ++ "_num_points".toList := by
    intro a b h
    have := congrArg List.getLast? h
    rw [List.getLast?_append_of_ne_nil _ (by decide), List.getLast?_append_of_ne_nil _ (by decide)] at this
    revert this; decide
  have own : ∀ a : Str, ∀ t : Str, t ≠ [] → a ≠ a ++ t := by
    intro a t ht h; exact ht (by simpa using h.symm)
  rw [List.nodup_flatMap]
  constructor
  · intro n hn
    rw [Spec.names]
    split
    · simp only [List.nodup_cons, List.mem_cons, List.not_mem_nil, or_false, not_or, List.nodup_nil, and_true, not_false_eq_true]
      exact ⟨⟨own n _ (by decide), own n _ (by decide)⟩, hne n n⟩
    · simp
  · refine (List.pairwise_iff_forall_sublist.2 fun {a b} hab => ?_)
    have ha : a ∈ names := hab.subset (by simp)
    have hb : b ∈ names := hab.subset (by simp)
    have hab' : a ≠ b := by
      have := hd.sublist hab; simpa using this
    intro x hx hy
    by_cases hk : k = moments
    · rw [Spec.names, if_pos hk] at hx hy
      simp only [List.mem_cons, List.not_mem_nil, or_false] at hx hy
      rcases hx with rfl | rfl | rfl <;> rcases hy with h | h | h
      · exact hab' h
      · exact (hs _ ha _ hb).1 h
      · exact (hs _ ha _ hb).2 h
      · exact (hs _ hb _ ha).1 h.symm
      · exact hab' (List.append_cancel_right h)
      · exact hne _ _ h
      · exact (hs _ hb _ ha).2 h.symm
      · exact hne _ _ h.symm
      · exact hab' (List.append_cancel_right h)
    · rw [Spec.names, if_neg hk] at hx hy
      simp only [List.mem_cons, List.not_mem_nil, or_false] at hx hy
      exact hab' (hx.symm.trans hy)

/-- C178: the results of binning onto a grid and of interpolation at points have the name, long name and units given as options, and otherwise
those of the variable; the standard name is that of the variable and the missing value the fill value. -/
theorem c178_named_results (p : Plan) (m : Names) (n l u : Str) (hn : n ≠ []) (hl : l ≠ []) (hu : u ≠ [])
    (hw : (∃ k, k ≠ moments ∧ p.work = .binGrid k) ∨ (∃ a b, p.work = .interpPoints a b)) :
    (p.name = some n → p.long = some l → p.units = some u → outputs p [m] = .ok [⟨⟨n, some l, m.standard, some u⟩, some p.fill⟩]) ∧
    (p.name = none → p.long = none → p.units = none → outputs p [m] = .ok [⟨m, some p.fill⟩]) := by
  constructor
  · intro h1 h2 h3
    rcases hw with ⟨k, hk, hw⟩ | ⟨a, b, hw⟩
    · simp [outputs, hw, details, hk, override, orElse, h1, h2, h3, hn, hl, hu]
    · simp [outputs, hw, override, orElse, h1, h2, h3, hn, hl, hu]
  · intro h1 h2 h3
    rcases hw with ⟨k, hk, hw⟩ | ⟨a, b, hw⟩
    · simp [outputs, hw, details, hk, override, orElse, h1, h2, h3]
    · simp [outputs, hw, override, orElse, h1, h2, h3]

/-- C178: the flag for missing samples: written `True` or `False` (in any case, or without value for true) it is that, else whether a sample
variable is given. -/
theorem c178_flag (sampleVar : Bool) (o : Opts) (hd : (o.map Prod.fst).Nodup) :
    ((∀ v, (kMissing, v) ∉ o) → missingFlag sampleVar o = sampleVar) ∧
    ((kMissing, none) ∈ o → missingFlag sampleVar o = true) ∧
    (∀ v, (kMissing, some v) ∈ o → v.map Char.toLower = "true".toList → missingFlag sampleVar o = true) ∧
    (∀ v, (kMissing, some v) ∈ o → v.map Char.toLower = "false".toList → missingFlag sampleVar o = false) := by
  refine ⟨fun h => ?_, fun h => ?_, fun v h hv => ?_, fun v h hv => ?_⟩
  · rw [missingFlag]
    cases e : o.lookup kMissing with
    | none => rfl
    | some v => exact absurd (mem_of_lookup e) (h v)
  · rw [missingFlag, lookup_of_mem hd h]; rfl
  · rw [missingFlag, lookup_of_mem hd h]; simp [checkBoolean, hv]
  · rw [missingFlag, lookup_of_mem hd h]; simp only [checkBoolean, hv]; decide

/-! ### C179: documented options without effect -/

/-- C179 violated: for `lin`, `nn` and `bin` every further option is accepted, whatever its name and value, and ignored: separations as well as
misspelt options. -/
theorem c179_ignored_violated (num : Str → Option ℚ) (sg dg : Bool) (how : Str) (kernel : Option Str) (missing : Bool) (o : Opts)
    (hm : dg = true ∨ (sg = true ∧ how ≠ "box".toList)) (k : Str) (v : Option Str) (h1 : k ∉ Spec.given)
    (h2 : k ∉ [kFill, kName, kLong, kUnits]) :
    sampledFrom num sg dg how kernel missing ((k, v) :: o) = sampledFrom num sg dg how kernel missing o := by
  have ha : ∀ k' ∈ [kFill, kName, kLong, kUnits], arg ((k, v) :: o) k' = arg o k' := by
    intro k' hk
    have : (k' == k) = false := by
      simp only [beq_eq_false_iff_ne]; rintro rfl; exact h2 hk
    rw [arg, arg, List.lookup_cons, this]
  have hany : List.any ((k, v) :: o) (fun kv => kv.1 ∈ passed) = o.any (fun kv => kv.1 ∈ passed) := by
    rw [List.any_cons]
    have : decide (k ∈ passed) = false := by rw [← given_eq]; simpa using h1
    simp only [this, Bool.false_or]
  rw [sampledFrom, sampledFrom, hany, fillValue, fillValue, ha kFill (by decide), ha kName (by decide), ha kLong (by decide),
    ha kUnits (by decide)]
  rcases hm with rfl | ⟨rfl, hb⟩
  · cases sg <;> rfl
  · cases dg
    · simp only [if_neg hb]
    · rfl

/-- C179 violated, `extrapolate`: the documented option of `lin` and `nn` has no effect, whatever its value: what is accepted, and what is done,
is the same without it, and it is never to extrapolate. -/
theorem c179_extrapolate_violated (num : Str → Option ℚ) (sg : Bool) (how : Str) (kernel : Option Str) (missing : Bool) (o : Opts)
    (v : Option Str) :
    sampledFrom num sg true how kernel missing (("extrapolate".toList, v) :: o) = sampledFrom num sg true how kernel missing o ∧
    ∀ p, sampledFrom num sg true how kernel missing o = .ok p →
      p.work = .interpPoints (how = "nn".toList) false ∨ p.work = .interpGrid (how = "nn".toList) false := by
  constructor
  · exact c179_ignored_violated _ _ _ _ _ _ _ (.inl rfl) _ _ (by decide) (by decide)
  · intro p hp
    have := c178_work _ _ _ _ _ _ _ _ hp
    cases sg
    · exact .inl this.2.2.2.2.2
    · exact .inr this.2.2.2.2.2

/-- C179 violated, `box` onto a grid: the documented method is accepted, but no collocation with it ever succeeds. -/
theorem c179_box_grid_violated (num : Str → Option ℚ) (kernel : Option Str) (missing : Bool) (o : Opts) (p : Plan)
    (h : sampledFrom num true false "box".toList kernel missing o = .ok p) (vars : List Names) : outputs p vars = .error .failed := by
  rcases (c178_work _ _ _ _ _ _ _ _ h).2.2.2.2.2 with ⟨-, s, -, hw⟩ | ⟨hn, -⟩
  · rw [outputs, hw]
  · exact absurd rfl hn

/-- C179 violated, methods of the documentation that do not exist: `box` from a grid onto a grid, and `dummy`. -/
theorem c179_table_violated (num : Str → Option ℚ) (sg dg : Bool) (kernel : Option Str) (missing : Bool) (o : Opts) :
    (∀ p, sampledFrom num true true "box".toList kernel missing o ≠ .ok p) ∧ (∀ p, sampledFrom num sg dg "dummy".toList kernel missing o ≠ .ok p) := by
  constructor
  · intro p hp
    have := ((c178_accepted _ _ _ _ _ _ _).1 ⟨p, hp⟩).1
    revert this; decide
  · intro p hp
    have := ((c178_accepted _ _ _ _ _ _ _).1 ⟨p, hp⟩).1
    revert this; cases sg <;> cases dg <;> decide

/-- C179 violated, `var_name`, `var_long_name` and `var_units` with `box`: without effect. -/
theorem c179_box_names_violated (p q : Plan) (s : Seps) (k : Str) (hp : p.work = .boxPoints s k) (hq : q.work = .boxPoints s k)
    (hf : p.fill = q.fill) (vars : List Names) : outputs p vars = outputs q vars := by
  simp [outputs, hp, hq, hf]

/-- C179 violated, grids onto grids: neither these nor `fill_value` have any effect. -/
theorem c179_grid_names_violated (p q : Plan) (a b c d : Bool) (hp : p.work = .interpGrid a b) (hq : q.work = .interpGrid c d)
    (vars : List Names) : outputs p vars = outputs q vars ∧ ∀ out, outputs p vars = .ok out → ∀ r ∈ out, r.missing = none := by
  constructor
  · simp [outputs, hp, hq]
  · intro out h r hr
    simp only [outputs, hp, Except.ok.injEq] at h
    subst h
    obtain ⟨m, -, rfl⟩ := List.mem_map.1 hr
    rfl

/-- C179 violated, names of the results of `moments`: the options of the kernel are accepted and ignored. -/
theorem c179_moments_violated (num : Str → Option ℚ) (kernels : List Str) (sampleVar sg dg : Bool) (col : Option (Str × Opts))
    (hk : moments ∈ kernels) (o : Opts) (ho : ∀ kv ∈ o, kv.1 ∈ ["mean_name".toList, "stddev_name".toList, "nopoints_name".toList]) :
    colCommand num kernels sampleVar sg dg col (some (moments, o)) = colCommand num kernels sampleVar sg dg col (some (moments, [])) := by
  have : kernelOf kernels moments o = kernelOf kernels moments [] := by
    have hm : moments ≠ [] := by decide
    have h1 : kernelOf kernels moments o = .ok (some moments) := by
      rw [kernelOf, if_neg hm, if_neg (not_not.2 hk), if_pos rfl, if_pos]
      rw [List.all_eq_true]; intro kv hkv; exact decide_eq_true (ho kv hkv)
    have h2 : kernelOf kernels moments [] = .ok (some moments) := by
      rw [kernelOf, if_neg hm, if_neg (not_not.2 hk), if_pos rfl, if_pos]
      rfl
    rw [h1, h2]
  simp only [colCommand, Option.getD_some, this]

/-- C179 violated: a value of the flag that is neither true nor false is not refused (`yes` means false), and a separation written without value
is none. -/
theorem c179_values_violated (num : Str → Option ℚ) :
    missingFlag true [(kMissing, some "yes".toList)] = false ∧ sepConstraint num [(kH, none)] = sepConstraint num [] ∧
    readT "6000S".toList = .error .option := by
  refine ⟨by decide, ?_, by decide +kernel⟩
  rw [sepConstraint, sepConstraint]
  have h1 : arg [(kH, none)] kH = arg [] kH := by decide
  have h2 : arg [(kH, none)] kA = arg [] kA := by decide
  have h3 : arg [(kH, none)] kP = arg [] kP := by decide
  have h4 : arg [(kH, none)] kT = arg [] kT := by decide
  rw [h1, h2, h3, h4]; rfl

/-- C179 violated, several variables: with `var_name` all results have the same name, and with `moments` a variable named like the standard
deviation of another gives the same name twice; when they are saved one is lost (C51). -/
theorem c179_clash_violated (p : Plan) (n : Str) (hn : n ≠ []) (hp : p.name = some n) (a b : Bool) (hw : p.work = .interpPoints a b) (m m' : Names)
    (q : Plan) (s : Seps) (hq : q.work = .boxPoints s moments) :
    (∃ out, outputs p [m, m'] = .ok out ∧ out.map (fun r => r.names.name) = [n, n]) ∧
    ∃ out, outputs q [⟨"a".toList, none, none, none⟩, ⟨"a_std_dev".toList, none, none, none⟩] = .ok out ∧
      ¬ (out.map (fun r => r.names.name)).Nodup := by
  constructor
  · refine ⟨_, by rw [outputs, hw], ?_⟩
    simp [override, orElse, hp, hn]
  · refine ⟨_, by rw [outputs, hq], ?_⟩
    simp only [List.flatMap_cons, List.flatMap_nil, details, if_pos]
    simp

/-! ### Examples -/

/-- C178: which kernels the command accepts, exactly: none, or a known name; with options only for `moments`, and then only the names of its
results. A kernel that is not known is refused before anything is collocated, whatever the rest of the command says. -/
theorem c178_kernel (num : Str → Option ℚ) (kernels : List Str) (sampleVar sg dg : Bool) (how : Str) (l : Opts) (kern : Str) (o : Opts) :
    (∃ p, colCommand num kernels sampleVar sg dg (some (how, l)) (some (kern, o)) = .ok p) ↔
      (kern = [] ∨ kern ∈ kernels ∧ ∀ kv ∈ o, kern = "moments".toList ∧
        kv.1 ∈ ["mean_name".toList, "stddev_name".toList, "nopoints_name".toList]) ∧
      how ∈ Spec.methods sg dg ∧ (∀ kv ∈ l, kv.1 ∉ Spec.given ∨ kv.1 = kMissing) ∧
      (∀ v, arg (l.filter (fun kv => kv.1 ≠ kMissing)) kFill = some v → ∃ x, num v = some x) ∧ (sg = true ∧ dg = true → kern = []) ∧
      ((sg = false ∧ dg = false) ∨ (sg = true ∧ dg = false ∧ how = "box".toList) → Spec.Readable num (l.filter (fun kv => kv.1 ≠ kMissing))) := by
  rw [given_eq]
  have hpass : (∀ kv ∈ l.filter (fun kv => kv.1 ≠ kMissing), kv.1 ∉ passed) ↔ ∀ kv ∈ l, kv.1 ∉ passed ∨ kv.1 = kMissing := by
    simp only [List.mem_filter, decide_eq_true_eq]
    exact ⟨fun h kv hkv => (em (kv.1 = kMissing)).elim .inr (fun hn => .inl (h kv ⟨hkv, hn⟩)),
      fun h kv hkv => (h kv hkv.1).resolve_right hkv.2⟩
  have hk : (∃ r, kernelOf kernels kern o = .ok r) ↔ (kern = [] ∨ kern ∈ kernels ∧ ∀ kv ∈ o, kern = "moments".toList ∧
        kv.1 ∈ ["mean_name".toList, "stddev_name".toList, "nopoints_name".toList]) := by
    rw [kernelOf]
    by_cases h0 : kern = []
    · rw [if_pos h0]; simp [h0]
    rw [if_neg h0]
    by_cases h1 : kern ∈ kernels
    · rw [if_neg (not_not.2 h1)]
      by_cases h2 : kern = moments
      · rw [if_pos h2]
        have h2' : kern = "moments".toList := h2
        by_cases h3 : o.all (fun kv => kv.1 ∈ ["mean_name".toList, "stddev_name".toList, "nopoints_name".toList]) = true
        · rw [if_pos h3]
          refine iff_of_true ⟨_, rfl⟩ (.inr ⟨h1, fun kv hkv => ⟨h2', ?_⟩⟩)
          exact of_decide_eq_true (List.all_eq_true.1 h3 kv hkv)
        · rw [if_neg h3]
          refine iff_of_false (fun ⟨_, h⟩ => nomatch h) ?_
          rintro (h | ⟨-, h⟩)
          · exact h0 h
          · exact h3 (List.all_eq_true.2 (fun kv hkv => decide_eq_true (h kv hkv).2))
      · rw [if_neg h2]
        by_cases h3 : o = []
        · rw [if_pos h3]
          exact iff_of_true ⟨_, rfl⟩ (.inr ⟨h1, by simp [h3]⟩)
        · rw [if_neg h3]
          refine iff_of_false (fun ⟨_, h⟩ => nomatch h) ?_
          rintro (h | ⟨-, h⟩)
          · exact h0 h
          · obtain ⟨kv, hkv⟩ := List.exists_mem_of_ne_nil o h3
            exact h2 (h kv hkv).1
    · rw [if_pos h1]
      exact iff_of_false (fun ⟨_, h⟩ => nomatch h) (fun h => h.elim h0 (fun h => h1 h.1))
  have hnone : ∀ r, kernelOf kernels kern o = .ok r → (r = none ↔ kern = []) := by
    intro r hr
    rw [kernelOf] at hr
    split at hr
    · simp_all
    · split at hr
      · cases hr
      · split at hr
        · split at hr
          · injection hr with hr; subst hr; simp_all
          · cases hr
        · split at hr
          · injection hr with hr; subst hr; simp_all
          · cases hr
  rw [← hk, ← hpass]
  rw [colCommand]
  dsimp only [Option.getD_some]
  cases e : kernelOf kernels kern o with
  | error x => exact iff_of_false (fun ⟨_, h⟩ => nomatch h) (fun h => nomatch h.1.choose_spec)
  | ok r =>
    dsimp only
    rw [c178_accepted]
    have hr := hnone r e
    constructor
    · rintro ⟨a, b, c, d, f⟩
      exact ⟨⟨r, rfl⟩, a, b, c, fun h => hr.1 (d h), f⟩
    · rintro ⟨-, a, b, c, d, f⟩
      exact ⟨a, b, c, fun h => hr.2 (d h), f⟩

/-- A `float()` for the examples. -/
def exNum (s : Str) : Option ℚ := if s = "50".toList then some 50 else if s = "-999".toList then some (-999) else none

def exOpts : Opts := [(kH, some "50km".toList), (kT, some "P1D".toList), (kFill, some "-999".toList), (kMissing, some "False".toList)]

/-- The hypotheses of `c178_box` hold for `box[h_sep=50km,t_sep=P1D,fill_value=-999,missing_data_for_missing_sample=False]`. -/
example : ∃ p s, colCommand exNum [moments, "mean".toList] true false false
      (some (Method.methodArgs (Method.Spec.method "box".toList exOpts))) (some ("mean".toList, [])) = .ok p ∧
      p.work = .boxPoints s "mean".toList ∧ s = ⟨some 50, none, none, some 1⟩ ∧ p.fill = some (-999) ∧ p.missing = false := by
  refine ⟨⟨.boxPoints ⟨some 50, none, none, some 1⟩ "mean".toList, some (-999), none, none, none, false⟩, _, ?_, rfl, rfl, rfl, rfl⟩
  decide +kernel

example : Method.Spec.Plain "box".toList exOpts ∧ (∀ kv ∈ exOpts, kv.1 ∈ Spec.keys) ∧ (∃ x, Spec.Km exNum "50km".toList x) := by
  refine ⟨⟨by decide, by decide, by decide, by decide +kernel, by decide⟩, by decide, 50, "50".toList, [], "km".toList, 50, rfl,
    ⟨[], "50".toList, [], rfl, .inl rfl, .int _ ⟨by decide, by decide⟩, .none⟩, by intro c hc; simp at hc, by decide, .inl ⟨.inr rfl, rfl⟩⟩

example : ∃ x, Spec.Days "P1D".toList x :=
  ⟨1, none, none, some "1".toList, none, 86400, by simp, by simp, by rintro n ⟨⟩; exact ⟨by decide, by decide⟩, by simp, by decide, by decide, by decide,
    by norm_num⟩

/-- C179 is violated by separations in months: `PnM` is 30 n days, however many days (365 at least) the Gregorian year is said to have of which a month
is documented to be the twelfth part (doc/collocation.rst:62-65). -/
theorem c179_months_violated (num : Str → Option ℚ) (o : Opts) (s : Seps) (n : Str) (hn : IsNumeral n) (hpos : 0 < value n) (hlt : 30 * value n < 1000000000)
    (ho : (o.map Prod.fst).Nodup) (hT : (kT, some ('P' :: n ++ ['M'])) ∈ o) (h : sepConstraint num o = .ok s) (year : ℚ) (hy : 365 ≤ year) :
    ∃ t, s.t = some t ∧ t = 30 * value n ∧ t < value n * (year / 12) := by
  have hup : ('P' :: n ++ ['M']).map Char.toUpper = Time.Spec.duration none (some n) none none := by
    have hd : ∀ c ∈ n, c.toUpper = c := by
      intro c hc
      have := hn.2 c hc
      rw [Char.toUpper, dif_neg]
      rw [Char.isDigit, Bool.and_eq_true, decide_eq_true_eq, decide_eq_true_eq] at this
      rintro ⟨h1, -⟩
      have h2 : (97 : UInt32) ≤ 57 := UInt32.le_trans h1 this.2
      exact absurd h2 (by decide)
    have hm : n.map Char.toUpper = n := by
      conv_rhs => rw [← List.map_id n]
      exact List.map_congr_left hd
    simp only [List.map_cons, List.cons_append, List.map_append, hm, Time.Spec.duration, Time.Spec.field, List.nil_append, List.append_nil, List.map_nil]
    rfl
  have e := (Time.c26_grammar none (some n) none none _ (by simp) (by rintro m ⟨⟩; exact hn) (by simp) (by simp) hup (86400 * (30 * value n))
    (by simp [Time.Spec.num]) (by omega)).2
  have ha := (arg_some ho).2 hT
  rw [sepConstraint] at h
  split at h
  · split at h
    · cases h
    · split at h
      · cases h
      · split at h
        · cases h
        · rw [ha, readSep, readT, e] at h
          simp only [Except.ok.injEq] at h
          subst h
          refine ⟨_, rfl, ?_, ?_⟩
          · push_cast; ring
          · have : (0 : ℚ) < value n := by exact_mod_cast hpos
            push_cast
            nlinarith
  · cases h

example : ∃ s t, sepConstraint exNum [(kT, some "P3M".toList)] = .ok s ∧ s.t = some t ∧ t < 3 * (36525 / 100 / 12) :=
  ⟨⟨none, none, none, some 90⟩, 90, by decide +kernel, rfl, by norm_num⟩

end Cis.ColOpts
