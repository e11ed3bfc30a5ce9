import Mathlib.Logic.Function.Basic
import Mathlib.Tactic
set_option linter.unusedSectionVars false
set_option linter.unusedSimpArgs false
/-!
Model of the commands of `cis` (cis/cis_main.py): which datagroups are accepted, what is written, and the exit status. Property C97.

Reading, subsetting, aggregating and the rest are parameters that may raise anything; what `save_data` leaves on disk is a parameter too.
Logging, and the text printed by `stats`, `info` and `version`, are not modelled; `plot` is in C88.
-/
namespace Cis.Main

/-- What can be raised: MemoryError, any other Exception, SystemExit with its status, and other BaseExceptions (KeyboardInterrupt). -/
inductive Exc
  | memory
  | exception (msg : String)
  | exit (status : Nat)
  | interrupt
deriving DecidableEq

/-- The files on disk. -/
abbrev Disk (C : Type) := String → Option C

variable {G D R C : Type}

/-- A command: what it raises, if anything, and the files afterwards. -/
abbrev Run (C : Type) := Disk C → Except Exc Unit × Disk C

/-- `__error_occurred` (cis_main.py:16-26). -/
def errorOccurred : Run C := fun d => (.error (.exit 1), d)

/-- A step that raises leaves the files as they are. -/
def attempt {α : Type} (x : Except Exc α) (k : α → Run C) : Run C := fun d =>
  match x with
  | .error e => (.error e, d)
  | .ok a => k a d

/-- `output.save_data(path)`: what is left on disk at the path (`none`: untouched), and what is raised. -/
def saveTo (save : R → Option C × Except Exc Unit) (path : String) (r : R) : Run C := fun d =>
  match save r with
  | (some c, e) => (e, Function.update d path (some c))
  | (none, e) => (e, d)

/-- `subset_cmd` (cis_main.py:99-119). -/
def subsetCmd (read : G → Except Exc D) (subset : D → Except Exc (Option R)) (save : R → Option C × Except Exc Unit) (groups : List G)
    (output : String) : Run C :=
  match groups with
  | [] => fun d => (.error (.exception "IndexError"), d)
  | [g] => attempt (read g) (fun x => attempt (subset x) (fun r => match r with
    | none => fun d => (.error (.exception "NoDataInSubsetError"), d)
    | some r => saveTo save output r))
  | _ => errorOccurred

/-- What `aggregate_cmd` and `collapse_cmd` do with the data: `gridded` says which kind they are. -/
structure Agg (D R : Type) where
  gridded : D → Bool
  collapsed : D → List String → Except Exc R
  aggregate : D → List (String × Option (List String)) → Except Exc R

/-- `aggregate_cmd` (cis_main.py:122-148): the grid is the list of names with the optional limits. -/
def aggregateCmd (read : G → Except Exc D) (a : Agg D R) (save : R → Option C × Except Exc Unit)
    (groups : List G) (grid : List (String × Option (List String))) (output : String) : Run C :=
  match groups with
  | [] => fun d => (.error (.exception "IndexError"), d)
  | [g] => attempt (read g) (fun x =>
    if a.gridded x then
      if grid.any (fun p => p.2.isSome) then fun d => (.error (.exception "InvalidCommandLineOptionError"), d)
      else attempt (a.collapsed x (grid.map Prod.fst)) (saveTo save output)
    else attempt (a.aggregate x grid) (saveTo save output))
  | _ => errorOccurred

/-- `collapse_cmd` (cis_main.py:151-171): ungridded data have no method `collapsed`. -/
def collapseCmd (read : G → Except Exc D) (a : Agg D R) (save : R → Option C × Except Exc Unit) (groups : List G)
    (dimensions : List String) (output : String) : Run C :=
  match groups with
  | [] => fun d => (.error (.exception "IndexError"), d)
  | [g] => attempt (read g) (fun x =>
    if a.gridded x then attempt (a.collapsed x dimensions) (saveTo save output)
    else fun d => (.error (.exception "AttributeError"), d))
  | _ => errorOccurred

/-- Reading of all datagroups, one after the other (data_reader.py: `read_datagroups`). -/
def readAll (read : G → Except Exc D) : List G → Except Exc (List D)
  | [] => .ok []
  | g :: t => match read g with
    | .error e => .error e
    | .ok x => match readAll read t with
      | .error e => .error e
      | .ok r => .ok (x :: r)

/-- `evaluate_cmd` (cis_main.py:174-186). -/
def evaluateCmd (read : G → Except Exc D) (eval : List D → Except Exc R) (save : R → Option C × Except Exc Unit) (groups : List G)
    (output : String) : Run C :=
  attempt (readAll read groups) (fun xs => attempt (eval xs) (saveTo save output))

/-- `stats_cmd` (cis_main.py:189-225): written only if an output is given. -/
def statsCmd (read : G → Except Exc D) (analyze : List D → Except Exc R) (save : R → Option C × Except Exc Unit) (groups : List G)
    (output : Option String) : Run C :=
  attempt (readAll read groups) (fun xs => attempt (analyze xs) (fun r => match output with
    | none => fun d => (.ok (), d)
    | some o => saveTo save o r))

/-- `check_boolean` with a parser (parse.py:782-788): `fail` is what its method `error` does: `none` goes on (the logging module),
so that the result is `None`. -/
def checkBoolean (fail : Option Exc) (arg : String) : Except Exc (Option Bool) :=
  if arg.toLower = "true" then .ok (some true)
  else if arg.toLower = "false" then .ok (some false)
  else match fail with
    | some e => .error e
    | none => .ok none

/-- The treatment of missing sample points in `col_cmd` (cis_main.py:72-90): by default, whether a sample variable is given; the option
of the collocator is given to `check_boolean` with the logging module as parser. `None` counts as false. -/
def missingOption (sampleVariable : Bool) (option : Option String) : Except Exc Bool :=
  match checkBoolean none (option.getD (if sampleVariable then "True" else "False")) with
  | .error e => .error e
  | .ok b => .ok (b.getD false)

/-- `main` (cis_main.py:249-284): the exit status. `interrupted` is the status of the interpreter for other exceptions. -/
def mainStatus (interrupted : Nat) (r : Except Exc Unit) : Nat :=
  match r with
  | .ok _ => 0
  | .error .memory => 1
  | .error (.exception _) => 1
  | .error (.exit n) => n
  | .error .interrupt => interrupted

/-! ### Specification -/

/-- A command that ends with status 0 has written exactly `c` to the output, and touched nothing else. -/
def Spec.Wrote (d d' : Disk C) (output : String) (c : C) : Prop := d' output = some c ∧ ∀ p, p ≠ output → d' p = d p

/-- Whatever happens, only the output can change. -/
def Spec.OnlyOutput (d d' : Disk C) (output : String) : Prop := ∀ p, p ≠ output → d' p = d p

/-- A save that raises nothing has written. -/
def Spec.Saves (save : R → Option C × Except Exc Unit) : Prop := ∀ r, (save r).2 = .ok () → (save r).1.isSome

/-! ### Proofs -/

theorem saveTo_ok (save : R → Option C × Except Exc Unit) (hs : Spec.Saves save) (path : String) (r : R) (d : Disk C) :
    (saveTo save path r d).1 = .ok () ↔ ∃ c, save r = (some c, .ok ()) := by
  unfold saveTo
  have := hs r
  constructor
  · intro h
    match hx : save r with
    | (some c, e) => rw [hx] at h; simp only at h; exact ⟨c, by rw [h]⟩
    | (none, e) =>
      rw [hx] at h this
      simp only at h
      exact absurd (this h) (by simp)
  · rintro ⟨c, h⟩
    rw [h]

theorem saveTo_wrote (save : R → Option C × Except Exc Unit) (path : String) (r : R) (d : Disk C) (c : C) (h : save r = (some c, .ok ())) :
    Spec.Wrote d (saveTo save path r d).2 path c := by
  unfold saveTo
  rw [h]
  refine ⟨by simp, ?_⟩
  intro p hp
  simp [hp]

theorem saveTo_only (save : R → Option C × Except Exc Unit) (path : String) (r : R) (d : Disk C) :
    Spec.OnlyOutput d (saveTo save path r d).2 path := by
  intro p hp
  unfold saveTo
  split
  · simp [hp]
  · rfl

/-- C97: the status is 0 exactly if nothing was raised (or the program was asked to end with status 0, as for `--help`). -/
theorem c97_status (i : Nat) (hi : i ≠ 0) (r : Except Exc Unit) : mainStatus i r = 0 ↔ r = .ok () ∨ r = .error (.exit 0) := by
  unfold mainStatus
  split <;> simp_all

/-- C97 for `subset`: it succeeds exactly with one datagroup that can be read, with something left, that can be saved; then the output is
what was saved. -/
theorem c97_subset (read : G → Except Exc D) (subset : D → Except Exc (Option R)) (save : R → Option C × Except Exc Unit)
    (hs : Spec.Saves save) (groups : List G) (output : String) (d : Disk C) :
    ((subsetCmd read subset save groups output d).1 = .ok () ↔
      ∃ g x r c, groups = [g] ∧ read g = .ok x ∧ subset x = .ok (some r) ∧ save r = (some c, .ok ())) ∧
    (∀ g x r c, groups = [g] → read g = .ok x → subset x = .ok (some r) → save r = (some c, .ok ()) →
      Spec.Wrote d (subsetCmd read subset save groups output d).2 output c) := by
  constructor
  · constructor
    · intro h
      match groups with
      | [] => simp [subsetCmd] at h
      | [g] =>
        simp only [subsetCmd, attempt] at h
        cases hx : read g with
        | error e => rw [hx] at h; simp at h
        | ok x =>
          rw [hx] at h
          simp only at h
          cases hr : subset x with
          | error e => rw [hr] at h; simp at h
          | ok o =>
            rw [hr] at h
            simp only at h
            cases o with
            | none => simp at h
            | some r =>
              simp only at h
              obtain ⟨c, hc⟩ := (saveTo_ok save hs output r d).1 h
              exact ⟨g, x, r, c, rfl, hx, hr, hc⟩
      | _ :: _ :: _ => simp [subsetCmd, errorOccurred] at h
    · rintro ⟨g, x, r, c, rfl, hx, hr, hc⟩
      simp only [subsetCmd, attempt, hx, hr]
      exact (saveTo_ok save hs output r d).2 ⟨c, hc⟩
  · rintro g x r c rfl hx hr hc
    simp only [subsetCmd, attempt, hx, hr]
    exact saveTo_wrote save output r d c hc

/-- C97 for `subset`: without a result to save no file changes. -/
theorem c97_subset_nothing (read : G → Except Exc D) (subset : D → Except Exc (Option R)) (save : R → Option C × Except Exc Unit)
    (groups : List G) (output : String) (d : Disk C)
    (h : ¬ ∃ g x r, groups = [g] ∧ read g = .ok x ∧ subset x = .ok (some r)) :
    (subsetCmd read subset save groups output d).1 ≠ .ok () ∧ (subsetCmd read subset save groups output d).2 = d := by
  match groups with
  | [] => simp [subsetCmd]
  | [g] =>
    simp only [subsetCmd, attempt]
    cases hx : read g with
    | error e => simp
    | ok x =>
      simp only
      cases hr : subset x with
      | error e => simp
      | ok o =>
        simp only
        cases o with
        | none => simp
        | some r => exact absurd ⟨g, x, r, rfl, hx, hr⟩ h
  | _ :: _ :: _ => simp [subsetCmd, errorOccurred]

/-- C97 for `aggregate`: what is saved for ungridded data is their aggregation on the whole grid; for gridded data their collapse over
the named dimensions, and limits or steps are refused. -/
theorem c97_aggregate (read : G → Except Exc D) (a : Agg D R) (save : R → Option C × Except Exc Unit) (hs : Spec.Saves save)
    (groups : List G) (grid : List (String × Option (List String))) (output : String) (d : Disk C) :
    ((aggregateCmd read a save groups grid output d).1 = .ok () ↔
      ∃ g x r c, groups = [g] ∧ read g = .ok x ∧ save r = (some c, .ok ()) ∧
        (a.gridded x = true ∧ (∀ p ∈ grid, p.2 = none) ∧ a.collapsed x (grid.map Prod.fst) = .ok r ∨
          a.gridded x = false ∧ a.aggregate x grid = .ok r)) ∧
    (∀ g x r c, groups = [g] → read g = .ok x → save r = (some c, .ok ()) →
        (a.gridded x = true ∧ (∀ p ∈ grid, p.2 = none) ∧ a.collapsed x (grid.map Prod.fst) = .ok r ∨
          a.gridded x = false ∧ a.aggregate x grid = .ok r) →
      Spec.Wrote d (aggregateCmd read a save groups grid output d).2 output c) := by
  have hany : grid.any (fun p => p.2.isSome) = false ↔ ∀ p ∈ grid, p.2 = none := by
    rw [List.any_eq_false]
    constructor
    · intro h p hp
      have := h p hp
      cases hq : p.2 <;> simp_all
    · intro h p hp
      simp [h p hp]
  constructor
  · constructor
    · intro h
      match groups with
      | [] => simp [aggregateCmd] at h
      | [g] =>
        simp only [aggregateCmd, attempt] at h
        cases hx : read g with
        | error e => rw [hx] at h; simp at h
        | ok x =>
          rw [hx] at h
          simp only at h
          cases hg : a.gridded x with
          | true =>
            rw [hg, if_pos rfl] at h
            cases hany' : grid.any (fun p => p.2.isSome) with
            | true => rw [hany', if_pos rfl] at h; simp at h
            | false =>
              rw [hany', if_neg (by simp)] at h
              cases hr : a.collapsed x (grid.map Prod.fst) with
              | error e => rw [hr] at h; cases h
              | ok r =>
                rw [hr] at h
                obtain ⟨c, hc⟩ := (saveTo_ok save hs output r d).1 h
                exact ⟨g, x, r, c, rfl, hx, hc, .inl ⟨hg, hany.1 hany', hr⟩⟩
          | false =>
            rw [hg, if_neg (by simp)] at h
            cases hr : a.aggregate x grid with
            | error e => rw [hr] at h; cases h
            | ok r =>
              rw [hr] at h
              obtain ⟨c, hc⟩ := (saveTo_ok save hs output r d).1 h
              exact ⟨g, x, r, c, rfl, hx, hc, .inr ⟨hg, hr⟩⟩
      | _ :: _ :: _ => simp [aggregateCmd, errorOccurred] at h
    · rintro ⟨g, x, r, c, rfl, hx, hc, ⟨hg, hn, hr⟩ | ⟨hg, hr⟩⟩
      · simp only [aggregateCmd, attempt, hx, hg, if_true, hany.2 hn, hr]
        exact (saveTo_ok save hs output r d).2 ⟨c, hc⟩
      · simp only [aggregateCmd, attempt, hx, hg, hr]
        exact (saveTo_ok save hs output r d).2 ⟨c, hc⟩
  · rintro g x r c rfl hx hc (⟨hg, hn, hr⟩ | ⟨hg, hr⟩)
    · simp only [aggregateCmd, attempt, hx, hg, if_true, hany.2 hn, hr]
      exact saveTo_wrote save output r d c hc
    · simp only [aggregateCmd, attempt, hx, hg, hr]
      exact saveTo_wrote save output r d c hc

/-- C97 for `collapse`: gridded data only; the output is their collapse. -/
theorem c97_collapse (read : G → Except Exc D) (a : Agg D R) (save : R → Option C × Except Exc Unit) (hs : Spec.Saves save)
    (groups : List G) (dims : List String) (output : String) (d : Disk C) :
    ((collapseCmd read a save groups dims output d).1 = .ok () ↔
      ∃ g x r c, groups = [g] ∧ read g = .ok x ∧ a.gridded x = true ∧ a.collapsed x dims = .ok r ∧ save r = (some c, .ok ())) ∧
    (∀ g x r c, groups = [g] → read g = .ok x → a.gridded x = true → a.collapsed x dims = .ok r → save r = (some c, .ok ()) →
      Spec.Wrote d (collapseCmd read a save groups dims output d).2 output c) := by
  constructor
  · constructor
    · intro h
      match groups with
      | [] => simp [collapseCmd] at h
      | [g] =>
        simp only [collapseCmd, attempt] at h
        cases hx : read g with
        | error e => rw [hx] at h; simp at h
        | ok x =>
          rw [hx] at h
          simp only at h
          cases hg : a.gridded x with
          | false => rw [hg] at h; simp at h
          | true =>
            rw [hg, if_pos rfl] at h
            cases hr : a.collapsed x dims with
            | error e => rw [hr] at h; cases h
            | ok r =>
              rw [hr] at h
              obtain ⟨c, hc⟩ := (saveTo_ok save hs output r d).1 h
              exact ⟨g, x, r, c, rfl, hx, hg, hr, hc⟩
      | _ :: _ :: _ => simp [collapseCmd, errorOccurred] at h
    · rintro ⟨g, x, r, c, rfl, hx, hg, hr, hc⟩
      simp only [collapseCmd, attempt, hx, hg, if_true, hr]
      exact (saveTo_ok save hs output r d).2 ⟨c, hc⟩
  · rintro g x r c rfl hx hg hr hc
    simp only [collapseCmd, attempt, hx, hg, if_true, hr]
    exact saveTo_wrote save output r d c hc

/-- C97: `subset`, `aggregate` and `collapse` of any number of datagroups other than one end with a status other than 0, with the disk as
it was. -/
theorem c97_groups (i : Nat) (read : G → Except Exc D) (subset : D → Except Exc (Option R)) (a : Agg D R)
    (save : R → Option C × Except Exc Unit) (groups : List G) (hg : groups.length ≠ 1) (grid : List (String × Option (List String)))
    (dims : List String) (output : String) (d : Disk C) :
    (mainStatus i (subsetCmd read subset save groups output d).1 ≠ 0 ∧ (subsetCmd read subset save groups output d).2 = d) ∧
    (mainStatus i (aggregateCmd read a save groups grid output d).1 ≠ 0 ∧ (aggregateCmd read a save groups grid output d).2 = d) ∧
    (mainStatus i (collapseCmd read a save groups dims output d).1 ≠ 0 ∧ (collapseCmd read a save groups dims output d).2 = d) := by
  match groups with
  | [] => exact ⟨⟨by simp [subsetCmd, mainStatus], rfl⟩, ⟨by simp [aggregateCmd, mainStatus], rfl⟩, by simp [collapseCmd, mainStatus], rfl⟩
  | [_] => simp at hg
  | _ :: _ :: _ => exact ⟨⟨by simp [subsetCmd, errorOccurred, mainStatus], rfl⟩, ⟨by simp [aggregateCmd, errorOccurred, mainStatus], rfl⟩,
      by simp [collapseCmd, errorOccurred, mainStatus], rfl⟩

theorem readAll_ok (read : G → Except Exc D) : ∀ (groups : List G) (xs : List D), readAll read groups = .ok xs ↔
    List.Forall₂ (fun g x => read g = .ok x) groups xs
  | [], xs => by
    simp only [readAll]
    constructor
    · intro h; cases h; exact .nil
    · intro h; cases h; rfl
  | g :: t, xs => by
    simp only [readAll]
    constructor
    · intro h
      cases hx : read g with
      | error e => rw [hx] at h; simp at h
      | ok x =>
        rw [hx] at h
        simp only at h
        cases hr : readAll read t with
        | error e => rw [hr] at h; simp at h
        | ok r =>
          rw [hr] at h
          cases h
          exact .cons hx ((readAll_ok read t r).1 hr)
    · intro h
      cases h with
      | @cons _ x _ r hx ht =>
        rw [hx]
        simp only
        rw [(readAll_ok read t r).2 ht]

/-- C97 for `eval`: it succeeds exactly if all datagroups can be read, in order, and the result computed and saved. -/
theorem c97_evaluate (read : G → Except Exc D) (eval : List D → Except Exc R) (save : R → Option C × Except Exc Unit) (hs : Spec.Saves save)
    (groups : List G) (output : String) (d : Disk C) :
    ((evaluateCmd read eval save groups output d).1 = .ok () ↔
      ∃ xs r c, List.Forall₂ (fun g x => read g = .ok x) groups xs ∧ eval xs = .ok r ∧ save r = (some c, .ok ())) ∧
    (∀ xs r c, List.Forall₂ (fun g x => read g = .ok x) groups xs → eval xs = .ok r → save r = (some c, .ok ()) →
      Spec.Wrote d (evaluateCmd read eval save groups output d).2 output c) := by
  constructor
  · constructor
    · intro h
      simp only [evaluateCmd, attempt] at h
      cases hx : readAll read groups with
      | error e => rw [hx] at h; simp at h
      | ok xs =>
        rw [hx] at h
        simp only at h
        cases hr : eval xs with
        | error e => rw [hr] at h; simp at h
        | ok r =>
          rw [hr] at h
          obtain ⟨c, hc⟩ := (saveTo_ok save hs output r d).1 h
          exact ⟨xs, r, c, (readAll_ok read groups xs).1 hx, hr, hc⟩
    · rintro ⟨xs, r, c, hx, hr, hc⟩
      simp only [evaluateCmd, attempt, (readAll_ok read groups xs).2 hx, hr]
      exact (saveTo_ok save hs output r d).2 ⟨c, hc⟩
  · intro xs r c hx hr hc
    simp only [evaluateCmd, attempt, (readAll_ok read groups xs).2 hx, hr]
    exact saveTo_wrote save output r d c hc

/-- C97 for `stats`: without an output no file changes; with one it is written. -/
theorem c97_stats (read : G → Except Exc D) (analyze : List D → Except Exc R) (save : R → Option C × Except Exc Unit) (hs : Spec.Saves save)
    (groups : List G) (output : Option String) (d : Disk C) :
    ((statsCmd read analyze save groups output d).1 = .ok () ↔ ∃ xs r, List.Forall₂ (fun g x => read g = .ok x) groups xs ∧
      analyze xs = .ok r ∧ (output ≠ none → ∃ c, save r = (some c, .ok ()))) ∧
    (output = none → (statsCmd read analyze save groups output d).2 = d) ∧
    (∀ o xs r c, output = some o → List.Forall₂ (fun g x => read g = .ok x) groups xs → analyze xs = .ok r → save r = (some c, .ok ()) →
      Spec.Wrote d (statsCmd read analyze save groups output d).2 o c) := by
  refine ⟨⟨?_, ?_⟩, ?_, ?_⟩
  · intro h
    simp only [statsCmd, attempt] at h
    cases hx : readAll read groups with
    | error e => rw [hx] at h; simp at h
    | ok xs =>
      rw [hx] at h
      simp only at h
      cases hr : analyze xs with
      | error e => rw [hr] at h; simp at h
      | ok r =>
        rw [hr] at h
        simp only at h
        refine ⟨xs, r, (readAll_ok read groups xs).1 hx, hr, ?_⟩
        intro ho
        cases output with
        | none => exact absurd rfl ho
        | some o => exact (saveTo_ok save hs o r d).1 h
  · rintro ⟨xs, r, hx, hr, hc⟩
    simp only [statsCmd, attempt, (readAll_ok read groups xs).2 hx, hr]
    cases output with
    | none => rfl
    | some o => exact (saveTo_ok save hs o r d).2 (hc (by simp))
  · rintro rfl
    simp only [statsCmd, attempt]
    cases readAll read groups with
    | error e => rfl
    | ok xs =>
      simp only
      cases analyze xs <;> rfl
  · rintro o xs r c rfl hx hr hc
    simp only [statsCmd, attempt, (readAll_ok read groups xs).2 hx, hr]
    exact saveTo_wrote save o r d c hc

/-- C97: whatever happens, no command touches another file than its output. -/
theorem c97_only_output (read : G → Except Exc D) (subset : D → Except Exc (Option R)) (a : Agg D R) (eval : List D → Except Exc R)
    (save : R → Option C × Except Exc Unit) (groups : List G) (grid : List (String × Option (List String))) (dims : List String)
    (output : String) (d : Disk C) :
    Spec.OnlyOutput d (subsetCmd read subset save groups output d).2 output ∧
    Spec.OnlyOutput d (aggregateCmd read a save groups grid output d).2 output ∧
    Spec.OnlyOutput d (collapseCmd read a save groups dims output d).2 output ∧
    Spec.OnlyOutput d (evaluateCmd read eval save groups output d).2 output ∧
    Spec.OnlyOutput d (statsCmd read eval save groups (some output) d).2 output := by
  have hself : Spec.OnlyOutput d d output := fun _ _ => rfl
  refine ⟨?_, ?_, ?_, ?_, ?_⟩
  · match groups with
    | [] => exact hself
    | [g] =>
      simp only [subsetCmd, attempt]
      split
      · exact hself
      · split
        · exact hself
        · split
          · exact hself
          · exact saveTo_only save output _ d
    | _ :: _ :: _ => exact hself
  · match groups with
    | [] => exact hself
    | [g] =>
      simp only [aggregateCmd, attempt]
      split
      · exact hself
      · split
        · split
          · exact hself
          · unfold attempt
            split
            · exact hself
            · exact saveTo_only save output _ d
        · unfold attempt
          split
          · exact hself
          · exact saveTo_only save output _ d
    | _ :: _ :: _ => exact hself
  · match groups with
    | [] => exact hself
    | [g] =>
      simp only [collapseCmd, attempt]
      split
      · exact hself
      · split
        · unfold attempt
          split
          · exact hself
          · exact saveTo_only save output _ d
        · exact hself
    | _ :: _ :: _ => exact hself
  · simp only [evaluateCmd, attempt]
    split
    · exact hself
    · split
      · exact hself
      · exact saveTo_only save output _ d
  · simp only [statsCmd, attempt]
    split
    · exact hself
    · split
      · exact hself
      · exact saveTo_only save output _ d

/-- C97 for `col`: the option decides, if it is true or false in any case; without it, whether the sample is a variable. -/
theorem c97_missing_option (v : Bool) : missingOption v none = .ok v ∧
    (∀ s : String, s.toLower = "true" → missingOption v (some s) = .ok true) ∧
    (∀ s : String, s.toLower = "false" → missingOption v (some s) = .ok false) := by
  refine ⟨?_, ?_, ?_⟩
  · cases v <;> decide +kernel
  · intro s h
    simp [missingOption, checkBoolean, h]
  · intro s h
    simp [missingOption, checkBoolean, h]

/-- C97 is violated by any other value of the option: it is not refused but taken as false, also where the default is true. -/
theorem c97_missing_option_violated (s : String) (h1 : s.toLower ≠ "true") (h2 : s.toLower ≠ "false") :
    missingOption true (some s) = .ok false := by
  simp [missingOption, checkBoolean, h1, h2]

example : ("yes" : String).toLower ≠ "true" ∧ ("yes" : String).toLower ≠ "false" := by decide +kernel

/-- C97 is violated when saving fails: the output of before is lost although the command fails. Here the save leaves a partial file. -/
theorem c97_failed_save_violated (read : G → Except Exc D) (eval : List D → Except Exc R) (save : R → Option C × Except Exc Unit)
    (groups : List G) (xs : List D) (r : R) (c : C) (m : String) (output : String) (d : Disk C)
    (hx : List.Forall₂ (fun g x => read g = .ok x) groups xs) (hr : eval xs = .ok r) (hc : save r = (some c, .error (.exception m))) :
    mainStatus 130 (evaluateCmd read eval save groups output d).1 = 1 ∧ (evaluateCmd read eval save groups output d).2 output = some c := by
  simp only [evaluateCmd, attempt, (readAll_ok read groups xs).2 hx, hr, saveTo, hc, mainStatus]
  simp

example : ∃ (save : Nat → Option String × Except Exc Unit), Spec.Saves save ∧ save 1 = (some "x", .ok ()) ∧
    save 2 = (some "partial", .error (.exception "KeyError")) :=
  ⟨fun n => if n = 1 then (some "x", .ok ()) else (some "partial", .error (.exception "KeyError")), by
    intro r h
    by_cases hr : r = 1
    · simp [hr]
    · simp [hr], rfl, rfl⟩

end Cis.Main
