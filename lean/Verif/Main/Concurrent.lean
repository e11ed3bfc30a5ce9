import Verif.Write.RoundTrip
set_option linter.unusedSectionVars false
set_option linter.unusedSimpArgs false

/-!
# Several `cis` commands at the same time

Commands are often run side by side, as the jobs of a batch system, in one directory. A command is modelled as a machine with one step for each
look at or change of the disk: the check of the output when the arguments are parsed, the reading of each input file, the opening of the output
for the coordinates (mode `w`), each coordinate, and for each variable the opening (mode `a`) and the writing. Between any two steps any number of
steps of other commands can come. The operation itself (`op`) is any function of the contents of the input files; C97, C180, C182 etc. say what it
is. Only the saving of ungridded data is modelled (iris saves gridded data in one call). A lock that HDF5 may hold while a file is open is not
modelled; the violations below need no two commands to have the file open at the same time.
-/
namespace Cis.Concurrent
open Cis.RoundTrip

abbrev Path := String
abbrev Disk := Path → Option File

/-- A command: its input files, its output, the answer to the question whether an existing output may be overwritten (the option
`--force-overwrite`, the environment or the user, C33), and what it makes of the contents of the files: coordinates and variables, or a failure. -/
structure Cmd where
  inputs : List Path
  output : Path
  consent : Bool
  op : List File → Option (List Obj × List Obj)

/-- Where a command is. -/
inductive St
  | start
  | reading (left : List Path) (got : List File)
  | saving (coords data : List Obj)
  | writing (left data : List Obj) (h : File)     -- the output is open, mode `w`
  | adding (left : List Obj)
  | addOpen (o : Obj) (left : List Obj) (h : File) -- the output is open, mode `a`
  | refused                                       -- "No operation performed"
  | failed
  | done

/-- A file with nothing in it. -/
def emptyFile : File := ⟨[], 0, []⟩

/-- The disk with another content of one file. -/
def put (d : Disk) (p : Path) (f : File) : Disk := Function.update d p (some f)

/-- One step. `start`: `_validate_output_file` (parse.py:801-852). `reading`: the product reads the files, in order (data_reader.py:20-54).
`saving`, `writing`: `write_coordinate_list` (write_netcdf.py:147-163). `adding`, `addOpen`: `add_data_to_file` for each variable
(write_netcdf.py:166-177, ungridded_data.py:1055-1059). -/
def step (dflt : Bool → ℚ) (c : Cmd) : St → Disk → St × Disk
  | .start, d =>
    if (d c.output).isSome && !c.consent then (.refused, d)
    else if (d c.output).isSome && decide (c.output ∈ c.inputs) then (.failed, d)
    else (.reading c.inputs [], d)
  | .reading (p :: t) got, d =>
    match d p with
    | none => (.failed, d)
    | some f => (.reading t (got ++ [f]), d)
  | .reading [] got, d =>
    match c.op got with
    | none => (.failed, d)
    | some (cs, ds) => (.saving cs ds, d)
  | .saving [] _, d => (.failed, put d c.output emptyFile)
  | .saving (o :: t) ds, d => (.writing (o :: t) ds ⟨[], o.values.length, []⟩, put d c.output ⟨[], o.values.length, []⟩)
  | .writing (o :: t) ds h, d =>
    match createVariable dflt true h o with
    | .error _ => (.failed, d)
    | .ok h' => (.writing t ds h', put d c.output h')
  | .writing [] ds _, d => (.adding ds, d)
  | .adding (o :: t), d => (.addOpen o t ((d c.output).getD emptyFile), d)
  | .adding [], d => (.done, d)
  | .addOpen o t h, d =>
    match addData dflt h o with
    | .error _ => (.failed, d)
    | .ok h' => (.adding t, put d c.output h')
  | s, d => (s, d)

/-- `n` steps of a command that runs alone. -/
def alone (dflt : Bool → ℚ) (c : Cmd) : Nat → St × Disk → St × Disk
  | 0, x => x
  | n + 1, x => alone dflt c n (step dflt c x.1 x.2)

/-- All commands and the disk they share. -/
structure World where
  st : Nat → St
  disk : Disk

/-- Command `i` makes a step. -/
def World.step (dflt : Bool → ℚ) (cmds : Nat → Cmd) (w : World) (i : Nat) : World :=
  let r := Concurrent.step dflt (cmds i) (w.st i) w.disk
  ⟨Function.update w.st i r.1, r.2⟩

/-- The commands make steps in the order of a schedule. -/
def run (dflt : Bool → ℚ) (cmds : Nat → Cmd) (w : World) (schedule : List Nat) : World := schedule.foldl (World.step dflt cmds) w

/-! ### Specification -/

/-- No command reads or writes what another one writes. -/
def Spec.Separate (cmds : Nat → Cmd) : Prop := ∀ i j, i ≠ j → (cmds i).output ≠ (cmds j).output ∧ (cmds i).output ∉ (cmds j).inputs

/-- All commands are about to start. -/
def Spec.fresh (d : Disk) : World := ⟨fun _ => .start, d⟩

/-- What a command is to achieve on the disk `d`: the inputs are there, the operation succeeds, the result can be saved, as the file `f`. -/
def Spec.Makes (dflt : Bool → ℚ) (c : Cmd) (d : Disk) (f : File) : Prop :=
  (d c.output = none ∨ c.consent = true ∧ c.output ∉ c.inputs) ∧
  ∃ files coords data, List.Forall₂ (fun p g => d p = some g) c.inputs files ∧ c.op files = some (coords, data) ∧ save dflt coords data = .ok f

/-- The number of times a schedule lets command `i` make a step. -/
def Spec.turns (schedule : List Nat) (i : Nat) : Nat := schedule.count i

/-! ### Proofs -/

/-- A step leaves all files but the output, and depends on the output and the inputs only. -/
theorem step_local (dflt : Bool → ℚ) (c : Cmd) (s : St) (d d' : Disk) (ho : d c.output = d' c.output)
    (hi : ∀ p ∈ c.inputs, d p = d' p) (hs : ∀ l g, s = .reading l g → ∀ p ∈ l, p ∈ c.inputs) :
    (step dflt c s d).1 = (step dflt c s d').1 ∧ (step dflt c s d).2 c.output = (step dflt c s d').2 c.output ∧
    (∀ p, p ≠ c.output → (step dflt c s d).2 p = d p) ∧
    (∀ l g, (step dflt c s d).1 = .reading l g → ∀ p ∈ l, p ∈ c.inputs) := by
  have put_self : ∀ (d : Disk) f, put d c.output f c.output = some f := fun d f => by simp [put]
  have put_ne : ∀ (d : Disk) f p, p ≠ c.output → put d c.output f p = d p := fun d f p h => by simp [put, h]
  cases s with
  | start =>
    simp only [step, ho]
    split
    · exact ⟨rfl, ho, fun _ _ => rfl, by rintro l g h; cases h⟩
    · split
      · exact ⟨rfl, ho, fun _ _ => rfl, by rintro l g h; cases h⟩
      · exact ⟨rfl, ho, fun _ _ => rfl, by rintro l g h p hp; cases h; exact hp⟩
  | reading l g =>
    cases l with
    | nil =>
      simp only [step]
      cases c.op g with
      | none => exact ⟨rfl, ho, fun _ _ => rfl, by rintro l g h; cases h⟩
      | some x => exact ⟨rfl, ho, fun _ _ => rfl, by rintro l g h; cases h⟩
    | cons p t =>
      have hp : d p = d' p := hi p (hs _ _ rfl p (by simp))
      simp only [step, ← hp]
      cases d p with
      | none => exact ⟨rfl, ho, fun _ _ => rfl, by rintro l g h; cases h⟩
      | some f => exact ⟨rfl, ho, fun _ _ => rfl, by rintro l g h q hq; cases h; exact hs _ _ rfl q (by simp [hq])⟩
  | saving cs ds =>
    cases cs with
    | nil => exact ⟨rfl, by simp only [step, put_self], fun p hp => by simp only [step]; exact put_ne _ _ _ hp, by rintro l g h; cases h⟩
    | cons o t => exact ⟨rfl, by simp only [step, put_self], fun p hp => by simp only [step]; exact put_ne _ _ _ hp, by rintro l g h; cases h⟩
  | writing l ds h =>
    cases l with
    | nil => exact ⟨rfl, ho, fun _ _ => rfl, by rintro l g h; cases h⟩
    | cons o t =>
      simp only [step]
      cases createVariable dflt true h o with
      | error e => exact ⟨rfl, ho, fun _ _ => rfl, by rintro l g h; cases h⟩
      | ok h' => exact ⟨rfl, by simp only [put_self], fun p hp => put_ne _ _ _ hp, by rintro l g h; cases h⟩
  | adding l =>
    cases l with
    | nil => exact ⟨rfl, ho, fun _ _ => rfl, by rintro l g h; cases h⟩
    | cons o t => exact ⟨by simp only [step, ho], ho, fun _ _ => rfl, by rintro l g h; simp [step] at h⟩
  | addOpen o t h =>
    simp only [step]
    cases addData dflt h o with
    | error e => exact ⟨rfl, ho, fun _ _ => rfl, by rintro l g h; cases h⟩
    | ok h' => exact ⟨rfl, by simp only [put_self], fun p hp => put_ne _ _ _ hp, by rintro l g h; cases h⟩
  | refused => exact ⟨rfl, ho, fun _ _ => rfl, by rintro l g h; cases h⟩
  | failed => exact ⟨rfl, ho, fun _ _ => rfl, by rintro l g h; cases h⟩
  | done => exact ⟨rfl, ho, fun _ _ => rfl, by rintro l g h; cases h⟩

theorem alone_succ (dflt : Bool → ℚ) (c : Cmd) (n : Nat) (x : St × Disk) :
    alone dflt c (n + 1) x = step dflt c (alone dflt c n x).1 (alone dflt c n x).2 := by
  induction n generalizing x with
  | zero => rfl
  | succ n ih => rw [alone, ih]; rfl

theorem alone_add (dflt : Bool → ℚ) (c : Cmd) (m n : Nat) (x : St × Disk) : alone dflt c (m + n) x = alone dflt c n (alone dflt c m x) := by
  induction m generalizing x with
  | zero => rw [Nat.zero_add]; rfl
  | succ m ih => rw [Nat.succ_add, alone, ih]; rfl

/-- What a command that runs alone keeps. -/
theorem alone_inv (dflt : Bool → ℚ) (c : Cmd) (n : Nat) (d : Disk) :
    (∀ p, p ≠ c.output → (alone dflt c n (.start, d)).2 p = d p) ∧
    (∀ l g, (alone dflt c n (.start, d)).1 = .reading l g → ∀ p ∈ l, p ∈ c.inputs) := by
  induction n with
  | zero => exact ⟨fun _ _ => rfl, by rintro l g h; cases h⟩
  | succ n ih =>
    obtain ⟨h1, h2⟩ := ih
    rw [alone_succ]
    obtain ⟨-, -, h3, h4⟩ := step_local dflt c (alone dflt c n (.start, d)).1 (alone dflt c n (.start, d)).2 _ rfl (fun _ _ => rfl) h2
    exact ⟨fun p hp => (h3 p hp).trans (h1 p hp), h4⟩

/-- **C208.** Any number of commands, none of which reads or writes the output of another, in any interleaving of their steps, from any state of
the disk: at every moment each command is where it would be if it had run alone, for as many steps, and so is its output; all other files are as
they were. -/
theorem c208_interleaving (dflt : Bool → ℚ) (cmds : Nat → Cmd) (h : Spec.Separate cmds) (d : Disk) (schedule : List Nat) :
    (∀ i, (run dflt cmds (Spec.fresh d) schedule).st i = (alone dflt (cmds i) (Spec.turns schedule i) (.start, d)).1 ∧
      (run dflt cmds (Spec.fresh d) schedule).disk (cmds i).output = (alone dflt (cmds i) (Spec.turns schedule i) (.start, d)).2 (cmds i).output) ∧
    (∀ p, (∀ i, p ≠ (cmds i).output) → (run dflt cmds (Spec.fresh d) schedule).disk p = d p) := by
  induction schedule using List.reverseRecOn with
  | nil => exact ⟨fun i => ⟨rfl, rfl⟩, fun _ _ => rfl⟩
  | append_singleton s k ih =>
    obtain ⟨ih1, ih2⟩ := ih
    have hrun : run dflt cmds (Spec.fresh d) (s ++ [k]) = World.step dflt cmds (run dflt cmds (Spec.fresh d) s) k := by
      rw [run, List.foldl_append]; rfl
    rw [hrun]
    generalize run dflt cmds (Spec.fresh d) s = w at ih1 ih2 ⊢
    -- the step of `k`, compared with that of `k` alone
    have hinputs : ∀ p ∈ (cmds k).inputs, p ≠ (cmds k).output → w.disk p = (alone dflt (cmds k) (Spec.turns s k) (.start, d)).2 p := by
      intro p hp hne
      rw [(alone_inv dflt (cmds k) _ d).1 p hne]
      apply ih2
      intro i he
      by_cases hik : i = k
      · rw [hik] at he; exact hne he
      · exact (h i k hik).2 (he ▸ hp)
    have hin : ∀ p ∈ (cmds k).inputs, w.disk p = (alone dflt (cmds k) (Spec.turns s k) (.start, d)).2 p := by
      intro p hp
      by_cases hne : p = (cmds k).output
      · rw [hne]; exact (ih1 k).2
      · exact hinputs p hp hne
    obtain ⟨s1, s2, s3, -⟩ := step_local dflt (cmds k) (w.st k) w.disk _ (ih1 k).2 hin
      (by rw [(ih1 k).1]; exact (alone_inv dflt (cmds k) _ d).2)
    constructor
    · intro i
      by_cases hik : i = k
      · subst hik
        have ht : Spec.turns (s ++ [i]) i = Spec.turns s i + 1 := by simp [Spec.turns]
        rw [ht, alone_succ]
        simp only [World.step, Function.update_self]
        rw [s1, s2, (ih1 i).1]
        exact ⟨rfl, rfl⟩
      · have ht : Spec.turns (s ++ [k]) i = Spec.turns s i := by
          simp only [Spec.turns, List.count_append, List.count_singleton, beq_iff_eq]
          rw [if_neg (fun e => hik e.symm), Nat.add_zero]
        rw [ht]
        simp only [World.step, Function.update_of_ne hik]
        rw [s3 _ (h i k hik).1]
        exact ih1 i
    · intro p hp
      simp only [World.step]
      rw [s3 p (hp k)]
      exact ih2 p hp

/-- Once it has ended, a command stays ended. -/
def Ended (s : St) : Prop := s = .done ∨ s = .failed ∨ s = .refused

theorem ended_step (dflt : Bool → ℚ) (c : Cmd) (s : St) (d : Disk) (h : Ended s) : step dflt c s d = (s, d) := by
  rcases h with rfl | rfl | rfl <;> rfl

theorem ended_alone (dflt : Bool → ℚ) (c : Cmd) (n : Nat) (s : St) (d : Disk) (h : Ended s) : alone dflt c n (s, d) = (s, d) := by
  induction n with
  | zero => rfl
  | succ n ih => rw [alone_succ, ih]; exact ended_step dflt c s d h

/-- The variables of a list of objects are added one after another. -/
theorem add_run (dflt : Bool → ℚ) (c : Cmd) : ∀ (ds : List Obj) (d : Disk) (f f' : File), d c.output = some f →
    ds.foldlM (addData dflt) f = .ok f' → ∃ n, (alone dflt c n (.adding ds, d)).1 = .done ∧ (alone dflt c n (.adding ds, d)).2 c.output = some f' ∧
      n = 2 * ds.length + 1
  | [], d, f, f', h, hf => by
    cases hf
    exact ⟨1, rfl, h, rfl⟩
  | o :: t, d, f, f', h, hf => by
    rw [List.foldlM_cons] at hf
    cases ha : addData dflt f o with
    | error e => rw [ha] at hf; cases hf
    | ok g =>
      rw [ha] at hf
      obtain ⟨n, h1, h2, h3⟩ := add_run dflt c t (put d c.output g) g f' (by simp [put]) hf
      refine ⟨n + 2, ?_, ?_, by rw [h3, List.length_cons]; ring⟩
      all_goals
        rw [alone, alone]
        simp only [step, h, Option.getD_some, ha]
        assumption

theorem write_run (dflt : Bool → ℚ) (c : Cmd) (ds : List Obj) : ∀ (cs : List Obj) (d : Disk) (f f' : File), d c.output = some f →
    cs.foldlM (createVariable dflt true) f = .ok f' →
    ∃ d', alone dflt c (cs.length + 1) (.writing cs ds f, d) = (.adding ds, d') ∧ d' c.output = some f'
  | [], d, f, f', h, hf => by
    cases hf
    exact ⟨d, rfl, h⟩
  | o :: t, d, f, f', h, hf => by
    rw [List.foldlM_cons] at hf
    cases ha : createVariable dflt true f o with
    | error e => rw [ha] at hf; cases hf
    | ok g =>
      rw [ha] at hf
      obtain ⟨d', h1, h2⟩ := write_run dflt c ds t (put d c.output g) g f' (by simp [put]) hf
      refine ⟨d', ?_, h2⟩
      rw [List.length_cons, alone]
      simp only [step, ha]
      exact h1

theorem read_run (dflt : Bool → ℚ) (c : Cmd) (d : Disk) : ∀ (l : List Path) (files got : List File), List.Forall₂ (fun p g => d p = some g) l files →
    alone dflt c l.length (.reading l got, d) = (.reading [] (got ++ files), d)
  | _, _, got, .nil => by simp [alone]
  | _, _, got, .cons (l₁ := t) (l₂ := fs) (a := p) (b := f) h t' => by
    rw [List.length_cons, alone]
    simp only [step, h]
    rw [read_run dflt c d t fs (got ++ [f]) t', List.append_assoc]
    rfl

/-- From the reading of the inputs to the moment when the coordinates are written. -/
theorem to_adding (dflt : Bool → ℚ) (c : Cmd) (d : Disk) (files : List File) (coords data : List Obj) (g : File)
    (hf : List.Forall₂ (fun p g => d p = some g) c.inputs files) (hop : c.op files = some (coords, data)) (hw : writeCoords dflt coords = .ok g) :
    ∃ n d', alone dflt c n (.reading c.inputs [], d) = (.adding data, d') ∧ d' c.output = some g := by
  have h1 : alone dflt c c.inputs.length (.reading c.inputs [], d) = (.reading [] files, d) := by
    rw [read_run dflt c d _ _ [] hf]; rfl
  have h2 : alone dflt c (c.inputs.length + 1) (.reading c.inputs [], d) = (.saving coords data, d) := by
    rw [alone_succ, h1]
    simp only [step, hop]
  cases coords with
  | nil => cases hw
  | cons o t =>
    have h3 : alone dflt c (c.inputs.length + 1 + 1) (.reading c.inputs [], d) =
        (.writing (o :: t) data ⟨[], o.values.length, []⟩, put d c.output ⟨[], o.values.length, []⟩) := by
      rw [alone_succ, h2]
      rfl
    obtain ⟨d', h4, h5⟩ := write_run dflt c data (o :: t) (put d c.output ⟨[], o.values.length, []⟩) _ g (by simp [put]) hw
    refine ⟨c.inputs.length + 1 + 1 + ((o :: t).length + 1), d', ?_, h5⟩
    rw [alone_add, h3, h4]

/-- From the reading of the inputs to the end. -/
theorem to_done (dflt : Bool → ℚ) (c : Cmd) (d : Disk) (files : List File) (coords data : List Obj) (f : File)
    (hf : List.Forall₂ (fun p g => d p = some g) c.inputs files) (hop : c.op files = some (coords, data)) (hs : save dflt coords data = .ok f) :
    ∃ n, (alone dflt c n (.reading c.inputs [], d)).1 = .done ∧ (alone dflt c n (.reading c.inputs [], d)).2 c.output = some f := by
  rw [save] at hs
  cases hw : writeCoords dflt coords with
  | error e => rw [hw] at hs; cases hs
  | ok g =>
    rw [hw] at hs
    obtain ⟨n, d', h4, h5⟩ := to_adding dflt c d files coords data g hf hop hw
    obtain ⟨m, h6, h7, -⟩ := add_run dflt c data d' g f h5 hs
    refine ⟨n + m, ?_⟩
    rw [alone_add, h4]
    exact ⟨h6, h7⟩

/-- The check of the output lets the command go on. -/
theorem start_ok (dflt : Bool → ℚ) (c : Cmd) (d : Disk) (h : d c.output = none ∨ c.consent = true ∧ c.output ∉ c.inputs) :
    step dflt c .start d = (.reading c.inputs [], d) := by
  simp only [step]
  rcases h with h | ⟨h, h'⟩
  · simp [h]
  · simp [h, h']

/-- C208: a command that runs alone and can do its work does it; its output is the file that C96 is about, and no other file changes. -/
theorem c208_alone (dflt : Bool → ℚ) (c : Cmd) (d : Disk) (f : File) (h : Spec.Makes dflt c d f) :
    ∃ n, ∀ m ≥ n, (alone dflt c m (.start, d)).1 = .done ∧ (alone dflt c m (.start, d)).2 = put d c.output f := by
  obtain ⟨hgo, files, coords, data, hf, hop, hs⟩ := h
  suffices hn : ∃ n, (alone dflt c n (.start, d)).1 = .done ∧ (alone dflt c n (.start, d)).2 c.output = some f by
    obtain ⟨n, h1, h2⟩ := hn
    refine ⟨n, fun m hm => ?_⟩
    obtain ⟨k, rfl⟩ := Nat.exists_eq_add_of_le hm
    have : alone dflt c (n + k) (.start, d) = alone dflt c n (.start, d) := by
      rw [alone_add]
      exact ended_alone dflt c k _ _ (.inl h1)
    rw [this]
    refine ⟨h1, ?_⟩
    funext p
    by_cases hp : p = c.output
    · rw [hp, h2]; simp [put]
    · rw [(alone_inv dflt c n d).1 p hp]; simp [put, hp]
  obtain ⟨n, h1, h2⟩ := to_done dflt c d files coords data f hf hop hs
  refine ⟨n + 1, ?_⟩
  rw [alone, start_ok dflt c d hgo]
  exact ⟨h1, h2⟩

/-- C208: a command that cannot do its work, because an input is not there or the operation fails, ends without success and changes nothing. -/
theorem c208_nothing (dflt : Bool → ℚ) (c : Cmd) (d : Disk)
    (h : (∃ p ∈ c.inputs, d p = none) ∨ ∃ files, List.Forall₂ (fun p g => d p = some g) c.inputs files ∧ c.op files = none) (n : Nat) :
    (alone dflt c n (.start, d)).2 = d ∧ (alone dflt c n (.start, d)).1 ≠ .done ∧
    (c.inputs.length + 2 ≤ n → (alone dflt c n (.start, d)).1 = .failed ∨ (alone dflt c n (.start, d)).1 = .refused) := by
  -- what is left of the inputs
  have key : ∀ m, (alone dflt c m (.start, d)).2 = d ∧
      ((alone dflt c m (.start, d)).1 = .start ∧ m = 0 ∨ (alone dflt c m (.start, d)).1 = .failed ∨ (alone dflt c m (.start, d)).1 = .refused ∨
        ∃ l g, (alone dflt c m (.start, d)).1 = .reading l g ∧ l.length + m = c.inputs.length + 1 ∧
          ((∃ p ∈ l, d p = none) ∨ ∃ files, List.Forall₂ (fun p g => d p = some g) l files ∧ c.op (g ++ files) = none)) := by
    intro m
    induction m with
    | zero => exact ⟨rfl, .inl ⟨rfl, rfl⟩⟩
    | succ m ih =>
      obtain ⟨h1, h2⟩ := ih
      rw [alone_succ, h1]
      rcases h2 with ⟨h2, h3⟩ | h2 | h2 | ⟨l, g, h2, h3, h4⟩
      · rw [h2]
        simp only [step]
        split
        · exact ⟨rfl, .inr (.inr (.inl rfl))⟩
        · split
          · exact ⟨rfl, .inr (.inl rfl)⟩
          · exact ⟨rfl, .inr (.inr (.inr ⟨_, _, rfl, by omega, by simpa using h⟩))⟩
      · rw [h2]; exact ⟨rfl, .inr (.inl rfl)⟩
      · rw [h2]; exact ⟨rfl, .inr (.inr (.inl rfl))⟩
      · rw [h2]
        cases l with
        | nil =>
          rcases h4 with ⟨p, hp, -⟩ | ⟨files, hf, hop⟩
          · cases hp
          · cases hf
            rw [List.append_nil] at hop
            have hst : step dflt c (.reading [] g) d = (.failed, d) := by simp only [step, hop]
            rw [hst]
            exact ⟨rfl, .inr (.inl rfl)⟩
        | cons p t =>
          simp only [step]
          cases hp : d p with
          | none => exact ⟨rfl, .inr (.inl rfl)⟩
          | some f =>
            refine ⟨rfl, .inr (.inr (.inr ⟨_, _, rfl, by simp only [List.length_cons] at h3; omega, ?_⟩))⟩
            rcases h4 with ⟨q, hq, hn⟩ | ⟨files, hf, hop⟩
            · rcases List.mem_cons.1 hq with rfl | hq
              · rw [hp] at hn; cases hn
              · exact .inl ⟨q, hq, hn⟩
            · cases hf with
              | cons hpf hf' =>
                rename_i f' fs
                rw [hp] at hpf
                cases hpf
                refine .inr ⟨fs, hf', ?_⟩
                rw [List.append_assoc]
                exact hop
  obtain ⟨h1, h2⟩ := key n
  refine ⟨h1, ?_, ?_⟩
  · rcases h2 with ⟨h2, -⟩ | h2 | h2 | ⟨l, g, h2, -, -⟩ <;> rw [h2] <;> simp
  · intro hn
    rcases h2 with ⟨-, h3⟩ | h2 | h2 | ⟨l, g, -, h3, -⟩
    · omega
    · exact .inl h2
    · exact .inr h2
    · omega

/-- C208: without consent, a command whose output exists when it starts never changes anything, whatever else runs. -/
theorem c208_refused (dflt : Bool → ℚ) (c : Cmd) (d : Disk) (h : (d c.output).isSome) (hc : c.consent = false) (n : Nat) :
    (alone dflt c (n + 1) (.start, d)) = (.refused, d) := by
  rw [alone]
  have : step dflt c .start d = (.refused, d) := by simp [step, h, hc]
  rw [this]
  exact ended_alone dflt c n _ _ (.inr (.inr rfl))

/-- **C208.** Commands side by side: if none reads or writes the output of another, and each that is asked for can do its work, then every schedule
in which they are given enough turns ends with all of them done and every output complete, as if they had been run one after another. -/
theorem c208_side_by_side (dflt : Bool → ℚ) (cmds : Nat → Cmd) (h : Spec.Separate cmds) (d : Disk) (made : Nat → File) (n : Nat)
    (hm : ∀ i < n, Spec.Makes dflt (cmds i) d (made i)) :
    ∃ need : Nat → Nat, ∀ schedule : List Nat, (∀ i ∈ schedule, i < n) → (∀ i < n, need i ≤ Spec.turns schedule i) →
      (∀ i < n, (run dflt cmds (Spec.fresh d) schedule).st i = .done ∧
        (run dflt cmds (Spec.fresh d) schedule).disk (cmds i).output = some (made i)) ∧
      (∀ p, (∀ i < n, p ≠ (cmds i).output) → (run dflt cmds (Spec.fresh d) schedule).disk p = d p) := by
  have hx : ∀ i, ∃ k, i < n → ∀ m ≥ k, (alone dflt (cmds i) m (.start, d)).1 = .done ∧
      (alone dflt (cmds i) m (.start, d)).2 = put d (cmds i).output (made i) := by
    intro i
    by_cases hi : i < n
    · obtain ⟨k, hk⟩ := c208_alone dflt (cmds i) d (made i) (hm i hi)
      exact ⟨k, fun _ => hk⟩
    · exact ⟨0, fun h => absurd h hi⟩
  choose need hneed using hx
  refine ⟨need, fun schedule hs ht => ?_⟩
  obtain ⟨h1, h2⟩ := c208_interleaving dflt cmds h d schedule
  constructor
  · intro i hi
    obtain ⟨a, b⟩ := h1 i
    obtain ⟨c, e⟩ := hneed i hi _ (ht i hi)
    rw [a, b, c, e]
    simp [put]
  · intro p hp
    by_cases hall : ∀ i, p ≠ (cmds i).output
    · exact h2 p hall
    · simp only [not_forall, not_not] at hall
      obtain ⟨i, rfl⟩ := hall
      have hi : ¬ i < n := fun hi => hp i hi rfl
      have h0 : Spec.turns schedule i = 0 := List.count_eq_zero.2 (fun hc => hi (hs i hc))
      rw [(h1 i).2, h0]
      rfl

/-- C208: a command that was done may be repeated, with consent: the result is the same file. -/
theorem c208_again (dflt : Bool → ℚ) (c : Cmd) (d : Disk) (f : File) (h : Spec.Makes dflt c d f) (hc : c.consent = true) (hi : c.output ∉ c.inputs) :
    Spec.Makes dflt c (put d c.output f) f := by
  obtain ⟨-, files, coords, data, hf, hop, hs⟩ := h
  refine ⟨.inr ⟨hc, hi⟩, files, coords, data, ?_, hop, hs⟩
  apply List.Forall₂.imp (R := fun p g => d p = some g ∧ p ∈ c.inputs) (S := fun p g => put d c.output f p = some g)
  · rintro p g ⟨h1, h2⟩
    rw [put, Function.update_of_ne (fun e => hi (by rw [← e]; exact h2)), h1]
  · have : ∀ (l : List Path) (fs : List File), List.Forall₂ (fun p g => d p = some g) l fs → (∀ p ∈ l, p ∈ c.inputs) →
        List.Forall₂ (fun p g => d p = some g ∧ p ∈ c.inputs) l fs := by
      intro l fs h
      induction h with
      | nil => exact fun _ => .nil
      | cons h t ih => exact fun hl => .cons ⟨h, hl _ (by simp)⟩ (ih (fun p hp => hl p (by simp [hp])))
    exact this _ _ hf (fun _ h => h)

/-! ### C209: commands that share files -/

/-- `n` turns of one command in a row. -/
theorem run_replicate (dflt : Bool → ℚ) (cmds : Nat → Cmd) (w : World) (i n : Nat) :
    run dflt cmds w (List.replicate n i) =
      ⟨Function.update w.st i (alone dflt (cmds i) n (w.st i, w.disk)).1, (alone dflt (cmds i) n (w.st i, w.disk)).2⟩ := by
  induction n generalizing w with
  | zero => simp [run, alone]
  | succ n ih =>
    rw [List.replicate_succ, run, List.foldl_cons]
    have := ih (World.step dflt cmds w i)
    rw [run] at this
    rw [this, alone]
    simp only [World.step, Function.update_self, Function.update_idem]

theorem run_append (dflt : Bool → ℚ) (cmds : Nat → Cmd) (w : World) (s t : List Nat) :
    run dflt cmds w (s ++ t) = run dflt cmds (run dflt cmds w s) t := by simp [run, List.foldl_append]

/-- Two commands. -/
def two (a b : Cmd) : Nat → Cmd := fun i => if i = 0 then a else b

/-- Inputs that are not changed are still there. -/
theorem inputs_keep (d d' : Disk) (c : Cmd) (files : List File) (o : Path) (ho : o ∉ c.inputs) (hd : ∀ p, p ≠ o → d' p = d p)
    (hf : List.Forall₂ (fun p g => d p = some g) c.inputs files) : List.Forall₂ (fun p g => d' p = some g) c.inputs files := by
  have : ∀ (l : List Path) (fs : List File), List.Forall₂ (fun p g => d p = some g) l fs → (∀ p ∈ l, p ∈ c.inputs) →
      List.Forall₂ (fun p g => d' p = some g) l fs := by
    intro l fs h
    induction h with
    | nil => exact fun _ => .nil
    | @cons p g l fs h t ih =>
      exact fun hl => .cons (by rw [hd p (fun e => ho (e ▸ hl p (by simp)))]; exact h) (ih (fun q hq => hl q (by simp [hq])))
  exact this _ _ hf (fun _ h => h)

/-- What `n` steps from a state within the inputs keep. -/
theorem alone_keep (dflt : Bool → ℚ) (c : Cmd) (n : Nat) (s : St) (d : Disk) (p : Path) (hp : p ≠ c.output) :
    (alone dflt c n (s, d)).2 p = d p := by
  induction n with
  | zero => rfl
  | succ n ih =>
    rw [alone_succ]
    have : ∀ (s : St) (d : Disk), (step dflt c s d).2 p = d p := by
      intro s d
      cases s with
      | start => simp only [step]; split <;> [rfl; (split <;> rfl)]
      | reading l g =>
        cases l with
        | nil => simp only [step]; cases c.op g <;> rfl
        | cons q t => simp only [step]; cases d q <;> rfl
      | saving cs ds => cases cs <;> simp [step, put, hp]
      | writing l ds h =>
        cases l with
        | nil => rfl
        | cons o t => simp only [step]; cases createVariable dflt true h o <;> simp [put, hp]
      | adding l => cases l <;> rfl
      | addOpen o t h => simp only [step]; cases addData dflt h o <;> simp [put, hp]
      | refused => rfl
      | failed => rfl
      | done => rfl
    rw [this, ih]

/-- C209 violated, consent: for any two commands with one output, the second of which may not overwrite it, each of which can do its
work on the disk as it is at the beginning (so the output is not there yet): there is a schedule in which the first has finished and its output is complete, and then the second replaces it, unasked. -/
theorem c209_consent_violated (dflt : Bool → ℚ) (a b : Cmd) (d : Disk) (fa fb : File) (hab : a.output = b.output) (_hc : b.consent = false)
    (ha : Spec.Makes dflt a d fa) (hb : Spec.Makes dflt b d fb) (hib : b.output ∉ b.inputs) :
    ∃ s t : List Nat, ((run dflt (two a b) (Spec.fresh d) s).st 0 = .done ∧ (run dflt (two a b) (Spec.fresh d) s).disk a.output = some fa) ∧
      (run dflt (two a b) (Spec.fresh d) (s ++ t)).st 1 = .done ∧ (run dflt (two a b) (Spec.fresh d) (s ++ t)).disk a.output = some fb := by
  obtain ⟨n, hn⟩ := c208_alone dflt a d fa ha
  obtain ⟨h1, h2⟩ := hn n le_rfl
  obtain ⟨hgo, files, coords, data, hf, hop, hs⟩ := hb
  have hs1 : run dflt (two a b) (Spec.fresh d) [1] = ⟨Function.update (fun _ => .start) 1 (.reading b.inputs []), d⟩ := by
    simp only [run, List.foldl_cons, List.foldl_nil, World.step, Spec.fresh, two]
    have := start_ok dflt b d hgo
    simp only [if_neg (show (1 : Nat) ≠ 0 by decide), this]
  have hs2 : run dflt (two a b) (Spec.fresh d) ([1] ++ List.replicate n 0) =
      ⟨Function.update (Function.update (fun _ => .start) 1 (.reading b.inputs [])) 0 .done, put d a.output fa⟩ := by
    rw [run_append, hs1, run_replicate]
    have e1 : (two a b) 0 = a := rfl
    have e2 : (Function.update (fun _ => St.start) 1 (.reading b.inputs [])) 0 = .start := by simp
    simp only [e1, e2, h1, h2]
  have hf' : List.Forall₂ (fun p g => put d a.output fa p = some g) b.inputs files :=
    inputs_keep d _ b files b.output hib (fun p hp => by rw [put, hab, Function.update_of_ne hp]) hf
  obtain ⟨m, h3, h4⟩ := to_done dflt b (put d a.output fa) files coords data fb hf' hop hs
  refine ⟨[1] ++ List.replicate n 0, List.replicate m 1, ?_, ?_⟩
  · rw [hs2]
    simp [put]
  · rw [run_append, hs2, run_replicate]
    have e1 : (two a b) 1 = b := rfl
    have e2 : (Function.update (Function.update (fun _ => St.start) 1 (.reading b.inputs [])) 0 .done) 1 = .reading b.inputs [] := by simp
    simp only [e1, e2, h3, Function.update_self, true_and]
    exact (congrArg _ hab).trans h4

/-- C209 violated, mixed output: for any two commands with one output, that is not there yet, with one variable each, under one name, on
coordinates of one length: there is a schedule in which both end successfully and the output has the coordinates of the second with the values of
the first. No two of them have the file open at the same time. -/
theorem c209_mixed_violated (dflt : Bool → ℚ) (a b : Cmd) (d : Disk) (hab : a.output = b.output) (hd : d a.output = none)
    (hb : b.output ∉ b.inputs) (fa fb : List File) (ca cb : List Obj) (va vb : Obj) (ga gb h : File)
    (hfa : List.Forall₂ (fun p g => d p = some g) a.inputs fa) (hfb : List.Forall₂ (fun p g => d p = some g) b.inputs fb)
    (hopa : a.op fa = some (ca, [va])) (hopb : b.op fb = some (cb, [vb])) (hga : writeCoords dflt ca = .ok ga) (hgb : writeCoords dflt cb = .ok gb)
    (hh : addData dflt gb va = .ok h) (hname : varName false va.info = varName false vb.info) (hk : vb.known = true) :
    ∃ s : List Nat, (run dflt (two a b) (Spec.fresh d) s).st 0 = .done ∧ (run dflt (two a b) (Spec.fresh d) s).st 1 = .done ∧
      (run dflt (two a b) (Spec.fresh d) s).disk a.output = some h := by
  have e0 : (two a b) 0 = a := rfl
  have e1 : (two a b) 1 = b := rfl
  -- both check
  have hs1 : run dflt (two a b) (Spec.fresh d) [0, 1] =
      ⟨Function.update (Function.update (fun _ => .start) 0 (.reading a.inputs [])) 1 (.reading b.inputs []), d⟩ := by
    simp only [run, List.foldl_cons, List.foldl_nil, World.step, Spec.fresh, e0, e1, start_ok dflt a d (.inl hd)]
    rw [Function.update_of_ne (by decide), start_ok dflt b d (.inl (hab ▸ hd))]
  -- the first writes its coordinates
  obtain ⟨n, d1, h1, h1'⟩ := to_adding dflt a d fa ca [va] ga hfa hopa hga
  have hs2 : run dflt (two a b) (Spec.fresh d) ([0, 1] ++ List.replicate n 0) =
      ⟨Function.update (Function.update (fun _ => .start) 0 (.adding [va])) 1 (.reading b.inputs []), d1⟩ := by
    rw [run_append, hs1, run_replicate]
    have : (Function.update (Function.update (fun _ => St.start) 0 (.reading a.inputs [])) 1 (.reading b.inputs [])) 0 = .reading a.inputs [] := by simp
    simp only [e0, this, h1]
    congr 1
    funext i
    by_cases h0 : i = 0
    · subst h0; simp
    · by_cases h1 : i = 1
      · subst h1; simp
      · simp [h0, h1]
  -- the second writes its own
  have hd1 : ∀ p, p ≠ b.output → d1 p = d p := by
    intro p hp
    have := alone_keep dflt a n (.reading a.inputs []) d p (hab ▸ hp)
    rwa [h1] at this
  obtain ⟨m, d2, h2, h2'⟩ := to_adding dflt b d1 fb cb [vb] gb (inputs_keep d d1 b fb b.output hb hd1 hfb) hopb hgb
  have hs3 : run dflt (two a b) (Spec.fresh d) (([0, 1] ++ List.replicate n 0) ++ List.replicate m 1) =
      ⟨Function.update (Function.update (fun _ => .start) 0 (.adding [va])) 1 (.adding [vb]), d2⟩ := by
    rw [run_append, hs2, run_replicate]
    simp only [e1, Function.update_self, h2, Function.update_idem]
  -- the first adds its variable and ends
  have h3 : alone dflt a 3 (.adding [va], d2) = (.done, put d2 a.output h) := by
    rw [alone, alone, alone, alone]
    simp only [step, hab, h2', Option.getD_some, hh]
  have hs4 : run dflt (two a b) (Spec.fresh d) ((([0, 1] ++ List.replicate n 0) ++ List.replicate m 1) ++ List.replicate 3 0) =
      ⟨Function.update (Function.update (fun _ => .start) 0 .done) 1 (.adding [vb]), put d2 a.output h⟩ := by
    rw [run_append, hs3, run_replicate]
    have : (Function.update (Function.update (fun _ => St.start) 0 (.adding [va])) 1 (.adding [vb])) 0 = .adding [va] := by simp
    simp only [e0, this, h3]
    congr 1
    funext i
    by_cases h0 : i = 0
    · subst h0; simp
    · by_cases h1 : i = 1
      · subst h1; simp
      · simp [h0, h1]
  -- the second finds a variable of that name
  have hadd : addData dflt h vb = .ok h := by
    have hh' := hh
    rw [addData] at hh' ⊢
    cases hc : createVariable dflt false gb va with
    | error e => rw [hc] at hh'; cases hh'
    | ok f' =>
      rw [hc] at hh'
      cases hh'
      have hmem : f'.vars.any (fun v => v.info.name == varName false vb.info) = true := by
        rw [← hname]
        rw [createVariable] at hc
        split at hc
        · cases hc
        · dsimp only at hc
          split at hc
          · rename_i hany
            cases hc; exact hany
          · split at hc
            · cases hc
            · split at hc
              · cases hc
                simp [makeVar]
              · cases hc
      have : createVariable dflt false { f' with source := sourceAttr } vb = .ok { f' with source := sourceAttr } := by
        rw [createVariable, if_neg (by simp [hk])]
        dsimp only
        rw [if_pos hmem]
      rw [this]
  have h5 : alone dflt b 3 (.adding [vb], put d2 a.output h) = (.done, put (put d2 a.output h) b.output h) := by
    rw [alone, alone, alone, alone]
    have : put d2 a.output h b.output = some h := by rw [put, ← hab]; simp
    simp only [step, this, Option.getD_some, hadd]
  refine ⟨((([0, 1] ++ List.replicate n 0) ++ List.replicate m 1) ++ List.replicate 3 0) ++ List.replicate 3 1, ?_⟩
  rw [run_append, hs4, run_replicate]
  simp only [e1, Function.update_self, h5]
  simp [put, hab]

/-- C209 violated, unfinished inputs: a command that reads the output of another while that is still being written finds the coordinates and the
first variables, as many as have been written, and goes on with them. -/
theorem c209_unfinished_violated (dflt : Bool → ℚ) (a b : Cmd) (d : Disk) (hd : d a.output = none)
    (hb : b.inputs = [a.output]) (hbo : d b.output = none) (fa : List File) (ca first rest : List Obj) (part : File)
    (hfa : List.Forall₂ (fun p g => d p = some g) a.inputs fa) (hop : a.op fa = some (ca, first ++ rest)) (hs : save dflt ca first = .ok part) :
    ∃ s : List Nat, (run dflt (two a b) (Spec.fresh d) s).st 0 = .adding rest ∧ (run dflt (two a b) (Spec.fresh d) s).st 1 = .reading [] [part] := by
  have e0 : (two a b) 0 = a := rfl
  have e1 : (two a b) 1 = b := rfl
  rw [save] at hs
  cases hw : writeCoords dflt ca with
  | error e => rw [hw] at hs; cases hs
  | ok g =>
    rw [hw] at hs
    obtain ⟨n, d1, h1, h1'⟩ := to_adding dflt a d fa ca (first ++ rest) g hfa hop hw
    -- the first variables
    have hadd : ∀ (xs : List Obj) (d : Disk) (g f : File), d a.output = some g → xs.foldlM (addData dflt) g = .ok f →
        ∃ m d', alone dflt a m (.adding (xs ++ rest), d) = (.adding rest, d') ∧ d' a.output = some f := by
      intro xs
      induction xs with
      | nil =>
        intro d g f h hf
        cases hf
        exact ⟨0, d, rfl, h⟩
      | cons o t ih =>
        intro d g f h hf
        rw [List.foldlM_cons] at hf
        cases hx : addData dflt g o with
        | error e => rw [hx] at hf; cases hf
        | ok g' =>
          rw [hx] at hf
          obtain ⟨m, d', h3, h4⟩ := ih (put d a.output g') g' f (by simp [put]) hf
          refine ⟨m + 2, d', ?_, h4⟩
          rw [List.cons_append, alone, alone]
          simp only [step, h, Option.getD_some, hx]
          exact h3
    obtain ⟨m, d2, h2, h2'⟩ := hadd first d1 g part h1' hs
    have hs1 : run dflt (two a b) (Spec.fresh d) [1, 0] =
        ⟨Function.update (Function.update (fun _ => .start) 1 (.reading b.inputs [])) 0 (.reading a.inputs []), d⟩ := by
      simp only [run, List.foldl_cons, List.foldl_nil, World.step, Spec.fresh, e0, e1, start_ok dflt b d (.inl hbo)]
      rw [Function.update_of_ne (by decide), start_ok dflt a d (.inl hd)]
    have hs2 : run dflt (two a b) (Spec.fresh d) ([1, 0] ++ List.replicate (n + m) 0) =
        ⟨Function.update (Function.update (fun _ => .start) 1 (.reading b.inputs [])) 0 (.adding rest), d2⟩ := by
      rw [run_append, hs1, run_replicate]
      simp only [e0, Function.update_self, Function.update_idem]
      rw [alone_add, h1, h2]
    refine ⟨([1, 0] ++ List.replicate (n + m) 0) ++ [1], ?_⟩
    rw [run_append, hs2]
    have : (Function.update (Function.update (fun _ => St.start) 1 (.reading b.inputs [])) 0 (.adding rest)) 1 = .reading b.inputs [] := by simp
    simp only [run, List.foldl_cons, List.foldl_nil, World.step, e1, this]
    rw [hb]
    have hst : step dflt b (.reading [a.output] []) d2 = (.reading [] ([] ++ [part]), d2) := by
      simp only [step]
      rw [h2']
      try rfl
    rw [hst]
    exact ⟨by simp, by simp⟩

/-! ### Examples -/

def exDflt (_ : Bool) : ℚ := -999

def exCoord (l : List ℚ) : Obj :=
  ⟨⟨"lon", "longitude", "", "", ""⟩, false, true, l.map some, none, ⟨none, none, none, none, none⟩⟩

def exVar (l : List ℚ) : Obj := ⟨⟨"q", "", "", "", ""⟩, false, true, l.map some, none, ⟨none, none, none, none, none⟩⟩

/-- A command without inputs that makes two points. -/
def exCmd (out : Path) (x y : ℚ) : Cmd := ⟨[], out, false, fun _ => some ([exCoord [x, y]], [exVar [10 * x, 10 * y]])⟩

/-- Two commands with outputs of their own, and further ones that are never started. -/
def exCmds (i : Nat) : Cmd := exCmd ("out" ++ String.ofList (List.replicate i 'x')) i (i + 1)

example : Spec.Separate exCmds := by
  intro i j h
  refine ⟨?_, by simp [exCmds, exCmd]⟩
  intro e
  apply h
  simp only [exCmds, exCmd] at e
  have := congrArg String.toList e
  simp only [String.toList_append, String.toList_ofList, List.append_cancel_left_eq] at this
  simpa using congrArg List.length this

example (i : Nat) : ∃ f, Spec.Makes exDflt (exCmds i) (fun _ => none) f :=
  ⟨_, .inl rfl, [], _, _, .nil, rfl, rfl⟩

/-- The hypotheses of `c209_mixed_violated` hold for two commands that write `out`, and the mixed file is neither's. -/
example : ∃ ga gb h, writeCoords exDflt [exCoord [1, 2]] = .ok ga ∧ writeCoords exDflt [exCoord [3, 4]] = .ok gb ∧
    addData exDflt gb (exVar [10, 20]) = .ok h ∧
    h.vars.map (fun v => (v.info.name, v.var.stored)) = [("longitude", [3, 4]), ("q", [10, 20])] :=
  ⟨_, _, _, rfl, rfl, rfl, by decide +kernel⟩

end Cis.Concurrent
