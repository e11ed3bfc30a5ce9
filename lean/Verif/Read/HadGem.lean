import Verif.Read.Gridded
set_option linter.unusedSectionVars false
set_option linter.unusedSimpArgs false
/-!
# HadGEM files converted by CONVSH (C227, C228)

`HadGEM_CONVSH` (cis/data_io/products/HadGEM.py:5-89) for one file, on top of the reading of gridded files of `Read/Gridded.lean`. Several cubes with the
name asked for are given to Iris, which may make them one (`merge`).
-/
namespace Cis.HadGem
open Cis.Gridded (Cube Time Dim)

/-! ### Model -/

/-- The coordinate named `Hybrid height`: its points and bounds, and the conversion of its units into metres (`none`: it has no such units). -/
structure Hybrid where
  points : List ℚ
  bounds : List ℚ
  metres : Option (ℚ → ℚ)

/-- A variable of the file, the time of `cube` being the coordinate with the standard name; with the only coordinate, of another or no standard name, whose
long name is `t`, and the hybrid height. -/
structure Field where
  cube : Cube
  t : Option Time
  hybrid : Option Hybrid

inductive Err
  | invalidVariable
  | units
  | value
deriving DecidableEq

/-- `hybrid_ht.convert_units('m')` (HadGEM.py:64-69). -/
def convertHybrid (f : Field) : Except Err Field :=
  match f.hybrid with
  | none => .ok f
  | some h => match h.metres with
    | none => .error .units
    | some m => .ok { f with hybrid := some { points := h.points.map m, bounds := h.bounds.map m, metres := some id } }

/-- `load_cube` with the name (gridded_data.py:14-36, HadGEM.py:43-62). -/
def select (merge : List Field → Option Field) (fields : List Field) (v : String) : Except Err Field :=
  match fields.filter (fun f => Gridded.named v f.cube) with
  | [] => .error .invalidVariable
  | [f] => .ok f
  | fs => match merge fs with
    | some f => .ok f
    | none => .error .invalidVariable

/-- `_create_cube` (HadGEM.py:24-79) and `create_data_object` (gridded_NetCDF.py:72-92) for one file. The coordinate `t` becomes the time (HadGEM.py:71-74);
if there is one already, Iris finds two, and the time is not converted. -/
def createData (merge : List Field → Option Field) (combine : List Cube → Option Cube) (fields : List Field) (v : String) : Except Err Field :=
  match select merge fields v with
  | .error e => .error e
  | .ok f =>
    match convertHybrid f with
    | .error e => .error e
    | .ok f =>
      let cubes := fields.map Field.cube
      match f.t, f.cube.time with
      | some _, some _ => .ok { f with cube := Gridded.addAvailable combine cubes f.cube }
      | t, own =>
        match Gridded.convertTime (Gridded.addAvailable combine cubes { f.cube with time := own.or t }) with
        | .error _ => .error .value
        | .ok c => .ok { f with cube := c, t := none }

/-- `get_variable_names` (HadGEM.py:81-89); the result is made a set. -/
def variableNames (fields : List Field) : List String := fields.map (fun f => f.cube.name)

/-! ### Proofs -/

/-- What adding coordinates leaves as it was. -/
theorem add_same (combine : List Cube → Option Cube) (cubes : List Cube) (c : Cube) :
    (Gridded.addAvailable combine cubes c).get = c.get ∧ (Gridded.addAvailable combine cubes c).dims = c.dims ∧
      (Gridded.addAvailable combine cubes c).var = c.var ∧ (Gridded.addAvailable combine cubes c).std = c.std ∧
      (Gridded.addAvailable combine cubes c).long = c.long ∧ (Gridded.addAvailable combine cubes c).time = c.time := by
  have step : ∀ (c : Cube) (s : String), (Gridded.addField combine cubes c s).get = c.get ∧ (Gridded.addField combine cubes c s).dims = c.dims ∧
      (Gridded.addField combine cubes c s).var = c.var ∧ (Gridded.addField combine cubes c s).std = c.std ∧
      (Gridded.addField combine cubes c s).long = c.long ∧ (Gridded.addField combine cubes c s).time = c.time := by
    intro c s
    unfold Gridded.addField
    cases Gridded.loadCube combine cubes (fun f => f.std == some s) with
    | error e => simp
    | ok f =>
      simp only
      unfold Gridded.addAux
      split <;> rename_i heq
      · simp
      · split at heq
        · cases heq
        · split at heq
          · cases heq; simp
          · cases heq
  have key : ∀ (l : List String) (c : Cube), (l.foldl (Gridded.addField combine cubes) c).get = c.get ∧
      (l.foldl (Gridded.addField combine cubes) c).dims = c.dims ∧ (l.foldl (Gridded.addField combine cubes) c).var = c.var ∧
      (l.foldl (Gridded.addField combine cubes) c).std = c.std ∧ (l.foldl (Gridded.addField combine cubes) c).long = c.long ∧
      (l.foldl (Gridded.addField combine cubes) c).time = c.time := by
    intro l
    induction l with
    | nil => intro c; simp
    | cons s t ih =>
      intro c
      rw [List.foldl_cons]
      obtain ⟨a1, a2, a3, a4, a5, a6⟩ := ih (Gridded.addField combine cubes c s)
      obtain ⟨b1, b2, b3, b4, b5, b6⟩ := step c s
      exact ⟨a1.trans b1, a2.trans b2, a3.trans b3, a4.trans b4, a5.trans b5, a6.trans b6⟩
  exact key Gridded.auxNames c

theorem convertHybrid_ok (f : Field) (hh : ∀ h, f.hybrid = some h → h.metres ≠ none) :
    ∃ f', convertHybrid f = .ok f' ∧ f'.cube = f.cube ∧ f'.t = f.t ∧ (f.hybrid = none → f'.hybrid = none) ∧
      ∀ h m, f.hybrid = some h → h.metres = some m → ∃ h', f'.hybrid = some h' ∧ h'.points = h.points.map m ∧ h'.bounds = h.bounds.map m := by
  unfold convertHybrid
  cases e : f.hybrid with
  | none => exact ⟨f, rfl, rfl, rfl, fun _ => e, by intro h m he; cases he⟩
  | some h =>
    cases em : h.metres with
    | none => exact absurd em (hh h e)
    | some m =>
      refine ⟨{ f with hybrid := some { points := h.points.map m, bounds := h.bounds.map m, metres := some id } }, by dsimp only; rw [em], rfl, rfl,
        (fun h' => by cases h'), ?_⟩
      intro h' m' e1 e2
      cases e1
      rw [em] at e2
      cases e2
      exact ⟨_, rfl, rfl, rfl⟩

theorem select_only (merge : List Field → Option Field) (fields : List Field) (v : String) (f : Field)
    (hu : fields.filter (fun f => Gridded.named v f.cube) = [f]) : select merge fields v = .ok f := by
  unfold select
  rw [hu]

/-- **C227.** A variable whose name (variable name, standard name or long name) no other has, with its hybrid height, if any, in units of length. It is read
with its data, names and dimensions; the hybrid height is in metres; and its time, a dimension of the data, which the file names as the standard name time or
only as the long name t, is converted to standard time, bounds included. -/
theorem c227_read (merge : List Field → Option Field) (combine : List Cube → Option Cube) (fields : List Field) (v : String) (f : Field)
    (hu : fields.filter (fun f => Gridded.named v f.cube) = [f]) (hh : ∀ h, f.hybrid = some h → h.metres ≠ none)
    (t : Time) (ht : f.cube.time = some t ∧ f.t = none ∨ f.cube.time = none ∧ f.t = some t) (hd : t.dims ≠ []) (hdim : t.isDim = true)
    (conv : ℚ → ℚ) (hc : t.conv = some conv) :
    ∃ r t', createData merge combine fields v = .ok r ∧ r.cube.get = f.cube.get ∧ r.cube.dims = f.cube.dims ∧ r.cube.var = f.cube.var ∧
      r.cube.std = f.cube.std ∧ r.cube.long = f.cube.long ∧ r.cube.time = some t' ∧ t'.points = t.points.map conv ∧ t'.bounds = t.bounds.map conv ∧
      t'.dims = t.dims ∧ t'.conv = none ∧
      (f.hybrid = none → r.hybrid = none) ∧
      ∀ h m, f.hybrid = some h → h.metres = some m → ∃ h', r.hybrid = some h' ∧ h'.points = h.points.map m ∧ h'.bounds = h.bounds.map m := by
  obtain ⟨f', e1, e2, e3, e4, e5⟩ := convertHybrid_ok f hh
  have ho : (f'.cube.time).or f'.t = some t := by
    rw [e2, e3]
    rcases ht with ⟨a, b⟩ | ⟨a, b⟩ <;> simp [a, b]
  obtain ⟨a1, a2, a3, a4, a5, a6⟩ := add_same combine (fields.map Field.cube) { f'.cube with time := (f'.cube.time).or f'.t }
  have hconv := Gridded.c95_time (Gridded.addAvailable combine (fields.map Field.cube) { f'.cube with time := (f'.cube.time).or f'.t }) t
    (by rw [a6]; exact ho) hd hdim conv hc
  have hct : ∃ c t', Gridded.convertTime (Gridded.addAvailable combine (fields.map Field.cube) { f'.cube with time := (f'.cube.time).or f'.t }) = .ok c ∧
      c.time = some t' ∧ t'.conv = none ∧ t'.points = t.points.map conv ∧ t'.bounds = t.bounds.map conv ∧ t'.dims = t.dims ∧ c.get = f.cube.get ∧
      c.dims = f.cube.dims ∧ c.var = f.cube.var ∧ c.std = f.cube.std ∧ c.long = f.cube.long := by
    have ht6 : (Gridded.addAvailable combine (fields.map Field.cube) { f'.cube with time := (f'.cube.time).or f'.t }).time = some t := by
      rw [a6]; exact ho
    unfold Gridded.convertTime
    rw [ht6]
    dsimp only
    rw [if_pos (List.length_pos_iff.2 hd), if_pos hdim]
    refine ⟨_, _, rfl, rfl, rfl, by simp [hc], by simp [hc], rfl, a1.trans (show f'.cube.get = _ by rw [e2]),
      a2.trans (show f'.cube.dims = _ by rw [e2]), a3.trans (show f'.cube.var = _ by rw [e2]), a4.trans (show f'.cube.std = _ by rw [e2]), a5.trans (show f'.cube.long = _ by rw [e2])⟩
  obtain ⟨c, t', h1, h2, h3, h4, h5, h6, h7, h8, h9, h10, h11⟩ := hct
  refine ⟨{ f' with cube := c, t := none }, t', ?_, h7, h8, h9, h10, h11, h2, h4, h5, h6, h3, e4, e5⟩
  unfold createData
  rw [select_only merge fields v f hu]
  dsimp only
  rw [e1]
  dsimp only
  have hsplit : (f'.t = none ∨ f'.cube.time = none) := by
    rw [e2, e3]
    rcases ht with ⟨a, b⟩ | ⟨a, b⟩
    · exact Or.inl b
    · exact Or.inr a
  rcases hsplit with e | e
  · rw [e] at h1 ⊢
    cases hct : f'.cube.time with
    | none => rw [hct] at h1; dsimp only; rw [h1]
    | some x => rw [hct] at h1; dsimp only; rw [h1]
  · rw [e] at h1 ⊢
    cases hct : f'.t with
    | none => rw [hct] at h1; dsimp only; rw [h1]
    | some x => rw [hct] at h1; dsimp only; rw [h1]

/-- C227: a name that no variable has is refused, and so is one that several variables have that Iris cannot make one. -/
theorem c227_unknown (merge : List Field → Option Field) (combine : List Cube → Option Cube) (fields : List Field) (v : String)
    (h : (∀ f ∈ fields, Gridded.named v f.cube = false) ∨
      2 ≤ (fields.filter (fun f => Gridded.named v f.cube)).length ∧ merge (fields.filter (fun f => Gridded.named v f.cube)) = none) :
    createData merge combine fields v = .error .invalidVariable := by
  have : select merge fields v = .error .invalidVariable := by
    unfold select
    rcases h with h | ⟨h, hm⟩
    · rw [show fields.filter (fun f => Gridded.named v f.cube) = [] from List.filter_eq_nil_iff.2 (fun f hf => by simp [h f hf])]
    · revert h hm
      cases fields.filter (fun f => Gridded.named v f.cube) with
      | nil => intro h; simp at h
      | cons a t => cases t with
        | nil => intro h; simp at h
        | cons b u => intro _ hm; dsimp only; rw [hm]
  unfold createData
  rw [this]

/-- C227: the names listed are those of the variables (the standard name, else the long name, else the variable name), and a name listed for a variable
that has one of them is a name by which it can be asked for. -/
theorem c227_listed (fields : List Field) (f : Field) (hf : f ∈ fields) :
    f.cube.name ∈ variableNames fields ∧ (∀ n ∈ variableNames fields, ∃ g ∈ fields, g.cube.name = n) ∧
    (f.cube.std ≠ none ∨ f.cube.long ≠ none ∨ f.cube.var ≠ none → Gridded.named f.cube.name f.cube = true) := by
  refine ⟨List.mem_map.2 ⟨f, hf, rfl⟩, ?_, ?_⟩
  · intro n hn
    obtain ⟨g, hg, rfl⟩ := List.mem_map.1 hn
    exact ⟨g, hg, rfl⟩
  · intro h
    unfold Gridded.named Gridded.Cube.name
    cases h1 : f.cube.std with
    | some s => simp
    | none => cases h2 : f.cube.long with
      | some s => simp
      | none => cases h3 : f.cube.var with
        | some s => simp
        | none => simp [h1, h2, h3] at h

/-- C228 is violated for variables with two times: none of them is converted. -/
theorem c228_two_times_violated (merge : List Field → Option Field) (combine : List Cube → Option Cube) (fields : List Field) (v : String) (f : Field)
    (hu : fields.filter (fun f => Gridded.named v f.cube) = [f]) (hh : f.hybrid = none) (t t' : Time) (h1 : f.cube.time = some t) (h2 : f.t = some t') :
    ∃ r, createData merge combine fields v = .ok r ∧ r.cube.time = some t ∧ r.t = some t' := by
  unfold createData
  rw [select_only merge fields v f hu]
  have : convertHybrid f = .ok f := by unfold convertHybrid; rw [hh]
  dsimp only
  rw [this]
  dsimp only
  rw [h1, h2]
  exact ⟨_, rfl, by rw [(add_same combine (fields.map Field.cube) f.cube).2.2.2.2.2]; exact h1, rfl⟩

/-- C228 is violated for variables whose hybrid height has no units of length: they cannot be read at all. -/
theorem c228_hybrid_units_violated (merge : List Field → Option Field) (combine : List Cube → Option Cube) (fields : List Field) (v : String) (f : Field)
    (hu : fields.filter (fun f => Gridded.named v f.cube) = [f]) (h : Hybrid) (hh : f.hybrid = some h) (hm : h.metres = none) :
    createData merge combine fields v = .error .units := by
  unfold createData
  rw [select_only merge fields v f hu]
  have : convertHybrid f = .error .units := by unfold convertHybrid; rw [hh]; dsimp only; rw [hm]
  dsimp only
  rw [this]

/-! ### Examples -/

def exTime : Time := ⟨[0], true, [0, 24], [], some (fun x => x / 24 + 10)⟩
def exField (var : String) : Field :=
  ⟨⟨some var, none, none, [⟨"t", 2, true⟩], fun i => i.getD 0 0, [], none⟩, some exTime, some ⟨[1, 2], [], some (fun x => 1000 * x)⟩⟩

/-- A time that is only called t, and heights in kilometres. -/
example : ∃ r t' h', createData (fun _ => none) (fun _ => none) [exField "a", exField "b"] "b" = .ok r ∧ r.cube.time = some t' ∧ t'.points = [10, 11] ∧
    r.hybrid = some h' ∧ h'.points = [1000, 2000] := by
  obtain ⟨r, t', h1, -, -, -, -, -, h2, h3, -, -, -, -, h4⟩ := c227_read (fun _ => none) (fun _ => none) [exField "a", exField "b"] "b" (exField "b")
    (by simp [exField, Gridded.named, List.filter_cons]) (by intro h e; cases e; simp) exTime (Or.inr ⟨rfl, rfl⟩) (by simp [exTime]) rfl _ rfl
  obtain ⟨h', e1, e2, -⟩ := h4 _ _ rfl rfl
  refine ⟨r, t', h', h1, h2, ?_, e1, ?_⟩
  · rw [h3]; norm_num [exTime]
  · rw [e2]; norm_num

/-- A name that is not there. -/
example : createData (fun _ => none) (fun _ => none) [exField "a", exField "b"] "c" = .error .invalidVariable :=
  c227_unknown _ _ _ _ (Or.inl (by simp [exField, Gridded.named]))

/-- Two variables with the name that are not made one. -/
example : createData (fun _ => none) (fun _ => none) [exField "a", exField "a"] "a" = .error .invalidVariable :=
  c227_unknown _ _ _ _ (Or.inr ⟨by simp [exField, Gridded.named, List.filter_cons], rfl⟩)

/-- A variable with two times, and one whose hybrid height has no units. -/
example : (∃ r, createData (fun _ => none) (fun _ => none) [{ exField "a" with cube := { (exField "a").cube with time := some exTime }, hybrid := none }] "a" = .ok r ∧
      r.cube.time = some exTime) ∧
    createData (fun _ => none) (fun _ => none) [{ exField "a" with hybrid := some ⟨[1, 2], [], none⟩ }] "a" = .error .units := by
  constructor
  · obtain ⟨r, h1, h2, -⟩ := c228_two_times_violated (fun _ => none) (fun _ => none)
      [{ exField "a" with cube := { (exField "a").cube with time := some exTime }, hybrid := none }] "a"
      { exField "a" with cube := { (exField "a").cube with time := some exTime }, hybrid := none }
      (by simp [exField, Gridded.named, List.filter_cons]) rfl exTime exTime rfl rfl
    exact ⟨r, h1, h2⟩
  · exact c228_hybrid_units_violated _ _ _ _ { exField "a" with hybrid := some ⟨[1, 2], [], none⟩ }
      (by simp [exField, Gridded.named, List.filter_cons]) _ rfl rfl

end Cis.HadGem
