import Mathlib.Data.List.Basic
import Mathlib.Data.Rat.Defs
import Mathlib.Tactic
set_option linter.unusedSectionVars false
set_option linter.unusedSimpArgs false
/-!
Model of the reading of gridded files: `NetCDF_Gridded` (cis/data_io/products/gridded_NetCDF.py), `load_cube`
(cis/data_io/gridded_data.py:14-36) and `convert_cube_time_coord_to_standard_time` (cis/time_util.py:209-238). Property C95.

`iris.load` is a parameter: the cubes of the files, and whether several cubes can be made into one (`combine`). The contracts of
iris used: `add_aux_coord` raises ValueError unless the shape of the coordinate is that of the dimensions given, and for a coordinate
that the cube already has; `add_dim_coord` raises ValueError for an auxiliary coordinate. A field with more dimensions than the cube is
refused here (iris may raise IndexError). Masks, callbacks and opening of files are not modelled.
-/
namespace Cis.Gridded

/-- A dimension: its name, size, and whether its coordinate is a time, vertical or in degrees. -/
structure Dim where
  name : String
  size : Nat
  plain : Bool
deriving DecidableEq

/-- A coordinate attached to some dimensions of a cube. -/
structure Aux where
  name : String
  shape : List Nat
  get : List Nat → ℚ
  dims : List Nat

/-- The time coordinate: its dimensions (none if scalar), whether it is a dimension coordinate, its points and bounds, and the
conversion of its units into standard time (`none`: it is in standard time). -/
structure Time where
  dims : List Nat
  isDim : Bool
  points : List ℚ
  bounds : List ℚ
  conv : Option (ℚ → ℚ)

structure Cube where
  var : Option String
  std : Option String
  long : Option String
  dims : List Dim
  get : List Nat → ℚ
  aux : List Aux
  time : Option Time

def Cube.shape (c : Cube) : List Nat := c.dims.map Dim.size

/-- Exceptions: ValueError, InvalidVariableError. -/
inductive Err
  | value
  | invalidVariable
deriving DecidableEq, Repr

/-- `cube.name()` (iris): the first name it has. -/
def Cube.name (c : Cube) : String := (c.std.or (c.long.or c.var)).getD "unknown"

/-! ### Reading -/

/-- `load_cube` with a constraint (gridded_data.py:14-36). -/
def loadCube (combine : List Cube → Option Cube) (cubes : List Cube) (p : Cube → Bool) : Except Err Cube :=
  match cubes.filter p with
  | [] => .error .value
  | [c] => .ok c
  | cs => match combine cs with
    | some c => .ok c
    | none => .error .value

/-- `cube.add_aux_coord(coord, dims)` (iris). -/
def addAux (c : Cube) (a : Aux) : Except Err Cube :=
  if c.aux.any (fun b => b.name == a.name) then .error .value
  else if a.dims.map (fun d => c.shape[d]?) = a.shape.map some then .ok { c with aux := c.aux ++ [a] }
  else .error .value

/-- Standard gravity (`scipy.constants.g`). -/
def g : ℚ := 980665 / 100000

/-- The coordinate made of a field (gridded_NetCDF.py:152-186): its first dimensions are those of the cube. -/
def makeAux (std : String) (f : Cube) : Aux :=
  { name := if std = "air_pressure" then "air_pressure" else "altitude"
    shape := f.shape
    get := fun idx => if std = "geopotential" then f.get idx / g else f.get idx
    dims := List.range f.shape.length }

def auxNames : List String := ["geopotential", "geopotential_height", "air_pressure"]

/-- One turn of the loop of `_add_available_aux_coords` (gridded_NetCDF.py:192-200). -/
def addField (combine : List Cube → Option Cube) (cubes : List Cube) (c : Cube) (std : String) : Cube :=
  match loadCube combine cubes (fun f => f.std == some std) with
  | .error _ => c
  | .ok f => match addAux c (makeAux std f) with
    | .error _ => c
    | .ok c' => c'

def addAvailable (combine : List Cube → Option Cube) (cubes : List Cube) (c : Cube) : Cube :=
  auxNames.foldl (addField combine cubes) c

/-- Does the cube have the name (gridded_NetCDF.py:113-115). -/
def named (v : String) (c : Cube) : Bool := c.var == some v || c.std == some v || c.long == some v

/-- `_create_cube` (gridded_NetCDF.py:96-140); without a name all cubes. -/
def createCube (combine : List Cube → Option Cube) (cubes : List Cube) (v : Option String) : Except Err Cube :=
  match loadCube combine cubes (match v with | some v => named v | none => fun _ => true) with
  | .error _ => .error .invalidVariable
  | .ok c => .ok (addAvailable combine cubes c)

/-- `convert_cube_time_coord_to_standard_time` (time_util.py:209-238). -/
def convertTime (c : Cube) : Except Err Cube :=
  match c.time with
  | none => .ok c
  | some t =>
    if t.dims.length > 0 then
      if t.isDim then
        .ok { c with time := some { t with points := t.points.map (t.conv.getD id), bounds := t.bounds.map (t.conv.getD id), conv := none } }
      else .error .value
    else .ok c

/-- `create_data_object` (gridded_NetCDF.py:72-92). -/
def createData (combine : List Cube → Option Cube) (cubes : List Cube) (v : Option String) : Except Err Cube :=
  match createCube combine cubes v with
  | .error e => .error e
  | .ok c => convertTime c

/-- `get_variable_names` (gridded_NetCDF.py:23-49); the result is made a set. -/
def variableNames (cubes : List Cube) : List String :=
  (cubes.filter (fun c => c.dims.all (fun d => decide (d.size ≤ 1) || d.plain))).map (fun c => match c.var with
    | some v => if v = "" then c.name else v
    | none => c.name)

/-- `create_coords` without a variable (gridded_NetCDF.py:51-70); `pick` is the element that `set.pop` takes. -/
def createCoords (combine : List Cube → Option Cube) (cubes : List Cube) (pick : List String → String) : Except Err Cube :=
  if (variableNames cubes).dedup.length > 1 then createData combine cubes (some (pick (variableNames cubes).dedup))
  else createData combine cubes none

/-! ### Specification -/

/-- The index of a dimension, by its name, in the index of an element of the cube. -/
def Spec.indexOf (dims : List Dim) (idx : List Nat) (name : String) : Option Nat :=
  ((dims.zip idx).find? (fun p => p.1.name == name)).map Prod.snd

/-- The value of an attached coordinate at an element of the cube. -/
def Spec.valueAt (a : Aux) (idx : List Nat) : ℚ := a.get (a.dims.map (fun d => idx.getD d 0))

/-- `a` has, at each element of the cube, `scale` times the value of the field at the same position: the dimensions of the field have the
indices that the dimensions of the same names have in the cube. -/
def Spec.SamePosition (c : Cube) (f : Cube) (scale : ℚ) (a : Aux) : Prop :=
  ∀ idx, List.Forall₂ (· < ·) idx c.shape → ∀ fidx, f.dims.map (fun d => Spec.indexOf c.dims idx d.name) = fidx.map some →
    Spec.valueAt a idx = scale * f.get fidx

/-! ### Proofs -/

/-- C95: a name that exactly one cube has gives that cube: its data, names and dimensions. -/
theorem c95_variable (combine : List Cube → Option Cube) (cubes : List Cube) (v : String) (c : Cube)
    (h : cubes.filter (named v) = [c]) : ∃ r, createCube combine cubes (some v) = .ok r ∧ r.get = c.get ∧ r.dims = c.dims ∧
      r.var = c.var ∧ r.std = c.std ∧ r.long = c.long ∧ r.time = c.time := by
  unfold createCube loadCube
  simp only [h]
  refine ⟨_, rfl, ?_⟩
  have key : ∀ (l : List String) (c : Cube), (l.foldl (addField combine cubes) c).get = c.get ∧
      (l.foldl (addField combine cubes) c).dims = c.dims ∧ (l.foldl (addField combine cubes) c).var = c.var ∧
      (l.foldl (addField combine cubes) c).std = c.std ∧ (l.foldl (addField combine cubes) c).long = c.long ∧
      (l.foldl (addField combine cubes) c).time = c.time := by
    intro l
    induction l with
    | nil => intro c; simp
    | cons s t ih =>
      intro c
      rw [List.foldl_cons]
      have h1 : (addField combine cubes c s).get = c.get ∧ (addField combine cubes c s).dims = c.dims ∧
          (addField combine cubes c s).var = c.var ∧ (addField combine cubes c s).std = c.std ∧
          (addField combine cubes c s).long = c.long ∧ (addField combine cubes c s).time = c.time := by
        unfold addField
        cases loadCube combine cubes (fun f => f.std == some s) with
        | error e => simp
        | ok f =>
          simp only
          unfold addAux
          split <;> rename_i heq
          · simp
          · split at heq
            · cases heq
            · split at heq
              · cases heq; simp
              · cases heq
      obtain ⟨a1, a2, a3, a4, a5, a6⟩ := ih (addField combine cubes c s)
      obtain ⟨b1, b2, b3, b4, b5, b6⟩ := h1
      exact ⟨a1.trans b1, a2.trans b2, a3.trans b3, a4.trans b4, a5.trans b5, a6.trans b6⟩
  exact key auxNames c

/-- C95: a name that no cube has is refused. -/
theorem c95_unknown (combine : List Cube → Option Cube) (cubes : List Cube) (v : String) (h : ∀ c ∈ cubes, named v c = false) :
    createData combine cubes (some v) = .error .invalidVariable := by
  have : cubes.filter (named v) = [] := List.filter_eq_nil_iff.2 (fun c hc => by simp [h c hc])
  unfold createData createCube loadCube
  simp only [this]

/-- C95: the names listed are those of the cubes whose dimensions, other than of one point, are all times, vertical or in degrees. -/
theorem c95_names (cubes : List Cube) (hv : ∀ c ∈ cubes, c.var ≠ some "") (n : String) : n ∈ variableNames cubes ↔
    ∃ c ∈ cubes, (∀ d ∈ c.dims, 1 < d.size → d.plain = true) ∧ n = c.var.getD c.name := by
  unfold variableNames
  simp only [List.mem_map, List.mem_filter, List.all_eq_true, Bool.or_eq_true, decide_eq_true_eq]
  constructor
  · rintro ⟨c, ⟨h1, h2⟩, rfl⟩
    refine ⟨c, h1, fun d hd hs => (h2 d hd).resolve_left (by omega), ?_⟩
    cases hc : c.var with
    | none => rfl
    | some v => simp only [Option.getD_some]; rw [if_neg]; rintro rfl; exact hv c h1 hc
  · rintro ⟨c, h1, h2, rfl⟩
    refine ⟨c, ⟨h1, fun d hd => ?_⟩, ?_⟩
    · by_cases hs : d.size ≤ 1
      · exact Or.inl hs
      · exact Or.inr (h2 d hd (by omega))
    · cases hc : c.var with
      | none => rfl
      | some v => simp only [Option.getD_some]; rw [if_neg]; rintro rfl; exact hv c h1 hc

/-- C95: every name listed can be read, and gives the cube it was listed for, if no other cube has the name. -/
theorem c95_listed (combine : List Cube → Option Cube) (cubes : List Cube) (c : Cube) (hc : c ∈ cubes) (hn : cubes.Nodup) (v : String)
    (hv : c.var = some v) (hu : ∀ c' ∈ cubes, named v c' = true → c' = c) :
    ∃ r, createCube combine cubes (some v) = .ok r ∧ r.get = c.get ∧ r.dims = c.dims := by
  have h : cubes.filter (named v) = [c] := by
    have h1 : ∀ c' ∈ cubes.filter (named v), c' = c := fun c' h' => hu c' (List.mem_filter.1 h').1 (List.mem_filter.1 h').2
    have h2 : c ∈ cubes.filter (named v) := List.mem_filter.2 ⟨hc, by simp [named, hv]⟩
    have h3 : (cubes.filter (named v)).Nodup := hn.filter _
    match hl : cubes.filter (named v) with
    | [] => rw [hl] at h2; cases h2
    | [x] => rw [hl] at h1; rw [h1 x (by simp)]
    | x :: y :: t =>
      rw [hl] at h1 h3
      have := h1 x (by simp)
      have := h1 y (by simp)
      simp_all
  obtain ⟨r, h1, h2, h3, -⟩ := c95_variable combine cubes v c h
  exact ⟨r, h1, h2, h3⟩

/-- Among dimensions with different names, the index of the one at position `i` is the `i`-th. -/
theorem indexOf_getElem : ∀ (l : List Dim) (idx : List Nat) (i : Nat), (l.map Dim.name).Nodup → idx.length = l.length →
    ∀ (hi : i < l.length) (hii : i < idx.length),
    ((l.zip idx).find? (fun p => p.1.name == l[i].name)).map Prod.snd = some idx[i]
  | [], _, _, _, _, hi, _ => by simp at hi
  | x :: l, [], _, _, _, _, hii => by simp at hii
  | x :: l, n :: idx, 0, _, _, _, _ => by simp
  | x :: l, n :: idx, i + 1, hn, hl, hi, hii => by
    simp only [List.getElem_cons_succ, List.zip_cons_cons]
    rw [List.find?_cons]
    have hne : (x.name == (l[i]'(by simpa using hi)).name) = false := by
      rw [beq_eq_false_iff_ne]
      intro hc
      rw [List.map_cons, List.nodup_cons] at hn
      exact hn.1 (by rw [hc]; exact List.mem_map_of_mem (List.getElem_mem _))
    rw [hne]
    simp only
    exact indexOf_getElem l idx i (by rw [List.map_cons, List.nodup_cons] at hn; exact hn.2) (by simpa using hl) (by simpa using hi) (by simpa using hii)

/-- C95: the auxiliary coordinate has at each element the value of the field at the same position, if the dimensions of the field are the
first ones of the cube, in the same order. -/
theorem c95_aux_aligned (c f : Cube) (rest : List Dim) (std : String) (h : c.dims = f.dims ++ rest) (hn : (c.dims.map Dim.name).Nodup)
    (hno : ∀ b ∈ c.aux, b.name ≠ (makeAux std f).name) :
    addAux c (makeAux std f) = .ok { c with aux := c.aux ++ [makeAux std f] } ∧
      Spec.SamePosition c f (if std = "geopotential" then 1 / g else 1) (makeAux std f) := by
  constructor
  · unfold addAux
    rw [if_neg, if_pos]
    · simp only [makeAux]
      apply List.ext_getElem?
      intro i
      simp only [List.getElem?_map, List.getElem?_range', Cube.shape, h, List.map_append]
      by_cases hi : i < f.dims.length
      · simp [hi, List.getElem?_append_left]
      · simp [hi]
    · rw [List.any_eq_true]
      rintro ⟨b, hb, hc⟩
      exact hno b hb (by simpa using hc)
  · intro idx hidx fidx hf
    have hlen : idx.length = c.dims.length := by simpa [Cube.shape] using List.Forall₂.length_eq hidx
    -- the indices of the field are the first ones
    have key : ∀ (fd rest : List Dim) (idx : List Nat), ((fd ++ rest).map Dim.name).Nodup → idx.length = (fd ++ rest).length →
        fd.map (fun d => Spec.indexOf (fd ++ rest) idx d.name) = (idx.take fd.length).map some := by
      intro fd rest idx hn hl
      apply List.ext_getElem
      · simp at hl ⊢; omega
      · intro i h1 h2
        simp only [List.length_map] at h1
        simp only [List.getElem_map, List.getElem_take]
        unfold Spec.indexOf
        have hi : i < (fd ++ rest).length := by simp; omega
        have hii : i < idx.length := by omega
        have hfd : fd[i] = (fd ++ rest)[i] := by rw [List.getElem_append_left h1]
        rw [hfd]
        exact indexOf_getElem (fd ++ rest) idx i hn hl hi hii
    have h2 := key f.dims rest idx (by rw [← h]; exact hn) (by rw [← h]; exact hlen)
    rw [← h, hf] at h2
    have h3 : fidx = idx.take f.dims.length := by
      have := congrArg (List.map (fun o : Option Nat => o.getD 0)) h2
      simpa [Function.comp_def] using this
    have h4 : (List.range f.dims.length).map (fun d => idx.getD d 0) = idx.take f.dims.length := by
      have hle : f.dims.length ≤ idx.length := by rw [hlen, h]; simp
      apply List.ext_getElem
      · simp; omega
      · intro i h1 h2
        simp only [List.length_map, List.length_range] at h1
        simp [List.getElem?_eq_getElem (show i < idx.length by omega)]
    unfold Spec.valueAt
    simp only [makeAux, Cube.shape, List.length_map]
    rw [h4, ← h3]
    split <;> ring

/-- What one turn of the loop does to the attached coordinates: nothing, or one more with the name of the field. -/
theorem addField_aux (combine : List Cube → Option Cube) (cubes : List Cube) (c : Cube) (std : String) :
    addField combine cubes c std = c ∨ ∃ f, addField combine cubes c std = { c with aux := c.aux ++ [makeAux std f] } := by
  unfold addField
  split
  · exact .inl rfl
  · rename_i f hf
    unfold addAux
    split
    · exact .inl rfl
    · rename_i c' hc
      split at hc
      · cases hc
      · split at hc
        · cases hc
          exact .inr ⟨f, rfl⟩
        · cases hc

theorem addField_dims (combine : List Cube → Option Cube) (cubes : List Cube) (c : Cube) (std : String) :
    (addField combine cubes c std).dims = c.dims := by
  rcases addField_aux combine cubes c std with h | ⟨f, h⟩ <;> rw [h]

/-- The turn of the only field with the standard name. -/
theorem addField_one (combine : List Cube → Option Cube) (cubes : List Cube) (c f : Cube) (rest : List Dim) (std : String)
    (h1 : cubes.filter (fun x => x.std == some std) = [f]) (h : c.dims = f.dims ++ rest) (hn : (c.dims.map Dim.name).Nodup)
    (hno : ∀ b ∈ c.aux, b.name ≠ (makeAux std f).name) :
    addField combine cubes c std = { c with aux := c.aux ++ [makeAux std f] } := by
  unfold addField loadCube
  simp only [h1, (c95_aux_aligned c f rest std h hn hno).1]

/-- C95: the pressure of the files, if it is on the first dimensions of the cube, is a coordinate of the result, with at each element
the value at the same position. -/
theorem c95_pressure (combine : List Cube → Option Cube) (cubes : List Cube) (v : String) (c f : Cube) (rest : List Dim)
    (hc : cubes.filter (named v) = [c]) (hf : cubes.filter (fun x => x.std == some "air_pressure") = [f])
    (h : c.dims = f.dims ++ rest) (hn : (c.dims.map Dim.name).Nodup) (ha : c.aux = []) :
    ∃ r a, createCube combine cubes (some v) = .ok r ∧ a ∈ r.aux ∧ a.name = "air_pressure" ∧ Spec.SamePosition c f 1 a := by
  have hr : createCube combine cubes (some v) = .ok (addAvailable combine cubes c) := by
    unfold createCube loadCube
    simp only [hc]
  let c1 := addField combine cubes c "geopotential"
  let c2 := addField combine cubes c1 "geopotential_height"
  have hd : c2.dims = c.dims := by
    show (addField combine cubes (addField combine cubes c "geopotential") "geopotential_height").dims = c.dims
    rw [addField_dims, addField_dims]
  have hx : ∀ b ∈ c2.aux, b.name ≠ (makeAux "air_pressure" f).name := by
    have h1 : ∀ b ∈ c1.aux, b.name = "altitude" := by
      show ∀ b ∈ (addField combine cubes c "geopotential").aux, b.name = "altitude"
      rcases addField_aux combine cubes c "geopotential" with e | ⟨f', e⟩
      · rw [e, ha]; simp
      · rw [e]; simp [ha, makeAux]
    have h2 : ∀ b ∈ c2.aux, b.name = "altitude" := by
      show ∀ b ∈ (addField combine cubes c1 "geopotential_height").aux, b.name = "altitude"
      rcases addField_aux combine cubes c1 "geopotential_height" with e | ⟨f', e⟩
      · rw [e]; exact h1
      · rw [e]
        intro b hb
        rcases List.mem_append.1 hb with hb | hb
        · exact h1 b hb
        · rw [List.mem_singleton.1 hb]; simp [makeAux]
    intro b hb
    rw [h2 b hb]
    simp [makeAux]
  have hlast : addAvailable combine cubes c = { c2 with aux := c2.aux ++ [makeAux "air_pressure" f] } :=
    addField_one combine cubes c2 f rest "air_pressure" hf (by rw [hd]; exact h) (by rw [hd]; exact hn) hx
  refine ⟨_, makeAux "air_pressure" f, hr, by rw [hlast]; simp, by simp [makeAux], ?_⟩
  have := (c95_aux_aligned c f rest "air_pressure" h hn (by simp [ha])).2
  simpa using this

/-- The attached coordinates stay. -/
theorem addField_mem (combine : List Cube → Option Cube) (cubes : List Cube) (c : Cube) (std : String) (a : Aux) (h : a ∈ c.aux) :
    a ∈ (addField combine cubes c std).aux := by
  rcases addField_aux combine cubes c std with e | ⟨f, e⟩ <;> rw [e]
  · exact h
  · exact List.mem_append_left _ h

/-- C95: the geopotential of the files, divided by gravity, is the altitude of the result; without one, the geopotential height is. -/
theorem c95_altitude (combine : List Cube → Option Cube) (cubes : List Cube) (v : String) (c f : Cube) (rest : List Dim) (scale : ℚ)
    (hc : cubes.filter (named v) = [c])
    (hf : cubes.filter (fun x => x.std == some "geopotential") = [f] ∧ scale = 1 / (980665 / 100000) ∨
      cubes.filter (fun x => x.std == some "geopotential") = [] ∧
        cubes.filter (fun x => x.std == some "geopotential_height") = [f] ∧ scale = 1)
    (h : c.dims = f.dims ++ rest) (hn : (c.dims.map Dim.name).Nodup) (ha : c.aux = []) :
    ∃ r a, createCube combine cubes (some v) = .ok r ∧ a ∈ r.aux ∧ a.name = "altitude" ∧ Spec.SamePosition c f scale a := by
  have hr : createCube combine cubes (some v) = .ok (addAvailable combine cubes c) := by
    unfold createCube loadCube
    simp only [hc]
  rcases hf with ⟨hf, hs⟩ | ⟨h0, hf, hs⟩
  · refine ⟨_, makeAux "geopotential" f, hr, ?_, by simp [makeAux], ?_⟩
    · refine addField_mem _ _ _ "air_pressure" _ (addField_mem _ _ _ "geopotential_height" _ ?_)
      rw [addField_one combine cubes c f rest "geopotential" hf h hn (by simp [ha])]
      simp
    · have := (c95_aux_aligned c f rest "geopotential" h hn (by simp [ha])).2
      rw [hs]
      simpa [g] using this
  · refine ⟨_, makeAux "geopotential_height" f, hr, ?_, by simp [makeAux], ?_⟩
    · refine addField_mem _ _ _ "air_pressure" _ ?_
      have e : addField combine cubes c "geopotential" = c := by
        unfold addField loadCube
        simp only [h0]
      show _ ∈ (addField combine cubes (addField combine cubes c "geopotential") "geopotential_height").aux
      rw [e, addField_one combine cubes c f rest "geopotential_height" hf h hn (by simp [ha])]
      simp
    · have := (c95_aux_aligned c f rest "geopotential_height" h hn (by simp [ha])).2
      rw [hs]
      simpa using this

/-- C95: the read variable in standard time: the data of the cube, and each time converted. -/
theorem c95_read (combine : List Cube → Option Cube) (cubes : List Cube) (v : String) (c : Cube) (hc : cubes.filter (named v) = [c])
    (t : Time) (h : c.time = some t) (hd : t.dims ≠ []) (hdim : t.isDim = true) (conv : ℚ → ℚ) (hconv : t.conv = some conv) :
    ∃ r t', createData combine cubes (some v) = .ok r ∧ r.get = c.get ∧ r.dims = c.dims ∧ r.var = c.var ∧ r.time = some t' ∧
      t'.points = t.points.map conv ∧ t'.bounds = t.bounds.map conv ∧ t'.dims = t.dims := by
  obtain ⟨r, h1, h2, h3, h4, -, -, h5⟩ := c95_variable combine cubes v c hc
  unfold createData
  rw [h1]
  simp only [convertTime, h5, h, if_pos (List.length_pos_iff.2 hd), hdim, if_true]
  exact ⟨_, _, rfl, h2, h3, h4, rfl, by simp [hconv], by simp [hconv], rfl⟩

/-- C95 is violated by a field on other dimensions of the same sizes: it is attached to the first dimensions. Here the field has latitude
and longitude, the cube time, latitude and longitude, all of size 2: the coordinate depends on time and latitude. -/
theorem c95_wrong_dimension_violated : ∃ (c f : Cube), c.dims.map Dim.name = ["time", "latitude", "longitude"] ∧
    f.dims.map Dim.name = ["latitude", "longitude"] ∧ (∃ c', addAux c (makeAux "air_pressure" f) = .ok c') ∧
    ¬ Spec.SamePosition c f 1 (makeAux "air_pressure" f) := by
  refine ⟨⟨none, none, none, [⟨"time", 2, true⟩, ⟨"latitude", 2, true⟩, ⟨"longitude", 2, true⟩], fun _ => 0, [], none⟩,
    ⟨none, some "air_pressure", none, [⟨"latitude", 2, true⟩, ⟨"longitude", 2, true⟩], fun i => 10 * i.getD 0 0 + i.getD 1 0, [], none⟩,
    rfl, rfl, ⟨_, rfl⟩, ?_⟩
  intro h
  have := h [0, 0, 1] (.cons (by decide) (.cons (by decide) (.cons (by decide) .nil))) [0, 1] (by decide)
  revert this
  simp [Spec.valueAt, makeAux, Cube.shape]

/-- C95 is violated by a field on other dimensions of other sizes: it is left out, with no message. Here for every cube whose first
dimension has another size than the first of the field. -/
theorem c95_left_out_violated (combine : List Cube → Option Cube) (cubes : List Cube) (c f : Cube) (std : String)
    (h1 : cubes.filter (fun x => x.std == some std) = [f]) (n m : Nat) (s t : List Nat) (hc : c.shape = n :: s) (hf : f.shape = m :: t)
    (hne : n ≠ m) : addField combine cubes c std = c := by
  unfold addField loadCube
  simp only [h1]
  have : addAux c (makeAux std f) = .error .value := by
    unfold addAux
    split
    · rfl
    · rw [if_neg]
      intro hh
      simp only [makeAux, hf, List.length_cons, List.range_succ_eq_map, List.map_cons, hc, List.getElem?_cons_zero, List.cons.injEq,
        Option.some.injEq] at hh
      exact hne hh.1
  rw [this]

/-- C95: the time of a cube, along a dimension, is converted to standard time, points and bounds alike. -/
theorem c95_time (c : Cube) (t : Time) (h : c.time = some t) (hd : t.dims ≠ []) (hdim : t.isDim = true) (conv : ℚ → ℚ)
    (hc : t.conv = some conv) : ∃ r t', convertTime c = .ok r ∧ r.time = some t' ∧ t'.conv = none ∧ t'.points = t.points.map conv ∧
      t'.bounds = t.bounds.map conv ∧ t'.dims = t.dims ∧ r.get = c.get ∧ r.dims = c.dims := by
  unfold convertTime
  rw [h]
  simp only
  rw [if_pos (List.length_pos_iff.2 hd), if_pos hdim]
  refine ⟨_, _, rfl, rfl, rfl, ?_, ?_, rfl, rfl, rfl⟩ <;> simp [hc]

/-- C95 is violated by a time of a single value: it keeps the units of the file. -/
theorem c95_scalar_time_violated (c : Cube) (t : Time) (h : c.time = some t) (hd : t.dims = []) : convertTime c = .ok c := by
  unfold convertTime
  rw [h]
  simp [hd]

/-- C95 is violated by an auxiliary time (a dimension whose own coordinate is another one): the cube cannot be read. -/
theorem c95_auxiliary_time_violated (c : Cube) (t : Time) (h : c.time = some t) (hd : t.dims ≠ []) (hdim : t.isDim = false) :
    convertTime c = .error .value := by
  unfold convertTime
  rw [h]
  simp [hdim, List.length_pos_iff.2 hd]

/-- C95 is violated for coordinates without a variable: in a file with one variable that is listed, and others that are not, there is an
error. -/
theorem c95_coords_violated : ∃ cubes : List Cube, (variableNames cubes).length = 1 ∧
    ∀ pick, createCoords (fun _ => none) cubes pick = .error .invalidVariable := by
  refine ⟨[⟨some "a", none, none, [⟨"time", 2, true⟩], fun _ => 0, [], none⟩,
    ⟨some "b", none, none, [⟨"band", 3, false⟩], fun _ => 0, [], none⟩], rfl, ?_⟩
  intro pick
  rfl

/-- C95 is violated by a name of a cube that is the long name of another one: the listed name cannot be read. -/
theorem c95_shared_name_violated : ∃ cubes : List Cube, "a" ∈ variableNames cubes ∧
    createData (fun _ => none) cubes (some "a") = .error .invalidVariable := by
  refine ⟨[⟨some "a", none, none, [⟨"time", 2, true⟩], fun _ => 0, [], none⟩,
    ⟨some "b", none, some "a", [⟨"time", 2, true⟩], fun _ => 0, [], none⟩], by decide, rfl⟩

/-- The hypotheses of the theorems are met by a cube of time, latitude and a pressure of time. -/
example : ∃ (c f : Cube) (rest : List Dim), c.dims = f.dims ++ rest ∧ (c.dims.map Dim.name).Nodup ∧ rest ≠ [] ∧ f.dims ≠ [] :=
  ⟨⟨none, none, none, [⟨"time", 2, true⟩, ⟨"latitude", 3, true⟩], fun _ => 0, [], none⟩,
    ⟨none, some "air_pressure", none, [⟨"time", 2, true⟩], fun _ => 0, [], none⟩, [⟨"latitude", 3, true⟩], rfl, by decide, by simp, by simp⟩

example : ∃ (c : Cube) (t : Time), c.time = some t ∧ t.dims ≠ [] ∧ t.isDim = true ∧ t.conv = some (· + 1) :=
  ⟨⟨none, none, none, [⟨"time", 2, true⟩], fun _ => 0, [], some ⟨[0], true, [1, 2], [], some (· + 1)⟩⟩, _, rfl, by simp, rfl, rfl⟩

example : ∃ (cubes : List Cube) (c f : Cube) (rest : List Dim), cubes.filter (named "t") = [c] ∧
    cubes.filter (fun x => x.std == some "air_pressure") = [f] ∧ c.dims = f.dims ++ rest ∧ (c.dims.map Dim.name).Nodup ∧ c.aux = [] ∧
    rest ≠ [] ∧ f.dims ≠ [] :=
  ⟨[⟨some "t", none, none, [⟨"time", 2, true⟩, ⟨"latitude", 3, true⟩], fun _ => 0, [], none⟩,
    ⟨some "p", some "air_pressure", none, [⟨"time", 2, true⟩], fun _ => 0, [], none⟩], _, _, [⟨"latitude", 3, true⟩], rfl, rfl, rfl,
    by decide, rfl, by simp, by simp⟩

end Cis.Gridded
