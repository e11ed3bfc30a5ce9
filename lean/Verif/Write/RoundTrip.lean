import Verif.Read.Decode
set_option linter.unusedSectionVars false
set_option linter.unusedSimpArgs false
/-!
Model of saving ungridded data (cis/data_io/write_netcdf.py) and reading them back with the product `cis`
(cis/data_io/products/products.py:8-76), with values, masks, missing values, packing attributes and names. Property C96.

Reading of one variable is `Cis.Read.ncGetData` (C75). Contracts of the netCDF4 library: `var[:] = data` packs values with the
attributes `scale_factor` and `add_offset` the variable has (rounded for integers; halves as Mathlib's `round`), and stores the missing
value, or the fill value, or the default fill value of the type for masked elements; the default fill value counts as missing when
reading. Empty strings stand for absent names, `None` and empty strings alike. Assigning data of another length than the dimension is an
error (the library would repeat a single value). Units are texts. Disk space and names with '/' are not modelled.
-/
namespace Cis.RoundTrip

open Cis.Read (NcVar Num ncGetData)

/-- Names, units and history of a coordinate or variable (`Metadata`). -/
structure Info where
  name : String
  std : String
  long : String
  units : String
  history : String
deriving DecidableEq

/-- The attributes of a file kept in `metadata.misc` that matter for the values. -/
structure Packing where
  validMax : Option (Option ℚ)
  validMin : Option (Option ℚ)
  validRange : Option (Option (ℚ × ℚ))
  addOffset : Option Num
  scaleFactor : Option Num

/-- A coordinate or variable in memory: `known` says whether its data type can be written, `none` are masked elements. -/
structure Obj where
  info : Info
  isInt : Bool
  known : Bool
  values : List (Option ℚ)
  missing : Option ℚ
  packing : Packing

/-- A variable of a file. -/
structure Var where
  info : Info
  var : NcVar

/-- A file: its `source` attribute, the length of its dimension and its variables. -/
structure File where
  source : List Char
  length : Nat
  vars : List Var

/-- Exceptions: KeyError, IndexError, InconsistentDimensionsError, no name for a variable, InvalidVariableError,
DuplicateCoordinateError, and those of decoding. -/
inductive Err
  | key
  | index
  | inconsistent
  | noName
  | invalidVariable
  | duplicate
  | decode (e : Cis.Read.Err)
deriving DecidableEq

/-! ### Writing -/

/-- Packing of one value (netCDF4 library). -/
def packValue (isInt : Bool) (p : Packing) (x : ℚ) : ℚ :=
  match p.scaleFactor, p.addOffset with
  | none, none => x
  | s, o =>
    let y := (x - (o.map Num.val).getD 0) / (s.map Num.val).getD 1
    if isInt then (round y : ℚ) else y

/-- `__create_variable` (write_netcdf.py:86-129): creation and filling of the variable; `dflt` is the default fill value. -/
def makeVar (dflt : Bool → ℚ) (name : String) (o : Obj) : Var :=
  let fill := o.missing.getD (dflt o.isInt)
  { info := { o.info with name := name }
    var :=
      { isInt := o.isInt
        stored := o.values.map (fun x => match x with | some v => packValue o.isInt o.packing v | none => fill)
        missing := some fill
        validMax := o.packing.validMax
        validMin := o.packing.validMin
        validRange := o.packing.validRange
        addOffset := o.packing.addOffset
        scaleFactor := o.packing.scaleFactor } }

/-- The name of the variable (write_netcdf.py:97-102). -/
def varName (preferStandard : Bool) (i : Info) : String :=
  if i.name = "" then i.std
  else if preferStandard = true ∧ i.std ≠ "" then i.std
  else i.name

/-- `__create_variable` (write_netcdf.py:86-129): a variable of that name is kept as it is. -/
def createVariable (dflt : Bool → ℚ) (preferStandard : Bool) (f : File) (o : Obj) : Except Err File :=
  if o.known = false then .error .key
  else
    let n := varName preferStandard o.info
    if f.vars.any (fun v => v.info.name == n) then .ok f
    else if n = "" then .error .noName
    else if o.values.length = f.length then .ok { f with vars := f.vars ++ [makeVar dflt n o] }
    else .error .inconsistent

/-- `write_coordinate_list` (write_netcdf.py:147-162). -/
def writeCoords (dflt : Bool → ℚ) : List Obj → Except Err File
  | [] => .error .index
  | c :: t => (c :: t).foldlM (createVariable dflt true) ⟨[], c.values.length, []⟩

/-- The `source` attribute (write_netcdf.py:174, cis/__init__.py:20). -/
def sourceAttr : List Char := "CIS1.7.9".toList

/-- `add_data_to_file` (write_netcdf.py:165-175). -/
def addData (dflt : Bool → ℚ) (f : File) (o : Obj) : Except Err File :=
  match createVariable dflt false f o with
  | .error e => .error e
  | .ok f' => .ok { f' with source := sourceAttr }

/-- `UngriddedDataList.save_data` (ungridded_data.py:1048-1059), or `LazyData.save_data` (375-378) for one variable. -/
def save (dflt : Bool → ℚ) (coords data : List Obj) : Except Err File :=
  match writeCoords dflt coords with
  | .error e => .error e
  | .ok f => data.foldlM (addData dflt) f

/-! ### Reading -/

/-- `get_file_type_error` of the product `cis` (products.py:58-76): is the file recognised. -/
def recognised (f : File) : Bool := "CIS".toList.isPrefixOf f.source

/-- `axis_lookup` (products.py:26). -/
def axisLookup : List (String × Char) := [("longitude", 'x'), ("latitude", 'y'), ("altitude", 'z'), ("time", 't'), ("air_pressure", 'p')]

def axisOf (n : String) : Option Char := (axisLookup.find? (fun p => p.1 == n)).map Prod.snd

/-- A coordinate or variable read: its names and values. -/
structure Got where
  info : Info
  values : List (Option ℚ)

/-- The metadata of a variable (netcdf.py:196-232): a standard name that is not valid is dropped. -/
def getInfo (valid : String → Bool) (i : Info) : Info := { i with std := if valid i.std then i.std else "" }

/-- The values of a variable of all files, one after the other (ungridded_data.py:268-288, netcdf.py:135-159). -/
def readValues (auto : Bool) : List File → String → Except Err (List (Option ℚ))
  | [], _ => .ok []
  | f :: t, n =>
    match f.vars.find? (fun v => v.info.name == n) with
    | none => .error .invalidVariable
    | some v => match ncGetData auto v.var with
      | .error e => .error (.decode e)
      | .ok a => match readValues auto t n with
        | .error e => .error e
        | .ok r => .ok (a ++ r)

/-- A variable of the files, with the metadata of the first one. -/
def readVar (valid : String → Bool) (auto : Bool) (files : List File) (n : String) : Except Err Got :=
  match files with
  | [] => .error .index
  | f :: _ => match f.vars.find? (fun v => v.info.name == n) with
    | none => .error .invalidVariable
    | some v => match readValues auto files n with
      | .error e => .error e
      | .ok r => .ok ⟨getInfo valid v.info, r⟩

/-- The loop over the coordinates (products.py:37-46); `CoordList.append` refuses a second one with the same standard name. -/
def readCoords (valid : String → Bool) (auto : Bool) (files : List File) : List (String × Char) → List (Char × Got) → Except Err (List (Char × Got))
  | [], acc => .ok acc
  | (n, a) :: t, acc => match readVar valid auto files n with
    | .error e => .error e
    | .ok g => if acc.any (fun c => c.2.info.std == g.info.std) then .error .duplicate
      else readCoords valid auto files t (acc ++ [(a, g)])

/-- The data and coordinates read. -/
structure Data where
  info : Info
  values : List (Option ℚ)
  coords : List (Char × Got)

/-- Are the coordinates of a point all there. -/
def complete (coords : List (Char × Got)) (i : Nat) : Bool := coords.all (fun c => (c.2.values[i]?.getD none).isSome)

def keepOnly (p : Nat → Bool) (l : List (Option ℚ)) : List (Option ℚ) := ((List.range l.length).filter p).map (fun i => l[i]?.getD none)

/-- Points with a missing coordinate are removed (ungridded_data.py:469-502). -/
def dropMissing (d : Data) : Data :=
  { d with
    values := keepOnly (complete d.coords) d.values
    coords := d.coords.map (fun c => (c.1, { c.2 with values := keepOnly (complete d.coords) c.2.values })) }

/-- The coordinate variables of a file (products.py:28). -/
def coordVariables (f : File) : List (String × Char) := f.vars.filterMap (fun v => (axisOf v.info.name).map (fun a => (v.info.name, a)))

/-- `create_data_object` of the product `cis` (products.py:17-56). -/
def createData (valid : String → Bool) (auto : Bool) (files : List File) (u : String) : Except Err Data :=
  match files with
  | [] => .error .index
  | f :: _ => match readCoords valid auto files (coordVariables f) [] with
    | .error e => .error e
    | .ok cs => match readVar valid auto files u with
      | .error e => .error e
      | .ok g => .ok (dropMissing ⟨g.info, g.values, cs⟩)

/-! ### Specification -/

/-- The number a value is stored as. -/
def Spec.stored (o : Obj) (x : ℚ) : ℚ := (x - Cis.Read.Spec.attr 0 o.packing.addOffset) / Cis.Read.Spec.attr 1 o.packing.scaleFactor

/-- The values can be told from missing ones by whoever reads the file: none is stored as the missing value or outside the valid limits
written with them. Integers have no packing and whole limits. -/
structure Spec.Faithful (dflt : Bool → ℚ) (o : Obj) : Prop where
  scale : Cis.Read.Spec.attr 1 o.packing.scaleFactor ≠ 0
  plain : o.isInt = true → o.packing.scaleFactor = none ∧ o.packing.addOffset = none
  notMissing : ∀ x, some x ∈ o.values → Spec.stored o x ≠ o.missing.getD (dflt o.isInt)
  max : ∀ m, o.packing.validMax = some (some m) → Cis.Read.cast o.isInt m = m ∧ ∀ x, some x ∈ o.values → Spec.stored o x ≤ m
  min : ∀ m, o.packing.validMin = some (some m) → Cis.Read.cast o.isInt m = m ∧ ∀ x, some x ∈ o.values → m ≤ Spec.stored o x
  range : ∀ lo hi, o.packing.validRange = some (some (lo, hi)) → lo ≤ hi ∧ ∀ x, some x ∈ o.values → lo ≤ Spec.stored o x ∧ Spec.stored o x ≤ hi

/-- Standard names of the coordinates that the product looks for. -/
def Spec.coordNames : List String := ["longitude", "latitude", "altitude", "time", "air_pressure"]

/-- Data as CIS makes them: `n` points, coordinates with different standard names of the five and no missing values, variables with names
of their own. -/
structure Spec.Good (valid : String → Bool) (dflt : Bool → ℚ) (coords data : List Obj) : Prop where
  some : coords ≠ [] ∧ data ≠ []
  lengths : ∃ n, ∀ o ∈ coords ++ data, o.values.length = n ∧ o.known = true ∧ Spec.Faithful dflt o
  std : ∀ c ∈ coords, c.info.std ∈ Spec.coordNames ∧ valid c.info.std = true ∧ none ∉ c.values
  different : (coords.map (fun c => c.info.std)).Nodup
  names : ∀ d ∈ data, d.info.name ≠ "" ∧ d.info.name ∉ Spec.coordNames
  own : (data.map (fun d => d.info.name)).Nodup

/-- The values of the variable with the name. -/
def Spec.variable' (data : List Obj) (u : String) : List (Option ℚ) := ((data.find? (fun d => d.info.name == u)).map Obj.values).getD []

/-- The values of the coordinate with the standard name. -/
def Spec.coordinate (coords : List Obj) (s : String) : List (Option ℚ) := ((coords.find? (fun c => c.info.std == s)).map Obj.values).getD []

/-! ### Proofs -/

theorem stored_eq (dflt : Bool → ℚ) (o : Obj) (h : Spec.Faithful dflt o) (x : ℚ) : packValue o.isInt o.packing x = Spec.stored o x := by
  unfold packValue Spec.stored Cis.Read.Spec.attr
  split
  · rename_i h1 h2
    simp [h1, h2]
  · rename_i s hs
    rw [if_neg]
    intro hi
    obtain ⟨h1, h2⟩ := h.plain hi
    exact hs h1 h2

theorem unstored (dflt : Bool → ℚ) (o : Obj) (h : Spec.Faithful dflt o) (x : ℚ) :
    Spec.stored o x * Cis.Read.Spec.attr 1 o.packing.scaleFactor + Cis.Read.Spec.attr 0 o.packing.addOffset = x := by
  unfold Spec.stored
  rw [div_mul_cancel₀ _ h.scale]
  ring

/-- C96 for one variable: what was written is read, masked elements masked. -/
theorem c96_values (dflt : Bool → ℚ) (name : String) (o : Obj) (h : Spec.Faithful dflt o) :
    ncGetData true (makeVar dflt name o).var = .ok o.values := by
  have hok : ∃ r, ncGetData true (makeVar dflt name o).var = .ok r := by
    cases hr : ncGetData true (makeVar dflt name o).var with
    | ok r => exact ⟨r, rfl⟩
    | error e =>
      unfold Cis.Read.ncGetData at hr
      rw [Cis.Read.applyOffsetAndScaling_error] at hr
      obtain ⟨-, hi, hp⟩ := hr
      obtain ⟨h1, h2⟩ := h.plain hi
      simp only [makeVar] at hp
      rw [h1, h2] at hp
      simp at hp
  obtain ⟨r, hr⟩ := hok
  rw [hr]
  congr 1
  have := Cis.Read.c75_netcdf (makeVar dflt name o).var (fun m hm => (h.max m hm).1) (fun m hm => (h.min m hm).1)
    (fun lo hi hm => (h.range lo hi hm).1) r hr
  rw [this]
  have e : (makeVar dflt name o).var.stored =
      o.values.map (fun x => match x with | some v => packValue o.isInt o.packing v | none => o.missing.getD (dflt o.isInt)) := rfl
  rw [e, List.map_map]
  conv_rhs => rw [← List.map_id o.values]
  apply List.map_congr_left
  intro x hx
  cases x with
  | none =>
    simp only [Function.comp_apply, Cis.Read.Spec.decode, id]
    rw [if_pos]
    exact Or.inl rfl
  | some v =>
    simp only [Function.comp_apply, stored_eq dflt o h, Cis.Read.Spec.decode, id]
    rw [if_neg]
    · exact congrArg some (unstored dflt o h v)
    · rintro (hb | ⟨m, hm, hb⟩ | ⟨m, hm, hb⟩ | ⟨lo, hi, hm, hb⟩)
      · exact h.notMissing v hx (Option.some.inj hb).symm
      · exact absurd ((h.max m hm).2 v hx) (not_le.2 hb)
      · exact absurd ((h.min m hm).2 v hx) (not_le.2 hb)
      · have := (h.range lo hi hm).2 v hx
        rcases hb with hb | hb
        · exact absurd this.1 (not_le.2 hb)
        · exact absurd this.2 (not_le.2 hb)

/-! #### The file written -/

theorem createVariable_new (dflt : Bool → ℚ) (p : Bool) (f : File) (o : Obj) (hk : o.known = true) (hl : o.values.length = f.length)
    (hn : varName p o.info ≠ "") (hno : varName p o.info ∉ f.vars.map (fun v => v.info.name)) :
    createVariable dflt p f o = .ok { f with vars := f.vars ++ [makeVar dflt (varName p o.info) o] } := by
  unfold createVariable
  rw [if_neg (by simp [hk])]
  simp only
  rw [if_neg, if_neg hn, if_pos hl]
  intro hc
  rw [List.any_eq_true] at hc
  obtain ⟨v, hv, he⟩ := hc
  exact hno (List.mem_map.2 ⟨v, hv, by simpa using he⟩)

theorem coords_written (dflt : Bool → ℚ) : ∀ (l : List Obj) (f : File), (∀ o ∈ l, o.known = true ∧ o.values.length = f.length ∧ varName true o.info ≠ "") →
    (f.vars.map (fun v => v.info.name) ++ l.map (fun o => varName true o.info)).Nodup →
    l.foldlM (createVariable dflt true) f = .ok { f with vars := f.vars ++ l.map (fun o => makeVar dflt (varName true o.info) o) }
  | [], f, _, _ => by simp [pure, Except.pure]
  | o :: t, f, h, hn => by
    obtain ⟨h1, h2, h3⟩ := h o (by simp)
    have hno : varName true o.info ∉ f.vars.map (fun v => v.info.name) := by
      intro hc
      exact (List.nodup_append.1 hn).2.2 _ hc _ (by simp) rfl
    rw [List.foldlM_cons, createVariable_new dflt true f o h1 h2 h3 hno]
    have := coords_written dflt t { f with vars := f.vars ++ [makeVar dflt (varName true o.info) o] } (fun o' ho' => h o' (by simp [ho']))
      (by simpa [makeVar] using hn)
    show List.foldlM (createVariable dflt true) _ t = _
    rw [this]
    simp

theorem data_written (dflt : Bool → ℚ) (l : List Obj) : ∀ (f : File), (∀ o ∈ l, o.known = true ∧ o.values.length = f.length ∧ varName false o.info ≠ "") →
    (f.vars.map (fun v => v.info.name) ++ l.map (fun o => varName false o.info)).Nodup →
    ∃ f', l.foldlM (addData dflt) f = .ok f' ∧ f'.vars = f.vars ++ l.map (fun o => makeVar dflt (varName false o.info) o) ∧
      f'.length = f.length ∧ (f'.source = if l = [] then f.source else sourceAttr) := by
  induction l with
  | nil => exact fun f _ _ => ⟨f, rfl, by simp, rfl, by simp⟩
  | cons o t ih =>
    intro f h hn
    obtain ⟨h1, h2, h3⟩ := h o (by simp)
    have hno : varName false o.info ∉ f.vars.map (fun v => v.info.name) := by
      intro hc
      exact (List.nodup_append.1 hn).2.2 _ hc _ (by simp) rfl
    have ha : addData dflt f o = .ok ⟨sourceAttr, f.length, f.vars ++ [makeVar dflt (varName false o.info) o]⟩ := by
      unfold addData
      rw [createVariable_new dflt false f o h1 h2 h3 hno]
    rw [List.foldlM_cons, ha]
    obtain ⟨f', e1, e2, e3, e4⟩ := ih ⟨sourceAttr, f.length, f.vars ++ [makeVar dflt (varName false o.info) o]⟩
      (fun o' ho' => h o' (by simp [ho'])) (by
        rw [List.map_append, List.append_assoc]
        exact hn)
    refine ⟨f', e1, ?_, e3, ?_⟩
    · rw [e2, List.append_assoc]
      rfl
    · rw [e4]
      simp

/-- The file that good data are saved to. -/
def Spec.Holds (dflt : Bool → ℚ) (coords data : List Obj) (f : File) : Prop :=
  f.vars = coords.map (fun c => makeVar dflt c.info.std c) ++ data.map (fun d => makeVar dflt d.info.name d)

theorem coordNames_ne {n : String} (h : n ∈ Spec.coordNames) : n ≠ "" := by
  rintro rfl
  revert h
  decide

theorem names_nodup (valid : String → Bool) (dflt : Bool → ℚ) (coords data : List Obj) (h : Spec.Good valid dflt coords data) :
    (coords.map (fun c => c.info.std) ++ data.map (fun d => d.info.name)).Nodup := by
  rw [List.nodup_append]
  refine ⟨h.different, h.own, ?_⟩
  intro a ha b hb hab
  subst hab
  obtain ⟨c, hc, rfl⟩ := List.mem_map.1 ha
  obtain ⟨d, hd, he⟩ := List.mem_map.1 hb
  exact (h.names d hd).2 (by rw [he]; exact (h.std c hc).1)

theorem save_holds (valid : String → Bool) (dflt : Bool → ℚ) (coords data : List Obj) (h : Spec.Good valid dflt coords data) :
    ∃ f, save dflt coords data = .ok f ∧ Spec.Holds dflt coords data f ∧ f.source = sourceAttr := by
  obtain ⟨n, hn⟩ := h.lengths
  have hnd := names_nodup valid dflt coords data h
  have hv1 : ∀ c ∈ coords, varName true c.info = c.info.std := by
    intro c hc
    have := coordNames_ne (h.std c hc).1
    unfold varName
    split
    · rfl
    · simp [this]
  have hv2 : ∀ d ∈ data, varName false d.info = d.info.name := by
    intro d hd
    unfold varName
    rw [if_neg (h.names d hd).1]
    simp
  have e1 : coords.map (fun o => varName true o.info) = coords.map (fun c => c.info.std) := List.map_congr_left hv1
  have e2 : data.map (fun o => varName false o.info) = data.map (fun d => d.info.name) := List.map_congr_left hv2
  have e3 : coords.map (fun o => makeVar dflt (varName true o.info) o) = coords.map (fun c => makeVar dflt c.info.std c) :=
    List.map_congr_left (fun c hc => by rw [hv1 c hc])
  have e4 : data.map (fun o => makeVar dflt (varName false o.info) o) = data.map (fun d => makeVar dflt d.info.name d) :=
    List.map_congr_left (fun c hc => by rw [hv2 c hc])
  have hw : writeCoords dflt coords = .ok ⟨[], n, coords.map (fun c => makeVar dflt c.info.std c)⟩ := by
    cases hc : coords with
    | nil => exact absurd hc h.some.1
    | cons c t =>
      have hl : c.values.length = n := (hn c (by simp [hc])).1
      have := coords_written dflt coords ⟨[], n, []⟩ (fun o ho => ⟨(hn o (by simp [ho])).2.1, (hn o (by simp [ho])).1, by
        rw [hv1 o ho]; exact coordNames_ne (h.std o ho).1⟩) (by simpa [e1] using h.different)
      rw [e3, hc] at this
      simp only [writeCoords, hl]
      rw [this]
      simp
  obtain ⟨f, g1, g2, g3, g4⟩ := data_written dflt data ⟨[], n, coords.map (fun c => makeVar dflt c.info.std c)⟩
    (fun o ho => ⟨(hn o (by simp [ho])).2.1, (hn o (by simp [ho])).1, by rw [hv2 o ho]; exact (h.names o ho).1⟩)
    (by
      rw [e2]
      simpa [makeVar, Function.comp_def] using hnd)
  refine ⟨f, ?_, ?_, ?_⟩
  · unfold save
    rw [hw]
    exact g1
  · unfold Spec.Holds
    rw [g2, e4]
  · rw [g4, if_neg h.some.2]

/-- C96: the file is recognised as one of CIS. -/
theorem c96_recognised (valid : String → Bool) (dflt : Bool → ℚ) (coords data : List Obj) (h : Spec.Good valid dflt coords data) :
    ∃ f, save dflt coords data = .ok f ∧ recognised f = true := by
  obtain ⟨f, h1, -, h2⟩ := save_holds valid dflt coords data h
  refine ⟨f, h1, ?_⟩
  unfold recognised
  rw [h2]
  decide

/-! #### The file read -/

theorem find_nodup : ∀ (l : List Var), (l.map (fun v => v.info.name)).Nodup → ∀ v ∈ l, l.find? (fun w => w.info.name == v.info.name) = some v
  | [], _, v, hv => by cases hv
  | w :: t, hn, v, hv => by
    rw [List.find?_cons]
    rw [List.map_cons, List.nodup_cons] at hn
    rcases List.mem_cons.1 hv with rfl | hv
    · simp
    · have : (w.info.name == v.info.name) = false := by
        rw [beq_eq_false_iff_ne]
        intro hc
        exact hn.1 (by rw [hc]; exact List.mem_map_of_mem hv)
      rw [this]
      exact find_nodup t hn.2 v hv

theorem holds_find_coord (valid : String → Bool) (dflt : Bool → ℚ) (coords data : List Obj) (f : File) (h : Spec.Good valid dflt coords data)
    (hf : Spec.Holds dflt coords data f) (c : Obj) (hc : c ∈ coords) :
    f.vars.find? (fun v => v.info.name == c.info.std) = some (makeVar dflt c.info.std c) := by
  rw [hf]
  exact find_nodup _ (by simpa [makeVar, Function.comp_def] using names_nodup valid dflt coords data h) (makeVar dflt c.info.std c)
    (List.mem_append_left _ (List.mem_map.2 ⟨c, hc, rfl⟩))

theorem holds_find_data (valid : String → Bool) (dflt : Bool → ℚ) (coords data : List Obj) (f : File) (h : Spec.Good valid dflt coords data)
    (hf : Spec.Holds dflt coords data f) (d : Obj) (hd : d ∈ data) :
    f.vars.find? (fun v => v.info.name == d.info.name) = some (makeVar dflt d.info.name d) := by
  rw [hf]
  exact find_nodup _ (by simpa [makeVar, Function.comp_def] using names_nodup valid dflt coords data h) (makeVar dflt d.info.name d)
    (List.mem_append_right _ (List.mem_map.2 ⟨d, hd, rfl⟩))

theorem spec_coordinate (coords : List Obj) (hn : (coords.map (fun c => c.info.std)).Nodup) (c : Obj) (hc : c ∈ coords) :
    Spec.coordinate coords c.info.std = c.values := by
  unfold Spec.coordinate
  have : coords.find? (fun x => x.info.std == c.info.std) = some c := by
    induction coords with
    | nil => cases hc
    | cons w t ih =>
      rw [List.find?_cons]
      rw [List.map_cons, List.nodup_cons] at hn
      rcases List.mem_cons.1 hc with rfl | hc
      · simp
      · have : (w.info.std == c.info.std) = false := by
          rw [beq_eq_false_iff_ne]
          intro hx
          exact hn.1 (by rw [hx]; exact List.mem_map_of_mem (f := fun c : Obj => c.info.std) hc)
        rw [this]
        exact ih hn.2 hc
  rw [this]
  rfl

theorem spec_variable (data : List Obj) (hn : (data.map (fun d => d.info.name)).Nodup) (c : Obj) (hc : c ∈ data) :
    Spec.variable' data c.info.name = c.values := by
  unfold Spec.variable'
  have : data.find? (fun x => x.info.name == c.info.name) = some c := by
    induction data with
    | nil => cases hc
    | cons w t ih =>
      rw [List.find?_cons]
      rw [List.map_cons, List.nodup_cons] at hn
      rcases List.mem_cons.1 hc with rfl | hc
      · simp
      · have : (w.info.name == c.info.name) = false := by
          rw [beq_eq_false_iff_ne]
          intro hx
          exact hn.1 (by rw [hx]; exact List.mem_map_of_mem (f := fun c : Obj => c.info.name) hc)
        rw [this]
        exact ih hn.2 hc
  rw [this]
  rfl

/-- Saved data, one file for each. -/
abbrev Groups := List (List Obj × List Obj)

theorem readValues_coord (valid : String → Bool) (dflt : Bool → ℚ) : ∀ (gs : Groups) (fs : List File) (s : String),
    List.Forall₂ (fun g f => Spec.Good valid dflt g.1 g.2 ∧ Spec.Holds dflt g.1 g.2 f) gs fs → (∀ g ∈ gs, s ∈ g.1.map (fun c => c.info.std)) →
    readValues true fs s = .ok (gs.flatMap (fun g => Spec.coordinate g.1 s))
  | [], [], s, _, _ => by simp [readValues]
  | g :: gs, f :: fs, s, .cons ⟨h1, h2⟩ ht, hs => by
    obtain ⟨c, hc, rfl⟩ := List.mem_map.1 (hs g (by simp))
    obtain ⟨n, hn⟩ := h1.lengths
    unfold readValues
    rw [holds_find_coord valid dflt g.1 g.2 f h1 h2 c hc]
    simp only
    rw [c96_values dflt _ c (hn c (by simp [hc])).2.2, readValues_coord valid dflt gs fs _ ht (fun g' hg' => hs g' (by simp [hg']))]
    simp only [List.flatMap_cons]
    rw [spec_coordinate g.1 h1.different c hc]

theorem readValues_data (valid : String → Bool) (dflt : Bool → ℚ) : ∀ (gs : Groups) (fs : List File) (s : String),
    List.Forall₂ (fun g f => Spec.Good valid dflt g.1 g.2 ∧ Spec.Holds dflt g.1 g.2 f) gs fs → (∀ g ∈ gs, s ∈ g.2.map (fun c => c.info.name)) →
    readValues true fs s = .ok (gs.flatMap (fun g => Spec.variable' g.2 s))
  | [], [], s, _, _ => by simp [readValues]
  | g :: gs, f :: fs, s, .cons ⟨h1, h2⟩ ht, hs => by
    obtain ⟨c, hc, rfl⟩ := List.mem_map.1 (hs g (by simp))
    obtain ⟨n, hn⟩ := h1.lengths
    unfold readValues
    rw [holds_find_data valid dflt g.1 g.2 f h1 h2 c hc]
    simp only
    rw [c96_values dflt _ c (hn c (by simp [hc])).2.2, readValues_data valid dflt gs fs _ ht (fun g' hg' => hs g' (by simp [hg']))]
    simp only [List.flatMap_cons]
    rw [spec_variable g.2 h1.own c hc]

theorem axisOf_some {n : String} (h : n ∈ Spec.coordNames) : ∃ a, axisOf n = some a := by
  simp only [Spec.coordNames, List.mem_cons, List.not_mem_nil, or_false] at h
  rcases h with rfl | rfl | rfl | rfl | rfl <;> exact ⟨_, rfl⟩

theorem axisOf_none {n : String} (h : n ∉ Spec.coordNames) : axisOf n = none := by
  unfold axisOf
  have : axisLookup.find? (fun p => p.1 == n) = none := by
    rw [List.find?_eq_none]
    intro p hp hc
    apply h
    simp only [axisLookup, List.mem_cons, List.not_mem_nil, or_false] at hp
    have : p.1 = n := by simpa using hc
    subst this
    rcases hp with rfl | rfl | rfl | rfl | rfl <;> decide
  rw [this]
  rfl

theorem coordVariables_holds (valid : String → Bool) (dflt : Bool → ℚ) (coords data : List Obj) (f : File) (h : Spec.Good valid dflt coords data)
    (hf : Spec.Holds dflt coords data f) :
    coordVariables f = coords.map (fun c => (c.info.std, (axisOf c.info.std).getD ' ')) := by
  unfold coordVariables
  rw [hf, List.filterMap_append]
  have h1 : (data.map (fun d => makeVar dflt d.info.name d)).filterMap (fun v => (axisOf v.info.name).map (fun a => (v.info.name, a))) = [] := by
    rw [List.filterMap_eq_nil_iff]
    intro v hv
    obtain ⟨d, hd, rfl⟩ := List.mem_map.1 hv
    simp [makeVar, axisOf_none (h.names d hd).2]
  rw [h1, List.append_nil, List.filterMap_map]
  have hs := h.std
  clear h h1 hf
  induction coords with
  | nil => rfl
  | cons c t ih =>
    obtain ⟨a, ha⟩ := axisOf_some (hs c (by simp)).1
    rw [List.filterMap_cons]
    simp only [Function.comp_apply, makeVar, ha, Option.map_some, List.map_cons, Option.getD_some]
    rw [← ih (fun c' hc' => hs c' (by simp [hc']))]
    rfl

/-- What is read of a coordinate. -/
def Spec.gotCoord (valid : String → Bool) (gs : Groups) (c : Obj) : Char × Got :=
  ((axisOf c.info.std).getD ' ', ⟨getInfo valid { c.info with name := c.info.std }, gs.flatMap (fun g => Spec.coordinate g.1 c.info.std)⟩)

theorem readCoords_holds (valid : String → Bool) (dflt : Bool → ℚ) (g : List Obj × List Obj) (f : File) (gs : Groups) (fs : List File)
    (hg : Spec.Good valid dflt g.1 g.2) (hf : Spec.Holds dflt g.1 g.2 f)
    (h : List.Forall₂ (fun g f => Spec.Good valid dflt g.1 g.2 ∧ Spec.Holds dflt g.1 g.2 f) gs fs)
    (hs : ∀ c ∈ g.1, ∀ g' ∈ gs, c.info.std ∈ g'.1.map (fun c => c.info.std)) :
    ∀ (l : List Obj) (acc : List Obj), acc ++ l = g.1 →
      readCoords valid true (f :: fs) (l.map (fun c => (c.info.std, (axisOf c.info.std).getD ' '))) (acc.map (Spec.gotCoord valid (g :: gs))) =
        .ok (g.1.map (Spec.gotCoord valid (g :: gs)))
  | [], acc, he => by
    rw [List.append_nil] at he
    subst he
    rfl
  | c :: l, acc, he => by
    have hc : c ∈ g.1 := by rw [← he]; simp
    rw [List.map_cons]
    unfold readCoords readVar
    simp only
    rw [holds_find_coord valid dflt g.1 g.2 f hg hf c hc]
    simp only
    rw [readValues_coord valid dflt (g :: gs) (f :: fs) c.info.std (.cons ⟨hg, hf⟩ h) (by
      intro g' hg'
      rcases List.mem_cons.1 hg' with rfl | hg'
      · exact List.mem_map_of_mem (f := fun c : Obj => c.info.std) hc
      · exact hs c hc g' hg')]
    simp only
    rw [if_neg]
    · have := readCoords_holds valid dflt g f gs fs hg hf h hs l (acc ++ [c]) (by rw [← he]; simp)
      rw [List.map_append] at this
      exact this
    · intro hc'
      rw [List.any_eq_true] at hc'
      obtain ⟨x, hx, hxe⟩ := hc'
      obtain ⟨c', hc'', rfl⟩ := List.mem_map.1 hx
      have hv : ∀ c ∈ g.1, (getInfo valid { c.info with name := c.info.std }).std = c.info.std := by
        intro c hc
        simp [getInfo, (hg.std c hc).2.1]
      have hm : c' ∈ g.1 := by rw [← he]; simp [hc'']
      have : c'.info.std = c.info.std := by
        have h1 := hv c' hm
        have h2 := hv c hc
        have h3 : (getInfo valid { c'.info with name := c'.info.std }).std = (getInfo valid { c.info with name := c.info.std }).std := by
          simpa [Spec.gotCoord, makeVar] using hxe
        rw [← h1, h3, h2]
      have hnd := hg.different
      rw [← he, List.map_append, List.nodup_append] at hnd
      exact hnd.2.2 _ (List.mem_map_of_mem (f := fun c : Obj => c.info.std) hc'') _ (by simp) this

theorem keepOnly_all (p : Nat → Bool) (l : List (Option ℚ)) (h : ∀ i, i < l.length → p i = true) : keepOnly p l = l := by
  unfold keepOnly
  rw [List.filter_eq_self.2 (fun i hi => h i (List.mem_range.1 hi))]
  apply List.ext_getElem
  · simp
  · intro i h1 h2
    simp [List.getElem?_eq_getElem h2]

theorem dropMissing_complete (d : Data) (n : Nat) (hv : d.values.length = n) (hc : ∀ c ∈ d.coords, c.2.values.length = n ∧ none ∉ c.2.values) :
    dropMissing d = d := by
  have hall : ∀ i, i < n → complete d.coords i = true := by
    intro i hi
    unfold complete
    rw [List.all_eq_true]
    intro c hcc
    obtain ⟨h1, h2⟩ := hc c hcc
    rw [List.getElem?_eq_getElem (by omega)]
    simp only [Option.getD_some]
    cases hx : c.2.values[i] with
    | none => exact absurd (hx ▸ List.getElem_mem (by omega)) h2
    | some v => rfl
  unfold dropMissing
  rw [keepOnly_all _ _ (by rw [hv]; exact hall)]
  have : d.coords.map (fun c => (c.1, { c.2 with values := keepOnly (complete d.coords) c.2.values })) = d.coords := by
    conv_rhs => rw [← List.map_id d.coords]
    apply List.map_congr_left
    intro c hcc
    rw [keepOnly_all _ _ (by rw [(hc c hcc).1]; exact hall)]
    rfl
  rw [this]

theorem mapM_save (valid : String → Bool) (dflt : Bool → ℚ) : ∀ gs : Groups, (∀ g ∈ gs, Spec.Good valid dflt g.1 g.2) →
    ∃ fs, gs.mapM (fun g => save dflt g.1 g.2) = .ok fs ∧
      List.Forall₂ (fun g f => Spec.Good valid dflt g.1 g.2 ∧ Spec.Holds dflt g.1 g.2 f) gs fs
  | [], _ => ⟨[], rfl, .nil⟩
  | g :: gs, h => by
    obtain ⟨f, h1, h2, -⟩ := save_holds valid dflt g.1 g.2 (h g (by simp))
    obtain ⟨fs, h3, h4⟩ := mapM_save valid dflt gs (fun g' hg' => h g' (by simp [hg']))
    refine ⟨f :: fs, ?_, .cons ⟨h g (by simp), h2⟩ h4⟩
    rw [List.mapM_cons, h1]
    show (do let r ← gs.mapM (fun g : List Obj × List Obj => save dflt g.1 g.2); pure (f :: r)) = _
    rw [h3]
    rfl

/-- C96: data saved to one or more files and read back: the values of the variable, one file after the other, with the same masked
elements, and the values of each coordinate; the names, units and history are those of the first file (each coordinate is named by its
standard name). -/
theorem c96_round_trip (valid : String → Bool) (dflt : Bool → ℚ) (g : List Obj × List Obj) (gs : Groups) (o : Obj)
    (hgood : ∀ x ∈ g :: gs, Spec.Good valid dflt x.1 x.2)
    (hsame : ∀ x ∈ gs, ∀ c ∈ g.1, c.info.std ∈ x.1.map (fun c => c.info.std))
    (ho : o ∈ g.2) (hu : ∀ x ∈ gs, o.info.name ∈ x.2.map (fun d => d.info.name)) (hstd : valid o.info.std = true ∨ o.info.std = "") :
    ∃ files d, (g :: gs).mapM (fun x => save dflt x.1 x.2) = .ok files ∧ createData valid true files o.info.name = .ok d ∧
      d.info = o.info ∧ d.values = (g :: gs).flatMap (fun x => Spec.variable' x.2 o.info.name) ∧
      d.coords.map (fun c => c.2.info) = g.1.map (fun c => { c.info with name := c.info.std }) ∧
      d.coords.map (fun c => c.2.values) = g.1.map (fun c => (g :: gs).flatMap (fun x => Spec.coordinate x.1 c.info.std)) := by
  obtain ⟨files, hm, hF⟩ := mapM_save valid dflt (g :: gs) hgood
  cases hF with
  | @cons _ f _ fs hgf ht =>
    have hg := hgf.1
    have hrc := readCoords_holds valid dflt g f gs fs hg hgf.2 ht (fun c hc g' hg' => hsame g' hg' c hc) g.1 [] rfl
    have hrv : readValues true (f :: fs) o.info.name = .ok ((g :: gs).flatMap (fun x => Spec.variable' x.2 o.info.name)) :=
      readValues_data valid dflt (g :: gs) (f :: fs) o.info.name (.cons hgf ht) (by
        intro x hx
        rcases List.mem_cons.1 hx with rfl | hx
        · exact List.mem_map_of_mem (f := fun d : Obj => d.info.name) ho
        · exact hu x hx)
    have hinfo : getInfo valid o.info = o.info := by
      unfold getInfo
      rcases hstd with h | h
      · rw [if_pos h]
      · have : (if valid o.info.std = true then o.info.std else "") = o.info.std := by
          rw [h]; split <;> rfl
        rw [this]
    -- lengths
    have hlen : ∀ x ∈ g :: gs, ∀ c ∈ g.1, (Spec.coordinate x.1 c.info.std).length = (Spec.variable' x.2 o.info.name).length ∧
        none ∉ Spec.coordinate x.1 c.info.std := by
      intro x hx c hc
      have hgx := hgood x hx
      obtain ⟨n, hn⟩ := hgx.lengths
      have hcx : c.info.std ∈ x.1.map (fun c => c.info.std) := by
        rcases List.mem_cons.1 hx with rfl | hx
        · exact List.mem_map_of_mem (f := fun c : Obj => c.info.std) hc
        · exact hsame x hx c hc
      have hox : o.info.name ∈ x.2.map (fun d => d.info.name) := by
        rcases List.mem_cons.1 hx with rfl | hx
        · exact List.mem_map_of_mem (f := fun d : Obj => d.info.name) ho
        · exact hu x hx
      obtain ⟨c', hc', he⟩ := List.mem_map.1 hcx
      obtain ⟨o', ho', he'⟩ := List.mem_map.1 hox
      rw [← he, ← he', spec_coordinate x.1 hgx.different c' hc', spec_variable x.2 hgx.own o' ho']
      exact ⟨by rw [(hn c' (by simp [hc'])).1, (hn o' (by simp [ho'])).1], (hgx.std c' hc').2.2⟩
    refine ⟨f :: fs, ⟨o.info, (g :: gs).flatMap (fun x => Spec.variable' x.2 o.info.name), g.1.map (Spec.gotCoord valid (g :: gs))⟩, hm, ?_, rfl, rfl, ?_, ?_⟩
    · unfold createData
      simp only
      rw [coordVariables_holds valid dflt g.1 g.2 f hg hgf.2]
      rw [List.map_nil] at hrc
      rw [hrc]
      simp only
      unfold readVar
      simp only
      rw [holds_find_data valid dflt g.1 g.2 f hg hgf.2 o ho]
      simp only
      rw [hrv]
      simp only
      congr 1
      have hi : getInfo valid (makeVar dflt o.info.name o).info = o.info := hinfo
      rw [hi]
      apply dropMissing_complete _ _ rfl
      intro c hc
      obtain ⟨c', hc', rfl⟩ := List.mem_map.1 hc
      simp only [Spec.gotCoord]
      have key : ∀ l : Groups, (∀ x ∈ l, (Spec.coordinate x.1 c'.info.std).length = (Spec.variable' x.2 o.info.name).length ∧
          none ∉ Spec.coordinate x.1 c'.info.std) →
          (l.flatMap (fun x => Spec.coordinate x.1 c'.info.std)).length = (l.flatMap (fun x => Spec.variable' x.2 o.info.name)).length ∧
            none ∉ l.flatMap (fun x => Spec.coordinate x.1 c'.info.std) := by
        intro l
        induction l with
        | nil => simp
        | cons x t ih =>
          intro hl
          have h1 := hl x (by simp)
          have h2 := ih (fun y hy => hl y (by simp [hy]))
          simp only [List.flatMap_cons, List.length_append, List.mem_append]
          exact ⟨by rw [h1.1, h2.1], fun hx => hx.elim h1.2 h2.2⟩
      exact key (g :: gs) (fun x hx => hlen x hx c' hc')
    · rw [List.map_map]
      apply List.map_congr_left
      intro c hc
      simp [Spec.gotCoord, getInfo, (hg.std c hc).2.1]
    · rw [List.map_map]
      rfl

/-! #### Violations and examples -/

def noPacking : Packing := ⟨none, none, none, none, none⟩

/-- A variable or coordinate without packing. -/
def plainObj (name std : String) (values : List (Option ℚ)) : Obj := ⟨⟨name, std, "", "1", ""⟩, false, true, values, some (-999), noPacking⟩

def defaultFill : Bool → ℚ := fun _ => 9969209968386869046778552952102584320

def exLat : Obj := plainObj "lat" "latitude" [some 10, some 20]
def exLon : Obj := plainObj "" "longitude" [some 0, some 5]
def exT : Obj := plainObj "t" "air_temperature" [some 280, none]

/-- Results compared by names and values. -/
def shown (r : Except Err Data) : Option (List (Option ℚ) × List (String × List (Option ℚ))) :=
  match r with
  | .ok d => some (d.values, d.coords.map (fun c => (c.2.info.std, c.2.values)))
  | .error _ => none

/-- Save, then read. -/
def saveRead (coords data : List Obj) (u : String) : Option (List (Option ℚ) × List (String × List (Option ℚ))) :=
  match save defaultFill coords data with
  | .ok f => shown (createData (fun s => s != "") true [f] u)
  | .error _ => none

example : saveRead [exLat, exLon] [exT] "t" = some ([some 280, none], [("latitude", [some 10, some 20]), ("longitude", [some 0, some 5])]) := by
  decide +kernel

theorem plain_faithful (name std : String) (values : List (Option ℚ)) (h : ∀ x, some x ∈ values → x ≠ -999) :
    Spec.Faithful defaultFill (plainObj name std values) where
  scale := by simp [plainObj, noPacking, Cis.Read.Spec.attr]
  plain := by simp [plainObj]
  notMissing := by
    intro x hx
    simpa [plainObj, noPacking, Cis.Read.Spec.attr, Spec.stored] using h x hx
  max := by simp [plainObj, noPacking]
  min := by simp [plainObj, noPacking]
  range := by simp [plainObj, noPacking]

example : Spec.Good (fun s => s != "") defaultFill [exLat, exLon] [exT] where
  some := by simp
  lengths := by
    refine ⟨2, ?_⟩
    intro o ho
    simp only [List.cons_append, List.nil_append, List.mem_cons, List.not_mem_nil, or_false] at ho
    rcases ho with rfl | rfl | rfl
    · exact ⟨rfl, rfl, plain_faithful _ _ _ (by intro x hx; simp at hx; rcases hx with rfl | rfl <;> norm_num)⟩
    · exact ⟨rfl, rfl, plain_faithful _ _ _ (by intro x hx; simp at hx; rcases hx with rfl | rfl <;> norm_num)⟩
    · exact ⟨rfl, rfl, plain_faithful _ _ _ (by intro x hx; simp at hx; subst hx; norm_num)⟩
  std := by
    intro c hc
    simp only [List.mem_cons, List.not_mem_nil, or_false] at hc
    rcases hc with rfl | rfl
    · exact ⟨by decide, by decide, by simp [exLat, plainObj]⟩
    · exact ⟨by decide, by decide, by simp [exLon, plainObj]⟩
  different := by decide
  names := by
    intro d hd
    simp only [List.mem_cons, List.not_mem_nil, or_false] at hd
    subst hd
    exact ⟨by decide, by decide⟩
  own := by decide

/-- C96 is violated by values beyond the limits that the file of origin declared (which are written again): after `convert_units`, or
after arithmetic in place, they are read back as missing. Here 280 K was converted to 280000 mK with a valid maximum of 1000. -/
theorem c96_limits_violated : saveRead [exLat, exLon] [⟨exT.info, false, true, [some 280000, some 500], some (-999),
    ⟨some (some 1000), none, none, none, none⟩⟩] "t" =
      some ([none, some 500], [("latitude", [some 10, some 20]), ("longitude", [some 0, some 5])]) := by
  decide +kernel

/-- C96 is violated by a variable with the name of a coordinate: saved beside another variable, it becomes a coordinate of it, and the
points where it is missing are gone. -/
theorem c96_variable_becomes_coordinate_violated :
    saveRead [exLat, exLon] [exT, plainObj "air_pressure" "air_pressure" [none, some 1000]] "t" =
      some ([none], [("latitude", [some 20]), ("longitude", [some 5]), ("air_pressure", [some 1000])]) := by
  decide +kernel

/-- C96 is violated by a coordinate with another standard name than the five: it is no coordinate of the data read. -/
theorem c96_other_coordinate_violated : saveRead [exLat, exLon, plainObj "w" "wavelength" [some 1, some 2]] [exT] "t" =
    some ([some 280, none], [("latitude", [some 10, some 20]), ("longitude", [some 0, some 5])]) := by
  decide +kernel

/-- C96 is violated by coordinates without a standard name: nothing is left of them, whatever their name. -/
theorem c96_unnamed_coordinate_violated : saveRead [plainObj "lat" "" [some 10, some 20], exLon] [exT] "t" =
    some ([some 280, none], [("longitude", [some 0, some 5])]) := by
  decide +kernel

/-- C96 is violated if the library does not mask (`set_auto_maskandscale(False)`, netcdf.py:259): the missing values are read as numbers. -/
theorem c96_missing_violated : ∃ f, save defaultFill [exLat, exLon] [exT] = .ok f ∧
    shown (createData (fun s => s != "") false [f] "t") =
      some ([some 280, some (-999)], [("latitude", [some 10, some 20]), ("longitude", [some 0, some 5])]) := by
  refine ⟨_, rfl, ?_⟩
  decide +kernel

end Cis.RoundTrip
