import Mathlib.Tactic
set_option linter.unusedSectionVars false
set_option linter.unusedSimpArgs false
/-!
Model of reading AERONET files: `load_aeronet`, `load_multiple_aeronet` (cis/data_io/aeronet.py:124-199) and the product `Aeronet`
(cis/data_io/products/products.py:86-128). Property C101. The names of the columns are in C80.

A file is given as `pandas.read_csv` parses it (contract): the names of its columns and its rows, missing values as `none`, date and time
of a row as one instant; malformed lines are dropped by pandas, and it raises ValueError for columns that are not there.
-/
namespace Cis.AeronetLoad

inductive Kind
  | man
  | version2
  | version3
deriving DecidableEq

structure Row where
  time : ℚ
  value : String → Option ℚ

structure CsvFile where
  kind : Kind
  vars : List String
  /-- Longitude, latitude and altitude in the header of version 2 files. -/
  header : ℚ × ℚ × ℚ
  rows : List Row

inductive Err
  | invalidVariable
  | key
deriving DecidableEq

/-- A dictionary of columns. -/
abbrev Table := String → Option (List (Option ℚ))

def emptyTable : Table := fun _ => none

/-- `("date", "time", "latitude", "longitude", "altitude")` (aeronet.py:162). -/
def geo : List String := ["date", "time", "latitude", "longitude", "altitude"]

/-- Assignment of one value to a whole column. -/
def constant (t : Table) (rows : List Row) (name : String) (x : ℚ) : Table :=
  fun n => if n = name then some (rows.map (fun _ => some x)) else t n

/-- `load_aeronet` (aeronet.py:145-199). The columns `date` and `time` are replaced by `datetime`. -/
def load (f : CsvFile) (wanted : Option (List String)) : Except Err Table :=
  if f.vars = [] then .ok emptyTable
  else
    let cols := geo.filter (fun v => f.vars.contains v) ++ wanted.getD []
    if cols.any (fun v => !f.vars.contains v) || !f.vars.contains "date" || !f.vars.contains "time" then .error .invalidVariable
    else if f.rows = [] then .ok (fun n => if n ∈ ["datetime", "latitude", "longitude", "altitude"] then some [] else none)
    else
      let raw : Table := fun n =>
        if n = "datetime" then some (f.rows.map (fun r => some r.time))
        else if n = "date" ∨ n = "time" then none
        else if cols.contains n then some (f.rows.map (fun r => r.value n)) else none
      match f.kind with
      | .man => .ok (constant raw f.rows "altitude" 0)
      | .version2 => .ok (constant (constant (constant raw f.rows "longitude" f.header.1) f.rows "latitude" f.header.2.1) f.rows
          "altitude" f.header.2.2)
      | .version3 => .ok raw

/-- `load_multiple_aeronet` (aeronet.py:124-142): under each name what the files have under it, one after the other. -/
def loadMany (wanted : Option (List String)) : List CsvFile → Except Err Table
  | [] => .ok emptyTable
  | f :: t => match load f wanted with
    | .error e => .error e
    | .ok a => match loadMany wanted t with
      | .error e => .error e
      | .ok b => .ok (fun n => match a n, b n with
        | some x, some y => some (x ++ y)
        | some x, none => some x
        | none, y => y)

structure Data where
  name : List Char
  units : List Char
  values : List (Option ℚ)
  longitude : List (Option ℚ)
  latitude : List (Option ℚ)
  altitude : List (Option ℚ)
  time : List (Option ℚ)

/-- `str.split('(')`. -/
def splitParen : List Char → List (List Char)
  | [] => [[]]
  | '(' :: t => [] :: splitParen t
  | c :: t => match splitParen t with
    | [] => [[c]]
    | h :: r => (c :: h) :: r

/-- Name and units from the name of the column (products.py:115-124). -/
def nameUnits (variable' : List Char) : List Char × List Char :=
  if variable'.getLast? = some ')' then
    match splitParen variable' with
    | n :: u :: _ => (n, u.dropLast)
    | [n] => (n, ['1'])
    | [] => ([], ['1'])
  else (variable', ['1'])

/-- `data[name]`. -/
def get (t : Table) (name : String) : Except Err (List (Option ℚ)) :=
  match t name with
  | some x => .ok x
  | none => .error .key

/-- `create_data_object` with `_create_coord_list` (products.py:86-128). -/
def createData (files : List CsvFile) (variable' : String) : Except Err Data := do
  let t ← loadMany (some [variable']) files
  let lon ← get t "longitude"
  let lat ← get t "latitude"
  let alt ← get t "altitude"
  let time ← get t "datetime"
  let v ← get t variable'
  pure ⟨(nameUnits variable'.toList).1, (nameUnits variable'.toList).2, v, lon, lat, alt, time⟩

/-! ### Specification -/

/-- Longitude, latitude and altitude of a measurement: those of its line in version 3; in version 2 those of the header; on ships those of
the line, at altitude 0. -/
def Spec.position (f : CsvFile) (r : Row) : Option ℚ × Option ℚ × Option ℚ :=
  match f.kind with
  | .man => (r.value "longitude", r.value "latitude", some 0)
  | .version2 => (some f.header.1, some f.header.2.1, some f.header.2.2)
  | .version3 => (r.value "longitude", r.value "latitude", r.value "altitude")

/-- The measurements of all files, in order, each with its file. -/
def Spec.measurements (files : List CsvFile) : List (CsvFile × Row) := files.flatMap (fun f => f.rows.map (fun r => (f, r)))

/-- The file has dates, times, the variable, and the positions its kind has in its lines. -/
def Spec.Complete (v : String) (f : CsvFile) : Prop :=
  "date" ∈ f.vars ∧ "time" ∈ f.vars ∧ v ∈ f.vars ∧
    (f.kind ≠ .version2 → "longitude" ∈ f.vars ∧ "latitude" ∈ f.vars) ∧ (f.kind = .version3 → "altitude" ∈ f.vars)

/-! ### Proofs -/

def special : List String := ["date", "time", "datetime", "latitude", "longitude", "altitude"]

theorem load_complete (f : CsvFile) (v : String) (h : Spec.Complete v f) (hv : v ∉ special) (hr : f.rows ≠ []) :
    ∃ t, load f (some [v]) = .ok t ∧ t v = some (f.rows.map (fun r => r.value v)) ∧
      t "datetime" = some (f.rows.map (fun r => some r.time)) ∧
      t "longitude" = some (f.rows.map (fun r => (Spec.position f r).1)) ∧
      t "latitude" = some (f.rows.map (fun r => (Spec.position f r).2.1)) ∧
      t "altitude" = some (f.rows.map (fun r => (Spec.position f r).2.2)) := by
  obtain ⟨h1, h2, h3, h4, h5⟩ := h
  have hne : f.vars ≠ [] := by intro hc; rw [hc] at h1; cases h1
  unfold load
  rw [if_neg hne]
  simp only
  rw [if_neg]
  · rw [if_neg hr]
    simp only [special, List.mem_cons, List.not_mem_nil, or_false, not_or] at hv
    obtain ⟨v1, v2, v3, v4, v5, v6⟩ := hv
    cases hk : f.kind with
    | man =>
      obtain ⟨h6, h7⟩ := h4 (by simp [hk])
      refine ⟨_, rfl, ?_, ?_, ?_, ?_, ?_⟩ <;>
        simp [constant, Spec.position, hk, h6, h7, v1, v2, v3, v4, v5, v6, geo, List.contains_iff_mem]
    | version2 =>
      refine ⟨_, rfl, ?_, ?_, ?_, ?_, ?_⟩ <;>
        simp [constant, Spec.position, hk, v1, v2, v3, v4, v5, v6, geo, List.contains_iff_mem]
    | version3 =>
      obtain ⟨h6, h7⟩ := h4 (by simp [hk])
      have h8 := h5 hk
      refine ⟨_, rfl, ?_, ?_, ?_, ?_, ?_⟩ <;>
        simp [constant, Spec.position, hk, h6, h7, h8, v1, v2, v3, v4, v5, v6, geo, List.contains_iff_mem]
  · simp only [Bool.or_eq_true, List.any_eq_true, List.mem_append, List.mem_filter, Option.getD_some, List.mem_singleton, Bool.not_eq_true',
      not_or, not_exists, not_and]
    refine ⟨⟨?_, by simp [h1]⟩, by simp [h2]⟩
    rintro x (⟨-, hx⟩ | rfl)
    · simp at hx; simp [hx]
    · simp [h3]

theorem load_empty (f : CsvFile) (v : String) (h : Spec.Complete v f) (hv : v ∉ special) (hr : f.rows = []) :
    ∃ t, load f (some [v]) = .ok t ∧ t v = none ∧ t "datetime" = some [] ∧ t "longitude" = some [] ∧ t "latitude" = some [] ∧
      t "altitude" = some [] := by
  obtain ⟨h1, h2, h3, h4, h5⟩ := h
  have hne : f.vars ≠ [] := by intro hc; rw [hc] at h1; cases h1
  unfold load
  rw [if_neg hne]
  simp only
  rw [if_neg]
  · rw [if_pos hr]
    refine ⟨_, rfl, ?_, by simp, by simp, by simp, by simp⟩
    rw [if_neg]
    intro hc
    apply hv
    simp only [special, List.mem_cons, List.not_mem_nil, or_false] at hc ⊢
    tauto
  · simp only [Bool.or_eq_true, List.any_eq_true, List.mem_append, List.mem_filter, Option.getD_some, List.mem_singleton, Bool.not_eq_true',
      not_or, not_exists, not_and]
    refine ⟨⟨?_, by simp [h1]⟩, by simp [h2]⟩
    rintro x (⟨-, hx⟩ | rfl)
    · simp at hx; simp [hx]
    · simp [h3]

theorem loadMany_complete (v : String) (hv : v ∉ special) : ∀ (files : List CsvFile), (∀ f ∈ files, Spec.Complete v f) →
    ∃ t, loadMany (some [v]) files = .ok t ∧
      (t v).getD [] = (Spec.measurements files).map (fun m => m.2.value v) ∧ ((t v).isSome ↔ ∃ f ∈ files, f.rows ≠ []) ∧
      (t "datetime").getD [] = (Spec.measurements files).map (fun m => some m.2.time) ∧
      (t "longitude").getD [] = (Spec.measurements files).map (fun m => (Spec.position m.1 m.2).1) ∧
      (t "latitude").getD [] = (Spec.measurements files).map (fun m => (Spec.position m.1 m.2).2.1) ∧
      (t "altitude").getD [] = (Spec.measurements files).map (fun m => (Spec.position m.1 m.2).2.2) ∧
      (files ≠ [] → (t "datetime").isSome ∧ (t "longitude").isSome ∧ (t "latitude").isSome ∧ (t "altitude").isSome)
  | [], _ => ⟨emptyTable, rfl, by simp [emptyTable, Spec.measurements], by simp [emptyTable], by simp [emptyTable, Spec.measurements],
      by simp [emptyTable, Spec.measurements], by simp [emptyTable, Spec.measurements], by simp [emptyTable, Spec.measurements], by simp⟩
  | f :: rest, h => by
    obtain ⟨t, e, a1, a2, a3, a4, a5, a6, -⟩ := loadMany_complete v hv rest (fun g hg => h g (by simp [hg]))
    have hm : Spec.measurements (f :: rest) = f.rows.map (fun r => (f, r)) ++ Spec.measurements rest := by simp [Spec.measurements]
    by_cases hr : f.rows = []
    · obtain ⟨s, es, b1, b2, b3, b4, b5⟩ := load_empty f v (h f (by simp)) hv hr
      refine ⟨_, by unfold loadMany; rw [es]; simp only; rw [e], ?_, ?_, ?_, ?_, ?_, ?_, ?_⟩
      · simp only [b1]; rw [hm, hr]; simpa using a1
      · simp only [b1]; rw [a2]; simp [hr]
      · simp only [b2]; rw [hm, hr]; cases hx : t "datetime" <;> simp [hx] at a3 ⊢ <;> exact a3
      · simp only [b3]; rw [hm, hr]; cases hx : t "longitude" <;> simp [hx] at a4 ⊢ <;> exact a4
      · simp only [b4]; rw [hm, hr]; cases hx : t "latitude" <;> simp [hx] at a5 ⊢ <;> exact a5
      · simp only [b5]; rw [hm, hr]; cases hx : t "altitude" <;> simp [hx] at a6 ⊢ <;> exact a6
      · intro _
        simp only [b2, b3, b4, b5]
        refine ⟨?_, ?_, ?_, ?_⟩
        · cases t "datetime" <;> rfl
        · cases t "longitude" <;> rfl
        · cases t "latitude" <;> rfl
        · cases t "altitude" <;> rfl
    · obtain ⟨s, es, b1, b2, b3, b4, b5⟩ := load_complete f v (h f (by simp)) hv hr
      refine ⟨_, by unfold loadMany; rw [es]; simp only; rw [e], ?_, ?_, ?_, ?_, ?_, ?_, ?_⟩
      · simp only [b1]; rw [hm, List.map_append, ← a1]
        cases hx : t v <;> simp [Function.comp_def]
      · simp only [b1]
        constructor
        · intro _; exact ⟨f, by simp, hr⟩
        · intro _; cases t v <;> rfl
      · simp only [b2]; rw [hm, List.map_append, ← a3]
        cases hx : t "datetime" <;> simp [Function.comp_def]
      · simp only [b3]; rw [hm, List.map_append, ← a4]
        cases hx : t "longitude" <;> simp [Function.comp_def]
      · simp only [b4]; rw [hm, List.map_append, ← a5]
        cases hx : t "latitude" <;> simp [Function.comp_def]
      · simp only [b5]; rw [hm, List.map_append, ← a6]
        cases hx : t "altitude" <;> simp [Function.comp_def]
      · intro _
        simp only [b2, b3, b4, b5]
        refine ⟨?_, ?_, ?_, ?_⟩
        · cases t "datetime" <;> rfl
        · cases t "longitude" <;> rfl
        · cases t "latitude" <;> rfl
        · cases t "altitude" <;> rfl

/-- C101: from complete files, at least one with measurements, every measurement is read once, file after file, with its own value, time
and position. -/
theorem c101_aligned (files : List CsvFile) (v : String) (hv : v ∉ ["date", "time", "datetime", "latitude", "longitude", "altitude"])
    (h : ∀ f ∈ files, Spec.Complete v f) (hsome : ∃ f ∈ files, f.rows ≠ []) :
    ∃ d, createData files v = .ok d ∧ d.values = (Spec.measurements files).map (fun m => m.2.value v) ∧
      d.time = (Spec.measurements files).map (fun m => some m.2.time) ∧
      d.longitude = (Spec.measurements files).map (fun m => (Spec.position m.1 m.2).1) ∧
      d.latitude = (Spec.measurements files).map (fun m => (Spec.position m.1 m.2).2.1) ∧
      d.altitude = (Spec.measurements files).map (fun m => (Spec.position m.1 m.2).2.2) := by
  obtain ⟨t, e, a1, a2, a3, a4, a5, a6, a7⟩ := loadMany_complete v hv files h
  have hne : files ≠ [] := by rintro rfl; obtain ⟨f, hf, -⟩ := hsome; cases hf
  obtain ⟨s1, s2, s3, s4⟩ := a7 hne
  obtain ⟨x0, y0⟩ := Option.isSome_iff_exists.1 (a2.2 hsome)
  obtain ⟨x1, y1⟩ := Option.isSome_iff_exists.1 s1
  obtain ⟨x2, y2⟩ := Option.isSome_iff_exists.1 s2
  obtain ⟨x3, y3⟩ := Option.isSome_iff_exists.1 s3
  obtain ⟨x4, y4⟩ := Option.isSome_iff_exists.1 s4
  rw [y0] at a1
  rw [y1] at a3
  rw [y2] at a4
  rw [y3] at a5
  rw [y4] at a6
  refine ⟨⟨(nameUnits v.toList).1, (nameUnits v.toList).2, x0, x2, x3, x4, x1⟩, ?_, a1, a3, a4, a5, a6⟩
  unfold createData
  rw [e]
  simp only [bind, Except.bind, get, y0, y1, y2, y3, y4, pure, Except.pure]

theorem load_error (f : CsvFile) (w : Option (List String)) (e : Err) (h : load f w = .error e) : e = .invalidVariable := by
  unfold load at h
  split at h
  · cases h
  · simp only at h
    split at h
    · cases h; rfl
    · split at h
      · cases h
      · split at h <;> cases h

/-- C101: a variable that one of the files has not is refused. -/
theorem c101_refused (files : List CsvFile) (v : String) (f : CsvFile) (hf : f ∈ files) (hn : f.vars ≠ []) (hv : v ∉ f.vars) :
    createData files v = .error .invalidVariable := by
  have hl : load f (some [v]) = .error .invalidVariable := by
    unfold load
    rw [if_neg hn]
    simp only
    rw [if_pos]
    simp only [Bool.or_eq_true, List.any_eq_true]
    left; left
    exact ⟨v, by simp, by simpa using hv⟩
  have hm : ∀ fs : List CsvFile, f ∈ fs → loadMany (some [v]) fs = .error .invalidVariable := by
    intro fs
    induction fs with
    | nil => intro h; cases h
    | cons g t ih =>
      intro h
      unfold loadMany
      cases hg : load g (some [v]) with
      | error e => rw [load_error g _ e hg]
      | ok a =>
        rcases List.mem_cons.1 h with rfl | h
        · rw [hl] at hg; cases hg
        · rw [ih h]
  unfold createData
  rw [hm files hf]
  rfl

theorem splitParen_none : ∀ (s : List Char), '(' ∉ s → splitParen s = [s]
  | [], _ => rfl
  | c :: t, h => by
    have hc : c ≠ '(' := fun e => h (by simp [e])
    unfold splitParen
    split
    · rename_i heq; cases heq
    · rename_i heq; cases heq; exact absurd rfl hc
    · rename_i heq
      cases heq
      rw [splitParen_none t (fun e => h (by simp [e]))]

theorem splitParen_one : ∀ (n u : List Char), '(' ∉ n → '(' ∉ u → splitParen (n ++ '(' :: u) = [n, u]
  | [], u, _, hu => by
    show splitParen ('(' :: u) = _
    unfold splitParen
    simp [splitParen_none u hu]
  | c :: t, u, h, hu => by
    have hc : c ≠ '(' := fun e => h (by simp [e])
    rw [List.cons_append]
    unfold splitParen
    split
    · rename_i heq; simp at heq
    · rename_i heq; cases heq; exact absurd rfl hc
    · rename_i heq
      cases heq
      rw [splitParen_one t u (fun e => h (by simp [e])) hu]

/-- C101: a column named with units in brackets at its end has this name and these units; one that does not end with a bracket its whole
name and no units. -/
theorem c101_units (n u w : List Char) (hn : '(' ∉ n) (hu : '(' ∉ u) (hw : w.getLast? ≠ some ')') :
    nameUnits (n ++ '(' :: u ++ [')']) = (n, u) ∧ nameUnits w = (w, ['1']) := by
  constructor
  · unfold nameUnits
    rw [if_pos (by rw [List.getLast?_append]; simp)]
    have : n ++ '(' :: u ++ [')'] = n ++ '(' :: (u ++ [')']) := by simp
    rw [this, splitParen_one n (u ++ [')']) hn (by simp [hu])]
    simp
  · unfold nameUnits
    rw [if_neg hw]

/-! ### A concrete case, and where the property fails -/

def row (t : ℚ) (l : List (String × ℚ)) : Row := ⟨t, fun n => (l.find? (fun p => p.1 == n)).map Prod.snd⟩

def exV3 : CsvFile := ⟨.version3, ["date", "time", "AOD_500nm", "latitude", "longitude", "altitude"], (0, 0, 0),
  [row 1 [("AOD_500nm", 3), ("latitude", 50), ("longitude", 10), ("altitude", 100)],
   row 2 [("latitude", 50), ("longitude", 10), ("altitude", 100)]]⟩

def exV2 : CsvFile := ⟨.version2, ["date", "time", "AOD_500nm"], (20, 60, 5), [row 7 [("AOD_500nm", 4)]]⟩

def exMan : CsvFile := ⟨.man, ["date", "time", "latitude", "longitude", "AOD_500nm"], (0, 0, 0), []⟩

def shown (r : Except Err Data) : Option (List (List (Option ℚ))) :=
  match r with
  | .ok d => some [d.values, d.longitude, d.latitude, d.altitude, d.time]
  | .error _ => none

example : shown (createData [exV3, exMan, exV2] "AOD_500nm") =
    some [[some 3, none, some 4], [some 10, some 10, some 20], [some 50, some 50, some 60], [some 100, some 100, some 5],
      [some 1, some 2, some 7]] := by decide +kernel

example : Spec.Complete "AOD_500nm" exV3 ∧ Spec.Complete "AOD_500nm" exV2 ∧ Spec.Complete "AOD_500nm" exMan := by
  refine ⟨?_, ?_, ?_⟩ <;> simp [Spec.Complete, exV3, exV2, exMan]

example : nameUnits "Precipitable_Water(cm)".toList = ("Precipitable_Water".toList, "cm".toList) := by decide

/-- C101 is violated by files without measurements: reading a variable they have ends with a KeyError. -/
theorem c101_empty_violated (files : List CsvFile) (v : String) (hv : v ∉ ["date", "time", "datetime", "latitude", "longitude", "altitude"])
    (h : ∀ f ∈ files, Spec.Complete v f) (hnone : ∀ f ∈ files, f.rows = []) : createData files v = .error .key := by
  obtain ⟨t, e, a1, a2, a3, a4, a5, a6, a7⟩ := loadMany_complete v hv files h
  have hv0 : t v = none := by
    cases hx : t v with
    | none => rfl
    | some x =>
      obtain ⟨f, hf, hr⟩ := a2.1 (by rw [hx]; rfl)
      exact absurd (hnone f hf) hr
  unfold createData
  rw [e]
  simp only [bind, Except.bind, get, hv0]
  cases t "longitude" <;> simp only
  cases t "latitude" <;> simp only
  cases t "altitude" <;> simp only
  cases t "datetime" <;> simp only

/-- C101 is violated by `date` and `time`, which are listed among the variables but cannot be read. -/
theorem c101_date_violated : "date" ∈ exV3.vars ∧ "time" ∈ exV3.vars ∧ createData [exV3] "date" = .error .key ∧
    createData [exV3] "time" = .error .key := by
  refine ⟨by simp [exV3], by simp [exV3], rfl, rfl⟩

/-- C101 is violated by a file without altitudes among others: the altitudes of the other files move to its measurements. -/
theorem c101_altitude_violated : ∃ f : CsvFile, f.kind = .version3 ∧ f.rows.length = 1 ∧
    (shown (createData [f, exV3] "AOD_500nm")).map (fun l => (l[3]?, l[4]?)) =
      some (some [some 100, some 100], some [some 0, some 1, some 2]) := by
  refine ⟨⟨.version3, ["date", "time", "AOD_500nm", "latitude", "longitude"], (0, 0, 0), [row 0 [("AOD_500nm", 1)]]⟩, rfl, rfl, ?_⟩
  decide +kernel

/-- C101 is violated by brackets within the brackets: the units are cut. -/
theorem c101_units_violated : nameUnits "f(g(x))".toList = ("f".toList, []) := by decide

end Cis.AeronetLoad
