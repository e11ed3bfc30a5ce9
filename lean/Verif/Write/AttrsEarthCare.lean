import Verif.Write.Attrs
import Verif.DataList.Model
set_option linter.unusedSectionVars false
set_option linter.unusedSimpArgs false
/-!
# Attributes of EarthCARE variables (C225, C226)

The product reads attributes with a function of its own (`get_metadata_EC`, cis/data_io/products/EarthCARE.py:8-49). Writing is that of
`Write/Attrs.lean`.
-/
namespace Cis.Attrs.EarthCare
open Cis.Attrs
open Cis.Meta (Text tidy setUnits initStandard)

/-! ### Model -/

/-- `standard_attributes` of `get_metadata_EC` (EarthCARE.py:20). -/
def standardAttributes : List String := ["long_name", "units", "missing_value"]

/-- `get_metadata_EC` (EarthCARE.py:8-49) of a variable with the name `name`, or, for longitude and latitude, with the optional standard name, on the
attributes of the file. -/
def read (L : Lib) (name : Text) (f : Attrs) : Data :=
  { std := if L.std name then name else []
    long := (get f "long_name").getD (.text [])
    units := setUnits L.parse (textOf (get f "units"))
    missing := findMissing f
    history := .text []
    attrs := []
    misc := f.filter (fun p => p.1 ∉ standardAttributes) }

/-- The part of a variable with an extra dimension (EarthCARE.py:393-401): `suffix` is the text of the dimension with the index. The long name has to be a
text (TypeError). The units go through their setter again. -/
def part (L : Lib) (name suffix : Text) (f : Attrs) : Option Data :=
  match (read L name f).long with
  | .text t =>
    match initStandard L.std (some (t ++ suffix)) none with
    | .error _ => none
    | .ok s => some
      { std := s.getD []
        long := .text (t ++ suffix)
        units := match (read L name f).units with | .inl u => .inl u | .inr t => setUnits L.parse t
        missing := (read L name f).missing
        history := .text []
        attrs := []
        misc := [] }
  | _ => none

/-- `add_history` (ungridded_data.py:345-356), the history being a text. -/
def addHistory (d : Data) (stamp new : Text) : Data :=
  { d with history := .text ((DataList.addHistoryU (some (textOf (some d.history))) stamp new).getD []) }

/-! ### Specification -/

/-- What must be in the file saved from an EarthCARE variable that was read from a file with the attributes `F`: the attributes of the file. The exceptions
are those of any variable (C127): the units as the library prints them and their calendar, the missing value also as fill value, no empty long name, no
values that cannot be written. A variable that is named like a standard name gets it as standard name. -/
def Spec.saved (L : Lib) (name : Text) (F : Attrs) (k : String) : Option Val :=
  if k = "_FillValue" then (findMissing F).filter (fun v => v ≠ .text [])
  else if k = "standard_name" ∧ name ≠ [] ∧ L.std name = true then some (.text name)
  else if k = "long_name" then (get F k).filter (fun v => truthy v)
  else if k = "units" then Attrs.Spec.unitsAgain L (textOf (get F k))
  else if k = "missing_value" then (findMissing F).filter (fun v => truthy v)
  else match (if k = "calendar" then Attrs.Spec.calendarOf L (textOf (get F "units")) else none) with
    | some c => some (.text c)
    | none => (get F k).filter (fun v => L.refuses k v = none)

/-! ### Proofs -/

theorem misc_get (L : Lib) (name : Text) (F : Attrs) (k : String) :
    get (read L name F).misc k = if k ∈ standardAttributes then none else get F k := by
  have := get_filter F (fun j => decide (j ∉ standardAttributes)) k
  show get (F.filter (fun p => decide (p.1 ∉ standardAttributes))) k = _
  rw [this]
  by_cases h : k ∈ standardAttributes
  · rw [if_pos h, if_neg (by simpa using h)]
  · rw [if_neg h, if_pos (by simpa using h)]

theorem read_dict (L : Lib) (name : Text) (F : Attrs) (h : Attrs.Spec.Dict F) :
    Attrs.Spec.Dict (read L name F).misc ∧ Attrs.Spec.Dict (read L name F).attrs :=
  ⟨(List.Sublist.map _ List.filter_sublist).nodup h, by simp [read, Attrs.Spec.Dict]⟩

/-- **C225.** An EarthCARE variable is read and saved: every attribute of the file is in the new file, and nothing else. -/
theorem c225_saved (L : Lib) (name : Text) (F G : Attrs) (hd : Attrs.Spec.Dict F) (h : write L (read L name F) = .ok G) (k : String) :
    get G k = Spec.saved L name F k := by
  obtain ⟨hm, ha⟩ := read_dict L name F hd
  rw [c127_written L _ G ha hm h]
  have hattrs : ∀ k, get (read L name F).attrs k = none := by intro k; simp [read, get]
  unfold Attrs.Spec.saved
  rw [hattrs k, misc_get]
  unfold Spec.saved
  by_cases h1 : k = "_FillValue"
  · rw [if_pos h1, if_pos h1]
    show fillValue (read L name F) = _
    unfold fillValue
    show (match findMissing F with | some (.text []) => none | m => m) = _
    cases findMissing F with
    | none => rfl
    | some v => cases v with
      | text t => cases t <;> simp [Option.filter]
      | num q => simp [Option.filter]
      | other n => simp [Option.filter]
  rw [if_neg h1, if_neg h1]
  dsimp only
  unfold Attrs.Spec.ownValue
  by_cases h2 : k = "standard_name"
  · subst h2
    have e : (read L name F).std = if L.std name then name else [] := rfl
    rw [if_pos rfl, e]
    by_cases hs : L.std name = true
    · by_cases hn : name = []
      · subst hn
        rw [L.stdNil] at hs; cases hs
      · simp [hs, hn]
    · simp [hs, standardAttributes]
  rw [if_neg h2, if_neg (show ¬(k = "standard_name" ∧ name ≠ [] ∧ L.std name = true) from fun e => h2 e.1)]
  by_cases h3 : k = "long_name"
  · subst h3
    rw [if_pos rfl, if_pos rfl]
    cases hg : get F "long_name" with
    | none =>
      have : (read L name F).long = .text [] := by show (get F "long_name").getD _ = _; rw [hg]; rfl
      simp [this, truthy, standardAttributes, Option.filter]
    | some v =>
      have : (read L name F).long = v := by show (get F "long_name").getD _ = _; rw [hg]; rfl
      cases ht : truthy v with
      | true => simp [ht, Option.filter, this]
      | false => simp [ht, Option.filter, this, standardAttributes]
  rw [if_neg h3, if_neg h3]
  by_cases h4 : k = "history"
  · subst h4
    have : truthy (read L name F).history = false := rfl
    simp [this, standardAttributes]
  rw [if_neg h4]
  by_cases h5 : k = "missing_value"
  · subst h5
    have : (read L name F).missing = findMissing F := rfl
    rw [if_pos rfl, this]
    simp only [String.reduceEq, if_false, if_true]
    cases (findMissing F).filter (fun v => truthy v) <;> simp [standardAttributes]
  rw [if_neg h5]
  by_cases h6 : k = "units"
  · subst h6
    rw [if_pos rfl, if_pos rfl]
    have : (read L name F).units = setUnits L.parse (textOf (get F "units")) := rfl
    rw [this]
    unfold Attrs.Spec.unitsAgain setUnits
    cases L.parse (tidy (textOf (get F "units"))) with
    | some u => rfl
    | none =>
      cases ht : tidy (textOf (get F "units")) with
      | nil => simp [standardAttributes, ht]
      | cons a t => simp [ht]
  rw [if_neg h6, if_neg h6, if_neg h5]
  have hns : k ∉ standardAttributes := by simp [standardAttributes, h3, h5, h6]
  rw [if_neg hns]
  by_cases h7 : k = "calendar"
  · subst h7
    rw [if_pos rfl, if_pos rfl]
    have : (read L name F).units = setUnits L.parse (textOf (get F "units")) := rfl
    rw [this]
    unfold Attrs.Spec.calendarOf setUnits
    cases L.parse (tidy (textOf (get F "units"))) with
    | none => rfl
    | some u =>
      obtain ⟨u, c⟩ := u
      cases c with
      | none => rfl
      | some c => cases c <;> rfl
  · rw [if_neg h7, if_neg h7]

/-- C225: the data have the long name, the units, and the missing value of the file. -/
theorem c225_data (L : Lib) (name : Text) (F : Attrs) :
    (∀ v, get F "long_name" = some v → (read L name F).long = v) ∧
    (read L name F).units = setUnits L.parse (textOf (get F "units")) ∧
    (∀ v, get F "missing_value" = some v → (read L name F).missing = some v) ∧
    (get F "missing_value" = none → (read L name F).missing = get F "_FillValue") := by
  refine ⟨?_, rfl, ?_, ?_⟩
  · intro v hv; show (get F "long_name").getD _ = _; rw [hv]; rfl
  · intro v hv; show findMissing F = _; simp [findMissing, hv]
  · intro hv; show findMissing F = _; simp [findMissing, hv]

/-- C225: a part of a variable is named after the variable and the part, and has the units and missing value of the variable. -/
theorem c225_part (L : Lib) (name suffix : Text) (F : Attrs) (t : Text) (u : Text × Option Text) (ht : get F "long_name" = some (.text t))
    (hu : setUnits L.parse (textOf (get F "units")) = .inl u) (d : Data) (hd : part L name suffix F = some d) :
    d.long = .text (t ++ suffix) ∧ d.units = .inl u ∧ d.missing = findMissing F := by
  unfold part at hd
  have e : (read L name F).long = .text t := by show (get F "long_name").getD _ = _; rw [ht]; rfl
  have eu : (read L name F).units = .inl u := hu
  rw [e] at hd
  dsimp only at hd
  split at hd
  · cases hd
  · cases hd
    refine ⟨rfl, ?_, rfl⟩
    dsimp only
    rw [eu]

/-- C226 is violated for the standard name of the data: it is never that of the file, unless the variable has the name. -/
theorem c226_standard_name_violated (L : Lib) (name s : Text) (F : Attrs) (_hs : get F "standard_name" = some (.text s)) (hne : s ≠ name) (hn : s ≠ []) :
    (read L name F).std ≠ s := by
  show (if L.std name = true then name else []) ≠ s
  split
  · exact fun e => hne e.symm
  · exact fun e => hn e.symm

/-- C226 is violated for the history: as soon as something is done with the data, the history in the file they were read from is lost. -/
theorem c226_history_violated (L : Lib) (name : Text) (F G : Attrs) (hd : Attrs.Spec.Dict F) (stamp new : Text) (hn : stamp ++ new ≠ [])
    (h : write L (addHistory (read L name F) stamp new) = .ok G) : get G "history" = some (.text (stamp ++ new)) := by
  obtain ⟨hm, ha⟩ := read_dict L name F hd
  have e : (addHistory (read L name F) stamp new).history = .text (stamp ++ new) := rfl
  rw [c127_written L _ G (by exact ha) (by exact hm) h]
  unfold Attrs.Spec.saved
  have hattrs : get (addHistory (read L name F) stamp new).attrs "history" = none := rfl
  rw [if_neg (by decide), hattrs]
  dsimp only
  unfold Attrs.Spec.ownValue
  rw [e]
  simp [truthy, hn]

/-- C226 is violated for parts of variables: of the other attributes none is left. -/
theorem c226_part_violated (L : Lib) (name suffix : Text) (F G : Attrs) (d : Data) (hd : part L name suffix F = some d) (h : write L d = .ok G)
    (k : String) (hk : k ∉ Attrs.Spec.meaningful) : get G k = none := by
  unfold part at hd
  split at hd
  · split at hd
    · cases hd
    · cases hd
      rw [c127_written L _ G (by simp [Attrs.Spec.Dict]) (by simp [Attrs.Spec.Dict]) h]
      simp only [Attrs.Spec.meaningful, List.mem_cons, List.not_mem_nil, or_false, not_or] at hk
      obtain ⟨h1, h2, h3, h4, h5, h6, h7⟩ := hk
      simp [Attrs.Spec.saved, Attrs.Spec.ownValue, h1, h2, h3, h4, h5, h6, h7, get]
  · cases hd

/-! ### Examples -/

def exFile : Attrs := [("standard_name", .text "air_temperature".toList), ("units", .text "K".toList), ("long_name", .text "Temperature".toList),
  ("_FillValue", .num (-999)), ("history", .text "made".toList), ("comment", .text "ok".toList)]

/-- A variable is read and saved; its standard name and history come back from the other attributes. -/
example : ∃ G, write exLib (read exLib "temperature".toList exFile) = .ok G ∧ get G "standard_name" = some (.text "air_temperature".toList) ∧
    get G "history" = some (.text "made".toList) ∧ get G "comment" = some (.text "ok".toList) := by
  have hd : Attrs.Spec.Dict exFile := by unfold Attrs.Spec.Dict; decide +kernel
  obtain ⟨G, h⟩ : ∃ G, write exLib (read exLib "temperature".toList exFile) = .ok G :=
    ⟨[("_FillValue", .num (-999)), ("units", .text "K".toList), ("long_name", .text "Temperature".toList), ("missing_value", .num (-999)),
      ("standard_name", .text "air_temperature".toList), ("history", .text "made".toList), ("comment", .text "ok".toList)], by decide +kernel⟩
  refine ⟨G, h, ?_, ?_, ?_⟩
  · rw [c225_saved exLib _ exFile G hd h]; decide +kernel
  · rw [c225_saved exLib _ exFile G hd h]; decide +kernel
  · rw [c225_saved exLib _ exFile G hd h]; decide +kernel

/-- The history is lost after a command, and the standard name of the data is not that of the file. -/
example : (∃ G, write exLib (addHistory (read exLib "temperature".toList exFile) "now ".toList "subset".toList) = .ok G ∧
      get G "history" = some (.text "now subset".toList)) ∧ (read exLib "temperature".toList exFile).std = [] := by
  refine ⟨⟨[("_FillValue", .num (-999)), ("units", .text "K".toList), ("long_name", .text "Temperature".toList), ("missing_value", .num (-999)),
    ("history", .text "now subset".toList), ("standard_name", .text "air_temperature".toList), ("comment", .text "ok".toList)],
    by decide +kernel, by decide +kernel⟩, by decide +kernel⟩

/-- A part of a variable: the comment is lost. -/
example : ∃ d G, part exLib "temperature".toList "_band1".toList exFile = some d ∧ d.long = .text "Temperature_band1".toList ∧ write exLib d = .ok G ∧
    get G "comment" = none ∧ get exFile "comment" = some (.text "ok".toList) :=
  ⟨⟨[], .text "Temperature_band1".toList, .inl ("K".toList, none), some (.num (-999)), .text [], [], []⟩,
    [("_FillValue", .num (-999)), ("units", .text "K".toList), ("long_name", .text "Temperature_band1".toList), ("missing_value", .num (-999))],
    by rfl, by decide +kernel, by decide +kernel, by decide +kernel, by decide +kernel⟩

end Cis.Attrs.EarthCare
