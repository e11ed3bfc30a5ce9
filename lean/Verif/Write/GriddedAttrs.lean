import Verif.Write.Attrs
set_option linter.unusedSectionVars false
set_option linter.unusedSimpArgs false
/-!
Model of the attributes of gridded data: `add_attributes`, `remove_attribute` and `save_data` of `GriddedData`
(cis/data_io/gridded_data.py:256-295) and `GriddedDataList.save_data` (431-443). Property C128.

Contracts of Iris: `cube.attributes[k] = v` raises ValueError for reserved names; setting `standard_name` or `units` to something invalid
raises ValueError, `long_name` takes anything, and any other name can be set on the object without effect on the file. `iris.save` writes
the attributes in `local_keys`, and those that are not the same for all cubes, on the variable, the others on the file; `Conventions`
is written by Iris itself. `iris.load` gives a cube the attributes of the file and then those of its variable. Attributes Iris keeps on the
variable by itself (`flag_masks`, ...) are counted among `local_keys`.
-/
namespace Cis.GAttrs

open Cis.Attrs (Val Attrs get has put get_put get_filter get_append has_iff get_cons get_mem)
open Cis.Attrs.Spec (Dict)

/-- What Iris accepts: reserved names, standard names, units. -/
structure Iris where
  reserved : String → Bool
  std : Val → Bool
  unit : Val → Bool
  std_reserved : reserved "standard_name" = true
  long_reserved : reserved "long_name" = true
  units_reserved : reserved "units" = true

/-- A cube: its names and units, its attributes, and `_local_attributes`. -/
structure Cube where
  std : Option Val
  long : Option Val
  units : Val
  attributes : Attrs
  localKeys : List String

/-- `setattr(self, key, value)` for a reserved name, with the ValueError caught (gridded_data.py:265-269). -/
def setProp (I : Iris) (c : Cube) (k : String) (v : Val) : Cube :=
  if k = "standard_name" then (if I.std v then { c with std := some v } else c)
  else if k = "long_name" then { c with long := some v }
  else if k = "units" then (if I.unit v then { c with units := v } else c)
  else c

/-- One attribute (gridded_data.py:262-269). -/
def addOne (I : Iris) (c : Cube) (p : String × Val) : Cube :=
  if I.reserved p.1 then setProp I c p.1 p.2 else { c with attributes := put c.attributes p.1 p.2 }

/-- `add_attributes` (gridded_data.py:256-271). -/
def addAttributes (I : Iris) (c : Cube) (l : Attrs) : Cube :=
  let c' := l.foldl (addOne I) c
  { c' with localKeys := c'.localKeys ++ l.map Prod.fst }

/-- `remove_attribute` (gridded_data.py:273-283): `list.remove` takes out the first occurrence only. -/
def removeAttribute (c : Cube) (k : String) : Cube :=
  { c with attributes := c.attributes.filter (fun p => p.1 ≠ k), localKeys := c.localKeys.erase k }

/-- `cube.attributes[k] = v` for a name that is not reserved, as `add_history` does (gridded_data.py:170-180). -/
def setDirect (c : Cube) (k : String) (v : Val) : Cube := { c with attributes := put c.attributes k v }

/-- A file: its own attributes, and the attributes of each variable. -/
structure File where
  global : Attrs
  vars : List Attrs

/-- The name Iris keeps for itself. -/
def conventions (k : String) : Bool := k.toLower = "conventions"

/-- Is an attribute the same for all cubes. -/
def common (cubes : List Attrs) (k : String) : Bool :=
  match cubes with
  | [] => false
  | c :: t => t.all (fun d => get d k == get c k)

/-- `iris.save(cubes, local_keys=...)` (contract): the attributes. -/
def irisSave (keys : List String) (conv : Val) (cubes : List Attrs) : File :=
  { global := ("Conventions", conv) :: ((cubes.headD []).filter (fun p => !conventions p.1 && (p.1 ∉ keys) && common cubes p.1))
    vars := cubes.map (fun c => c.filter (fun p => !conventions p.1 && ((p.1 ∈ keys) || !common cubes p.1))) }

/-- `GriddedData.save_data` (gridded_data.py:285-295): the attributes. -/
def save (conv : Val) (c : Cube) : File := irisSave c.localKeys conv [c.attributes]

/-- `GriddedDataList.save_data` (gridded_data.py:431-443): the attributes; the local keys of the cubes are not given to Iris. -/
def saveList (conv : Val) (l : List Cube) : File := irisSave [] conv (l.map Cube.attributes)

/-- `iris.load` (contract): the attributes of the cube of a variable. -/
def load (f : File) (i : Nat) : Option Attrs := (f.vars[i]?).map (fun v => v.foldl (fun a p => put a p.1 p.2) f.global)

/-! ### Specification -/

/-- What a user can do to the attributes of a cube. -/
inductive Spec.Op
  | add (k : String) (v : Val)
  | remove (k : String)
  | direct (k : String) (v : Val)

def Spec.apply (I : Iris) (c : Cube) : Spec.Op → Cube
  | .add k v => addAttributes I c [(k, v)]
  | .remove k => removeAttribute c k
  | .direct k v => setDirect c k v

def Spec.key : Spec.Op → String
  | .add k _ => k
  | .remove k => k
  | .direct k _ => k

/-- The operation gives the attribute a value; none if it takes it away. -/
def Spec.gives : Spec.Op → Option Val
  | .add _ v => some v
  | .remove _ => none
  | .direct _ v => some v

/-! ### Proofs -/

theorem setProp_attributes (I : Iris) (c : Cube) (k : String) (v : Val) :
    (setProp I c k v).attributes = c.attributes ∧ (setProp I c k v).localKeys = c.localKeys := by
  unfold setProp; split_ifs <;> exact ⟨rfl, rfl⟩

/-- **C128**, any sequence of operations: an attribute whose name is not reserved has the value the last operation on it gave. -/
theorem c128_history (I : Iris) (c : Cube) (ops : List Spec.Op) (k : String) (hk : I.reserved k = false)
    (hd : ∀ o ∈ ops, ∀ j v, o = .direct j v → I.reserved j = false) :
    get (ops.foldl (Spec.apply I) c).attributes k =
      (match (ops.filter (fun o => Spec.key o = k)).getLast? with
        | some o => Spec.gives o
        | none => get c.attributes k) := by
  induction ops using List.reverseRecOn with
  | nil => simp
  | append_singleton t o ih =>
    have ih := ih (fun o ho => hd o (by simp [ho]))
    rw [List.foldl_append, List.filter_append]
    cases o with
    | add j v =>
      show get (addOne I (t.foldl (Spec.apply I) c) (j, v)).attributes k = _
      unfold addOne
      by_cases hj : I.reserved j = true
      · rw [if_pos hj, (setProp_attributes _ _ _ _).1, ih]
        have : j ≠ k := by rintro rfl; rw [hk] at hj; cases hj
        simp [Spec.key, this]
      · rw [if_neg hj]
        show get (put _ j v) k = _
        rw [get_put]
        by_cases he : k = j
        · subst he; simp [Spec.key, Spec.gives]
        · have : j ≠ k := fun e => he e.symm
          simp [Spec.key, he, this, ih]
    | remove j =>
      show get ((t.foldl (Spec.apply I) c).attributes.filter (fun p => decide (p.1 ≠ j))) k = _
      rw [get_filter _ (fun s => decide (s ≠ j))]
      by_cases he : k = j
      · subst he; simp [Spec.key, Spec.gives]
      · have : j ≠ k := fun e => he e.symm
        simp [Spec.key, he, this, ih]
    | direct j v =>
      show get (put (t.foldl (Spec.apply I) c).attributes j v) k = _
      rw [get_put]
      by_cases he : k = j
      · subst he; simp [Spec.key, Spec.gives]
      · have : j ≠ k := fun e => he e.symm
        simp [Spec.key, he, this, ih]

theorem addMany (I : Iris) (l : Attrs) (c : Cube) (hl : Dict l) (k : String) (hk : I.reserved k = false) :
    get (l.foldl (addOne I) c).attributes k = (get l k).or (get c.attributes k) := by
  induction l generalizing c with
  | nil => simp [Cis.Attrs.get]
  | cons a t ih =>
    have h' : (a.1 :: t.map Prod.fst).Nodup := by simpa [Dict] using hl
    rw [List.foldl_cons, ih _ (List.nodup_cons.mp h').2, get_cons]
    by_cases ha : a.1 = k
    · have hr : I.reserved a.1 = false := by rw [ha]; exact hk
      have hn : get t k = none := Cis.Attrs.not_mem_get (by rw [← ha]; exact (List.nodup_cons.mp h').1)
      simp [addOne, ha, hk, get_put, hn]
    · have : get (addOne I c a).attributes k = get c.attributes k := by
        unfold addOne
        split_ifs
        · rw [(setProp_attributes _ _ _ _).1]
        · show get (put _ _ _) _ = _
          rw [get_put, if_neg (fun e => ha e.symm)]
      simp [this, ha]

/-- **C128**: adding a whole dictionary sets every attribute of it whose name is not reserved, leaves all others as they are, and adds all
the names to those kept on the variable. -/
theorem c128_add (I : Iris) (c : Cube) (l : Attrs) (hl : Dict l) (k : String) (hk : I.reserved k = false) :
    get (addAttributes I c l).attributes k = (get l k).or (get c.attributes k) ∧
    (∀ j, j ∈ (addAttributes I c l).localKeys ↔ j ∈ c.localKeys ∨ has l j = true) := by
  refine ⟨addMany I l c hl k hk, ?_⟩
  intro j
  have hkeys : ∀ (l : Attrs) (c : Cube), (l.foldl (addOne I) c).localKeys = c.localKeys := by
    intro l
    induction l with
    | nil => intro c; rfl
    | cons a t ih =>
      intro c
      rw [List.foldl_cons, ih]
      unfold addOne
      split_ifs
      · exact (setProp_attributes _ _ _ _).2
      · rfl
  show j ∈ (l.foldl (addOne I) c).localKeys ++ l.map Prod.fst ↔ _
  rw [hkeys, List.mem_append]
  simp [has]

/-- **C128**: adding the units or a name changes that of the cube if it is valid, and nothing if it is not; no attribute is touched. -/
theorem c128_names (I : Iris) (c : Cube) (v : Val) :
    (addAttributes I c [("units", v)]).units = (if I.unit v then v else c.units) ∧
    (addAttributes I c [("units", v)]).attributes = c.attributes ∧
    (addAttributes I c [("standard_name", v)]).std = (if I.std v then some v else c.std) ∧
    (addAttributes I c [("standard_name", v)]).attributes = c.attributes ∧
    (addAttributes I c [("long_name", v)]).long = some v ∧
    (addAttributes I c [("long_name", v)]).attributes = c.attributes := by
  refine ⟨?_, ?_, ?_, ?_, ?_, ?_⟩
  · show (addOne I c ("units", v)).units = _
    simp only [addOne, I.units_reserved, if_true, setProp, String.reduceEq, if_false]
    split_ifs <;> rfl
  · show (addOne I c ("units", v)).attributes = _
    simp only [addOne, I.units_reserved, if_true]
    exact (setProp_attributes _ _ _ _).1
  · show (addOne I c ("standard_name", v)).std = _
    simp only [addOne, I.std_reserved, if_true, setProp]
    split_ifs <;> rfl
  · show (addOne I c ("standard_name", v)).attributes = _
    simp only [addOne, I.std_reserved, if_true]
    exact (setProp_attributes _ _ _ _).1
  · show (addOne I c ("long_name", v)).long = _
    simp only [addOne, I.long_reserved, if_true, setProp, String.reduceEq, if_false]
  · show (addOne I c ("long_name", v)).attributes = _
    simp only [addOne, I.long_reserved, if_true]
    exact (setProp_attributes _ _ _ _).1

/-- Where an attribute is written by Iris. -/
theorem irisSave_get (keys : List String) (conv : Val) (cubes : List Attrs) (k : String) (hk : conventions k = false) :
    get (irisSave keys conv cubes).global k = (if k ∉ keys ∧ common cubes k = true then get (cubes.headD []) k else none) ∧
    (irisSave keys conv cubes).vars.map (fun v => get v k) =
      cubes.map (fun c => if k ∈ keys ∨ common cubes k = false then get c k else none) := by
  constructor
  · have hne : ¬ "Conventions" = k := by
      rintro rfl
      have : conventions "Conventions" = true := by decide +kernel
      rw [this] at hk; cases hk
    show get (("Conventions", conv) :: ((cubes.headD []).filter (fun p => !conventions p.1 && decide (p.1 ∉ keys) && common cubes p.1))) k = _
    rw [get_cons, if_neg hne, get_filter _ (fun s => !conventions s && decide (s ∉ keys) && common cubes s)]
    by_cases h1 : k ∈ keys <;> cases h2 : common cubes k <;> simp [hk, h1, h2]
  · unfold irisSave
    simp only
    rw [List.map_map]
    apply List.map_congr_left
    intro c _
    show get (c.filter (fun p => !conventions p.1 && (decide (p.1 ∈ keys) || !common cubes p.1))) k = _
    rw [get_filter _ (fun s => !conventions s && (decide (s ∈ keys) || !common cubes s))]
    by_cases h1 : k ∈ keys <;> cases h2 : common cubes k <;> simp [hk, h1, h2]

theorem common_head {cubes : List Attrs} {k : String} (h : common cubes k = true) {c : Attrs} (hc : c ∈ cubes) :
    get (cubes.headD []) k = get c k := by
  cases cubes with
  | nil => cases hc
  | cons d t =>
    simp only [common, List.all_eq_true, beq_iff_eq] at h
    rcases List.mem_cons.mp hc with rfl | hc
    · rfl
    · exact (h c hc).symm

/-- Saving and loading any list of cubes gives each its attributes back. -/
theorem irisSave_load (keys : List String) (conv : Val) (cubes : List Attrs) (hd : ∀ c ∈ cubes, Dict c) (i : Nat) (c : Attrs)
    (hi : cubes[i]? = some c) (k : String) (hk : conventions k = false) :
    ∃ a, load (irisSave keys conv cubes) i = some a ∧ get a k = get c k := by
  have hc : c ∈ cubes := List.mem_of_getElem? hi
  have hv : (irisSave keys conv cubes).vars[i]? =
      some (c.filter (fun p => !conventions p.1 && (decide (p.1 ∈ keys) || !common cubes p.1))) := by
    show (cubes.map _)[i]? = _
    rw [List.getElem?_map, hi]; rfl
  refine ⟨_, by unfold load; rw [hv]; rfl, ?_⟩
  have hdv : Dict (c.filter (fun p => !conventions p.1 && (decide (p.1 ∈ keys) || !common cubes p.1))) :=
    (List.Sublist.map _ List.filter_sublist).nodup (hd c hc)
  rw [Cis.Attrs.get_putAll _ _ hdv, (irisSave_get keys conv cubes k hk).1,
    get_filter _ (fun s => !conventions s && (decide (s ∈ keys) || !common cubes s))]
  by_cases h1 : k ∈ keys
  · simp [hk, h1]
  · cases h2 : common cubes k with
    | true => rw [common_head h2 hc]; simp [hk, h1, h2]
    | false => simp [hk, h1, h2]

/-- **C128**: a cube that is saved and loaded has all its attributes with their values; `Conventions` is set by Iris. -/
theorem c128_round_trip (conv : Val) (c : Cube) (hd : Dict c.attributes) (k : String) (hk : conventions k = false) :
    ∃ a, load (save conv c) 0 = some a ∧ get a k = get c.attributes k :=
  irisSave_load _ conv _ (by simpa using hd) 0 _ rfl k hk

/-- **C128** for a list of any length: each cube has its own attributes back, also where the values of the cubes differ or only some of them have
the attribute. -/
theorem c128_list_round_trip (conv : Val) (l : List Cube) (hd : ∀ c ∈ l, Dict c.attributes) (i : Nat) (c : Cube) (hi : l[i]? = some c)
    (k : String) (hk : conventions k = false) :
    ∃ a, load (saveList conv l) i = some a ∧ get a k = get c.attributes k := by
  refine irisSave_load [] conv _ ?_ i c.attributes ?_ k hk
  · intro a ha
    obtain ⟨d, hd', rfl⟩ := List.mem_map.mp ha
    exact hd d hd'
  · rw [List.getElem?_map, hi]; rfl

/-- **C128**: of a single cube, the attributes the user added are on the variable and not on the file. -/
theorem c128_local (I : Iris) (conv : Val) (c : Cube) (l : Attrs) (hl : Dict l) (k : String) (v : Val) (hk : I.reserved k = false)
    (hv : get l k = some v) (hc : conventions k = false) :
    get (save conv (addAttributes I c l)).global k = none ∧
    (save conv (addAttributes I c l)).vars.map (fun a => get a k) = [some v] := by
  have hmem : k ∈ (addAttributes I c l).localKeys :=
    ((c128_add I c l hl k hk).2 k).mpr (.inr ((has_iff l k).mpr (by simp [hv])))
  have hget : get (addAttributes I c l).attributes k = some v := by rw [(c128_add I c l hl k hk).1, hv]; rfl
  have := irisSave_get (addAttributes I c l).localKeys conv [(addAttributes I c l).attributes] k hc
  refine ⟨?_, ?_⟩
  · show get (irisSave _ _ _).global k = none
    rw [this.1, if_neg (by simp [hmem])]
  · show (irisSave _ _ _).vars.map _ = _
    rw [this.2]; simp [hmem, hget]

/-! ### What does not hold -/

/-- C128 is violated for reserved names with no meaning for a cube (`calendar`, `_FillValue`, `axis`, ...): what the user gave is dropped, without
an error or a warning. -/
theorem c128_reserved_violated (I : Iris) (c : Cube) (k : String) (v : Val) (hr : I.reserved k = true) (h1 : k ≠ "standard_name")
    (h2 : k ≠ "long_name") (h3 : k ≠ "units") :
    addAttributes I c [(k, v)] = { c with localKeys := c.localKeys ++ [k] } := by
  simp [addAttributes, addOne, hr, setProp, h1, h2, h3]

/-- C128 is violated for removal: units or names that were added are not taken back. -/
theorem c128_remove_violated (I : Iris) (c : Cube) (v : Val) (hv : I.unit v = true) :
    (removeAttribute (addAttributes I c [("units", v)]) "units").units = v := by
  have := (c128_names I c v).1
  rw [hv] at this
  exact this

/-- C128 is violated for lists: an attribute added to every variable of a list with the same value is written on the file, not on the
variables. -/
theorem c128_list_local_violated (I : Iris) (conv : Val) (l : List Cube) (hne : l ≠ []) (k : String) (v : Val) (hk : I.reserved k = false)
    (hc : conventions k = false) :
    get (saveList conv (l.map (fun c => addAttributes I c [(k, v)]))).global k = some v ∧
    (saveList conv (l.map (fun c => addAttributes I c [(k, v)]))).vars.map (fun a => get a k) = l.map (fun _ => none) := by
  have hg : ∀ c, get (addAttributes I c [(k, v)]).attributes k = some v := by
    intro c
    rw [(c128_add I c [(k, v)] (by simp [Dict]) k hk).1]
    simp [Cis.Attrs.get]
  have hcom : common ((l.map (fun c => addAttributes I c [(k, v)])).map Cube.attributes) k = true := by
    cases l with
    | nil => exact absurd rfl hne
    | cons a t =>
      simp only [List.map_cons, common, List.all_eq_true, beq_iff_eq]
      intro d hd
      simp only [List.mem_map] at hd
      obtain ⟨e, ⟨f, _, rfl⟩, rfl⟩ := hd
      rw [hg, hg]
  have := irisSave_get [] conv ((l.map (fun c => addAttributes I c [(k, v)])).map Cube.attributes) k hc
  refine ⟨?_, ?_⟩
  · show get (irisSave _ _ _).global k = _
    rw [this.1, if_pos ⟨by simp, hcom⟩]
    cases l with
    | nil => exact absurd rfl hne
    | cons a t => exact hg a
  · show (irisSave _ _ _).vars.map _ = _
    rw [this.2, hcom]
    simp only [List.map_map, List.not_mem_nil, false_or, Bool.true_eq_false, if_false]
    rfl

/-- **C128**: removing an attribute leaves all others, where they are kept, and the names and units as they are. -/
theorem c128_remove_others (c : Cube) (k j : String) (h : j ≠ k) :
    get (removeAttribute c k).attributes j = get c.attributes j ∧
    (j ∈ (removeAttribute c k).localKeys ↔ j ∈ c.localKeys) ∧
    (removeAttribute c k).std = c.std ∧ (removeAttribute c k).long = c.long ∧ (removeAttribute c k).units = c.units := by
  refine ⟨?_, ?_, rfl, rfl, rfl⟩
  · show get (c.attributes.filter (fun p => decide (p.1 ≠ k))) j = _
    rw [get_filter _ (fun s => decide (s ≠ k))]
    simp [h]
  · exact List.mem_erase_of_ne h

/-- C128 is violated after adding twice and removing: the name is still kept for the variable, so what is set under it later (such as the
history) is not written on the file. -/
theorem c128_twice_violated (I : Iris) (conv : Val) (c : Cube) (k : String) (v w x : Val) (hc : conventions k = false) :
    get (save conv (setDirect (removeAttribute (addAttributes I (addAttributes I c [(k, v)]) [(k, w)]) k) k x)).global k = none := by
  have hmem : k ∈ (setDirect (removeAttribute (addAttributes I (addAttributes I c [(k, v)]) [(k, w)]) k) k x).localKeys := by
    have hkeys : ∀ (c : Cube) (u : Val), (addAttributes I c [(k, u)]).localKeys = c.localKeys ++ [k] := by
      intro c u
      show (addOne I c (k, u)).localKeys ++ [k] = _
      unfold addOne
      split_ifs
      · rw [(setProp_attributes _ _ _ _).2]
      · rfl
    show k ∈ (addAttributes I (addAttributes I c [(k, v)]) [(k, w)]).localKeys.erase k
    rw [hkeys, hkeys, List.erase_append_left _ (by simp)]
    simp
  show get (irisSave _ _ _).global k = none
  rw [(irisSave_get _ conv _ k hc).1, if_neg (by simp [hmem])]

/-! ### Examples -/

def exIris : Iris where
  reserved k := k ∈ ["standard_name", "long_name", "units", "calendar", "_FillValue"]
  std v := v = .text "air_temperature".toList
  unit v := v = .text "K".toList
  std_reserved := by decide
  long_reserved := by decide
  units_reserved := by decide

/-- Non-vacuity: a cube with an attribute of its own, one added and a reserved one. -/
example :
    let c : Cube := ⟨none, none, .text "1".toList, [("source", .text "model".toList)], []⟩
    let d := addAttributes exIris c [("comment", .num 1), ("units", .text "K".toList), ("calendar", .num 2)]
    d.units = .text "K".toList ∧ d.attributes = [("source", .text "model".toList), ("comment", .num 1)] ∧
    d.localKeys = ["comment", "units", "calendar"] ∧
    (save (.num 0) d).global = [("Conventions", .num 0), ("source", .text "model".toList)] ∧ (save (.num 0) d).vars = [[("comment", .num 1)]] := by
  refine ⟨by decide +kernel, by decide +kernel, by decide +kernel, by decide +kernel, by decide +kernel⟩

/-- Non-vacuity: two cubes with an attribute in common and one that differs. -/
example :
    let c : Cube := ⟨none, none, .num 0, [("source", .num 5), ("a", .num 1)], ["a"]⟩
    let d : Cube := ⟨none, none, .num 0, [("source", .num 5), ("a", .num 2)], []⟩
    (saveList (.num 0) [c, d]).global = [("Conventions", .num 0), ("source", .num 5)] ∧
    (saveList (.num 0) [c, d]).vars = [[("a", .num 1)], [("a", .num 2)]] := by
  refine ⟨by decide +kernel, by decide +kernel⟩

end Cis.GAttrs
