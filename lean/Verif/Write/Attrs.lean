import Verif.Meta.Metadata
set_option linter.unusedSectionVars false
set_option linter.unusedSimpArgs false
/-!
Model of the attributes of a variable when it is saved (`__add_metadata`, cis/data_io/write_netcdf.py:22-43, `__get_missing_value` 46-50) and
read (`get_metadata` and `find_missing_value`, cis/data_io/netcdf.py:196-250), and of `add_attributes` and `remove_attribute`
(cis/data_io/ungridded_data.py:356-373). Property C127.

Contracts of the libraries are the fields of `Lib`. Simplifications: `standard_name` and `units` of a file are texts (other values count as
absent); attributes of a file whose name is that of a property of the Python object of the variable (`shape`, `dtype`, ...) are not
treated apart when reading.
-/
namespace Cis.Attrs

open Cis.Meta (Text tidy setUnits)

/-- A value of an attribute: a text, a number, or something else (an array, an object). -/
inductive Val
  | text (t : Text)
  | num (q : ℚ)
  | other (n : Nat)
deriving DecidableEq

/-- Exceptions: ValueError, AttributeError, TypeError. -/
inductive Exc
  | value
  | attribute
  | type
deriving DecidableEq

abbrev Attrs := List (String × Val)

/-- The libraries: the exception `setattr(var, name, value)` raises, if any, that of `createVariable(..., fill_value=value)`, the parser of
units (the text and the calendar of the unit) and the set of standard names. -/
structure Lib where
  refuses : String → Val → Option Exc
  refusesFill : Val → Option Exc
  parse : Text → Option (Text × Option Text)
  std : Text → Bool
  fill : ∀ v, refuses "_FillValue" v = some .attribute
  stdNil : std [] = false

/-- Ungridded data or a coordinate: what `__add_metadata` looks at; empty texts stand for None too. The units are a unit, or a text that
could not be parsed. -/
structure Data where
  std : Text
  long : Val
  units : (Text × Option Text) ⊕ Text
  missing : Option Val
  history : Val
  attrs : Attrs
  misc : Attrs

/-- Truth of a value. -/
def truthy : Val → Bool
  | .text t => t ≠ []
  | .num q => q ≠ 0
  | .other _ => true

/-- `d.get(k)`. -/
def get (l : Attrs) (k : String) : Option Val := (l.find? (fun p => p.1 == k)).map Prod.snd

def has (l : Attrs) (k : String) : Bool := l.any (fun p => p.1 == k)

/-- `d[k] = v`. -/
def put (l : Attrs) (k : String) (v : Val) : Attrs :=
  if has l k then l.map (fun p => if p.1 == k then (k, v) else p) else l ++ [(k, v)]

/-! ### In memory -/

/-- `add_attributes` (ungridded_data.py:356-363). -/
def addAttributes (d : Data) (l : Attrs) : Data := { d with attrs := l.foldl (fun a p => put a p.1 p.2) d.attrs }

/-- `remove_attribute` (ungridded_data.py:365-373). -/
def removeAttribute (d : Data) (k : String) : Data := { d with attrs := d.attrs.filter (fun p => p.1 ≠ k) }

/-! ### Writing -/

/-- `setattr(var, name, value)`. -/
def setAttr (L : Lib) (l : Attrs) (p : String × Val) : Except Exc Attrs :=
  match L.refuses p.1 p.2 with
  | some e => .error e
  | none => .ok (put l p.1 p.2)

/-- One attribute of `misc` (write_netcdf.py:36-42). -/
def setMisc (L : Lib) (l : Attrs) (p : String × Val) : Except Exc Attrs :=
  if has l p.1 then .ok l
  else match setAttr L l p with
    | .error .value => .ok l
    | r => r

/-- `__get_missing_value` (write_netcdf.py:46-50). -/
def fillValue (d : Data) : Option Val :=
  match d.missing with
  | some (.text []) => none
  | m => m

/-- The attributes of the data themselves (write_netcdf.py:23-33), in order; a unit is always true. -/
def own (d : Data) : Attrs :=
  (if d.std ≠ [] then [("standard_name", .text d.std)] else []) ++
  (match d.units with
    | .inl u => [("units", .text u.1)]
    | .inr t => if t ≠ [] then [("units", .text t)] else []) ++
  (if truthy d.long then [("long_name", d.long)] else []) ++
  (match d.missing with | some m => if truthy m then [("missing_value", m)] else [] | none => []) ++
  (match d.units with
    | .inl (_, some c) => if c ≠ [] then [("calendar", .text c)] else []
    | _ => []) ++
  (if truthy d.history then [("history", d.history)] else [])

/-- The attributes of a new variable (write_netcdf.py:109-110). -/
def created (L : Lib) (d : Data) : Except Exc Attrs :=
  match fillValue d with
  | none => .ok []
  | some f => match L.refusesFill f with
    | some e => .error e
    | none => .ok [("_FillValue", f)]

/-- `__add_metadata` (write_netcdf.py:22-43) on a new variable: the attributes in the file. -/
def write (L : Lib) (d : Data) : Except Exc Attrs :=
  match created L d with
  | .error e => .error e
  | .ok l => match (own d ++ d.attrs).foldlM (setAttr L) l with
    | .error e => .error e
    | .ok l' => d.misc.foldlM (setMisc L) l'

/-! ### Reading -/

/-- `standard_attributes` (netcdf.py:208). -/
def standardAttributes : List String := ["standard_name", "long_name", "history", "units"]

/-- The text of an attribute, empty if there is none. -/
def textOf : Option Val → Text
  | some (.text t) => t
  | _ => []

/-- `find_missing_value` (netcdf.py:235-250). -/
def findMissing (f : Attrs) : Option Val :=
  match get f "missing_value" with
  | some v => some v
  | none => get f "_FillValue"

/-- `get_metadata` (netcdf.py:196-232), with the setter of units and `set_standard_name_if_valid` (utils.py:615-627). -/
def read (L : Lib) (f : Attrs) : Data :=
  { std := if L.std (textOf (get f "standard_name")) then textOf (get f "standard_name") else []
    long := (get f "long_name").getD (.text [])
    units := setUnits L.parse (textOf (get f "units"))
    missing := findMissing f
    history := (get f "history").getD (.text [])
    attrs := []
    misc := f.filter (fun p => p.1 ∉ standardAttributes) }

/-- Saving and reading again, `n` times: the attributes in the last file. -/
def cycles (L : Lib) (f : Attrs) : Nat → Except Exc Attrs
  | 0 => .ok f
  | n + 1 => match cycles L f n with
    | .error e => .error e
    | .ok g => write L (read L g)

/-! ### Specification -/

/-- What the data themselves say of an attribute. -/
def Spec.ownValue (d : Data) (k : String) : Option Val :=
  if k = "standard_name" then (if d.std = [] then none else some (.text d.std))
  else if k = "long_name" then (if truthy d.long then some d.long else none)
  else if k = "history" then (if truthy d.history then some d.history else none)
  else if k = "missing_value" then d.missing.filter truthy
  else if k = "units" then
    (match d.units with | .inl u => some (.text u.1) | .inr [] => none | .inr t => some (.text t))
  else if k = "calendar" then
    (match d.units with | .inl (_, some (c :: t)) => some (.text (c :: t)) | _ => none)
  else none

/-- The value an attribute must have in the file: what the user gave, else what the data themselves say, else what came from the
file that was read, if it can be written. -/
def Spec.saved (L : Lib) (d : Data) (k : String) : Option Val :=
  if k = "_FillValue" then fillValue d
  else match get d.attrs k with
    | some v => some v
    | none => match Spec.ownValue d k with
      | some v => some v
      | none => (get d.misc k).filter (fun v => L.refuses k v = none)

/-- A Python dictionary. -/
def Spec.Dict (l : Attrs) : Prop := (l.map Prod.fst).Nodup

/-- The last of a sequence of operations of the user on an attribute. -/
inductive Spec.Op
  | add (k : String) (v : Val)
  | remove (k : String)

def Spec.apply (d : Data) : Spec.Op → Data
  | .add k v => addAttributes d [(k, v)]
  | .remove k => removeAttribute d k

def Spec.key : Spec.Op → String
  | .add k _ => k
  | .remove k => k

/-- The names the program gives a meaning to. -/
def Spec.meaningful : List String := ["standard_name", "units", "long_name", "history", "missing_value", "_FillValue", "calendar"]

/-- The units attribute that is written for units read from a file. -/
def Spec.unitsAgain (L : Lib) (t : Text) : Option Val :=
  match L.parse (tidy t) with
  | some (u, _) => some (.text u)
  | none => if tidy t = [] then none else some (.text (tidy t))

/-- The calendar of units read from a file. -/
def Spec.calendarOf (L : Lib) (t : Text) : Option Text :=
  match L.parse (tidy t) with
  | some (_, some (c :: r)) => some (c :: r)
  | _ => none

/-- A file on which saving and reading has nothing to do: its standard name is valid, its units are spelt as the library does, its calendar is
that of its units, its names are not empty, and its fill value is its missing value. -/
structure Spec.Steady (L : Lib) (F : Attrs) : Prop where
  std : ∀ v, get F "standard_name" = some v → ∃ t, v = .text t ∧ L.std t = true
  units : get F "units" = Spec.unitsAgain L (textOf (get F "units"))
  calendar : ∀ c, Spec.calendarOf L (textOf (get F "units")) = some c → get F "calendar" = some (.text c)
  long : ∀ v, get F "long_name" = some v → truthy v = true
  history : ∀ v, get F "history" = some v → truthy v = true
  missing : ∀ v, get F "missing_value" = some v → get F "_FillValue" = some v
  fillOnly : ∀ v, get F "_FillValue" = some v → get F "missing_value" = none → truthy v = false
  fillText : get F "_FillValue" ≠ some (.text [])
  accepted : ∀ k v, get F k = some v → k ≠ "_FillValue" → L.refuses k v = none
  fillAccepted : ∀ v, get F "_FillValue" = some v → L.refusesFill v = none

/-! ### Proofs -/

theorem has_iff (l : Attrs) (k : String) : has l k = true ↔ (get l k).isSome = true := by
  induction l with
  | nil => simp [has, get]
  | cons a t ih =>
    by_cases h : a.1 = k
    · simp [has, get, h]
    · have hb : (a.1 == k) = false := by simpa using h
      have : (has (a :: t) k) = has t k := by simp [has, hb]
      rw [this, ih]; simp [get, List.find?_cons, hb]

theorem get_append (l r : Attrs) (k : String) : get (l ++ r) k = (get l k).or (get r k) := by
  simp only [get, List.find?_append]
  cases l.find? (fun p => p.1 == k) <;> simp

theorem get_cons (a : String × Val) (t : Attrs) (k : String) : get (a :: t) k = if a.1 = k then some a.2 else get t k := by
  by_cases h : a.1 = k
  · simp [get, h]
  · simp [get, h]

theorem get_put (l : Attrs) (k j : String) (v : Val) : get (put l k v) j = if j = k then some v else get l j := by
  unfold put
  by_cases hh : has l k = true
  · rw [if_pos hh]
    induction l with
    | nil => simp [has] at hh
    | cons a t ih =>
      by_cases ha : a.1 = k
      · have hmap : ∀ (s : Attrs), get (s.map (fun p => if p.1 == k then (k, v) else p)) j =
            if j = k then (get s j).map (fun _ => v) else get s j := by
          intro s
          induction s with
          | nil => simp [get]
          | cons b u ihu =>
            rw [List.map_cons, get_cons, get_cons, ihu]
            by_cases hb : b.1 = k
            · by_cases hj : j = k
              · subst hj; simp [hb]
              · have : ¬ k = j := fun e => hj e.symm
                have h2 : ¬ b.1 = j := fun e => hj (e.symm.trans hb)
                simp [hb, hj, this]
            · by_cases hj : j = k
              · subst hj; simp [hb]
              · simp [hb, hj]
        rw [hmap, get_cons]
        by_cases hj : j = k
        · subst hj; simp [ha]
        · simp [hj]
      · have hb : (a.1 == k) = false := by simpa using ha
        have ht : has t k = true := by simpa [has, hb] using hh
        rw [List.map_cons, get_cons, get_cons, ih ht]
        by_cases hj : j = k
        · subst hj; simp [ha]
        · simp [hb, hj]
  · rw [if_neg hh, get_append, get_cons]
    have hn : get l k = none := by
      cases hg : get l k with
      | none => rfl
      | some x => exact absurd ((has_iff l k).mpr (by simp [hg])) hh
    by_cases hj : j = k
    · subst hj; simp [hn]
    · have : ¬ k = j := fun e => hj e.symm
      simp [hj, this, get]

theorem setAll (L : Lib) : ∀ (ps l l' : Attrs), ps.foldlM (setAttr L) l = .ok l' →
    (∀ p ∈ ps, L.refuses p.1 p.2 = none) ∧ l' = ps.foldl (fun a p => put a p.1 p.2) l := by
  intro ps
  induction ps with
  | nil => intro l l' h; simp [pure, Except.pure] at h; simp [h]
  | cons a t ih =>
    intro l l' h
    rw [List.foldlM_cons] at h
    unfold setAttr at h
    cases hr : L.refuses a.1 a.2 with
    | some e => rw [hr] at h; simp [bind, Except.bind] at h
    | none =>
      rw [hr] at h
      obtain ⟨h1, h2⟩ := ih _ _ h
      refine ⟨?_, ?_⟩
      · intro p hp
        rcases List.mem_cons.mp hp with rfl | hp
        · exact hr
        · exact h1 p hp
      · exact h2

theorem setAll_ok (L : Lib) (ps l : Attrs) (h : ∀ p ∈ ps, L.refuses p.1 p.2 = none) :
    ps.foldlM (setAttr L) l = .ok (ps.foldl (fun a p => put a p.1 p.2) l) := by
  induction ps generalizing l with
  | nil => rfl
  | cons a t ih =>
    rw [List.foldlM_cons]
    have : setAttr L l a = .ok (put l a.1 a.2) := by simp [setAttr, h a (by simp)]
    rw [this]
    exact ih _ (fun p hp => h p (by simp [hp]))

theorem get_putAll (ps l : Attrs) (hd : Spec.Dict ps) (k : String) :
    get (ps.foldl (fun a p => put a p.1 p.2) l) k = (get ps k).or (get l k) := by
  induction ps generalizing l with
  | nil => simp [get]
  | cons a t ih =>
    have hd' : Spec.Dict t := by unfold Spec.Dict at hd ⊢; exact (List.nodup_cons.mp (by simpa using hd)).2
    have hna : a.1 ∉ t.map Prod.fst := by
      unfold Spec.Dict at hd; exact (List.nodup_cons.mp (by simpa using hd)).1
    rw [List.foldl_cons, ih _ hd', get_put, get_cons]
    by_cases hk : a.1 = k
    · subst hk
      have : get t a.1 = none := by
        simp only [get, Option.map_eq_none_iff, List.find?_eq_none]
        intro p hp
        simp only [beq_iff_eq]
        intro e
        exact hna (List.mem_map.mpr ⟨p, hp, e⟩)
      simp [this]
    · have : ¬ k = a.1 := fun e => hk e.symm
      simp [hk, this]

theorem own_get (d : Data) (k : String) : get (own d) k = Spec.ownValue d k := by
  obtain ⟨std, long, units, missing, history, attrs, misc⟩ := d
  by_cases h1 : k = "standard_name"
  · subst h1
    by_cases e : std = []
    · rcases units with ⟨u, _ | c⟩ | t <;> rcases missing with _ | m <;>
        simp [own, Spec.ownValue, get_append, get_cons, get, e] <;> (try split_ifs) <;> simp
    · simp [own, Spec.ownValue, get_append, get_cons, get, e]
  by_cases h2 : k = "units"
  · subst h2
    rcases units with ⟨u, c⟩ | t
    · by_cases e : std = [] <;> simp [own, Spec.ownValue, get_append, get_cons, get, e]
    · cases t <;> by_cases e : std = [] <;> rcases missing with _ | m <;>
        simp [own, Spec.ownValue, get_append, get_cons, get, e] <;> (try split_ifs) <;> simp
  by_cases h3 : k = "long_name"
  · subst h3
    by_cases e : std = [] <;> by_cases e2 : truthy long = true <;> rcases units with ⟨u, _ | c⟩ | t <;> rcases missing with _ | m <;>
        simp [own, Spec.ownValue, get_append, get_cons, get, e, e2] <;> (try split_ifs) <;> simp
  by_cases h4 : k = "missing_value"
  · subst h4
    by_cases e : std = [] <;> by_cases e2 : truthy long = true <;> rcases units with ⟨u, _ | c⟩ | t <;> rcases missing with _ | m <;>
        simp [own, Spec.ownValue, get_append, get_cons, get, e, e2, Option.filter] <;> (try split_ifs) <;> simp_all
  by_cases h5 : k = "calendar"
  · subst h5
    by_cases e : std = [] <;> by_cases e2 : truthy long = true <;> rcases units with ⟨u, _ | _ | c⟩ | t <;> rcases missing with _ | m <;>
        simp [own, Spec.ownValue, get_append, get_cons, get, e, e2] <;> (try split_ifs) <;> simp_all
  by_cases h6 : k = "history"
  · subst h6
    by_cases e : std = [] <;> by_cases e2 : truthy long = true <;> rcases units with ⟨u, _ | c⟩ | t <;> rcases missing with _ | m <;>
        simp [own, Spec.ownValue, get_append, get_cons, get, e, e2] <;> (try split_ifs) <;> simp_all
  have g : ∀ p ∈ own (⟨std, long, units, missing, history, attrs, misc⟩ : Data), p.1 ≠ k := by
    intro p hp
    simp only [own, List.mem_append] at hp
    rcases hp with ((((hp | hp) | hp) | hp) | hp) | hp
    · split_ifs at hp <;> simp at hp; rw [hp]; exact fun e => h1 e.symm
    · rcases units with u | t
      · simp at hp; rw [hp]; exact fun e => h2 e.symm
      · simp only at hp; split_ifs at hp <;> simp at hp; rw [hp]; exact fun e => h2 e.symm
    · split_ifs at hp <;> simp at hp; rw [hp]; exact fun e => h3 e.symm
    · rcases missing with _ | m
      · simp at hp
      · simp only at hp; split_ifs at hp <;> simp at hp; rw [hp]; exact fun e => h4 e.symm
    · rcases units with ⟨u, _ | c⟩ | t
      · simp at hp
      · simp only at hp; split_ifs at hp <;> simp at hp; rw [hp]; exact fun e => h5 e.symm
      · simp at hp
    · split_ifs at hp <;> simp at hp; rw [hp]; exact fun e => h6 e.symm
  have : get (own (⟨std, long, units, missing, history, attrs, misc⟩ : Data)) k = none := by
    simp only [get, Option.map_eq_none_iff, List.find?_eq_none]
    intro p hp; simpa using g p hp
  rw [this]
  simp [Spec.ownValue, h1, h2, h3, h4, h5, h6]

theorem sub_if (c : Prop) [Decidable c] (k : String) (v : Val) :
    ((if c then [(k, v)] else [] : Attrs).map Prod.fst).Sublist [k] := by
  split_ifs <;> simp

theorem own_dict (d : Data) : Spec.Dict (own d) := by
  have hs : ((own d).map Prod.fst).Sublist
      (["standard_name"] ++ ["units"] ++ ["long_name"] ++ ["missing_value"] ++ ["calendar"] ++ ["history"]) := by
    unfold own
    simp only [List.map_append]
    refine List.Sublist.append (List.Sublist.append (List.Sublist.append (List.Sublist.append (List.Sublist.append ?_ ?_) ?_) ?_) ?_) ?_
    · exact sub_if _ _ _
    · rcases d.units with u | t
      · simp
      · exact sub_if _ _ _
    · exact sub_if _ _ _
    · rcases d.missing with _ | m
      · simp
      · exact sub_if _ _ _
    · rcases d.units with ⟨u, _ | c⟩ | t
      · simp
      · exact sub_if _ _ _
      · simp
    · exact sub_if _ _ _
  exact hs.nodup (by decide)

theorem has_put (l : Attrs) (k j : String) (v : Val) : has (put l k v) j = (decide (j = k) || has l j) := by
  rw [Bool.eq_iff_iff, has_iff, get_put, Bool.or_eq_true, decide_eq_true_iff, has_iff]
  by_cases h : j = k <;> simp [h]

theorem not_mem_get {ps : Attrs} {k : String} (h : k ∉ ps.map Prod.fst) : get ps k = none := by
  simp only [get, Option.map_eq_none_iff, List.find?_eq_none]
  intro p hp
  simp only [beq_iff_eq]
  exact fun e => h (List.mem_map.mpr ⟨p, hp, e⟩)

theorem mem_get {ps : Attrs} (hd : Spec.Dict ps) {p : String × Val} (hp : p ∈ ps) : get ps p.1 = some p.2 := by
  induction ps with
  | nil => cases hp
  | cons a t ih =>
    have h' : (a.1 :: t.map Prod.fst).Nodup := by simpa [Spec.Dict] using hd
    rw [get_cons]
    rcases List.mem_cons.mp hp with rfl | hp
    · simp
    · have : a.1 ≠ p.1 := fun e => (List.nodup_cons.mp h').1 (List.mem_map.mpr ⟨p, hp, e.symm⟩)
      rw [if_neg this]
      exact ih (List.nodup_cons.mp h').2 hp

theorem get_mem {ps : Attrs} {k : String} {v : Val} (h : get ps k = some v) : (k, v) ∈ ps := by
  simp only [get, Option.map_eq_some_iff] at h
  obtain ⟨p, hp, rfl⟩ := h
  have h1 := List.mem_of_find?_eq_some hp
  have h2 := List.find?_some hp
  simp only [beq_iff_eq] at h2
  subst h2; exact h1

theorem setMisc_step (L : Lib) (l l' : Attrs) (p : String × Val) (h : setMisc L l p = .ok l') :
    (has l p.1 = true ∧ l' = l) ∨ (has l p.1 = false ∧ L.refuses p.1 p.2 = some .value ∧ l' = l) ∨
    (has l p.1 = false ∧ L.refuses p.1 p.2 = none ∧ l' = put l p.1 p.2) := by
  unfold setMisc setAttr at h
  cases hh : has l p.1 with
  | true => rw [hh] at h; simp at h; exact .inl ⟨rfl, h.symm⟩
  | false =>
    rw [hh] at h
    cases hr : L.refuses p.1 p.2 with
    | none => rw [hr] at h; simp at h; exact .inr (.inr ⟨rfl, rfl, h.symm⟩)
    | some e =>
      rw [hr] at h
      cases e <;> simp at h
      exact .inr (.inl ⟨rfl, rfl, h.symm⟩)

theorem miscAll (L : Lib) : ∀ (ps l l' : Attrs), Spec.Dict ps → ps.foldlM (setMisc L) l = .ok l' →
    ∀ k, get l' k = (get l k).or ((get ps k).filter (fun v => L.refuses k v = none)) := by
  intro ps
  induction ps with
  | nil =>
    intro l l' _ h k
    simp [pure, Except.pure] at h
    simp [h, get]
  | cons a t ih =>
    intro l l' hd h k
    have h' : (a.1 :: t.map Prod.fst).Nodup := by simpa [Spec.Dict] using hd
    have hd' : Spec.Dict t := (List.nodup_cons.mp h').2
    have hna := (List.nodup_cons.mp h').1
    rw [List.foldlM_cons] at h
    cases hs : setMisc L l a with
    | error e => rw [hs] at h; simp [bind, Except.bind] at h
    | ok m =>
      rw [hs] at h
      have hi := ih m l' hd' h k
      rw [hi, get_cons]
      rcases setMisc_step L l m a hs with ⟨hh, rfl⟩ | ⟨hh, hr, rfl⟩ | ⟨hh, hr, rfl⟩
      · by_cases hk : a.1 = k
        · subst hk
          obtain ⟨x, hx⟩ := Option.isSome_iff_exists.mp ((has_iff _ _).mp hh)
          simp [hx]
        · simp [hk]
      · by_cases hk : a.1 = k
        · subst hk
          have hn : get m a.1 = none := by
            cases hg : get m a.1 with
            | none => rfl
            | some x => rw [(has_iff m a.1).mpr (by simp [hg])] at hh; cases hh
          rw [not_mem_get hna]
          simp [hn, hr, Option.filter]
        · simp [hk]
      · rw [get_put]
        by_cases hk : a.1 = k
        · subst hk
          have hn : get l a.1 = none := by
            cases hg : get l a.1 with
            | none => rfl
            | some x => rw [(has_iff l a.1).mpr (by simp [hg])] at hh; cases hh
          simp [hn, hr, Option.filter]
        · have : ¬ k = a.1 := fun e => hk e.symm
          simp [hk, this]

theorem write_unfold (L : Lib) (d : Data) (F : Attrs) (h : write L d = .ok F) :
    (∀ f, fillValue d = some f → L.refusesFill f = none) ∧
    (∀ p ∈ own d ++ d.attrs, L.refuses p.1 p.2 = none) ∧
    d.misc.foldlM (setMisc L) (d.attrs.foldl (fun a p => put a p.1 p.2) ((own d).foldl (fun a p => put a p.1 p.2)
      (match fillValue d with | none => [] | some f => [("_FillValue", f)]))) = .ok F := by
  unfold write created at h
  cases hf : fillValue d with
  | none =>
    rw [hf] at h
    simp only at h
    cases ho : (own d ++ d.attrs).foldlM (setAttr L) [] with
    | error e => rw [ho] at h; simp at h
    | ok l =>
      rw [ho] at h
      obtain ⟨h1, h2⟩ := setAll L _ _ _ ho
      rw [List.foldl_append] at h2
      subst h2
      exact ⟨by simp, h1, h⟩
  | some f =>
    rw [hf] at h
    simp only at h
    cases hr : L.refusesFill f with
    | some e => rw [hr] at h; simp at h
    | none =>
      rw [hr] at h
      simp only at h
      cases ho : (own d ++ d.attrs).foldlM (setAttr L) [("_FillValue", f)] with
      | error e => rw [ho] at h; simp at h
      | ok l =>
        rw [ho] at h
        obtain ⟨h1, h2⟩ := setAll L _ _ _ ho
        rw [List.foldl_append] at h2
        subst h2
        exact ⟨by intro g hg; cases hg; exact hr, h1, h⟩

/-- **C127**: every attribute in the file, and its value: what the user gave, else what the data say themselves, else what came from the file
read; nothing else is in the file. -/
theorem c127_written (L : Lib) (d : Data) (F : Attrs) (ha : Spec.Dict d.attrs) (hm : Spec.Dict d.misc) (h : write L d = .ok F) (k : String) :
    get F k = Spec.saved L d k := by
  obtain ⟨hfill, hset, hmisc⟩ := write_unfold L d F h
  rw [miscAll L _ _ _ hm hmisc k, get_putAll _ _ ha, get_putAll _ _ (own_dict d), own_get]
  unfold Spec.saved
  by_cases hk : k = "_FillValue"
  · subst hk
    have h1 : get d.attrs "_FillValue" = none := by
      cases hg : get d.attrs "_FillValue" with
      | none => rfl
      | some v =>
        have := hset _ (List.mem_append_right _ (get_mem hg))
        rw [L.fill] at this; cases this
    rw [h1, if_pos rfl]
    have h2 : Spec.ownValue d "_FillValue" = none := by simp [Spec.ownValue]
    rw [h2]
    cases fillValue d with
    | none =>
      cases hg : get d.misc "_FillValue" with
      | none => simp [get]
      | some v => simp [get, Option.filter, L.fill]
    | some f => simp [get]
  · rw [if_neg hk]
    have h3 : get (match fillValue d with | none => ([] : Attrs) | some f => [("_FillValue", f)]) k = none := by
      cases fillValue d with
      | none => simp [get]
      | some f => rw [get_cons, if_neg (fun e => hk e.symm)]; simp [get]
    rw [h3]
    cases get d.attrs k <;> cases Spec.ownValue d k <;> simp

/-- **C127**: saving succeeds exactly if the library accepts the missing value, the attributes of the data themselves and all that the user
gave, and refuses none of those that came from a file other than with ValueError, unless they are replaced. -/
theorem c127_succeeds (L : Lib) (d : Data) (hm : Spec.Dict d.misc) :
    (∃ F, write L d = .ok F) ↔
    ((∀ f, fillValue d = some f → L.refusesFill f = none) ∧
     (∀ p ∈ own d ++ d.attrs, L.refuses p.1 p.2 = none) ∧
     (∀ p ∈ d.misc, (p.1 = "_FillValue" ∧ (fillValue d).isSome = true) ∨ (Spec.ownValue d p.1).isSome = true ∨
        (get d.attrs p.1).isSome = true ∨ L.refuses p.1 p.2 = none ∨ L.refuses p.1 p.2 = some .value)) := by
  have hstart : ∀ k, has (d.attrs.foldl (fun a p => put a p.1 p.2) ((own d).foldl (fun a p => put a p.1 p.2)
      (match fillValue d with | none => [] | some f => [("_FillValue", f)]))) k = true ↔
      ((k = "_FillValue" ∧ (fillValue d).isSome = true) ∨ (Spec.ownValue d k).isSome = true ∨ (get d.attrs k).isSome = true) := by
    intro k
    have hp : ∀ (ps l : Attrs), has (ps.foldl (fun a p => put a p.1 p.2) l) k = true ↔ (has l k = true ∨ has ps k = true) := by
      intro ps
      induction ps with
      | nil => intro l; simp [has]
      | cons a t ih =>
        intro l
        rw [List.foldl_cons, ih, has_put]
        simp only [has, List.any_cons, Bool.or_eq_true, decide_eq_true_iff, beq_iff_eq]
        constructor
        · rintro ((h | h) | h)
          · exact .inr (.inl h.symm)
          · exact .inl h
          · exact .inr (.inr h)
        · rintro (h | h | h)
          · exact .inl (.inr h)
          · exact .inl (.inl h.symm)
          · exact .inr h
    rw [hp, hp, has_iff (own d), own_get, has_iff d.attrs]
    have : has (match fillValue d with | none => ([] : Attrs) | some f => [("_FillValue", f)]) k = true ↔
        (k = "_FillValue" ∧ (fillValue d).isSome = true) := by
      cases fillValue d with
      | none => simp [has]
      | some f => simp only [has, List.any_cons, List.any_nil, Bool.or_false, beq_iff_eq, Option.isSome_some, and_true]; exact eq_comm
    rw [this, or_assoc]
  have hgo : ∀ (ps l : Attrs), Spec.Dict ps → ((∃ F, ps.foldlM (setMisc L) l = .ok F) ↔
      ∀ p ∈ ps, has l p.1 = true ∨ L.refuses p.1 p.2 = none ∨ L.refuses p.1 p.2 = some .value) := by
    intro ps
    induction ps with
    | nil => intro l _; simp [pure, Except.pure]
    | cons a t ih =>
      intro l hd
      have h' : (a.1 :: t.map Prod.fst).Nodup := by simpa [Spec.Dict] using hd
      have hd' : Spec.Dict t := (List.nodup_cons.mp h').2
      have hna := (List.nodup_cons.mp h').1
      rw [List.foldlM_cons]
      cases hs : setMisc L l a with
      | error e =>
        simp only [bind, Except.bind]
        constructor
        · rintro ⟨F, hF⟩; cases hF
        · intro hall
          exfalso
          have := hall a (by simp)
          unfold setMisc setAttr at hs
          rcases this with h | h | h
          · rw [h] at hs; simp at hs
          · rw [h] at hs; cases hh : has l a.1 <;> simp [hh] at hs
          · rw [h] at hs; cases hh : has l a.1 <;> simp [hh] at hs
      | ok m =>
        show (∃ F, t.foldlM (setMisc L) m = .ok F) ↔ _
        rw [ih m hd']
        have hsame : ∀ p ∈ t, (has m p.1 = true ↔ has l p.1 = true) := by
          intro p hp
          rcases setMisc_step L l m a hs with ⟨_, rfl⟩ | ⟨_, _, rfl⟩ | ⟨_, _, rfl⟩
          · exact Iff.rfl
          · exact Iff.rfl
          · rw [has_put]
            have : p.1 ≠ a.1 := fun e => hna (List.mem_map.mpr ⟨p, hp, e⟩)
            simp [this]
        constructor
        · intro hall p hp
          rcases List.mem_cons.mp hp with rfl | hp
          · rcases setMisc_step L l m p hs with ⟨h, _⟩ | ⟨_, h, _⟩ | ⟨_, h, _⟩
            · exact .inl h
            · exact .inr (.inr h)
            · exact .inr (.inl h)
          · rcases hall p hp with h | h
            · exact .inl ((hsame p hp).mp h)
            · exact .inr h
        · intro hall p hp
          rcases hall p (by simp [hp]) with h | h
          · exact .inl ((hsame p hp).mpr h)
          · exact .inr h
  constructor
  · rintro ⟨F, h⟩
    obtain ⟨h1, h2, h3⟩ := write_unfold L d F h
    refine ⟨h1, h2, ?_⟩
    intro p hp
    rcases (hgo _ _ hm).mp ⟨F, h3⟩ p hp with h | h
    · rcases (hstart p.1).mp h with h | h | h
      · exact .inl h
      · exact .inr (.inl h)
      · exact .inr (.inr (.inl h))
    · exact .inr (.inr (.inr h))
  · rintro ⟨h1, h2, h3⟩
    have h4 : ∃ F, d.misc.foldlM (setMisc L) (d.attrs.foldl (fun a p => put a p.1 p.2) ((own d).foldl (fun a p => put a p.1 p.2)
        (match fillValue d with | none => [] | some f => [("_FillValue", f)]))) = .ok F := by
      refine (hgo _ _ hm).mpr (fun p hp => ?_)
      rcases h3 p hp with h | h | h | h
      · exact .inl ((hstart p.1).mpr (.inl h))
      · exact .inl ((hstart p.1).mpr (.inr (.inl h)))
      · exact .inl ((hstart p.1).mpr (.inr (.inr h)))
      · exact .inr h
    obtain ⟨F, hF⟩ := h4
    refine ⟨F, ?_⟩
    unfold write created
    cases hf : fillValue d with
    | none =>
      rw [hf] at hF
      simp only
      rw [setAll_ok L _ _ h2, List.foldl_append]
      exact hF
    | some f =>
      rw [hf] at hF
      simp only
      rw [h1 f hf]
      simp only
      rw [setAll_ok L _ _ h2, List.foldl_append]
      exact hF

theorem dict_put (l : Attrs) (k : String) (v : Val) (h : Spec.Dict l) : Spec.Dict (put l k v) := by
  unfold put Spec.Dict at *
  by_cases hh : has l k = true
  · rw [if_pos hh]
    have : (l.map (fun p => if p.1 == k then (k, v) else p)).map Prod.fst = l.map Prod.fst := by
      rw [List.map_map]
      apply List.map_congr_left
      intro p _
      by_cases hp : p.1 = k
      · simp [hp]
      · simp [hp]
    rw [this]; exact h
  · rw [if_neg hh, List.map_append]
    refine List.Nodup.append h (by simp) ?_
    intro a ha hb
    simp only [List.map_cons, List.map_nil, List.mem_singleton] at hb
    subst hb
    obtain ⟨p, hp, rfl⟩ := List.mem_map.mp ha
    exact hh (by simp only [has, List.any_eq_true, beq_iff_eq]; exact ⟨p, hp, rfl⟩)

theorem dict_putAll (ps l : Attrs) (h : Spec.Dict l) : Spec.Dict (ps.foldl (fun a p => put a p.1 p.2) l) := by
  induction ps generalizing l with
  | nil => exact h
  | cons a t ih => exact ih _ (dict_put _ _ _ h)

/-- The attributes of a file that was written have different names. -/
theorem write_dict (L : Lib) (d : Data) (F : Attrs) (h : write L d = .ok F) : Spec.Dict F := by
  obtain ⟨_, _, hm⟩ := write_unfold L d F h
  have h0 : Spec.Dict (match fillValue d with | none => ([] : Attrs) | some f => [("_FillValue", f)]) := by
    cases fillValue d <;> simp [Spec.Dict]
  have h1 := dict_putAll d.attrs _ (dict_putAll (own d) _ h0)
  have hgo : ∀ (ps l l' : Attrs), Spec.Dict l → ps.foldlM (setMisc L) l = .ok l' → Spec.Dict l' := by
    intro ps
    induction ps with
    | nil => intro l l' hd h; simp [pure, Except.pure] at h; rw [← h]; exact hd
    | cons a t ih =>
      intro l l' hd h
      rw [List.foldlM_cons] at h
      cases hs : setMisc L l a with
      | error e => rw [hs] at h; simp [bind, Except.bind] at h
      | ok m =>
        rw [hs] at h
        refine ih m l' ?_ h
        rcases setMisc_step L l m a hs with ⟨_, rfl⟩ | ⟨_, _, rfl⟩ | ⟨_, _, rfl⟩
        · exact hd
        · exact hd
        · exact dict_put _ _ _ hd
  exact hgo _ _ _ h1 hm

theorem get_filter (f : Attrs) (q : String → Bool) (k : String) :
    get (f.filter (fun p => q p.1)) k = if q k then get f k else none := by
  induction f with
  | nil => simp [get]
  | cons a t ih =>
    rw [List.filter_cons, get_cons]
    by_cases hq : q a.1 = true
    · rw [if_pos hq, get_cons, ih]
      by_cases hk : a.1 = k
      · subst hk; simp [hq]
      · simp [hk]
    · rw [if_neg hq, ih]
      by_cases hk : a.1 = k
      · subst hk; simp [hq]
      · simp [hk]

/-- **C127**: every attribute of the file other than the four with a place of their own is kept with its value, and nothing else is. -/
theorem c127_read (L : Lib) (F : Attrs) (k : String) :
    get (read L F).misc k = (if k ∈ ["standard_name", "long_name", "history", "units"] then none else get F k) ∧ (read L F).attrs = [] := by
  refine ⟨?_, rfl⟩
  have := get_filter F (fun j => decide (j ∉ standardAttributes)) k
  show get (F.filter (fun p => decide (p.1 ∉ standardAttributes))) k = _
  rw [this]
  by_cases h : k ∈ standardAttributes
  · have h' : k ∈ ["standard_name", "long_name", "history", "units"] := h
    rw [if_pos h', if_neg (by simpa using h)]
  · have h' : ¬ k ∈ ["standard_name", "long_name", "history", "units"] := h
    rw [if_neg h', if_pos (by simpa using h)]

theorem read_dict (L : Lib) (F : Attrs) (h : Spec.Dict F) : Spec.Dict (read L F).misc ∧ Spec.Dict (read L F).attrs := by
  refine ⟨?_, by simp [read, Spec.Dict]⟩
  unfold Spec.Dict read
  exact (List.Sublist.map _ List.filter_sublist).nodup h

/-- **C127**, any sequence of additions and removals: the last one decides, others are not touched. -/
theorem c127_user (d : Data) (ops : List Spec.Op) (k : String) :
    get (ops.foldl Spec.apply d).attrs k =
      (match (ops.filter (fun o => Spec.key o = k)).getLast? with
        | some (.add _ v) => some v
        | some (.remove _) => none
        | none => get d.attrs k) ∧
    (ops.foldl Spec.apply d).misc = d.misc ∧ (Spec.Dict d.attrs → Spec.Dict (ops.foldl Spec.apply d).attrs) := by
  induction ops using List.reverseRecOn with
  | nil => simp
  | append_singleton t o ih =>
    obtain ⟨ih, ihm, ihd⟩ := ih
    rw [List.foldl_append, List.filter_append]
    cases o with
    | add j v =>
      refine ⟨?_, ?_, ?_⟩
      · show get (put (t.foldl Spec.apply d).attrs j v) k = _
        rw [get_put]
        by_cases hk : k = j
        · subst hk; simp [Spec.key]
        · have : ¬ j = k := fun e => hk e.symm
          simp [Spec.key, hk, this, ih]
      · exact ihm
      · intro hd; exact dict_put _ _ _ (ihd hd)
    | remove j =>
      refine ⟨?_, ?_, ?_⟩
      · show get ((t.foldl Spec.apply d).attrs.filter (fun p => decide (p.1 ≠ j))) k = _
        rw [get_filter _ (fun s => decide (s ≠ j))]
        by_cases hk : k = j
        · subst hk; simp [Spec.key]
        · have : ¬ j = k := fun e => hk e.symm
          simp [Spec.key, hk, this, ih]
      · exact ihm
      · intro hd
        exact (List.Sublist.map _ List.filter_sublist).nodup (ihd hd)

theorem saved_free (L : Lib) (d : Data) (k : String) (hk : k ∉ Spec.meaningful) :
    Spec.saved L d k = (get d.attrs k).or ((get d.misc k).filter (fun v => L.refuses k v = none)) := by
  simp only [Spec.meaningful, List.mem_cons, List.not_mem_nil, or_false, not_or] at hk
  obtain ⟨h1, h2, h3, h4, h5, h6, h7⟩ := hk
  have : Spec.ownValue d k = none := by simp [Spec.ownValue, h1, h2, h3, h4, h5, h7]
  unfold Spec.saved
  rw [if_neg h6, this]
  cases get d.attrs k <;> simp

/-- **C127**: an attribute that has no meaning to the program is found unchanged after saving and reading, whether the user gave it or it came
from a file; nothing is added. -/
theorem c127_round_trip (L : Lib) (d : Data) (F : Attrs) (ha : Spec.Dict d.attrs) (hm : Spec.Dict d.misc) (h : write L d = .ok F) (k : String)
    (hk : k ∉ Spec.meaningful) :
    get (read L F).misc k = (get d.attrs k).or ((get d.misc k).filter (fun v => L.refuses k v = none)) := by
  rw [(c127_read L F k).1, c127_written L d F ha hm h, saved_free L d k hk]
  simp only [Spec.meaningful, List.mem_cons, List.not_mem_nil, or_false, not_or] at hk
  rw [if_neg (by simp; exact ⟨hk.1, hk.2.2.1, hk.2.2.2.1, hk.2.1⟩)]

theorem get_misc (L : Lib) (F : Attrs) (k : String) (h : k ∉ standardAttributes) : get (read L F).misc k = get F k := by
  rw [(c127_read L F k).1]; exact if_neg h

theorem get_misc_std (L : Lib) (F : Attrs) (k : String) (h : k ∈ standardAttributes) : get (read L F).misc k = none := by
  rw [(c127_read L F k).1]; exact if_pos h

/-- What is saved of data just read, in terms of the file. -/
theorem saved_read (L : Lib) (F : Attrs) (k : String) :
    Spec.saved L (read L F) k =
      if k = "_FillValue" then (findMissing F).filter (fun v => v ≠ .text [])
      else if k = "standard_name" then (if L.std (textOf (get F "standard_name")) then some (.text (textOf (get F "standard_name"))) else none)
      else if k = "long_name" then (get F "long_name").filter (fun v => truthy v)
      else if k = "history" then (get F "history").filter (fun v => truthy v)
      else if k = "units" then Spec.unitsAgain L (textOf (get F "units"))
      else if k = "calendar" then
        (match Spec.calendarOf L (textOf (get F "units")) with
          | some c => some (.text c)
          | none => (get F "calendar").filter (fun v => L.refuses "calendar" v = none))
      else if k = "missing_value" then
        (match (findMissing F).filter (fun v => truthy v) with
          | some v => some v
          | none => (get F "missing_value").filter (fun v => L.refuses "missing_value" v = none))
      else (get F k).filter (fun v => L.refuses k v = none) := by
  unfold Spec.saved
  have hattrs : get (read L F).attrs k = none := by simp [read, get]
  rw [hattrs]
  by_cases h1 : k = "_FillValue"
  · rw [if_pos h1, if_pos h1]
    show fillValue (read L F) = _
    unfold fillValue
    have : (read L F).missing = findMissing F := rfl
    rw [this]
    rcases findMissing F with _ | (_ | t) | q | n <;> simp [Option.filter]
  rw [if_neg h1, if_neg h1]
  by_cases h2 : k = "standard_name"
  · subst h2
    rw [if_pos rfl, get_misc_std L F _ (by decide)]
    simp only [Spec.ownValue, if_true]
    have : (read L F).std = if L.std (textOf (get F "standard_name")) then textOf (get F "standard_name") else [] := rfl
    rw [this]
    by_cases hs : L.std (textOf (get F "standard_name")) = true
    · have hne : textOf (get F "standard_name") ≠ [] := by
        intro e; rw [e, L.stdNil] at hs; cases hs
      simp [hs, hne]
    · simp [hs]
  rw [if_neg h2]
  by_cases h3 : k = "long_name"
  · subst h3
    rw [if_pos rfl, get_misc_std L F _ (by decide)]
    have : (read L F).long = (get F "long_name").getD (.text []) := rfl
    simp only [Spec.ownValue, this]
    cases get F "long_name" with
    | none => simp [truthy]
    | some v => by_cases hv : truthy v = true <;> simp [hv, Option.filter]
  rw [if_neg h3]
  by_cases h4 : k = "history"
  · subst h4
    rw [if_pos rfl, get_misc_std L F _ (by decide)]
    have : (read L F).history = (get F "history").getD (.text []) := rfl
    simp only [Spec.ownValue, this]
    cases get F "history" with
    | none => simp [truthy]
    | some v => by_cases hv : truthy v = true <;> simp [hv, Option.filter]
  rw [if_neg h4]
  by_cases h5 : k = "units"
  · subst h5
    rw [if_pos rfl, get_misc_std L F _ (by decide)]
    have : (read L F).units = setUnits L.parse (textOf (get F "units")) := rfl
    simp only [Spec.ownValue, this, setUnits, Spec.unitsAgain]
    cases L.parse (tidy (textOf (get F "units"))) with
    | none => cases tidy (textOf (get F "units")) <;> simp
    | some u => simp
  rw [if_neg h5]
  by_cases h6 : k = "calendar"
  · subst h6
    rw [if_pos rfl, get_misc L F _ (by decide)]
    have : (read L F).units = setUnits L.parse (textOf (get F "units")) := rfl
    simp only [Spec.ownValue, this, setUnits, Spec.calendarOf]
    rcases L.parse (tidy (textOf (get F "units"))) with _ | ⟨u, _ | _ | ⟨c, t⟩⟩ <;> simp
  rw [if_neg h6]
  by_cases h7 : k = "missing_value"
  · subst h7
    rw [if_pos rfl, get_misc L F _ (by decide)]
    have : (read L F).missing = findMissing F := rfl
    simp only [Spec.ownValue, this]
    simp
  rw [if_neg h7, get_misc L F _ (by simp [standardAttributes]; exact ⟨h2, h3, h4, h5⟩)]
  simp [Spec.ownValue, h2, h3, h4, h5, h6, h7]

theorem filter_all {α : Type} (o : Option α) (q : α → Bool) (h : ∀ v, o = some v → q v = true) : o.filter q = o := by
  cases o with
  | none => rfl
  | some v => simp [Option.filter, h v rfl]

theorem findMissing_steady {L : Lib} {F : Attrs} (hs : Spec.Steady L F) : findMissing F = get F "_FillValue" := by
  unfold findMissing
  cases h : get F "missing_value" with
  | none => rfl
  | some v => exact (hs.missing v h).symm

/-- **C127**: a file written by a steady program: saving what was read from it writes every attribute with the value it had, and no other. -/
theorem c127_steady (L : Lib) (F : Attrs) (hd : Spec.Dict F) (hs : Spec.Steady L F) :
    ∃ G, write L (read L F) = .ok G ∧ (∀ k, get G k = get F k) := by
  have hsaved : ∀ k, Spec.saved L (read L F) k = get F k := by
    intro k
    rw [saved_read, findMissing_steady hs]
    split_ifs with h1 h2 h3 h4 h5 h6 h7 h8
    · subst h1
      exact filter_all _ _ (fun v hv => by
        have := hs.fillText
        simp only [ne_eq, decide_not, Bool.not_eq_true', decide_eq_false_iff_not]
        intro e; rw [hv, e] at this; exact this rfl)
    · subst h2
      cases hg : get F "standard_name" with
      | none => rw [hg] at h3; simp [textOf, L.stdNil] at h3
      | some v =>
        obtain ⟨t, rfl, _⟩ := hs.std v hg
        rfl
    · subst h2
      cases hg : get F "standard_name" with
      | none => rfl
      | some v =>
        obtain ⟨t, rfl, ht⟩ := hs.std v hg
        rw [hg] at h3; exact absurd ht h3
    · subst h4; exact filter_all _ _ hs.long
    · subst h5; exact filter_all _ _ hs.history
    · subst h6; exact hs.units.symm
    · subst h7
      cases hc : Spec.calendarOf L (textOf (get F "units")) with
      | some c => exact (hs.calendar c hc).symm
      | none => exact filter_all _ _ (fun v hv => by simpa using hs.accepted _ v hv (by decide))
    · subst h8
      cases hf : (get F "_FillValue").filter (fun v => truthy v) with
      | some v =>
        obtain ⟨h9, h10⟩ := Option.filter_eq_some_iff.mp hf
        cases hm : get F "missing_value" with
        | none => rw [hs.fillOnly v h9 hm] at h10; cases h10
        | some w => have := hs.missing w hm; rw [h9] at this; simpa using this
      | none => exact filter_all _ _ (fun v hv => by simpa using hs.accepted _ v hv (by decide))
    · exact filter_all _ _ (fun v hv => by simpa using hs.accepted _ v hv h1)
  obtain ⟨hm, ha⟩ := read_dict L F hd
  have hok : ∃ G, write L (read L F) = .ok G := by
    refine (c127_succeeds L (read L F) hm).mpr ⟨?_, ?_, ?_⟩
    · intro f hf
      have := hsaved "_FillValue"
      unfold Spec.saved at this
      rw [if_pos rfl, hf] at this
      exact hs.fillAccepted f this.symm
    · intro p hp
      have hp' : p ∈ own (read L F) := by simpa [read] using hp
      have hg := mem_get (own_dict _) hp'
      rw [own_get] at hg
      have hne : p.1 ≠ "_FillValue" := by
        intro e; rw [e] at hg; simp [Spec.ownValue] at hg
      have := hsaved p.1
      unfold Spec.saved at this
      have h0 : get (read L F).attrs p.1 = none := by simp [read, get]
      rw [if_neg hne, h0, hg] at this
      exact hs.accepted _ _ this.symm hne
    · intro p hp
      have hg := mem_get hm hp
      by_cases hne : p.1 = "_FillValue"
      · left
        refine ⟨hne, ?_⟩
        have := hsaved "_FillValue"
        unfold Spec.saved at this
        rw [if_pos rfl] at this
        rw [hne, get_misc L F _ (by decide)] at hg
        rw [this, hg]; rfl
      · have h2 : get F p.1 = some p.2 := by
          have := (c127_read L F p.1).1
          rw [hg] at this
          split_ifs at this
          exact this.symm
        exact .inr (.inr (.inr (.inl (hs.accepted _ _ h2 hne))))
  obtain ⟨G, hG⟩ := hok
  exact ⟨G, hG, fun k => by rw [c127_written L _ G ha hm hG, hsaved]⟩

theorem steady_congr {L : Lib} {F G : Attrs} (h : ∀ k, get G k = get F k) (hs : Spec.Steady L F) : Spec.Steady L G := by
  constructor
  · rw [h]; exact hs.std
  · rw [h]; exact hs.units
  · rw [h, h]; exact hs.calendar
  · rw [h]; exact hs.long
  · rw [h]; exact hs.history
  · rw [h, h]; exact hs.missing
  · rw [h, h]; exact hs.fillOnly
  · rw [h]; exact hs.fillText
  · intro k; rw [h]; exact hs.accepted k
  · rw [h]; exact hs.fillAccepted

theorem cycles_steady (L : Lib) (F : Attrs) (hd : Spec.Dict F) (hs : Spec.Steady L F) (n : Nat) :
    ∃ G, cycles L F n = .ok G ∧ Spec.Dict G ∧ (∀ k, get G k = get F k) := by
  induction n with
  | zero => exact ⟨F, rfl, hd, fun _ => rfl⟩
  | succ n ih =>
    obtain ⟨G, h1, h2, h3⟩ := ih
    obtain ⟨H, h4, h5⟩ := c127_steady L G h2 (steady_congr h3 hs)
    refine ⟨H, ?_, write_dict L _ H h4, fun k => by rw [h5, h3]⟩
    simp only [cycles, h1, h4]

/-- What is written of data read from any file is steady, if the unit library reads back what it prints and the netCDF library takes only
numbers for missing values and takes them for both attributes. -/
theorem written_steady (L : Lib) (F G : Attrs) (hd : Spec.Dict F) (h : write L (read L F) = .ok G)
    (hparse : ∀ u c, L.parse (tidy (textOf (get F "units"))) = some (u, c) → L.parse (tidy u) = some (u, c))
    (hraw : L.parse (tidy (textOf (get F "units"))) = none →
      tidy (tidy (textOf (get F "units"))) = tidy (textOf (get F "units")))
    (hmv : ∀ t, L.refuses "missing_value" (.text t) ≠ none) (hfv : ∀ t, L.refusesFill (.text t) ≠ none) : Spec.Steady L G := by
  obtain ⟨hm, ha⟩ := read_dict L F hd
  have hw := c127_written L _ G ha hm h
  obtain ⟨hfillok, hsetok, _⟩ := write_unfold L _ G h
  have hG : ∀ k, get G k = _ := fun k => (hw k).trans (saved_read L F k)
  have hunits := hG "units"
  simp only [String.reduceEq, if_false, if_true] at hunits
  have hfill : get G "_FillValue" = fillValue (read L F) := by rw [hw]; simp [Spec.saved]
  have hfill' := hG "_FillValue"
  simp only [if_true] at hfill'
  have hmv' := hG "missing_value"
  simp only [String.reduceEq, if_false, if_true] at hmv'
  have hnum : ∀ v, get G "_FillValue" = some v → L.refusesFill v = none := fun v hv => hfillok v (by rw [← hfill]; exact hv)
  constructor
  · intro v hv
    have := hG "standard_name"
    simp only [String.reduceEq, if_false, if_true] at this
    rw [hv] at this
    split_ifs at this with hs
    cases this
    exact ⟨_, rfl, hs⟩
  · rw [hunits]
    cases hp : L.parse (tidy (textOf (get F "units"))) with
    | some u =>
      obtain ⟨u, c⟩ := u
      have : Spec.unitsAgain L (textOf (get F "units")) = some (.text u) := by simp [Spec.unitsAgain, hp]
      rw [this]
      simp [textOf, Spec.unitsAgain, hparse _ _ hp]
    | none =>
      have hr := hraw hp
      by_cases he : tidy (textOf (get F "units")) = []
      · have : Spec.unitsAgain L (textOf (get F "units")) = none := by unfold Spec.unitsAgain; rw [hp]; exact if_pos he
        rw [this]
        have ht : tidy ([] : Text) = [] := by decide
        simp only [textOf, Spec.unitsAgain, ht]
        rw [he] at hp; rw [hp]; simp
      · have : Spec.unitsAgain L (textOf (get F "units")) = some (.text (tidy (textOf (get F "units")))) := by
          unfold Spec.unitsAgain; rw [hp]; exact if_neg he
        rw [this]
        show some _ = Spec.unitsAgain L (tidy (textOf (get F "units")))
        unfold Spec.unitsAgain; rw [hr, hp]; exact (if_neg he).symm
  · intro c hc
    have hcal : Spec.calendarOf L (textOf (get F "units")) = some c := by
      rw [hunits] at hc
      cases hp : L.parse (tidy (textOf (get F "units"))) with
      | some u =>
        obtain ⟨u, c'⟩ := u
        have e : Spec.unitsAgain L (textOf (get F "units")) = some (.text u) := by simp [Spec.unitsAgain, hp]
        rw [e] at hc
        simp only [textOf, Spec.calendarOf, hparse _ _ hp] at hc
        simp only [Spec.calendarOf, hp]
        exact hc
      | none =>
        exfalso
        have hr := hraw hp
        by_cases he : tidy (textOf (get F "units")) = []
        · have e : Spec.unitsAgain L (textOf (get F "units")) = none := by unfold Spec.unitsAgain; rw [hp]; exact if_pos he
          have ht : tidy ([] : Text) = [] := by decide
          rw [e] at hc
          simp only [textOf, Spec.calendarOf, ht] at hc
          rw [he] at hp; rw [hp] at hc; simp at hc
        · have e : Spec.unitsAgain L (textOf (get F "units")) = some (.text (tidy (textOf (get F "units")))) := by
            unfold Spec.unitsAgain; rw [hp]; exact if_neg he
          rw [e] at hc
          change Spec.calendarOf L (tidy (textOf (get F "units"))) = _ at hc
          unfold Spec.calendarOf at hc; rw [hr, hp] at hc; cases hc
    have := hG "calendar"
    simp only [String.reduceEq, if_false, if_true, hcal] at this
    exact this
  · intro v hv
    have := hG "long_name"
    simp only [String.reduceEq, if_false, if_true] at this
    rw [hv] at this
    exact (Option.filter_eq_some_iff.mp this.symm).2
  · intro v hv
    have := hG "history"
    simp only [String.reduceEq, if_false, if_true] at this
    rw [hv] at this
    exact (Option.filter_eq_some_iff.mp this.symm).2
  · intro v hv
    rw [hv] at hmv'
    cases hf : (findMissing F).filter (fun v => truthy v) with
    | some w =>
      rw [hf] at hmv'
      simp only [Option.some.injEq] at hmv'
      subst hmv'
      obtain ⟨h1, h2⟩ := Option.filter_eq_some_iff.mp hf
      rw [hfill', h1]
      have : v ≠ .text [] := by rintro rfl; simp [truthy] at h2
      simp [Option.filter, this]
    | none =>
      rw [hf] at hmv'
      obtain ⟨h1, h2⟩ := Option.filter_eq_some_iff.mp hmv'.symm
      have hfm : findMissing F = some v := by simp [findMissing, h1]
      rw [hfill', hfm]
      have : v ≠ .text [] := by rintro rfl; exact hmv _ (by simpa using h2)
      simp [Option.filter, this]
  · intro v hv hnone
    rw [hv] at hfill'
    obtain ⟨h1, _⟩ := Option.filter_eq_some_iff.mp hfill'.symm
    rw [hnone, h1] at hmv'
    cases ht : truthy v with
    | false => rfl
    | true => simp [Option.filter, ht] at hmv'
  · intro hc
    exact hfv _ (hnum _ hc)
  · intro k v hv hk
    rw [hw] at hv
    unfold Spec.saved at hv
    rw [if_neg hk] at hv
    have h0 : get (read L F).attrs k = none := by simp [read, get]
    rw [h0] at hv
    cases ho : Spec.ownValue (read L F) k with
    | some w =>
      rw [ho] at hv
      cases hv
      rw [← own_get] at ho
      exact hsetok (k, v) (List.mem_append_left _ (get_mem ho))
    | none =>
      rw [ho] at hv
      simpa using (Option.filter_eq_some_iff.mp hv).2
  · exact hnum

/-- **C127**, any number of times: from the second file on, saving and reading changes no attribute, whatever the first file held, if the unit
library reads back what it prints and the netCDF library takes only numbers for missing values. -/
theorem c127_settles (L : Lib) (F G : Attrs) (hd : Spec.Dict F) (h : write L (read L F) = .ok G)
    (hparse : ∀ u c, L.parse (tidy (textOf (get F "units"))) = some (u, c) → L.parse (tidy u) = some (u, c))
    (hraw : L.parse (tidy (textOf (get F "units"))) = none →
      tidy (tidy (textOf (get F "units"))) = tidy (textOf (get F "units")))
    (hmv : ∀ t, L.refuses "missing_value" (.text t) ≠ none) (hfv : ∀ t, L.refusesFill (.text t) ≠ none) (n : Nat) :
    ∃ H, cycles L F (n + 1) = .ok H ∧ ∀ k, get H k = get G k := by
  have hs := written_steady L F G hd h hparse hraw hmv hfv
  have hshift : ∀ n, cycles L F (n + 1) = cycles L G n := by
    intro n
    induction n with
    | zero => simp [cycles, h]
    | succ n ih => rw [cycles, ih, cycles]
  obtain ⟨H, h1, _, h3⟩ := cycles_steady L G (write_dict L _ G h) hs n
  exact ⟨H, by rw [hshift, h1], h3⟩

/-! ### What does not hold -/

/-- C127 is violated for calendars: data on another calendar than the one units have by default are saved as being on that one. -/
theorem c127_calendar_violated (L : Lib) (F : Attrs) (hd : Spec.Dict F) (u t c c' : Text) (hu : get F "units" = some (.text u))
    (hp : L.parse (tidy u) = some (t, some c')) (hc' : c' ≠ []) (hc : get F "calendar" = some (.text c)) (hne : c ≠ c')
    (G : Attrs) (h : write L (read L F) = .ok G) : get G "calendar" = some (.text c') ∧ get G "calendar" ≠ get F "calendar" := by
  obtain ⟨hm, ha⟩ := read_dict L F hd
  have := (c127_written L _ G ha hm h "calendar").trans (saved_read L F "calendar")
  have hcal : Spec.calendarOf L (textOf (get F "units")) = some c' := by
    rw [hu]
    cases c' with
    | nil => exact absurd rfl hc'
    | cons x y => simp [textOf, Spec.calendarOf, hp]
  simp only [String.reduceEq, if_false, if_true, hcal] at this
  rw [this, hc]
  exact ⟨rfl, by simpa using hne.symm⟩

/-- C127 is violated for removal: an attribute that came from a file is still written after `remove_attribute`. -/
theorem c127_remove_violated (L : Lib) (d : Data) (ha : Spec.Dict d.attrs) (hm : Spec.Dict d.misc) (k : String) (v : Val)
    (hk : k ∉ Spec.meaningful) (hv : get d.misc k = some v) (hr : L.refuses k v = none) (F : Attrs)
    (h : write L (removeAttribute d k) = .ok F) : get F k = some v := by
  have ha' : Spec.Dict (removeAttribute d k).attrs := (List.Sublist.map _ List.filter_sublist).nodup ha
  rw [c127_written L _ F ha' hm h, saved_free L _ k hk]
  have h1 : get (removeAttribute d k).attrs k = none := by
    show get (d.attrs.filter (fun p => decide (p.1 ≠ k))) k = none
    rw [get_filter _ (fun s => decide (s ≠ k))]; simp
  rw [h1]
  show (none : Option Val).or ((get d.misc k).filter _) = _
  rw [hv]
  simp [Option.filter, hr]

/-- C127 is violated for values that cannot be written: one the user gave makes saving fail; if it had come from a file it would only be left
out. -/
theorem c127_invalid_violated (L : Lib) (d : Data) (k : String) (v : Val) (hr : L.refuses k v = some .value) :
    (∀ F, write L (addAttributes d [(k, v)]) ≠ .ok F) ∧
    (∀ l, setMisc L l (k, v) = .ok l) := by
  constructor
  · intro F h
    obtain ⟨_, h2, _⟩ := write_unfold L _ F h
    have hg : get (addAttributes d [(k, v)]).attrs k = some v := by
      show get (put d.attrs k v) k = some v
      rw [get_put]; simp
    have := h2 (k, v) (List.mem_append_right _ (get_mem hg))
    rw [hr] at this; cases this
  · intro l
    unfold setMisc setAttr
    by_cases hh : has l k = true
    · simp [hh]
    · simp [hh, hr]

/-- C127 is violated for data without units: they are saved with units, those the unit library gives to no units. -/
theorem c127_no_units_violated (L : Lib) (F : Attrs) (hd : Spec.Dict F) (hu : get F "units" = none) (t : Text) (c : Option Text)
    (hp : L.parse [] = some (t, c)) (G : Attrs) (h : write L (read L F) = .ok G) : get G "units" = some (.text t) := by
  obtain ⟨hm, ha⟩ := read_dict L F hd
  have := (c127_written L _ G ha hm h "units").trans (saved_read L F "units")
  have ht : tidy ([] : Text) = [] := by decide
  simp only [String.reduceEq, if_false, if_true, hu, textOf, Spec.unitsAgain, ht, hp] at this
  exact this

/-- C127 is violated for missing values that are texts: what was read from such a file cannot be saved. -/
theorem c127_text_missing_violated (L : Lib) (F : Attrs) (t : Text) (ht : t ≠ []) (hv : get F "missing_value" = some (.text t))
    (hr : L.refusesFill (.text t) = some .value) : write L (read L F) = .error .value := by
  have h1 : fillValue (read L F) = some (.text t) := by
    have : (read L F).missing = some (.text t) := by show findMissing F = _; simp [findMissing, hv]
    unfold fillValue
    rw [this]
    cases t with
    | nil => exact absurd rfl ht
    | cons a b => rfl
  unfold write created
  rw [h1]; simp only; rw [hr]

/-- C127 is violated for the units: the user's attribute `units` replaces them in the file, and the values stay as they were. -/
theorem c127_units_violated (L : Lib) (d : Data) (ha : Spec.Dict d.attrs) (hm : Spec.Dict d.misc) (u : Text) (F : Attrs)
    (h : write L (addAttributes d [("units", .text u)]) = .ok F) :
    get F "units" = some (.text u) ∧ (read L F).units = setUnits L.parse u ∧ (addAttributes d [("units", .text u)]).units = d.units := by
  have hg : get (addAttributes d [("units", .text u)]).attrs "units" = some (.text u) := by
    show get (put d.attrs "units" (.text u)) "units" = _
    rw [get_put]; simp
  have h1 : get F "units" = some (.text u) := by
    rw [c127_written L (addAttributes d [("units", .text u)]) F (dict_put _ _ _ ha) hm h]
    unfold Spec.saved
    rw [if_neg (by decide), hg]
  refine ⟨h1, ?_, rfl⟩
  show setUnits L.parse (textOf (get F "units")) = _
  rw [h1]; rfl

/-! ### Examples -/

/-- A library: numbers only for missing values, some values refused, a few units. -/
def exLib : Lib where
  refuses k v :=
    if k = "_FillValue" ∨ k = "name" then some .attribute
    else match v with
      | .text _ => if k = "missing_value" then some .value else none
      | .num _ => none
      | .other n => if n = 0 then some .value else none
  refusesFill v := match v with | .text _ => some .value | _ => none
  parse t :=
    if t = [] ∨ t = "unknown".toList then some ("unknown".toList, none)
    else if t = "K".toList then some (t, none)
    else if t = "days since 1600-01-01".toList then some (t, some "standard".toList)
    else none
  std t := t = "air_temperature".toList
  fill := by intro v; simp
  stdNil := by decide

theorem exLib_mv (t : Text) : exLib.refuses "missing_value" (.text t) ≠ none := by
  have : exLib.refuses "missing_value" (.text t) = some .value := by
    unfold exLib
    simp only [String.reduceEq, or_self, if_false, if_true]
  rw [this]; exact fun h => nomatch h

def exFile : Attrs :=
  [("_FillValue", .num (-999)), ("standard_name", .text "air_temperature".toList), ("units", .text "K".toList), ("comment", .text "ok".toList),
    ("flags", .other 3)]

/-- Non-vacuity: the file is saved with its missing value added, and nothing changes from then on. -/
example : ∃ G, write exLib (read exLib exFile) = .ok G ∧ get G "missing_value" = some (.num (-999)) ∧ get G "comment" = some (.text "ok".toList) ∧
    get G "flags" = some (.other 3) ∧ ∀ n, ∃ H, cycles exLib exFile (n + 1) = .ok H ∧ ∀ k, get H k = get G k := by
  have hd : Spec.Dict exFile := by unfold Spec.Dict; decide +kernel
  have hu : tidy (textOf (get exFile "units")) = "K".toList := by decide +kernel
  have hK : exLib.parse "K".toList = some ("K".toList, none) := by decide +kernel
  have hKt : tidy "K".toList = "K".toList := by decide +kernel
  refine ⟨[("_FillValue", .num (-999)), ("standard_name", .text "air_temperature".toList), ("units", .text "K".toList),
    ("missing_value", .num (-999)), ("comment", .text "ok".toList), ("flags", .other 3)], by decide +kernel, by decide +kernel, by decide +kernel,
    by decide +kernel, ?_⟩
  intro n
  refine c127_settles exLib exFile _ hd (by decide +kernel) ?_ ?_ ?_ ?_ n
  · intro u c h
    rw [hu, hK] at h
    cases h
    rw [hKt, hK]
  · intro h; rw [hu, hK] at h; cases h
  · exact exLib_mv
  · intro t h; cases h

/-- Non-vacuity: a file on a calendar of 360 days is saved as one on the standard calendar. -/
example : ∃ G, write exLib (read exLib [("units", .text "days since 1600-01-01".toList), ("calendar", .text "360_day".toList)]) = .ok G ∧
    get G "calendar" = some (.text "standard".toList) := by
  exact ⟨[("units", .text "days since 1600-01-01".toList), ("calendar", .text "standard".toList)], by decide +kernel, by decide +kernel⟩

/-- Non-vacuity: user attributes, a removal, and a value that cannot be written. -/
example :
    let d : Data := ⟨[], .text [], .inl ("K".toList, none), some (.num 0), .text "h".toList, [], [("a", .num 1), ("b", .other 0)]⟩
    write exLib (addAttributes d [("a", .num 2)]) =
      .ok [("_FillValue", .num 0), ("units", .text "K".toList), ("history", .text "h".toList), ("a", .num 2)] ∧
    write exLib (removeAttribute d "a") =
      .ok [("_FillValue", .num 0), ("units", .text "K".toList), ("history", .text "h".toList), ("a", .num 1)] ∧
    write exLib (addAttributes d [("c", .other 0)]) = .error .value := by
  refine ⟨by decide +kernel, by decide +kernel, by decide +kernel⟩

end Cis.Attrs
