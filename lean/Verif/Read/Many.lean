import Verif.Read.Groups
set_option linter.unusedSectionVars false
set_option linter.unusedSimpArgs false
/-!
Model of reading variables from many files: `netcdf.read`, `netcdf.read_many_files_individually` (cis/data_io/netcdf.py:134-193),
`hdf._read_hdf4`, `hdf.read`, `hdf.read_data` (cis/data_io/hdf.py:44-122), `hdf_sd.read` (hdf_sd.py:130-168), `hdf_vd.read`
(hdf_vd.py:50-86), `utils.add_element_to_list_in_dict` and `utils.concatenate` (utils.py:14-43), `hdf.get_hdf4_file_variables`
(hdf.py:6-25). Property C77.

Not modelled: failures of the HDF and NetCDF libraries on damaged files, and opening and closing of the files.
-/
namespace Cis.Read
open Cis.Str

variable {A S E : Type}

/-- `d.get(k)`. -/
def dget (d : List (Str × A)) (k : Str) : Option A := (d.find? (fun e => e.1 == k)).map Prod.snd

/-- `add_element_to_list_in_dict` (utils.py:14-18). -/
def addElem (d : List (Str × List A)) (k : Str) (x : A) : List (Str × List A) :=
  if d.any (fun e => e.1 == k) then d.map (fun e => if e.1 == k then (e.1, e.2 ++ [x]) else e) else d ++ [(k, [x])]

/-- The inner loop of `read_many_files_individually` and of `hdf.read` (netcdf.py:157-158, hdf.py:98-101). -/
def addAll (d : List (Str × List A)) (r : List (Str × A)) : List (Str × List A) := r.foldl (fun d e => addElem d e.1 e.2) d

/-- The loop of `netcdf.read` over the variables (netcdf.py:177-191); `look` is the access to one variable. -/
def readAll (look : Str → Except E A) : List Str → List (Str × A) → Except E (List (Str × A))
  | [], d => .ok d
  | v :: vs, d =>
    match look v with
    | .error e => .error e
    | .ok x => readAll look vs (dictSet d (v, x))

/-- `netcdf.read_many_files_individually` (netcdf.py:134-160). -/
def readMany (vars : List Str) : List (Grp A) → List (Str × List A) → Except ReadErr (List (Str × List A))
  | [], d => .ok d
  | f :: fs, d =>
    match readAll (readVar f) vars [] with
    | .error e => .error e
    | .ok r => readMany vars fs (addAll d r)

/-- An HDF4 file: its name, its scientific data sets and its vdata by name. -/
structure Hdf (S : Type) where
  name : Str
  sd : List (Str × S)
  vd : List (Str × S)

/-- Exceptions of the HDF4 readers. -/
inductive HdfErr
  | io               -- IOError
  | invalidVariable  -- InvalidVariableError
  | key              -- KeyError
  | index            -- IndexError
  | value            -- ValueError
deriving DecidableEq

/-- `hdf_sd.read` (hdf_sd.py:130-168) with a list of variables: the requested names are a set, here in the order of their
last occurrences; only lookups in the result matter. -/
def sdRead (f : Hdf S) (vars : List Str) : List (Str × S) :=
  vars.dedup.filterMap (fun v => (dget f.sd v).map (fun x => (v, x)))

/-- `hdf_vd.read` (hdf_vd.py:50-86): variables that cannot be attached are ignored. -/
def vdRead (f : Hdf S) (vars : List Str) : List (Str × S) :=
  vars.foldl (fun d v => match dget f.vd v with | some x => dictSet d (v, x) | none => d) []

/-- `_read_hdf4` (hdf.py:44-85). -/
def readHdf4 (f : Hdf S) (vars : List Str) : Except HdfErr (List (Str × S) × List (Str × S)) :=
  if !(".hdf".toList).isSuffixOf f.name then .error .io
  else
    let sds := sdRead f vars
    let vdvars := sds.foldl (fun l e => l.erase e.1) vars
    let vds := vdRead f vdvars
    if vars.any (fun v => !(sds.any (fun e => e.1 == v)) && !(vds.any (fun e => e.1 == v))) then .error .invalidVariable
    else .ok (sds, vds)

/-- `hdf.read` (hdf.py:88-105). -/
def hdfRead (vars : List Str) : List (Hdf S) → List (Str × List S) → List (Str × List S) →
    Except HdfErr (List (Str × List S) × List (Str × List S))
  | [], s, v => .ok (s, v)
  | f :: fs, s, v =>
    match readHdf4 f vars with
    | .error e => .error e
    | .ok (sds, vds) => hdfRead vars fs (addAll s sds) (addAll v vds)

/-- `get_hdf4_file_variables` (hdf.py:6-25); the type is given in lower case. -/
def hdfFileVariables (f : Hdf S) (dataType : Option Str) : Except HdfErr (Option (List Str) × Option (List Str)) :=
  if dataType = none ∨ dataType = some "sd".toList then .ok (some (f.sd.map Prod.fst), none)
  else if dataType = none ∨ dataType = some "vd".toList then .ok (none, some (f.vd.map Prod.fst))
  else .error .value

/-- An array: values, and a mask if it is a masked array. -/
structure Arr (A : Type) where
  vals : List A
  mask : Option (List Bool)
deriving DecidableEq

/-- `getmaskarray`. -/
def Arr.maskArray (a : Arr A) : List Bool := a.mask.getD (List.replicate a.vals.length false)

/-- `numpy.concatenate`, which ignores masks. -/
def npConcat (a b : Arr A) : Arr A := ⟨a.vals ++ b.vals, none⟩

/-- `numpy.ma.concatenate`. -/
def maConcat (a b : Arr A) : Arr A := ⟨a.vals ++ b.vals, some (a.maskArray ++ b.maskArray)⟩

/-- `utils.concatenate` (utils.py:21-43) along the first axis. -/
def concatenate (arrays : List (Arr A)) : Except HdfErr (Arr A) :=
  let op := if arrays.any (fun a => a.mask.isSome) then maConcat else npConcat
  match arrays with
  | [] => .error .index
  | a :: t => .ok (t.foldl op a)

/-- `hdf.read_data` (hdf.py:108-122) with a function reading one data set. -/
def readData (get : S → Arr A) (l : List S) : Except HdfErr (Arr A) := concatenate (l.map get)

/-! ### Specification -/

/-- The points of an array: a masked point has no value. -/
def Arr.points (a : Arr A) : List (Option A) := (a.vals.zip a.maskArray).map (fun p => if p.2 then none else some p.1)

/-- The mask has one entry for each value. -/
def Arr.WF (a : Arr A) : Prop := ∀ m, a.mask = some m → m.length = a.vals.length

/-! ### Dictionaries -/

theorem dget_cons (e : Str × A) (d : List (Str × A)) (k : Str) : dget (e :: d) k = if e.1 = k then some e.2 else dget d k := by
  unfold dget
  rw [List.find?_cons]
  by_cases h : e.1 = k
  · simp [h]
  · have : (e.1 == k) = false := beq_eq_false_iff_ne.2 h
    simp [h, this]

theorem dget_none (d : List (Str × A)) (k : Str) : dget d k = none ↔ k ∉ d.map Prod.fst := by
  induction d with
  | nil => simp [dget]
  | cons e d ih =>
    rw [dget_cons, List.map_cons, List.mem_cons]
    by_cases h : e.1 = k
    · simp [h]
    · rw [if_neg h, ih]
      simp [h, Ne.symm h]

theorem dget_append (d d' : List (Str × A)) (k : Str) : dget (d ++ d') k = (dget d k).or (dget d' k) := by
  induction d with
  | nil => simp [dget]
  | cons e d ih =>
    rw [List.cons_append, dget_cons, dget_cons, ih]
    split <;> simp

theorem any_key (d : List (Str × A)) (k : Str) : d.any (fun e => e.1 == k) = (dget d k).isSome := by
  induction d with
  | nil => rfl
  | cons e d ih =>
    rw [List.any_cons, dget_cons, ih]
    by_cases h : e.1 = k
    · simp [h]
    · have : (e.1 == k) = false := beq_eq_false_iff_ne.2 h
      simp [h, this]

theorem dget_map_set (d : List (Str × A)) (k : Str) (x : A) (k' : Str) (hk : (dget d k).isSome) :
    dget (d.map (fun e => if e.1 == k then (k, x) else e)) k' = if k = k' then some x else dget d k' := by
  induction d with
  | nil => simp [dget] at hk
  | cons e d ih =>
    rw [dget_cons] at hk
    rw [List.map_cons, dget_cons, dget_cons]
    by_cases h : e.1 = k
    · by_cases h' : k = k'
      · simp [h, h']
      · have h'' : e.1 ≠ k' := by rw [h]; exact h'
        simp only [h, beq_self_eq_true, if_true, h', if_false]
        clear ih hk
        induction d with
        | nil => rfl
        | cons a d ih =>
          rw [List.map_cons, dget_cons, dget_cons, ih]
          by_cases h3 : a.1 = k
          · simp [h3, h']
          · simp [h3]
    · rw [if_neg h] at hk
      have hb : (e.1 == k) = false := beq_eq_false_iff_ne.2 h
      simp only [hb, Bool.false_eq_true, if_false]
      by_cases h' : e.1 = k'
      · have h'' : k ≠ k' := by rw [← h']; exact Ne.symm h
        simp [h', h'']
      · rw [if_neg h', if_neg h']
        exact ih hk

theorem dget_dictSet (d : List (Str × A)) (k : Str) (x : A) (k' : Str) :
    dget (dictSet d (k, x)) k' = if k = k' then some x else dget d k' := by
  unfold dictSet
  simp only
  rw [any_key]
  by_cases h : (dget d k).isSome
  · rw [if_pos h]; exact dget_map_set d k x k' h
  · rw [if_neg h, dget_append, dget_cons]
    by_cases h' : k = k'
    · subst h'
      rw [Bool.not_eq_true, Option.isSome_eq_false_iff, Option.isNone_iff_eq_none] at h
      simp [h]
    · simp [h', dget]

theorem keys_dictSet (d : List (Str × A)) (k : Str) (x : A) (h : (d.map Prod.fst).Nodup) :
    ((dictSet d (k, x)).map Prod.fst).Nodup := by
  unfold dictSet
  simp only
  rw [any_key]
  by_cases h' : (dget d k).isSome
  · rw [if_pos h', List.map_map]
    have : (Prod.fst ∘ fun e : Str × A => if (e.1 == k) = true then (k, x) else e) = Prod.fst := by
      funext e
      simp only [Function.comp_apply]
      split
      · rename_i h''; exact (beq_iff_eq.1 h'').symm
      · rfl
    rw [this]; exact h
  · rw [if_neg h']
    rw [Bool.not_eq_true, Option.isSome_eq_false_iff, Option.isNone_iff_eq_none, dget_none] at h'
    rw [List.map_append, List.nodup_append]
    refine ⟨h, by simp, ?_⟩
    intro a ha b hb
    simp only [List.map_cons, List.map_nil, List.mem_singleton] at hb
    subst hb
    intro e; subst e; exact h' ha

theorem dget_addElem (d : List (Str × List A)) (k : Str) (x : A) (k' : Str) :
    dget (addElem d k x) k' = if k = k' then some ((dget d k').getD [] ++ [x]) else dget d k' := by
  unfold addElem
  rw [any_key]
  by_cases h : (dget d k).isSome
  · rw [if_pos h]
    induction d with
    | nil => simp [dget] at h
    | cons e d ih =>
      rw [dget_cons] at h
      rw [List.map_cons, dget_cons, dget_cons]
      by_cases he : e.1 = k
      · by_cases h' : k = k'
        · simp [he, h']
        · have h2 : e.1 ≠ k' := by rw [he]; exact h'
          simp only [he, beq_self_eq_true, if_true, h', if_false]
          clear ih h
          induction d with
          | nil => rfl
          | cons a d ih =>
            rw [List.map_cons, dget_cons, dget_cons, ih]
            by_cases h3 : a.1 = k
            · simp [h3, h']
            · simp [h3]
      · rw [if_neg he] at h
        have hb : (e.1 == k) = false := beq_eq_false_iff_ne.2 he
        simp only [hb, Bool.false_eq_true, if_false]
        by_cases h' : e.1 = k'
        · have h'' : k ≠ k' := by rw [← h']; exact Ne.symm he
          simp [h', h'']
        · rw [if_neg h', if_neg h']
          exact ih h
  · rw [if_neg h, dget_append, dget_cons]
    by_cases h' : k = k'
    · subst h'
      rw [Bool.not_eq_true, Option.isSome_eq_false_iff, Option.isNone_iff_eq_none] at h
      simp [h]
    · simp [h', dget]

theorem dget_addAll (r : List (Str × A)) : ∀ (d : List (Str × List A)) (k : Str), (r.map Prod.fst).Nodup →
    dget (addAll d r) k = match dget r k with
      | some x => some ((dget d k).getD [] ++ [x])
      | none => dget d k := by
  induction r with
  | nil => intro d k _; rfl
  | cons e r ih =>
    intro d k hn
    rw [List.map_cons, List.nodup_cons] at hn
    have h1 : addAll d (e :: r) = addAll (addElem d e.1 e.2) r := rfl
    rw [h1, ih _ _ hn.2, dget_cons, dget_addElem]
    by_cases h : e.1 = k
    · have h2 : dget r k = none := by rw [dget_none, ← h]; exact hn.1
      simp [h, h2]
    · simp only [if_neg h]

/-- What is accumulated over files. -/
theorem dget_accumulate (rs : List (List (Str × A))) (hn : ∀ r ∈ rs, (r.map Prod.fst).Nodup) (k : Str) :
    ∀ d : List (Str × List A), dget (rs.foldl addAll d) k =
      if rs.filterMap (fun r => dget r k) = [] then dget d k else some ((dget d k).getD [] ++ rs.filterMap (fun r => dget r k)) := by
  induction rs with
  | nil => intro d; rfl
  | cons r rs ih =>
    intro d
    rw [List.foldl_cons, ih (fun x hx => hn x (List.mem_cons_of_mem _ hx)), dget_addAll r d k (hn r List.mem_cons_self)]
    cases h : dget r k with
    | none => simp [List.filterMap_cons, h]
    | some x =>
      simp only [List.filterMap_cons, h]
      by_cases h2 : rs.filterMap (fun r => dget r k) = []
      · simp [h2]
      · simp [h2]

theorem readAll_iff (look : Str → Except E A) (vars : List Str) : ∀ d r : List (Str × A), readAll look vars d = .ok r →
    (∀ v ∈ vars, ∃ x, look v = .ok x) ∧ ((d.map Prod.fst).Nodup → (r.map Prod.fst).Nodup) ∧
      ∀ k, dget r k = if k ∈ vars then (match look k with | .ok x => some x | .error _ => none) else dget d k := by
  induction vars with
  | nil => intro d r h; cases h; simp
  | cons v vs ih =>
    intro d r h
    rw [readAll] at h
    cases hl : look v with
    | error e => rw [hl] at h; cases h
    | ok x =>
      rw [hl] at h
      obtain ⟨h1, h2, h3⟩ := ih _ _ h
      refine ⟨?_, fun hd => h2 (keys_dictSet d v x hd), ?_⟩
      · intro w hw
        rcases List.mem_cons.1 hw with rfl | hw
        · exact ⟨x, hl⟩
        · exact h1 w hw
      · intro k
        rw [h3, dget_dictSet]
        by_cases hk : k ∈ vs
        · rw [if_pos hk, if_pos (List.mem_cons_of_mem _ hk)]
        · rw [if_neg hk]
          by_cases hv : v = k
          · subst hv; simp [hl]
          · have : k ∉ v :: vs := by
              intro hm; rcases List.mem_cons.1 hm with e | hm
              · exact hv e.symm
              · exact hk hm
            rw [if_neg hv, if_neg this]

theorem readAll_total (look : Str → Except E A) (vars : List Str) (h : ∀ v ∈ vars, ∃ x, look v = .ok x) :
    ∀ d : List (Str × A), ∃ r, readAll look vars d = .ok r := by
  induction vars with
  | nil => intro d; exact ⟨d, rfl⟩
  | cons v vs ih =>
    intro d
    obtain ⟨x, hx⟩ := h v List.mem_cons_self
    rw [readAll, hx]
    exact ih (fun w hw => h w (List.mem_cons_of_mem _ hw)) _

theorem readMany_eq (vars : List Str) (fs : List (Grp A)) : ∀ d r : List (Str × List A), readMany vars fs d = .ok r →
    ∃ rs : List (List (Str × A)), List.Forall₂ (fun f x => readAll (readVar f) vars [] = .ok x) fs rs ∧ r = rs.foldl addAll d := by
  induction fs with
  | nil => intro d r h; cases h; exact ⟨[], .nil, rfl⟩
  | cons f fs ih =>
    intro d r h
    rw [readMany] at h
    cases hr : readAll (readVar f) vars [] with
    | error e => rw [hr] at h; cases h
    | ok x =>
      rw [hr] at h
      obtain ⟨rs, h1, h2⟩ := ih _ _ h
      exact ⟨x :: rs, .cons hr h1, h2⟩

theorem readMany_total (vars : List Str) (fs : List (Grp A)) (h : ∀ f ∈ fs, ∀ v ∈ vars, ∃ x, readVar f v = .ok x) :
    ∀ d : List (Str × List A), ∃ r, readMany vars fs d = .ok r := by
  induction fs with
  | nil => intro d; exact ⟨d, rfl⟩
  | cons f fs ih =>
    intro d
    obtain ⟨x, hx⟩ := readAll_total (readVar f) vars (h f List.mem_cons_self) []
    rw [readMany, hx]
    exact ih (fun g hg => h g (List.mem_cons_of_mem _ hg)) _

/-- C77 for NetCDF: reading succeeds iff every file has every requested variable. -/
theorem c77_netcdf_success (vars : List Str) (fs : List (Grp A)) (hw : ∀ f ∈ fs, f.WF) :
    (∃ r, readMany vars fs [] = .ok r) ↔ ∀ f ∈ fs, ∀ v ∈ vars, ∃ x, HasVar f v x := by
  constructor
  · rintro ⟨r, hr⟩ f hf v hv
    obtain ⟨rs, h1, -⟩ := readMany_eq vars fs [] r hr
    obtain ⟨i, hi, rfl⟩ := List.getElem_of_mem hf
    have h2 := h1.get hi (by rw [← h1.length_eq]; exact hi)
    obtain ⟨x, hx⟩ := (readAll_iff _ _ _ _ h2).1 v hv
    exact ⟨x, (c76_read _ (hw _ hf) v x).1 hx⟩
  · intro h
    exact readMany_total vars fs (fun f hf v hv => (h f hf v hv).imp fun x hx => (c76_read f (hw f hf) v x).2 hx) []

/-- C77 for NetCDF: for every requested variable the result has one object for each file, that of the file, in the order of the
files; and nothing else. -/
theorem c77_netcdf (vars : List Str) (fs : List (Grp A)) (hw : ∀ f ∈ fs, f.WF) (hne : fs ≠ [])
    (r : List (Str × List A)) (hr : readMany vars fs [] = .ok r) (v : Str) :
    (v ∈ vars → ∃ xs, dget r v = some xs ∧ List.Forall₂ (fun f x => HasVar f v x) fs xs) ∧ (v ∉ vars → dget r v = none) := by
  obtain ⟨rs, h1, rfl⟩ := readMany_eq vars fs [] r hr
  have hnd : ∀ r ∈ rs, (r.map Prod.fst).Nodup := by
    intro r hr
    obtain ⟨i, hi, rfl⟩ := List.getElem_of_mem hr
    have hi' : i < fs.length := by rw [h1.length_eq]; exact hi
    exact (readAll_iff _ _ _ _ (h1.get hi' hi)).2.1 (by simp)
  rw [dget_accumulate rs hnd]
  have h0 : dget ([] : List (Str × List A)) v = none := rfl
  rw [h0, Option.getD_none, List.nil_append]
  clear hr
  constructor
  · intro hv
    have key : List.Forall₂ (fun f x => HasVar f v x) fs (rs.filterMap (fun r => dget r v)) := by
      clear hnd hne
      induction h1 with
      | nil => exact .nil
      | @cons f x fs rs h1 _ ih =>
        obtain ⟨h2, -, h3⟩ := readAll_iff _ _ _ _ h1
        obtain ⟨y, hy⟩ := h2 v hv
        have h4 : dget x v = some y := by rw [h3, if_pos hv, hy]
        rw [List.filterMap_cons, h4]
        exact .cons ((c76_read f (hw f List.mem_cons_self) v y).1 hy) (ih (fun g hg => hw g (List.mem_cons_of_mem _ hg)))
    refine ⟨_, ?_, key⟩
    rw [if_neg]
    intro h
    have := key.length_eq
    rw [h] at this
    exact hne (List.length_eq_zero_iff.1 this)
  · intro hv
    have : rs.filterMap (fun r => dget r v) = [] := by
      rw [List.filterMap_eq_nil_iff]
      intro x hx
      obtain ⟨i, hi, rfl⟩ := List.getElem_of_mem hx
      have hi' : i < fs.length := by rw [h1.length_eq]; exact hi
      have := (readAll_iff _ _ _ _ (h1.get hi' hi)).2.2 v
      simp only [List.get_eq_getElem] at this
      rw [this, if_neg hv]
      rfl
    rw [if_pos this]

/-! ### HDF4 -/

theorem sdRead_keys (f : Hdf S) (vars : List Str) : ((sdRead f vars).map Prod.fst) = vars.dedup.filter (fun v => (dget f.sd v).isSome) := by
  unfold sdRead
  induction vars.dedup with
  | nil => rfl
  | cons v t ih =>
    rw [List.filterMap_cons, List.filter_cons]
    cases h : dget f.sd v with
    | none => simp [h, ih]
    | some x => simp [h, ih]

theorem dget_sdRead (f : Hdf S) (vars : List Str) (k : Str) : dget (sdRead f vars) k = if k ∈ vars then dget f.sd k else none := by
  unfold sdRead
  have hd : (if k ∈ vars then dget f.sd k else none) = if k ∈ vars.dedup then dget f.sd k else none := by simp only [List.mem_dedup]
  rw [hd]
  clear hd
  induction vars.dedup with
  | nil => rfl
  | cons v t ih =>
    rw [List.filterMap_cons]
    cases h : dget f.sd v with
    | none =>
      simp only [Option.map_none, ih, List.mem_cons]
      by_cases hk : k = v
      · subst hk; simp [h]
      · simp [hk]
    | some x =>
      simp only [Option.map_some, dget_cons, ih, List.mem_cons]
      by_cases hk : v = k
      · subst hk; simp [h]
      · have : ¬ k = v := fun e => hk e.symm
        simp [hk, this]

theorem vdRead_aux (f : Hdf S) (vars : List Str) : ∀ d : List (Str × S), (d.map Prod.fst).Nodup →
    ((vars.foldl (fun d v => match dget f.vd v with | some x => dictSet d (v, x) | none => d) d).map Prod.fst).Nodup ∧
    ∀ k, dget (vars.foldl (fun d v => match dget f.vd v with | some x => dictSet d (v, x) | none => d) d) k =
      if k ∈ vars then (dget f.vd k).or (dget d k) else dget d k := by
  induction vars with
  | nil => intro d hd; exact ⟨hd, fun k => by simp⟩
  | cons v t ih =>
    intro d hd
    rw [List.foldl_cons]
    cases h : dget f.vd v with
    | none =>
      simp only
      refine ⟨(ih d hd).1, fun k => ?_⟩
      rw [(ih d hd).2]
      by_cases hk : k ∈ t
      · simp [hk]
      · by_cases hv : k = v
        · subst hv; simp [hk, h]
        · simp [hk, hv]
    | some x =>
      simp only
      have hd' := keys_dictSet d v x hd
      refine ⟨(ih _ hd').1, fun k => ?_⟩
      rw [(ih _ hd').2, dget_dictSet]
      by_cases hv : v = k
      · subst hv
        simp [h]
      · have : ¬ k = v := fun e => hv e.symm
        simp [hv, this]

theorem dget_vdRead (f : Hdf S) (vars : List Str) (k : Str) : dget (vdRead f vars) k = if k ∈ vars then dget f.vd k else none := by
  unfold vdRead
  rw [(vdRead_aux f vars [] (by simp)).2]
  simp [dget]

theorem mem_foldl_erase (es : List (Str × S)) : ∀ (vars : List Str) (k : Str), vars.Nodup →
    (k ∈ es.foldl (fun l e => l.erase e.1) vars ↔ k ∈ vars ∧ k ∉ es.map Prod.fst) := by
  induction es with
  | nil => intro vars k _; simp
  | cons e es ih =>
    intro vars k hn
    rw [List.foldl_cons, ih _ _ (hn.erase _), hn.mem_erase_iff, List.map_cons, List.mem_cons]
    tauto

/-- One file. -/
theorem readHdf4_iff (f : Hdf S) (vars : List Str) (hn : vars.Nodup) (r : List (Str × S) × List (Str × S)) (h : readHdf4 f vars = .ok r) :
    (".hdf".toList <:+ f.name) ∧ (∀ v ∈ vars, (dget f.sd v).isSome ∨ (dget f.vd v).isSome) ∧
      (r.1.map Prod.fst).Nodup ∧ (r.2.map Prod.fst).Nodup ∧
      (∀ k, dget r.1 k = if k ∈ vars then dget f.sd k else none) ∧
      (∀ k, dget r.2 k = if k ∈ vars ∧ dget f.sd k = none then dget f.vd k else none) := by
  unfold readHdf4 at h
  split at h
  · cases h
  · rename_i h1
    simp only at h
    split at h
    · cases h
    · rename_i h2
      cases h
      have hs := dget_sdRead f vars
      have hv : ∀ k, dget (vdRead f ((sdRead f vars).foldl (fun l e => l.erase e.1) vars)) k =
          if k ∈ vars ∧ dget f.sd k = none then dget f.vd k else none := by
        intro k
        rw [dget_vdRead]
        congr 1
        rw [mem_foldl_erase _ _ _ hn, sdRead_keys]
        simp only [List.mem_filter, List.mem_dedup, eq_iff_iff]
        constructor
        · rintro ⟨h3, h4⟩
          refine ⟨h3, ?_⟩
          by_contra h5
          exact h4 ⟨h3, Option.isSome_iff_ne_none.2 h5⟩
        · rintro ⟨h3, h4⟩
          exact ⟨h3, fun h5 => by rw [h4] at h5; simp at h5⟩
      refine ⟨?_, ?_, ?_, ?_, hs, hv⟩
      · simpa using h1
      · intro v hv'
        by_contra hc
        rw [not_or] at hc
        apply h2
        rw [List.any_eq_true]
        refine ⟨v, hv', ?_⟩
        rw [any_key, any_key, hs, hv]
        simp only [hv', if_true, true_and]
        have e1 : dget f.sd v = none := by simpa using hc.1
        have e2 : dget f.vd v = none := by simpa using hc.2
        simp [e1, e2]
      · rw [sdRead_keys]; exact (List.nodup_dedup vars).filter _
      · exact (vdRead_aux f _ [] (by simp)).1

theorem readHdf4_total (f : Hdf S) (vars : List Str) (hn : vars.Nodup) (h1 : ".hdf".toList <:+ f.name)
    (h2 : ∀ v ∈ vars, (dget f.sd v).isSome ∨ (dget f.vd v).isSome) : ∃ r, readHdf4 f vars = .ok r := by
  unfold readHdf4
  rw [if_neg (by simpa using h1)]
  simp only
  rw [if_neg]
  · exact ⟨_, rfl⟩
  · intro h
    rw [List.any_eq_true] at h
    obtain ⟨v, hv, h3⟩ := h
    rw [any_key, any_key, dget_sdRead, dget_vdRead, if_pos hv, Bool.and_eq_true] at h3
    obtain ⟨h3, h4⟩ := h3
    have e1 : dget f.sd v = none := by simpa using h3
    have hm : v ∈ (sdRead f vars).foldl (fun l e => l.erase e.1) vars := by
      rw [mem_foldl_erase _ _ _ hn, sdRead_keys]
      exact ⟨hv, fun hm => by rw [List.mem_filter] at hm; rw [e1] at hm; simp at hm⟩
    rw [if_pos hm] at h4
    rcases h2 v hv with h5 | h5
    · rw [e1] at h5; simp at h5
    · simp at h4; rw [h4] at h5; simp at h5

theorem hdfRead_eq (vars : List Str) (fs : List (Hdf S)) : ∀ (s v : List (Str × List S)) (r : List (Str × List S) × List (Str × List S)),
    hdfRead vars fs s v = .ok r → ∃ rs : List (List (Str × S) × List (Str × S)),
      List.Forall₂ (fun f x => readHdf4 f vars = .ok x) fs rs ∧
        r.1 = (rs.map Prod.fst).foldl addAll s ∧ r.2 = (rs.map Prod.snd).foldl addAll v := by
  induction fs with
  | nil => intro s v r h; cases h; exact ⟨[], .nil, rfl, rfl⟩
  | cons f fs ih =>
    intro s v r h
    rw [hdfRead] at h
    cases hr : readHdf4 f vars with
    | error e => rw [hr] at h; cases h
    | ok x =>
      rw [hr] at h
      obtain ⟨rs, h1, h2, h3⟩ := ih _ _ _ h
      exact ⟨x :: rs, .cons hr h1, h2, h3⟩

theorem hdfRead_total (vars : List Str) (fs : List (Hdf S)) (h : ∀ f ∈ fs, ∃ x, readHdf4 f vars = .ok x) :
    ∀ s v : List (Str × List S), ∃ r, hdfRead vars fs s v = .ok r := by
  induction fs with
  | nil => intro s v; exact ⟨_, rfl⟩
  | cons f fs ih =>
    intro s v
    obtain ⟨x, hx⟩ := h f List.mem_cons_self
    rw [hdfRead, hx]
    exact ih (fun g hg => h g (List.mem_cons_of_mem _ hg)) _ _

/-- C77 for HDF4: reading succeeds iff all files are called `*.hdf` and have all the requested variables, as one kind or the other. -/
theorem c77_hdf_success (vars : List Str) (hn : vars.Nodup) (fs : List (Hdf S)) :
    (∃ r, hdfRead vars fs [] [] = .ok r) ↔
      ∀ f ∈ fs, (".hdf".toList <:+ f.name) ∧ ∀ v ∈ vars, (dget f.sd v).isSome ∨ (dget f.vd v).isSome := by
  constructor
  · rintro ⟨r, hr⟩ f hf
    obtain ⟨rs, h1, -, -⟩ := hdfRead_eq vars fs [] [] r hr
    obtain ⟨i, hi, rfl⟩ := List.getElem_of_mem hf
    have h2 := h1.get hi (by rw [← h1.length_eq]; exact hi)
    exact ⟨(readHdf4_iff _ _ hn _ h2).1, (readHdf4_iff _ _ hn _ h2).2.1⟩
  · intro h
    exact hdfRead_total vars fs (fun f hf => readHdf4_total f vars hn (h f hf).1 (h f hf).2) [] []

/-- C77 for HDF4: for every requested variable, the scientific data sets of this name in the order of the files, and the vdata
of the other files in the order of the files. -/
theorem c77_hdf (vars : List Str) (hn : vars.Nodup) (fs : List (Hdf S)) (r : List (Str × List S) × List (Str × List S))
    (hr : hdfRead vars fs [] [] = .ok r) (v : Str) (hv : v ∈ vars) :
    (dget r.1 v).getD [] = fs.filterMap (fun f => dget f.sd v) ∧
      (dget r.2 v).getD [] = (fs.filter (fun f => (dget f.sd v).isNone)).filterMap (fun f => dget f.vd v) ∧
      ((∀ f ∈ fs, (dget f.sd v).isSome) → List.Forall₂ (fun f x => dget f.sd v = some x) fs ((dget r.1 v).getD [])) ∧
      ((∀ f ∈ fs, dget f.sd v = none) → List.Forall₂ (fun f x => dget f.vd v = some x) fs ((dget r.2 v).getD [])) := by
  obtain ⟨rs, h1, h2, h3⟩ := hdfRead_eq vars fs [] [] r hr
  have hnd : (∀ x ∈ rs.map Prod.fst, (x.map Prod.fst).Nodup) ∧ (∀ x ∈ rs.map Prod.snd, (x.map Prod.fst).Nodup) := by
    constructor <;>
    · intro x hx
      obtain ⟨y, hy, rfl⟩ := List.mem_map.1 hx
      obtain ⟨i, hi, rfl⟩ := List.getElem_of_mem hy
      have hi' : i < fs.length := by rw [h1.length_eq]; exact hi
      have := readHdf4_iff _ _ hn _ (h1.get hi' hi)
      first | exact this.2.2.1 | exact this.2.2.2.1
  have h0 : dget ([] : List (Str × List S)) v = none := rfl
  have e1 : (dget r.1 v).getD [] = (rs.map Prod.fst).filterMap (fun x => dget x v) := by
    rw [h2, dget_accumulate _ hnd.1, h0]
    split
    · rename_i h; rw [h]; rfl
    · simp
  have e2 : (dget r.2 v).getD [] = (rs.map Prod.snd).filterMap (fun x => dget x v) := by
    rw [h3, dget_accumulate _ hnd.2, h0]
    split
    · rename_i h; rw [h]; rfl
    · simp
  have f1 : (rs.map Prod.fst).filterMap (fun x => dget x v) = fs.filterMap (fun f => dget f.sd v) := by
    clear hr h2 h3 hnd e1 e2
    induction h1 with
    | nil => rfl
    | @cons f x fs rs h _ ih =>
      have h4 := (readHdf4_iff _ _ hn _ h).2.2.2.2.1 v
      rw [if_pos hv] at h4
      rw [List.map_cons, List.filterMap_cons, List.filterMap_cons, h4, ih]
  have f2 : (rs.map Prod.snd).filterMap (fun x => dget x v) =
      (fs.filter (fun f => (dget f.sd v).isNone)).filterMap (fun f => dget f.vd v) := by
    clear hr h2 h3 hnd e1 e2 f1
    induction h1 with
    | nil => rfl
    | @cons f x fs rs h _ ih =>
      have h4 := (readHdf4_iff _ _ hn _ h).2.2.2.2.2 v
      rw [List.map_cons, List.filterMap_cons, h4, ih, List.filter_cons]
      cases h5 : dget f.sd v with
      | none => simp [hv, List.filterMap_cons]
      | some y => simp
  have hmem : ∀ f ∈ fs, (dget f.sd v).isSome ∨ (dget f.vd v).isSome := fun f hf =>
    ((c77_hdf_success vars hn fs).1 ⟨r, hr⟩ f hf).2 v hv
  rw [e1, e2, f1, f2]
  refine ⟨rfl, rfl, ?_, ?_⟩
  · intro h
    clear * - h
    induction fs with
    | nil => exact .nil
    | cons f fs ih =>
      obtain ⟨x, hx⟩ := Option.isSome_iff_exists.1 (h f List.mem_cons_self)
      rw [List.filterMap_cons, hx]
      exact .cons hx (ih (fun g hg => h g (List.mem_cons_of_mem _ hg)))
  · intro h
    clear * - h hmem
    induction fs with
    | nil => exact .nil
    | cons f fs ih =>
      have hf := h f List.mem_cons_self
      obtain ⟨x, hx⟩ : ∃ x, dget f.vd v = some x := by
        rcases hmem f List.mem_cons_self with h5 | h5
        · rw [hf] at h5; simp at h5
        · exact Option.isSome_iff_exists.1 h5
      rw [List.filter_cons, hf]
      simp only [Option.isNone_none, if_true, List.filterMap_cons, hx]
      exact .cons hx (ih (fun g hg => hmem g (List.mem_cons_of_mem _ hg)) (fun g hg => h g (List.mem_cons_of_mem _ hg)))

/-- C77 is violated by a variable that is a scientific data set in one file and vdata in another: reading succeeds, but neither
list has an entry for every file. -/
theorem c77_mixed_kinds_violated : ∃ (fs : List (Hdf Nat)) (v : Str) (r : List (Str × List Nat) × List (Str × List Nat)),
    hdfRead [v] fs [] [] = .ok r ∧ fs.length = 2 ∧ dget r.1 v = some [1] ∧ dget r.2 v = some [2] :=
  ⟨[⟨"a.hdf".toList, [("x".toList, 1)], []⟩, ⟨"b.hdf".toList, [], [("x".toList, 2)]⟩], "x".toList,
    ([("x".toList, [1])], [("x".toList, [2])]), by decide +kernel, rfl, by decide +kernel, by decide +kernel⟩

/-- C77 is violated by the listing: "if None, both are computed", but vdata are never listed without a type, though they can be read. -/
theorem c77_vdata_not_listed_violated (f : Hdf S) : hdfFileVariables f none = .ok (some (f.sd.map Prod.fst), none) ∧
    hdfFileVariables f (some "vd".toList) = .ok (none, some (f.vd.map Prod.fst)) := by
  constructor
  · rfl
  · unfold hdfFileVariables; simp

/-! ### Concatenation -/

theorem points_append (a b : Arr A) (ha : a.WF) : (maConcat a b).points = a.points ++ b.points := by
  have hl : a.vals.length = a.maskArray.length := by
    unfold Arr.maskArray
    cases h : a.mask with
    | none => simp
    | some m => simp [(ha m h)]
  unfold maConcat
  show ((a.vals ++ b.vals).zip (a.maskArray ++ b.maskArray)).map _ = _
  rw [List.zip_append hl, List.map_append]
  rfl

theorem maConcat_wf (a b : Arr A) (ha : a.WF) (hb : b.WF) : (maConcat a b).WF := by
  have hl : ∀ c : Arr A, c.WF → c.maskArray.length = c.vals.length := by
    intro c hc
    unfold Arr.maskArray
    cases h : c.mask with
    | none => simp
    | some m => simp [hc m h]
  intro m hm
  cases hm
  simp [hl a ha, hl b hb, maConcat]

theorem points_npAppend (a b : Arr A) (ha : a.mask = none) (hb : b.mask = none) : (npConcat a b).points = a.points ++ b.points := by
  have h := points_append a b (by intro m hm; rw [ha] at hm; cases hm)
  rw [← h]
  unfold npConcat maConcat Arr.points Arr.maskArray
  simp [ha, hb, List.replicate_append_replicate]

/-- C77: the concatenation has the points of all the arrays in order, with their masks; an empty list is refused. -/
theorem c77_concatenate (l : List (Arr A)) (hw : ∀ a ∈ l, a.WF) :
    (l = [] → concatenate l = .error .index) ∧
      (l ≠ [] → ∃ r, concatenate l = .ok r ∧ r.points = (l.map Arr.points).flatten) := by
  refine ⟨fun h => by subst h; rfl, fun h => ?_⟩
  cases l with
  | nil => exact absurd rfl h
  | cons a t =>
    refine ⟨_, rfl, ?_⟩
    by_cases hm : (a :: t).any (fun a => a.mask.isSome) = true
    · rw [if_pos hm]
      have : ∀ (t : List (Arr A)) (a : Arr A), a.WF → (∀ b ∈ t, b.WF) → (t.foldl maConcat a).points = a.points ++ (t.map Arr.points).flatten := by
        intro t
        induction t with
        | nil => intro a _ _; simp
        | cons b t ih =>
          intro a ha hb
          rw [List.foldl_cons, ih _ (maConcat_wf a b ha (hb b List.mem_cons_self)) (fun c hc => hb c (List.mem_cons_of_mem _ hc)),
            points_append a b ha]
          simp
      rw [this t a (hw a List.mem_cons_self) (fun b hb => hw b (List.mem_cons_of_mem _ hb))]
      simp
    · rw [if_neg hm]
      rw [Bool.not_eq_true, List.any_eq_false] at hm
      have : ∀ (t : List (Arr A)) (a : Arr A), a.mask = none → (∀ b ∈ t, b.mask = none) →
          (t.foldl npConcat a).points = a.points ++ (t.map Arr.points).flatten := by
        intro t
        induction t with
        | nil => intro a _ _; simp
        | cons b t ih =>
          intro a ha hb
          rw [List.foldl_cons, ih _ rfl (fun c hc => hb c (List.mem_cons_of_mem _ hc)), points_npAppend a b ha (hb b List.mem_cons_self)]
          simp
      rw [this t a (by simpa using hm a List.mem_cons_self) (fun b hb => by simpa using hm b (List.mem_cons_of_mem _ hb))]
      simp

/-- C77: the data of a variable that is a scientific data set in every file are the points of the files one after the other. -/
theorem c77_read_data (vars : List Str) (hn : vars.Nodup) (fs : List (Hdf S)) (hne : fs ≠ [])
    (r : List (Str × List S) × List (Str × List S)) (hr : hdfRead vars fs [] [] = .ok r) (v : Str) (hv : v ∈ vars)
    (hs : ∀ f ∈ fs, (dget f.sd v).isSome) (get : S → Arr A) (hw : ∀ s, (get s).WF) :
    ∃ (xs : List S) (a : Arr A), List.Forall₂ (fun f x => dget f.sd v = some x) fs xs ∧ dget r.1 v = some xs ∧
      readData get xs = .ok a ∧ a.points = (xs.map (fun s => (get s).points)).flatten := by
  have h1 := (c77_hdf vars hn fs r hr v hv).2.2.1 hs
  have hne' : (dget r.1 v).getD [] ≠ [] := by
    intro e
    rw [e] at h1
    cases h1
    exact hne rfl
  obtain ⟨xs, hx⟩ : ∃ xs, dget r.1 v = some xs := by
    cases h : dget r.1 v with
    | none => rw [h] at hne'; exact absurd rfl hne'
    | some xs => exact ⟨xs, rfl⟩
  rw [hx, Option.getD_some] at h1 hne'
  obtain ⟨a, ha, hp⟩ := (c77_concatenate (xs.map get) (by intro a ha; obtain ⟨s, -, rfl⟩ := List.mem_map.1 ha; exact hw s)).2
    (by simpa using hne')
  refine ⟨xs, a, h1, hx, ha, ?_⟩
  rw [hp, List.map_map]
  rfl

example : readMany ["a".toList, "g/b".toList]
    [Grp.mk [("a".toList, 1)] (.cons "g".toList (.mk [("b".toList, 2)] .nil) .nil),
     Grp.mk [("a".toList, 3)] (.cons "g".toList (.mk [("b".toList, 4)] .nil) .nil)] [] =
    .ok [("a".toList, [1, 3]), ("g/b".toList, [2, 4])] := by decide +kernel

example : hdfRead ["a".toList, "t".toList] [⟨"1.hdf".toList, [("a".toList, 1)], [("t".toList, 2)]⟩, ⟨"2.hdf".toList, [("a".toList, 3)], [("t".toList, 4), ("a".toList, 9)]⟩] [] [] =
    .ok ([("a".toList, [1, 3])], [("t".toList, [2, 4])]) := by decide +kernel

example : concatenate [⟨[1, 2], none⟩, ⟨[3], some [true]⟩] = .ok ⟨[1, 2, 3], some [false, false, true]⟩ := by decide +kernel

end Cis.Read
