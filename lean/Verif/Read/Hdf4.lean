import Mathlib.Tactic
set_option linter.unusedSectionVars false
set_option linter.unusedSimpArgs false
/-!
Model of the handles of HDF4 files: `HDF_SDS` (cis/data_io/hdf_sd.py:38-127), `hdf_sd.read` (hdf_sd.py:130-162),
`get_hdf_SD_file_variables` (hdf_sd.py:13-35), `hdf_vd.get_hdf_VD_file_variables` (hdf_vd.py:21-48), `hdf_vd.read` (hdf_vd.py:51-89),
`hdf_vd.get_data` (hdf_vd.py:92-137) and `hdf_vd.get_metadata` (hdf_vd.py:140-176), `hdf_sd.get_metadata` (hdf_sd.py:203-220). Property C125.

Every call of the HDF library may fail, at the will of the environment: `Faults` says which calls do. A handle is a number; the library hands
out a new one at every opening. What the library gives for a call that succeeds is the content of the file. Ending a handle that has been ended
before is an error (pyhdf forgets the number of a handle that was ended, and its library function does not take None). Handles that are
reclaimed by Python's garbage collector are not modelled: closed means closed by the code.
-/
namespace Cis.Hdf4

/-- Which calls of the library fail; calls are counted from the beginning. -/
structure Faults where
  opening : Nat → Bool
  using_ : Nat → Bool
  ending : Nat → Bool

/-- Errors: of the library, at its call number n; or a handle that is not open was used or ended. -/
inductive Err
  | lib (n : Nat)
  | notOpen (h : Nat)
deriving DecidableEq

/-- The state of the library: open handles, the next number, calls so far, and the handles the code has tried to end. -/
structure World where
  live : List Nat
  next : Nat
  calls : Nat
  tried : List Nat
deriving DecidableEq

/-- An outcome: a value or an error, and the state after it. -/
abbrev M (σ α : Type) := σ → Except Err α × σ

def M.pure {σ α : Type} (a : α) : M σ α := fun s => (.ok a, s)

def M.bind {σ α β : Type} (m : M σ α) (f : α → M σ β) : M σ β := fun s =>
  match m s with
  | (.ok a, s') => f a s'
  | (.error e, s') => (.error e, s')

/-- `try: body finally: last` of Python: `last` is always run; an error of it takes the place of whatever came before. -/
def tryFinally {σ α : Type} (body : M σ α) (last : M σ Unit) : M σ α := fun s =>
  let r := body s
  match last r.2 with
  | (.ok _, s') => (r.1, s')
  | (.error e, s') => (.error e, s')

/-- Opening: `SD(filename)`, `select`, `HDF(filename)`, `vstart`, `attach`. -/
def openH (F : Faults) : M World Nat := fun w =>
  if F.opening w.calls then (.error (.lib w.calls), { w with calls := w.calls + 1 })
  else (.ok w.next, { w with calls := w.calls + 1, live := w.next :: w.live, next := w.next + 1 })

/-- A call that gives something of the file: `get`, `attributes`, `info`, `datasets`, `read`, `inquire`, `vdatainfo`, … -/
def useH {α : Type} (F : Faults) (h : Nat) (content : α) : M World α := fun w =>
  if h ∉ w.live then (.error (.notOpen h), { w with calls := w.calls + 1 })
  else if F.using_ w.calls then (.error (.lib w.calls), { w with calls := w.calls + 1 })
  else (.ok content, { w with calls := w.calls + 1 })

/-- Ending: `endaccess`, `end`, `detach`, `close`. -/
def endH (F : Faults) (h : Nat) : M World Unit := fun w =>
  if h ∉ w.live then (.error (.notOpen h), { w with calls := w.calls + 1, tried := h :: w.tried })
  else if F.ending w.calls then (.error (.lib w.calls), { w with calls := w.calls + 1, tried := h :: w.tried })
  else (.ok (), { w with calls := w.calls + 1, live := w.live.erase h, tried := h :: w.tried })

/-! ### `HDF_SDS` -/

/-- The attributes `_sd`, `_sds` of an `HDF_SDS` (hdf_sd.py:44-45). -/
structure Sds where
  sd : Option Nat
  sds : Option Nat
deriving DecidableEq

/-- The state while a method of `HDF_SDS` runs. -/
structure St where
  w : World
  o : Sds
deriving DecidableEq

/-- A call of the library from a method. -/
def lift {α : Type} (m : M World α) : M St α := fun s => ((m s.w).1, { s with w := (m s.w).2 })

/-- `_open_sds` (hdf_sd.py:56-63). -/
def openSds (F : Faults) : M St Nat :=
  .bind (lift (openH F)) fun sd => .bind (fun s => (.ok (), { s with o := { s.o with sd := some sd } })) fun _ =>
  .bind (lift (openH F)) fun sds => .bind (fun s => (.ok (), { s with o := { s.o with sds := some sds } })) fun _ => .pure sds

/-- `if x is not None: x.end()` (hdf_sd.py:72-76). -/
def endOpt (F : Faults) (x : Sds → Option Nat) : M St Unit := fun s =>
  match x s.o with
  | none => (.ok (), s)
  | some h => lift (endH F h) s

/-- `_close_sds` (hdf_sd.py:65-76). -/
def closeSds (F : Faults) : M St Unit := tryFinally (endOpt F Sds.sds) (endOpt F Sds.sd)

/-- `get`, `attributes`, `info` and `dimensions` (hdf_sd.py:78-127): one call between opening and closing. `dimensions` asks the file and not
the data set, which makes no difference here. -/
def method {α : Type} (F : Faults) (content : α) : M St α :=
  tryFinally (.bind (openSds F) fun h => lift (useH F h content)) (closeSds F)

/-- What a program has: the state of the library and any number of `HDF_SDS` objects. -/
structure Prog where
  w : World
  objs : Nat → Sds

/-- A method of object `i` is called. -/
def callOn {α : Type} (F : Faults) (i : Nat) (content : α) (p : Prog) : Except Err α × Prog :=
  let r := method F content ⟨p.w, p.objs i⟩
  (r.1, ⟨r.2.w, fun j => if j = i then r.2.o else p.objs j⟩)

/-- A history of calls, each with the content the file has for it. -/
def run {α : Type} (F : Faults) : List (Nat × α) → Prog → List (Except Err α) × Prog
  | [], p => ([], p)
  | (i, c) :: t, p =>
    let r := callOn F i c p
    let q := run F t r.2
    (r.1 :: q.1, q.2)

/-- A fresh program: nothing is open, every object is as made by `__init__` (hdf_sd.py:49-54). -/
def fresh : Prog := ⟨⟨[], 0, 0, []⟩, fun _ => ⟨none, none⟩⟩

/-- The argument of `get` (hdf_sd.py:82-88): what is given, otherwise what is stored in the object. -/
def slabOf {S : Type} (given stored : Option S × Option S × Option S) : Option S × Option S × Option S :=
  (given.1.or stored.1, given.2.1.or stored.2.1, given.2.2.or stored.2.2)

/-! ### Functions that open a file themselves -/

/-- The first part of `hdf_sd.read` (hdf_sd.py:145-152): the names of the data sets. -/
def sdNames {α : Type} (F : Faults) (names : α) : M World α := fun w =>
  match openH F w with
  | (.error e, w') => (.error e, w')
  | (.ok h, w') => tryFinally (useH F h names) (endH F h) w'

/-- `get_hdf_SD_file_variables` (hdf_sd.py:13-35): after any error the variables are what they were before it, and nothing is raised. -/
def sdVariables {α : Type} (F : Faults) (names : α) : M World (Option α) := fun w =>
  match openH F w with
  | (.error _, w') => (.ok none, w')
  | (.ok h, w') => match useH F h names w' with
    | (.error _, w'') => (.ok none, w'')
    | (.ok v, w'') => (.ok (some v), (endH F h w'').2)

/-- `get_hdf_VD_file_variables` (hdf_vd.py:21-48). -/
def vdVariables {α : Type} (F : Faults) (names : α) : M World (Option α) := fun w =>
  match openH F w with
  | (.error _, w1) => (.ok none, w1)
  | (.ok f, w1) => match openH F w1 with
    | (.error _, w2) => (.ok none, w2)
    | (.ok v, w2) => match useH F v names w2 with
      | (.error _, w3) => (.ok none, w3)
      | (.ok x, w3) => (.ok (some x), (M.bind (endH F v) (fun _ => endH F f) w3).2)

/-- The loop of `hdf_vd.read` (hdf_vd.py:74-81): variables that cannot be attached or detached are left out. -/
def attachAll {V : Type} (F : Faults) (there : V → Bool) : List V → M World (List V)
  | [] => .pure []
  | v :: t => fun w =>
    let r : Except Err Unit × World := if there v then M.bind (openH F) (endH F) w else (.error (.lib w.calls), { w with calls := w.calls + 1 })
    let q := attachAll F there t r.2
    match r.1, q.1 with
    | _, .error e => (.error e, q.2)
    | .ok _, .ok l => (.ok (v :: l), q.2)
    | .error _, .ok l => (.ok l, q.2)

/-- `hdf_vd.read` (hdf_vd.py:51-89): in `finally` first the interface is ended, then the file closed. -/
def vdRead {V : Type} (F : Faults) (there : V → Bool) (vars : List V) : M World (List V) := fun w =>
  match openH F w with
  | (.error e, w1) => (.error e, w1)
  | (.ok f, w1) => match openH F w1 with
    | (.error e, w2) => tryFinally (fun w => (.error e, w)) (endH F f) w2
    | (.ok v, w2) => tryFinally (attachAll F there vars) (M.bind (endH F v) (fun _ => endH F f)) w2

/-- `get_data` and `get_metadata` of vdata (hdf_vd.py:92-176), as far as handles go: file, interface and vdata are opened, read by one or more
calls, and then ended in the other order. There is no `finally`. -/
def vdGet {α : Type} (F : Faults) (content : α) : M World α :=
  .bind (openH F) fun f => .bind (openH F) fun vs => .bind (openH F) fun vd => .bind (useH F vd content) fun x =>
  .bind (endH F vd) fun _ => .bind (endH F vs) fun _ => .bind (endH F f) fun _ => .pure x

/-! ### What vdata give -/

/-- A vdata: its records, each with the values of all its fields, and its attributes. -/
structure VData where
  records : List (List ℚ)
  attrs : List (String × ℚ)

/-- `_get_attribute_value` (hdf_vd.py:179-186). -/
def VData.attr (d : VData) (name : String) : Option ℚ := d.attrs.lookup name

/-- One missing value (cis/utils.py:147-149); None is no missing value. -/
def maskOne (l : List (Option ℚ)) : Option ℚ → List (Option ℚ)
  | none => l
  | some x => l.map (fun v => if v = some x then none else v)

/-- `create_masked_array_for_missing_values` (cis/utils.py:143-151): `none` is a masked value. -/
def maskMissing (data : List ℚ) (missing : List (Option ℚ)) : List (Option ℚ) := missing.foldl maskOne (data.map some)

/-- `get_data` (hdf_vd.py:104-131); `first` is the first record, restricted to the variable, of the first vdata of the file. -/
def vdData (d : VData) (first : Option (List ℚ)) (missing : Option (List (Option ℚ))) : List (Option ℚ) :=
  let data := match first with
    | some r => r
    | none => d.records.flatten
  maskMissing data (missing.getD [d.attr "missing"])

/-- `_pop_attribute_value` (hdf_vd.py:189-196), `misc.pop` (hdf_sd.py:209-213). -/
def popAttr {V : Type} (name : String) (attrs : List (String × V)) : Option V × List (String × V) :=
  (attrs.lookup name, attrs.filter (fun p => p.1 ≠ name))

/-- Metadata as made here; texts that are missing are empty and the others None, both `none` here. -/
structure Meta_ (V : Type) where
  longName : Option V
  units : Option V
  factor : Option V
  offset : Option V
  missing : Option V
  shape : List Nat
  misc : List (String × V)

/-- The part `get_metadata` of both kinds have in common (hdf_vd.py:153-168, hdf_sd.py:208-218). -/
def metadata {V : Type} (fac off mis : String) (attrs : List (String × V)) (shape : List Nat) : Meta_ V :=
  let a := popAttr "long_name" attrs
  let b := popAttr "units" a.2
  let c := popAttr fac b.2
  let d := popAttr off c.2
  let e := popAttr mis d.2
  ⟨a.1, b.1, c.1, d.1, e.1, shape, e.2⟩

/-- `get_metadata` of vdata (hdf_vd.py:140-176). -/
def vdMeta (d : VData) : Meta_ ℚ := metadata "factor" "offset" "missing" d.attrs [d.records.length]

/-- `get_metadata` of scientific data sets (hdf_sd.py:203-220). -/
def sdMeta {V : Type} (attrs : List (String × V)) (shape : List Nat) : Meta_ V :=
  metadata "scale_factor" "add_offset" "_FillValue" attrs shape

/-! ### Specification -/
namespace Spec

/-- No call of the library fails. -/
def NoFaults (F : Faults) : Prop := (∀ n, F.opening n = false) ∧ (∀ n, F.using_ n = false) ∧ ∀ n, F.ending n = false

/-- Whatever is open after and was not before, the code has tried to end. -/
def Tried (w w' : World) : Prop := ∀ h ∈ w'.live, h ∈ w.live ∨ h ∈ w'.tried

/-- The same handles are open. -/
def SameOpen (w w' : World) : Prop := ∀ h, h ∈ w'.live ↔ h ∈ w.live

/-- States of the library that can be reached: open handles have been handed out, each once. -/
def Proper (w : World) : Prop := w.live.Nodup ∧ ∀ h ∈ w.live, h < w.next

end Spec

open Spec

theorem openH_cases (F : Faults) (w : World) :
    (F.opening w.calls = true ∧ openH F w = (.error (.lib w.calls), { w with calls := w.calls + 1 })) ∨
    (F.opening w.calls = false ∧ openH F w = (.ok w.next, { w with calls := w.calls + 1, live := w.next :: w.live, next := w.next + 1 })) := by
  unfold openH; cases F.opening w.calls <;> simp

/-- A step of the library that ends, uses or opens nothing else. -/
theorem endH_live (F : Faults) (h : Nat) (w : World) : ∀ x ∈ (endH F h w).2.live, x ∈ w.live := by
  intro x hx
  unfold endH at hx
  split at hx
  · exact hx
  · split at hx
    · exact hx
    · exact List.mem_of_mem_erase hx

theorem endH_tried (F : Faults) (h : Nat) (w : World) : (endH F h w).2.tried = h :: w.tried := by
  unfold endH; split
  · rfl
  · split <;> rfl

theorem useH_live {α : Type} (F : Faults) (h : Nat) (c : α) (w : World) :
    (useH F h c w).2.live = w.live ∧ (useH F h c w).2.tried = w.tried ∧ (useH F h c w).2.next = w.next := by
  unfold useH; split
  · exact ⟨rfl, rfl, rfl⟩
  · split <;> exact ⟨rfl, rfl, rfl⟩

theorem closeSds_eq (F : Faults) (s : St) :
    (closeSds F s).2.o = s.o ∧ (∀ x ∈ (closeSds F s).2.w.live, x ∈ s.w.live) ∧
    (∀ x ∈ s.w.tried, x ∈ (closeSds F s).2.w.tried) ∧
    (∀ h, s.o.sd = some h → h ∈ (closeSds F s).2.w.tried) ∧ (∀ h, s.o.sds = some h → h ∈ (closeSds F s).2.w.tried) := by
  have one : ∀ (x : Sds → Option Nat) (s : St), (endOpt F x s).2.o = s.o ∧ (∀ y ∈ (endOpt F x s).2.w.live, y ∈ s.w.live) ∧
      (∀ y ∈ s.w.tried, y ∈ (endOpt F x s).2.w.tried) ∧ (∀ h, x s.o = some h → h ∈ (endOpt F x s).2.w.tried) := by
    intro x s
    unfold endOpt
    split
    · rename_i hx
      refine ⟨rfl, fun y hy => hy, fun y hy => hy, fun h hh => ?_⟩
      rw [hx] at hh; cases hh
    · rename_i h hx
      simp only [lift]
      refine ⟨trivial, endH_live F h s.w, ?_, ?_⟩
      · intro y hy; rw [endH_tried]; exact List.mem_cons_of_mem _ hy
      · intro h' hh; rw [hx] at hh; injection hh with hh; subst hh; rw [endH_tried]; exact List.mem_cons_self
  have hstate : (closeSds F s).2 = (endOpt F Sds.sd (endOpt F Sds.sds s).2).2 := by
    unfold closeSds tryFinally
    dsimp only
    split <;> (rename_i hh; rw [hh])
  rw [hstate]
  obtain ⟨a1, a2, a3, a4⟩ := one Sds.sds s
  obtain ⟨b1, b2, b3, b4⟩ := one Sds.sd (endOpt F Sds.sds s).2
  refine ⟨b1.trans a1, fun x hx => a2 x (b2 x hx), fun x hx => b3 x (a3 x hx), fun h hh => b4 h (by rw [a1]; exact hh), fun h hh => b3 h (a4 h hh)⟩


/-- What happens between opening and closing. -/
theorem body_cases {α : Type} (F : Faults) (c : α) (s : St) :
    (F.opening s.w.calls = true ∧ (M.bind (openSds F) fun h => lift (useH F h c)) s =
      (.error (.lib s.w.calls), ⟨{ s.w with calls := s.w.calls + 1 }, s.o⟩)) ∨
    (F.opening s.w.calls = false ∧ F.opening (s.w.calls + 1) = true ∧ (M.bind (openSds F) fun h => lift (useH F h c)) s =
      (.error (.lib (s.w.calls + 1)), ⟨⟨s.w.next :: s.w.live, s.w.next + 1, s.w.calls + 2, s.w.tried⟩, ⟨some s.w.next, s.o.sds⟩⟩)) ∨
    (F.opening s.w.calls = false ∧ F.opening (s.w.calls + 1) = false ∧ (M.bind (openSds F) fun h => lift (useH F h c)) s =
      (if F.using_ (s.w.calls + 2) then .error (.lib (s.w.calls + 2)) else .ok c,
        ⟨⟨(s.w.next + 1) :: s.w.next :: s.w.live, s.w.next + 2, s.w.calls + 3, s.w.tried⟩, ⟨some s.w.next, some (s.w.next + 1)⟩⟩)) := by
  cases h1 : F.opening s.w.calls
  · cases h2 : F.opening (s.w.calls + 1)
    · right; right
      refine ⟨rfl, rfl, ?_⟩
      cases h3 : F.using_ (s.w.calls + 2) <;> simp [M.bind, openSds, lift, openH, useH, M.pure, h1, h2, h3]
    · right; left
      refine ⟨rfl, rfl, ?_⟩
      simp [M.bind, openSds, lift, openH, M.pure, h1, h2]
  · left
    refine ⟨rfl, ?_⟩
    simp [M.bind, openSds, lift, openH, M.pure, h1]

theorem method_state {α : Type} (F : Faults) (c : α) (s : St) :
    (method F c s).2 = (closeSds F ((M.bind (openSds F) fun h => lift (useH F h c)) s).2).2 := by
  unfold method tryFinally
  dsimp only
  split <;> (rename_i hh; rw [hh])

/-- Everything that is opened is closed, as far as the library lets it. -/
theorem method_tried {α : Type} (F : Faults) (c : α) (s : St) : Tried s.w (method F c s).2.w ∧
    (∀ x ∈ s.w.tried, x ∈ (method F c s).2.w.tried) := by
  rw [method_state]
  obtain ⟨_, k2, k3, k4, k5⟩ := closeSds_eq F ((M.bind (openSds F) fun h => lift (useH F h c)) s).2
  rcases body_cases F c s with ⟨_, h⟩ | ⟨_, _, h⟩ | ⟨_, _, h⟩ <;> rw [h] at k2 k3 k4 k5 ⊢ <;> simp only at k2 k3 k4 k5 ⊢
  · exact ⟨fun x hx => Or.inl (k2 x hx), k3⟩
  · refine ⟨fun x hx => ?_, k3⟩
    rcases List.mem_cons.1 (k2 x hx) with rfl | hl
    · exact Or.inr (k4 _ rfl)
    · exact Or.inl hl
  · refine ⟨fun x hx => ?_, k3⟩
    rcases List.mem_cons.1 (k2 x hx) with rfl | hl
    · exact Or.inr (k5 _ rfl)
    · rcases List.mem_cons.1 hl with rfl | hl
      · exact Or.inr (k4 _ rfl)
      · exact Or.inl hl

/-- What an object keeps is not open. -/
def Stale (w : World) (o : Sds) : Prop := (∀ h, o.sd = some h → h ∉ w.live ∧ h < w.next) ∧ (∀ h, o.sds = some h → h ∉ w.live ∧ h < w.next)

theorem endOpt_stale (F : Faults) (x : Sds → Option Nat) (s : St) (hx : ∀ h, x s.o = some h → h ∉ s.w.live) :
    (endOpt F x s).2.w.live = s.w.live ∧ (endOpt F x s).2.w.next = s.w.next ∧ (endOpt F x s).2.o = s.o ∧
    (endOpt F x s).1 = (match x s.o with | none => .ok () | some h => .error (.notOpen h)) := by
  unfold endOpt
  cases hh : x s.o with
  | none => exact ⟨rfl, rfl, rfl, rfl⟩
  | some h => simp [lift, endH, hx h hh]

theorem endOpt_live (F : Faults) (hE : ∀ n, F.ending n = false) (x : Sds → Option Nat) (s : St) (h : Nat) (hx : x s.o = some h) (hl : h ∈ s.w.live) :
    (endOpt F x s).2.w.live = s.w.live.erase h ∧ (endOpt F x s).2.w.next = s.w.next ∧ (endOpt F x s).2.o = s.o ∧
    (endOpt F x s).1 = .ok () := by
  unfold endOpt
  rw [hx]
  simp [lift, endH, hl, hE]

theorem closeSds_state (F : Faults) (s : St) : (closeSds F s).2 = (endOpt F Sds.sd (endOpt F Sds.sds s).2).2 := by
  unfold closeSds tryFinally
  dsimp only
  split <;> (rename_i hh; rw [hh])

/-- If the library can end what it has opened, a method leaves open exactly what was open before. -/
theorem method_live {α : Type} (F : Faults) (hE : ∀ n, F.ending n = false) (c : α) (s : St) (ho : Stale s.w s.o) (hp : ∀ h ∈ s.w.live, h < s.w.next) :
    (method F c s).2.w.live = s.w.live ∧ s.w.next ≤ (method F c s).2.w.next ∧ Stale (method F c s).2.w (method F c s).2.o := by
  have hn1 : s.w.next ∉ s.w.live := fun h => lt_irrefl _ (hp _ h)
  have hn2 : s.w.next + 1 ∉ s.w.live := fun h => by have := hp _ h; omega
  rw [method_state, closeSds_state]
  rcases body_cases F c s with ⟨_, h⟩ | ⟨_, _, h⟩ | ⟨_, _, h⟩ <;> rw [h] <;> simp only
  · obtain ⟨a1, a2, a3, _⟩ := endOpt_stale F Sds.sds ⟨{ s.w with calls := s.w.calls + 1 }, s.o⟩ (fun h hh => (ho.2 h hh).1)
    obtain ⟨b1, b2, b3, _⟩ := endOpt_stale F Sds.sd (endOpt F Sds.sds ⟨{ s.w with calls := s.w.calls + 1 }, s.o⟩).2
      (fun h hh => by rw [a1]; rw [a3] at hh; exact (ho.1 h hh).1)
    rw [b1, b2, b3, a1, a2, a3]
    refine ⟨rfl, le_refl _, ?_⟩
    unfold Stale; rw [b1, b2, a1, a2]; exact ho
  · obtain ⟨a1, a2, a3, _⟩ := endOpt_stale F Sds.sds ⟨⟨s.w.next :: s.w.live, s.w.next + 1, s.w.calls + 2, s.w.tried⟩, ⟨some s.w.next, s.o.sds⟩⟩
      (fun h hh => by
        have := ho.2 h hh
        simp only [List.mem_cons, not_or]
        exact ⟨by omega, this.1⟩)
    obtain ⟨b1, b2, b3, _⟩ := endOpt_live F hE Sds.sd (endOpt F Sds.sds ⟨⟨s.w.next :: s.w.live, s.w.next + 1, s.w.calls + 2, s.w.tried⟩, ⟨some s.w.next, s.o.sds⟩⟩).2
      s.w.next (by rw [a3]) (by rw [a1]; exact List.mem_cons_self)
    have hl : (List.cons s.w.next s.w.live).erase s.w.next = s.w.live := by simp
    rw [b1, b2, b3, a1, a2, a3]
    refine ⟨hl, by simp, ?_⟩
    unfold Stale; rw [b1, b2, a1, a2]
    simp only [hl, Option.some.injEq, forall_eq']
    exact ⟨⟨hn1, by omega⟩, fun h hh => ⟨(ho.2 h hh).1, by have := (ho.2 h hh).2; omega⟩⟩
  · set st : St := ⟨⟨(s.w.next + 1) :: s.w.next :: s.w.live, s.w.next + 2, s.w.calls + 3, s.w.tried⟩, ⟨some s.w.next, some (s.w.next + 1)⟩⟩ with hst
    obtain ⟨a1, a2, a3, _⟩ := endOpt_live F hE Sds.sds st (s.w.next + 1) rfl (by simp [hst])
    have e1 : (endOpt F Sds.sds st).2.w.live = s.w.next :: s.w.live := by rw [a1]; simp [hst]
    obtain ⟨b1, b2, b3, _⟩ := endOpt_live F hE Sds.sd (endOpt F Sds.sds st).2 s.w.next (by rw [a3]) (by rw [e1]; exact List.mem_cons_self)
    have e2 : (endOpt F Sds.sd (endOpt F Sds.sds st).2).2.w.live = s.w.live := by rw [b1, e1]; simp
    rw [e2, b2, b3, a2, a3]
    refine ⟨rfl, by simp [hst], ?_⟩
    unfold Stale; rw [e2, b2, a2]
    simp [hst]
    exact ⟨hn1, hn2⟩


/-- Whatever a history of calls on any number of objects meets, everything that is still open the code has tried to end. -/
theorem c125_tried {α : Type} (F : Faults) (calls : List (Nat × α)) : Tried fresh.w (run F calls fresh).2.w := by
  have key : ∀ (l : List (Nat × α)) (p : Prog), Tried p.w (run F l p).2.w ∧ ∀ x ∈ p.w.tried, x ∈ (run F l p).2.w.tried := by
    intro l
    induction l with
    | nil => intro p; exact ⟨fun h hh => Or.inl hh, fun x hx => hx⟩
    | cons a t ih =>
      intro p
      obtain ⟨i, c⟩ := a
      obtain ⟨h1, h2⟩ := method_tried F c ⟨p.w, p.objs i⟩
      obtain ⟨k1, k2⟩ := ih (callOn F i c p).2
      refine ⟨fun h hh => ?_, fun x hx => k2 x (h2 x hx)⟩
      rcases k1 h hh with hl | ht
      · rcases h1 h hl with hl' | ht'
        · exact Or.inl hl'
        · exact Or.inr (k2 h ht')
      · exact Or.inr ht
  exact (key calls fresh).1

theorem run_inv {α : Type} (F : Faults) (hE : ∀ n, F.ending n = false) (l : List (Nat × α)) (p : Prog) (h0 : p.w.live = [])
    (ho : ∀ j, Stale p.w (p.objs j)) : (run F l p).2.w.live = [] ∧ ∀ j, Stale (run F l p).2.w ((run F l p).2.objs j) := by
  induction l generalizing p with
  | nil => exact ⟨h0, ho⟩
  | cons a t ih =>
    obtain ⟨i, c⟩ := a
    obtain ⟨h1, h2, h3⟩ := method_live F hE c ⟨p.w, p.objs i⟩ (ho i) (by rw [h0]; simp)
    refine ih (callOn F i c p).2 (h1.trans h0) (fun j => ?_)
    show Stale (method F c ⟨p.w, p.objs i⟩).2.w (if j = i then (method F c ⟨p.w, p.objs i⟩).2.o else p.objs j)
    split
    · exact h3
    · unfold Stale; rw [h1]
      exact ⟨fun h hh => ⟨((ho j).1 h hh).1, lt_of_lt_of_le ((ho j).1 h hh).2 h2⟩, fun h hh => ⟨((ho j).2 h hh).1, lt_of_lt_of_le ((ho j).2 h hh).2 h2⟩⟩

theorem fresh_stale (j : Nat) : Stale fresh.w (fresh.objs j) := by
  constructor <;> intro h hh <;> cases hh

/-- If the library can end what it has opened, no file and no data set is open after any history of calls, whatever else fails in it. -/
theorem c125_closed {α : Type} (F : Faults) (hE : ∀ n, F.ending n = false) (calls : List (Nat × α)) : (run F calls fresh).2.w.live = [] :=
  (run_inv F hE calls fresh rfl fresh_stale).1

/-- The result of one call: what the file has, exactly if none of the five calls of the library fails. -/
theorem method_result {α : Type} (F : Faults) (c : α) (s : St) :
    (∀ x, (method F c s).1 = .ok x → x = c) ∧
    (((method F c s).1 = .ok c) ↔ F.opening s.w.calls = false ∧ F.opening (s.w.calls + 1) = false ∧ F.using_ (s.w.calls + 2) = false ∧
      F.ending (s.w.calls + 3) = false ∧ F.ending (s.w.calls + 4) = false) := by
  have hm : method F c s = (match closeSds F ((M.bind (openSds F) fun h => lift (useH F h c)) s).2 with
      | (.ok _, s') => (((M.bind (openSds F) fun h => lift (useH F h c)) s).1, s')
      | (.error e, s') => (.error e, s')) := by
    unfold method tryFinally; dsimp only; split <;> (rename_i hh; simp [hh])
  rcases body_cases F c s with ⟨g1, h⟩ | ⟨g1, g2, h⟩ | ⟨g1, g2, h⟩
  · rw [hm, h]; simp only [g1]
    constructor
    · intro x hx
      split at hx <;> cases hx
    · constructor
      · intro hx; split at hx <;> cases hx
      · rintro ⟨h', _⟩; cases h'
  · rw [hm, h]; simp only [g1, g2]
    constructor
    · intro x hx
      split at hx <;> cases hx
    · constructor
      · intro hx; split at hx <;> cases hx
      · rintro ⟨_, h', _⟩; cases h'
  · rw [hm, h]; simp only [g1, g2]
    cases g3 : F.using_ (s.w.calls + 2)
    · cases g4 : F.ending (s.w.calls + 3)
      · cases g5 : F.ending (s.w.calls + 4) <;> simp [closeSds, tryFinally, endOpt, lift, endH, g4, g5]
      · cases g5 : F.ending (s.w.calls + 4) <;> simp [closeSds, tryFinally, endOpt, lift, endH, g4, g5]
    · cases g4 : F.ending (s.w.calls + 3)
      · cases g5 : F.ending (s.w.calls + 4) <;> simp [closeSds, tryFinally, endOpt, lift, endH, g4, g5]
      · cases g5 : F.ending (s.w.calls + 4) <;> simp [closeSds, tryFinally, endOpt, lift, endH, g4, g5]

/-- In every history each call gives what the file has for it, or an error; and if the library never fails, all give what the file has. -/
theorem c125_values {α : Type} (F : Faults) (calls : List (Nat × α)) (p : Prog) :
    (run F calls p).1.length = calls.length ∧
    (∀ (k i : Nat) (c x : α), calls[k]? = some (i, c) → (run F calls p).1[k]? = some (Except.ok x) → x = c) ∧
    (NoFaults F → (run F calls p).1 = calls.map (fun q => Except.ok q.2)) := by
  induction calls generalizing p with
  | nil => exact ⟨rfl, by simp, fun _ => rfl⟩
  | cons a t ih =>
    obtain ⟨i, c⟩ := a
    obtain ⟨k1, k2, k3⟩ := ih (callOn F i c p).2
    obtain ⟨h1, h2⟩ := method_result F c ⟨p.w, p.objs i⟩
    refine ⟨by simp [run, k1], ?_, ?_⟩
    · intro k j d x hk hx
      cases k with
      | zero =>
        simp only [List.getElem?_cons_zero, Option.some.injEq, Prod.mk.injEq, run] at hk hx
        obtain ⟨-, rfl⟩ := hk
        exact h1 x hx
      | succ k =>
        simp only [List.getElem?_cons_succ, run] at hk hx
        exact k2 k j d x hk hx
    · intro hF
      have : (callOn F i c p).1 = .ok c := h2.2 ⟨hF.1 _, hF.1 _, hF.2.1 _, hF.2.2 _, hF.2.2 _⟩
      simp only [run, List.map_cons, this, k3 hF]

/-- A call succeeds exactly if the library opens the file, finds the data set, gives what is asked for, and ends both. -/
theorem c125_success_iff {α : Type} (F : Faults) (i : Nat) (c : α) (p : Prog) :
    ((callOn F i c p).1 = .ok c) ↔ F.opening p.w.calls = false ∧ F.opening (p.w.calls + 1) = false ∧ F.using_ (p.w.calls + 2) = false ∧
      F.ending (p.w.calls + 3) = false ∧ F.ending (p.w.calls + 4) = false :=
  (method_result F c ⟨p.w, p.objs i⟩).2

/-- The first call on an object reports the first failure: of the file, of the data set, or of what is asked for (closing does not fail).
Missing: later calls on the same object, see `c125_error_violated`. -/
theorem c125_error {α : Type} (F : Faults) (hE : ∀ n, F.ending n = false) (i : Nat) (c : α) (p : Prog) (hi : p.objs i = ⟨none, none⟩) :
    (callOn F i c p).1 =
      if F.opening p.w.calls then .error (.lib p.w.calls)
      else if F.opening (p.w.calls + 1) then .error (.lib (p.w.calls + 1))
      else if F.using_ (p.w.calls + 2) then .error (.lib (p.w.calls + 2))
      else .ok c := by
  have hm : (callOn F i c p).1 = (match closeSds F ((M.bind (openSds F) fun h => lift (useH F h c)) ⟨p.w, p.objs i⟩).2 with
      | (.ok _, s') => (((M.bind (openSds F) fun h => lift (useH F h c)) ⟨p.w, p.objs i⟩).1, s')
      | (.error e, s') => (.error e, s')).1 := by
    unfold callOn method tryFinally; dsimp only; split <;> (rename_i hh; simp [hh])
  rw [hm]
  rcases body_cases F c ⟨p.w, p.objs i⟩ with ⟨g1, h⟩ | ⟨g1, g2, h⟩ | ⟨g1, g2, h⟩ <;> rw [h] <;> simp only at g1
  · simp [closeSds, tryFinally, endOpt, hi, g1]
  · simp only at g2
    simp [closeSds, tryFinally, endOpt, hi, g1, g2, lift, endH, hE]
  · simp only at g2
    cases g3 : F.using_ (p.w.calls + 2) <;> simp [closeSds, tryFinally, endOpt, hi, g1, g2, g3, lift, endH, hE]

/-- Once a call has succeeded, a failure to open the file again is reported as an attempt to end a handle that is not open. -/
theorem c125_error_lost {α : Type} (F : Faults) (hE : ∀ n, F.ending n = false) (i : Nat) (c d : α) (p : Prog) (hp : p.w.live = [])
    (h1 : (callOn F i c p).1 = .ok c) (h2 : F.opening (p.w.calls + 5) = true) :
    (callOn F i d (callOn F i c p).2).1 = .error (.notOpen p.w.next) := by
  obtain ⟨g1, g2, g3, g4, g5⟩ := (c125_success_iff F i c p).1 h1
  have hs : (method F c ⟨p.w, p.objs i⟩).2 = ⟨⟨[], p.w.next + 2, p.w.calls + 5, p.w.next :: (p.w.next + 1) :: p.w.tried⟩, ⟨some p.w.next, some (p.w.next + 1)⟩⟩ := by
    rw [method_state, closeSds_state]
    rcases body_cases F c ⟨p.w, p.objs i⟩ with ⟨g1', h⟩ | ⟨_, g2', h⟩ | ⟨_, _, h⟩
    · simp only at g1'; rw [g1] at g1'; cases g1'
    · simp only at g2'; rw [g2] at g2'; cases g2'
    · rw [h]
      simp [endOpt, lift, endH, hE, hp]
  have hq : (callOn F i c p).2.objs i = ⟨some p.w.next, some (p.w.next + 1)⟩ := by
    show (if i = i then _ else _) = _
    rw [if_pos rfl, hs]
  have hw : (callOn F i c p).2.w = ⟨[], p.w.next + 2, p.w.calls + 5, p.w.next :: (p.w.next + 1) :: p.w.tried⟩ := by
    show (method F c ⟨p.w, p.objs i⟩).2.w = _
    rw [hs]
  show (method F d ⟨(callOn F i c p).2.w, (callOn F i c p).2.objs i⟩).1 = _
  rw [hq, hw]
  unfold method tryFinally
  simp [M.bind, openSds, lift, openH, h2, closeSds, tryFinally, endOpt, endH]

/-- Faults at the given numbers only. -/
def faultsAt (o u e : List Nat) : Faults := ⟨fun n => decide (n ∈ o), fun n => decide (n ∈ u), fun n => decide (n ∈ e)⟩

/-- The file can be read once and has vanished when it is to be read again: the error is not that of the file. -/
theorem c125_error_violated : ∃ (F : Faults) (calls : List (Nat × Nat)), (∀ n, F.ending n = false) ∧ F.opening 5 = true ∧
    (run F calls fresh).1[1]? = some (.error (.notOpen 0)) ∧ (run F calls fresh).1[1]? ≠ some (.error (.lib 5)) := by
  refine ⟨faultsAt [5] [] [], [(0, 7), (0, 8)], fun n => rfl, rfl, ?_, ?_⟩
  · simp [run, callOn, method, tryFinally, M.bind, openSds, lift, openH, useH, closeSds, endOpt, endH, M.pure, faultsAt, fresh]
  · simp [run, callOn, method, tryFinally, M.bind, openSds, lift, openH, useH, closeSds, endOpt, endH, M.pure, faultsAt, fresh]

/-- A history with two objects and a data set that cannot be found at first. -/
example : (run (faultsAt [6] [] []) [(0, 7), (1, 8), (1, 9)] fresh).1 = [.ok 7, .error (.lib 6), .ok 9] ∧
    (run (faultsAt [6] [] []) [(0, 7), (1, 8), (1, 9)] fresh).2.w.live = [] := by
  simp [run, callOn, method, tryFinally, M.bind, openSds, lift, openH, useH, closeSds, endOpt, endH, M.pure, faultsAt, fresh]

/-- `get` with arguments: each argument that is given is used, and what is not given is taken from the object. -/
theorem c125_slab {S : Type} (given stored : Option S × Option S × Option S) :
    (∀ x, given.1 = some x → (slabOf given stored).1 = some x) ∧ (given.1 = none → (slabOf given stored).1 = stored.1) ∧
    (∀ x, given.2.1 = some x → (slabOf given stored).2.1 = some x) ∧ (given.2.1 = none → (slabOf given stored).2.1 = stored.2.1) ∧
    (∀ x, given.2.2 = some x → (slabOf given stored).2.2 = some x) ∧ (given.2.2 = none → (slabOf given stored).2.2 = stored.2.2) := by
  obtain ⟨a, b, c⟩ := given
  refine ⟨fun x h => ?_, fun h => ?_, fun x h => ?_, fun h => ?_, fun x h => ?_, fun h => ?_⟩ <;> simp only at h <;> simp [slabOf, h]

/-! ### Functions that open files -/

/-- The names of the data sets of a file: if they are given they are those of the file; the file is closed, whatever fails, as far as the library
lets it; and the first failure is reported. -/
theorem c125_sd_names {α : Type} (F : Faults) (names : α) (w : World) (hp : Proper w) :
    (∀ x, (sdNames F names w).1 = .ok x → x = names) ∧ Tried w (sdNames F names w).2 ∧
    ((∀ n, F.ending n = false) → (sdNames F names w).2.live = w.live ∧
      (sdNames F names w).1 = if F.opening w.calls then .error (.lib w.calls)
        else if F.using_ (w.calls + 1) then .error (.lib (w.calls + 1)) else .ok names) := by
  cases h1 : F.opening w.calls
  · cases h2 : F.using_ (w.calls + 1) <;> cases h3 : F.ending (w.calls + 2) <;>
      (refine ⟨?_, ?_, ?_⟩
       · simp [sdNames, openH, tryFinally, useH, endH, h1, h2, h3]
         try (intro x hx; exact hx.symm)
       · unfold Tried; simp [sdNames, openH, tryFinally, useH, endH, h1, h2, h3]
         try (intro a ha; exact Or.inl ha)
       · intro hE
         first
         | (simp [sdNames, openH, tryFinally, useH, endH, h1, h2, h3]; done)
         | (have := hE (w.calls + 2); rw [h3] at this; cases this))
  · refine ⟨?_, ?_, ?_⟩
    · simp [sdNames, openH, h1]
    · unfold Tried; simp [sdNames, openH, h1]
      try (intro a ha; exact Or.inl ha)
    · intro hE
      simp [sdNames, openH, h1]

/-- The lists of variables never raise; if they are given they are those of the file, and if nothing fails everything is closed. -/
theorem c125_listing {α : Type} (F : Faults) (names : α) (w : World) :
    (∃ r, (sdVariables F names w).1 = .ok r ∧ ∀ x, r = some x → x = names) ∧
    (∃ r, (vdVariables F names w).1 = .ok r ∧ ∀ x, r = some x → x = names) ∧
    (NoFaults F → (sdVariables F names w).1 = .ok (some names) ∧ (sdVariables F names w).2.live = w.live ∧
      (vdVariables F names w).1 = .ok (some names) ∧ (vdVariables F names w).2.live = w.live) := by
  refine ⟨?_, ?_, ?_⟩
  · cases h1 : F.opening w.calls <;> cases h2 : F.using_ (w.calls + 1) <;> simp [sdVariables, openH, useH, h1, h2]
  · cases h1 : F.opening w.calls <;> cases h2 : F.opening (w.calls + 1) <;> cases h3 : F.using_ (w.calls + 2) <;>
      simp [vdVariables, openH, useH, h1, h2, h3]
  · rintro ⟨h1, h2, h3⟩
    simp [sdVariables, vdVariables, openH, useH, endH, M.bind, h1, h2, h3]

/-- If the names of the data sets cannot be read, the code does not close the file, although nothing keeps it from doing so. -/
theorem c125_listing_violated : ∃ F : Faults, (∀ n, F.ending n = false) ∧
    ¬ Tried fresh.w (sdVariables F [1, 2] fresh.w).2 ∧ ¬ Tried fresh.w (vdVariables F [1, 2] fresh.w).2 := by
  refine ⟨faultsAt [] [1, 2] [], fun n => rfl, ?_, ?_⟩ <;> unfold Tried <;>
    simp [sdVariables, vdVariables, openH, useH, endH, M.bind, faultsAt, fresh]
  exact ⟨0, fun _ => rfl⟩

/-- Reading a vdata or its metadata: what is given is what the file has, and then everything is closed. -/
theorem c125_vd_get {α : Type} (F : Faults) (content : α) (w : World) :
    (∀ x, (vdGet F content w).1 = .ok x → x = content ∧ (vdGet F content w).2.live = w.live) ∧
    (NoFaults F → (vdGet F content w).1 = .ok content) := by
  refine ⟨?_, ?_⟩
  · cases h1 : F.opening w.calls
    · cases h2 : F.opening (w.calls + 1)
      · cases h3 : F.opening (w.calls + 2)
        · cases h4 : F.using_ (w.calls + 3)
          · cases h5 : F.ending (w.calls + 4)
            · cases h6 : F.ending (w.calls + 5)
              · cases h7 : F.ending (w.calls + 6) <;> simp [vdGet, M.bind, M.pure, openH, useH, endH, h1, h2, h3, h4, h5, h6, h7]
              · simp [vdGet, M.bind, M.pure, openH, useH, endH, h1, h2, h3, h4, h5, h6]
            · simp [vdGet, M.bind, M.pure, openH, useH, endH, h1, h2, h3, h4, h5]
          · simp [vdGet, M.bind, M.pure, openH, useH, endH, h1, h2, h3, h4]
        · simp [vdGet, M.bind, M.pure, openH, useH, endH, h1, h2, h3]
      · simp [vdGet, M.bind, M.pure, openH, useH, endH, h1, h2]
    · simp [vdGet, M.bind, M.pure, openH, useH, endH, h1]
  · rintro ⟨h1, h2, h3⟩
    simp [vdGet, M.bind, M.pure, openH, useH, endH, h1, h2, h3]

/-- If the vdata cannot be attached or read, nothing is closed by the code. -/
theorem c125_vd_get_violated : ∃ F : Faults, (∀ n, F.ending n = false) ∧ (vdGet F 5 fresh.w).2.live = [2, 1, 0] ∧ (vdGet F 5 fresh.w).2.tried = [] := by
  refine ⟨faultsAt [] [3] [], fun n => rfl, ?_, ?_⟩ <;> simp [vdGet, M.bind, M.pure, openH, useH, endH, faultsAt, fresh]

/-- Attaching leaves open what was open, if the library can detach; what is given are variables of the file among those asked for, in order, and
all of them if nothing fails. -/
theorem attachAll_spec {V : Type} (F : Faults) (there : V → Bool) (vars : List V) (w : World) :
    ∃ l, (attachAll F there vars w).1 = .ok l ∧ l.Sublist (vars.filter there) ∧
      (∀ h ∈ w.live, h < w.next → h ∈ (attachAll F there vars w).2.live) ∧ w.next ≤ (attachAll F there vars w).2.next ∧
      (∀ h ∈ (attachAll F there vars w).2.live, h ∈ w.live ∨ h ∈ (attachAll F there vars w).2.tried) ∧
      (∀ h ∈ w.tried, h ∈ (attachAll F there vars w).2.tried) ∧
      ((∀ n, F.ending n = false) → (attachAll F there vars w).2.live = w.live) ∧ (NoFaults F → l = vars.filter there) := by
  induction vars generalizing w with
  | nil => exact ⟨[], rfl, by simp, fun h hh _ => hh, le_refl _, fun h hh => Or.inl hh, fun h hh => hh, fun _ => rfl, fun _ => rfl⟩
  | cons v t ih =>
    have hr : ∀ r : Except Err Unit × World, r = (if there v then M.bind (openH F) (endH F) w else (.error (.lib w.calls), { w with calls := w.calls + 1 })) →
        (∀ h ∈ w.live, h < w.next → h ∈ r.2.live) ∧ w.next ≤ r.2.next ∧ (∀ h ∈ r.2.live, h ∈ w.live ∨ h ∈ r.2.tried) ∧ (∀ h ∈ w.tried, h ∈ r.2.tried) ∧
        ((∀ n, F.ending n = false) → r.2.live = w.live) ∧ (r.1 = .ok () → there v = true) ∧ (NoFaults F → there v = true → r.1 = .ok ()) := by
      rintro r rfl
      cases hv : there v
      · rw [if_neg (by simp)]
        exact ⟨fun h hh _ => hh, le_refl _, fun h hh => Or.inl hh, fun h hh => hh, fun _ => rfl, fun h => (by cases h), fun _ h => (by cases h)⟩
      · rw [if_pos rfl]
        cases h1 : F.opening w.calls
        · cases h2 : F.ending (w.calls + 1)
          · have hb : M.bind (openH F) (endH F) w = (.ok (), ⟨w.live, w.next + 1, w.calls + 2, w.next :: w.tried⟩) := by
              simp [M.bind, openH, h1, endH, h2]
            rw [hb]
            exact ⟨fun h hh _ => hh, Nat.le_succ _, fun h hh => Or.inl hh, fun h hh => List.mem_cons_of_mem _ hh, fun _ => rfl, fun _ => rfl, fun _ _ => rfl⟩
          · have hb : M.bind (openH F) (endH F) w = (.error (.lib (w.calls + 1)), ⟨w.next :: w.live, w.next + 1, w.calls + 2, w.next :: w.tried⟩) := by
              simp [M.bind, openH, h1, endH, h2]
            rw [hb]
            refine ⟨fun h hh _ => List.mem_cons_of_mem _ hh, Nat.le_succ _, fun h hh => ?_, fun h hh => List.mem_cons_of_mem _ hh, fun hE => ?_, fun _ => rfl, fun hF => ?_⟩
            · rcases List.mem_cons.1 hh with rfl | hh
              · exact Or.inr List.mem_cons_self
              · exact Or.inl hh
            · have := hE (w.calls + 1); rw [h2] at this; cases this
            · have := hF.2.2 (w.calls + 1); rw [h2] at this; cases this
        · have hb : M.bind (openH F) (endH F) w = (.error (.lib w.calls), { w with calls := w.calls + 1 }) := by
            simp [M.bind, openH, h1]
          rw [hb]
          refine ⟨fun h hh _ => hh, le_refl _, fun h hh => Or.inl hh, fun h hh => hh, fun _ => rfl, fun _ => rfl, fun hF => ?_⟩
          have := hF.1 w.calls; rw [h1] at this; cases this
    obtain ⟨a1, a2, a3, a4, a5, a6, a7⟩ := hr _ rfl
    obtain ⟨l, b0, b1, b2, b3, b4, b5, b6, b7⟩ := ih (if there v then M.bind (openH F) (endH F) w else (.error (.lib w.calls), { w with calls := w.calls + 1 })).2
    have hstep : attachAll F there (v :: t) w =
        (match (if there v then M.bind (openH F) (endH F) w else (.error (.lib w.calls), { w with calls := w.calls + 1 })).1,
            (attachAll F there t (if there v then M.bind (openH F) (endH F) w else (.error (.lib w.calls), { w with calls := w.calls + 1 })).2).1 with
          | _, .error e => (.error e, (attachAll F there t (if there v then M.bind (openH F) (endH F) w else (.error (.lib w.calls), { w with calls := w.calls + 1 })).2).2)
          | .ok _, .ok l => (.ok (v :: l), (attachAll F there t (if there v then M.bind (openH F) (endH F) w else (.error (.lib w.calls), { w with calls := w.calls + 1 })).2).2)
          | .error _, .ok l => (.ok l, (attachAll F there t (if there v then M.bind (openH F) (endH F) w else (.error (.lib w.calls), { w with calls := w.calls + 1 })).2).2)) := rfl
    rw [hstep]
    revert a1 a2 a3 a4 a5 a6 a7 b0 b1 b2 b3 b4 b5 b6 b7
    generalize (if there v then M.bind (openH F) (endH F) w else (Except.error (Err.lib w.calls), { w with calls := w.calls + 1 })) = r
    intro a1 a2 a3 a4 a5 a6 a7 b0 b1 b2 b3 b4 b5 b6 b7
    rw [b0]
    have c2 : ∀ h ∈ w.live, h < w.next → h ∈ (attachAll F there t r.2).2.live := fun h hh hn => b2 h (a1 h hh hn) (lt_of_lt_of_le hn a2)
    have c4 : ∀ h ∈ (attachAll F there t r.2).2.live, h ∈ w.live ∨ h ∈ (attachAll F there t r.2).2.tried := by
      intro h hh
      rcases b4 h hh with hl | ht
      · rcases a3 h hl with hl' | ht'
        · exact Or.inl hl'
        · exact Or.inr (b5 h ht')
      · exact Or.inr ht
    cases hr1 : r.1 with
    | ok u =>
      refine ⟨v :: l, rfl, ?_, c2, le_trans a2 b3, c4, fun h hh => b5 h (a4 h hh), fun hE => (b6 hE).trans (a5 hE), fun hF => ?_⟩
      · rw [List.filter_cons, if_pos (a6 hr1)]; exact b1.cons_cons v
      · rw [List.filter_cons, if_pos (a6 hr1), b7 hF]
    | error e =>
      refine ⟨l, rfl, ?_, c2, le_trans a2 b3, c4, fun h hh => b5 h (a4 h hh), fun hE => (b6 hE).trans (a5 hE), fun hF => ?_⟩
      · rw [List.filter_cons]; split
        · exact b1.cons v
        · exact b1
      · rw [List.filter_cons]; split
        · rename_i hv
          have := a7 hF hv
          rw [hr1] at this; cases this
        · exact b7 hF

/-- The vdata of a file that can be read: variables of the file among those asked for, in order, all of them if nothing fails; and if the library
can end what it has opened, everything is closed, whatever else fails. -/
theorem c125_vd_read {V : Type} (F : Faults) (there : V → Bool) (vars : List V) (w : World) (hp : Proper w) :
    (∀ l, (vdRead F there vars w).1 = .ok l → l.Sublist (vars.filter there)) ∧
    ((∀ n, F.ending n = false) → (vdRead F there vars w).2.live = w.live) ∧
    (NoFaults F → (vdRead F there vars w).1 = .ok (vars.filter there)) := by
  have hn1 : w.next ∉ w.live := fun h => lt_irrefl _ (hp.2 _ h)
  cases h1 : F.opening w.calls
  · cases h2 : F.opening (w.calls + 1)
    · set w2 : World := ⟨(w.next + 1) :: w.next :: w.live, w.next + 2, w.calls + 2, w.tried⟩ with hw2
      have hrd : vdRead F there vars w = tryFinally (attachAll F there vars) (M.bind (endH F (w.next + 1)) (fun _ => endH F w.next)) w2 := by
        simp [vdRead, openH, h1, h2, hw2]
      obtain ⟨l, b0, b1, b2, b3, b4, b5, b6, b7⟩ := attachAll_spec F there vars w2
      have hclose : (∀ n, F.ending n = false) → (M.bind (endH F (w.next + 1)) (fun _ => endH F w.next)) (attachAll F there vars w2).2 =
          (.ok (), { (attachAll F there vars w2).2 with live := w.live, calls := (attachAll F there vars w2).2.calls + 2, tried := w.next :: (w.next + 1) :: (attachAll F there vars w2).2.tried }) := by
        intro hE
        have hl := b6 hE
        have hv : w2.live = (w.next + 1) :: w.next :: w.live := rfl
        rw [hv] at hl
        revert hl
        generalize (attachAll F there vars w2).2 = u
        intro hl
        simp [M.bind, endH, hl, hE]
      rw [hrd]
      unfold tryFinally
      dsimp only
      refine ⟨?_, ?_, ?_⟩
      · intro l' hl'
        split at hl'
        · rw [b0] at hl'; injection hl' with hl'; subst hl'; exact b1
        · cases hl'
      · intro hE
        rw [hclose hE]
      · intro hF
        rw [hclose hF.2.2]
        simp only
        rw [b0, b7 hF]
    · refine ⟨?_, ?_, ?_⟩
      · cases h3 : F.ending (w.calls + 2) <;> simp [vdRead, openH, h1, h2, tryFinally, endH, h3]
      · intro hE
        simp [vdRead, openH, h1, h2, tryFinally, endH, hE]
      · intro hF; have := hF.1 (w.calls + 1); rw [h2] at this; cases this
  · refine ⟨?_, ?_, ?_⟩
    · simp [vdRead, openH, h1]
    · simp [vdRead, openH, h1]
    · intro hF; have := hF.1 w.calls; rw [h1] at this; cases this

/-- If the interface cannot be ended, the code does not try to close the file. -/
theorem c125_vd_read_violated : ∃ F : Faults, ¬ Tried fresh.w (vdRead F (fun _ : Nat => true) [4] fresh.w).2 := by
  refine ⟨faultsAt [] [] [4], ?_⟩
  unfold Tried
  simp [vdRead, attachAll, openH, endH, M.bind, M.pure, tryFinally, faultsAt, fresh]

/-! ### Values and metadata -/

/-- A value of a vdata is missing exactly if it is one of the missing values, and otherwise it is the value of the file, at its place; by default
the attribute `missing` is the missing value. -/
theorem c125_vd_values (d : VData) (first : Option (List ℚ)) (missing : Option (List (Option ℚ))) (data : List ℚ)
    (hd : data = match first with | some r => r | none => d.records.flatten) :
    (vdData d first missing).length = data.length ∧ ∀ (k : Nat) (x : ℚ), data[k]? = some x →
      (vdData d first missing)[k]? = some (if some x ∈ missing.getD [d.attr "missing"] then none else some x) := by
  subst hd
  have key : ∀ (ms : List (Option ℚ)) (l : List (Option ℚ)),
      ms.foldl maskOne l = l.map (fun v => if v ∈ ms then none else v) := by
    intro ms
    induction ms with
    | nil => intro l; simp
    | cons m t ih =>
      intro l
      simp only [List.foldl_cons]
      cases m with
      | none =>
        rw [show maskOne l none = l from rfl, ih]
        apply List.map_congr_left
        intro v _
        cases v with
        | none => simp
        | some x => simp
      | some y =>
        rw [show maskOne l (some y) = l.map (fun v => if v = some y then none else v) from rfl, ih, List.map_map]
        apply List.map_congr_left
        intro v _
        simp only [Function.comp]
        by_cases hv : v = some y
        · subst hv; simp
        · simp only [hv, if_false, List.mem_cons, false_or]
  have h : ∀ (data : List ℚ) (ms : List (Option ℚ)), maskMissing data ms = data.map (fun x => if some x ∈ ms then none else some x) := by
    intro data ms
    unfold maskMissing
    rw [key, List.map_map]
    rfl
  unfold vdData
  cases first <;> simp only [h, List.length_map, List.getElem?_map] <;> exact ⟨trivial, fun k x hx => by rw [hx]; rfl⟩

example : vdData ⟨[[1], [-9], [3]], [("missing", -9)]⟩ none none = [some 1, none, some 3] := by decide +kernel

/-- The shape in the metadata is that of the data if every record is one value. Missing: other vdata, see `c125_shape_violated`. -/
theorem c125_shape (d : VData) (missing : Option (List (Option ℚ))) (h : ∀ r ∈ d.records, r.length = 1) :
    (vdMeta d).shape = [(vdData d none missing).length] := by
  have e := (c125_vd_values d none missing _ rfl).1
  rw [e]
  simp only [List.length_flatten]
  have : d.records.map List.length = List.replicate d.records.length 1 := by
    rw [List.eq_replicate_iff]
    exact ⟨by simp, fun b hb => by obtain ⟨r, hr, rfl⟩ := List.mem_map.1 hb; exact h r hr⟩
  rw [this]
  simp [vdMeta, metadata]

/-- Two values in each record: the shape in the metadata is not that of the data. -/
theorem c125_shape_violated : ∃ d : VData, (vdMeta d).shape ≠ [(vdData d none none).length] :=
  ⟨⟨[[1, 2], [3, 4]], []⟩, by decide +kernel⟩

/-- Metadata of both kinds: the attributes with a meaning are in their fields, all others, with their values and in their order, in `misc`, and
none is in both. -/
theorem c125_metadata {V : Type} (attrs : List (String × V)) (shape : List Nat) (d : VData) :
    ((sdMeta attrs shape).longName = attrs.lookup "long_name" ∧ (sdMeta attrs shape).units = attrs.lookup "units" ∧
      (sdMeta attrs shape).factor = attrs.lookup "scale_factor" ∧ (sdMeta attrs shape).offset = attrs.lookup "add_offset" ∧
      (sdMeta attrs shape).missing = attrs.lookup "_FillValue" ∧ (sdMeta attrs shape).shape = shape ∧
      (sdMeta attrs shape).misc = attrs.filter (fun p => p.1 ∉ ["long_name", "units", "scale_factor", "add_offset", "_FillValue"])) ∧
    ((vdMeta d).longName = d.attrs.lookup "long_name" ∧ (vdMeta d).units = d.attrs.lookup "units" ∧
      (vdMeta d).factor = d.attrs.lookup "factor" ∧ (vdMeta d).offset = d.attrs.lookup "offset" ∧
      (vdMeta d).missing = d.attrs.lookup "missing" ∧
      (vdMeta d).misc = d.attrs.filter (fun p => p.1 ∉ ["long_name", "units", "factor", "offset", "missing"])) := by
  have hl : ∀ {W : Type} (l : List (String × W)) (a b : String), a ≠ b → (l.filter (fun p => p.1 ≠ a)).lookup b = l.lookup b := by
    intro W l a b hab
    induction l with
    | nil => rfl
    | cons q t ih =>
      obtain ⟨k, v⟩ := q
      rw [List.filter_cons]
      by_cases hk : k = a
      · subst hk
        have : (b == k) = false := by simpa using fun h => hab h.symm
        simp only [ne_eq, not_true_eq_false, decide_false, Bool.false_eq_true, if_false, List.lookup_cons, this]
        exact ih
      · simp only [hk, ne_eq, not_false_eq_true, decide_true, if_true, List.lookup_cons]
        split
        · rfl
        · exact ih
  constructor
  · simp only [sdMeta, metadata, popAttr]
    refine ⟨trivial, ?_, ?_, ?_, ?_, trivial, ?_⟩
    · rw [hl _ _ _ (by decide)]
    · rw [hl _ _ _ (by decide), hl _ _ _ (by decide)]
    · rw [hl _ _ _ (by decide), hl _ _ _ (by decide), hl _ _ _ (by decide)]
    · rw [hl _ _ _ (by decide), hl _ _ _ (by decide), hl _ _ _ (by decide), hl _ _ _ (by decide)]
    · simp only [List.filter_filter]
      apply List.filter_congr
      intro p _
      simp only [List.mem_cons, List.not_mem_nil, or_false, not_or, Bool.decide_and]
      simp only [← Bool.and_assoc, ne_eq]
      generalize (decide ¬p.1 = "long_name") = a
      generalize (decide ¬p.1 = "units") = b
      generalize (decide ¬p.1 = "scale_factor") = c
      generalize (decide ¬p.1 = "add_offset") = d
      generalize (decide ¬p.1 = "_FillValue") = e
      cases a <;> cases b <;> cases c <;> cases d <;> cases e <;> rfl
  · simp only [vdMeta, metadata, popAttr]
    refine ⟨trivial, ?_, ?_, ?_, ?_, ?_⟩
    · rw [hl _ _ _ (by decide)]
    · rw [hl _ _ _ (by decide), hl _ _ _ (by decide)]
    · rw [hl _ _ _ (by decide), hl _ _ _ (by decide), hl _ _ _ (by decide)]
    · rw [hl _ _ _ (by decide), hl _ _ _ (by decide), hl _ _ _ (by decide), hl _ _ _ (by decide)]
    · simp only [List.filter_filter]
      apply List.filter_congr
      intro p _
      simp only [List.mem_cons, List.not_mem_nil, or_false, not_or, Bool.decide_and]
      simp only [← Bool.and_assoc, ne_eq]
      generalize (decide ¬p.1 = "long_name") = a
      generalize (decide ¬p.1 = "units") = b
      generalize (decide ¬p.1 = "factor") = c
      generalize (decide ¬p.1 = "offset") = d
      generalize (decide ¬p.1 = "missing") = e
      cases a <;> cases b <;> cases c <;> cases d <;> cases e <;> rfl

example : (vdMeta ⟨[[1], [2]], [("units", 4), ("missing", -9), ("note", 6)]⟩).misc = [("note", 6)] := by decide +kernel

end Cis.Hdf4
