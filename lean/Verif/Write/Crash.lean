import Verif.Write.RoundTrip
set_option linter.unusedSectionVars false
set_option linter.unusedSimpArgs false
/-!
Model of saving ungridded data step by step (cis/data_io/write_netcdf.py; `save_data` in ungridded_data.py:375-378 and 1048-1059): every
state the file goes through, so that a save may be interrupted (killed, or stopped by an exception) at any point. Property C98.

A step is one call of the netCDF4 library, except that all attributes of a variable are one step, as are its values. Contract: an
interrupted save leaves one of these states (netCDF4 closes the file when it is collected; a file damaged by the HDF5 library itself is
not modelled), and a created variable holds its fill value until values are assigned.
-/
namespace Cis.Crash

open Cis.RoundTrip
open Cis.Read (ncGetData)

/-- A variable just created (write_netcdf.py:104-105): its name, type and fill value; no values, no attributes. -/
def blankVar (dflt : Bool → ℚ) (length : Nat) (name : String) (o : Obj) : Var :=
  let fill := o.missing.getD (dflt o.isInt)
  { info := ⟨name, "", "", "", ""⟩
    var := { isInt := o.isInt, stored := List.replicate length fill, missing := some fill, validMax := none, validMin := none,
             validRange := none, addOffset := none, scaleFactor := none } }

/-- The variable once its attributes are set (write_netcdf.py:106, 20-41), before its values are. -/
def describedVar (dflt : Bool → ℚ) (length : Nat) (name : String) (o : Obj) : Var :=
  let v := makeVar dflt name o
  { v with var := { v.var with stored := List.replicate length (o.missing.getD (dflt o.isInt)) } }

/-- `__create_variable` (write_netcdf.py:83-120): the states after each step, and the result. -/
def createTrace (dflt : Bool → ℚ) (preferStandard : Bool) (f : File) (o : Obj) : List File × Except Err File :=
  if o.known = false then ([], .error .key)
  else
    let n := varName preferStandard o.info
    if f.vars.any (fun v => v.info.name == n) then ([], .ok f)
    else if n = "" then ([], .error .noName)
    else
      let created := { f with vars := f.vars ++ [blankVar dflt f.length n o] }
      let described := { f with vars := f.vars ++ [describedVar dflt f.length n o] }
      let written := { f with vars := f.vars ++ [makeVar dflt n o] }
      if o.values.length = f.length then ([created, described, written], .ok written)
      else ([created, described], .error .inconsistent)

/-- The loop over coordinates in `write_coordinate_list` (write_netcdf.py:154-155). -/
def coordsTrace (dflt : Bool → ℚ) : List Obj → File → List File × Except Err File
  | [], f => ([], .ok f)
  | o :: t, f =>
    match createTrace dflt true f o with
    | (s, .error e) => (s, .error e)
    | (s, .ok f') => (s ++ (coordsTrace dflt t f').1, (coordsTrace dflt t f').2)

/-- `add_data_to_file` (write_netcdf.py:159-170). -/
def addTrace (dflt : Bool → ℚ) (f : File) (o : Obj) : List File × Except Err File :=
  match createTrace dflt false f o with
  | (s, .error e) => (s, .error e)
  | (s, .ok f') => (s ++ [{ f' with source := sourceAttr }], .ok { f' with source := sourceAttr })

/-- The loop over data in `UngriddedDataList.save_data` (ungridded_data.py:1058-1059). -/
def dataTrace (dflt : Bool → ℚ) : List Obj → File → List File × Except Err File
  | [], f => ([], .ok f)
  | o :: t, f =>
    match addTrace dflt f o with
    | (s, .error e) => (s, .error e)
    | (s, .ok f') => (s ++ (dataTrace dflt t f').1, (dataTrace dflt t f').2)

/-- The empty file left by opening with mode 'w' (write_netcdf.py:148). -/
def emptyFile : File := ⟨[], 0, []⟩

/-- `save_data` (ungridded_data.py:375-378, 1048-1059): truncation comes first, even if there is no coordinate to take the length from. -/
def saveTrace (dflt : Bool → ℚ) (coords data : List Obj) : List File × Except Err File :=
  match coords with
  | [] => ([emptyFile], .error .index)
  | c :: t =>
    let sized : File := ⟨[], c.values.length, []⟩
    match coordsTrace dflt (c :: t) sized with
    | (s, .error e) => (emptyFile :: sized :: s, .error e)
    | (s, .ok f) => (emptyFile :: sized :: s ++ (dataTrace dflt data f).1, (dataTrace dflt data f).2)

/-! ### Specification -/

/-- What may be found at the path if the save is interrupted: what was there before, or any of the states. -/
def Spec.Interrupted (dflt : Bool → ℚ) (coords data : List Obj) (before after : Option File) : Prop :=
  after = before ∨ ∃ f ∈ (saveTrace dflt coords data).1, after = some f

/-- `f` holds everything `g` does, and at most one variable more. -/
def Spec.OneMore (g f : File) : Prop := f.vars = g.vars ∨ ∃ v, f.vars = g.vars ++ [v]

/-! ### Proofs -/

theorem createTrace_result (dflt : Bool → ℚ) (p : Bool) (f : File) (o : Obj) : (createTrace dflt p f o).2 = createVariable dflt p f o := by
  unfold createTrace createVariable
  simp only
  split_ifs <;> rfl

theorem createTrace_states (dflt : Bool → ℚ) (p : Bool) (f : File) (o : Obj) (g : File) (hg : g ∈ (createTrace dflt p f o).1) :
    g.source = f.source ∧ g.length = f.length ∧ (∃ v : Var, g.vars = f.vars ++ [v] ∧ v.info.name = varName p o.info) ∧
      varName p o.info ∉ f.vars.map (fun v => v.info.name) := by
  unfold createTrace at hg
  split at hg
  · cases hg
  · simp only at hg
    split at hg
    · cases hg
    · rename_i h2
      have hno : varName p o.info ∉ f.vars.map (fun v => v.info.name) := by
        intro hc
        obtain ⟨v, hv, he⟩ := List.mem_map.1 hc
        exact h2 (List.any_eq_true.2 ⟨v, hv, by simp [he]⟩)
      split at hg
      · cases hg
      · split at hg
        · simp only [List.mem_cons, List.not_mem_nil, or_false] at hg
          rcases hg with rfl | rfl | rfl
          · exact ⟨rfl, rfl, ⟨_, rfl, rfl⟩, hno⟩
          · exact ⟨rfl, rfl, ⟨_, rfl, rfl⟩, hno⟩
          · exact ⟨rfl, rfl, ⟨_, rfl, rfl⟩, hno⟩
        · simp only [List.mem_cons, List.not_mem_nil, or_false] at hg
          rcases hg with rfl | rfl
          · exact ⟨rfl, rfl, ⟨_, rfl, rfl⟩, hno⟩
          · exact ⟨rfl, rfl, ⟨_, rfl, rfl⟩, hno⟩

theorem createVariable_source (dflt : Bool → ℚ) (p : Bool) (f : File) (o : Obj) (g : File) (h : createVariable dflt p f o = .ok g) :
    g.source = f.source ∧ g.length = f.length := by
  unfold createVariable at h
  simp only at h
  split_ifs at h <;> cases h <;> exact ⟨rfl, rfl⟩

theorem coordsTrace_result (dflt : Bool → ℚ) : ∀ (l : List Obj) (f : File), (coordsTrace dflt l f).2 = l.foldlM (createVariable dflt true) f
  | [], f => rfl
  | o :: t, f => by
    rw [List.foldlM_cons, ← createTrace_result]
    unfold coordsTrace
    match h : createTrace dflt true f o with
    | (s, .error e) => rfl
    | (s, .ok f') =>
      show (coordsTrace dflt t f').2 = t.foldlM (createVariable dflt true) f'
      exact coordsTrace_result dflt t f'

theorem addTrace_result (dflt : Bool → ℚ) (f : File) (o : Obj) : (addTrace dflt f o).2 = addData dflt f o := by
  unfold addTrace addData
  rw [← createTrace_result]
  match h : createTrace dflt false f o with
  | (s, .error e) => rfl
  | (s, .ok f') => rfl

theorem dataTrace_result (dflt : Bool → ℚ) : ∀ (l : List Obj) (f : File), (dataTrace dflt l f).2 = l.foldlM (addData dflt) f
  | [], f => rfl
  | o :: t, f => by
    rw [List.foldlM_cons, ← addTrace_result]
    unfold dataTrace
    match h : addTrace dflt f o with
    | (s, .error e) => rfl
    | (s, .ok f') =>
      show (dataTrace dflt t f').2 = t.foldlM (addData dflt) f'
      exact dataTrace_result dflt t f'

/-- C98: the steps, taken to the end, are the save of C96: same file, same errors. -/
theorem c98_refines (dflt : Bool → ℚ) (coords data : List Obj) : (saveTrace dflt coords data).2 = save dflt coords data := by
  unfold saveTrace save writeCoords
  match coords with
  | [] => rfl
  | c :: t =>
    simp only
    have h := coordsTrace_result dflt (c :: t) ⟨[], c.values.length, []⟩
    rw [← h]
    match hx : coordsTrace dflt (c :: t) ⟨[], c.values.length, []⟩ with
    | (s, .error e) => rfl
    | (s, .ok f) => exact dataTrace_result dflt data f

theorem coordsTrace_source (dflt : Bool → ℚ) : ∀ (l : List Obj) (f : File),
    (∀ g ∈ (coordsTrace dflt l f).1, g.source = f.source) ∧ (∀ g, (coordsTrace dflt l f).2 = .ok g → g.source = f.source)
  | [], f => ⟨by simp [coordsTrace], by intro g hg; cases hg; rfl⟩
  | o :: t, f => by
    unfold coordsTrace
    have hs := createTrace_states dflt true f o
    have hr := createTrace_result dflt true f o
    match h : createTrace dflt true f o with
    | (s, .error e) =>
      rw [h] at hs
      exact ⟨fun g hg => (hs g hg).1, fun g hg => by cases hg⟩
    | (s, .ok f') =>
      rw [h] at hs hr
      have hf' := (createVariable_source dflt true f o f' hr.symm).1
      obtain ⟨h1, h2⟩ := coordsTrace_source dflt t f'
      constructor
      · intro g hg
        rcases List.mem_append.1 hg with hg | hg
        · exact (hs g hg).1
        · rw [h1 g hg, hf']
      · intro g hg
        rw [h2 g hg, hf']

theorem addTrace_states (dflt : Bool → ℚ) (f : File) (o : Obj) (g : File) (hg : g ∈ (addTrace dflt f o).1) :
    (g.source = f.source ∧ (∃ v : Var, g.vars = f.vars ++ [v] ∧ v.info.name = varName false o.info) ∧
      varName false o.info ∉ f.vars.map (fun v => v.info.name)) ∨ addData dflt f o = .ok g := by
  have hr := addTrace_result dflt f o
  have hs := createTrace_states dflt false f o
  unfold addTrace at hg hr
  match h : createTrace dflt false f o with
  | (s, .error e) =>
    rw [h] at hg hs
    obtain ⟨h1, h2, h3⟩ := hs g hg
    exact .inl ⟨h1, h3⟩
  | (s, .ok f') =>
    rw [h] at hg hr hs
    rcases List.mem_append.1 hg with hg | hg
    · obtain ⟨h1, h2, h3⟩ := hs g hg
      exact .inl ⟨h1, h3⟩
    · rw [List.mem_singleton] at hg
      subst hg
      exact .inr hr.symm

/-- A state of the loop over data: before the first is complete, the source is the old one; afterwards the file holds some of the data
completely, and at most one variable more. -/
theorem dataTrace_states (dflt : Bool → ℚ) : ∀ (l : List Obj) (f g : File), g ∈ (dataTrace dflt l f).1 →
    ∃ k f', k ≤ l.length ∧ (l.take k).foldlM (addData dflt) f = .ok f' ∧ g.source = f'.source ∧
      (g = f' ∨ ∃ o v, l[k]? = some o ∧ g.vars = f'.vars ++ [v] ∧ v.info.name = varName false o.info ∧
        varName false o.info ∉ f'.vars.map (fun v => v.info.name))
  | [], f, g, hg => by simp [dataTrace] at hg
  | o :: t, f, g, hg => by
    have hr := addTrace_result dflt f o
    have hs := addTrace_states dflt f o g
    unfold dataTrace at hg
    match h : addTrace dflt f o with
    | (s, .error e) =>
      rw [h] at hg hr hs
      rcases hs hg with ⟨h1, ⟨v, h2, h3⟩, h4⟩ | hc
      · exact ⟨0, f, by simp, rfl, h1, .inr ⟨o, v, rfl, h2, h3, h4⟩⟩
      · rw [hc] at hr; cases hr
    | (s, .ok f₁) =>
      rw [h] at hg hr hs
      rcases List.mem_append.1 hg with hg | hg
      · rcases hs hg with ⟨h1, ⟨v, h2, h3⟩, h4⟩ | hc
        · exact ⟨0, f, by simp, rfl, h1, .inr ⟨o, v, rfl, h2, h3, h4⟩⟩
        · refine ⟨1, g, by simp, ?_, rfl, .inl rfl⟩
          show (do let x ← addData dflt f o; (t.take 0).foldlM (addData dflt) x) = _
          rw [hc]
          rfl
      · obtain ⟨k, f', h1, h2, h3, h4⟩ := dataTrace_states dflt t f₁ g hg
        refine ⟨k + 1, f', by simpa using h1, ?_, h3, ?_⟩
        · rw [List.take_succ_cons, List.foldlM_cons, ← hr]
          exact h2
        · rcases h4 with h4 | ⟨o', v, h4⟩
          · exact .inl h4
          · exact .inr ⟨o', v, by simpa using h4⟩

theorem data_source (dflt : Bool → ℚ) : ∀ (l : List Obj) (f g : File), l.foldlM (addData dflt) f = .ok g →
    g.source = if l = [] then f.source else sourceAttr
  | [], f, g, h => by cases h; simp
  | o :: t, f, g, h => by
    rw [List.foldlM_cons] at h
    cases hx : addData dflt f o with
    | error e => rw [hx] at h; cases h
    | ok f₁ =>
      rw [hx] at h
      have h1 := data_source dflt t f₁ g h
      rw [h1]
      unfold addData at hx
      split at hx
      · cases hx
      · cases hx
        split <;> simp

/-- The states of a save: not recognised, or the complete save of some of the data, with at most one variable more, of the next data. -/
theorem states (dflt : Bool → ℚ) (coords data : List Obj) (f : File) (hf : f ∈ (saveTrace dflt coords data).1) :
    f.source = [] ∨ ∃ k f', 0 < k ∧ k ≤ data.length ∧ save dflt coords (data.take k) = .ok f' ∧ f.source = sourceAttr ∧
      (f = f' ∨ ∃ o v, data[k]? = some o ∧ f.vars = f'.vars ++ [v] ∧ v.info.name = varName false o.info ∧
        varName false o.info ∉ f'.vars.map (fun v => v.info.name)) := by
  unfold saveTrace at hf
  match coords with
  | [] => left; simp only [List.mem_singleton] at hf; subst hf; rfl
  | c :: t =>
    simp only at hf
    have hr := coordsTrace_result dflt (c :: t) ⟨[], c.values.length, []⟩
    obtain ⟨hs1, hs2⟩ := coordsTrace_source dflt (c :: t) ⟨[], c.values.length, []⟩
    match hx : coordsTrace dflt (c :: t) ⟨[], c.values.length, []⟩ with
    | (s, .error e) =>
      rw [hx] at hf hs1
      left
      rcases List.mem_cons.1 hf with rfl | hf
      · rfl
      rcases List.mem_cons.1 hf with rfl | hf
      · rfl
      exact hs1 f hf
    | (s, .ok f₀) =>
      rw [hx] at hf hs1 hs2 hr
      have h0 := hs2 f₀ rfl
      rcases List.mem_append.1 hf with hf | hf
      · left
        rcases List.mem_cons.1 hf with rfl | hf
        · rfl
        rcases List.mem_cons.1 hf with rfl | hf
        · rfl
        exact hs1 f hf
      · obtain ⟨k, f', h1, h2, h3, h4⟩ := dataTrace_states dflt data f₀ f hf
        have h5 := data_source dflt _ _ _ h2
        by_cases hk : k = 0
        · left
          subst hk
          rw [h3, h5]
          simpa using h0
        · right
          have hne : data.take k ≠ [] := by
            intro hc
            have := congrArg List.length hc
            rw [List.length_take] at this
            simp at this
            rcases this with h | h
            · exact hk h
            · rw [h] at h1; simp at h1; exact hk h1
          rw [if_neg hne] at h5
          refine ⟨k, f', by omega, h1, ?_, by rw [h3, h5], h4⟩
          unfold save writeCoords
          simp only
          rw [← hr]
          exact h2

/-- C98: an interrupted save of one variable leaves what was there before, or a file that is not taken for a file of CIS, or the complete
file. -/
theorem c98_single (dflt : Bool → ℚ) (coords : List Obj) (o : Obj) (before after : Option File)
    (h : Spec.Interrupted dflt coords [o] before after) :
    after = before ∨ (∃ f, after = some f ∧ recognised f = false) ∨ ∃ f, after = some f ∧ save dflt coords [o] = .ok f := by
  rcases h with h | ⟨f, hf, rfl⟩
  · exact .inl h
  · right
    rcases states dflt coords [o] f hf with h | ⟨k, f', h1, h2, h3, h4, h5⟩
    · left
      refine ⟨f, rfl, ?_⟩
      unfold recognised
      rw [h]
      decide
    · right
      have : k = 1 := by simp at h2; omega
      subst this
      rcases h5 with rfl | ⟨o', v, h5, -⟩
      · exact ⟨f, rfl, h3⟩
      · simp at h5

/-- C98: an interrupted save of several variables leaves what was there before, or a file that is not taken for a file of CIS, or a file
with all coordinates, one or more of the first variables, complete, and at most one variable more. -/
theorem c98_list (dflt : Bool → ℚ) (coords data : List Obj) (before after : Option File)
    (h : Spec.Interrupted dflt coords data before after) :
    after = before ∨ (∃ f, after = some f ∧ recognised f = false) ∨
      ∃ f k g, after = some f ∧ 0 < k ∧ k ≤ data.length ∧ save dflt coords (data.take k) = .ok g ∧ Spec.OneMore g f := by
  rcases h with h | ⟨f, hf, rfl⟩
  · exact .inl h
  · right
    rcases states dflt coords data f hf with h | ⟨k, f', h1, h2, h3, h4, h5⟩
    · left
      refine ⟨f, rfl, ?_⟩
      unfold recognised
      rw [h]
      decide
    · right
      refine ⟨f, k, f', rfl, h1, h2, h3, ?_⟩
      rcases h5 with rfl | ⟨o, v, -, h5, -⟩
      · exact .inl rfl
      · exact .inr ⟨v, h5⟩

/-- C98: what raised nothing has left the complete file. -/
theorem c98_last (dflt : Bool → ℚ) (coords data : List Obj) (hd : data ≠ []) (f : File) (h : save dflt coords data = .ok f) :
    (saveTrace dflt coords data).1.getLast? = some f := by
  rw [← c98_refines] at h
  have hlast : ∀ (l : List Obj) (g f : File), l ≠ [] → (dataTrace dflt l g).2 = .ok f → (dataTrace dflt l g).1.getLast? = some f := by
    intro l
    induction l with
    | nil => intro g f hl; exact absurd rfl hl
    | cons o t ih =>
      intro g f _ hok
      have hadd : ∀ s x, addTrace dflt g o = (s, .ok x) → s.getLast? = some x := by
        intro s x hx
        unfold addTrace at hx
        match hc : createTrace dflt false g o with
        | (s', .error e) => rw [hc] at hx; cases hx
        | (s', .ok f') =>
          rw [hc] at hx
          cases hx
          simp
      unfold dataTrace at hok ⊢
      match hx : addTrace dflt g o with
      | (s, .error e) => rw [hx] at hok; cases hok
      | (s, .ok f') =>
        rw [hx] at hok
        simp only at hok ⊢
        by_cases ht : t = []
        · subst ht
          cases hok
          simpa [dataTrace] using hadd s _ hx
        · rw [List.getLast?_append, ih f' f ht hok]
          rfl
  unfold saveTrace at h ⊢
  match coords with
  | [] => cases h
  | c :: t =>
    simp only at h ⊢
    match hx : coordsTrace dflt (c :: t) ⟨[], c.values.length, []⟩ with
    | (s, .error e) => rw [hx] at h; cases h
    | (s, .ok g) =>
      rw [hx] at h
      simp only at h ⊢
      rw [List.getLast?_append, hlast data g f hd h]
      rfl

/-! #### Reading what an interrupted save has left -/

theorem good_take (valid : String → Bool) (dflt : Bool → ℚ) (coords data : List Obj) (k : Nat) (hk : 0 < k) (h : Spec.Good valid dflt coords data) :
    Spec.Good valid dflt coords (data.take k) where
  some := ⟨h.some.1, by
    intro hc
    have := h.some.2
    cases data with
    | nil => exact this rfl
    | cons a t => cases k with
      | zero => omega
      | succ k => simp at hc⟩
  lengths := by
    obtain ⟨n, hn⟩ := h.lengths
    refine ⟨n, fun o ho => hn o ?_⟩
    rcases List.mem_append.1 ho with ho | ho
    · exact List.mem_append_left _ ho
    · exact List.mem_append_right _ (List.mem_of_mem_take ho)
  std := h.std
  different := h.different
  names := fun d hd => h.names d (List.mem_of_mem_take hd)
  own := h.own.sublist ((List.take_sublist k data).map _)

theorem readVar_extend (valid : String → Bool) (f f' : File) (hv : f.vars = f'.vars ∨ ∃ v, f.vars = f'.vars ++ [v]) (n : String)
    (hn : (f'.vars.find? (fun v => v.info.name == n)).isSome) : readVar valid true [f] n = readVar valid true [f'] n := by
  have : f.vars.find? (fun v => v.info.name == n) = f'.vars.find? (fun v => v.info.name == n) := by
    rcases hv with hv | ⟨v, hv⟩
    · rw [hv]
    · rw [hv, List.find?_append]
      obtain ⟨w, hw⟩ := Option.isSome_iff_exists.1 hn
      rw [hw]
      rfl
  unfold readVar readValues
  simp only [this]

theorem readCoords_extend (valid : String → Bool) (f f' : File) (hv : f.vars = f'.vars ∨ ∃ v, f.vars = f'.vars ++ [v]) :
    ∀ (l : List (String × Char)) (acc : List (Char × Got)), (∀ p ∈ l, (f'.vars.find? (fun v => v.info.name == p.1)).isSome) →
      readCoords valid true [f] l acc = readCoords valid true [f'] l acc
  | [], acc, _ => rfl
  | (n, a) :: t, acc, h => by
    unfold readCoords
    rw [readVar_extend valid f f' hv n (h (n, a) (by simp))]
    cases readVar valid true [f'] n with
    | error e => rfl
    | ok g =>
      simp only
      split
      · rfl
      · exact readCoords_extend valid f f' hv t _ (fun p hp => h p (by simp [hp]))

theorem createData_extend (valid : String → Bool) (f f' : File) (v : Var) (hv : f.vars = f'.vars ++ [v]) (ha : axisOf v.info.name = none)
    (u : String) (hu : (f'.vars.find? (fun v => v.info.name == u)).isSome) :
    createData valid true [f] u = createData valid true [f'] u := by
  have hc : coordVariables f = coordVariables f' := by
    unfold coordVariables
    rw [hv, List.filterMap_append]
    simp [ha]
  unfold createData
  simp only
  rw [hc, readCoords_extend valid f f' (.inr ⟨v, hv⟩) (coordVariables f') [], readVar_extend valid f f' (.inr ⟨v, hv⟩) u hu]
  intro p hp
  unfold coordVariables at hp
  rw [List.mem_filterMap] at hp
  obtain ⟨w, hw, he⟩ := hp
  rw [Option.map_eq_some_iff] at he
  obtain ⟨a, -, rfl⟩ := he
  rw [List.find?_isSome]
  exact ⟨w, hw, by simp⟩

theorem readVar_absent (valid : String → Bool) (f : File) (u : String) (h : u ∉ f.vars.map (fun v => v.info.name)) :
    readVar valid true [f] u = .error .invalidVariable := by
  unfold readVar
  have : f.vars.find? (fun v => v.info.name == u) = none := by
    rw [List.find?_eq_none]
    intro v hv hc
    exact h (List.mem_map.2 ⟨v, hv, by simpa using hc⟩)
  simp only [this]

theorem varName_data (valid : String → Bool) (dflt : Bool → ℚ) (coords data : List Obj) (h : Spec.Good valid dflt coords data) (d : Obj) (hd : d ∈ data) :
    varName false d.info = d.info.name := by
  unfold varName
  rw [if_neg (h.names d hd).1, if_neg (by simp)]

/-- C98: of a file that an interrupted save has left and that is taken for a file of CIS, the first variables (at least one) are read as
they were saved, with all coordinates; those after the next are refused. -/
theorem c98_read (valid : String → Bool) (dflt : Bool → ℚ) (coords data : List Obj) (h : Spec.Good valid dflt coords data) (f : File)
    (hf : f ∈ (saveTrace dflt coords data).1) (hrec : recognised f = true) :
    ∃ k, 0 < k ∧ k ≤ data.length ∧
      (∀ o ∈ data.take k, (valid o.info.std = true ∨ o.info.std = "") → ∃ d, createData valid true [f] o.info.name = .ok d ∧ d.info = o.info ∧
        d.values = o.values ∧ d.coords.map (fun c => c.2.info) = coords.map (fun c => { c.info with name := c.info.std }) ∧
        d.coords.map (fun c => c.2.values) = coords.map (fun c => c.values)) ∧
      ∀ o ∈ data.drop (k + 1), createData valid true [f] o.info.name = .error .invalidVariable := by
  rcases states dflt coords data f hf with hs | ⟨k, f', h1, h2, h3, h4, h5⟩
  · unfold recognised at hrec
    rw [hs] at hrec
    exact absurd hrec (by decide)
  · have hg := good_take valid dflt coords data k h1 h
    obtain ⟨f₂, hsave, hholds, -⟩ := save_holds valid dflt coords (data.take k) hg
    rw [h3] at hsave
    cases hsave
    have hfind : ∀ o ∈ data.take k, (f'.vars.find? (fun v => v.info.name == o.info.name)).isSome := by
      intro o ho
      rw [holds_find_data valid dflt coords (data.take k) f' hg hholds o ho]
      rfl
    have hread : ∀ o ∈ data.take k, createData valid true [f] o.info.name = createData valid true [f'] o.info.name := by
      intro o ho
      rcases h5 with rfl | ⟨o', v, hk, hv, hn, -⟩
      · rfl
      · have hmem : o' ∈ data := List.mem_of_getElem? hk
        refine createData_extend valid f f' v hv ?_ _ (hfind o ho)
        rw [hn, varName_data valid dflt coords data h o' hmem]
        exact axisOf_none (h.names o' hmem).2
    refine ⟨k, h1, h2, ?_, ?_⟩
    · intro o ho hstd
      obtain ⟨files, d, hm, hd, hi, hv, hci, hcv⟩ := c96_round_trip valid dflt (coords, data.take k) [] o
        (by simpa using hg) (by simp) ho (by simp) hstd
      have hm' : ([(coords, data.take k)] : Groups).mapM (fun x => save dflt x.1 x.2) = .ok [f'] := by
        rw [List.mapM_cons, h3]
        rfl
      rw [hm'] at hm
      cases hm
      refine ⟨d, by rw [hread o ho, hd], hi, ?_, hci, ?_⟩
      · rw [hv]
        simpa using spec_variable (data.take k) hg.own o ho
      · rw [hcv]
        apply List.map_congr_left
        intro c hc
        simpa using spec_coordinate coords h.different c hc
    · intro o ho
      have hod : o ∈ data := List.mem_of_mem_drop ho
      have hnn : o.info.name ∉ f.vars.map (fun v => v.info.name) := by
        obtain ⟨j, hj, rfl⟩ := List.mem_drop_iff_getElem.1 ho
        have hne : ∀ (i : Nat) (hi : i < data.length), i < k + 1 → data[i].info.name ≠ data[k + 1 + j].info.name := by
          intro i hi hik hc
          have hnd := h.own
          have := (List.Nodup.getElem_inj_iff hnd (i := i) (j := k + 1 + j) (hi := by simpa using hi) (hj := by simp; omega)).1
            (by simpa using hc)
          omega
        have hbase : data[k + 1 + j].info.name ∉ f'.vars.map (fun v => v.info.name) := by
          rw [hholds, List.map_append, List.mem_append]
          rintro (hc | hc)
          · rw [List.map_map, List.mem_map] at hc
            obtain ⟨c, hc, he⟩ := hc
            apply (h.names _ hod).2
            rw [← he]
            exact (h.std c hc).1
          · rw [List.map_map, List.mem_map] at hc
            obtain ⟨d, hd, he⟩ := hc
            obtain ⟨i, hi, rfl⟩ := List.mem_iff_getElem.1 hd
            rw [List.length_take] at hi
            rw [List.getElem_take] at he
            exact hne i (by omega) (by omega) he
        rcases h5 with rfl | ⟨o', v, hk, hv, hn, -⟩
        · exact hbase
        · rw [hv, List.map_append, List.mem_append]
          rintro (hc | hc)
          · exact hbase hc
          · simp only [List.map_cons, List.map_nil, List.mem_singleton] at hc
            obtain ⟨hkl, rfl⟩ := List.getElem?_eq_some_iff.1 hk
            rw [hn, varName_data valid dflt coords data h _ (List.getElem_mem hkl)] at hc
            exact hne k hkl (by omega) hc.symm
      have hcoord : ∃ cs, readCoords valid true [f] (coordVariables f) [] = .ok cs := by
        have ho' : ∃ o', o' ∈ data.take k := by
          cases hd : data.take k with
          | nil => exact absurd hd hg.some.2
          | cons a t => exact ⟨a, by simp⟩
        obtain ⟨o', ho'⟩ := ho'
        have hc1 : coordVariables f = coordVariables f' := by
          rcases h5 with rfl | ⟨o'', v, hk, hv, hn, -⟩
          · rfl
          · have hmem : o'' ∈ data := List.mem_of_getElem? hk
            have ha : axisOf v.info.name = none := by
              rw [hn, varName_data valid dflt coords data h o'' hmem]
              exact axisOf_none (h.names o'' hmem).2
            unfold coordVariables
            rw [hv, List.filterMap_append]
            simp [ha]
        have hvv : f.vars = f'.vars ∨ ∃ v, f.vars = f'.vars ++ [v] := by
          rcases h5 with rfl | ⟨o'', v, hk, hv, -⟩
          · exact .inl rfl
          · exact .inr ⟨v, hv⟩
        rw [hc1, readCoords_extend valid f f' hvv]
        · rw [coordVariables_holds valid dflt coords (data.take k) f' hg hholds]
          have := readCoords_holds valid dflt (coords, data.take k) f' [] [] hg hholds .nil (by simp) coords [] (by simp)
          exact ⟨_, by simpa using this⟩
        · intro p hp
          unfold coordVariables at hp
          rw [List.mem_filterMap] at hp
          obtain ⟨w, hw, he⟩ := hp
          rw [Option.map_eq_some_iff] at he
          obtain ⟨a, -, rfl⟩ := he
          rw [List.find?_isSome]
          exact ⟨w, hw, by simp⟩
      obtain ⟨cs, hcs⟩ := hcoord
      unfold createData
      simp only [hcs, readVar_absent valid f _ hnn]

/-! ### A concrete case, and where the property fails -/

def exQ : Obj := plainObj "q" "" [some 1, some 2]

/-- A save of two variables goes through sixteen states; the complete file is the last. -/
example : (saveTrace defaultFill [exLat, exLon] [exT, exQ]).1.length = 16 ∧
    ((saveTrace defaultFill [exLat, exLon] [exT, exQ]).1.map recognised).count true = 5 := by decide +kernel

/-- Two variables meet the hypotheses of `c98_read`. -/
example : Spec.Good (fun s => s != "") defaultFill [exLat, exLon] [exT, exQ] where
  some := by simp
  lengths := by
    refine ⟨2, ?_⟩
    intro o ho
    simp only [List.cons_append, List.nil_append, List.mem_cons, List.not_mem_nil, or_false] at ho
    rcases ho with rfl | rfl | rfl | rfl
    · exact ⟨rfl, rfl, plain_faithful _ _ _ (by intro x hx; simp at hx; rcases hx with rfl | rfl <;> norm_num)⟩
    · exact ⟨rfl, rfl, plain_faithful _ _ _ (by intro x hx; simp at hx; rcases hx with rfl | rfl <;> norm_num)⟩
    · exact ⟨rfl, rfl, plain_faithful _ _ _ (by intro x hx; simp at hx; subst hx; norm_num)⟩
    · exact ⟨rfl, rfl, plain_faithful _ _ _ (by intro x hx; simp at hx; rcases hx with rfl | rfl <;> norm_num)⟩
  std := by
    intro c hc
    simp only [List.mem_cons, List.not_mem_nil, or_false] at hc
    rcases hc with rfl | rfl
    · exact ⟨by decide, by decide, by simp [exLat, plainObj]⟩
    · exact ⟨by decide, by decide, by simp [exLon, plainObj]⟩
  different := by decide
  names := by
    intro d hd
    simp only [List.mem_cons, List.not_mem_nil, or_false] at hd
    rcases hd with rfl | rfl
    · exact ⟨by decide, by decide⟩
    · exact ⟨by decide, by decide⟩
  own := by decide

/-- C98 is violated: whatever is saved and whatever was there before, interrupted at its beginning a save has destroyed what was there,
and has nothing to show for it. -/
theorem c98_previous_lost_violated (dflt : Bool → ℚ) (coords data : List Obj) (before : Option File) :
    ∃ f, Spec.Interrupted dflt coords data before (some f) ∧ f.vars = [] ∧ f.length = 0 ∧ recognised f = false := by
  refine ⟨emptyFile, .inr ⟨emptyFile, ?_, rfl⟩, rfl, rfl, by decide⟩
  unfold saveTrace
  match coords with
  | [] => simp
  | c :: t =>
    simp only
    split <;> simp

/-- What is read of variable `u` from each state taken for a file of CIS. -/
def readAtCrash (coords data : List Obj) (u : String) : List (Option (List (Option ℚ))) :=
  ((saveTrace defaultFill coords data).1.filter recognised).map (fun f => (shown (createData (fun s => s != "") true [f] u)).map Prod.fst)

/-- C98 is violated by the variable that was being written: interrupted after it was created, it is read, without complaint, as missing
everywhere. -/
theorem c98_unfinished_violated :
    readAtCrash [exLat, exLon] [exT, exQ] "q" = [none, some [none, none], some [none, none], some [some 1, some 2], some [some 1, some 2]] ∧
    readAtCrash [exLat, exLon] [exT, exQ] "t" = List.replicate 5 (some [some 280, none]) := by
  decide +kernel

/-- C98 is violated by data of a type that cannot be written: the error comes after the variables before have been written, into a file
that is taken for a file of CIS and lacks the rest. -/
theorem c98_unknown_type_violated : ∃ o : Obj, (saveTrace defaultFill [exLat, exLon] [exT, o]).2 = .error .key ∧
    ((saveTrace defaultFill [exLat, exLon] [exT, o]).1.getLast?.map recognised) = some true := by
  refine ⟨{ exQ with known := false }, ?_, ?_⟩
  · unfold exQ exLat exLon exT
    rfl
  · decide +kernel

end Cis.Crash
