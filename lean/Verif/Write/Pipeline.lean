import Verif.Write.SubsetFile
import Verif.Main.Batch
set_option linter.unusedSectionVars false
set_option linter.unusedSimpArgs false

/-!
# Analyses in several commands

An analysis is often made in steps, each a `cis` command that reads the file the one before has written. Here: what is in memory after such a file has
been read (with all that matters when it is saved again: types, missing values, limits and packing), and that going through files changes nothing.
Built on the models of saving and reading (`Write/RoundTrip.lean`, C96), subsetting (`Write/SubsetFile.lean`, C157) and of commands on a disk
(`Main/Concurrent.lean`, `Main/Batch.lean`, C208, C210).
-/
namespace Cis.RoundTrip

/-! ### Reading for another command -/

/-- Are the values read whole numbers (netcdf.py:135-159, 162-186): as stored, unless scaled by a factor or offset that is not. -/
def intAfter (v : Cis.Read.NcVar) : Bool := v.isInt && v.scaleFactor.all (fun x => x.isInt) && v.addOffset.all (fun x => x.isInt)

/-- What is kept in `metadata` of a variable read (netcdf.py:198-232): the missing value, and in `misc` the attributes that matter for values; `g` has
the names and values. The metadata are those of the first file. -/
def objOf (f : File) (g : Got) : Obj :=
  match f.vars.find? (fun v => v.info.name == g.info.name) with
  | none => ⟨g.info, false, true, g.values, none, ⟨none, none, none, none, none⟩⟩
  | some v => ⟨g.info, intAfter v.var, true, g.values, v.var.missing,
      ⟨v.var.validMax, v.var.validMin, v.var.validRange, v.var.addOffset, v.var.scaleFactor⟩⟩

/-- Reading of each variable (data_reader.py:67-103). -/
def readEach (valid : String → Bool) (files : List File) : List String → Except Err (List Data)
  | [] => .ok []
  | u :: t => match createData valid true files u with
    | .error e => .error e
    | .ok d => match readEach valid files t with
      | .error e => .error e
      | .ok r => .ok (d :: r)

/-- `read_data_list` (data_reader.py:67-103): the variables, and the coordinates of the first one, which are those that will be saved
(ungridded_data.py:1048-1059, 1105-1122). -/
def loaded (valid : String → Bool) (files : List File) (names : List String) : Except Err (List Obj × List Obj) :=
  match files with
  | [] => .error .index
  | f :: _ => match readEach valid files names with
    | .error e => .error e
    | .ok [] => .ok ([], [])
    | .ok (d :: t) => .ok (d.coords.map (fun c => objOf f c.2), (d :: t).map (fun x => objOf f ⟨x.info, x.values⟩))

/-! ### Specification -/

/-- A variable after it has been saved and read: the missing value that was written is known. -/
def Spec.settled (dflt : Bool → ℚ) (o : Obj) : Obj := { o with missing := some (o.missing.getD (dflt o.isInt)) }

/-- A coordinate after it has been saved and read: it is called by its standard name. -/
def Spec.settledCoord (dflt : Bool → ℚ) (c : Obj) : Obj := { Spec.settled dflt c with info := { c.info with name := c.info.std } }

/-- Everything after it has been saved and read. Names, units, values, missing values, types and limits are as they were. -/
def Spec.settle (dflt : Bool → ℚ) (x : List Obj × List Obj) : List Obj × List Obj := (x.1.map (Spec.settledCoord dflt), x.2.map (Spec.settled dflt))

/-- Data that CIS can save and read (C96): as `Good`, and standard names of variables are valid or absent. -/
structure Spec.Sound (valid : String → Bool) (dflt : Bool → ℚ) (x : List Obj × List Obj) : Prop where
  good : Spec.Good valid dflt x.1 x.2
  std : ∀ o ∈ x.2, valid o.info.std = true ∨ o.info.std = ""

/-- The names of the variables. -/
def Spec.names (x : List Obj × List Obj) : List String := x.2.map (fun o => o.info.name)

/-- A step of an analysis does not depend on what the variables of coordinates are called, nor on whether the missing value is known or the default
one is used: data that differ in nothing else give results that differ in nothing else. -/
def Spec.Blind (dflt : Bool → ℚ) (op : List Obj × List Obj → Option (List Obj × List Obj)) : Prop :=
  ∀ x x', Spec.settle dflt x = Spec.settle dflt x' → (op x).map (Spec.settle dflt) = (op x').map (Spec.settle dflt)

/-- The steps of an analysis in memory, with all the results in between. -/
inductive Spec.InMemory (valid : String → Bool) (dflt : Bool → ℚ) : List (List Obj × List Obj → Option (List Obj × List Obj)) → List Obj × List Obj →
    List Obj × List Obj → Prop
  | nil (x) : Spec.Sound valid dflt x → Spec.InMemory valid dflt [] x x
  | cons (op ops x y z) : Spec.Sound valid dflt x → op x = some y → Spec.InMemory valid dflt ops y z → Spec.InMemory valid dflt (op :: ops) x z

/-- The steps of an analysis through files: each reads all variables of a file and saves its result as another. -/
inductive Spec.ThroughFiles (valid : String → Bool) (dflt : Bool → ℚ) : List (List Obj × List Obj → Option (List Obj × List Obj)) → List String → File →
    File → Prop
  | nil (names f) : Spec.ThroughFiles valid dflt [] names f f
  | cons (op ops names f x y g h) : loaded valid [f] names = .ok x → op x = some y → save dflt y.1 y.2 = .ok g →
    Spec.ThroughFiles valid dflt ops (Spec.names y) g h → Spec.ThroughFiles valid dflt (op :: ops) names f h

/-! ### Proofs -/

theorem settled_settled (dflt : Bool → ℚ) (o : Obj) : Spec.settled dflt (Spec.settled dflt o) = Spec.settled dflt o := by
  simp [Spec.settled]

theorem settle_settle (dflt : Bool → ℚ) (x : List Obj × List Obj) : Spec.settle dflt (Spec.settle dflt x) = Spec.settle dflt x := by
  simp only [Spec.settle, List.map_map]
  refine Prod.ext (List.map_congr_left fun c _ => ?_) (List.map_congr_left fun c _ => ?_)
  · simp [Spec.settledCoord, Spec.settled]
  · simp [Spec.settled]

theorem makeVar_settled (dflt : Bool → ℚ) (n : String) (o : Obj) : makeVar dflt n (Spec.settled dflt o) = makeVar dflt n o := by
  simp [makeVar, Spec.settled]

theorem makeVar_settledCoord (dflt : Bool → ℚ) (n : String) (o : Obj) : makeVar dflt n (Spec.settledCoord dflt o) = makeVar dflt n o := by
  simp [makeVar, Spec.settled, Spec.settledCoord]

theorem good_settle (valid : String → Bool) (dflt : Bool → ℚ) (x : List Obj × List Obj) (h : Spec.Sound valid dflt x) :
    Spec.Sound valid dflt (Spec.settle dflt x) where
  std := by
    intro o ho
    obtain ⟨o', ho', rfl⟩ := List.mem_map.1 ho
    exact h.std o' ho'
  good :=
    { some := ⟨by simpa [Spec.settle] using h.good.some.1, by simpa [Spec.settle] using h.good.some.2⟩
      lengths := by
        obtain ⟨n, hn⟩ := h.good.lengths
        refine ⟨n, fun o ho => ?_⟩
        have hf : ∀ o : Obj, Spec.Faithful dflt o → Spec.Faithful dflt (Spec.settled dflt o) := by
          intro o ho
          exact ⟨ho.scale, ho.plain, by simpa [Spec.settled, Spec.stored] using ho.notMissing, ho.max, ho.min, ho.range⟩
        rcases List.mem_append.1 ho with ho | ho
        · obtain ⟨o', ho', rfl⟩ := List.mem_map.1 ho
          obtain ⟨h1, h2, h3⟩ := hn o' (by simp [ho'])
          have h4 := hf o' h3
          exact ⟨h1, h2, ⟨h4.scale, h4.plain, h4.notMissing, h4.max, h4.min, h4.range⟩⟩
        · obtain ⟨o', ho', rfl⟩ := List.mem_map.1 ho
          obtain ⟨h1, h2, h3⟩ := hn o' (by simp [ho'])
          exact ⟨h1, h2, hf o' h3⟩
      std := by
        intro c hc
        obtain ⟨c', hc', rfl⟩ := List.mem_map.1 hc
        exact h.good.std c' hc'
      different := by
        simp only [Spec.settle, List.map_map]
        exact h.good.different
      names := by
        intro d hd
        obtain ⟨d', hd', rfl⟩ := List.mem_map.1 hd
        exact h.good.names d' hd'
      own := by
        simp only [Spec.settle, List.map_map]
        exact h.good.own }

theorem settled_inj (dflt : Bool → ℚ) (o o' : Obj) (h : Spec.settled dflt o = Spec.settled dflt o') :
    o.info = o'.info ∧ o.isInt = o'.isInt ∧ o.known = o'.known ∧ o.values = o'.values ∧ o.packing = o'.packing ∧
      o.missing.getD (dflt o.isInt) = o'.missing.getD (dflt o'.isInt) := by
  simp only [Spec.settled, Obj.mk.injEq, Option.some.injEq] at h
  obtain ⟨h1, h2, h3, h4, h5, h6⟩ := h
  exact ⟨h1, h2, h3, h4, h6, h5⟩

theorem settledCoord_inj (dflt : Bool → ℚ) (o o' : Obj) (h : Spec.settledCoord dflt o = Spec.settledCoord dflt o') :
    o.info.std = o'.info.std ∧ o.isInt = o'.isInt ∧ o.known = o'.known ∧ o.values = o'.values ∧ o.packing = o'.packing ∧
      o.missing.getD (dflt o.isInt) = o'.missing.getD (dflt o'.isInt) := by
  simp only [Spec.settledCoord, Spec.settled, Obj.mk.injEq, Option.some.injEq, Info.mk.injEq] at h
  obtain ⟨h1, h2, h3, h4, h5, h6⟩ := h
  exact ⟨h1.1, h2, h3, h4, h6, h5⟩

/-- Whether data can be saved does not depend on it either. -/
theorem sound_of_settle (valid : String → Bool) (dflt : Bool → ℚ) (x : List Obj × List Obj) (h : Spec.Sound valid dflt (Spec.settle dflt x)) :
    Spec.Sound valid dflt x where
  std := fun o ho => h.std (Spec.settled dflt o) (List.mem_map.2 ⟨o, ho, rfl⟩)
  good :=
    { some := ⟨by simpa [Spec.settle] using h.good.some.1, by simpa [Spec.settle] using h.good.some.2⟩
      lengths := by
        obtain ⟨n, hn⟩ := h.good.lengths
        refine ⟨n, fun o ho => ?_⟩
        have hf : ∀ o : Obj, Spec.Faithful dflt (Spec.settled dflt o) → Spec.Faithful dflt o := by
          intro o ho
          exact ⟨ho.scale, ho.plain, by simpa [Spec.settled, Spec.stored] using ho.notMissing, ho.max, ho.min, ho.range⟩
        rcases List.mem_append.1 ho with ho | ho
        · obtain ⟨h1, h2, h3⟩ := hn (Spec.settledCoord dflt o) (List.mem_append.2 (.inl (List.mem_map.2 ⟨o, ho, rfl⟩)))
          exact ⟨h1, h2, hf o ⟨h3.scale, h3.plain, h3.notMissing, h3.max, h3.min, h3.range⟩⟩
        · obtain ⟨h1, h2, h3⟩ := hn (Spec.settled dflt o) (List.mem_append.2 (.inr (List.mem_map.2 ⟨o, ho, rfl⟩)))
          exact ⟨h1, h2, hf o h3⟩
      std := fun c hc => h.good.std (Spec.settledCoord dflt c) (List.mem_map.2 ⟨c, hc, rfl⟩)
      different := by
        have := h.good.different
        simp only [Spec.settle, List.map_map] at this
        exact this
      names := fun d hd => h.good.names (Spec.settled dflt d) (List.mem_map.2 ⟨d, hd, rfl⟩)
      own := by
        have := h.good.own
        simp only [Spec.settle, List.map_map] at this
        exact this }

/-- What is saved, exactly. -/
theorem save_exact (valid : String → Bool) (dflt : Bool → ℚ) (x : List Obj × List Obj) (h : Spec.Good valid dflt x.1 x.2) :
    ∃ n, (∀ o ∈ x.1 ++ x.2, o.values.length = n) ∧ save dflt x.1 x.2 =
      .ok ⟨sourceAttr, n, x.1.map (fun c => makeVar dflt c.info.std c) ++ x.2.map (fun d => makeVar dflt d.info.name d)⟩ := by
  obtain ⟨n, hn⟩ := h.lengths
  refine ⟨n, fun o ho => (hn o ho).1, ?_⟩
  obtain ⟨f, h1, h2, h3⟩ := save_holds valid dflt x.1 x.2 h
  have hl : f.length = n := by
    have hkeep : ∀ (p : Bool) (f f' : File) (o : Obj), createVariable dflt p f o = .ok f' → f'.length = f.length := by
      intro p f f' o h
      unfold createVariable at h
      simp only at h
      repeat' split at h
      all_goals first | cases h | skip
      all_goals rfl
    have hk1 : ∀ (l : List Obj) (f f' : File), l.foldlM (createVariable dflt true) f = .ok f' → f'.length = f.length := by
      intro l
      induction l with
      | nil => intro f f' h; cases h; rfl
      | cons o t ih =>
        intro f f' h
        rw [List.foldlM_cons] at h
        cases hc : createVariable dflt true f o with
        | error e => rw [hc] at h; cases h
        | ok g => rw [hc] at h; exact (ih g f' h).trans (hkeep _ _ _ _ hc)
    have hk2 : ∀ (l : List Obj) (f f' : File), l.foldlM (addData dflt) f = .ok f' → f'.length = f.length := by
      intro l
      induction l with
      | nil => intro f f' h; cases h; rfl
      | cons o t ih =>
        intro f f' h
        rw [List.foldlM_cons] at h
        cases hc : addData dflt f o with
        | error e => rw [hc] at h; cases h
        | ok g =>
          rw [hc] at h
          refine (ih g f' h).trans ?_
          unfold addData at hc
          cases hv : createVariable dflt false f o with
          | error e => rw [hv] at hc; cases hc
          | ok g' => rw [hv] at hc; cases hc; exact hkeep _ f g' o hv
    cases hx : x.1 with
    | nil => exact absurd hx h.some.1
    | cons c t =>
      rw [hx] at h1
      unfold save at h1
      rw [writeCoords] at h1
      cases hw : (c :: t).foldlM (createVariable dflt true) ⟨[], c.values.length, []⟩ with
      | error e => rw [hw] at h1; cases h1
      | ok g =>
        rw [hw] at h1
        rw [hk2 _ _ _ h1, hk1 _ _ _ hw]
        exact (hn c (by simp [hx])).1
  rw [h1]
  obtain ⟨src, len, vars⟩ := f
  simp only at hl h3
  subst hl h3
  have : vars = _ := h2
  rw [this]

/-- C211: to save what was read from a file of CIS writes the same file again, attribute by attribute and value by value. -/
theorem c211_resave (valid : String → Bool) (dflt : Bool → ℚ) (x : List Obj × List Obj) (h : Spec.Sound valid dflt x) :
    save dflt (Spec.settle dflt x).1 (Spec.settle dflt x).2 = save dflt x.1 x.2 := by
  obtain ⟨n, hn, h1⟩ := save_exact valid dflt x h.good
  obtain ⟨m, hm, h2⟩ := save_exact valid dflt _ (good_settle valid dflt x h).good
  rw [h1, h2]
  have hmn : m = n := by
    cases hx : x.1 with
    | nil => exact absurd hx h.good.some.1
    | cons c t =>
      have e1 := hn c (by simp [hx])
      have e2 := hm (Spec.settledCoord dflt c) (by simp [Spec.settle, hx])
      rw [← e1, ← e2]; rfl
  subst hmn
  simp only [Spec.settle, List.map_map]
  congr 3

theorem names_settle (dflt : Bool → ℚ) (x : List Obj × List Obj) : Spec.names (Spec.settle dflt x) = Spec.names x := by
  simp only [Spec.names, Spec.settle, List.map_map]
  rfl

theorem save_settle (valid : String → Bool) (dflt : Bool → ℚ) (x' x : List Obj × List Obj) (h : Spec.settle dflt x' = Spec.settle dflt x)
    (hx : Spec.Sound valid dflt x) : save dflt x'.1 x'.2 = save dflt x.1 x.2 := by
  rw [← c211_resave valid dflt x hx, ← h]
  refine (c211_resave valid dflt x' (sound_of_settle valid dflt x' ?_)).symm
  rw [h]
  exact good_settle valid dflt x hx

theorem blind_step (dflt : Bool → ℚ) (op : List Obj × List Obj → Option (List Obj × List Obj)) (hb : Spec.Blind dflt op) (x y : List Obj × List Obj)
    (h : op x = some y) : ∃ y', op (Spec.settle dflt x) = some y' ∧ Spec.settle dflt y' = Spec.settle dflt y := by
  have e := hb (Spec.settle dflt x) x (settle_settle dflt x)
  rw [h] at e
  cases ho : op (Spec.settle dflt x) with
  | none => rw [ho] at e; cases e
  | some y' =>
    rw [ho] at e
    exact ⟨y', rfl, by simpa using e⟩

theorem intAfter_makeVar (dflt : Bool → ℚ) (n : String) (o : Obj) (h : Spec.Faithful dflt o) : intAfter (makeVar dflt n o).var = o.isInt := by
  unfold intAfter makeVar
  simp only
  cases ho : o.isInt with
  | false => rfl
  | true =>
    obtain ⟨h1, h2⟩ := h.plain ho
    rw [h1, h2]
    rfl

/-- **C211.** What is in memory after a saved file has been read: everything as it was, with its type, missing value, limits and packing. -/
theorem c211_reread (valid : String → Bool) (dflt : Bool → ℚ) (x : List Obj × List Obj) (h : Spec.Sound valid dflt x) :
    ∃ f, save dflt x.1 x.2 = .ok f ∧ loaded valid [f] (Spec.names x) = .ok (Spec.settle dflt x) := by
  obtain ⟨f, hs, hf, -⟩ := save_holds valid dflt x.1 x.2 h.good
  refine ⟨f, hs, ?_⟩
  obtain ⟨n, hn⟩ := h.good.lengths
  -- each variable
  have hone : ∀ o ∈ x.2, ∃ d : Data, createData valid true [f] o.info.name = .ok d ∧ objOf f ⟨d.info, d.values⟩ = Spec.settled dflt o ∧
      d.coords.map (fun c => objOf f c.2) = x.1.map (Spec.settledCoord dflt) := by
    intro o ho
    obtain ⟨files, d, h1, h2, h3, h4, h5, h6⟩ := c96_round_trip valid dflt x [] o (by simpa using h.good) (by simp) ho (by simp) (h.std o ho)
    have hfiles : files = [f] := by
      rw [List.mapM_cons, hs] at h1
      simp only [List.mapM_nil, bind, Except.bind, pure, Except.pure] at h1
      cases h1
      rfl
    subst hfiles
    refine ⟨d, h2, ?_, ?_⟩
    · unfold objOf
      simp only
      rw [h3, holds_find_data valid dflt x.1 x.2 f h.good hf o ho]
      simp only
      rw [intAfter_makeVar dflt _ o (hn o (by simp [ho])).2.2, h4]
      simp only [List.flatMap_cons, List.flatMap_nil, List.append_nil]
      rw [spec_variable x.2 h.good.own o ho]
      have hk := (hn o (by simp [ho])).2.1
      obtain ⟨info, isInt, known, values, missing, packing⟩ := o
      simp only at hk
      subst hk
      rfl
    · have hlen : d.coords.length = x.1.length := by
        have := congrArg List.length h5
        simpa using this
      apply List.ext_getElem
      · simp [hlen]
      · intro i hi1 hi2
        simp only [List.getElem_map]
        have hi : i < x.1.length := by simpa using hi2
        have hi' : i < d.coords.length := by rw [hlen]; exact hi
        have g5 : d.coords[i].2.info = { x.1[i].info with name := x.1[i].info.std } := by
          have := congrArg (fun l => l[i]?) h5
          simpa [List.getElem?_map, List.getElem?_eq_getElem hi, List.getElem?_eq_getElem hi'] using this
        have g6 : d.coords[i].2.values = x.1[i].values := by
          have := congrArg (fun l => l[i]?) h6
          simp only [List.getElem?_map, List.getElem?_eq_getElem hi, List.getElem?_eq_getElem hi', Option.map_some, List.flatMap_cons, List.flatMap_nil,
            List.append_nil, Option.some.injEq] at this
          rw [this, spec_coordinate x.1 h.good.different _ (List.getElem_mem hi)]
        have hc : x.1[i] ∈ x.1 := List.getElem_mem hi
        generalize x.1[i] = c at g5 g6 hc
        generalize d.coords[i].2 = g at g5 g6
        unfold objOf
        rw [g5]
        simp only
        rw [holds_find_coord valid dflt x.1 x.2 f h.good hf c hc]
        simp only
        rw [intAfter_makeVar dflt _ c (hn c (by simp [hc])).2.2, g6]
        have hk := (hn c (by simp [hc])).2.1
        obtain ⟨info, isInt, known, values, missing, packing⟩ := c
        simp only at hk
        subst hk
        rfl
  -- all of them
  have hall : ∀ l : List Obj, (∀ o ∈ l, o ∈ x.2) → ∃ ds : List Data, readEach valid [f] (l.map (fun o => o.info.name)) = .ok ds ∧
      ds.map (fun d => objOf f ⟨d.info, d.values⟩) = l.map (Spec.settled dflt) ∧
      ∀ d ∈ ds, d.coords.map (fun c => objOf f c.2) = x.1.map (Spec.settledCoord dflt) := by
    intro l
    induction l with
    | nil => intro _; exact ⟨[], rfl, rfl, by simp⟩
    | cons o t ih =>
      intro hl
      obtain ⟨ds, i1, i2, i3⟩ := ih (fun o ho => hl o (by simp [ho]))
      obtain ⟨d, j1, j2, j3⟩ := hone o (hl o (by simp))
      refine ⟨d :: ds, ?_, by rw [List.map_cons, List.map_cons, j2, i2], ?_⟩
      · rw [List.map_cons, readEach, j1]
        dsimp only
        rw [i1]
      · intro d' hd'
        rcases List.mem_cons.1 hd' with rfl | hd'
        · exact j3
        · exact i3 d' hd'
  obtain ⟨ds, h1, h2, h3⟩ := hall x.2 (fun o ho => ho)
  unfold loaded Spec.names
  simp only
  rw [h1]
  cases ds with
  | nil =>
    have : x.2 = [] := by simpa using h2
    exact absurd this h.good.some.2
  | cons d t =>
    dsimp only
    rw [h3 d (by simp), h2]
    rfl

/-- **C211.** An analysis of any number of steps, all of whose results can be saved, made through files gives the file that is saved at the end when it
is made in memory; and in no other way. -/
theorem c211_analysis (valid : String → Bool) (dflt : Bool → ℚ) (ops : List (List Obj × List Obj → Option (List Obj × List Obj)))
    (hb : ∀ op ∈ ops, Spec.Blind dflt op) (x z : List Obj × List Obj) (h : Spec.InMemory valid dflt ops x z) :
    ∃ f g, save dflt x.1 x.2 = .ok f ∧ save dflt z.1 z.2 = .ok g ∧ ∀ g', Spec.ThroughFiles valid dflt ops (Spec.names x) f g' ↔ g' = g := by
  induction h with
  | nil x hx =>
    obtain ⟨f, h1, h2⟩ := c211_reread valid dflt x hx
    refine ⟨f, f, h1, h1, fun g' => ⟨?_, ?_⟩⟩
    · intro ht; cases ht; rfl
    · rintro rfl; exact .nil _ _
  | cons op ops x y z hx hop hm ih =>
    obtain ⟨fy, g, hy, hg, hiff⟩ := ih (fun op hop => hb op (by simp [hop]))
    obtain ⟨f, h1, h2⟩ := c211_reread valid dflt x hx
    have hys : Spec.Sound valid dflt y := by cases hm <;> assumption
    obtain ⟨y', hop', hsy⟩ := blind_step dflt op (hb op (by simp)) x y hop
    have hnames : Spec.names y' = Spec.names y := by rw [← names_settle dflt y', hsy, names_settle]
    have hsave := (save_settle valid dflt y' y hsy hys).trans hy
    refine ⟨f, g, h1, hg, fun g' => ⟨?_, ?_⟩⟩
    · intro ht
      cases ht with
      | cons _ _ _ _ x' y' gy _ k1 k2 k3 k4 =>
        rw [h2] at k1
        cases k1
        rw [hop'] at k2
        cases k2
        rw [hsave] at k3
        cases k3
        rw [hnames] at k4
        exact (hiff g').1 k4
    · rintro rfl
      refine .cons op ops _ f _ _ fy _ h2 hop' hsave ?_
      rw [hnames]
      exact (hiff _).2 rfl

/-- C211: subsetting is such a step, with any limits. -/
theorem c211_subset_blind (dflt : Bool → ℚ) (lon lat : Nat) (limits : List Cis.Subset.Limit) :
    Spec.Blind dflt (fun x => subsetObjs lon lat limits x.1 x.2) := by
  intro x x' hxx
  have key : ∀ x : List Obj × List Obj, subsetObjs lon lat limits (Spec.settle dflt x).1 (Spec.settle dflt x).2 =
      (subsetObjs lon lat limits x.1 x.2).map (Spec.settle dflt) := by
    intro x
    have hp : (Spec.settle dflt x).2.map (pointsOf (Spec.settle dflt x).1) = x.2.map (pointsOf x.1) := by
      simp only [Spec.settle, List.map_map]
      refine List.map_congr_left fun o _ => ?_
      simp only [pointsOf, List.map_map, Function.comp]
      rfl
    simp only [subsetObjs, hp]
    cases Cis.Subset.constrainList lon lat ⟨limits, none, none, none⟩ (x.2.map (pointsOf x.1)) with
    | none => rfl
    | some l =>
      cases l with
      | nil => simp [Spec.settle]
      | cons u us =>
        simp only [Option.map_some, Spec.settle, Option.some.injEq, Prod.mk.injEq]
        have hz : ∀ {B : Type} (s : Obj → Obj) (k : Obj → B → Obj) (_ : ∀ o b, s (k o b) = k (s o) b) (l : List Obj) (m : List B),
            List.zipWith k (l.map s) m = (List.zipWith k l m).map s := by
          intro B s k hk l
          induction l with
          | nil => intro m; rfl
          | cons o t ih =>
            intro m
            cases m with
            | nil => rfl
            | cons b m => simp only [List.map_cons, List.zipWith_cons_cons, ih, hk]
        exact ⟨hz (Spec.settledCoord dflt) (fun c (x : List ℚ) => c.withValues (x.map some)) (fun o b => rfl) _ _,
          hz (Spec.settled dflt) (fun o (x : Cis.Subset.UData (Option ℚ)) => o.withValues x.values) (fun o b => rfl) _ _⟩
  rw [← key, ← key, hxx]

/-- A subset of sound data can be saved and read, and has exactly the points within the limits. -/
theorem subset_sound (valid : String → Bool) (dflt : Bool → ℚ) (x y : List Obj × List Obj) (hx : Spec.Sound valid dflt x) (lon lat : Nat)
    (limits : List Cis.Subset.Limit) (hlim : ∀ l ∈ limits, l.coord < x.1.length)
    (hconv : ∀ l ∈ limits, l.coord = lon → Cis.Subset.newRange ((x.1.map (fun c => c.values.filterMap id)).getD lon []) l.start l.stop = none)
    (h : subsetObjs lon lat limits x.1 x.2 = some y) :
    Spec.Sound valid dflt y ∧ y.1.length = x.1.length ∧ ∀ o ∈ x.2, ∃ o' ∈ y.2, o'.info = o.info ∧
      Spec.table (y.1.map Obj.values) o'.values = (Spec.table (x.1.map Obj.values) o.values).filter (Spec.within limits) := by
  obtain ⟨n, hn⟩ := hx.good.lengths
  have hlc : ∀ c ∈ x.1, c.values.length = n := fun c hc => (hn c (by simp [hc])).1
  have hld : ∀ o ∈ x.2, o.values.length = n := fun c hc => (hn c (by simp [hc])).1
  obtain ⟨m, hml, hmw, hsub⟩ := subsetObjs_eq lon lat limits x.1 x.2 hx.good.some.2 n (fun c hc => (hx.good.std c hc).2.2) hlc hld hlim hconv
  rw [hsub] at h
  by_cases h0 : m.count true = 0
  · rw [if_pos h0] at h; cases h
  · rw [if_neg h0, Option.some.injEq] at h
    subst h
    have hm : ∀ o ∈ x.1 ++ x.2, o.values.length = m.length := fun o ho => by rw [hml]; exact (hn o ho).1
    refine ⟨⟨good_select valid dflt x.1 x.2 hx.good m hm, ?_⟩, by simp, ?_⟩
    · intro o ho
      obtain ⟨o', ho', rfl⟩ := List.mem_map.1 ho
      exact hx.std o' ho'
    · intro o ho
      refine ⟨_, List.mem_map.2 ⟨o, ho, rfl⟩, rfl, ?_⟩
      have e : (x.1.map (fun c => c.withValues (Cis.Subset.select m c.values))).map Obj.values = (x.1.map Obj.values).map (Cis.Subset.select m) := by
        simp only [List.map_map]; rfl
      show Spec.table ((x.1.map (fun c => c.withValues (Cis.Subset.select m c.values))).map Obj.values) (Cis.Subset.select m o.values) = _
      rw [e, table_select m o.values _ (by
        intro c hc
        obtain ⟨c', hc', rfl⟩ := List.mem_map.1 hc
        rw [hlc c' hc', hld o ho]), hmw o ho, Cis.Subset.select_map]

/-- **C211.** Two `cis subset` commands, the second on the output of the first: the variables of the last file have exactly the points that are within
both sets of limits. -/
theorem c211_two_subsets (valid : String → Bool) (dflt : Bool → ℚ) (x y z : List Obj × List Obj) (hx : Spec.Sound valid dflt x) (lon lat : Nat)
    (a b : List Cis.Subset.Limit) (ha : ∀ l ∈ a, l.coord < x.1.length) (hb : ∀ l ∈ b, l.coord < x.1.length)
    (hca : ∀ l ∈ a, l.coord = lon → Cis.Subset.newRange ((x.1.map (fun c => c.values.filterMap id)).getD lon []) l.start l.stop = none)
    (hcb : ∀ l ∈ b, l.coord = lon → Cis.Subset.newRange ((y.1.map (fun c => c.values.filterMap id)).getD lon []) l.start l.stop = none)
    (h1 : subsetObjs lon lat a x.1 x.2 = some y) (h2 : subsetObjs lon lat b y.1 y.2 = some z) :
    ∃ f g, save dflt x.1 x.2 = .ok f ∧
      (∀ g', Spec.ThroughFiles valid dflt [fun u => subsetObjs lon lat a u.1 u.2, fun u => subsetObjs lon lat b u.1 u.2] (Spec.names x) f g' ↔ g' = g) ∧
      ∀ o ∈ x.2, ∃ d, createData valid true [g] o.info.name = .ok d ∧ d.info = o.info ∧
        Spec.table (d.coords.map (fun c => c.2.values)) d.values =
          (Spec.table (x.1.map Obj.values) o.values).filter (fun p => Spec.within a p && Spec.within b p) := by
  obtain ⟨hy, hyl, hyo⟩ := subset_sound valid dflt x y hx lon lat a ha hca h1
  obtain ⟨hz, -, -⟩ := subset_sound valid dflt y z hy lon lat b (by rw [hyl]; exact hb) hcb h2
  obtain ⟨f, g, hf, hg, hiff⟩ := c211_analysis valid dflt [fun u => subsetObjs lon lat a u.1 u.2, fun u => subsetObjs lon lat b u.1 u.2]
    (by
      intro op hop
      simp only [List.mem_cons, List.not_mem_nil, or_false] at hop
      rcases hop with rfl | rfl <;> exact c211_subset_blind dflt lon lat _) x z
    (.cons _ _ _ _ _ hx h1 (.cons _ _ _ _ _ hy h2 (.nil _ hz)))
  refine ⟨f, g, hf, hiff, ?_⟩
  intro o ho
  obtain ⟨o', ho', hi, ht⟩ := hyo o ho
  obtain ⟨g', d, e1, -, e2, e3, -, e4⟩ := (c157_subset_file valid dflt y.1 y.2 hy.good o' ho' (hy.std o' ho') lon lat b (by rw [hyl]; exact hb) hcb).2 z.1 z.2 h2
  rw [hg] at e1
  cases e1
  refine ⟨d, by rw [← hi]; exact e2, by rw [e3, hi], ?_⟩
  rw [e4, ht, List.filter_filter]
  refine List.filter_congr fun p _ => ?_
  rw [Bool.and_comm]

/-! ### As commands on a disk -/

open Cis.Concurrent in
/-- The commands of the analysis: the `k`-th reads all variables of one file, makes one step and saves the result (`subset_cmd`, cis_main.py:102-121,
and `evaluate_cmd`, cis_main.py:174-186). -/
def pipeline (valid : String → Bool) (paths : Nat → Path) (consent : Nat → Bool) (names : Nat → List String)
    (ops : Nat → List Obj × List Obj → Option (List Obj × List Obj)) (k : Nat) : Cmd :=
  ⟨[paths k], paths (k + 1), consent k, fun files => match loaded valid files (names k) with
    | .error _ => none
    | .ok x => ops k x⟩

open Cis.Concurrent in
/-- **C211.** The analysis as `n` commands on a disk, in any order that waits for the inputs of each (as in a script, or under `make -j`), with enough
turns: all succeed, and the last file is the one saved when the steps are made in memory. -/
theorem c211_script (valid : String → Bool) (dflt : Bool → ℚ) (ops : Nat → List Obj × List Obj → Option (List Obj × List Obj)) (n : Nat)
    (hb : ∀ k < n, Spec.Blind dflt (ops k)) (x : Nat → List Obj × List Obj) (hx : ∀ k ≤ n, Spec.Sound valid dflt (x k))
    (hop : ∀ k < n, ops k (x k) = some (x (k + 1))) (paths : Nat → Path) (consent : Nat → Bool) (hp : Function.Injective paths) (d : Disk)
    (h0 : ∀ f, save dflt (x 0).1 (x 0).2 = .ok f → d (paths 0) = some f) (hnew : ∀ k < n, d (paths (k + 1)) = none ∨ consent k = true) :
    ∃ need : Nat → Nat, ∀ schedule : List Nat,
      Spec.Respects dflt (pipeline valid paths consent (fun k => Spec.names (x k)) ops) d n schedule → (∀ i < n, need i ≤ Spec.turns schedule i) →
      let w := run dflt (pipeline valid paths consent (fun k => Spec.names (x k)) ops) (Spec.fresh d) schedule
      (∀ i < n, w.st i = .done) ∧ ∃ g, save dflt (x n).1 (x n).2 = .ok g ∧ w.disk (paths n) = some g := by
  have hfile : ∀ k ≤ n, ∃ f, save dflt (x k).1 (x k).2 = .ok f ∧ loaded valid [f] (Spec.names (x k)) = .ok (Spec.settle dflt (x k)) :=
    fun k hk => c211_reread valid dflt (x k) (hx k hk)
  let made : Nat → File := fun k => match save dflt (x k).1 (x k).2 with
    | .ok f => f
    | .error _ => emptyFile
  have hmade : ∀ k ≤ n, save dflt (x k).1 (x k).2 = .ok (made k) ∧ loaded valid [made k] (Spec.names (x k)) = .ok (Spec.settle dflt (x k)) := by
    intro k hk
    obtain ⟨f, h1, h2⟩ := hfile k hk
    have : made k = f := by simp only [made, h1]
    rw [this]
    exact ⟨h1, h2⟩
  let cmds := pipeline valid paths consent (fun k => Spec.names (x k)) ops
  have hout : ∀ i j, i ≠ j → (cmds i).output ≠ (cmds j).output := by
    intro i j hij e
    have := hp e
    omega
  have hread : ∀ k ≤ n, Spec.after cmds (fun k => made (k + 1)) d k (paths k) = some (made k) := by
    intro k hk
    cases k with
    | zero => exact h0 _ (hmade 0 (by omega)).1
    | succ k => exact after_of_mem cmds _ d k (k + 1) (by omega) (fun j _ hj => hout k j hj)
  have hscript : Spec.Script dflt cmds (fun k => made (k + 1)) d n := by
    refine ⟨?_, fun i _ j _ hij => hout i j hij, ?_⟩
    · intro k hk
      obtain ⟨y', hop', hsy⟩ := blind_step dflt (ops k) (hb k hk) (x k) (x (k + 1)) (hop k hk)
      refine ⟨?_, [made k], y'.1, y'.2, .cons (hread k (by omega)) .nil, ?_, ?_⟩
      · rcases hnew k hk with h | h
        · left
          rw [after_of_not cmds _ d _ k (fun i hi => hout k i (by omega))]
          exact h
        · right
          refine ⟨h, ?_⟩
          show paths (k + 1) ∉ [paths k]
          intro e
          have := hp (List.mem_singleton.1 e)
          omega
      · show (match loaded valid [made k] (Spec.names (x k)) with
          | .error _ => none
          | .ok x => ops k x) = _
        rw [(hmade k (by omega)).2]
        exact hop'
      · exact (save_settle valid dflt y' _ hsy (hx (k + 1) (by omega))).trans (hmade (k + 1) (by omega)).1
    · intro i _ j _ e
      have : paths (i + 1) ∈ [paths j] := e
      have := hp (List.mem_singleton.1 this)
      omega
  obtain ⟨need, hneed⟩ := c210_same_as_script dflt cmds _ d n hscript
  refine ⟨need, fun schedule hs ht => ?_⟩
  obtain ⟨h1, h2⟩ := hneed schedule hs ht
  refine ⟨h1, made n, (hmade n (le_refl n)).1, ?_⟩
  show (run dflt cmds (Spec.fresh d) schedule).disk (paths n) = _
  rw [h2]
  exact hread n (le_refl n)

/-! The hypotheses are met: three points, of which the first step keeps two and the second one; the value of the last is missing. -/

def exLat3 : Obj := plainObj "lat" "latitude" [some 10, some 20, some 30]
def exLon3 : Obj := plainObj "" "longitude" [some 0, some 5, some 9]
def exT3 : Obj := plainObj "t" "air_temperature" [some 280, some 290, none]

theorem exSound : Spec.Sound (fun s => s != "") defaultFill ([exLat3, exLon3], [exT3]) where
  std := by
    intro o ho
    simp only [List.mem_cons, List.not_mem_nil, or_false] at ho
    subst ho
    left; decide
  good :=
    { some := by simp
      lengths := by
        refine ⟨3, ?_⟩
        intro o ho
        simp only [List.cons_append, List.nil_append, List.mem_cons, List.not_mem_nil, or_false] at ho
        rcases ho with rfl | rfl | rfl
        · exact ⟨rfl, rfl, plain_faithful _ _ _ (by intro x hx; simp at hx; rcases hx with rfl | rfl | rfl <;> norm_num)⟩
        · exact ⟨rfl, rfl, plain_faithful _ _ _ (by intro x hx; simp at hx; rcases hx with rfl | rfl | rfl <;> norm_num)⟩
        · exact ⟨rfl, rfl, plain_faithful _ _ _ (by intro x hx; simp at hx; rcases hx with rfl | rfl <;> norm_num)⟩
      std := by
        intro c hc
        simp only [List.mem_cons, List.not_mem_nil, or_false] at hc
        rcases hc with rfl | rfl
        · exact ⟨by decide, by decide, by simp [exLat3, plainObj]⟩
        · exact ⟨by decide, by decide, by simp [exLon3, plainObj]⟩
      different := by decide
      names := by
        intro d hd
        simp only [List.mem_cons, List.not_mem_nil, or_false] at hd
        subst hd
        exact ⟨by decide, by decide⟩
      own := by decide }

example : ∃ y z, subsetObjs 1 0 [⟨0, 15, 35⟩] [exLat3, exLon3] [exT3] = some y ∧ subsetObjs 1 0 [⟨1, 6, 20⟩] y.1 y.2 = some z ∧
    z.1.map Obj.values = [[some 30], [some 9]] ∧ z.2.map Obj.values = [[none]] ∧
    Cis.Subset.newRange ((y.1.map (fun c => c.values.filterMap id)).getD 1 []) 6 20 = none := by
  refine ⟨_, _, by with_unfolding_all rfl, by with_unfolding_all rfl, ?_⟩
  decide +kernel

end Cis.RoundTrip
