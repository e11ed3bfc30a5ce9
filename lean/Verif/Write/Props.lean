import Verif.Write.Model
set_option linter.unusedSectionVars false
set_option linter.unusedSimpArgs false
/-!
Writing never loses a variable, if the names differ (C51); several datagroups of a collocation (C62).
-/
namespace Cis.Write

variable {α : Type}

/-- Specification: what a file should hold, the objects with their names, in order. -/
def contents (preferStandard : Bool) (objs : List (Obj α)) : List (Option String × List α) :=
  objs.map (fun o => (varName preferStandard o, o.values))

theorem createAll_append (p : Bool) (f : File α) (l : List (Obj α)) (hlen : ∀ o ∈ l, o.values.length = f.length)
    (names : List String) (hnames : l.map (varName p) = names.map some)
    (hnew : (f.vars.map Prod.fst ++ names).Nodup) :
    ∃ f', createAll p f l = some f' ∧ f'.length = f.length ∧
      f'.vars = f.vars ++ (names.zip (l.map Obj.values)) := by
  induction l generalizing f names with
  | nil =>
    cases names with
    | nil => exact ⟨f, rfl, rfl, by simp⟩
    | cons => simp at hnames
  | cons o t ih =>
    cases names with
    | nil => simp at hnames
    | cons n ns =>
      simp only [List.map_cons, List.cons.injEq] at hnames
      have hn : n ∉ f.vars.map Prod.fst := by
        intro h
        have := (List.nodup_append.1 hnew).2.2 n h n (by simp)
        exact this rfl
      have hc : createVariable p f o = some { f with vars := f.vars ++ [(n, o.values)] } := by
        unfold createVariable
        rw [hnames.1]
        simp only [if_neg hn, if_pos (hlen o (by simp))]
      obtain ⟨f', h1, h2, h3⟩ := ih { f with vars := f.vars ++ [(n, o.values)] }
        (fun o' ho' => hlen o' (by simp [ho'])) ns hnames.2 (by simpa using hnew)
      refine ⟨f', ?_, h2, ?_⟩
      · rw [createAll, hc]; exact h1
      · rw [h3]; simp

/-- **C51** (condition: the names under which the objects are written must differ, a variable and a coordinate too). Saving
coordinates and data of the same length stores every one of them, under its own name and with its own values, and nothing
else. -/
theorem c51_save (coords data : List (Obj α)) (n : Nat) (hne : coords ≠ [])
    (hlen : ∀ o ∈ coords ++ data, o.values.length = n) (names : List String)
    (hnames : coords.map (varName true) ++ data.map (varName false) = names.map some) (hdistinct : names.Nodup) :
    ∃ f, saveData coords data = some f ∧ f.length = n ∧
      f.vars.map (fun p => (some p.1, p.2)) = contents true coords ++ contents false data := by
  obtain ⟨n1, n2, rfl, h1, h2⟩ : ∃ n1 n2, names = n1 ++ n2 ∧ coords.map (varName true) = n1.map some ∧
      data.map (varName false) = n2.map some := by
    obtain ⟨a, b, e1, e2, e3⟩ := List.append_eq_map_iff.1 hnames
    exact ⟨a, b, e1, e2.symm, e3.symm⟩
  cases coords with
  | nil => exact absurd rfl hne
  | cons c t =>
    have hcl : c.values.length = n := hlen c (by simp)
    have hc : ∀ o ∈ c :: t, o.values.length = (⟨c.values.length, []⟩ : File α).length := by
      intro o ho; rw [hlen o (by simp at ho ⊢; tauto)]; exact hcl.symm
    obtain ⟨f, e1, e2, e3⟩ := createAll_append true ⟨c.values.length, []⟩ (c :: t) hc n1 h1
      (by simpa using (List.nodup_append.1 hdistinct).1)
    have e3' : f.vars.map Prod.fst = n1 := by
      rw [e3]
      simp only [List.nil_append]
      rw [List.map_fst_zip]
      have := congrArg List.length h1
      simp at this ⊢
      omega
    obtain ⟨f', g1, g2, g3⟩ := createAll_append false f data (by
      intro o ho; rw [e2, hlen o (by simp [ho])]; exact hcl.symm) n2 h2 (by rw [e3']; exact hdistinct)
    refine ⟨f', ?_, by rw [g2, e2]; exact hcl, ?_⟩
    · simp only [saveData, writeCoordinateList, e1]; exact g1
    · rw [g3, e3]
      simp only [List.nil_append, List.map_append, contents]
      have hz : ∀ (p : Bool) (l : List (Obj α)) (m : List String), l.map (varName p) = m.map some →
          (m.zip (l.map Obj.values)).map (fun p => (some p.1, p.2)) = l.map (fun o => (varName p o, o.values)) := by
        intro p l
        induction l with
        | nil => intro m _; simp
        | cons o t ih =>
          intro m hm
          cases m with
          | nil => simp at hm
          | cons a b =>
            simp only [List.map_cons, List.cons.injEq] at hm
            simp only [List.map_cons, List.zip_cons_cons, ih b hm.2, hm.1]
      rw [hz true _ _ h1, hz false _ _ h2]

/-- A coordinate and two data objects. -/
def exampleCoord : Obj Nat := ⟨some "lat", some "latitude", [1, 2]⟩
def exampleData : List (Obj Nat) := [⟨some "rain", none, [3, 4]⟩, ⟨some "lat", none, [7, 8]⟩]

example : ∃ f, saveData [exampleCoord] exampleData = some f ∧ f.length = 2 ∧
    f.vars.map (fun p => (some p.1, p.2)) = contents true [exampleCoord] ++ contents false exampleData :=
  c51_save _ _ 2 (by simp) (by decide) ["latitude", "rain", "lat"] (by decide +kernel) (by decide +kernel)

/-- Whatever the names: the values found under a name are those of the first object written under it. -/
theorem createAll_first (p : Bool) (l : List (Obj α)) : ∀ f f' : File α, createAll p f l = some f' → ∀ n v,
    f.vars.lookup n = some v → f'.vars.lookup n = some v := by
  induction l with
  | nil => intro f f' h; simp [createAll] at h; subst h; exact fun _ _ h => h
  | cons o t ih =>
    intro f f' h n v hv
    rw [createAll] at h
    cases hc : createVariable p f o with
    | none => rw [hc] at h; simp at h
    | some g =>
      rw [hc] at h
      refine ih g f' h n v ?_
      unfold createVariable at hc
      split at hc
      · simp at hc
      · split at hc
        · simp at hc; subst hc; exact hv
        · split at hc
          · simp only [Option.some.injEq] at hc
            subst hc
            simp only [List.lookup_append, hv, Option.some_or]
          · simp at hc

/-- **C51** is violated when a variable has the name of a coordinate (or of another variable): its values are not written, and
no error is reported. -/
theorem save_clash_violated : ∃ f, saveData [exampleCoord] [⟨some "latitude", none, [7, 8]⟩] = some f ∧
    f.vars = [("latitude", [1, 2])] := by
  refine ⟨⟨2, [("latitude", [1, 2])]⟩, ?_, rfl⟩
  rfl

/-! ### C62 -/

/-- **C62** (condition: one datagroup). The output of the only datagroup is in the file. -/
theorem save_one_group_partial (before : Option (File α)) (c d : List (Obj α)) (f : File α) (h : saveData c d = some f) :
    saveGroups before [(c, d)] = some (some f) := by
  simp [saveGroups, h]

/-- **C62** is violated for several datagroups: in every case where all the outputs could be written, the file is the output of
the last one alone. -/
theorem save_groups_last_violated (groups : List (List (Obj α) × List (Obj α))) (c d : List (Obj α)) :
    ∀ (before r : Option (File α)), saveGroups before (groups ++ [(c, d)]) = some r → r = saveData c d := by
  induction groups with
  | nil =>
    intro before r h
    simp only [List.nil_append, saveGroups] at h
    cases hs : saveData c d with
    | none => rw [hs] at h; simp at h
    | some f => rw [hs] at h; simp at h; exact h.symm
  | cons g t ih =>
    intro before r h
    simp only [List.cons_append, saveGroups] at h
    split at h
    · simp at h
    · exact ih _ r h

/-- Two datagroups: the variable of the first one is lost. -/
example : saveGroups none [([exampleCoord], [⟨some "rain", none, [3, 4]⟩]), ([exampleCoord], [⟨some "snow", none, [5, 6]⟩])] =
    some (some ⟨2, [("latitude", [1, 2]), ("snow", [5, 6])]⟩) := by rfl

end Cis.Write
