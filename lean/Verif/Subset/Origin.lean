import Verif.Subset.Props
set_option linter.unusedSectionVars false
set_option linter.unusedSimpArgs false
/-!
Property C205 for ungridded subsetting: only the order of a coordinate other than the longitude matters, so that changing its origin
and units together with the limits on it selects the same points. The model is that of `Subset/Model.lean` (subset.py,
subset_constraint.py, subset_framework.py).
-/
namespace Cis.Subset
variable {V : Type}

/-- The data with coordinate `c` in other units. -/
def Spec.recoord (c : Nat) (f : ℚ → ℚ) (d : UData V) : UData V := ⟨d.coords.modify c (List.map f), d.values⟩

/-- The limits with those on coordinate `c` in other units; an absent limit stays absent. -/
def Spec.relimit (c : Nat) (f : ℚ → ℚ) : Kw → Kw
  | .limit k lo hi => if k = c then .limit k (lo.map f) (hi.map f) else .limit k lo hi
  | .shape s => .shape s

/-- A limit of the constraint in the other units. -/
def reL (c : Nat) (f : ℚ → ℚ) (l : Limit) : Limit := if l.coord = c then ⟨l.coord, f l.start, f l.stop⟩ else l

theorem reL_coord (c : Nat) (f : ℚ → ℚ) (l : Limit) : (reL c f l).coord = l.coord := by unfold reL; split <;> rfl

theorem getD_modify_self (l : List (List ℚ)) (c : Nat) (f : ℚ → ℚ) : (l.modify c (List.map f)).getD c [] = (l.getD c []).map f := by
  rw [List.getD_eq_getElem?_getD, List.getD_eq_getElem?_getD, List.getElem?_modify]
  cases l[c]? <;> simp

theorem getD_modify_ne (l : List (List ℚ)) (c k : Nat) (f : ℚ → ℚ) (h : k ≠ c) : (l.modify c (List.map f)).getD k [] = l.getD k [] := by
  rw [List.getD_eq_getElem?_getD, List.getD_eq_getElem?_getD, List.getElem?_modify]
  simp [Ne.symm h]

theorem select_of_map {A B : Type} (f : A → B) (m : List Bool) (a : List A) : select m (a.map f) = (select m a).map f := by
  unfold select
  induction a generalizing m with
  | nil => rfl
  | cons x t ih =>
    cases m with
    | nil => rfl
    | cons b m =>
      cases b
      · exact ih m
      · simp only [List.map_cons, List.zip_cons_cons, List.filterMap_cons, if_true, List.map_cons]
        rw [ih]

theorem select_recoord (c : Nat) (f : ℚ → ℚ) (m : List Bool) (d : UData V) : (Spec.recoord c f d).select m = Spec.recoord c f (d.select m) := by
  unfold UData.select Spec.recoord
  simp only [UData.mk.injEq, and_true]
  apply List.ext_getElem?
  intro i
  simp only [List.getElem?_map, List.getElem?_modify]
  cases d.coords[i]? with
  | none => simp
  | some x =>
    simp only [Option.map_some]
    split
    · simp [select_of_map]
    · simp

theorem createData_recoord (lon c : Nat) (hc : c ≠ lon) (f : ℚ → ℚ) (ls : List Limit) (d : UData V) :
    createData (some lon) (ls.map (reL c f)) (Spec.recoord c f d) = Spec.recoord c f (createData (some lon) ls d) := by
  induction ls generalizing d with
  | nil => rfl
  | cons l t ih =>
    simp only [List.map_cons, createData, reL_coord]
    by_cases h : l.coord = lon
    · have e : reL c f l = l := by unfold reL; rw [if_neg (fun e => hc (by rw [← e, h]))]
      rw [if_pos (by rw [h]), if_pos (by rw [h]), e]
      have : (⟨(Spec.recoord c f d).coords.modify l.coord (fun x => convertLons x l.start l.stop), (Spec.recoord c f d).values⟩ : UData V) =
          Spec.recoord c f ⟨d.coords.modify l.coord (fun x => convertLons x l.start l.stop), d.values⟩ := by
        unfold Spec.recoord
        simp only [UData.mk.injEq, and_true]
        apply List.ext_getElem?
        intro i
        simp only [List.getElem?_modify]
        by_cases h1 : l.coord = i <;> by_cases h2 : c = i
        · exact absurd (h2.trans (h1.symm.trans h)) hc
        all_goals (cases d.coords[i]? <;> simp [h1, h2])
      rw [this]
      exact ih _
    · rw [if_neg (fun e => h (Option.some.inj e)), if_neg (fun e => h (Option.some.inj e))]
      exact ih d

theorem limitMask_recoord (c : Nat) (f : ℚ → ℚ) (hf : StrictMono f) (d : UData V) (l : Limit) :
    limitMask (Spec.recoord c f d) (reL c f l) = limitMask d l := by
  unfold limitMask Spec.recoord
  rw [reL_coord]
  by_cases h : l.coord = c
  · have e : reL c f l = ⟨l.coord, f l.start, f l.stop⟩ := by unfold reL; rw [if_pos h]
    rw [e, h]
    simp only
    rw [getD_modify_self, List.map_map]
    apply List.map_congr_left
    intro x _
    simp [hf.le_iff_le]
  · have e : reL c f l = l := by unfold reL; rw [if_neg h]
    rw [e]
    simp only
    rw [getD_modify_ne _ _ _ _ h]

theorem combinedMask_recoord (c : Nat) (f : ℚ → ℚ) (hf : StrictMono f) (ls : List Limit) (d : UData V) :
    combinedMask (ls.map (reL c f)) (Spec.recoord c f d) = combinedMask ls d := by
  unfold combinedMask
  rw [List.foldl_map]
  simp only [limitMask_recoord c f hf]
  rfl

theorem shapeMask_recoord (lon lat c : Nat) (h1 : c ≠ lon) (h2 : c ≠ lat) (f : ℚ → ℚ) (s : Shape) (d : UData V) :
    shapeMask lon lat s (Spec.recoord c f d) = shapeMask lon lat s d := by
  unfold shapeMask Spec.recoord
  rw [getD_modify_ne _ _ _ _ h1.symm, getD_modify_ne _ _ _ _ h2.symm]

theorem foldl_ext (f : ℚ → ℚ) (op : ℚ → ℚ → ℚ) (h : ∀ a b, op (f a) (f b) = f (op a b)) (l : List ℚ) :
    ∀ a, (l.map f).foldl op (f a) = f (l.foldl op a) := by
  induction l with
  | nil => intro a; rfl
  | cons x t ih => intro a; rw [List.map_cons, List.foldl_cons, h, ih]; rfl

theorem minOf_map (f : ℚ → ℚ) (hf : StrictMono f) (l : List ℚ) (h : l ≠ []) : minOf (l.map f) = f (minOf l) := by
  unfold minOf
  cases l with
  | nil => exact absurd rfl h
  | cons x t => exact foldl_ext f min (fun a b => (hf.monotone.map_min).symm) (x :: t) x

theorem maxOf_map (f : ℚ → ℚ) (hf : StrictMono f) (l : List ℚ) (h : l ≠ []) : maxOf (l.map f) = f (maxOf l) := by
  unfold maxOf
  cases l with
  | nil => exact absurd rfl h
  | cons x t => exact foldl_ext f max (fun a b => (hf.monotone.map_max).symm) (x :: t) x

theorem assign_reL (c : Nat) (f : ℚ → ℚ) (l : Limit) (ls : List Limit) : assign (reL c f l) (ls.map (reL c f)) = (assign l ls).map (reL c f) := by
  induction ls with
  | nil => rfl
  | cons x t ih =>
    simp only [List.map_cons, assign, reL_coord]
    split
    · rfl
    · rw [ih]; rfl

theorem constraints_recoord (lon lat c : Nat) (h1 : c ≠ lon) (h2 : c ≠ lat) (f : ℚ → ℚ) (hf : StrictMono f) (d : UData V)
    (hd : d.coords.getD c [] ≠ []) (kws : List Kw) :
    ∀ (ls : List Limit) (sh : Option Shape),
      constraints lon lat (Spec.recoord c f d) (kws.map (Spec.relimit c f)) (ls.map (reL c f)) sh =
        ((constraints lon lat d kws ls sh).1.map (reL c f), (constraints lon lat d kws ls sh).2) := by
  induction kws with
  | nil => intro ls sh; rfl
  | cons k t ih =>
    intro ls sh
    cases k with
    | shape s =>
      simp only [List.map_cons, Spec.relimit, constraints]
      have e1 : (⟨lon, s.minX, s.maxX⟩ : Limit) = reL c f ⟨lon, s.minX, s.maxX⟩ := by unfold reL; rw [if_neg (fun e => h1 e.symm)]
      have e2 : (⟨lat, s.minY, s.maxY⟩ : Limit) = reL c f ⟨lat, s.minY, s.maxY⟩ := by unfold reL; rw [if_neg (fun e => h2 e.symm)]
      have e : assign ⟨lat, s.minY, s.maxY⟩ (assign ⟨lon, s.minX, s.maxX⟩ (ls.map (reL c f))) =
          (assign ⟨lat, s.minY, s.maxY⟩ (assign ⟨lon, s.minX, s.maxX⟩ ls)).map (reL c f) := by
        conv_lhs => rw [e1, e2]
        rw [assign_reL, assign_reL]
      rw [e, ih]
    | limit k lo hi =>
      by_cases hk : k = c
      · subst hk
        have ek : Spec.relimit k f (.limit k lo hi) = .limit k (lo.map f) (hi.map f) := by simp [Spec.relimit]
        simp only [List.map_cons, ek, constraints]
        have e : (⟨k, (lo.map f).getD (minOf ((Spec.recoord k f d).coords.getD k [])), (hi.map f).getD (maxOf ((Spec.recoord k f d).coords.getD k []))⟩ : Limit) =
            reL k f ⟨k, lo.getD (minOf (d.coords.getD k [])), hi.getD (maxOf (d.coords.getD k []))⟩ := by
          unfold reL Spec.recoord
          simp only
          rw [getD_modify_self, minOf_map f hf _ hd, maxOf_map f hf _ hd]
          cases lo <;> cases hi <;> rfl
        rw [e, assign_reL, ih]
      · have ek : Spec.relimit c f (.limit k lo hi) = .limit k lo hi := by simp [Spec.relimit, hk]
        simp only [List.map_cons, ek, constraints]
        have e : (⟨k, lo.getD (minOf ((Spec.recoord c f d).coords.getD k [])), hi.getD (maxOf ((Spec.recoord c f d).coords.getD k []))⟩ : Limit) =
            reL c f ⟨k, lo.getD (minOf (d.coords.getD k [])), hi.getD (maxOf (d.coords.getD k []))⟩ := by
          unfold reL Spec.recoord
          simp only
          rw [getD_modify_ne _ _ _ _ hk, if_neg hk]
        rw [e, assign_reL, ih]

/-- **C205**. Subsetting with a coordinate other than longitude and latitude in other units (any strictly increasing change), and its
limits in those units, selects the points selected before; absent limits may stay absent, and the other limits and the shape are as
they were. -/
theorem c205_subset (lon lat c : Nat) (h1 : c ≠ lon) (h2 : c ≠ lat) (f : ℚ → ℚ) (hf : StrictMono f) (kws : List Kw) (d : UData V)
    (hd : d.coords.getD c [] ≠ []) :
    subset lon lat (kws.map (Spec.relimit c f)) (Spec.recoord c f d) = (subset lon lat kws d).map (Spec.recoord c f) := by
  unfold subset
  have h := constraints_recoord lon lat c h1 h2 f hf d hd kws [] none
  rw [List.map_nil] at h
  rw [h]
  generalize (constraints lon lat d kws [] none).1 = ls
  generalize (constraints lon lat d kws [] none).2 = sh
  unfold constrain
  simp only [Option.getD_none]
  rw [createData_recoord lon c h1 f ls d, combinedMask_recoord c f hf, select_recoord]
  generalize (createData (some lon) ls d).select _ = d2
  have hv : ∀ x : UData V, (Spec.recoord c f x).values = x.values := fun _ => rfl
  cases sh with
  | none =>
    simp only [hv]
    split <;> rfl
  | some s =>
    simp only
    rw [shapeMask_recoord lon lat c h1 h2, select_recoord]
    simp only [hv]
    split <;> rfl

/-- An altitude above another level, one of three points being higher than 1500 m above the old one. -/
example : subset 0 1 [Spec.relimit 2 (fun x => x - 1000) (Kw.limit 2 (some 1500) none)]
      (Spec.recoord 2 (fun x => x - 1000) ⟨[[1, 2, 3], [4, 5, 6], [0, 1000, 2000]], ["a", "b", "c"]⟩) = some ⟨[[3], [6], [1000]], ["c"]⟩ ∧
    subset 0 1 [Kw.limit 2 (some 1500) none] (⟨[[1, 2, 3], [4, 5, 6], [0, 1000, 2000]], ["a", "b", "c"]⟩ : UData String) = some ⟨[[3], [6], [2000]], ["c"]⟩ := by
  have h : subset 0 1 [Kw.limit 2 (some 1500) none] (⟨[[1, 2, 3], [4, 5, 6], [0, 1000, 2000]], ["a", "b", "c"]⟩ : UData String) =
      some ⟨[[3], [6], [2000]], ["c"]⟩ := rfl
  refine ⟨?_, h⟩
  have e := c205_subset 0 1 2 (by decide) (by decide) (fun x => x - 1000) (fun a b h => sub_lt_sub_right h _) [Kw.limit 2 (some 1500) none]
    (⟨[[1, 2, 3], [4, 5, 6], [0, 1000, 2000]], ["a", "b", "c"]⟩ : UData String) (by simp)
  rw [List.map_cons, List.map_nil, h] at e
  rw [e]
  norm_num [Spec.recoord, List.modify, List.modifyTailIdx, List.modifyTailIdx.go, List.modifyHead]

end Cis.Subset
