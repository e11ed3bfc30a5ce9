import Verif.Colloc.Spec
import Verif.Geo.Props
import Verif.HavTree.Props
import Mathlib.Data.List.Perm.Basic
set_option linter.unusedSectionVars false
set_option linter.unusedSimpArgs false
namespace Cis.Colloc
open Cis.Geo Cis.KDTree

theorem foldl_filter {A : Type} (c : A → Bool) (l acc : List A) :
    l.foldl (fun con p => if c p then con ++ [p] else con) acc = acc ++ l.filter c := by
  induction l generalizing acc with
  | nil => simp
  | cons x t ih =>
    rw [List.foldl_cons, ih]
    by_cases h : c x <;> simp [h]

theorem iloc_eq (f : List DRow) (idx : List Nat) (h : ∀ i ∈ idx, i < f.length) :
    iloc f idx = some (idx.filterMap (fun i => f[i]?)) := by
  unfold iloc
  induction idx with
  | nil => rfl
  | cons i t ih =>
    have hi := h i (by simp)
    rw [List.mapM_cons, ih (fun j hj => h j (by simp [hj]))]
    simp [List.getElem?_eq_getElem hi]

theorem nonzero_lt (f : List DRow) (c : Loc → Bool) : ∀ i ∈ nonzero f c, i < f.length := by
  intro i hi
  unfold nonzero at hi
  exact List.mem_range.1 (List.mem_filter.1 hi).1

theorem nonzero_rows (f : List DRow) (c : Loc → Bool) :
    (nonzero f c).filterMap (fun i => f[i]?) = f.filter (fun r => c r.loc) := by
  unfold nonzero
  induction f using List.reverseRecOn with
  | nil => rfl
  | append_singleton t x ih =>
    rw [List.length_append, List.length_singleton, List.range_succ, List.filter_append, List.filterMap_append,
      List.filter_append]
    congr 1
    · rw [← ih]
      have h1 : (List.range t.length).filter (entry (t ++ [x]) c)
          = (List.range t.length).filter (entry t c) := by
        apply List.filter_congr
        intro i hi
        unfold entry
        rw [List.getElem?_append_left (List.mem_range.1 hi)]
      rw [h1]
      apply List.filterMap_congr
      intro i hi
      rw [List.getElem?_append_left (List.mem_range.1 (List.mem_filter.1 hi).1)]
    · have : (t ++ [x])[t.length]? = some x := by simp
      by_cases h : c x.loc <;> simp [h, entry]

theorem iloc_nonzero (f : List DRow) (c : Loc → Bool) : iloc f (nonzero f c) = some (f.filter (fun r => c r.loc)) := by
  rw [iloc_eq f _ (nonzero_lt f c), nonzero_rows]

theorem filter_or_perm {A : Type} (c d : A → Bool) (l : List A) (h : ∀ x ∈ l, ¬ (c x = true ∧ d x = true)) :
    (l.filter c ++ l.filter d).Perm (l.filter (fun x => c x || d x)) := by
  induction l with
  | nil => simp
  | cons x t ih =>
    have ih := ih (fun y hy => h y (by simp [hy]))
    have hx := h x (by simp)
    by_cases h1 : c x
    · have h2 : d x = false := by simpa [h1] using hx
      simpa [h1, h2] using ih
    · by_cases h2 : d x
      · simp only [List.filter_cons, h1, h2]
        simp only [Bool.or_true, if_true, Bool.false_eq_true, if_false]
        exact List.perm_middle.trans (ih.cons x)
      · simpa [h1, h2] using ih

/-- Every check of the indexed constraint selects the rows satisfying a condition, up to order. -/
def CheckOK (check : List DRow → Loc → List Nat) (c : Loc → Loc → Bool) : Prop :=
  ∀ f ref, ∃ sel, iloc f (check f ref) = some sel ∧ sel.Perm (f.filter (fun r => c ref r.loc))

theorem applyChecks_perm (ref : Loc) :
    ∀ (cs : List ((List DRow → Loc → List Nat) × (Loc → Loc → Bool))), (∀ c ∈ cs, CheckOK c.1 c.2) → ∀ f f0 : List DRow,
      f.Perm f0 →
      ∃ sel, applyChecks (cs.map Prod.fst) ref f = some sel ∧ sel.Perm (f0.filter (fun r => cs.all (fun c => c.2 ref r.loc))) := by
  intro cs
  induction cs with
  | nil => intro _ f f0 h; exact ⟨f, rfl, by simpa using h⟩
  | cons c t ih =>
    intro hok f f0 h
    obtain ⟨sel, h1, h2⟩ := hok c (by simp) f ref
    obtain ⟨sel', h3, h4⟩ := ih (fun d hd => hok d (by simp [hd])) sel (f0.filter (fun r => c.2 ref r.loc))
      (h2.trans (h.filter _))
    refine ⟨sel', ?_, ?_⟩
    · unfold applyChecks at h3 ⊢
      rw [List.map_cons, List.foldlM_cons, h1]; exact h3
    · rw [List.filter_filter] at h4
      refine h4.trans (List.Perm.of_eq ?_)
      apply List.filter_congr
      intro r _
      simp [Bool.and_comm]

theorem altCheck_ok (a : ℝ) : CheckOK (altCheck a) (fun ref p => decide (|p.alt - ref.alt| < a)) :=
  fun f _ => ⟨_, iloc_nonzero f _, List.Perm.refl _⟩

theorem timeCheck_ok (t : ℝ) : CheckOK (timeCheck t) (fun ref p => decide (|p.time - ref.time| < t)) :=
  fun f _ => ⟨_, iloc_nonzero f _, List.Perm.refl _⟩

/-- The condition of the pressure check. -/
noncomputable def presCond (q : ℝ) (ref p : Loc) : Bool :=
  (decide (ref.pres / p.pres < q) && decide (p.pres ≤ ref.pres)) || (decide (p.pres / ref.pres < q) && decide (p.pres > ref.pres))

theorem presCheck_ok (q : ℝ) : CheckOK (presCheck q) (presCond q) := by
  intro f ref
  unfold presCheck
  refine ⟨_, iloc_eq f _ ?_, ?_⟩
  · intro i hi
    rcases List.mem_append.1 hi with hi | hi <;> exact nonzero_lt f _ i hi
  · rw [List.filterMap_append, nonzero_rows, nonzero_rows]
    apply filter_or_perm
    intro r _ h
    simp only [Bool.and_eq_true, decide_eq_true_eq] at h
    exact absurd h.1.2 (not_le.2 h.2.2)

/-- The conditions of the checks of the indexed constraint. -/
noncomputable def kdCond (s : Seps) : List ((List DRow → Loc → List Nat) × (Loc → Loc → Bool)) :=
  (match s.a with | some a => [(altCheck a, fun ref p => decide (|p.alt - ref.alt| < a))] | none => []) ++
  (match s.p with | some q => [(presCheck q, presCond q)] | none => []) ++
  (match s.t with | some t => [(timeCheck t, fun ref p => decide (|p.time - ref.time| < t))] | none => [])

theorem kdCond_fst (s : Seps) : (kdCond s).map Prod.fst = kdChecks s := by
  unfold kdCond kdChecks
  cases s.a <;> cases s.p <;> cases s.t <;> rfl

theorem kdCond_ok (s : Seps) : ∀ c ∈ kdCond s, CheckOK c.1 c.2 := by
  unfold kdCond
  intro c hc
  simp only [List.mem_append] at hc
  rcases hc with (hc | hc) | hc
  · cases h : s.a with
    | none => simp [h] at hc
    | some a => simp [h] at hc; subst hc; exact altCheck_ok a
  · cases h : s.p with
    | none => simp [h] at hc
    | some q => simp [h] at hc; subst hc; exact presCheck_ok q
  · cases h : s.t with
    | none => simp [h] at hc
    | some t => simp [h] at hc; subst hc; exact timeCheck_ok t

theorem ratio_max {a b : ℝ} (ha : 0 < a) (hb : 0 < b) : (if a > b then a / b else b / a) = max (a / b) (b / a) := by
  split
  · rename_i h
    rw [max_eq_left]
    rw [div_le_div_iff₀ ha hb]; nlinarith
  · rename_i h
    rw [max_eq_right]
    rw [div_le_div_iff₀ hb ha]; nlinarith

theorem presCond_iff {q : ℝ} {ref p : Loc} (hr : 0 < ref.pres) (hp : 0 < p.pres) :
    presCond q ref p = true ↔ max (p.pres / ref.pres) (ref.pres / p.pres) < q := by
  rw [← ratio_max hp hr]
  unfold presCond
  simp only [Bool.or_eq_true, Bool.and_eq_true, decide_eq_true_eq]
  split
  · rename_i h
    constructor
    · rintro (h1 | h1)
      · exact absurd h1.2 (not_le.2 h)
      · exact h1.1
    · intro h1; exact Or.inr ⟨h1, h⟩
  · rename_i h
    constructor
    · rintro (h1 | h1)
      · exact h1.1
      · exact absurd h1.2 h
    · intro h1; exact Or.inl ⟨h1, not_lt.1 h⟩

/-- The separations other than the horizontal one. -/
def VWithin (s : Seps) (ref p : Loc) : Prop :=
  (∀ a, s.a = some a → |p.alt - ref.alt| < a) ∧
  (∀ q, s.p = some q → max (p.pres / ref.pres) (ref.pres / p.pres) < q) ∧
  (∀ t, s.t = some t → |p.time - ref.time| < t)

theorem kdCond_all (s : Seps) (ref p : Loc) (hpos : s.p ≠ none → 0 < ref.pres ∧ 0 < p.pres) :
    ((kdCond s).all (fun c => c.2 ref p)) = true ↔ VWithin s ref p := by
  unfold kdCond VWithin
  rw [List.all_append, List.all_append, Bool.and_eq_true, Bool.and_eq_true, and_assoc]
  refine and_congr ?_ (and_congr ?_ ?_)
  · cases s.a <;> simp
  · cases hq : s.p with
    | none => simp
    | some q =>
      obtain ⟨hr, hp⟩ := hpos (by simp [hq])
      simp [presCond_iff hr hp]
  · cases s.t <;> simp

theorem plainChecks_all (s : Seps) (ref p : Loc) (hpos : s.p ≠ none → 0 < ref.pres ∧ 0 < p.pres) :
    ((plainChecks s).all (fun c => c p ref)) = true ↔ Spec.Within s ref p := by
  unfold plainChecks Spec.Within
  rw [List.all_append, List.all_append, List.all_append, Bool.and_eq_true, Bool.and_eq_true, Bool.and_eq_true, and_assoc, and_assoc]
  refine and_congr ?_ (and_congr ?_ (and_congr ?_ ?_))
  · cases s.h with
    | none => simp
    | some h => simp [(c58_haversine_great_circle p.lat p.lon ref.lat ref.lon).1]
  · cases s.a <;> simp
  · cases hq : s.p with
    | none => simp
    | some q =>
      obtain ⟨hr, hp⟩ := hpos (by simp [hq])
      simp [presSep, ratio_max hp hr]
  · cases s.t <;> simp

/-- An index list without repetition that holds exactly the rows satisfying `c` selects them, up to order. -/
theorem iloc_exact (f : List DRow) (c : Loc → Bool) (idx : List Nat) (hn : idx.Nodup)
    (hidx : ∀ i, i ∈ idx ↔ ∃ r, f[i]? = some r ∧ c r.loc = true) :
    ∃ sel, iloc f idx = some sel ∧ sel.Perm (f.filter (fun r => c r.loc)) := by
  refine ⟨_, iloc_eq f idx ?_, ?_⟩
  · intro i hi
    obtain ⟨r, h, -⟩ := (hidx i).1 hi
    exact (List.getElem?_eq_some_iff.1 h).1
  · rw [← nonzero_rows]
    apply List.Perm.filterMap
    unfold nonzero
    rw [List.perm_ext_iff_of_nodup hn (List.nodup_range.filter _)]
    intro i
    rw [hidx, List.mem_filter, List.mem_range]
    unfold entry
    constructor
    · rintro ⟨r, h, hc⟩
      exact ⟨(List.getElem?_eq_some_iff.1 h).1, by simp [h, hc]⟩
    · rintro ⟨h1, h2⟩
      refine ⟨f[i], List.getElem?_eq_getElem h1, ?_⟩
      simpa [List.getElem?_eq_getElem h1] using h2

end Cis.Colloc
