import Verif.Lon.Gridded
set_option linter.unusedSectionVars false
set_option linter.unusedSimpArgs false
/-!
Gridded variables and the coordinate objects they refer to. Iris keeps a coordinate object that is given to `Cube(...)` without
copying it, so that variables made from the coordinates of others share them. Model of: the constructors that pass coordinates on,
`_create_collocated_cube` (cis/collocation/col_implementations.py:916-932, called for each value of the kernel at 883-884) and
`GriddedData.make_new_with_same_coordinates` (cis/data_io/gridded_data.py:84-103); `GriddedData.set_longitude_range`
(gridded_data.py:188-255) on an object among others; `CommonDataList.set_longitude_range` (common_data.py:365-373); the loop over a
list of variables with `_fix_longitude_range` in the collocators (col_implementations.py:144-160, 597-614, 1113-1121). Property C108.

A state has the longitude coordinate objects by address, and the variables: each refers to at most one longitude coordinate and has its
slices of data along longitude. The rotation of one variable is `griddedSetRange` of C23.
-/
namespace Cis.Lon.Sharing
open Cis.Lon Spec
variable {K : Type} [Field K] [LinearOrder K] [IsStrictOrderedRing K] [FloorRing K] {D O : Type}

/-- A longitude coordinate object. -/
structure LonObj (K : Type) where
  points : List K
  bounds : Option (List (K × K))

/-- A variable: the address of its longitude coordinate (if it has one), and its data as slices along longitude. -/
structure Var (D : Type) where
  coord : Option Nat
  slices : List D

/-- The objects of a program. -/
structure St (K D : Type) where
  heap : Nat → LonObj K
  vars : Nat → Var D

/-- What a user sees of the variable `v` with the coordinate object `a`. -/
def St.gridAt (σ : St K D) (a v : Nat) : Grid K D := ⟨(σ.heap a).points, (σ.heap a).bounds, (σ.vars v).slices⟩

/-- `var.set_longitude_range(s)` (gridded_data.py:188-255): the points and bounds are stored in the coordinate object, the data in the
variable. -/
def setRange (s : K) (σ : St K D) (v : Nat) : St K D :=
  match (σ.vars v).coord with
  | none => σ
  | some a =>
    let g := griddedSetRange (σ.gridAt a v) s
    ⟨Function.update σ.heap a ⟨g.points, g.bounds⟩, Function.update σ.vars v ⟨some a, g.slices⟩⟩

/-- `CommonDataList.set_longitude_range` (common_data.py:365-373). -/
def setRangeList (s : K) (σ : St K D) (l : List Nat) : St K D := l.foldl (setRange s) σ

/-- The collocators of gridded data called with a list of variables (col_implementations.py:144-160): each variable is brought into the
range of the sample and then interpolated. -/
def collocateList (f : Grid K D → O) (s : K) : List Nat → St K D → List (Option O) × St K D
  | [], σ => ([], σ)
  | v :: t, σ =>
    let σ' := setRange s σ v
    let r := collocateList f s t σ'
    ((σ'.vars v).coord.map (fun a => f (σ'.gridAt a v)) :: r.1, r.2)

/-- The outputs of a kernel with several values (col_implementations.py:883-884, 916-932): new variables on the coordinate objects of the
sample. -/
def makeOutputs (σ : St K D) (sample base : Nat) (vals : List (List D)) : St K D :=
  ⟨σ.heap, fun w => if base ≤ w ∧ w < base + vals.length then ⟨(σ.vars sample).coord, vals.getD (w - base) []⟩ else σ.vars w⟩

/-! ## Specification -/

/-- A grid that can be brought into the range that begins at `s` (C23). -/
structure Spec.Fit (s : K) (g : Grid K D) : Prop where
  wf : g.WellFormed
  inc : g.points.Pairwise (· < ·)
  span : ∀ a ∈ g.points, ∀ b ∈ g.points, b - a < 360
  low : ∃ p ∈ g.points, s ≤ p
  high : ∃ p ∈ g.points, p < s + 360

/-- Each value is where it was: the cells (longitude, bounds, data) are the same ones, begun at another place, up to whole turns. -/
def Spec.Moved (g' g : Grid K D) : Prop := ∃ k, List.Forall₂ SameCell g'.cells (g.cells.rotate k)

/-! ## Proofs -/

theorem inRange_fixed (g : Grid K D) (s : K) (h : ∀ p ∈ g.points, InRange s p) : griddedSetRange g s = g := by
  have h1 : searchsorted g.points s = 0 := by
    unfold searchsorted
    rw [List.countP_eq_zero]
    intro p hp
    simpa using (h p hp).1
  have h2 : searchsorted g.points (s + 360) = g.points.length := by
    unfold searchsorted
    rw [List.countP_eq_length]
    intro p hp
    simpa using (h p hp).2
  unfold griddedSetRange
  simp only
  rw [dif_neg (by rw [h1]; omega), dif_neg (by rw [h2]; omega)]

theorem idem (g : Grid K D) (s : K) (h : Spec.Fit s g) : griddedSetRange (griddedSetRange g s) s = griddedSetRange g s :=
  inRange_fixed _ s (c23_gridded_range g h.wf s h.inc h.span h.low h.high).2.1

theorem setRange_coord (s : K) (σ : St K D) (v w : Nat) : ((setRange s σ v).vars w).coord = (σ.vars w).coord := by
  unfold setRange
  cases h : (σ.vars v).coord with
  | none => rfl
  | some a =>
    simp only [Function.update_apply]
    split
    · rename_i e; subst e; rw [h]
    · rfl

theorem setRange_self (s : K) (σ : St K D) (v a : Nat) (h : (σ.vars v).coord = some a) :
    (setRange s σ v).gridAt a v = griddedSetRange (σ.gridAt a v) s := by
  unfold setRange
  rw [h]
  simp [St.gridAt]

/-- Another variable on another coordinate object. -/
theorem setRange_other (s : K) (σ : St K D) (v w a : Nat) (hvw : v ≠ w) (hn : (σ.vars v).coord ≠ some a) :
    (setRange s σ v).gridAt a w = σ.gridAt a w := by
  unfold setRange
  cases h : (σ.vars v).coord with
  | none => rfl
  | some b =>
    have hb : b ≠ a := by rintro rfl; exact hn h
    simp [St.gridAt, Function.update_apply, hb.symm, hvw.symm]

/-- Another variable on the same coordinate object. -/
theorem setRange_shared (s : K) (σ : St K D) (v w a : Nat) (hvw : v ≠ w) (h : (σ.vars v).coord = some a) :
    (setRange s σ v).gridAt a w = ⟨(griddedSetRange (σ.gridAt a v) s).points, (griddedSetRange (σ.gridAt a v) s).bounds, (σ.vars w).slices⟩ := by
  unfold setRange
  rw [h]
  simp [St.gridAt, Function.update_apply, hvw.symm]

theorem setRangeList_grid (s : K) (v a : Nat) : ∀ (l : List Nat) (σ : St K D), (σ.vars v).coord = some a →
    (∀ w ∈ l, (σ.vars w).coord = some a → w = v) →
    griddedSetRange (griddedSetRange (σ.gridAt a v) s) s = griddedSetRange (σ.gridAt a v) s →
    (setRangeList s σ l).gridAt a v = if v ∈ l then griddedSetRange (σ.gridAt a v) s else σ.gridAt a v := by
  intro l
  induction l with
  | nil => intro σ _ _ _; simp [setRangeList]
  | cons w l ih =>
    intro σ hv hu hi
    have hstep : setRangeList s σ (w :: l) = setRangeList s (setRange s σ w) l := rfl
    rw [hstep]
    by_cases hwv : w = v
    · subst hwv
      have hg := setRange_self s σ w a hv
      rw [ih (setRange s σ w) (by rw [setRange_coord]; exact hv)
        (fun x hx hc => hu x (List.mem_cons_of_mem _ hx) (by rw [setRange_coord] at hc; exact hc)) (by rw [hg, hi, hi]), hg, hi]
      simp
    · have hn : (σ.vars w).coord ≠ some a := fun h => hwv (hu w List.mem_cons_self h)
      have hg := setRange_other s σ w v a hwv hn
      rw [ih (setRange s σ w) (by rw [setRange_coord]; exact hv)
        (fun x hx hc => hu x (List.mem_cons_of_mem _ hx) (by rw [setRange_coord] at hc; exact hc)) (by rw [hg]; exact hi), hg]
      have : v ∈ w :: l ↔ v ∈ l := by
        rw [List.mem_cons]; constructor
        · rintro (h | h)
          · exact absurd h.symm hwv
          · exact h
        · exact Or.inr
      simp only [this]

/-- C108: setting the range of the longitudes of a list of variables (in which a variable may occur several times). A variable of the list
that shares its longitude coordinate with no other variable of the list ends with longitudes in range and increasing, and each value where
it was. A variable outside the list that shares with none of the list is unchanged. -/
theorem c108_list (s : K) (σ : St K D) (l : List Nat) (v a : Nat) (hv : (σ.vars v).coord = some a)
    (hu : ∀ w ∈ l, (σ.vars w).coord = some a → w = v) (hf : Spec.Fit s (σ.gridAt a v)) :
    (v ∈ l → ((setRangeList s σ l).gridAt a v).points.Pairwise (· < ·) ∧ (∀ p ∈ ((setRangeList s σ l).gridAt a v).points, InRange s p) ∧
      Spec.Moved ((setRangeList s σ l).gridAt a v) (σ.gridAt a v)) ∧
    (v ∉ l → (setRangeList s σ l).gridAt a v = σ.gridAt a v) := by
  rw [setRangeList_grid s v a l σ hv hu (idem _ s hf)]
  constructor
  · intro h
    rw [if_pos h]
    exact c23_gridded_range _ hf.wf s hf.inc hf.span hf.low hf.high
  · intro h
    rw [if_neg h]

theorem collocateList_eq (f : Grid K D → O) (s : K) : ∀ (l : List Nat) (σ : St K D),
    (∀ v ∈ l, ∀ w ∈ l, ∀ a, (σ.vars v).coord = some a → (σ.vars w).coord = some a → w = v) →
    (∀ v ∈ l, ∀ a, (σ.vars v).coord = some a → Spec.Fit s (σ.gridAt a v)) →
    (collocateList f s l σ).1 = l.map (fun v => (σ.vars v).coord.map (fun a => f (griddedSetRange (σ.gridAt a v) s))) ∧
      (collocateList f s l σ).2 = setRangeList s σ l := by
  have step : ∀ (l : List Nat) (σ : St K D), (collocateList f s l σ).2 = setRangeList s σ l := by
    intro l
    induction l with
    | nil => intro σ; rfl
    | cons v t ih => intro σ; rw [collocateList]; exact ih _
  have gen : ∀ (l l0 : List Nat) (σ σ0 : St K D), (∀ v ∈ l, v ∈ l0) → σ = setRangeList s σ0 [] ∨ True →
      (∀ w, (σ.vars w).coord = (σ0.vars w).coord) →
      (∀ v ∈ l0, ∀ w ∈ l0, ∀ a, (σ0.vars v).coord = some a → (σ0.vars w).coord = some a → w = v) →
      (∀ v ∈ l, ∀ a, (σ0.vars v).coord = some a → griddedSetRange (σ.gridAt a v) s = griddedSetRange (σ0.gridAt a v) s ∧
        Spec.Fit s (σ0.gridAt a v)) →
      (collocateList f s l σ).1 = l.map (fun v => (σ0.vars v).coord.map (fun a => f (griddedSetRange (σ0.gridAt a v) s))) := by
    intro l l0
    induction l with
    | nil => intro σ σ0 _ _ _ _ _; rfl
    | cons v t ih =>
      intro σ σ0 hl _ hc hu hg
      simp only [collocateList, List.map_cons, List.cons.injEq]
      constructor
      · rw [setRange_coord, hc]
        cases h : (σ0.vars v).coord with
        | none => rfl
        | some a =>
          simp only [Option.map_some]
          rw [setRange_self s σ v a (by rw [hc, h]), (hg v List.mem_cons_self a h).1]
      · apply ih _ σ0 (fun w hw => hl w (List.mem_cons_of_mem _ hw)) (Or.inr trivial) (fun w => by rw [setRange_coord, hc]) hu
        intro w hw a ha
        obtain ⟨g1, g2⟩ := hg w (List.mem_cons_of_mem _ hw) a ha
        refine ⟨?_, g2⟩
        by_cases hwv : v = w
        · subst hwv
          rw [setRange_self s σ v a (by rw [hc, ha]), g1, idem _ s g2]
        · rw [setRange_other s σ v w a hwv, g1]
          rw [hc]
          intro hva
          exact hwv (hu w (hl w (List.mem_cons_of_mem _ hw)) v (hl v List.mem_cons_self) a ha hva)
  intro l σ hu hf
  exact ⟨gen l l σ σ (fun _ h => h) (Or.inr trivial) (fun _ => rfl) hu (fun v hv a ha => ⟨rfl, hf v hv a ha⟩), step l σ⟩

/-- C108: collocating a list of variables no two of which share their longitude coordinate: the output of each variable is computed from
a grid on which each of its values is where it was, with all longitudes in range. -/
theorem c108_collocation (f : Grid K D → O) (s : K) (σ : St K D) (l : List Nat)
    (hu : ∀ v ∈ l, ∀ w ∈ l, ∀ a, (σ.vars v).coord = some a → (σ.vars w).coord = some a → w = v)
    (hc : ∀ v ∈ l, ∃ a, (σ.vars v).coord = some a ∧ Spec.Fit s (σ.gridAt a v)) :
    List.Forall₂ (fun v out => ∃ (a : Nat) (g : Grid K D), (σ.vars v).coord = some a ∧ out = some (f g) ∧
      (∀ p ∈ g.points, InRange s p) ∧ Spec.Moved g (σ.gridAt a v)) l (collocateList f s l σ).1 := by
  have hf : ∀ v ∈ l, ∀ a, (σ.vars v).coord = some a → Spec.Fit s (σ.gridAt a v) := by
    intro v hv a ha
    obtain ⟨b, hb, h⟩ := hc v hv
    rw [ha] at hb; cases hb; exact h
  rw [(collocateList_eq f s l σ hu hf).1, List.forall₂_map_right_iff, List.forall₂_same]
  intro v hv
  obtain ⟨a, ha, h⟩ := hc v hv
  have := c23_gridded_range _ h.wf s h.inc h.span h.low h.high
  exact ⟨a, _, ha, by rw [ha]; rfl, this.2.1, this.2.2⟩

/-! ## Violation -/

theorem head_moved (g : Grid K D) (s : K) (hf : Spec.Fit s g) (hr : rangeShift g.points s ≠ 0) :
    ∃ (p0 q : K), g.points[0]? = some p0 ∧ (griddedSetRange g s).points[0]? = some q ∧ ¬ Same q p0 := by
  have nosame : ∀ (i : Nat) (hi : i < g.points.length) (h0 : 0 < i) (m : ℤ), g.points[i] + (360 : K) * (m : K) ≠ g.points[0] := by
    intro i hi h0 m e
    have hlt : g.points[0] < g.points[i] := List.pairwise_iff_getElem.1 hf.inc 0 i (by omega) hi h0
    have hsp := hf.span g.points[0] (List.getElem_mem _) g.points[i] (List.getElem_mem _)
    have h1 : (360 : K) * (m : K) < 0 := by linarith
    have h2 : -(360 : K) < 360 * (m : K) := by linarith
    have h3 : m < 0 := by
      have : (m : K) < 0 := by nlinarith
      exact_mod_cast this
    have h4 : -1 < m := by
      have : (-1 : K) < (m : K) := by nlinarith
      exact_mod_cast this
    omega
  unfold rangeShift at hr
  simp only at hr
  unfold griddedSetRange
  simp only
  split
  · rename_i h
    rw [roll_neg _ _ _ rfl h.2]
    refine ⟨g.points[0], g.points[searchsorted g.points s], by rw [List.getElem?_eq_getElem], ?_, ?_⟩
    · rw [List.getElem?_map, List.getElem?_append_left (by simp; omega)]
      simp [h.2]
    · rintro ⟨k, hk⟩
      exact nosame _ h.2 h.1 (-k) (by rw [hk]; push_cast; ring)
  · rename_i h
    split
    · rename_i h2
      rw [roll_pos _ _ _ rfl h2.2]
      refine ⟨g.points[0], g.points[searchsorted g.points (s + 360)] - 360, by rw [List.getElem?_eq_getElem], ?_, ?_⟩
      · rw [List.getElem?_map, List.getElem?_append_left (by simp; omega)]
        simp [h2.2]
      · rintro ⟨k, hk⟩
        exact nosame _ h2.2 h2.1 (-k-1) (by push_cast; linarith)
    · rename_i h2
      rw [if_neg h, if_neg h2] at hr
      exact absurd rfl hr

theorem zip3_snd {A B : Type} (P : List A) : ∀ (Q : List B) (S : List D), (P.zip (Q.zip S)).map (fun c => c.2.2) = S.take (P.zip (Q.zip S)).length := by
  induction P with
  | nil => intro Q S; simp
  | cons p P ih =>
    intro Q S
    cases Q with
    | nil => simp
    | cons b Q =>
      cases S with
      | nil => simp
      | cons x S =>
        rw [List.zip_cons_cons, List.zip_cons_cons, List.map_cons, List.length_cons, List.take_succ_cons, ih]

theorem not_moved (g g' : Grid K D) (s : K) (hf : Spec.Fit s g) (hr : rangeShift g.points s ≠ 0) (hd : g.slices.Nodup)
    (hp : g'.points = (griddedSetRange g s).points) (hb : g'.bounds = (griddedSetRange g s).bounds) (hs : g'.slices = g.slices) :
    ¬ Spec.Moved g' g := by
  rintro ⟨k, hk⟩
  obtain ⟨p0, q, h0, hq, hns⟩ := head_moved g s hf hr
  have hlen0 : 0 < g.points.length := by
    by_contra h
    rw [List.getElem?_eq_none (by omega)] at h0
    cases h0
  have hcells : g.cells.length = g.points.length := by
    unfold Grid.cells
    cases hgb : g.bounds with
    | none => simp [hf.wf.1]
    | some b => simp [hf.wf.1, hf.wf.2 b hgb]
  have hlen : g'.cells.length = g.points.length := by rw [hk.length_eq, List.length_rotate, hcells]
  have hslices : ∀ g : Grid K D, g.cells.map (fun c => c.2.2) = g.slices.take g.cells.length := by
    intro g
    unfold Grid.cells
    exact zip3_snd _ _ _
  have hS : g.slices = g.slices.rotate k := by
    have e1 : g'.cells.map (fun c => c.2.2) = (g.cells.rotate k).map (fun c => c.2.2) := by
      clear hq hns hlen
      have : List.Forall₂ (fun a b : D => a = b) (g'.cells.map (fun c => c.2.2)) ((g.cells.rotate k).map (fun c => c.2.2)) := by
        rw [List.forall₂_map_left_iff, List.forall₂_map_right_iff]
        exact hk.imp (fun _ _ h => by obtain ⟨_, _, h3⟩ := h; exact h3.2)
      exact List.forall₂_eq_eq_eq ▸ this
    rw [hslices, hlen, hs, List.map_rotate, hslices, hcells, List.take_of_length_le (by rw [hf.wf.1])] at e1
    exact e1
  have hk0 : k % g.slices.length = 0 := by
    have hpos : 0 < g.slices.length := by rw [hf.wf.1]; exact hlen0
    have e : g.slices[0]? = (g.slices.rotate k)[0]? := by rw [← hS]
    rw [List.getElem?_eq_getElem hpos, List.getElem?_eq_getElem (by simpa using hpos), List.getElem_rotate] at e
    have := (List.Nodup.getElem_inj_iff hd).1 (Option.some.inj e)
    simpa using this.symm
  have hrot : g.cells.rotate k = g.cells := by
    rw [← List.rotate_mod, hcells, ← hf.wf.1, hk0, List.rotate_zero]
  rw [hrot] at hk
  have h1 : g'.cells[0]?.map Prod.fst = some q := by
    have h5 : g'.cells[0]? = some g'.cells[0] := List.getElem?_eq_getElem (by omega)
    rw [h5]
    have h6 : g'.cells[0].1 = g'.points[0]'(by
        have := hlen; unfold Grid.cells at this; simp at this; omega) := by
      simp [Grid.cells]
    rw [Option.map_some, h6, ← hq, ← hp]
    exact (List.getElem?_eq_getElem _).symm
  have h2 : g.cells[0]?.map Prod.fst = some p0 := by
    have h5 : g.cells[0]? = some g.cells[0] := List.getElem?_eq_getElem (by omega)
    rw [h5]
    have h6 : g.cells[0].1 = g.points[0] := by simp [Grid.cells]
    rw [Option.map_some, h6, ← h0]
    exact (List.getElem?_eq_getElem _).symm
  have h3 := hk.get (i := 0) (by omega) (by omega)
  rw [List.getElem?_eq_getElem (by omega), Option.map_some, Option.some.injEq] at h1 h2
  simp only [List.get_eq_getElem] at h3
  obtain ⟨m, h3, -⟩ := h3
  exact hns ⟨m, by rw [← h1, ← h2]; exact h3⟩

theorem shift_depends (g g' : Grid K D) (s : K) (h : g'.points = g.points) :
    (griddedSetRange g' s).points = (griddedSetRange g s).points := by
  have e : ∀ (P : List K) (B B' : Option (List (K × K))) (S S' : List D),
      (griddedSetRange ⟨P, B, S⟩ s).points = (griddedSetRange ⟨P, B', S'⟩ s).points := by
    intro P B B' S S'
    unfold griddedSetRange
    simp only
    split
    · rfl
    · split <;> rfl
  obtain ⟨P, B, S⟩ := g
  obtain ⟨P', B', S'⟩ := g'
  cases h
  exact e _ _ _ _ _

theorem bounds_depends (g g' : Grid K D) (s : K) (h : g'.points = g.points) (hb : g'.bounds = g.bounds) :
    (griddedSetRange g' s).bounds = (griddedSetRange g s).bounds := by
  have e : ∀ (P : List K) (B : Option (List (K × K))) (S S' : List D),
      (griddedSetRange ⟨P, B, S⟩ s).bounds = (griddedSetRange ⟨P, B, S'⟩ s).bounds := by
    intro P B S S'
    unfold griddedSetRange
    simp only
    split
    · rfl
    · split <;> rfl
  obtain ⟨P, B, S⟩ := g
  obtain ⟨P', B', S'⟩ := g'
  cases h
  cases hb
  exact e _ _ _ _

/-- After `v` was brought into range, setting the range of `w`, which shares the coordinate of `v`, does nothing to `w`. -/
theorem shared_result (s : K) (σ : St K D) (v w a : Nat) (hvw : v ≠ w) (hv : (σ.vars v).coord = some a)
    (hf : Spec.Fit s (σ.gridAt a v)) (l : List Nat) (hl : ∀ x ∈ l, (σ.vars x).coord = some a) :
    (setRangeList s σ (v :: l)).gridAt a w =
      ⟨(griddedSetRange (σ.gridAt a v) s).points, (griddedSetRange (σ.gridAt a v) s).bounds, (σ.vars w).slices⟩ := by
  have h1 := setRange_shared s σ v w a hvw hv
  have hin := (c23_gridded_range _ hf.wf s hf.inc hf.span hf.low hf.high).2.1
  have gen : ∀ (l : List Nat) (σ' : St K D), (∀ x ∈ l, (σ'.vars x).coord = some a) →
      (σ'.heap a).points = (griddedSetRange (σ.gridAt a v) s).points → setRangeList s σ' l = σ' := by
    intro l
    induction l with
    | nil => intro _ _ _; rfl
    | cons x l ih =>
      intro σ' hx hp
      have e : setRange s σ' x = σ' := by
        unfold setRange
        rw [hx x List.mem_cons_self]
        have e1 : griddedSetRange (σ'.gridAt a x) s = σ'.gridAt a x := by
          apply inRange_fixed
          intro p hpm
          rw [St.gridAt] at hpm
          simp only at hpm
          rw [hp] at hpm
          exact hin p hpm
        simp only [e1]
        have e2 : (⟨some a, (σ'.vars x).slices⟩ : Var D) = σ'.vars x := by rw [← hx x List.mem_cons_self]
        have e3 : (⟨(σ'.heap a).points, (σ'.heap a).bounds⟩ : LonObj K) = σ'.heap a := rfl
        simp only [St.gridAt, e2, e3, Function.update_eq_self]
      show setRangeList s (setRange s σ' x) l = σ'
      rw [e]
      exact ih σ' (fun y hy => hx y (List.mem_cons_of_mem _ hy)) hp
  show (setRangeList s (setRange s σ v) l).gridAt a w = _
  rw [gen l (setRange s σ v) (fun x hx => by rw [setRange_coord]; exact hl x hx)
    (by have := congrArg Grid.points (setRange_self s σ v a hv); exact this), h1]

/-- C108 violated: of variables that share their longitude coordinate only the first is right. If its longitudes have to be rotated, every
other variable on the same coordinate object, whether it is in the list or not, keeps its data while its longitudes move: no longer
is each of its values where it was (unless two of its slices are equal). -/
theorem c108_shared_violated (s : K) (σ : St K D) (v w a : Nat) (hvw : v ≠ w) (hv : (σ.vars v).coord = some a)
    (hf : Spec.Fit s (σ.gridAt a v)) (hr : rangeShift (σ.gridAt a v).points s ≠ 0)
    (hlen : (σ.vars w).slices.length = (σ.heap a).points.length) (hd : (σ.vars w).slices.Nodup)
    (l : List Nat) (hl : ∀ x ∈ l, (σ.vars x).coord = some a) :
    Spec.Fit s (σ.gridAt a w) ∧ ¬ Spec.Moved ((setRangeList s σ (v :: l)).gridAt a w) (σ.gridAt a w) := by
  have hfw : Spec.Fit s (σ.gridAt a w) := ⟨⟨hlen, hf.wf.2⟩, hf.inc, hf.span, hf.low, hf.high⟩
  refine ⟨hfw, ?_⟩
  rw [shared_result s σ v w a hvw hv hf l hl]
  exact not_moved _ _ s hfw hr hd (shift_depends _ _ s rfl) (bounds_depends _ _ s rfl rfl) rfl

/-- C108 violated: the variables made by one collocation or aggregation (mean, standard deviation and number of points) share the longitude
coordinate of the sample. Bringing them into another range moves the values of all but the first, and those of the sample. -/
theorem c108_outputs_violated (s : K) (σ : St K D) (sample base a : Nat) (first : List D) (rest : List (List D))
    (hs : (σ.vars sample).coord = some a) (hfree : sample < base) (hf : Spec.Fit s (σ.gridAt a sample))
    (hr : rangeShift (σ.heap a).points s ≠ 0) (hlen : ∀ x ∈ first :: rest, x.length = (σ.heap a).points.length) :
    let σ' := makeOutputs σ sample base (first :: rest)
    let out := (List.range (rest.length + 1)).map (base + ·)
    (∀ (i : Nat) (x : List D), rest[i]? = some x → x.Nodup →
      ¬ Spec.Moved ((setRangeList s σ' out).gridAt a (base + i + 1)) (σ'.gridAt a (base + i + 1))) ∧
    ((σ.vars sample).slices.Nodup → ¬ Spec.Moved ((setRangeList s σ' out).gridAt a sample) (σ'.gridAt a sample)) ∧
    Spec.Moved ((setRangeList s σ' out).gridAt a base) (σ'.gridAt a base) := by
  intro σ' out
  have hcoord : ∀ i, i < rest.length + 1 → (σ'.vars (base + i)).coord = some a := by
    intro i hi
    show (if base ≤ base + i ∧ base + i < base + (first :: rest).length then _ else _ : Var D).coord = some a
    rw [if_pos ⟨by omega, by simp; omega⟩]
    exact hs
  have hslices : ∀ (i : Nat), i < rest.length + 1 → (σ'.vars (base + i)).slices = (first :: rest).getD i [] := by
    intro i hi
    show (if base ≤ base + i ∧ base + i < base + (first :: rest).length then _ else _ : Var D).slices = _
    rw [if_pos ⟨by omega, by simp; omega⟩]
    simp
  have hout : out = base :: ((List.range rest.length).map (fun i => base + (i + 1))) := by
    show (List.range (rest.length + 1)).map (base + ·) = _
    rw [List.range_succ_eq_map, List.map_cons, List.map_map]
    rfl
  have hfirst : Spec.Fit s (σ'.gridAt a base) := by
    refine ⟨⟨?_, hf.wf.2⟩, hf.inc, hf.span, hf.low, hf.high⟩
    have := hslices 0 (by omega)
    rw [Nat.add_zero] at this
    show (σ'.vars base).slices.length = _
    rw [this]
    exact hlen first List.mem_cons_self
  have hrest : ∀ x ∈ (List.range rest.length).map (fun i => base + (i + 1)), (σ'.vars x).coord = some a := by
    intro x hx
    obtain ⟨i, hi, rfl⟩ := List.mem_map.1 hx
    rw [List.mem_range] at hi
    exact hcoord (i + 1) (by omega)
  have hb : (σ'.vars base).coord = some a := hcoord 0 (by omega)
  have hsample : σ'.vars sample = σ.vars sample := by
    show (if base ≤ sample ∧ sample < base + (first :: rest).length then _ else _ : Var D) = _
    rw [if_neg (by omega)]
  refine ⟨?_, ?_, ?_⟩
  · intro i x hx hd
    have hi : i < rest.length := (List.getElem?_eq_some_iff.1 hx).1
    have hsl : (σ'.vars (base + i + 1)).slices = x := by
      have := hslices (i + 1) (by omega)
      rw [List.getD_cons_succ, List.getD_eq_getElem?_getD, hx] at this
      exact this
    rw [hout]
    refine (c108_shared_violated s σ' base (base + i + 1) a (by omega) hb hfirst hr ?_ (by rw [hsl]; exact hd) _ hrest).2
    rw [hsl]
    exact hlen x (List.mem_cons_of_mem _ (List.mem_of_getElem? hx))
  · intro hd
    rw [hout]
    refine (c108_shared_violated s σ' base sample a (by omega) hb hfirst hr ?_ (by rw [hsample]; exact hd) _ hrest).2
    rw [hsample]
    exact hf.wf.1
  · rw [hout]
    have key : (setRangeList s σ' (base :: (List.range rest.length).map (fun i => base + (i + 1)))).gridAt a base =
        griddedSetRange (σ'.gridAt a base) s := by
      have hin := (c23_gridded_range _ hfirst.wf s hfirst.inc hfirst.span hfirst.low hfirst.high).2.1
      have gen : ∀ (l : List Nat) (τ : St K D), (∀ x ∈ l, (τ.vars x).coord = some a ∧ x ≠ base) →
          τ.gridAt a base = griddedSetRange (σ'.gridAt a base) s → (setRangeList s τ l).gridAt a base = griddedSetRange (σ'.gridAt a base) s := by
        intro l
        induction l with
        | nil => intro τ _ h; exact h
        | cons x l ih =>
          intro τ hx ht
          obtain ⟨hc, hne⟩ := hx x List.mem_cons_self
          apply ih (setRange s τ x) (fun y hy => by rw [setRange_coord]; exact hx y (List.mem_cons_of_mem _ hy))
          have hp : (τ.gridAt a x).points = (griddedSetRange (σ'.gridAt a base) s).points := by rw [← ht]; rfl
          have e1 : griddedSetRange (τ.gridAt a x) s = τ.gridAt a x := inRange_fixed _ s (by rw [hp]; exact hin)
          rw [setRange_shared s τ x base a hne hc, e1, ← ht]
          rfl
      apply gen _ (setRange s σ' base)
      · intro x hx
        refine ⟨by rw [setRange_coord]; exact hrest x hx, ?_⟩
        obtain ⟨i, -, rfl⟩ := List.mem_map.1 hx
        omega
      · exact setRange_self s σ' base a hb
    rw [key]
    exact (c23_gridded_range _ hfirst.wf s hfirst.inc hfirst.span hfirst.low hfirst.high).2.2

/-! ## Examples -/

/-- Mean and number of points of an aggregation onto -180 .. 90, brought into 0 .. 360: the mean is right (1, 2 at the western longitudes
-180 and -90 are now at 180 and 270), the numbers are not (the number 10 of -180 is now at 0). -/
example : let σ : St ℚ Nat := makeOutputs ⟨fun _ => ⟨[-180, -90, 0, 90], none⟩, fun _ => ⟨some 0, [0, 0, 0, 0]⟩⟩ 0 1 [[1, 2, 3, 4], [10, 20, 30, 40]]
    let τ := setRangeList 0 σ [1, 2]
    ((τ.gridAt 0 1).points.zip (τ.gridAt 0 1).slices, (τ.gridAt 0 2).points.zip (τ.gridAt 0 2).slices) =
      ([(0, 3), (90, 4), (180, 1), (270, 2)], [(0, 10), (90, 20), (180, 30), (270, 40)]) := by decide +kernel

example : rangeShift ([-180, -90, 0, 90] : List ℚ) 0 ≠ 0 := by decide +kernel

example : Spec.Fit 0 (⟨[-180, -90, 0, 90], none, [1, 2, 3, 4]⟩ : Grid ℚ Nat) :=
  ⟨⟨rfl, by intro b h; cases h⟩, by decide +kernel, by decide +kernel, by decide +kernel, by decide +kernel⟩

/-- Two variables with coordinates of their own. -/
example : let σ : St ℚ Nat := ⟨fun _ => ⟨[-180, -90, 0, 90], none⟩, fun v => ⟨some v, [v, v + 1, v + 2, v + 3]⟩⟩
    let τ := setRangeList 0 σ [1, 2]
    ((τ.gridAt 1 1).points.zip (τ.gridAt 1 1).slices, (τ.gridAt 2 2).points.zip (τ.gridAt 2 2).slices) =
      ([(0, 3), (90, 4), (180, 1), (270, 2)], [(0, 4), (90, 5), (180, 2), (270, 3)]) := by decide +kernel

end Cis.Lon.Sharing
