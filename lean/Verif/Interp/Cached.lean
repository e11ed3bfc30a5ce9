import Verif.Interp.Violations
set_option linter.unusedSectionVars false
set_option linter.unusedSimpArgs false
/-!
Property C72: collocation of gridded variables onto ungridded points with one collocator object
(`GriddedUngriddedCollocator`, col_implementations.py:115-180). The object keeps the interpolator it made first
(lines 165-169), for all later variables and all later calls.
-/
namespace Cis.Interp

variable {K : Type} [Field K] [LinearOrder K] [IsStrictOrderedRing K]

/-- A gridded variable: its dimension coordinates and its values. -/
structure Var (K : Type) where
  axes : List (Axis K)
  vals : List Nat → Val K

/-- The sample points: for each point its coordinates, in the order of the dimensions of the variable
(gridded_interpolation.py:102, every dimension coordinate is a coordinate of the sample), and whether its value is masked. -/
abbrev Pts (K : Type) := List (List K × Bool)

/-- What `GriddedUngriddedInterpolator.__init__` keeps (gridded_interpolation.py:50-132): grid, sample points, mask and method. -/
structure Prepared (K : Type) where
  axes : List (Axis K)
  pts : Pts K
  method : Method

/-- `GriddedUngriddedInterpolator.__init__` (gridded_interpolation.py:50-132, 247-249): ValueError unless each point has as
many coordinates as the variable has dimensions and every axis is strictly monotonic. -/
def prepare (v : Var K) (pts : Pts K) (m : Method) : Except Err (Prepared K) :=
  if pts.all (fun p => p.1.length == v.axes.length) && v.axes.all (fun a => ascending a.grid) then .ok ⟨v.axes, pts, m⟩
  else .error .value

/-- The options of the collocator (col_implementations.py:120-126). -/
structure Opts where
  flag : Option Nat
  extrapolate : Bool
  missingForMissing : Bool

/-- `interpolator(data)` (gridded_interpolation.py:152-184): the grid and the points are those of the preparation, only the
values are those of `vals`. Variables of another shape than the prepared one are not described. -/
def Prepared.call (o : Opts) (p : Prepared K) (vals : List Nat → Val K) : Except Err (List (Val K)) :=
  p.pts.mapM (fun q => interpolate o.flag p.method p.axes vals q.1 o.extrapolate (o.missingForMissing && q.2))

/-- The collocator object: the cached interpolator. -/
abbrev Obj (K : Type) := Option (Prepared K)

/-- `collocate` for one variable (col_implementations.py:151-180), after the longitude ranges have been made the same. -/
def collocateOne (o : Opts) (s : Obj K) (v : Var K) (pts : Pts K) (m : Method) : Obj K × Except Err (List (Val K)) :=
  match s with
  | some p => (some p, p.call o v.vals)
  | none =>
    match prepare v pts m with
    | .ok p => (some p, p.call o v.vals)
    | .error e => (none, .error e)

/-- `collocate` for a list of variables (col_implementations.py:144-150): one after the other, the first exception ends it. -/
def collocateVars (o : Opts) (s : Obj K) (pts : Pts K) (m : Method) : List (Var K) → Obj K × Except Err (List (List (Val K)))
  | [] => (s, .ok [])
  | v :: vs =>
    match collocateOne o s v pts m with
    | (s1, .error e) => (s1, .error e)
    | (s1, .ok r) =>
      match collocateVars o s1 pts m vs with
      | (s2, .error e) => (s2, .error e)
      | (s2, .ok rs) => (s2, .ok (r :: rs))

/-- A call of `collocate`. -/
structure CollocCall (K : Type) where
  vars : List (Var K)
  pts : Pts K
  method : Method

/-- The object after a sequence of calls. -/
def afterCalls (o : Opts) (calls : List (CollocCall K)) : Obj K :=
  calls.foldl (fun s c => (collocateVars o s c.pts c.method c.vars).1) none

/-- What each variable should get: its own interpolation at each of the given points (C18 to C20 say what this is). -/
def ownValues (o : Opts) (c : CollocCall K) (v : Var K) (r : List (Val K)) : Prop :=
  List.Forall₂ (fun q x => interpolate o.flag c.method v.axes v.vals q.1 o.extrapolate (o.missingForMissing && q.2) = .ok x) c.pts r

/-- C72, full statement: after any calls, every variable of a successful call gets its own values at the points of this call. -/
def OwnValues (K : Type) [Field K] [LinearOrder K] [IsStrictOrderedRing K] : Prop :=
  ∀ (o : Opts) (before : List (CollocCall K)) (c : CollocCall K) (rs : List (List (Val K))),
    (collocateVars o (afterCalls o before) c.pts c.method c.vars).2 = .ok rs → List.Forall₂ (ownValues o c) c.vars rs

/-- The values of the object are prepared for this grid, these points and this method. -/
def For (axes : List (Axis K)) (pts : Pts K) (m : Method) (s : Obj K) : Prop := ∀ p, s = some p → p = ⟨axes, pts, m⟩

theorem collocateOne_for (o : Opts) (s : Obj K) (v : Var K) (pts : Pts K) (m : Method) (hs : For v.axes pts m s) :
    For v.axes pts m (collocateOne o s v pts m).1 ∧
      ∀ r, (collocateOne o s v pts m).2 = .ok r → ownValues o ⟨[], pts, m⟩ v r := by
  have key : ∀ r, Prepared.call o ⟨v.axes, pts, m⟩ v.vals = .ok r → ownValues o ⟨[], pts, m⟩ v r := by
    intro r hr
    unfold Prepared.call at hr
    unfold ownValues
    simp only at hr ⊢
    clear hs
    induction pts generalizing r with
    | nil =>
      simp [pure, Except.pure] at hr
      rw [hr]; exact List.Forall₂.nil
    | cons q t ih =>
      rw [List.mapM_cons] at hr
      simp only [bind, Except.bind, pure, Except.pure] at hr
      split at hr
      · cases hr
      · split at hr
        · cases hr
        · rename_i x hx _ xs hxs
          cases hr
          exact List.Forall₂.cons hx (ih _ hxs)
  unfold collocateOne
  cases s with
  | some p => rw [hs p rfl]; exact ⟨fun p hp => by cases hp; rfl, key⟩
  | none =>
    simp only
    unfold prepare
    split
    · rename_i p hp
      split at hp
      · cases hp
        exact ⟨fun p hp => by cases hp; rfl, key⟩
      · cases hp
    · refine ⟨?_, ?_⟩
      · intro p hp; cases hp
      · intro r hr; cases hr

theorem collocateVars_for (o : Opts) (axes : List (Axis K)) (pts : Pts K) (m : Method) (vs : List (Var K)) :
    ∀ s : Obj K, (∀ v ∈ vs, v.axes = axes) → For axes pts m s →
      For axes pts m (collocateVars o s pts m vs).1 ∧
        ∀ rs, (collocateVars o s pts m vs).2 = .ok rs → List.Forall₂ (ownValues o ⟨[], pts, m⟩) vs rs := by
  induction vs with
  | nil =>
    intro s _ hs
    refine ⟨hs, ?_⟩
    intro rs h
    simp only [collocateVars, Except.ok.injEq] at h
    rw [← h]; exact List.Forall₂.nil
  | cons v vs ih =>
    intro s hv hs
    have hva := hv v (by simp)
    obtain ⟨h1, h2⟩ := collocateOne_for o s v pts m (hva ▸ hs)
    rw [collocateVars]
    rcases hc : collocateOne o s v pts m with ⟨s1, r | r⟩
    · rw [hc] at h1
      exact ⟨hva ▸ h1, fun rs h => by cases h⟩
    · rw [hc] at h1 h2
      obtain ⟨h3, h4⟩ := ih s1 (fun w hw => hv w (by simp [hw])) (hva ▸ h1)
      simp only
      rcases hc2 : collocateVars o s1 pts m vs with ⟨s2, rs | rs⟩
      · rw [hc2] at h3
        exact ⟨h3, fun rs h => by cases h⟩
      · rw [hc2] at h3 h4
        refine ⟨h3, ?_⟩
        intro rs' h
        cases h
        exact List.Forall₂.cons (h2 r rfl) (h4 rs rfl)

/-- C72 holds when all variables of all calls share the grid and all calls share points and method. -/
theorem c72_same_grid (o : Opts) (axes : List (Axis K)) (pts : Pts K) (m : Method) (before : List (CollocCall K))
    (c : CollocCall K) (h : ∀ d ∈ before ++ [c], (∀ v ∈ d.vars, v.axes = axes) ∧ d.pts = pts ∧ d.method = m)
    (rs : List (List (Val K))) (hr : (collocateVars o (afterCalls o before) c.pts c.method c.vars).2 = .ok rs) :
    List.Forall₂ (ownValues o c) c.vars rs := by
  have hb : ∀ (l : List (CollocCall K)) (s : Obj K), (∀ d ∈ l, (∀ v ∈ d.vars, v.axes = axes) ∧ d.pts = pts ∧ d.method = m) →
      For axes pts m s → For axes pts m (l.foldl (fun s c => (collocateVars o s c.pts c.method c.vars).1) s) := by
    intro l
    induction l with
    | nil => intro s _ hs; exact hs
    | cons d l ih =>
      intro s hl hs
      rw [List.foldl_cons]
      obtain ⟨h1, h2, h3⟩ := hl d (by simp)
      apply ih _ (fun e he => hl e (by simp [he]))
      rw [h2, h3]
      exact (collocateVars_for o axes pts m d.vars s h1 hs).1
  have hs := hb before none (fun d hd => h d (by simp [hd])) (fun p hp => by cases hp)
  obtain ⟨h1, h2, h3⟩ := h c (by simp)
  have := (collocateVars_for o axes pts m c.vars (afterCalls o before) h1 hs).2 rs (by rw [← h2, ← h3]; exact hr)
  rw [← h2, ← h3] at this
  exact this

/-- The calls succeed: any number of variables on one ascending grid, any history of such calls. -/
theorem collocateVars_ok (o : Opts) (axes : List (Axis K)) (pts : Pts K) (m : Method) (hax : ∀ a ∈ axes, a.decreasing = false)
    (hasc : ∀ a ∈ axes, ascending a.grid = true) (hlen : ∀ p ∈ pts, p.1.length = axes.length) (vs : List (Var K)) :
    ∀ s : Obj K, (∀ v ∈ vs, v.axes = axes) → For axes pts m s → ∃ rs, (collocateVars o s pts m vs).2 = .ok rs := by
  have hcall : ∀ vals : List Nat → Val K, ∃ r, Prepared.call o ⟨axes, pts, m⟩ vals = .ok r := by
    intro vals
    unfold Prepared.call
    simp only
    induction pts with
    | nil => exact ⟨[], rfl⟩
    | cons q t ih =>
      obtain ⟨r, hr⟩ := ih (fun p hp => hlen p (by simp [hp]))
      have h1 : ∃ x, interpolate o.flag m axes vals q.1 o.extrapolate (o.missingForMissing && q.2) = .ok x := by
        unfold interpolate
        rw [if_neg (by simpa using hlen q (by simp)), if_neg (by simpa using hasc)]
        have : decreasingDims o.flag axes = [] := by
          unfold decreasingDims
          rw [List.filter_eq_nil_iff.2 (by intro a ha; simp [hax a ha])]
          rfl
        simp [this, accountForInverted]
      obtain ⟨x, hx⟩ := h1
      refine ⟨x :: r, ?_⟩
      rw [List.mapM_cons, hx, hr]
      rfl
  induction vs with
  | nil => intro s _ _; exact ⟨[], rfl⟩
  | cons v vs ih =>
    intro s hv hs
    have hva := hv v (by simp)
    have h1 : ∃ r, collocateOne o s v pts m = (some ⟨axes, pts, m⟩, .ok r) := by
      obtain ⟨r, hr⟩ := hcall v.vals
      refine ⟨r, ?_⟩
      unfold collocateOne
      cases s with
      | some p => rw [hs p rfl]; simp [hr]
      | none =>
        have : prepare v pts m = .ok ⟨axes, pts, m⟩ := by
          unfold prepare
          rw [hva, if_pos]
          rw [Bool.and_eq_true, List.all_eq_true, List.all_eq_true]
          exact ⟨fun p hp => by simpa using hlen p hp, hasc⟩
        simp [this, hr]
    obtain ⟨r, hr⟩ := h1
    obtain ⟨rs, hrs⟩ := ih (some ⟨axes, pts, m⟩) (fun w hw => hv w (by simp [hw])) (fun p hp => by cases hp; rfl)
    refine ⟨r :: rs, ?_⟩
    rw [collocateVars, hr]
    simp only
    rcases hc2 : collocateVars o (some ⟨axes, pts, m⟩) pts m vs with ⟨s2, x | x⟩
    · rw [hc2] at hrs; cases hrs
    · rw [hc2] at hrs; cases hrs; rfl

/-- C72 is violated already by one call with two variables whose grids differ (here [0, 10] and [0, 20]): the second gets a
value taken at another place. The values of both variables equal their coordinate, and the point is at 10. -/
theorem c72_two_grids_violated : ¬ OwnValues ℚ := by
  intro h
  have := h ⟨none, false, false⟩ []
    ⟨[⟨[⟨[0, 10], none⟩], fun i => .num (10 * (i.headD 0 : ℚ))⟩, ⟨[⟨[0, 20], none⟩], fun i => .num (20 * (i.headD 0 : ℚ))⟩],
      [([10], false)], .lin⟩ [[.num 10], [.num 20]] (by decide +kernel)
  rw [List.forall₂_cons, List.forall₂_cons] at this
  have h2 := this.2.1
  unfold ownValues at h2
  rw [List.forall₂_cons] at h2
  have h3 : interpolate none .lin [(⟨[0, 20], none⟩ : Axis ℚ)] (fun i => .num (20 * (i.headD 0 : ℚ))) [10] false false = .ok (.num 10) := by
    decide +kernel
  have h4 := h2.1
  simp only [Bool.and_false, Bool.false_and] at h4
  rw [h3] at h4
  simp at h4

/-- C72 is violated by a second call with other points on the same grid: the result is that of the first points (here two
values for a single point). -/
theorem c72_other_points_violated : ∃ (o : Opts) (v : Var ℚ) (pts pts' : Pts ℚ) (r : List (Val ℚ)),
    (collocateVars o (afterCalls o [⟨[v], pts, .lin⟩]) pts' .lin [v]).2 = .ok [r] ∧ pts'.length = 1 ∧ r = [.num 1, .num 2] ∧
    ¬ ownValues o ⟨[v], pts', .lin⟩ v r :=
  ⟨⟨none, false, false⟩, ⟨[⟨[0, 10], none⟩], fun i => .num (10 * (i.headD 0 : ℚ))⟩, [([1], false), ([2], false)], [([3], false)],
    [.num 1, .num 2], by decide +kernel, rfl, rfl, by
      intro h
      unfold ownValues at h
      have := h.length_eq
      simp at this⟩

/-- The hypotheses are met by two variables on one grid with a history. -/
example : ∃ rs, (collocateVars (⟨none, false, true⟩ : Opts)
    (afterCalls ⟨none, false, true⟩ [⟨[⟨demoAxes, fun i => .num (i.sum : ℚ)⟩], [([30, 300], false), ([0, 0], true)], .lin⟩])
    [([30, 300], false), ([0, 0], true)] .lin
    [⟨demoAxes, fun i => .num (i.sum : ℚ)⟩, ⟨demoAxes, fun i => .num (2 * i.sum : ℚ)⟩]).2 = .ok rs ∧ rs.length = 2 :=
  ⟨[[.num (8/3), .masked], [.num (16/3), .masked]], by decide +kernel, rfl⟩

end Cis.Interp
