import Verif.Interp.Units
set_option linter.unusedSectionVars false
set_option linter.unusedSimpArgs false
/-!
Property C205 for the interpolation of gridded data: changing the origin and units of a coordinate, of the grid and of the position
interpolated at, changes nothing. The model is that of `Interp/Model.lean` (gridded_interpolation.py).
-/
namespace Cis.Interp
variable {K : Type} [Field K] [LinearOrder K] [IsStrictOrderedRing K]

/-- A coordinate of the grid and of the position in other units, `x ↦ scale x + shift`. -/
structure Spec.Along (K : Type) where
  scale : K
  shift : K
  axis : Axis K
  x : K

/-- A place along the coordinate, in the other units. -/
def Spec.Along.at (u : Spec.Along K) (v : K) : K := u.scale * v + u.shift

/-- The grid coordinate in the other units: a modulus is a length. -/
def Spec.Along.changed (u : Spec.Along K) : Axis K := ⟨u.axis.points.map u.at, u.axis.circular.map (fun m => u.scale * m)⟩

theorem at_lt (u : Spec.Along K) (hu : 0 < u.scale) (a b : K) : u.at a < u.at b ↔ a < b := by
  unfold Spec.Along.at
  rw [add_lt_add_iff_right, mul_lt_mul_iff_right₀ hu]

theorem searchsorted_at (u : Spec.Along K) (hu : 0 < u.scale) (c : List K) (x : K) : searchsorted (c.map u.at) (u.at x) = searchsorted c x := by
  unfold searchsorted
  rw [List.countP_map]
  congr 1
  funext v
  simp [at_lt u hu]

theorem findIndex_at (u : Spec.Along K) (hu : 0 < u.scale) (c : List K) (x : K) : findIndex (c.map u.at) (u.at x) = findIndex c x := by
  unfold findIndex
  rw [searchsorted_at u hu, List.length_map]

theorem normDistance_at (u : Spec.Along K) (hu : 0 < u.scale) (c : List K) (x : K) : normDistance (c.map u.at) (u.at x) = normDistance c x := by
  unfold normDistance
  simp only
  rw [findIndex_at u hu, List.length_map, List.getElem?_map, List.getElem?_map]
  have hsub : ∀ a b : K, u.at b - u.at a = u.scale * (b - a) := by intro a b; unfold Spec.Along.at; ring
  cases c[pyIdx c.length (findIndex c x)]? with
  | none => rfl
  | some a =>
    cases c[pyIdx c.length (findIndex c x + 1)]? with
    | none => rfl
    | some b =>
      simp only [Option.map_some, hsub, mul_eq_zero, hu.ne', false_or, mul_div_mul_left _ _ hu.ne']

theorem outOfBounds_at (u : Spec.Along K) (hu : 0 < u.scale) (c : List K) (x : K) : outOfBounds (c.map u.at) (u.at x) = outOfBounds c x := by
  unfold outOfBounds
  rw [List.head?_map, List.getLast?_map]
  cases c.head? <;> cases c.getLast? <;> simp [at_lt u hu]

theorem decreasing_changed (u : Spec.Along K) (hu : 0 < u.scale) : u.changed.decreasing = u.axis.decreasing := by
  unfold Axis.decreasing Spec.Along.changed
  match u.axis.points with
  | [] => rfl
  | [_] => rfl
  | p0 :: p1 :: _ => simp [at_lt u hu]

theorem grid_changed (u : Spec.Along K) (hu : 0 < u.scale) : u.changed.grid = u.axis.grid.map u.at := by
  unfold Axis.grid
  rw [decreasing_changed u hu]
  have hp : (if u.axis.decreasing = true then u.changed.points.reverse else u.changed.points) =
      (if u.axis.decreasing = true then u.axis.points.reverse else u.axis.points).map u.at := by
    split <;> simp [Spec.Along.changed]
  simp only [hp]
  generalize (if u.axis.decreasing = true then u.axis.points.reverse else u.axis.points) = pts
  have hc : u.changed.circular = u.axis.circular.map (fun m => u.scale * m) := rfl
  rw [hc]
  cases u.axis.circular with
  | none => rfl
  | some m =>
    simp only [Option.map_some, List.map_append, List.head?_map]
    congr 1
    cases pts.head? with
    | none => rfl
    | some a => simp [Spec.Along.at]; ring

theorem ascending_changed (u : Spec.Along K) (hu : 0 < u.scale) : ascending u.changed.grid = ascending u.axis.grid := by
  unfold ascending
  rw [grid_changed u hu]
  refine decide_eq_decide.2 ?_
  rw [List.pairwise_map]
  simp only [at_lt u hu]

theorem zip_at {R : Type} (f : List K → K → R) (ps : List (Spec.Along K)) (h : ∀ u ∈ ps, ∀ c x, f (c.map u.at) (u.at x) = f c x)
    (hu : ∀ u ∈ ps, 0 < u.scale) :
    List.zipWith f ((ps.map (fun u => u.changed)).map Axis.grid) (ps.map (fun u => u.at u.x)) =
      List.zipWith f ((ps.map (fun u => u.axis)).map Axis.grid) (ps.map (fun u => u.x)) := by
  induction ps with
  | nil => rfl
  | cons u t ih =>
    simp only [List.map_cons, List.zipWith_cons_cons]
    rw [ih (fun v hv => h v (by simp [hv])) (fun v hv => hu v (by simp [hv])), grid_changed u (hu u (by simp)), h u (by simp)]

theorem extendShape_changed (ps : List (Spec.Along K)) : extendShape (ps.map (fun u => u.changed)) = extendShape (ps.map (fun u => u.axis)) := by
  unfold extendShape
  rw [List.map_map, List.map_map]
  apply List.map_congr_left
  intro u _
  simp [Spec.Along.changed]

theorem extendData_changed (ps : List (Spec.Along K)) (data : List Nat → Val K) :
    extendData (ps.map (fun u => u.changed)) data = extendData (ps.map (fun u => u.axis)) data := by
  unfold extendData
  funext idx
  congr 1
  rw [List.zipWith_map_left, List.zipWith_map_left]
  congr 1
  funext u k
  unfold extendIndex Spec.Along.changed
  cases u.axis.circular <;> simp

theorem decreasingDims_changed (flag : Option Nat) (ps : List (Spec.Along K)) (hu : ∀ u ∈ ps, 0 < u.scale) :
    decreasingDims flag (ps.map (fun u => u.changed)) = decreasingDims flag (ps.map (fun u => u.axis)) := by
  unfold decreasingDims
  induction ps with
  | nil => rfl
  | cons u t ih =>
    have ih := ih (fun v hv => hu v (by simp [hv]))
    simp only [List.map_cons, List.filter_cons, decreasing_changed u (hu u (by simp))]
    split
    · rw [List.map_cons, List.map_cons, ih]
    · exact ih

/-- **C205**. Interpolating at a position, linearly or to the nearest point, gives the same whatever the origin and units of each
coordinate, as long as the position is given in those of the grid; a cyclic coordinate may be changed too, with its period. What is
missing, outside the grid or refused is so in both cases. -/
theorem c205_interpolate (flag : Option Nat) (m : Method) (ps : List (Spec.Along K)) (hu : ∀ u ∈ ps, 0 < u.scale) (data : List Nat → Val K)
    (extrapolate missing : Bool) :
    interpolate flag m (ps.map (fun u => u.changed)) data (ps.map (fun u => u.at u.x)) extrapolate missing =
      interpolate flag m (ps.map (fun u => u.axis)) data (ps.map (fun u => u.x)) extrapolate missing := by
  have hall : (ps.map (fun u => u.changed)).all (fun a => ascending a.grid) = (ps.map (fun u => u.axis)).all (fun a => ascending a.grid) := by
    rw [List.all_map, List.all_map]
    clear data
    induction ps with
    | nil => rfl
    | cons u t ih =>
      rw [List.all_cons, List.all_cons, ih (fun v hv => hu v (by simp [hv]))]
      simp only [Function.comp, ascending_changed u (hu u (by simp))]
  unfold interpolate
  rw [hall, extendShape_changed, extendData_changed, decreasingDims_changed flag ps hu]
  simp only [List.length_map]
  unfold regularGrid
  rw [zip_at findIndex ps (fun u h c x => findIndex_at u (hu u h) c x) hu, zip_at normDistance ps (fun u h c x => normDistance_at u (hu u h) c x) hu,
    zip_at outOfBounds ps (fun u h c x => outOfBounds_at u (hu u h) c x) hu]

/-- A value between two grid points in degrees Fahrenheit. -/
example : interpolate (K := ℚ) none .lin [⟨[32, 50], none⟩] (fun idx => .num (idx.headD 0)) [41] false false = .ok (.num (1 / 2)) ∧
    [(⟨9 / 5, 32, ⟨[0, 10], none⟩, 5⟩ : Spec.Along ℚ)].map (fun u => u.changed.points) = [[32, 50]] := by
  constructor <;> decide +kernel

end Cis.Interp
