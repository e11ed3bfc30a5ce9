import Verif.Interp.Props
import Mathlib.Algebra.Order.Ring.Rat
set_option linter.unusedSectionVars false
set_option linter.unusedSimpArgs false
/-! Where the code violates C18 to C20, with concrete grids over the rationals, and concrete grids that meet the hypotheses of
the theorems. -/
namespace Cis.Interp

/-- C18, C19 are violated for a descending first axis (such as latitudes from north to south): sampling a node gives the value
of another node, or fails, depending on the version of numpy. -/
theorem c18_descending_violated : ∃ (axes : List (Axis ℚ)) (f : List Nat → ℚ) (idx : List Nat) (xs : List ℚ) (v : ℚ),
    (∀ a ∈ axes, Monotonic a ∧ a.circular = none ∧ 2 ≤ a.points.length) ∧
    List.Forall₂ (fun (a : Axis ℚ) k => k < a.points.length) axes idx ∧
    xs = List.zipWith (fun (a : Axis ℚ) k => a.points[k]?.getD 0) axes idx ∧ v ≠ f idx ∧
    interpolate (some 1) .lin axes (fun i => .num (f i)) xs false false = .ok (.num v) ∧
    interpolate (some 1) .nn axes (fun i => .num (f i)) xs false false = .ok (.num v) ∧
    interpolate none .lin axes (fun i => .num (f i)) xs false false = .error .index ∧
    interpolate none .nn axes (fun i => .num (f i)) xs false false = .error .index := by
  refine ⟨[⟨[60, 0], none⟩, ⟨[0, 10], none⟩], fun i => (i.headD 0 : ℚ), [0, 0], [60, 0], 1, ?_, ?_, ?_, ?_, ?_, ?_, ?_, ?_⟩
  · intro a ha
    simp only [List.mem_cons, List.not_mem_nil, or_false] at ha
    rcases ha with rfl | rfl
    · exact ⟨⟨by simp, Or.inr ⟨rfl, by simp⟩⟩, rfl, by simp⟩
    · exact ⟨⟨by simp, Or.inl (by simp [Spec.Ascending, Spec.nodes])⟩, rfl, by simp⟩
  · simp
  · simp
  · simp
  all_goals decide +kernel

/-- C18, C20 are violated for a descending axis of one-dimensional data: the call fails. -/
theorem c18_descending_1d_violated (flag : Option Nat) (hf : flag = some 1 ∨ flag = none) (m : Method) (f : List Nat → ℚ) (x : ℚ)
    (ext missing : Bool) : interpolate flag m [⟨[60, 0], none⟩] (fun i => .num (f i)) [x] ext missing = .error .index := by
  have hd : decreasingDims flag [(⟨[60, 0], none⟩ : Axis ℚ)] = [flag] := by
    simp [decreasingDims, List.filter_cons, Axis.decreasing]
  have hg : (Axis.grid (⟨[60, 0], none⟩ : Axis ℚ)) = [0, 60] := by decide +kernel
  unfold interpolate
  rw [hd]
  rcases hf with rfl | rfl <;> simp [hg, ascending, accountForInverted, validDim, extendShape]

/-- C18 is violated for a descending circular axis, even the second one: sampling a node gives the value of another. -/
theorem c18_circular_descending_violated : ∃ (axes : List (Axis ℚ)) (f : List Nat → ℚ) (idx : List Nat) (xs : List ℚ) (v : ℚ),
    (∀ a ∈ axes, 2 ≤ a.points.length) ∧ List.Forall₂ (fun (a : Axis ℚ) k => k < a.points.length) axes idx ∧
    xs = List.zipWith (fun (a : Axis ℚ) k => a.points[k]?.getD 0) axes idx ∧ v ≠ f idx ∧
    interpolate (some 1) .lin axes (fun i => .num (f i)) xs false false = .ok (.num v) := by
  refine ⟨[⟨[0, 10], none⟩, ⟨[240, 120, 0], some 360⟩], fun i => (i.getLastD 0 : ℚ), [0, 2], [0, 0], 0, ?_, ?_, ?_, ?_, ?_⟩
  · simp
  · simp
  · simp
  · simp
  · decide +kernel

/-- C18 is violated for an axis with one node: the value at the node is not a number. -/
theorem c18_single_node_violated : interpolate none .lin [(⟨[5], none⟩ : Axis ℚ)] (fun _ => .num 7) [5] false false = .ok .nan := by
  decide +kernel

/-- C18 is violated next to masked data: at a node with a value the result is masked, because a neighbouring node is. -/
theorem c18_masked_neighbour_violated : ∃ (axes : List (Axis ℚ)) (data : List Nat → Val ℚ) (idx : List Nat) (xs : List ℚ),
    (∀ flag, Handled flag axes) ∧ (∀ a ∈ axes, 2 ≤ a.points.length) ∧
    List.Forall₂ (fun (a : Axis ℚ) k => k < a.points.length) axes idx ∧
    xs = List.zipWith (fun (a : Axis ℚ) k => a.points[k]?.getD 0) axes idx ∧ data idx = .num 7 ∧
    interpolate none .lin axes data xs false false = .ok .masked := by
  refine ⟨[⟨[0, 1], none⟩], fun i => if i = [1] then .num 7 else .masked, [1], [1], ?_, ?_, ?_, ?_, ?_, ?_⟩
  · intro flag d a ha
    match d, ha with
    | 0, ha =>
      simp at ha; subst ha
      exact ⟨by simp, Or.inl (by simp [Spec.Ascending, Spec.nodes])⟩
    | n + 1, ha => simp at ha
  · simp
  · simp
  · simp
  · simp
  · decide +kernel

/-! ### Concrete grids -/

/-- A latitude-longitude grid with circular longitude. -/
def demoAxes : List (Axis ℚ) := [⟨[-45, 0, 45], none⟩, ⟨[0, 120, 240], some 360⟩]

theorem demo_handled (flag : Option Nat) : Handled flag demoAxes := by
  intro d a ha
  match d, ha with
  | 0, ha =>
    simp [demoAxes] at ha; subst ha
    exact ⟨by simp, Or.inl (by simp [Spec.Ascending, Spec.nodes])⟩
  | 1, ha =>
    simp [demoAxes] at ha; subst ha
    exact ⟨by simp, Or.inl (by simp [Spec.Ascending, Spec.nodes]; norm_num)⟩
  | n + 2, ha => simp [demoAxes] at ha

theorem demo_inRange : AllInRange demoAxes [30, 300] := by
  intro ax hax
  simp only [demoAxes, List.zip_cons_cons, List.zip_nil_right, List.mem_cons, List.not_mem_nil, or_false] at hax
  rcases hax with rfl | rfl
  · exact ⟨⟨(0, 1), by simp [Spec.nodes], by norm_num⟩, ⟨(45, 2), by simp [Spec.nodes], by norm_num⟩⟩
  · exact ⟨⟨(240, 2), by simp [Spec.nodes], by norm_num⟩, ⟨(360, 0), by simp [Spec.nodes], by norm_num⟩⟩

/-- The theorems apply beyond the last longitude. -/
example : ∃ cells, List.Forall₂ (fun (ax : Axis ℚ × ℚ) c => Cell (Spec.nodes ax.1) ax.2 c) (demoAxes.zip [30, 300]) cells :=
  (lin_main none demoAxes (demo_handled _) (by simp [demoAxes, Spec.nodes]) (fun i => .num (i.sum : ℚ)) [30, 300] rfl false
    (Or.inr demo_inRange)).imp fun _ h => h.1

example : ∃ idx v, List.Forall₂ (fun (ax : Axis ℚ × ℚ) k => ∃ q, Spec.Nearest (Spec.nodes ax.1) ax.2 (q, k))
    (demoAxes.zip [30, 300]) idx ∧ interpolate none .nn demoAxes (fun i => .num (i.sum : ℚ)) [30, 300] false false = .ok v :=
  (c19_nearest none demoAxes (demo_handled _) (fun i => .num (i.sum : ℚ)) [30, 300] rfl false (Or.inr demo_inRange)).imp
    fun _ h => ⟨_, h⟩

example : interpolate none .lin demoAxes (fun i => .num (i.sum : ℚ)) [45, 240] false false = .ok (.num 4) := by
  have := c18_node none demoAxes (demo_handled _) (by simp [demoAxes, Spec.nodes]) (fun i => (i.sum : ℚ)) [2, 2] [45, 240]
    (by simp [demoAxes]) (by simp [demoAxes]) false
  norm_num at this
  exact this

/-- A descending second axis. -/
example : Handled (some 1) [(⟨[0, 10], none⟩ : Axis ℚ), ⟨[90, 0, -90], none⟩] := by
  intro d a ha
  match d, ha with
  | 0, ha =>
    simp at ha; subst ha
    exact ⟨by simp, Or.inl (by simp [Spec.Ascending, Spec.nodes])⟩
  | 1, ha =>
    simp at ha; subst ha
    exact ⟨by simp, Or.inr ⟨rfl, rfl, rfl, by simp⟩⟩
  | n + 2, ha => simp at ha

/-- `c18_affine` on a two-dimensional grid with extrapolation. -/
example : interpolate none .lin [(⟨[0, 10], none⟩ : Axis ℚ), ⟨[0, 1, 4], none⟩]
    (fun idx => .num (1 + (List.zipWith (fun (ab : Axis ℚ × ℚ) k => ab.2 * ab.1.points[k]?.getD 0)
      ([(⟨[0, 10], none⟩ : Axis ℚ), ⟨[0, 1, 4], none⟩].zip [2, 3]) idx).sum)) [20, 3] true false = .ok (.num 50) := by
  have := c18_affine none [(⟨[0, 10], none⟩ : Axis ℚ), ⟨[0, 1, 4], none⟩] (by
      intro d a ha
      match d, ha with
      | 0, ha => simp at ha; subst ha; exact ⟨by simp, Or.inl (by simp [Spec.Ascending, Spec.nodes])⟩
      | 1, ha => simp at ha; subst ha; exact ⟨by simp, Or.inl (by simp [Spec.Ascending, Spec.nodes])⟩
      | n + 2, ha => simp at ha) (by simp) (by simp) 1 [2, 3] [20, 3] rfl rfl true (Or.inl rfl) _ (fun idx _ => rfl)
  rw [this]; norm_num

/-- Outside the range. -/
example : ∀ v, interpolate none .lin demoAxes (fun i => .num (i.sum : ℚ)) [50, 300] false false = .ok v → v = .masked := by
  intro v hv
  refine (c20_no_extrapolation none .lin demoAxes ?_ _ _ v hv).1 ?_
  · intro a ha
    simp only [demoAxes, List.mem_cons, List.not_mem_nil, or_false] at ha
    rcases ha with rfl | rfl
    · exact ⟨by simp, Or.inl (by simp [Spec.Ascending, Spec.nodes])⟩
    · exact ⟨by simp, Or.inl (by simp [Spec.Ascending, Spec.nodes]; norm_num)⟩
  · intro h
    obtain ⟨-, ⟨b, hb, hle⟩⟩ := h (⟨[-45, 0, 45], none⟩, 50) (by simp [demoAxes])
    simp [Spec.nodes] at hb
    rcases hb with rfl | rfl | rfl <;> norm_num at hle

end Cis.Interp
