import Verif.HavTree.Props
set_option linter.unusedSectionVars false
set_option linter.unusedSimpArgs false
/-! Where the great-circle tree search departs from C13. -/
namespace Cis.HavTree
open Real Cis.Geo Cis.KDTree

theorem mkTree_leaf {n : Nat} (data : Nat → Pt 2 ℝ) {leafsize : Nat} (hn : 0 < n) (hl : n ≤ leafsize) :
    mkTree n data leafsize =
      .ok (KD.mk n data leafsize (colMax n data) (colMin n data) (.leaf (List.range n))) := by
  unfold mkTree
  rw [if_neg (by omega), if_neg (by omega)]
  simp only
  rw [build, if_pos (by simpa using hl)]

theorem checkTree_prune {data1 data2 : Nat → Pt 2 ℝ} {r : ℝ} {t1 t2 : Tree 2 ℝ} {R1 R2 : Rect 2 ℝ} {res : Results}
    (h : minRect R1 R2 > r) : checkTree data1 data2 r t1 R1 t2 R2 res = res := by
  rw [checkTree.eq_def]; simp only; rw [if_pos (by simpa using h)]

theorem checkTree_bulk {data1 data2 : Nat → Pt 2 ℝ} {r : ℝ} {t1 t2 : Tree 2 ℝ} {R1 R2 : Rect 2 ℝ} {res : Results}
    (h : ¬ minRect R1 R2 > r) (h2 : maxRect R1 R2 < r) :
    checkTree data1 data2 r t1 R1 t2 R2 res = noCheckTree t1 t2 res := by
  rw [checkTree.eq_def]; simp only; rw [if_neg (by simpa using h), if_pos (by simpa using h2)]

theorem specDist_eq (x y : Pt 2 ℝ) : Spec.dist x y =
    arccos (cosAngle (radians (x 0)) (radians (x 1)) (radians (y 0)) (radians (y 1))) * 6378 := by
  rw [← havPt_dist, havPt_eq, haversineRadians_eq]; rfl

theorem havPt_zero_eq (y : Pt 2 ℝ) : havPt 0 y = arccos (cos (radians (y 0)) * cos (radians (y 1))) * 6378 := by
  rw [havPt_eq, haversineRadians_eq]
  unfold cosAngle
  simp [radians, radiusEarth]

theorem rad60 : radians 60 = π / 3 := by unfold radians; ring
theorem rad90 : radians 90 = π / 2 := by unfold radians; ring
theorem rad180 : radians 180 = π := by unfold radians; ring
theorem rad300 : radians 300 = 2 * π - π / 3 := by unfold radians; ring
theorem rad0 : radians 0 = 0 := by unfold radians; ring

/-- C13 is violated away from the equator: data 41 degrees of arc away are not found within 60 degrees of arc, although no
longitude wraps. -/
theorem c13_high_latitude_violated : ∃ (sample data : Nat → Pt 2 ℝ) (T : KD 2 ℝ) (r : ℝ) (res : Results),
    mkTree 1 data 10 = .ok T ∧ pointsWithinDistanceSample 1 sample T r = .ok res ∧
    (∀ i, Spec.InWindow (-180) (sample i) ∧ Spec.InWindow (-180) (data i)) ∧
    Spec.dist (sample 0) (data 0) ≤ r ∧ 0 ∉ res 0 := by
  have hpi := pi_pos
  refine ⟨fun _ => ![60, 0], fun _ => ![60, 90], _, 6378 * (π / 3), _, mkTree_leaf _ (by norm_num) (by norm_num),
    by unfold pointsWithinDistanceSample; rw [mkTree_leaf _ (by norm_num) (by norm_num)], ?_, ?_, ?_⟩
  · intro i; simp [Spec.InWindow]; norm_num
  · rw [specDist_eq]
    simp only [Matrix.cons_val_zero, Matrix.cons_val_one, rad60, rad90, rad0]
    have : arccos (cosAngle (π / 3) 0 (π / 3) (π / 2)) ≤ π / 3 := by
      refine le_trans (arccos_le_arccos (x := cos (π / 3)) ?_) (arccos_cos (by linarith) (by linarith)).le
      unfold cosAngle
      rw [sub_zero, cos_pi_div_two, cos_pi_div_three, sin_pi_div_three]
      have : √3 * √3 = 3 := Real.mul_self_sqrt (by norm_num)
      nlinarith
    linarith
  · unfold queryBallTree
    simp only
    have hmn : minRect (Rect.mk' (colMax 1 (fun _ => ![60, 0])) (colMin 1 (fun _ => ![60, 0])))
        (Rect.mk' (colMax 1 (fun _ => ![60, 90])) (colMin 1 (fun _ => ![60, 90]))) = π / 2 * 6378 := by
      unfold minRect
      rw [havPt_zero_eq]
      simp [Rect.mk', colMax, colMin, List.range_succ, rad90, rad0]
    rw [checkTree_prune (by rw [hmn]; nlinarith)]
    simp

/-- C13 is violated across the date line: data 60 degrees of arc away are not found within 90 degrees of arc. -/
theorem c13_date_line_violated : ∃ (sample data : Nat → Pt 2 ℝ) (T : KD 2 ℝ) (r : ℝ) (res : Results),
    mkTree 2 data 10 = .ok T ∧ pointsWithinDistanceSample 1 sample T r = .ok res ∧
    (∀ i, Spec.InWindow 0 (sample i) ∧ Spec.InWindow 0 (data i)) ∧
    Spec.dist (sample 0) (data 1) ≤ r ∧ 1 ∉ res 0 := by
  have hpi := pi_pos
  refine ⟨fun _ => ![0, 0], fun i => if i = 0 then ![0, 180] else ![0, 300], _, 6378 * (π / 2), _,
    mkTree_leaf _ (by norm_num) (by norm_num),
    by unfold pointsWithinDistanceSample; rw [mkTree_leaf _ (by norm_num) (by norm_num)], ?_, ?_, ?_⟩
  · intro i; by_cases h : i = 0 <;> simp [Spec.InWindow, h] <;> norm_num
  · rw [specDist_eq]
    simp only [Matrix.cons_val_zero, Matrix.cons_val_one, one_ne_zero, if_false, rad300, rad0]
    have : arccos (cosAngle 0 0 0 (2 * π - π / 3)) ≤ π / 2 := by
      rw [arccos_le_pi_div_two]
      unfold cosAngle
      rw [sub_zero, cos_two_pi_sub, cos_pi_div_three]; simp
    linarith
  · unfold queryBallTree
    simp only
    have hmn : minRect (Rect.mk' (colMax 1 (fun _ => ![0, 0])) (colMin 1 (fun _ => ![0, 0])))
        (Rect.mk' (colMax 2 (fun i => if i = 0 then ![0, 180] else ![0, 300]))
          (colMin 2 (fun i => if i = 0 then ![0, 180] else ![0, 300]))) = π * 6378 := by
      unfold minRect
      rw [havPt_zero_eq]
      have e1 : max (180 : ℝ) 300 = 300 := by norm_num
      have e2 : min (180 : ℝ) 300 = 180 := by norm_num
      have e3 : min (300 : ℝ) 180 = 180 := by norm_num
      have e4 : max (300 : ℝ) 180 = 300 := by norm_num
      have e8 : max (-300 : ℝ) 180 = 180 := by norm_num
      simp [Rect.mk', colMax, colMin, List.range_succ, rad180, rad0, e1, e2, e3, e4, e8]
    rw [checkTree_prune (by rw [hmn]; nlinarith)]
    simp

/-- C13 is violated for data all around a parallel: data on the opposite side of the Earth are returned for a distance of 90
degrees of arc. -/
theorem c13_too_far_violated : ∃ (sample data : Nat → Pt 2 ℝ) (T : KD 2 ℝ) (r : ℝ) (res : Results),
    mkTree 3 data 10 = .ok T ∧ pointsWithinDistanceSample 2 sample T r = .ok res ∧
    (∀ i, Spec.InWindow 0 (sample i) ∧ Spec.InWindow 0 (data i)) ∧
    ¬ Spec.dist (sample 0) (data 1) ≤ r ∧ 1 ∈ res 0 := by
  have hpi := pi_pos
  refine ⟨fun i => if i = 0 then ![0, 0] else ![0, 300],
    fun i => if i = 0 then ![0, 0] else if i = 1 then ![0, 180] else ![0, 300], _, 6378 * (π / 2), _,
    mkTree_leaf _ (by norm_num) (by norm_num),
    by unfold pointsWithinDistanceSample; rw [mkTree_leaf _ (by norm_num) (by norm_num)], ?_, ?_, ?_⟩
  · intro i
    constructor
    · by_cases h : i = 0 <;> simp [Spec.InWindow, h] <;> norm_num
    · by_cases h : i = 0
      · simp [Spec.InWindow, h]
      · by_cases h1 : i = 1 <;> simp [Spec.InWindow, h, h1] <;> norm_num
  · rw [specDist_eq]
    simp only [Matrix.cons_val_zero, Matrix.cons_val_one, one_ne_zero, if_false, if_true, rad180, rad0]
    have : cosAngle 0 0 0 π = -1 := by unfold cosAngle; simp
    rw [this, arccos_neg_one]; nlinarith
  · unfold queryBallTree
    simp only
    have e1 : max (180 : ℝ) 300 = 300 := by norm_num
    have e4 : max (0 : ℝ) 180 = 180 := by norm_num
    have e5 : max (0 : ℝ) 300 = 300 := by norm_num
    have e6 : min (0 : ℝ) 180 = 0 := by norm_num
    have e7 : min (0 : ℝ) 300 = 0 := by norm_num
    have hmn : minRect (Rect.mk' (colMax 2 (fun i => if i = 0 then ![0, 0] else ![0, 300]))
          (colMin 2 (fun i => if i = 0 then ![0, 0] else ![0, 300])))
        (Rect.mk' (colMax 3 (fun i => if i = 0 then ![0, 0] else if i = 1 then ![0, 180] else ![0, 300]))
          (colMin 3 (fun i => if i = 0 then ![0, 0] else if i = 1 then ![0, 180] else ![0, 300]))) = 0 := by
      unfold minRect
      rw [havPt_zero_eq]
      simp [Rect.mk', colMax, colMin, List.range_succ, rad0, e1, e4, e5, e6, e7]
    have hmx : maxRect (Rect.mk' (colMax 2 (fun i => if i = 0 then ![0, 0] else ![0, 300]))
          (colMin 2 (fun i => if i = 0 then ![0, 0] else ![0, 300])))
        (Rect.mk' (colMax 3 (fun i => if i = 0 then ![0, 0] else if i = 1 then ![0, 180] else ![0, 300]))
          (colMin 3 (fun i => if i = 0 then ![0, 0] else if i = 1 then ![0, 180] else ![0, 300]))) = π / 3 * 6378 := by
      unfold maxRect
      rw [havPt_zero_eq]
      have h3 : arccos (cos (π / 3)) = π / 3 := arccos_cos (by linarith) (by linarith)
      simp [Rect.mk', colMax, colMin, List.range_succ, rad0, e1, e4, e5, e6, e7, rad300, cos_two_pi_sub]
      rw [cos_pi_div_three] at h3; simpa using h3
    rw [checkTree_bulk (by rw [hmn]; simp; positivity) (by rw [hmx]; nlinarith)]
    simp [noCheckTree, Results.extend, List.range_succ]

end Cis.HavTree
