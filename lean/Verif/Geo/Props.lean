import Verif.Geo.Model
import Verif.Geo.Spec
import Mathlib.Geometry.Euclidean.Angle.Unoriented.TriangleInequality
set_option linter.unusedSectionVars false
set_option linter.unusedSimpArgs false
namespace Cis.Geo
open Real

/-- The haversine of the central angle, from radians. -/
noncomputable def havArg (lat1 lon1 lat2 lon2 : ℝ) : ℝ :=
  (sin ((lat2 - lat1) / 2)) ^ 2 + cos lat1 * cos lat2 * (sin ((lon2 - lon1) / 2)) ^ 2

theorem sin_half_sq (x : ℝ) : (sin (x / 2)) ^ 2 = (1 - cos x) / 2 := by
  have h := cos_two_mul (x / 2)
  have h2 := sin_sq_add_cos_sq (x / 2)
  rw [show 2 * (x / 2) = x by ring] at h
  linarith

/-- `1 - 2 h` is the inner product of the two unit vectors. -/
theorem one_sub_two_havArg (lat1 lon1 lat2 lon2 : ℝ) :
    1 - 2 * havArg lat1 lon1 lat2 lon2 =
      cos lat1 * cos lat2 * cos (lon2 - lon1) + sin lat1 * sin lat2 := by
  unfold havArg
  rw [sin_half_sq, sin_half_sq, cos_sub lat2 lat1]
  ring

theorem inner_position (lat1 lon1 lat2 lon2 : ℝ) :
    inner ℝ (Spec.position lat1 lon1) (Spec.position lat2 lon2) =
      1 - 2 * havArg (lat1 * π / 180) (lon1 * π / 180) (lat2 * π / 180) (lon2 * π / 180) := by
  rw [one_sub_two_havArg, cos_sub]
  simp [Spec.position, PiLp.inner_apply, Fin.sum_univ_three]
  ring

theorem norm_position (lat lon : ℝ) : ‖Spec.position lat lon‖ = 1 := by
  rw [EuclideanSpace.norm_eq, Real.sqrt_eq_one]
  simp [Spec.position, Fin.sum_univ_three]
  have h1 := sin_sq_add_cos_sq (lat * π / 180)
  have h2 := sin_sq_add_cos_sq (lon * π / 180)
  calc _ = (cos (lat * π / 180)) ^ 2 * ((sin (lon * π / 180)) ^ 2 + (cos (lon * π / 180)) ^ 2)
        + (sin (lat * π / 180)) ^ 2 := by ring
    _ = 1 := by rw [h2]; linarith

theorem havArg_mem (lat1 lon1 lat2 lon2 : ℝ) : 0 ≤ havArg lat1 lon1 lat2 lon2 ∧ havArg lat1 lon1 lat2 lon2 ≤ 1 := by
  have e := one_sub_two_havArg lat1 lon1 lat2 lon2
  have h1 := sin_sq_add_cos_sq lat1
  have h2 := sin_sq_add_cos_sq lat2
  have h3 := sin_sq_add_cos_sq (lon2 - lon1)
  set a := cos lat1; set b := cos lat2; set c := cos (lon2 - lon1); set s := sin lat1; set t := sin lat2
  have hc : c ^ 2 ≤ 1 := by nlinarith [sq_nonneg (sin (lon2 - lon1))]
  have hub : a * b * c + s * t ≤ 1 := by nlinarith [sq_nonneg (a * c - b), sq_nonneg (s - t), sq_nonneg a]
  have hlb : -1 ≤ a * b * c + s * t := by nlinarith [sq_nonneg (a * c + b), sq_nonneg (s + t), sq_nonneg a]
  constructor <;> linarith

/-- The half-angle formula used by all distance functions of the code. -/
theorem two_arcsin_sqrt (h : ℝ) (h0 : 0 ≤ h) (h1 : h ≤ 1) : 2 * arcsin (√h) = arccos (1 - 2 * h) := by
  have hs0 : 0 ≤ √h := Real.sqrt_nonneg h
  have hs1 : √h ≤ 1 := Real.sqrt_le_one.2 h1
  have hc : cos (2 * arcsin (√h)) = 1 - 2 * h := by
    rw [cos_two_mul, cos_sq', sin_arcsin (by linarith) hs1, Real.sq_sqrt h0]; ring
  rw [← hc, arccos_cos]
  · have := arcsin_nonneg.2 hs0; linarith
  · have := arcsin_le_pi_div_two (√h); linarith

/-- Both distance functions of the code are the great-circle distance on a sphere of radius 6378 km (C58). -/
theorem c58_haversine_great_circle (lat1 lon1 lat2 lon2 : ℝ) :
    utilsHaversine lat1 lon1 lat2 lon2 = Spec.greatCircle 6378 lat1 lon1 lat2 lon2 ∧
    kdHaversine lat1 lon1 lat2 lon2 = Spec.greatCircle 6378 lat1 lon1 lat2 lon2 := by
  have key : 2 * arcsin (√(havArg (lat1 * π / 180) (lon1 * π / 180) (lat2 * π / 180) (lon2 * π / 180)))
      = InnerProductGeometry.angle (Spec.position lat1 lon1) (Spec.position lat2 lon2) := by
    rw [two_arcsin_sqrt _ (havArg_mem _ _ _ _).1 (havArg_mem _ _ _ _).2]
    unfold InnerProductGeometry.angle
    rw [inner_position, norm_position, norm_position]; simp
  unfold havArg at key
  constructor
  · simp only [utilsHaversine, Spec.greatCircle, radians, radiusEarth]; rw [key]; ring
  · simp only [kdHaversine, Spec.greatCircle, radiusEarth]; rw [key]; ring

theorem greatCircle_comm (R lat1 lon1 lat2 lon2 : ℝ) :
    Spec.greatCircle R lat1 lon1 lat2 lon2 = Spec.greatCircle R lat2 lon2 lat1 lon1 := by
  unfold Spec.greatCircle; rw [InnerProductGeometry.angle_comm]

/-- The horizontal distance is a (pseudo)metric bounded by half the circumference, and does not depend on the longitude
convention (C58). -/
theorem c58_haversine_metric (lat1 lon1 lat2 lon2 lat3 lon3 : ℝ) :
    utilsHaversine lat1 lon1 lat1 lon1 = 0 ∧
    utilsHaversine lat1 lon1 lat2 lon2 = utilsHaversine lat2 lon2 lat1 lon1 ∧
    0 ≤ utilsHaversine lat1 lon1 lat2 lon2 ∧ utilsHaversine lat1 lon1 lat2 lon2 ≤ 6378 * π ∧
    utilsHaversine lat1 lon1 lat3 lon3 ≤ utilsHaversine lat1 lon1 lat2 lon2 + utilsHaversine lat2 lon2 lat3 lon3 := by
  simp only [(c58_haversine_great_circle _ _ _ _).1]
  refine ⟨?_, greatCircle_comm _ _ _ _ _, ?_, ?_, ?_⟩
  · unfold Spec.greatCircle
    rw [InnerProductGeometry.angle_self (by rw [← norm_ne_zero_iff, norm_position]; norm_num)]; simp
  · exact mul_nonneg (by norm_num) (InnerProductGeometry.angle_nonneg _ _)
  · exact mul_le_mul_of_nonneg_left (InnerProductGeometry.angle_le_pi _ _) (by norm_num)
  · unfold Spec.greatCircle
    have := InnerProductGeometry.angle_le_angle_add_angle (Spec.position lat1 lon1) (Spec.position lat2 lon2)
      (Spec.position lat3 lon3)
    linarith

theorem position_add_360 (lat lon : ℝ) (k : ℤ) : Spec.position lat (lon + 360 * k) = Spec.position lat lon := by
  unfold Spec.position
  have h : (lon + 360 * k) * π / 180 = lon * π / 180 + k * (2 * π) := by ring
  rw [h, Real.cos_add_int_mul_two_pi, Real.sin_add_int_mul_two_pi]

theorem c58_haversine_longitude_convention (lat1 lon1 lat2 lon2 : ℝ) (k l : ℤ) :
    utilsHaversine lat1 (lon1 + 360 * k) lat2 (lon2 + 360 * l) = utilsHaversine lat1 lon1 lat2 lon2 := by
  simp only [(c58_haversine_great_circle _ _ _ _).1, Spec.greatCircle, position_add_360]

/-- `furthest_point_from` gives the antipode: its distance from the point is half the circumference, the largest possible
(C58). -/
theorem c58_furthest_point (lat lon : ℝ) :
    utilsHaversine lat lon (furthestPointFrom lat lon).1 (furthestPointFrom lat lon).2 = 6378 * π := by
  have hp : Spec.position (furthestPointFrom lat lon).1 (furthestPointFrom lat lon).2 = -Spec.position lat lon := by
    have : ∃ k : ℤ, (furthestPointFrom lat lon).2 = lon + 180 + 360 * k := by
      unfold furthestPointFrom
      simp only
      split
      · exact ⟨-1, by push_cast; ring⟩
      · exact ⟨0, by push_cast; ring⟩
    obtain ⟨k, hk⟩ := this
    rw [hk, position_add_360]
    have e : (lon + 180) * π / 180 = lon * π / 180 + π := by ring
    have e2 : -lat * π / 180 = -(lat * π / 180) := by ring
    unfold Spec.position
    rw [show (furthestPointFrom lat lon).1 = -lat from rfl, e, e2, cos_neg, sin_neg, cos_add_pi, sin_add_pi]
    ext i
    fin_cases i <;> simp
  rw [(c58_haversine_great_circle _ _ _ _).1, Spec.greatCircle, hp,
    InnerProductGeometry.angle_self_neg_of_nonzero (by rw [← norm_ne_zero_iff, norm_position]; norm_num)]

example : utilsHaversine 0 0 0 90 = 6378 * (π / 2) := by
  rw [(c58_haversine_great_circle _ _ _ _).1, Spec.greatCircle]
  congr 1
  rw [← InnerProductGeometry.inner_eq_zero_iff_angle_eq_pi_div_two, inner_position, one_sub_two_havArg]
  simp [show (90 : ℝ) * π / 180 = π / 2 by ring]

end Cis.Geo
