import Verif.HavTree.Model
import Verif.Geo.Props
set_option linter.unusedSectionVars false
set_option linter.unusedSimpArgs false
namespace Cis.HavTree
open Real Cis.Geo Cis.KDTree

/-- Cosine of the central angle of two positions in radians. -/
noncomputable def cosAngle (lat1 lon1 lat2 lon2 : ℝ) : ℝ :=
  cos lat1 * cos lat2 * cos (lon2 - lon1) + sin lat1 * sin lat2

theorem haversineRadians_eq (a b c d : ℝ) : haversineRadians a b c d = arccos (cosAngle a b c d) * radiusEarth := by
  have h := two_arcsin_sqrt (havArg a b c d) (havArg_mem _ _ _ _).1 (havArg_mem _ _ _ _).2
  rw [one_sub_two_havArg] at h
  unfold haversineRadians cosAngle
  rw [← h]; rfl

theorem cosAngle_mem (a b c d : ℝ) : -1 ≤ cosAngle a b c d ∧ cosAngle a b c d ≤ 1 := by
  have h := havArg_mem a b c d
  have e := one_sub_two_havArg a b c d
  unfold cosAngle; constructor <;> linarith [h.1, h.2]

theorem cosAngle_comm (a b c d : ℝ) : cosAngle a b c d = cosAngle c d a b := by
  unfold cosAngle; rw [← cos_neg (d - b), neg_sub]; ring

theorem haversineRadians_comm (a b c d : ℝ) : haversineRadians a b c d = haversineRadians c d a b := by
  rw [haversineRadians_eq, haversineRadians_eq, cosAngle_comm]

theorem radius_pos : 0 < radiusEarth := by unfold radiusEarth; norm_num

theorem haversineRadians_le {a b c d a' b' c' d' : ℝ} (h : cosAngle a' b' c' d' ≤ cosAngle a b c d) :
    haversineRadians a b c d ≤ haversineRadians a' b' c' d' := by
  rw [haversineRadians_eq, haversineRadians_eq]
  exact mul_le_mul_of_nonneg_right (arccos_le_arccos h) radius_pos.le

theorem havPt_eq (x y : Pt 2 ℝ) :
    havPt x y = haversineRadians (radians (x 0)) (radians (x 1)) (radians (y 0)) (radians (y 1)) := rfl

theorem havPt_comm (x y : Pt 2 ℝ) : havPt x y = havPt y x := by rw [havPt_eq, havPt_eq, haversineRadians_comm]

/-- Shifting a longitude by whole turns changes nothing. -/
theorem cosAngle_shift (a b c d : ℝ) (k : ℤ) : cosAngle a (b - 2 * π * k) c d = cosAngle a b c d := by
  unfold cosAngle
  rw [show d - (b - 2 * π * k) = (d - b) + k * (2 * π) by ring, cos_add_int_mul_two_pi]

/-- The cosine of the angle from a fixed point to the meridian at longitude difference `δ`, as a function of latitude. -/
noncomputable def edge (φ δ θ : ℝ) : ℝ := cos φ * cos θ * cos δ + sin φ * sin θ

theorem edge_diff (φ δ x y : ℝ) : edge φ δ y - edge φ δ x =
    2 * sin ((y - x) / 2) * (sin φ * cos ((x + y) / 2) - cos φ * cos δ * sin ((x + y) / 2)) := by
  have h1 : cos y - cos x = -2 * sin ((y + x) / 2) * sin ((y - x) / 2) := by rw [cos_sub_cos]
  have h2 : sin y - sin x = 2 * sin ((y - x) / 2) * cos ((y + x) / 2) := by rw [sin_sub_sin]
  unfold edge
  rw [add_comm x y]
  linear_combination (cos φ * cos δ) * h1 + (sin φ) * h2

/-- The nearer end of a meridian segment on the far side (longitude difference at least a right angle). -/
theorem edge_far {φ δ a b θ : ℝ} (hφ : -(π / 2) < φ ∧ φ < π / 2) (hδ : cos δ ≤ 0) (ha : -(π / 2) < a) (hb : b < π / 2)
    (h1 : a ≤ θ) (h2 : θ ≤ b) :
    edge φ δ θ ≤ edge φ δ (if tan φ < tan ((a + b) / 2) * cos δ then a else b) := by
  have hpi := pi_pos
  have hcφ : 0 < cos φ := cos_pos_of_mem_Ioo ⟨hφ.1, hφ.2⟩
  have hA : cos φ * cos δ ≤ 0 := mul_nonpos_of_nonneg_of_nonpos hcφ.le hδ
  -- `h m ≤ 0` or `≥ 0` for the bracket at the midpoint
  have key : ∀ m, -(π / 2) < m → m < π / 2 →
      sin φ * cos m - cos φ * cos δ * sin m = cos m * (sin φ - cos φ * cos δ * tan m) := by
    intro m hm1 hm2
    have : 0 < cos m := cos_pos_of_mem_Ioo ⟨hm1, hm2⟩
    rw [tan_eq_sin_div_cos]; field_simp
  have mono : ∀ m m', -(π / 2) < m → m ≤ m' → m' < π / 2 →
      sin φ - cos φ * cos δ * tan m ≤ sin φ - cos φ * cos δ * tan m' := by
    intro m m' hm hmm hm'
    have : tan m ≤ tan m' := by
      rcases eq_or_lt_of_le hmm with rfl | hlt
      · exact le_refl _
      · exact (tan_lt_tan_of_lt_of_lt_pi_div_two hm hm' hlt).le
    nlinarith
  have htan : cos φ * tan φ = sin φ := by rw [tan_eq_sin_div_cos]; field_simp
  split
  · rename_i hlt
    have hm : sin φ - cos φ * cos δ * tan ((a + b) / 2) < 0 := by
      have := mul_lt_mul_of_pos_left hlt hcφ
      rw [htan] at this; nlinarith
    have hm1 := mono ((a + θ) / 2) ((a + b) / 2) (by linarith) (by linarith) (by linarith)
    have e := edge_diff φ δ a θ
    rw [key ((a + θ) / 2) (by linarith) (by linarith)] at e
    have hs : 0 ≤ sin ((θ - a) / 2) := sin_nonneg_of_nonneg_of_le_pi (by linarith) (by linarith)
    have hc : 0 < cos ((a + θ) / 2) := cos_pos_of_mem_Ioo ⟨by linarith, by linarith⟩
    have : 2 * sin ((θ - a) / 2) * (cos ((a + θ) / 2) * (sin φ - cos φ * cos δ * tan ((a + θ) / 2))) ≤ 0 := by
      apply mul_nonpos_of_nonneg_of_nonpos (by linarith)
      exact mul_nonpos_of_nonneg_of_nonpos hc.le (by linarith)
    linarith
  · rename_i hlt
    have hm : 0 ≤ sin φ - cos φ * cos δ * tan ((a + b) / 2) := by
      have := mul_le_mul_of_nonneg_left (not_lt.1 hlt) hcφ.le
      rw [htan] at this; nlinarith
    have hm1 := mono ((a + b) / 2) ((θ + b) / 2) (by linarith) (by linarith) (by linarith)
    have e := edge_diff φ δ θ b
    rw [key ((θ + b) / 2) (by linarith) (by linarith)] at e
    have hs : 0 ≤ sin ((b - θ) / 2) := sin_nonneg_of_nonneg_of_le_pi (by linarith) (by linarith)
    have hc : 0 < cos ((θ + b) / 2) := cos_pos_of_mem_Ioo ⟨by linarith, by linarith⟩
    have : 0 ≤ 2 * sin ((b - θ) / 2) * (cos ((θ + b) / 2) * (sin φ - cos φ * cos δ * tan ((θ + b) / 2))) := by
      apply mul_nonneg (by linarith)
      exact mul_nonneg hc.le (by linarith)
    linarith

/-- The foot of the perpendicular on a meridian on the near side, clamped to the segment. -/
theorem edge_near {φ δ a b θ : ℝ} (hφ : -(π / 2) ≤ φ ∧ φ ≤ π / 2) (hδ : 0 ≤ cos δ) (ha : -(π / 2) ≤ a) (hb : b ≤ π / 2)
    (h1 : a ≤ θ) (h2 : θ ≤ b) :
    edge φ δ θ ≤ edge φ δ (min (max (arcsin (if √(1 - (cos φ) ^ 2 * (sin δ) ^ 2) = 0 then 0
      else sin φ / √(1 - (cos φ) ^ 2 * (sin δ) ^ 2))) a) b) := by
  have hpi := pi_pos
  have hcφ : 0 ≤ cos φ := cos_nonneg_of_mem_Icc ⟨hφ.1, hφ.2⟩
  set A := cos φ * cos δ with hA
  set B := sin φ with hB
  have hA0 : 0 ≤ A := mul_nonneg hcφ hδ
  have hρ : 1 - (cos φ) ^ 2 * (sin δ) ^ 2 = A ^ 2 + B ^ 2 := by
    have e1 := sin_sq_add_cos_sq φ
    have e2 := sin_sq_add_cos_sq δ
    have e3 : sin δ ^ 2 = 1 - cos δ ^ 2 := by linarith
    rw [hA, hB, e3]; linear_combination (-1 : ℝ) * e1
  rw [hρ]
  have hedge : ∀ t, edge φ δ t = A * cos t + B * sin t := by intro t; unfold edge; rw [hA]; ring
  have hρ0 : 0 ≤ A ^ 2 + B ^ 2 := by positivity
  set ρ := √(A ^ 2 + B ^ 2) with hρd
  have hρsq : ρ ^ 2 = A ^ 2 + B ^ 2 := Real.sq_sqrt hρ0
  have hρnn : 0 ≤ ρ := Real.sqrt_nonneg _
  by_cases hz : ρ = 0
  · have hAB : A ^ 2 + B ^ 2 = 0 := by rw [← hρsq, hz]; norm_num
    have hAz : A = 0 := by nlinarith [sq_nonneg A, sq_nonneg B]
    have hBz : B = 0 := by nlinarith [sq_nonneg A, sq_nonneg B]
    rw [hedge, hedge, hAz, hBz]; simp
  · rw [if_neg hz]
    have hρp : 0 < ρ := lt_of_le_of_ne hρnn (Ne.symm hz)
    have hBρ : |B| ≤ ρ := by
      rw [hρd]; exact Real.abs_le_sqrt (by nlinarith [sq_nonneg A])
    have hu : B / ρ ≤ 1 := by rw [div_le_one hρp]; exact le_trans (le_abs_self _) hBρ
    have hl : -1 ≤ B / ρ := by
      rw [le_div_iff₀ hρp]; have := neg_abs_le B; linarith
    set θ0 := arcsin (B / ρ) with hθ0
    have hs : sin θ0 = B / ρ := sin_arcsin hl hu
    have hc : cos θ0 = A / ρ := by
      rw [hθ0, cos_arcsin]
      rw [show 1 - (B / ρ) ^ 2 = (A / ρ) ^ 2 by
        have hρ2 : ρ ^ 2 ≠ 0 := pow_ne_zero 2 hz
        rw [div_pow, div_pow, eq_div_iff hρ2, sub_mul, div_mul_cancel₀ _ hρ2, hρsq]; ring]
      exact Real.sqrt_sq (div_nonneg hA0 hρnn)
    have hg : ∀ t, edge φ δ t = ρ * cos (t - θ0) := by
      intro t; rw [hedge, cos_sub, hs, hc]; field_simp
    have hθl := neg_pi_div_two_le_arcsin (B / ρ)
    have hθu := arcsin_le_pi_div_two (B / ρ)
    rw [← hθ0] at hθl hθu
    rw [hg, hg]
    apply mul_le_mul_of_nonneg_left _ hρnn
    set c := min (max θ0 a) b with hcdef
    have hab : a ≤ b := h1.trans h2
    -- |c - θ0| ≤ |θ - θ0|
    have habs : |c - θ0| ≤ |θ - θ0| := by
      rcases le_total θ0 a with h | h
      · have : c = a := by rw [hcdef, max_eq_right h, min_eq_left hab]
        rw [this, abs_of_nonneg (by linarith), abs_of_nonneg (by linarith)]; linarith
      · rcases le_total θ0 b with h' | h'
        · have : c = θ0 := by rw [hcdef, max_eq_left h, min_eq_left h']
          rw [this]; simp
        · have : c = b := by rw [hcdef, max_eq_left h, min_eq_right h']
          rw [this, abs_of_nonpos (by linarith), abs_of_nonpos (by linarith)]; linarith
    rw [← cos_abs (θ - θ0), ← cos_abs (c - θ0)]
    apply cos_le_cos_of_nonneg_of_le_pi (abs_nonneg _) _ habs
    rw [abs_le]; constructor <;> linarith

/-- Moving towards the nearer meridian edge brings the point nearer. `u` is the longitude of the point, to the right of the
interval `[c, d]` and not beyond the opposite of its middle. -/
theorem cos_right {c d u l : ℝ} (h1 : d ≤ u) (h2 : u ≤ (c + d) / 2 + π) (hc : c ≤ l) (hd : l ≤ d) :
    cos (u - l) ≤ cos (u - d) := by
  rcases le_total (u - l) π with h | h
  · exact cos_le_cos_of_nonneg_of_le_pi (by linarith) h (by linarith)
  · rw [← cos_two_pi_sub (u - l)]
    apply cos_le_cos_of_nonneg_of_le_pi (by linarith) (by linarith) (by linarith)

theorem cos_left {c d u l : ℝ} (h1 : u ≤ c) (h2 : (c + d) / 2 - π ≤ u) (hc : c ≤ l) (hd : l ≤ d) :
    cos (l - u) ≤ cos (c - u) := by
  rcases le_total (l - u) π with h | h
  · exact cos_le_cos_of_nonneg_of_le_pi (by linarith) h (by linarith)
  · rw [← cos_two_pi_sub (l - u)]
    apply cos_le_cos_of_nonneg_of_le_pi (by linarith) (by linarith) (by linarith)

theorem fmod_nonneg_case {x : ℝ} (hx : 0 ≤ x) :
    0 ≤ fmod x (2 * π) ∧ fmod x (2 * π) < 2 * π ∧ ∃ k : ℤ, fmod x (2 * π) = x - 2 * π * k := by
  have hp : 0 < 2 * π := by have := pi_pos; linarith
  unfold fmod trunc
  rw [if_pos (div_nonneg hx hp.le)]
  have h1 := Int.floor_le (x / (2 * π))
  have h2 := Int.lt_floor_add_one (x / (2 * π))
  rw [le_div_iff₀ hp] at h1
  rw [div_lt_iff₀ hp] at h2
  exact ⟨by linarith, by linarith, _, rfl⟩

theorem fmod_neg_case {x : ℝ} (hx : x < 0) (hx2 : -(2 * π) < x) : fmod x (2 * π) = x := by
  have hp : 0 < 2 * π := by have := pi_pos; linarith
  unfold fmod trunc
  rw [if_neg (not_le.2 (div_neg_of_neg_of_pos hx hp))]
  have : ⌈x / (2 * π)⌉ = 0 := by
    rw [Int.ceil_eq_zero_iff]
    constructor
    · rw [lt_div_iff₀ hp]; linarith
    · exact (div_neg_of_neg_of_pos hx hp).le
  rw [this]; simp


theorem cosAngle_edge (φ u θ l : ℝ) : cosAngle φ u θ l = edge φ (l - u) θ := rfl

theorem edge_neg_delta (φ δ θ : ℝ) : edge φ (-δ) θ = edge φ δ θ := by unfold edge; rw [cos_neg]

theorem edge_shift (φ δ θ : ℝ) (k : ℤ) : edge φ (δ + k * (2 * π)) θ = edge φ δ θ := by
  unfold edge; rw [cos_add_int_mul_two_pi]

/-- Growing the cosine of the longitude difference brings the point nearer. -/
theorem edge_mono {φ δ δ' θ : ℝ} (hφ : -(π / 2) ≤ φ ∧ φ ≤ π / 2) (hθ : -(π / 2) ≤ θ ∧ θ ≤ π / 2)
    (h : cos δ ≤ cos δ') : edge φ δ θ ≤ edge φ δ' θ := by
  unfold edge
  have h1 : 0 ≤ cos φ := cos_nonneg_of_mem_Icc ⟨hφ.1, hφ.2⟩
  have h2 : 0 ≤ cos θ := cos_nonneg_of_mem_Icc ⟨hθ.1, hθ.2⟩
  have := mul_le_mul_of_nonneg_left h (mul_nonneg h1 h2)
  linarith

/-- Both branches for the latitude on the nearer edge. `δ` is the non-negative longitude difference, `u - e` any
representative of it. -/
theorem edge_branch {φ p u e a b θ δ : ℝ} (hφ : -(π / 2) < φ ∧ φ < π / 2) (ha : -(π / 2) < a) (hb : b < π / 2)
    (h1 : a ≤ θ) (h2 : θ ≤ b) (hδ0 : 0 ≤ δ) (hδ1 : δ ≤ π)
    (hcos : cos (u - e) = cos δ) (hsin : (sin (p - e)) ^ 2 = (sin δ) ^ 2) :
    edge φ δ θ ≤ edge φ δ (if δ > π / 2 then nearerEndLatitude a b e φ u
      else min (max (crossingLatitude φ p e) a) b) := by
  have hpi := pi_pos
  by_cases h : δ > π / 2
  · rw [if_pos h]
    unfold nearerEndLatitude
    simp only [hcos]
    exact edge_far hφ (cos_nonpos_of_pi_div_two_le_of_le h.le (by linarith)) ha hb h1 h2
  · rw [if_neg h]
    unfold crossingLatitude
    simp only [hsin]
    exact edge_near ⟨hφ.1.le, hφ.2.le⟩ (cos_nonneg_of_mem_Icc ⟨by linarith, not_lt.1 h⟩) ha.le hb.le h1 h2

/-- `_min_distance_point` is a lower bound for the distance to every position of the rectangle, for a point whose longitude
(in radians) is either not to the left of the window of `fmod`, or less than one turn to the left of the rectangle's right
edge. -/
theorem minPointRad_le (R : Rect 2 ℝ) {φ p lat lon : ℝ} (hφ : -(π / 2) < φ ∧ φ < π / 2)
    (ha : -(π / 2) < radians (R.mins 0)) (hb : radians (R.maxes 0) < π / 2)
    (hlat : radians (R.mins 0) ≤ lat ∧ lat ≤ radians (R.maxes 0))
    (hlon : radians (R.mins 1) ≤ lon ∧ lon ≤ radians (R.maxes 1))
    (hp : (radians (R.mins 1) + radians (R.maxes 1)) / 2 - π ≤ p ∨ radians (R.maxes 1) - 2 * π < p) :
    minPointRad R φ p ≤ haversineRadians φ p lat lon := by
  have hpi := pi_pos
  unfold minPointRad
  simp only
  set a := radians (R.mins 0)
  set b := radians (R.maxes 0)
  set c := radians (R.mins 1)
  set d := radians (R.maxes 1)
  set u := fmod (p - ((c + d) / 2 - π)) (2 * π) + ((c + d) / 2 - π) with hu
  -- the shifted longitude
  have hk : ∃ k : ℤ, u = p - 2 * π * k := by
    rcases le_or_gt 0 (p - ((c + d) / 2 - π)) with h | h
    · obtain ⟨-, -, k, hk⟩ := fmod_nonneg_case h
      exact ⟨k, by rw [hu, hk]; ring⟩
    · have hlt : -(2 * π) < p - ((c + d) / 2 - π) := by
        rcases hp with hp | hp <;> linarith [hlon.1, hlon.2]
      exact ⟨0, by rw [hu, fmod_neg_case h hlt]; push_cast; ring⟩
  have hloc : ((c + d) / 2 - π ≤ u ∧ u < (c + d) / 2 + π) ∨ (d - 2 * π < u ∧ u < (c + d) / 2 - π) := by
    rcases le_or_gt 0 (p - ((c + d) / 2 - π)) with h | h
    · obtain ⟨h1, h2, -⟩ := fmod_nonneg_case h
      left; constructor <;> rw [hu] <;> linarith
    · right
      have hp' : d - 2 * π < p := by
        rcases hp with hp | hp
        · linarith
        · exact hp
      have hlt : -(2 * π) < p - ((c + d) / 2 - π) := by linarith [hlon.1, hlon.2]
      rw [hu, fmod_neg_case h hlt]
      constructor <;> linarith
  obtain ⟨k, hk⟩ := hk
  have hshift : haversineRadians φ p lat lon = haversineRadians φ u lat lon := by
    rw [haversineRadians_eq, haversineRadians_eq, hk, cosAngle_shift]
  rw [hshift]
  have hφ' : -(π / 2) ≤ φ ∧ φ ≤ π / 2 := ⟨hφ.1.le, hφ.2.le⟩
  have hlat' : -(π / 2) ≤ lat ∧ lat ≤ π / 2 := ⟨by linarith [hlat.1], by linarith [hlat.2]⟩
  have hsinp : ∀ e, (sin (p - e)) ^ 2 = (sin (u - e)) ^ 2 := by
    intro e
    rw [hk, show p - 2 * π * k - e = (p - e) - k * (2 * π) by ring, sin_sub_int_mul_two_pi]
  have hmer : ∀ y, haversineRadians φ u y u = arccos (cos (φ - y)) * radiusEarth := by
    intro y; rw [haversineRadians_eq]; unfold cosAngle; rw [sub_self, cos_zero, mul_one, cos_sub]
  have hle1 : arccos (cos (φ - lat)) * radiusEarth ≤ haversineRadians φ u lat lon := by
    rw [← hmer]
    apply haversineRadians_le
    rw [cosAngle_edge, cosAngle_edge]
    apply edge_mono hφ' hlat'
    rw [sub_self, cos_zero]; exact cos_le_one _
  have harc : ∀ y, 0 ≤ y → y ≤ π → arccos (cos y) = y := fun y h1 h2 => arccos_cos h1 h2
  by_cases hin : c ≤ u ∧ u ≤ d
  · rw [if_pos hin]
    split
    · rename_i h
      refine le_trans ?_ hle1
      rw [hmer]
      apply mul_le_mul_of_nonneg_right _ radius_pos.le
      rw [← cos_neg (φ - a), ← cos_neg (φ - lat), harc _ (by linarith) (by linarith),
        harc _ (by linarith [hlat.1]) (by linarith [hlat.2])]
      linarith [hlat.1]
    · split
      · rename_i h
        refine le_trans ?_ hle1
        rw [hmer]
        apply mul_le_mul_of_nonneg_right _ radius_pos.le
        rw [harc _ (by linarith) (by linarith), harc _ (by linarith [hlat.2]) (by linarith [hlat.1])]
        linarith [hlat.2]
      · rw [haversineRadians_eq]
        exact mul_nonneg (arccos_nonneg _) radius_pos.le
  · rw [if_neg hin]
    have hcd : c ≤ d := hlon.1.trans hlon.2
    by_cases hside : (u < (c + d) / 2 ∧ (c + d) / 2 - u < π) ∨ (u > (c + d) / 2 ∧ u - (c + d) / 2 > π)
    · rw [if_pos hside]
      have hul : u < c ∧ (c + d) / 2 - π < u := by
        rcases hside with ⟨h1, h2⟩ | ⟨h1, h2⟩
        · refine ⟨?_, by linarith⟩
          by_contra h
          exact hin ⟨not_lt.1 h, by linarith⟩
        · exfalso; rcases hloc with h | h <;> linarith
      have hdiff : ¬ (c - u < 0) := by linarith
      rw [if_neg hdiff]
      apply haversineRadians_le
      rw [cosAngle_edge, cosAngle_edge]
      refine le_trans (edge_mono hφ' hlat' (cos_left hul.1.le hul.2.le hlon.1 hlon.2)) ?_
      apply edge_branch hφ ha hb hlat.1 hlat.2 (by linarith) (by linarith)
      · rw [← cos_neg, neg_sub]
      · rw [hsinp, ← neg_sub c u, sin_neg, neg_sq]
    · rw [if_neg hside]
      -- representative to the right of the rectangle
      have hur : ∃ (j : ℤ) (v : ℝ), v = u + j * (2 * π) ∧ d ≤ v ∧ v ≤ (c + d) / 2 + π ∧
          v - d = (if u - d < 0 then u - d + 2 * π else u - d) := by
        rcases hloc with ⟨h1, h2⟩ | ⟨h1, h2⟩
        · rcases le_or_gt u ((c + d) / 2) with h | h
          · -- only the left end of the window remains
            have hmid : u = (c + d) / 2 - π := by
              by_contra hne
              have hlt : (c + d) / 2 - π < u := lt_of_le_of_ne h1 (Ne.symm hne)
              rcases lt_or_eq_of_le h with h | h
              · exact hside (Or.inl ⟨h, by linarith⟩)
              · exact hin ⟨by linarith, by linarith⟩
            by_cases hdd : d ≤ u
            · -- a full turn: then d = c and ...
              exfalso; linarith
            · refine ⟨1, u + 2 * π, by push_cast; ring, ?_, by linarith, ?_⟩
              · by_contra hlt
                apply hin
                push Not at hlt hdd
                constructor <;> linarith
              · rw [if_pos (by linarith)]; ring
          · have hd : d < u := by
              by_contra hn
              exact hin ⟨by linarith, not_lt.1 hn⟩
            exact ⟨0, u, by push_cast; ring, hd.le, h2.le, by rw [if_neg (by linarith)]⟩
        · exact ⟨1, u + 2 * π, by push_cast; ring, by linarith, by linarith,
            by rw [if_pos (by linarith)]; ring⟩
      obtain ⟨j, v, hv, hv1, hv2, hv3⟩ := hur
      rw [← hv3]
      apply haversineRadians_le
      rw [cosAngle_edge, cosAngle_edge]
      have e1 : ∀ l y, edge φ (l - u) y = edge φ (v - l) y := by
        intro l y
        rw [← edge_neg_delta, neg_sub, hv, show u + j * (2 * π) - l = (u - l) + j * (2 * π) by ring, edge_shift]
      rw [e1, e1]
      refine le_trans (edge_mono hφ' hlat' (cos_right hv1 hv2 hlon.1 hlon.2)) ?_
      apply edge_branch hφ ha hb hlat.1 hlat.2 (by linarith) (by linarith)
      · rw [hv, show u + j * (2 * π) - d = (u - d) + j * (2 * π) by ring, cos_add_int_mul_two_pi]
      · rw [hsinp, hv, show u + j * (2 * π) - d = (u - d) + j * (2 * π) by ring, sin_add_int_mul_two_pi]

end Cis.HavTree
