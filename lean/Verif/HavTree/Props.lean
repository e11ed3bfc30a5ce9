import Verif.HavTree.Lemmas
import Verif.HavTree.Spec
import Verif.KDTree.Props
set_option linter.unusedSectionVars false
set_option linter.unusedSimpArgs false
/-! Property C13: horizontal separation search on the sphere. -/
namespace Cis.HavTree
open Real Cis.Geo Cis.KDTree

theorem havPt_dist (x y : Pt 2 ℝ) : havPt x y = Spec.dist x y := (c58_haversine_great_circle _ _ _ _).2

theorem specDist_comm (x y : Pt 2 ℝ) : Spec.dist x y = Spec.dist y x := greatCircle_comm _ _ _ _ _

theorem radians_mono {a b : ℝ} (h : a ≤ b) : radians a ≤ radians b := by
  unfold radians; have := pi_pos; gcongr

theorem radians_lt {a b : ℝ} (h : a < b) : radians a < radians b := by
  unfold radians; have := pi_pos; gcongr

theorem root_box {n : Nat} {data : Nat → Pt 2 ℝ} {leafsize : Nat} {T : KD 2 ℝ} (h : mkTree n data leafsize = .ok T)
    (d : Fin 2) : (∃ i < n, (Rect.mk' T.maxes T.mins).mins d = data i d) ∧
      (∃ i < n, (Rect.mk' T.maxes T.mins).maxes d = data i d) := by
  unfold mkTree at h
  split at h
  · simp at h
  split at h
  · simp at h
  rename_i hn
  simp only at h
  split at h
  · simp only [Except.ok.injEq] at h; subst h
    have hmem : ∀ (op : ℝ → ℝ → ℝ) (hop : ∀ a b, op a b = a ∨ op a b = b) (l : List Nat) (a : ℝ),
        (∃ i < n, a = data i d) → (∀ i ∈ l, i < n) → ∃ i < n, l.foldl (fun a i => op a (data i d)) a = data i d := by
      intro op hop l
      induction l with
      | nil => intro a ha _; exact ha
      | cons x t ih =>
        intro a ha hl
        simp only [List.foldl_cons]
        apply ih
        · rcases hop a (data x d) with h | h
          · rw [h]; exact ha
          · exact ⟨x, hl x (by simp), h⟩
        · intro i hi; exact hl i (by simp [hi])
    have h1 := hmem max (fun a b => max_choice a b) (List.range n) (data 0 d) ⟨0, by omega, rfl⟩
      (fun i hi => List.mem_range.1 hi)
    have h2 := hmem min (fun a b => min_choice a b) (List.range n) (data 0 d) ⟨0, by omega, rfl⟩
      (fun i hi => List.mem_range.1 hi)
    have hle : colMin n data d ≤ colMax n data d :=
      le_trans (foldl_min_le_init (fun i => data i d) _ _) (foldl_max_le_init (fun i => data i d) _ _)
    simp only [Rect.mk']
    rw [min_eq_right hle, max_eq_left hle]
    exact ⟨h2, h1⟩
  · simp at h

theorem root_sub {n : Nat} {data : Nat → Pt 2 ℝ} {leafsize : Nat} {T : KD 2 ℝ} (h : mkTree n data leafsize = .ok T) :
    Sub (Rect.mk' T.maxes T.mins) (Rect.mk' T.maxes T.mins) := by
  intro i
  refine ⟨le_refl _, ?_, le_refl _⟩
  simp only [Rect.mk']
  exact le_trans (min_le_left _ _) (le_max_left _ _)

theorem radians_180 (a : ℝ) : radians (a + 180) = radians a + π := by unfold radians; ring

/-- C13, search around a single point: exact for all data and sample positions with longitudes in a common 360 degree
window, off the poles. (Poles: `math.tan` of a right angle has no exact counterpart.) -/
theorem c13_query_ball_point (n : Nat) (data : Nat → Pt 2 ℝ) (leafsize : Nat) (T : KD 2 ℝ)
    (hT : mkTree n data leafsize = .ok T) (w : ℝ) (hdata : ∀ i < n, Spec.InWindow w (data i)) (x : Pt 2 ℝ)
    (hx : Spec.InWindow w x) (r : ℝ) :
    (queryBallPoint T x r).Nodup ∧ ∀ i, i ∈ queryBallPoint T x r ↔ i < n ∧ Spec.dist (data i) x ≤ r := by
  obtain ⟨hn, hd, hok⟩ := ok_of_mkTree (by norm_num) hT
  have hpi := pi_pos
  have hbox : ∀ R, Sub R (Rect.mk' T.maxes T.mins) → -90 < R.mins 0 ∧ R.maxes 0 < 90 ∧ w ≤ R.mins 1 ∧ R.maxes 1 < w + 360 := by
    intro R hR
    obtain ⟨⟨i, hi, e1⟩, ⟨j, hj, e2⟩⟩ := root_box hT 0
    obtain ⟨⟨k, hk, e3⟩, ⟨l, hl, e4⟩⟩ := root_box hT 1
    have h0 := hR 0
    have h1 := hR 1
    rw [e1, e2] at h0
    rw [e3, e4] at h1
    have w1 := hdata i hi; have w2 := hdata j hj; have w3 := hdata k hk; have w4 := hdata l hl
    unfold Spec.InWindow at w1 w2 w3 w4
    refine ⟨by linarith, by linarith, by linarith, by linarith⟩
  have e90 : radians 90 = π / 2 := by unfold radians; ring
  have em90 : radians (-90) = -(π / 2) := by unfold radians; ring
  have e360 : ∀ a, radians (a + 360) = radians a + 2 * π := by intro a; unfold radians; ring
  obtain ⟨x1, x2, x3, x4⟩ := hx
  have hφ : -(π / 2) < radians (x 0) ∧ radians (x 0) < π / 2 := by
    rw [← em90, ← e90]; exact ⟨radians_lt x3, radians_lt x4⟩
  have hmin : ∀ (φ p : ℝ), (-(π / 2) < φ ∧ φ < π / 2) → (radians w ≤ p) → ∀ R y,
      Sub R (Rect.mk' T.maxes T.mins) → Inside R y →
      minPointRad R φ p ≤ haversineRadians φ p (radians (y 0)) (radians (y 1)) := by
    intro φ p hφ hp R y hR hy
    obtain ⟨b1, b2, b3, b4⟩ := hbox R hR
    apply minPointRad_le R hφ
    · rw [← em90]; exact radians_lt b1
    · rw [← e90]; exact radians_lt b2
    · exact ⟨radians_mono (hy 0).1, radians_mono (hy 0).2⟩
    · exact ⟨radians_mono (hy 1).1, radians_mono (hy 1).2⟩
    · right
      have := radians_lt b4
      rw [e360] at this; linarith
  have key := ballPoint_exact T.data x r (Rect.mk' T.maxes T.mins)
    (fun R y hR hy => by
      rw [havPt_comm, havPt_eq]
      exact hmin _ _ hφ (radians_mono x1) R y hR hy)
    (fun R y hR hy => by
      have h := hmin (-radians (x 0)) (radians (x 1) + π) ⟨by linarith [hφ.2], by linarith [hφ.1]⟩
        (by have := radians_mono x1; linarith) R y hR hy
      unfold maxPoint
      rw [havPt_comm, havPt_eq]
      have hopp : haversineRadians (-radians (x 0)) (radians (x 1) + π) (radians (y 0)) (radians (y 1))
          = π * radiusEarth - haversineRadians (radians (x 0)) (radians (x 1)) (radians (y 0)) (radians (y 1)) := by
        rw [haversineRadians_eq, haversineRadians_eq]
        have : cosAngle (-radians (x 0)) (radians (x 1) + π) (radians (y 0)) (radians (y 1))
            = -cosAngle (radians (x 0)) (radians (x 1)) (radians (y 0)) (radians (y 1)) := by
          unfold cosAngle
          rw [cos_neg, sin_neg, show radians (y 1) - (radians (x 1) + π) = (radians (y 1) - radians (x 1)) - π by ring,
            cos_sub_pi]
          ring
        rw [this, arccos_neg]; ring
      linarith)
    T.tree _ hok.good (mkTree_full n data leafsize T hT) (root_sub hT)
  unfold queryBallPoint
  rw [key]
  refine ⟨hok.nodup.filter _, fun i => ?_⟩
  rw [List.mem_filter, hok.mem, hn, decide_eq_true_eq, hd, havPt_dist]

theorem equatorial_mono {u v : Pt 2 ℝ} (h0 : ∀ i, 0 ≤ u i) (h : ∀ i, u i ≤ v i) (h90 : ∀ i, v i ≤ 90) :
    havPt 0 u ≤ havPt 0 v := by
  have hpi := pi_pos
  rw [havPt_eq, havPt_eq]
  apply haversineRadians_le
  unfold cosAngle
  have e0 : radians ((0 : Pt 2 ℝ) 0) = 0 := by simp [radians]
  have e1 : radians ((0 : Pt 2 ℝ) 1) = 0 := by simp [radians]
  have e00 : radians 0 = 0 := by simp [radians]
  rw [e0, e1]
  simp only [cos_zero, sin_zero, sub_zero, zero_mul, add_zero, one_mul]
  have e90 : radians 90 = π / 2 := by unfold radians; ring
  have hv : ∀ i, radians (u i) ≤ radians (v i) ∧ 0 ≤ radians (u i) ∧ radians (v i) ≤ π / 2 := by
    intro i
    refine ⟨radians_mono (h i), ?_, ?_⟩
    · rw [← e00]; exact radians_mono (h0 i)
    · rw [← e90]; exact radians_mono (h90 i)
  obtain ⟨a1, a2, a3⟩ := hv 0
  obtain ⟨b1, b2, b3⟩ := hv 1
  have c1 : cos (radians (v 0)) ≤ cos (radians (u 0)) := cos_le_cos_of_nonneg_of_le_pi a2 (by linarith) a1
  have c2 : cos (radians (v 1)) ≤ cos (radians (u 1)) := cos_le_cos_of_nonneg_of_le_pi b2 (by linarith) b1
  have c3 : 0 ≤ cos (radians (v 1)) := cos_nonneg_of_mem_Icc ⟨by linarith, b3⟩
  have c4 : 0 ≤ cos (radians (u 0)) := cos_nonneg_of_mem_Icc ⟨by linarith, by linarith⟩
  exact mul_le_mul c1 c2 c3 c4

/-- In one hemisphere the distance is at most the distance of a pair with the same coordinate differences at the equator. -/
theorem dist_le_equatorial {x y : Pt 2 ℝ} (hx : |x 0| ≤ 90) (hy : |y 0| ≤ 90) (hh : 0 ≤ x 0 * y 0) :
    havPt x y ≤ havPt 0 (fun i => |y i - x i|) := by
  have hpi := pi_pos
  rw [havPt_eq, havPt_eq]
  apply haversineRadians_le
  unfold cosAngle
  have e0 : radians ((0 : Pt 2 ℝ) 0) = 0 := by simp [radians]
  have e1 : radians ((0 : Pt 2 ℝ) 1) = 0 := by simp [radians]
  rw [e0, e1]
  simp only [cos_zero, sin_zero, sub_zero, zero_mul, add_zero, one_mul]
  have eabs : ∀ a b : ℝ, cos (radians |a - b|) = cos (radians a - radians b) := by
    intro a b
    rw [← cos_abs (radians a - radians b)]
    congr 1
    unfold radians
    rw [show a * π / 180 - b * π / 180 = (a - b) * (π / 180) by ring, abs_mul,
      abs_of_pos (show (0 : ℝ) < π / 180 by positivity)]
    ring
  rw [eabs, eabs, cos_sub (radians (y 0))]
  have hs : 0 ≤ sin (radians (x 0)) * sin (radians (y 0)) := by
    have e90 : ∀ a : ℝ, |a| ≤ 90 → 0 ≤ a → 0 ≤ sin (radians a) := by
      intro a ha h0
      apply sin_nonneg_of_nonneg_of_le_pi
      · unfold radians; positivity
      · unfold radians; rw [abs_le] at ha; nlinarith
    have e90' : ∀ a : ℝ, |a| ≤ 90 → a ≤ 0 → sin (radians a) ≤ 0 := by
      intro a ha h0
      have := e90 (-a) (by rwa [abs_neg]) (by linarith)
      have e : radians (-a) = -radians a := by unfold radians; ring
      rw [e, sin_neg] at this; linarith
    rcases le_total 0 (x 0) with h1 | h1
    · rcases le_total 0 (y 0) with h2 | h2
      · exact mul_nonneg (e90 _ hx h1) (e90 _ hy h2)
      · rcases eq_or_lt_of_le h1 with h | h
        · rw [← h]; simp [radians]
        · have : y 0 = 0 := by nlinarith
          rw [this]; simp [radians]
    · rcases le_total 0 (y 0) with h2 | h2
      · rcases eq_or_lt_of_le h2 with h | h
        · rw [← h]; simp [radians]
        · have : x 0 = 0 := by nlinarith
          rw [this]; simp [radians]
      · exact mul_nonneg_of_nonpos_of_nonpos (e90' _ hx h1) (e90' _ hy h2)
  have hc : cos (radians (y 1) - radians (x 1)) ≤ 1 := cos_le_one _
  nlinarith

/-- C13, the tree search used by box collocation. What is missing: completeness. On a region of one hemisphere spanning at
most 90 degrees in latitude and longitude, every index returned is within the distance, each once, but only the data points
whose coordinate differences would be within the distance *at the equator* are certain to be found. Outside such regions the
property fails (`c13_high_latitude_violated`, `c13_date_line_violated`, `c13_too_far_violated`). -/
theorem c13_query_ball_tree_partial (nSample n : Nat) (sample data : Nat → Pt 2 ℝ) (leafsize : Nat) (T : KD 2 ℝ)
    (hT : mkTree n data leafsize = .ok T) (r : ℝ)
    (hlat : ∀ i < nSample, ∀ j < n, |sample i 0| ≤ 90 ∧ |data j 0| ≤ 90 ∧ 0 ≤ sample i 0 * data j 0)
    (hspan : ∀ i < nSample, ∀ j < n, ∀ d, |data j d - sample i d| ≤ 90) (hs : 0 < nSample) :
    ∃ res, pointsWithinDistanceSample nSample sample T r = .ok res ∧
      ∀ i < nSample, (res i).Nodup ∧
        (∀ j ∈ res i, j < n ∧ Spec.dist (sample i) (data j) ≤ r) ∧
        (∀ j < n, Geo.Spec.greatCircle 6378 0 0 |data j 0 - sample i 0| |data j 1 - sample i 1| ≤ r → j ∈ res i) := by
  obtain ⟨S, hS, -, -, -⟩ := mkTree_ok nSample sample 10 (by norm_num) hs (by norm_num)
  obtain ⟨hSn, hSd, hSok⟩ := ok_of_mkTree (by norm_num) hS
  obtain ⟨hn, hd, hok⟩ := ok_of_mkTree (by norm_num) hT
  refine ⟨queryBallTree S T r, by unfold pointsWithinDistanceSample; rw [hS], ?_⟩
  intro i hi
  obtain ⟨L, e, hsub, hsound, hcomp⟩ := checkTree_sandwich S.data T.data r (Rect.mk' S.maxes S.mins)
    (Rect.mk' T.maxes T.mins) i S.tree _ T.tree _ (fun _ => []) hSok.good hok.good (mkTree_full _ _ _ _ hS)
    (mkTree_full _ _ _ _ hT) (root_sub hS) (root_sub hT) hSok.nodup
  have hi' : i ∈ S.tree.indices := by rw [hSok.mem, hSn]; exact hi
  have hres : queryBallTree S T r i = L := by unfold queryBallTree; rw [e]; simp
  rw [hres]
  rw [if_pos hi'] at hsub
  have hspanBox : ∀ R Q, Sub R (Rect.mk' S.maxes S.mins) → Sub Q (Rect.mk' T.maxes T.mins) → ∀ d,
      R.maxes d - Q.mins d ≤ 90 ∧ Q.maxes d - R.mins d ≤ 90 := by
    intro R Q hR hQ d
    obtain ⟨⟨i1, h1, e1⟩, ⟨i2, h2, e2⟩⟩ := root_box hS d
    obtain ⟨⟨j1, h3, e3⟩, ⟨j2, h4, e4⟩⟩ := root_box hT d
    have a := hR d; have b := hQ d
    rw [e1, e2] at a; rw [e3, e4] at b
    have c1 := abs_le.1 (hspan i2 h2 j1 h3 d)
    have c2 := abs_le.1 (hspan i1 h1 j2 h4 d)
    constructor <;> linarith [c1.1, c2.2]
  refine ⟨(hok.nodup.sublist hsub), ?_, ?_⟩
  · intro j hj
    have hjm : j ∈ T.tree.indices := hsub.subset hj
    have hjn : j < n := by rw [hok.mem, hn] at hjm; exact hjm
    refine ⟨hjn, ?_⟩
    rw [← havPt_dist]
    rcases hsound j hj with h | ⟨R, Q, hR, hQ, iR, iQ, hlt⟩
    · rw [hd, hSd] at h; rw [havPt_comm]; exact h
    · rw [hSd] at iR; rw [hd] at iQ
      obtain ⟨l1, l2, l3⟩ := hlat i hi j hjn
      refine le_trans (dist_le_equatorial l1 l2 l3) (le_of_lt (lt_of_le_of_lt ?_ hlt))
      unfold maxRect
      apply equatorial_mono (fun _ => abs_nonneg _)
      · intro d
        obtain ⟨a1, a2⟩ := iR d
        obtain ⟨b1, b2⟩ := iQ d
        rw [abs_le']
        exact ⟨le_trans (by linarith) (le_max_right _ _), le_trans (by linarith) (le_max_left _ _)⟩
      · intro d; exact max_le (hspanBox R Q hR hQ d).1 (hspanBox R Q hR hQ d).2
  · intro j hj hle
    have heq : havPt 0 (fun d => |data j d - sample i d|) ≤ r := by
      rw [havPt_dist]; exact hle
    obtain ⟨l1, l2, l3⟩ := hlat i hi j hj
    apply hcomp hi' j (by rw [hok.mem, hn]; exact hj)
    · rw [hd, hSd, havPt_comm]; exact (dist_le_equatorial l1 l2 l3).trans heq
    · intro R Q hR hQ iR iQ
      rw [hSd] at iR; rw [hd] at iQ
      refine le_trans ?_ heq
      unfold minRect
      apply equatorial_mono
      · intro d; exact le_max_left _ _
      · intro d
        obtain ⟨a1, a2⟩ := iR d
        obtain ⟨b1, b2⟩ := iQ d
        apply max_le (abs_nonneg _) (max_le _ _)
        · rw [abs_sub_comm]; exact le_trans (by linarith) (le_abs_self _)
        · exact le_trans (by linarith) (le_abs_self _)
      · exact fun d => hspan i hi j hj d

end Cis.HavTree
