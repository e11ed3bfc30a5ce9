import Verif.Colloc.Collocate
import Verif.HavTree.Violations
import Mathlib.Analysis.Real.Pi.Bounds
set_option linter.unusedSectionVars false
set_option linter.unusedSimpArgs false
/-! Property C17 with the tree search that the code uses, in regions where that search is exact. -/
namespace Cis.Colloc
open Cis.Geo Cis.KDTree Real

/-- The distance that two points with these coordinate differences would have at the equator. -/
noncomputable def equatorial (dlat dlon : ℝ) : ℝ := Geo.Spec.greatCircle 6378 0 0 |dlat| |dlon|

/-- The start of the longitude range that the collocation uses: that of the sample (-180 with negative longitudes, else 0). -/
def Window (sample : List Row) (w : ℝ) : Prop :=
  (w = 0 ∨ w = -180) ∧ (w = -180 ↔ ∃ r ∈ sample, r.loc.lon < 0) ∧ ∀ r ∈ sample, w ≤ r.loc.lon ∧ r.loc.lon < w + 360

/-- The region where the search is exact: with the longitudes `lon` of the datum moved into the range of the sample, the two
points are in the same hemisphere, at most 90 degrees apart in each coordinate, and are not within the separation when they
would not be with the same coordinate differences at the equator. -/
def Near (w h : ℝ) (ref p : Loc) : Prop :=
  |ref.lat| ≤ 90 ∧ |p.lat| ≤ 90 ∧ 0 ≤ ref.lat * p.lat ∧ |p.lat - ref.lat| ≤ 90 ∧
    ∀ lon, Lon.Spec.Same lon p.lon → w ≤ lon → lon < w + 360 → |lon - ref.lon| ≤ 90 ∧
      (hdist ref p ≤ h → equatorial (p.lat - ref.lat) (lon - ref.lon) ≤ h)

theorem hdist_eq (ref p : Loc) : hdist ref p = HavTree.Spec.dist ![ref.lat, ref.lon] ![p.lat, p.lon] := by
  unfold hdist
  rw [← HavTree.havPt_dist, HavTree.havPt_comm, HavTree.havPt_dist]
  simp [HavTree.Spec.dist]

theorem setLongitudeRange_id (rows : List Row) (w : ℝ) (h : ∀ r ∈ rows, w ≤ r.loc.lon ∧ r.loc.lon < w + 360) :
    setLongitudeRange rows w = rows := by
  unfold setLongitudeRange
  rw [(Lon.c21_fix_longitude_range_idempotent _ _).1 (by
    intro l hl; rw [List.mem_map] at hl; obtain ⟨r, hr, rfl⟩ := hl; exact h r hr)]
  induction rows with
  | nil => rfl
  | cons r t ih =>
    rw [List.map_cons, List.zipWith_cons_cons, ih (fun r hr => h r (by simp [hr]))]

theorem window_start {sample : List Row} {w : ℝ} (h : Window sample w) :
    Lon.findLongitudeRange (sample.map (fun r => r.loc.lon)) = w := by
  unfold Lon.findLongitudeRange
  by_cases hw : w = -180
  · rw [if_pos, hw]
    rw [List.any_eq_true]
    obtain ⟨r, hr, hl⟩ := h.2.1.1 hw
    exact ⟨r.loc.lon, List.mem_map_of_mem hr, by simpa using hl⟩
  · rw [if_neg, (h.1.resolve_right hw)]
    intro hc
    rw [List.any_eq_true] at hc
    obtain ⟨l, hl, hn⟩ := hc
    rw [List.mem_map] at hl
    obtain ⟨r, hr, rfl⟩ := hl
    exact hw (h.2.1.2 ⟨r, hr, by simpa using hn⟩)

/-- C17 for the collocator as it is, with a horizontal separation: when every sample point and every valid datum are near each
other in the sense of `Near`, each value is computed from exactly the valid data within all the separations, whatever
longitude convention the data use. -/
theorem c17_tree_partial (s : Seps) (k : Kernel) (missing hasVals : Bool) (cx cy : List Col) (hc : ColsOK k cx cy)
    (sample data : List Row) (hne : dropna data ≠ []) (hpos : ∀ r ∈ sample, PresOK s r.loc (dropna data)) (hzero : s.h ≠ some 0)
    (hedge : ∀ h, s.h = some h → ∀ r ∈ sample, ∀ q ∈ dropna data, hdist r.loc q.loc ≠ h)
    (w : ℝ) (hw : Window sample w) (hnear : ∀ h, s.h = some h → ∀ r ∈ sample, ∀ q ∈ dropna data, Near w h r.loc q.loc) :
    ∃ out, collocate s k missing hasVals cx cy sample data = .ok out ∧
      out.length = k.size ∧ (∀ v ∈ out, v.length = sample.length) ∧
      ∀ i r, sample[i]? = some r →
        if missing = true ∧ hasVals = true ∧ r.val = none then column out i = List.replicate k.size none
        else ∃ sel : List DRow, sel.Perm (Spec.selected s r.loc (dropna data)) ∧
          column out i = (getValue k cx cy r.loc sel).getD (List.replicate k.size none) := by
  refine c17_core treeSearch s k missing hasVals cx cy hc sample data hne hpos hzero hedge ?_
  intro h eh T
  simp only
  rw [window_start hw, setLongitudeRange_id sample w hw.2.2, window_start hw]
  obtain ⟨g, hg, eg, hrange⟩ := setLongitudeRange_eq data w
  rw [eg, dropna_withLon]
  set d1 := (dropna data).map (fun r : DRow => r.withLon g) with hd1
  intro hT i r hr
  have hi : i < sample.length := (List.getElem?_eq_some_iff.1 hr).1
  have hd : ∀ (j : Nat) (q : DRow), d1[j]? = some q → ∃ q0 ∈ dropna data, q = q0.withLon g := by
    intro j q hq
    have := List.mem_of_getElem? hq
    rw [hd1, List.mem_map] at this
    obtain ⟨q0, h0, rfl⟩ := this
    exact ⟨q0, h0, rfl⟩
  have hsamp : ∀ i < sample.length, ∃ r, sample[i]? = some r ∧ r ∈ sample := fun i hi =>
    ⟨sample[i], List.getElem?_eq_getElem hi, List.getElem_mem hi⟩
  have hdat : ∀ j < d1.length, ∃ q, d1[j]? = some q := fun j hj => ⟨d1[j], List.getElem?_eq_getElem hj⟩
  have hA : ∀ i < sample.length, ∀ j < d1.length, |sampleLatLon sample i 0| ≤ 90 ∧ |latLon d1 j 0| ≤ 90 ∧
      0 ≤ sampleLatLon sample i 0 * latLon d1 j 0 := by
    intro i hi j hj
    obtain ⟨r, hr, hrm⟩ := hsamp i hi
    obtain ⟨q, hq⟩ := hdat j hj
    obtain ⟨q0, h0, rfl⟩ := hd j q hq
    have hN := hnear h eh r hrm q0 h0
    unfold latLon sampleLatLon
    rw [hr, hq]
    exact ⟨hN.1, hN.2.1, hN.2.2.1⟩
  have hB : ∀ i < sample.length, ∀ j < d1.length, ∀ d, |latLon d1 j d - sampleLatLon sample i d| ≤ 90 := by
    intro i hi j hj d
    obtain ⟨r, hr, hrm⟩ := hsamp i hi
    obtain ⟨q, hq⟩ := hdat j hj
    obtain ⟨q0, h0, rfl⟩ := hd j q hq
    have hN := hnear h eh r hrm q0 h0
    have hL := hN.2.2.2.2 (g q0.loc.lon) (hg _) (hrange _).1 (hrange _).2
    unfold latLon sampleLatLon
    rw [hr, hq]
    fin_cases d
    · exact hN.2.2.2.1
    · exact hL.1
  obtain ⟨res, e, H⟩ := HavTree.c13_query_ball_tree_partial sample.length d1.length
    (sampleLatLon sample) (latLon d1) 10 T hT h hA hB (by omega)
  have hrm : r ∈ sample := List.mem_of_getElem? hr
  obtain ⟨h1, h2, h3⟩ := H i hi
  have es : sampleLatLon sample i = ![r.loc.lat, r.loc.lon] := by unfold sampleLatLon; rw [hr]
  rw [es] at h2 h3
  unfold treeSearch
  rw [e]
  refine ⟨h1, fun j => ?_⟩
  simp only
  constructor
  · intro hj
    obtain ⟨hjn, hjd⟩ := h2 j hj
    obtain ⟨q, hq⟩ := hdat j hjn
    refine ⟨q, hq, ?_⟩
    rw [hdist_eq]
    unfold latLon at hjd
    rw [hq] at hjd
    exact hjd
  · rintro ⟨q, hq, hdq⟩
    have hjn : j < d1.length := (List.getElem?_eq_some_iff.1 hq).1
    apply h3 j hjn
    unfold latLon
    rw [hq]
    obtain ⟨q0, h0, rfl⟩ := hd j q hq
    have hN := (hnear h eh r hrm q0 h0).2.2.2.2 (g q0.loc.lon) (hg _) (hrange _).1 (hrange _).2
    apply hN.2
    rw [← hdist_withLon (f := id) (g := g) (fun x => ⟨0, by simp⟩) hg]
    exact hdq

theorem equatorial_eq (a b : ℝ) : equatorial a b = arccos (cos (radians a) * cos (radians b)) * 6378 := by
  have h := HavTree.havPt_dist 0 ![|a|, |b|]
  rw [HavTree.havPt_zero_eq] at h
  have hr : ∀ x : ℝ, cos (radians |x|) = cos (radians x) := by
    intro x
    rcases abs_choice x with e | e <;> rw [e]
    unfold radians; rw [← cos_neg]; congr 1; ring
  simp only [Matrix.cons_val_zero, Matrix.cons_val_one, hr] at h
  rw [h]; rfl

/-- On the equator or along a meridian, points that are at most 90 degrees apart are near each other for every separation. -/
theorem near_line (w h : ℝ) (ref p : Loc) (h1 : |ref.lat| ≤ 90) (h2 : |p.lat| ≤ 90) (h3 : 0 ≤ ref.lat * p.lat)
    (h4 : |p.lat - ref.lat| ≤ 90) (h5 : ∀ lon, Lon.Spec.Same lon p.lon → w ≤ lon → lon < w + 360 → |lon - ref.lon| ≤ 90)
    (h6 : (ref.lat = 0 ∧ p.lat = 0) ∨ Lon.Spec.Same p.lon ref.lon) : Near w h ref p := by
  refine ⟨h1, h2, h3, h4, fun lon hl a b => ⟨h5 lon hl a b, fun hd => ?_⟩⟩
  refine le_trans (le_of_eq ?_) hd
  rw [equatorial_eq, hdist_eq, HavTree.specDist_eq]
  simp only [Matrix.cons_val_zero, Matrix.cons_val_one]
  congr 2
  obtain ⟨k, rfl⟩ := hl
  have er : ∀ x y : ℝ, radians (x - y) = radians x - radians y := by intro x y; unfold radians; ring
  have ek : ∀ (x : ℝ) (k : ℤ), radians (x + 360 * k) = radians x + k * (2 * π) := by intro x k; unfold radians; ring
  rcases h6 with ⟨e1, e2⟩ | ⟨m, e⟩
  · rw [e1, e2, er, er, ek]
    unfold HavTree.cosAngle
    have : radians 0 = 0 := by unfold radians; ring
    rw [this, add_sub_right_comm, cos_add_int_mul_two_pi]
    simp
  · rw [er, er, ek, e, ek]
    unfold HavTree.cosAngle
    have : cos (radians ref.lon + ↑m * (2 * π) + ↑k * (2 * π) - radians ref.lon) = 1 := by
      rw [← cos_zero, ← cos_add_int_mul_two_pi 0 (m + k)]; congr 1; push_cast; ring
    rw [this, show radians ref.lon + ↑m * (2 * π) - radians ref.lon = 0 + m * (2 * π) by ring, cos_add_int_mul_two_pi, cos_zero,
      cos_sub]
    ring

/-- Two points of the equator. -/
theorem hdist_equator (a b c p t c' p' t' : ℝ) (h : 0 ≤ b - a) (h' : b - a ≤ 180) :
    hdist ⟨0, a, c, p, t⟩ ⟨0, b, c', p', t'⟩ = radians (b - a) * 6378 := by
  rw [hdist_eq, HavTree.specDist_eq]
  simp only [Matrix.cons_val_zero, Matrix.cons_val_one]
  have hp := pi_pos
  have e : HavTree.cosAngle (radians 0) (radians a) (radians 0) (radians b) = cos (radians (b - a)) := by
    unfold HavTree.cosAngle
    rw [HavTree.rad0, show radians (b - a) = radians b - radians a by unfold radians; ring]
    simp
  rw [e, arccos_cos]
  · unfold radians; positivity
  · unfold radians; nlinarith

/-- C17 is violated across the edge of the longitude range: the only sample point, at longitude 0, has a datum 60 degrees of
arc away (at 300 degrees east), but with a separation of 90 degrees of arc, and another datum on the other side of the Earth, its
value is missing. -/
theorem c17_date_line_violated : ∃ (s : Seps) (sample data : List Row) (p : Loc),
    sample[0]? = some ⟨p, some 1⟩ ∧
    collocate s .max false true [.lat, .lon] [.lat, .lon] sample data = .ok [[none]] ∧
    Spec.selected s p (dropna data) = [⟨⟨0, 300, 0, 1, 0⟩, 7⟩] := by
  have hpi := pi_pos
  refine ⟨⟨some (6378 * (π / 2)), none, none, none⟩, [⟨⟨0, 0, 0, 1, 0⟩, some 1⟩],
    [⟨⟨0, 180, 0, 1, 0⟩, some 5⟩, ⟨⟨0, 300, 0, 1, 0⟩, some 7⟩], ⟨0, 0, 0, 1, 0⟩, rfl, ?_, ?_⟩
  · have hw : Window [⟨⟨0, 0, 0, 1, 0⟩, some 1⟩] 0 := by
      refine ⟨Or.inl rfl, ?_, ?_⟩ <;> simp
    unfold collocate collocateWith
    simp only
    rw [window_start hw, setLongitudeRange_id _ 0 hw.2.2, window_start hw, setLongitudeRange_id _ 0 (by
      intro r hr; simp at hr; rcases hr with rfl | rfl <;> norm_num)]
    have ed : dropna [⟨⟨0, 180, 0, 1, 0⟩, some 5⟩, ⟨⟨0, 300, 0, 1, 0⟩, some 7⟩] =
      [⟨⟨0, 180, 0, 1, 0⟩, 5⟩, ⟨⟨0, 300, 0, 1, 0⟩, 7⟩] := rfl
    rw [ed]
    have et : treeOf [⟨⟨0, 180, 0, 1, 0⟩, 5⟩, ⟨⟨0, 300, 0, 1, 0⟩, 7⟩] = _ :=
      HavTree.mkTree_leaf _ (by simp) (by simp)
    rw [et]
    simp only
    have hs : ∀ i, treeSearch (KD.mk 2 (latLon [⟨⟨0, 180, 0, 1, 0⟩, 5⟩, ⟨⟨0, 300, 0, 1, 0⟩, 7⟩]) 10
        (colMax 2 (latLon [⟨⟨0, 180, 0, 1, 0⟩, 5⟩, ⟨⟨0, 300, 0, 1, 0⟩, 7⟩]))
        (colMin 2 (latLon [⟨⟨0, 180, 0, 1, 0⟩, 5⟩, ⟨⟨0, 300, 0, 1, 0⟩, 7⟩])) (.leaf (List.range 2)))
        [⟨⟨0, 0, 0, 1, 0⟩, some 1⟩] (6378 * (π / 2)) i = [] := by
      intro i
      unfold treeSearch HavTree.pointsWithinDistanceSample
      rw [HavTree.mkTree_leaf _ (by simp) (by simp)]
      simp only
      unfold HavTree.queryBallTree
      simp only
      have e1 : max (180 : ℝ) 300 = 300 := by norm_num
      have e2 : min (180 : ℝ) 300 = 180 := by norm_num
      have e3 : min (300 : ℝ) 180 = 180 := by norm_num
      have e4 : max (300 : ℝ) 180 = 300 := by norm_num
      have e8 : max (-300 : ℝ) 180 = 180 := by norm_num
      rw [HavTree.checkTree_prune]
      unfold HavTree.minRect
      rw [HavTree.havPt_zero_eq]
      simp [Rect.mk', colMax, colMin, List.range_succ, HavTree.rad180, HavTree.rad0, e1, e2, e3, e4, e8, latLon, sampleLatLon]
      nlinarith
    have hz : (6378 * (π / 2) = 0) = False := by simp [pi_ne_zero]
    unfold kdIterator
    simp [horizontal, hz, hs, iloc, kdChecks, applyChecks, Kernel.size, fillValues, fillStep, getValue]
  · unfold Spec.selected
    rw [show dropna [⟨⟨0, 180, 0, 1, 0⟩, some 5⟩, ⟨⟨0, 300, 0, 1, 0⟩, some 7⟩] =
      [⟨⟨0, 180, 0, 1, 0⟩, 5⟩, ⟨⟨0, 300, 0, 1, 0⟩, 7⟩] from rfl]
    have d1 : hdist ⟨0, 0, 0, 1, 0⟩ ⟨0, 180, 0, 1, 0⟩ = π * 6378 := by
      rw [hdist_equator _ _ _ _ _ _ _ _ (by norm_num) (by norm_num)]; unfold radians; ring
    have d2 : hdist ⟨0, 0, 0, 1, 0⟩ ⟨0, 300, 0, 1, 0⟩ = π / 3 * 6378 := by
      have := hdist_withLon (f := id) (g := fun x => x + 360) (fun x => ⟨0, by simp⟩) (fun x => ⟨1, by simp⟩)
        ⟨0, 0, 0, 1, 0⟩ ⟨0, -60, 0, 1, 0⟩
      simp only [Loc.withLon, id] at this
      norm_num at this
      rw [this, hdist_eq, HavTree.specDist_comm, ← hdist_eq, hdist_equator _ _ _ _ _ 0 1 0 (by norm_num) (by norm_num)]
      unfold radians; ring
    have w1 : ¬ Spec.Within ⟨some (6378 * (π / 2)), none, none, none⟩ ⟨0, 0, 0, 1, 0⟩ ⟨0, 180, 0, 1, 0⟩ := by
      rw [within_iff]; intro h
      have := h.1 _ rfl
      rw [d1] at this; nlinarith
    have w2 : Spec.Within ⟨some (6378 * (π / 2)), none, none, none⟩ ⟨0, 0, 0, 1, 0⟩ ⟨0, 300, 0, 1, 0⟩ := by
      rw [within_iff]
      refine ⟨?_, ?_⟩
      · rintro h ⟨⟩; rw [d2]; nlinarith
      · simp [VWithin]
    simp [w1, w2]

/-- The hypotheses of `c17_tree_partial` are met by a sample point on the equator and data given in the other longitude
convention, one of which is within 1000 km and one beyond. -/
example : ∃ out, collocate ⟨some 1000, none, none, none⟩ .max false true [.lat, .lon] [.lat, .lon]
    [⟨⟨0, 10, 0, 1, 0⟩, some 1⟩] [⟨⟨0, 375, 0, 1, 0⟩, some 3⟩, ⟨⟨0, 430, 0, 1, 0⟩, some 9⟩, ⟨⟨0, 370, 0, 1, 0⟩, none⟩] = .ok out ∧
    out.length = 1 := by
  have hq : ∀ q ∈ dropna [⟨⟨0, 375, 0, 1, 0⟩, some 3⟩, ⟨⟨0, 430, 0, 1, 0⟩, some 9⟩, ⟨⟨0, 370, 0, 1, 0⟩, none⟩],
      q = ⟨⟨0, 375, 0, 1, 0⟩, 3⟩ ∨ q = ⟨⟨0, 430, 0, 1, 0⟩, 9⟩ := by simp [dropna]
  have hpi := pi_gt_three
  have hpi4 := pi_le_four
  have hd : ∀ a : ℝ, 360 ≤ a → a ≤ 450 → hdist ⟨0, 10, 0, 1, 0⟩ ⟨0, a, 0, 1, 0⟩ = |a - 370| * (6378 * π / 180) := by
    intro a ha hb
    have := hdist_withLon (f := id) (g := fun x => x - 360) (fun x => ⟨0, by simp⟩) (fun x => ⟨-1, by push_cast; ring⟩)
      ⟨0, 10, 0, 1, 0⟩ ⟨0, a, 0, 1, 0⟩
    rw [← this]
    simp only [Loc.withLon, id]
    rcases le_total 370 a with h | h
    · rw [hdist_equator _ _ _ _ _ _ _ _ (by linarith) (by linarith), abs_of_nonneg (by linarith)]; unfold radians; ring
    · rw [hdist_eq, HavTree.specDist_comm, ← hdist_eq, hdist_equator _ _ _ _ _ 0 1 0 (by linarith) (by linarith),
        abs_of_nonpos (by linarith)]
      unfold radians; ring
  obtain ⟨out, h1, h2, -⟩ := c17_tree_partial ⟨some 1000, none, none, none⟩ .max false true [.lat, .lon] [.lat, .lon]
    (by intro h; cases h) [⟨⟨0, 10, 0, 1, 0⟩, some 1⟩]
    [⟨⟨0, 375, 0, 1, 0⟩, some 3⟩, ⟨⟨0, 430, 0, 1, 0⟩, some 9⟩, ⟨⟨0, 370, 0, 1, 0⟩, none⟩] (by simp [dropna])
    (by intro r _ h; exact absurd rfl h) (by simp) (by
      rintro h ⟨⟩ r hr q hm
      simp only [List.mem_singleton] at hr
      subst hr
      rcases hq q hm with rfl | rfl
      · rw [hd _ (by norm_num) (by norm_num)]; norm_num; intro hc; nlinarith
      · rw [hd _ (by norm_num) (by norm_num)]; norm_num; intro hc; nlinarith)
    0 (by refine ⟨Or.inl rfl, ?_, ?_⟩ <;> norm_num) (by
      rintro h ⟨⟩ r hr q hm
      simp only [List.mem_singleton] at hr
      subst hr
      have key : ∀ a : ℝ, 360 ≤ a → a ≤ 450 → ∀ lon, Lon.Spec.Same lon a → 0 ≤ lon → lon < 0 + 360 → |lon - 10| ≤ 90 := by
        rintro a ha hb lon ⟨k, rfl⟩ h0 h1
        have : k = -1 := by
          have k1 : ((-2 : ℤ) : ℝ) < k := by push_cast; linarith
          have k2 : (k : ℝ) < ((0 : ℤ) : ℝ) := by push_cast; linarith
          have := Int.cast_lt.1 k1; have := Int.cast_lt.1 k2; omega
        subst this
        push_cast
        rw [abs_le]; constructor <;> linarith
      rcases hq q hm with rfl | rfl <;>
        exact near_line _ _ _ _ (by norm_num) (by norm_num) (by norm_num) (by norm_num) (key _ (by norm_num) (by norm_num))
          (Or.inl ⟨rfl, rfl⟩))
  exact ⟨out, h1, h2⟩

end Cis.Colloc
