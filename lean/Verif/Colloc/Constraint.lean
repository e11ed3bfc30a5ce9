import Verif.Colloc.Lemmas
import Verif.HavTree.Nearest
set_option linter.unusedSectionVars false
set_option linter.unusedSimpArgs false
/-! Property C14: separation constraints. -/
namespace Cis.Colloc
open Cis.Geo Cis.KDTree

/-- Pressures are positive if a pressure separation is given. -/
def PresOK (s : Seps) (ref : Loc) (data : List DRow) : Prop := s.p ≠ none → 0 < ref.pres ∧ ∀ r ∈ data, 0 < r.loc.pres

/-- C14, plain constraint: exactly the points closer than every given separation, in order. -/
theorem c14_plain (s : Seps) (ref : Loc) (data : List DRow) (hpos : PresOK s ref data) :
    plainConstrain s ref data = Spec.selected s ref data := by
  unfold plainConstrain Spec.selected
  rw [foldl_filter, List.nil_append]
  apply List.filter_congr
  intro r hr
  rw [Bool.eq_iff_iff, plainChecks_all s ref r.loc (fun h => ⟨(hpos h).1, (hpos h).2 r hr⟩)]
  simp

/-- The great-circle distance of a data point from the reference. -/
noncomputable def hdist (ref p : Loc) : ℝ := Geo.Spec.greatCircle 6378 p.lat p.lon ref.lat ref.lon

/-- A search that finds exactly the rows at a distance of at most `h`, each once. -/
def SearchExact (data : List DRow) (ref : Loc) (h : ℝ) (idx : List Nat) : Prop :=
  idx.Nodup ∧ ∀ i, i ∈ idx ↔ ∃ r, data[i]? = some r ∧ hdist ref r.loc ≤ h

open Classical in
theorem within_iff {s : Seps} {ref p : Loc} : Spec.Within s ref p ↔ (∀ h, s.h = some h → hdist ref p < h) ∧ VWithin s ref p :=
  Iff.rfl

open Classical in
/-- C14, indexed constraint for any exact search: the same points as the plain constraint, up to order, provided the
horizontal separation is not zero (`c14_zero_violated`) and no point lies exactly at it (`c14_boundary_violated`). -/
theorem c14_indexed (s : Seps) (ref : Loc) (data : List DRow) (search : Loc → ℝ → List Nat)
    (hpos : PresOK s ref data) (hsearch : ∀ h, s.h = some h → SearchExact data ref h (search ref h))
    (hzero : s.h ≠ some 0) (hedge : ∀ h, s.h = some h → ∀ r ∈ data, hdist ref r.loc ≠ h) :
    ∃ sel, kdConstrain s search ref data = some sel ∧ sel.Perm (Spec.selected s ref data) := by
  have vert : ∀ f f0 : List DRow, f.Perm f0 → (∀ r ∈ f0, r ∈ data) → ∃ sel, applyChecks (kdChecks s) ref f = some sel ∧
      sel.Perm (f0.filter (fun r => decide (VWithin s ref r.loc))) := by
    intro f f0 hp hsub
    obtain ⟨sel, h1, h2⟩ := applyChecks_perm ref (kdCond s) (kdCond_ok s) f f0 hp
    rw [kdCond_fst] at h1
    refine ⟨sel, h1, h2.trans (List.Perm.of_eq (List.filter_congr ?_))⟩
    intro r hr
    rw [Bool.eq_iff_iff, kdCond_all s ref r.loc (fun h => ⟨(hpos h).1, (hpos h).2 r (hsub r hr)⟩)]
    simp
  unfold kdConstrain horizontal
  cases hh : s.h with
  | none =>
    obtain ⟨sel, h1, h2⟩ := vert data data (List.Perm.refl _) (fun r h => h)
    refine ⟨sel, h1, h2.trans (List.Perm.of_eq ?_)⟩
    unfold Spec.selected
    apply List.filter_congr
    intro r _
    rw [Bool.eq_iff_iff, decide_eq_true_eq, decide_eq_true_eq, within_iff, hh]; simp
  | some h =>
    have hne : h ≠ 0 := fun h0 => hzero (by rw [hh, h0])
    simp only
    rw [if_neg hne]
    simp only
    obtain ⟨sel0, h1, h2⟩ := iloc_exact data (fun p => decide (hdist ref p ≤ h)) (search ref h) (hsearch h hh).1
      (by simpa using (hsearch h hh).2)
    obtain ⟨sel, h3, h4⟩ := vert sel0 _ h2 (fun r hr => (List.mem_filter.1 hr).1)
    refine ⟨sel, by rw [h1]; exact h3, h4.trans (List.Perm.of_eq ?_)⟩
    unfold Spec.selected
    rw [List.filter_filter]
    apply List.filter_congr
    intro r hr
    rw [Bool.eq_iff_iff, Bool.and_eq_true, decide_eq_true_eq, decide_eq_true_eq, decide_eq_true_eq, within_iff, hh]
    constructor
    · rintro ⟨hv, hd⟩
      refine ⟨?_, hv⟩
      rintro h' ⟨⟩
      exact lt_of_le_of_ne hd (hedge h hh r hr)
    · rintro ⟨hd, hv⟩
      exact ⟨hv, (hd h rfl).le⟩

/-- C14 for the constraint as it is, with the tree index of the data: all data sets and references with longitudes in a
common 360 degree window (which collocation arranges, `c21_common_window`), off the poles. -/
theorem c14_indexed_tree (s : Seps) (ref : Loc) (data : List DRow) (T : KD 2 ℝ) (hT : treeOf data = .ok T)
    (hpos : PresOK s ref data) (w : ℝ) (hwin : ∀ r ∈ data, HavTree.Spec.InWindow w ![r.loc.lat, r.loc.lon])
    (href : HavTree.Spec.InWindow w ![ref.lat, ref.lon])
    (hzero : s.h ≠ some 0) (hedge : ∀ h, s.h = some h → ∀ r ∈ data, hdist ref r.loc ≠ h) :
    ∃ sel, kdConstrain s (fun p h => HavTree.queryBallPoint T ![p.lat, p.lon] h) ref data = some sel ∧
      sel.Perm (plainConstrain s ref data) := by
  rw [c14_plain s ref data hpos]
  apply c14_indexed s ref data _ hpos _ hzero hedge
  intro h _
  have hq := HavTree.c13_query_ball_point data.length (latLon data) 10 T hT w (by
    intro i hi
    unfold latLon
    rw [List.getElem?_eq_getElem hi]
    exact hwin _ (List.getElem_mem _)) ![ref.lat, ref.lon] href h
  refine ⟨hq.1, fun i => ?_⟩
  rw [hq.2]
  unfold HavTree.Spec.dist hdist latLon
  constructor
  · rintro ⟨hi, hd⟩
    rw [List.getElem?_eq_getElem hi] at hd
    exact ⟨data[i], List.getElem?_eq_getElem hi, by simpa using hd⟩
  · rintro ⟨r, hr, hd⟩
    refine ⟨(List.getElem?_eq_some_iff.1 hr).1, ?_⟩
    rw [hr]; simpa using hd

/-- A location on the equator. -/
def atLon (lon : ℝ) : Loc := ⟨0, lon, 0, 1, 0⟩

theorem hdist_self (ref : Loc) : hdist ref ref = 0 := by
  unfold hdist
  rw [← (c58_haversine_great_circle _ _ _ _).1]
  simp [utilsHaversine]

/-- C14 is violated by the horizontal separation zero: the plain constraint keeps nothing, the indexed one keeps
everything, even the other side of the Earth. -/
theorem c14_zero_violated : ∃ (s : Seps) (ref : Loc) (data : List DRow), PresOK s ref data ∧ s.h = some 0 ∧
    Spec.selected s ref data = [] ∧ plainConstrain s ref data = [] ∧
    ∀ search, kdConstrain s search ref data = some data ∧ data ≠ [] := by
  have hs : Spec.selected ⟨some 0, none, none, none⟩ (atLon 0) [⟨atLon 180, 1⟩] = [] := by
    unfold Spec.selected
    rw [List.filter_eq_nil_iff]
    intro r hr
    simp only [decide_eq_true_eq]
    intro h
    have h1 := h.1 0 rfl
    have h2 : 0 ≤ Geo.Spec.greatCircle 6378 r.loc.lat r.loc.lon (atLon 0).lat (atLon 0).lon := by
      unfold Geo.Spec.greatCircle
      exact mul_nonneg (by norm_num) (InnerProductGeometry.angle_nonneg _ _)
    linarith
  have hp : PresOK ⟨some 0, none, none, none⟩ (atLon 0) [⟨atLon 180, 1⟩] := fun h => absurd rfl h
  refine ⟨⟨some 0, none, none, none⟩, atLon 0, [⟨atLon 180, 1⟩], hp, rfl, hs, by rw [c14_plain _ _ _ hp, hs], ?_⟩
  intro search
  refine ⟨?_, by simp⟩
  simp [kdConstrain, horizontal, kdChecks, applyChecks]

/-- C14 is violated on the boundary: a point exactly at the horizontal separation is kept by the indexed constraint
(with an exact search) but not by the plain one. -/
theorem c14_boundary_violated : ∃ (s : Seps) (ref : Loc) (data : List DRow), PresOK s ref data ∧ s.h ≠ some 0 ∧
    plainConstrain s ref data = [] ∧
    ∀ search, (∀ h, s.h = some h → SearchExact data ref h (search ref h)) → kdConstrain s search ref data = some data ∧ data ≠ [] := by
  set d := hdist (atLon 0) (atLon 180) with hd
  have hd0 : d ≠ 0 := by
    rw [hd]; unfold hdist
    rw [← (c58_haversine_great_circle _ _ _ _).1]
    have hpi := Real.pi_pos
    simp [utilsHaversine, atLon, radians, radiusEarth]
    rw [neg_div, Real.sin_neg, Real.sin_pi_div_two]; simp
  have hp : PresOK ⟨some d, none, none, none⟩ (atLon 0) [⟨atLon 180, 1⟩] := fun h => absurd rfl h
  refine ⟨⟨some d, none, none, none⟩, atLon 0, [⟨atLon 180, 1⟩], hp, by simpa using hd0, ?_, ?_⟩
  · rw [c14_plain _ _ _ hp]
    unfold Spec.selected
    rw [List.filter_eq_nil_iff]
    intro r hr
    simp only [List.mem_singleton] at hr
    subst hr
    simp only [decide_eq_true_eq]
    intro h
    have h1 := h.1 d rfl
    exact lt_irrefl _ h1
  · intro search hs
    refine ⟨?_, by simp⟩
    obtain ⟨hn, hi⟩ := hs d rfl
    have hidx : search (atLon 0) d = [0] := by
      apply List.perm_singleton.1
      rw [List.perm_ext_iff_of_nodup hn (by simp)]
      intro i
      rw [hi, List.mem_singleton]
      constructor
      · rintro ⟨r, hr, -⟩
        have := (List.getElem?_eq_some_iff.1 hr).1
        simp at this; exact this
      · rintro rfl
        exact ⟨_, rfl, le_refl _⟩
    simp [kdConstrain, horizontal, kdChecks, applyChecks, hd0, hidx, iloc]

/-- The hypotheses of `c14_indexed_tree` hold for a constraint with four separations and two data points, of which
one is selected. -/
example : ∃ T sel, treeOf [⟨atLon 20, 1⟩, ⟨{ atLon 20 with alt := 5000 }, 2⟩] = .ok T ∧
    kdConstrain ⟨some 1000, some 100, some 2, some 1⟩ (fun p h => HavTree.queryBallPoint T ![p.lat, p.lon] h) (atLon 20)
      [⟨atLon 20, 1⟩, ⟨{ atLon 20 with alt := 5000 }, 2⟩] = some sel ∧ sel.Perm [⟨atLon 20, 1⟩] := by
  obtain ⟨T, hT, -⟩ := c06_build 2 (latLon [⟨atLon 20, 1⟩, ⟨{ atLon 20 with alt := 5000 }, 2⟩]) 10 (by norm_num) (by norm_num)
    (by norm_num)
  have hp : PresOK ⟨some 1000, some 100, some 2, some 1⟩ (atLon 20) [⟨atLon 20, 1⟩, ⟨{ atLon 20 with alt := 5000 }, 2⟩] := by
    intro _; simp [atLon]
  obtain ⟨sel, h1, h2⟩ := c14_indexed_tree ⟨some 1000, some 100, some 2, some 1⟩ (atLon 20)
    [⟨atLon 20, 1⟩, ⟨{ atLon 20 with alt := 5000 }, 2⟩] T hT hp 0 (by simp [HavTree.Spec.InWindow, atLon]; norm_num)
    (by simp [HavTree.Spec.InWindow, atLon]; norm_num) (by norm_num)
    (by
      intro h hh r hr
      simp only [Option.some.injEq] at hh
      subst hh
      have : hdist (atLon 20) r.loc = 0 := by
        simp only [List.mem_cons, List.not_mem_nil, or_false] at hr
        rcases hr with rfl | rfl
        · exact hdist_self _
        · exact hdist_self (atLon 20)
      rw [this]; norm_num)
  refine ⟨T, sel, hT, h1, h2.trans (List.Perm.of_eq ?_)⟩
  rw [c14_plain _ _ _ hp]
  have w1 : Spec.Within ⟨some 1000, some 100, some 2, some 1⟩ (atLon 20) (atLon 20) := by
    refine ⟨?_, ?_, ?_, ?_⟩
    · rintro h ⟨⟩
      have := hdist_self (atLon 20); unfold hdist at this; rw [this]; norm_num
    · rintro h ⟨⟩; simp [atLon]
    · rintro h ⟨⟩; simp [atLon]
    · rintro h ⟨⟩; simp [atLon]
  have w2 : ¬ Spec.Within ⟨some 1000, some 100, some 2, some 1⟩ (atLon 20) { atLon 20 with alt := 5000 } := by
    rintro ⟨-, h, -⟩
    have := h 100 rfl
    simp [atLon] at this
    linarith
  simp [Spec.selected, w1, w2]

end Cis.Colloc
