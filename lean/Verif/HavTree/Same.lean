import Verif.HavTree.Props
set_option linter.unusedSectionVars false
set_option linter.unusedSimpArgs false
/-! Property C13 for a data point at the place of the sample point: it is found wherever it lies. -/
namespace Cis.HavTree
open Real Cis.Geo Cis.KDTree

/-- C13, the tree search for two point sets, without any condition on where the points are: every index returned is that of a data point,
each once, and every data point at the place of the sample point is returned for every distance that is not negative. What is missing for C13
is in `c13_query_ball_tree_partial`. -/
theorem c13_same_place (nSample n : Nat) (sample data : Nat → Pt 2 ℝ) (leafsize : Nat) (T : KD 2 ℝ)
    (hT : mkTree n data leafsize = .ok T) (r : ℝ) (hr : 0 ≤ r) (hs : 0 < nSample) :
    ∃ res, pointsWithinDistanceSample nSample sample T r = .ok res ∧
      ∀ i < nSample, (res i).Nodup ∧ (∀ j ∈ res i, j < n) ∧ ∀ j < n, data j = sample i → j ∈ res i := by
  obtain ⟨S, hS, -, -, -⟩ := mkTree_ok nSample sample 10 (by norm_num) hs (by norm_num)
  obtain ⟨hSn, hSd, hSok⟩ := ok_of_mkTree (by norm_num) hS
  obtain ⟨hn, hd, hok⟩ := ok_of_mkTree (by norm_num) hT
  refine ⟨queryBallTree S T r, by unfold pointsWithinDistanceSample; rw [hS], ?_⟩
  intro i hi
  obtain ⟨L, e, hsub, -, hcomp⟩ := checkTree_sandwich S.data T.data r (Rect.mk' S.maxes S.mins)
    (Rect.mk' T.maxes T.mins) i S.tree _ T.tree _ (fun _ => []) hSok.good hok.good (mkTree_full _ _ _ _ hS)
    (mkTree_full _ _ _ _ hT) (root_sub hS) (root_sub hT) hSok.nodup
  have hi' : i ∈ S.tree.indices := by rw [hSok.mem, hSn]; exact hi
  have hres : queryBallTree S T r i = L := by unfold queryBallTree; rw [e]; simp
  rw [hres]
  rw [if_pos hi'] at hsub
  refine ⟨hok.nodup.sublist hsub, ?_, ?_⟩
  · intro j hj
    have hjm : j ∈ T.tree.indices := hsub.subset hj
    rw [hok.mem, hn] at hjm; exact hjm
  · intro j hj hji
    have h0 : ∀ x : Pt 2 ℝ, havPt x x ≤ r := by
      intro x
      have : havPt x x = 0 := by
        rw [havPt_dist]
        have := (c58_haversine_metric (x 0) (x 1) (x 0) (x 1) (x 0) (x 1)).1
        rw [(c58_haversine_great_circle _ _ _ _).1] at this
        exact this
      rw [this]; exact hr
    apply hcomp hi' j (by rw [hok.mem, hn]; exact hj)
    · rw [hd, hSd, hji]; exact h0 _
    · intro R Q hR hQ iR iQ
      rw [hSd] at iR; rw [hd, hji] at iQ
      have : (fun d => max 0 (max (R.mins d - Q.maxes d) (Q.mins d - R.maxes d))) = (0 : Pt 2 ℝ) := by
        funext d
        obtain ⟨a1, a2⟩ := iR d
        obtain ⟨b1, b2⟩ := iQ d
        exact max_eq_left (max_le (by linarith) (by linarith))
      unfold minRect
      rw [this]; exact h0 0

/-- Three points, one of them at the pole and two beyond the date line, searched from the same places. -/
example : ∃ T, mkTree 3 (fun i => ![90 - 10 * (i : ℝ), 170 + 20 * (i : ℝ)]) 1 = .ok T ∧
    ∃ res, pointsWithinDistanceSample 3 (fun i => ![90 - 10 * (i : ℝ), 170 + 20 * (i : ℝ)]) T 5 = .ok res ∧ ∀ i < 3, i ∈ res i := by
  obtain ⟨T, hT, -⟩ := mkTree_ok 3 (fun i => ![90 - 10 * (i : ℝ), 170 + 20 * (i : ℝ)]) 1 (by norm_num) (by norm_num) (by norm_num)
  obtain ⟨res, h1, h2⟩ := c13_same_place 3 3 (fun i => ![90 - 10 * (i : ℝ), 170 + 20 * (i : ℝ)]) _ 1 T hT 5 (by norm_num) (by norm_num)
  exact ⟨T, hT, res, h1, fun i hi => (h2 i hi).2.2 i hi rfl⟩

end Cis.HavTree
