import Verif.Stats.Command
set_option linter.unusedSectionVars false
set_option linter.unusedSimpArgs false

/-!
# The order of the pairs does not matter to `cis stats`
-/

namespace Cis.StatsCmd
open Cis.Masks

/-- The same pairs of values, with their masks, in another order. -/
def Spec.SamePairs (a b a' b' : MArr ℝ) : Prop := (a.zip b).Perm (a'.zip b')

theorem zipWith_perm {γ : Type} (F : ℝ × Bool → ℝ × Bool → γ × Bool) {a b a' b' : MArr ℝ} (h : Spec.SamePairs a b a' b') :
    (compressed (List.zipWith F a b)).Perm (compressed (List.zipWith F a' b')) := by
  have e : ∀ a b : MArr ℝ, List.zipWith F a b = (a.zip b).map (fun p => F p.1 p.2) := by
    intro a b; rw [List.zip, List.map_zipWith]
  rw [e, e]
  exact ((h.map _).filter _).map _

theorem zipWith_left {γ : Type} (f : ℝ × Bool → ℝ × Bool → ℝ × Bool) (g : ℝ × Bool → ℝ × Bool → γ) : ∀ (a b : MArr ℝ),
    List.zipWith g (List.zipWith f a b) a = List.zipWith (fun p q => g (f p q) p) a b
  | [], _ => by simp
  | _ :: _, [] => by simp
  | p :: s, q :: t => by simp [zipWith_left f g s t]

theorem maMean_perm {a b : MArr ℝ} (h : (compressed a).Perm (compressed b)) : maMean a = maMean b := by
  unfold maMean
  rw [h.length_eq, h.sum_eq]

theorem maVar_perm {a b : MArr ℝ} (h : (compressed a).Perm (compressed b)) : maVar a = maVar b := by
  unfold maVar
  rw [maMean_perm h]
  cases maMean b with
  | none => rfl
  | some m =>
    dsimp only
    rw [h.length_eq, (h.map _).sum_eq]

theorem mean_perm (f : ℝ × ℝ → ℝ) {p q : List (ℝ × ℝ)} (h : p.Perm q) : Regress.mean f p = Regress.mean f q := by
  unfold Regress.mean
  rw [(h.map f).sum_eq, h.length_eq]

theorem validPairs_perm {a b a' b' : MArr ℝ} (h : Spec.SamePairs a b a' b') : (Regress.validPairs a b).Perm (Regress.validPairs a' b') :=
  (h.filter _).map _

theorem masks_perm {a b a' b' : MArr ℝ} (h : Spec.SamePairs a b a' b') : Masks.analyze a b = Masks.analyze a' b' := by
  unfold Masks.analyze maDiv maOp intersect
  simp only [zipWith_left]
  rw [(zipWith_perm _ h).length_eq, maMean_perm (zipWith_perm _ h), maMean_perm (zipWith_perm _ h), maVar_perm (zipWith_perm _ h),
    maVar_perm (zipWith_perm _ h), maMean_perm (zipWith_perm _ h), maVar_perm (zipWith_perm _ h), maMean_perm (zipWith_perm _ h),
    maVar_perm (zipWith_perm _ h)]

/-- **C197** (`cis stats`). The same pairs of values in another order, whatever their shapes: everything that is printed and saved is the same, or
the same error. -/
theorem c197_stats (shown : Option ℝ → String) (d1 d2 e1 e2 : DataSet) (hn1 : e1.name = d1.name) (hn2 : e2.name = d2.name)
    (hd : d1.values.length = d2.values.length) (he : e1.values.length = e2.values.length)
    (h : Spec.SamePairs e1.values e2.values d1.values d2.values) (output : Bool) :
    run shown [e1, e2] output = run shown [d1, d2] output := by
  have hr : Regress.regression e1.values e2.values = Regress.regression d1.values d2.values := by
    unfold Regress.regression
    dsimp only
    have hp := validPairs_perm h
    rw [cross_perm Prod.fst Prod.fst hp, cross_perm Prod.fst Prod.snd hp, cross_perm Prod.snd Prod.snd hp, corr_perm _ _ hp, mean_perm _ hp, mean_perm _ hp,
      hp.length_eq]
  have hs : Regress.spearman e1.values e2.values = Regress.spearman d1.values d2.values := by
    unfold Regress.spearman
    dsimp only
    have hp := validPairs_perm h
    rw [rank_perm (hp.map Prod.fst), rank_perm (hp.map Prod.snd), corr_perm _ _ hp]
  have ha : analyze e1 e2 = analyze d1 d2 := by
    unfold analyze
    simp only [he, hd, masks_perm h, hr, hs, hn1, hn2, ne_eq, not_true_eq_false, if_false]
  unfold run
  dsimp only
  rw [ha]

/-- The hypotheses are met by the example of C185 with its second and fourth pairs exchanged, and the command then reports something. -/
example : Spec.SamePairs ([(1, false), (4, false), (3, true), (2, false)] : MArr ℝ) [(3, false), (9, false), (0, false), (5, false)] exA.values exB.values := by
  show List.Perm [((1, false), (3, false)), ((4, false), (9, false)), ((3, true), (0, false)), ((2, false), (5, false))]
    [((1, false), (3, false)), ((2, false), (5, false)), ((3, true), (0, false)), ((4, false), (9, false))]
  refine List.Perm.cons _ ?_
  exact (List.Perm.swap _ _ _).trans ((List.Perm.cons _ (List.Perm.swap _ _ _)).trans (List.Perm.swap _ _ _))

end Cis.StatsCmd
