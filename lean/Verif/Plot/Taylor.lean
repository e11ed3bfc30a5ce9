import Verif.Masks.Model
import Mathlib.Algebra.BigOperators.Ring.Finset
import Mathlib.Algebra.Order.Chebyshev
import Mathlib.Analysis.SpecialFunctions.Log.Basic
/-!
Model of the statistics of the Taylor diagram (plotting/taylor.py:101-169, 243-250), over the reals. A dataset is given by its
rows (one row for one-dimensional data); the elements have mask bits.
-/
set_option linter.unusedSectionVars false
set_option linter.unusedSimpArgs false
namespace Cis.Plot
open Cis.Masks

/-- The values of the columns valid in both rows. -/
noncomputable def bothValid (a b : MArr ℝ) : List (ℝ × ℝ) :=
  ((a.zip b).filter (fun p => !p.1.2 && !p.2.2)).map (fun p => (p.1.1, p.2.1))

/-- A row minus the mean of its valid elements (`numpy.ma._covhelper`, library). -/
noncomputable def centred (a : MArr ℝ) : MArr ℝ := a.map (fun p => (p.1 - (maMean a).getD 0, p.2))

/-- The variance of a list, `var()` (library). -/
noncomputable def popVar (l : List ℝ) : ℝ := (l.map (fun x => (x - l.sum / l.length) ^ 2)).sum / l.length

/-- Entry of `numpy.ma.corrcoef` for two different rows (library): the mean product of the centred rows over the columns valid
in both, divided by the standard deviations over these columns; masked (`none`) when there are none or the division is by
zero. -/
noncomputable def rowCorr (a b : MArr ℝ) : Option ℝ :=
  let ps := bothValid (centred a) (centred b)
  let den := Real.sqrt (popVar (ps.map Prod.fst) * popVar (ps.map Prod.snd))
  if ps.length = 0 ∨ den = 0 then none
  else some ((ps.map (fun p => p.1 * p.2)).sum / ps.length / den)

/-- Data of the same shape get a common mask (`numpy.ma._covhelper`, library); a dataset is the list of its rows. -/
noncomputable def commonMask (x y : List (MArr ℝ)) : List (MArr ℝ) × List (MArr ℝ) :=
  (List.zipWith (fun a b => (intersect a b).1) x y, List.zipWith (fun a b => (intersect a b).2) x y)

/-- `np.ma.corrcoef(d.data, packed_data[0].data)[0, 1]` (taylor.py:119): the rows of both datasets are stacked. -/
noncomputable def corr01 (d ref : List (MArr ℝ)) : Option ℝ :=
  match (commonMask d ref).1 ++ (commonMask d ref).2 with
  | r0 :: r1 :: _ => rowCorr r0 r1
  | _ => none

/-- `np.ma.minimum(np.ma.maximum(c, -1.), 1.)` (taylor.py:120). -/
noncomputable def clip (c : ℝ) : ℝ := min (max c (-1)) 1

/-- `np.ma.std(d.data, ddof=1)` (taylor.py:109). -/
noncomputable def sigma (d : List (MArr ℝ)) : Option ℝ := (maVar d.flatten).map Real.sqrt

/-- Division of masked scalars: masked when the divisor is zero (library). -/
noncomputable def mdiv : Option ℝ → Option ℝ → Option ℝ
  | some x, some y => if y = 0 then none else some (x / y)
  | _, _ => none

/-- What is plotted for a dataset: correlation, gamma and standardised bias (taylor.py:108-120). -/
structure Point where
  corr : Option ℝ
  gamma : Option ℝ
  bias : Option ℝ

/-- taylor.py:108-120. -/
noncomputable def point (ref d : List (MArr ℝ)) : Point where
  corr := (corr01 d ref).map clip
  gamma := mdiv (sigma d) (sigma ref)
  bias := mdiv (match maMean d.flatten, maMean ref.flatten with | some a, some b => some (a - b) | _, _ => none) (sigma ref)

/-- `np.ma.log(d.data)` and then `.data` of it (taylor.py:106, 108): the logarithms of the valid positive values, the others
unchanged (library), and without the mask. -/
noncomputable def logData (d : List (MArr ℝ)) : List (MArr ℝ) :=
  d.map (fun r => r.map (fun p => (if p.2 = true ∨ p.1 ≤ 0 then p.1 else Real.log p.1, false)))

/-- The points of the diagram (taylor.py:105-120); the first dataset is the reference. -/
noncomputable def points (logv : Bool) (ds : List (List (MArr ℝ))) : List Point :=
  let data := if logv then ds.map logData else ds
  match data with
  | [] => []
  | ref :: _ => data.map (point ref)

/-- The direction of the flag (taylor.py:243-249); `none` if the point is (almost) at the reference. -/
noncomputable def flag (gamma corr : ℝ) : Option (ℝ × ℝ) :=
  let rmse := Real.sqrt (1 + gamma * (gamma - 2 * corr))
  if rmse > 1 / 10000 then some (gamma * Real.sqrt (1 - corr ^ 2) / rmse, (corr * gamma - 1) / rmse) else none

/-! ### Specification -/

namespace Spec

noncomputable def mean (l : List ℝ) : ℝ := l.sum / l.length

/-- Sum of the products of the deviations. -/
noncomputable def dev (ps : List (ℝ × ℝ)) : ℝ :=
  (ps.map (fun p => (p.1 - mean (ps.map Prod.fst)) * (p.2 - mean (ps.map Prod.snd)))).sum

/-- Pearson's correlation coefficient of a list of pairs. -/
noncomputable def pearson (ps : List (ℝ × ℝ)) : ℝ :=
  dev ps / (Real.sqrt (dev (ps.map (fun p => (p.1, p.1)))) * Real.sqrt (dev (ps.map (fun p => (p.2, p.2)))))

/-- Sum of the squared deviations. -/
noncomputable def ss (l : List ℝ) : ℝ := (l.map (fun x => (x - mean l) ^ 2)).sum

/-- The sample standard deviation. -/
noncomputable def std (l : List ℝ) : ℝ := Real.sqrt (ss l / (l.length - 1 : ℝ))

/-- The standard deviation of the differences (the centred root mean square difference). -/
noncomputable def centredRms (ps : List (ℝ × ℝ)) : ℝ := std (ps.map (fun p => p.1 - p.2))

end Spec

/-! ### Lemmas -/

theorem intersect_common (a b : MArr ℝ) : bothValid (intersect a b).1 (intersect a b).2 = bothValid a b := by
  unfold bothValid intersect
  induction a generalizing b with
  | nil => simp
  | cons p t ih =>
    cases b with
    | nil => simp
    | cons q u =>
      have := ih u
      obtain ⟨x, m⟩ := p
      obtain ⟨y, n⟩ := q
      cases m <;> cases n <;> simp_all

theorem compressed_intersect (a b : MArr ℝ) : compressed (intersect a b).1 = (bothValid a b).map Prod.fst ∧
    compressed (intersect a b).2 = (bothValid a b).map Prod.snd := by
  unfold bothValid intersect compressed
  induction a generalizing b with
  | nil => simp
  | cons p t ih =>
    cases b with
    | nil => simp
    | cons q u =>
      have := ih u
      obtain ⟨x, m⟩ := p
      obtain ⟨y, n⟩ := q
      cases m <;> cases n <;> simp_all

theorem bothValid_centred (a b : MArr ℝ) : bothValid (centred a) (centred b) =
    (bothValid a b).map (fun p => (p.1 - (maMean a).getD 0, p.2 - (maMean b).getD 0)) := by
  unfold centred
  generalize (maMean a).getD 0 = u
  generalize (maMean b).getD 0 = v
  unfold bothValid
  induction a generalizing b with
  | nil => simp
  | cons p t ih =>
    cases b with
    | nil => simp
    | cons q w =>
      have := ih w
      obtain ⟨x, m⟩ := p
      obtain ⟨y, n⟩ := q
      cases m <;> cases n <;> simp_all

theorem maMean_getD (a : MArr ℝ) : (maMean a).getD 0 = Spec.mean (compressed a) := by
  unfold maMean Spec.mean
  split
  · next h => simp [h]
  · simp

theorem sum_sub_const (l : List ℝ) (c : ℝ) : (l.map (fun x => x - c)).sum = l.sum - l.length * c := by
  induction l with
  | nil => simp
  | cons a t ih => simp [ih]; ring

theorem sum_div_const (l : List ℝ) (c : ℝ) : (l.map (fun x => x / c)).sum = l.sum / c := by
  induction l with
  | nil => simp
  | cons a t ih => simp [ih]; ring

theorem popVar_shift (l : List ℝ) (c : ℝ) : popVar (l.map (fun x => x - c)) = popVar l := by
  rcases Nat.eq_zero_or_pos l.length with h | h
  · rw [List.length_eq_zero_iff] at h; simp [h]
  · have h0 : (l.length : ℝ) ≠ 0 := by positivity
    unfold popVar
    rw [sum_sub_const, List.length_map, List.map_map]
    congr 3
    funext x
    simp only [Function.comp]
    field_simp
    ring

theorem popVar_ss (l : List ℝ) : popVar l = Spec.ss l / l.length := rfl

theorem ss_nonneg (l : List ℝ) : 0 ≤ Spec.ss l := by
  unfold Spec.ss
  exact List.sum_nonneg (by simp only [List.mem_map]; rintro x ⟨y, _, rfl⟩; positivity)

theorem dev_ss (ps : List (ℝ × ℝ)) : Spec.dev (ps.map (fun p => (p.1, p.1))) = Spec.ss (ps.map Prod.fst) ∧
    Spec.dev (ps.map (fun p => (p.2, p.2))) = Spec.ss (ps.map Prod.snd) := by
  unfold Spec.dev Spec.ss
  constructor <;> (simp only [List.map_map, Function.comp_def]; congr 2; funext p; ring)

/-- Cauchy–Schwarz for lists. -/
theorem cauchy (ps : List (ℝ × ℝ)) : (ps.map (fun p => p.1 * p.2)).sum ^ 2 ≤
    (ps.map (fun p => p.1 ^ 2)).sum * (ps.map (fun p => p.2 ^ 2)).sum := by
  have key : ∀ t : ℝ, 0 ≤ (ps.map (fun p => p.1 ^ 2)).sum * (t * t) + (2 * (ps.map (fun p => p.1 * p.2)).sum) * t +
      (ps.map (fun p => p.2 ^ 2)).sum := by
    intro t
    have h : (ps.map (fun p => p.1 ^ 2)).sum * (t * t) + (2 * (ps.map (fun p => p.1 * p.2)).sum) * t +
        (ps.map (fun p => p.2 ^ 2)).sum = (ps.map (fun p => (p.1 * t + p.2) ^ 2)).sum := by
      induction ps with
      | nil => simp
      | cons a u ih => simp only [List.map_cons, List.sum_cons, ← ih]; ring
    rw [h]
    exact List.sum_nonneg (by simp only [List.mem_map]; rintro x ⟨y, _, rfl⟩; positivity)
  have := discrim_le_zero key
  unfold discrim at this
  nlinarith

theorem dev_sq_le (ps : List (ℝ × ℝ)) : Spec.dev ps ^ 2 ≤ Spec.ss (ps.map Prod.fst) * Spec.ss (ps.map Prod.snd) := by
  have := cauchy (ps.map (fun p => (p.1 - Spec.mean (ps.map Prod.fst), p.2 - Spec.mean (ps.map Prod.snd))))
  simpa only [Spec.dev, Spec.ss, List.map_map, Function.comp_def] using this

theorem pearson_abs_le (ps : List (ℝ × ℝ)) : |Spec.pearson ps| ≤ 1 := by
  unfold Spec.pearson
  rw [(dev_ss ps).1, (dev_ss ps).2, ← Real.sqrt_mul (ss_nonneg _), abs_div, abs_of_nonneg (Real.sqrt_nonneg _)]
  apply div_le_one_of_le₀ _ (Real.sqrt_nonneg _)
  apply Real.le_sqrt_of_sq_le
  rw [sq_abs]
  exact dev_sq_le ps

theorem clip_eq (c : ℝ) (h : |c| ≤ 1) : clip c = c := by
  obtain ⟨h1, h2⟩ := abs_le.1 h
  unfold clip
  rw [max_eq_left h1, min_eq_left h2]

/-- The correlation of two rows that have a common mask. -/
theorem rowCorr_eq (a b : MArr ℝ) (ha : compressed a = (bothValid a b).map Prod.fst)
    (hb : compressed b = (bothValid a b).map Prod.snd) :
    rowCorr a b = if Spec.ss ((bothValid a b).map Prod.fst) = 0 ∨ Spec.ss ((bothValid a b).map Prod.snd) = 0 then none
      else some (Spec.pearson (bothValid a b)) := by
  unfold rowCorr
  simp only [bothValid_centred, maMean_getD, ha, hb]
  generalize bothValid a b = ps
  have e1 : ((ps.map fun p => (p.1 - Spec.mean (ps.map Prod.fst), p.2 - Spec.mean (ps.map Prod.snd))).map Prod.fst) =
      (ps.map Prod.fst).map (fun x => x - Spec.mean (ps.map Prod.fst)) := by simp [Function.comp_def]
  have e2 : ((ps.map fun p => (p.1 - Spec.mean (ps.map Prod.fst), p.2 - Spec.mean (ps.map Prod.snd))).map Prod.snd) =
      (ps.map Prod.snd).map (fun x => x - Spec.mean (ps.map Prod.snd)) := by simp [Function.comp_def]
  rw [e1, e2, popVar_shift, popVar_shift, popVar_ss, popVar_ss]
  have n1 := ss_nonneg (ps.map Prod.fst)
  have n2 := ss_nonneg (ps.map Prod.snd)
  have hd := dev_ss ps
  simp only [List.length_map]
  rcases Nat.eq_zero_or_pos ps.length with h | h
  · have : ps = [] := List.length_eq_zero_iff.1 h
    subst this
    simp [Spec.ss]
  · have h0 : (0 : ℝ) < ps.length := by positivity
    have hden : Real.sqrt (Spec.ss (ps.map Prod.fst) / ps.length * (Spec.ss (ps.map Prod.snd) / ps.length)) =
        Real.sqrt (Spec.ss (ps.map Prod.fst)) * Real.sqrt (Spec.ss (ps.map Prod.snd)) / ps.length := by
      rw [Real.sqrt_mul (by positivity), Real.sqrt_div' _ h0.le, Real.sqrt_div' _ h0.le, div_mul_div_comm, Real.mul_self_sqrt h0.le]
    rw [hden]
    have hz : (ps.length = 0 ∨ Real.sqrt (Spec.ss (ps.map Prod.fst)) * Real.sqrt (Spec.ss (ps.map Prod.snd)) / ps.length = 0) ↔
        (Spec.ss (ps.map Prod.fst) = 0 ∨ Spec.ss (ps.map Prod.snd) = 0) := by
      simp only [div_eq_zero_iff, mul_eq_zero, Real.sqrt_eq_zero n1, Real.sqrt_eq_zero n2]
      constructor
      · rintro (h' | h' | h')
        · omega
        · exact h'
        · exact absurd h' h0.ne'
      · intro h'; exact Or.inr (Or.inl h')
    simp only [hz]
    split
    · rfl
    · congr 1
      unfold Spec.pearson
      rw [hd.1, hd.2, div_div_div_cancel_right₀ h0.ne']
      congr 1
      simp [Spec.dev, Function.comp_def]

theorem corr01_1d (d ref : MArr ℝ) : corr01 [d] [ref] =
    if Spec.ss ((bothValid d ref).map Prod.fst) = 0 ∨ Spec.ss ((bothValid d ref).map Prod.snd) = 0 then none
      else some (Spec.pearson (bothValid d ref)) := by
  unfold corr01 commonMask
  simp only [List.zipWith_cons_cons, List.zipWith_nil_left, List.singleton_append]
  have := rowCorr_eq (intersect d ref).1 (intersect d ref).2 (by rw [(compressed_intersect d ref).1, intersect_common])
    (by rw [(compressed_intersect d ref).2, intersect_common])
  rw [this, intersect_common]

/-! ### C86 -/

/-- **C86**: for one-dimensional data the correlation plotted is Pearson's correlation of the pairs of values valid in both the
dataset and the reference, which lies between -1 and 1 (so that the clipping changes nothing); it is masked exactly when one of
the two is constant on these pairs (or there are none). -/
theorem c86_correlation (ref d : MArr ℝ) :
    (point [ref] [d]).corr =
      (if Spec.ss ((bothValid d ref).map Prod.fst) = 0 ∨ Spec.ss ((bothValid d ref).map Prod.snd) = 0 then none
        else some (Spec.pearson (bothValid d ref))) ∧
    |Spec.pearson (bothValid d ref)| ≤ 1 := by
  refine ⟨?_, pearson_abs_le _⟩
  unfold point
  simp only [corr01_1d]
  split
  · rfl
  · simp [clip_eq _ (pearson_abs_le _)]

theorem sigma_eq (d : MArr ℝ) (h : 1 < (compressed d).length) : sigma [d] = some (Spec.std (compressed d)) := by
  unfold sigma maVar maMean Spec.std Spec.ss Spec.mean
  simp only [List.flatten_cons, List.flatten_nil, List.append_nil]
  rw [if_neg (by omega)]
  simp only
  rw [if_neg (by omega)]
  simp only [Option.map_some, Option.some.injEq]
  congr 2
  push_cast [show 1 ≤ (compressed d).length by omega]
  rfl

/-- **C86**: the other two numbers are the ratio of the standard deviations and the difference of the means in standard
deviations of the reference, each over the dataset's own valid values. -/
theorem c86_gamma_bias (ref d : MArr ℝ) (h : 1 < (compressed ref).length) (h' : 1 < (compressed d).length)
    (hs : Spec.std (compressed ref) ≠ 0) :
    (point [ref] [d]).gamma = some (Spec.std (compressed d) / Spec.std (compressed ref)) ∧
    (point [ref] [d]).bias = some ((Spec.mean (compressed d) - Spec.mean (compressed ref)) / Spec.std (compressed ref)) := by
  unfold point
  simp only [sigma_eq ref h, sigma_eq d h', mdiv, if_neg hs, true_and]
  unfold maMean
  simp only [List.flatten_cons, List.flatten_nil, List.append_nil]
  rw [if_neg (by omega), if_neg (by omega)]
  simp only [if_neg hs]
  rfl

theorem bothValid_self (a : MArr ℝ) : bothValid a a = (compressed a).map (fun x => (x, x)) := by
  unfold bothValid compressed
  induction a with
  | nil => simp
  | cons p t ih =>
    obtain ⟨x, m⟩ := p
    cases m <;> simp_all

theorem std_pos_iff (l : List ℝ) (h : 1 < l.length) : Spec.std l ≠ 0 ↔ Spec.ss l ≠ 0 := by
  unfold Spec.std
  have h1 : (0 : ℝ) < (l.length : ℝ) - 1 := by
    have : (1 : ℝ) < l.length := by exact_mod_cast h
    linarith
  rw [Ne, Real.sqrt_eq_zero (div_nonneg (ss_nonneg l) h1.le), div_eq_zero_iff]
  simp [h1.ne']

/-- **C86**: the reference is at correlation 1, gamma 1 and bias 0. -/
theorem c86_reference (ref : MArr ℝ) (h : 1 < (compressed ref).length) (hs : Spec.std (compressed ref) ≠ 0) :
    (point [ref] [ref]).corr = some 1 ∧ (point [ref] [ref]).gamma = some 1 ∧ (point [ref] [ref]).bias = some 0 := by
  obtain ⟨g, b⟩ := c86_gamma_bias ref ref h h hs
  refine ⟨?_, by rw [g, div_self hs], by rw [b]; simp⟩
  rw [(c86_correlation ref ref).1, bothValid_self]
  have hss := (std_pos_iff _ h).1 hs
  simp only [List.map_map, Function.comp_def, List.map_id', hss, or_self, if_false, Option.some.injEq]
  unfold Spec.pearson
  have e := dev_ss ((compressed ref).map (fun x => (x, x)))
  simp only [List.map_map, Function.comp_def, List.map_id'] at e ⊢
  rw [e.1, Real.mul_self_sqrt (ss_nonneg _), div_self hss]

/-- **C86**: the first dataset is the reference of all. -/
theorem c86_points (ds : List (MArr ℝ)) (i : Nat) (ref d : MArr ℝ) (h0 : ds[0]? = some ref) (hi : ds[i]? = some d) :
    (points false (ds.map (fun r => [r])))[i]? = some (point [ref] [d]) := by
  cases ds with
  | nil => simp at h0
  | cons a t =>
    simp only [List.getElem?_cons_zero, Option.some.injEq] at h0
    subst h0
    simp only [points, Bool.false_eq_true, if_false, List.map_cons]
    rw [← List.map_cons (f := point [a]), ← List.map_cons (f := fun r : MArr ℝ => [r]), List.map_map, List.getElem?_map, hi]
    rfl

theorem bothValid_same_mask (a b : MArr ℝ) (h : a.map Prod.snd = b.map Prod.snd) :
    (bothValid a b).map Prod.fst = compressed a ∧ (bothValid a b).map Prod.snd = compressed b := by
  unfold bothValid compressed
  induction a generalizing b with
  | nil => cases b <;> simp_all
  | cons p t ih =>
    cases b with
    | nil => simp at h
    | cons q u =>
      simp only [List.map_cons, List.cons.injEq] at h
      have := ih u h.2
      obtain ⟨x, m⟩ := p
      obtain ⟨y, n⟩ := q
      simp only at h
      obtain ⟨rfl, h2⟩ := h
      cases m <;> simp_all

theorem ss_sub (ps : List (ℝ × ℝ)) : Spec.ss (ps.map (fun p => p.1 - p.2)) =
    Spec.ss (ps.map Prod.fst) + Spec.ss (ps.map Prod.snd) - 2 * Spec.dev ps := by
  have hm : Spec.mean (ps.map (fun p => p.1 - p.2)) = Spec.mean (ps.map Prod.fst) - Spec.mean (ps.map Prod.snd) := by
    unfold Spec.mean
    have : (ps.map (fun p => p.1 - p.2)).sum = (ps.map Prod.fst).sum - (ps.map Prod.snd).sum := by
      induction ps with
      | nil => simp
      | cons a t ih => simp [ih]; ring
    rw [this]; simp [sub_div]
  unfold Spec.ss Spec.dev
  rw [hm]
  clear hm
  generalize Spec.mean (ps.map Prod.fst) = u
  generalize Spec.mean (ps.map Prod.snd) = v
  induction ps with
  | nil => simp
  | cons a t ih =>
    simp only [List.map_cons, List.sum_cons, List.map_map, Function.comp_def] at ih ⊢
    rw [ih]; ring

/-- **C86** (condition: for data with the same mask as the reference): in the diagram, with gamma as radius and the correlation as
the cosine of the angle, the distance of a point from the reference point is the standard deviation of the differences, in
standard deviations of the reference. -/
theorem c86_distance (ref d : MArr ℝ) (hm : d.map Prod.snd = ref.map Prod.snd) (h : 1 < (compressed ref).length)
    (hs : Spec.std (compressed ref) ≠ 0) (hs' : Spec.std (compressed d) ≠ 0) :
    ∃ c g, (point [ref] [d]).corr = some c ∧ (point [ref] [d]).gamma = some g ∧
      (g * c - 1) ^ 2 + (g * Real.sqrt (1 - c ^ 2)) ^ 2 = (Spec.centredRms (bothValid d ref) / Spec.std (compressed ref)) ^ 2 := by
  obtain ⟨e1, e2⟩ := bothValid_same_mask d ref hm
  have hlen : (compressed d).length = (compressed ref).length := by rw [← e1, ← e2]; simp
  have h' : 1 < (compressed d).length := by omega
  obtain ⟨g, -⟩ := c86_gamma_bias ref d h h' hs
  obtain ⟨c, hc⟩ := c86_correlation ref d
  have z1 := (std_pos_iff _ h).1 hs
  have z2 := (std_pos_iff _ h').1 hs'
  rw [e1, e2, if_neg (by tauto)] at c
  refine ⟨_, _, c, g, ?_⟩
  have hc2 : Spec.pearson (bothValid d ref) ^ 2 ≤ 1 := by
    obtain ⟨a, b⟩ := abs_le.1 hc
    nlinarith
  rw [mul_pow _ (Real.sqrt _), Real.sq_sqrt (by linarith)]
  have hn : (0 : ℝ) < ((compressed ref).length : ℝ) - 1 := by
    have : (1 : ℝ) < (compressed ref).length := by exact_mod_cast h
    linarith
  have p1 : 0 < Spec.ss (compressed d) := lt_of_le_of_ne (ss_nonneg _) (Ne.symm z2)
  have p2 : 0 < Spec.ss (compressed ref) := lt_of_le_of_ne (ss_nonneg _) (Ne.symm z1)
  have q1 : Spec.std (compressed d) ^ 2 = Spec.ss (compressed d) / (((compressed ref).length : ℝ) - 1) := by
    unfold Spec.std; rw [hlen, Real.sq_sqrt (by positivity)]
  have q2 : Spec.std (compressed ref) ^ 2 = Spec.ss (compressed ref) / (((compressed ref).length : ℝ) - 1) := by
    unfold Spec.std; rw [Real.sq_sqrt (by positivity)]
  have hbl : (bothValid d ref).length = (compressed ref).length := by rw [← e2]; simp
  have q3 : Spec.centredRms (bothValid d ref) ^ 2 =
      (Spec.ss (compressed d) + Spec.ss (compressed ref) - 2 * Spec.dev (bothValid d ref)) / (((compressed ref).length : ℝ) - 1) := by
    unfold Spec.centredRms Spec.std
    rw [Real.sq_sqrt (by rw [List.length_map, hbl]; exact div_nonneg (ss_nonneg _) hn.le), ss_sub, e1, e2, List.length_map, hbl]
  have hpe : Spec.pearson (bothValid d ref) * (Spec.std (compressed d) * Spec.std (compressed ref)) =
      Spec.dev (bothValid d ref) / (((compressed ref).length : ℝ) - 1) := by
    unfold Spec.pearson Spec.std
    rw [(dev_ss _).1, (dev_ss _).2, e1, e2, hlen, Real.sqrt_div p1.le, Real.sqrt_div p2.le, div_mul_div_comm, Real.mul_self_sqrt hn.le]
    have := Real.sqrt_pos.2 p1
    have := Real.sqrt_pos.2 p2
    field_simp
  rw [div_pow (Spec.centredRms _), q3]
  have hs2 : Spec.std (compressed ref) ^ 2 ≠ 0 := pow_ne_zero 2 hs
  have : (Spec.std (compressed d) / Spec.std (compressed ref) * Spec.pearson (bothValid d ref) - 1) ^ 2 +
      (Spec.std (compressed d) / Spec.std (compressed ref)) ^ 2 * (1 - Spec.pearson (bothValid d ref) ^ 2) =
      (Spec.std (compressed d) ^ 2 + Spec.std (compressed ref) ^ 2 -
        2 * (Spec.pearson (bothValid d ref) * (Spec.std (compressed d) * Spec.std (compressed ref)))) / Spec.std (compressed ref) ^ 2 := by
    field_simp
    ring
  rw [this, q1, q2, hpe]
  congr 1
  field_simp

/-- **C86**: the flag showing the bias is drawn in a direction of length one, perpendicular to the line from the reference point
to the point, whatever gamma and correlation (the assertion in taylor.py:249 cannot fail in exact arithmetic). -/
theorem c86_flag (gamma corr : ℝ) (h : |corr| ≤ 1) (c s : ℝ) (hf : flag gamma corr = some (c, s)) :
    c ^ 2 + s ^ 2 = 1 ∧ (gamma * corr - 1) * c - (gamma * Real.sqrt (1 - corr ^ 2)) * s = 0 := by
  unfold flag at hf
  simp only at hf
  split at hf
  · rename_i hr
    simp only [Option.some.injEq, Prod.mk.injEq] at hf
    obtain ⟨rfl, rfl⟩ := hf
    have hc : 0 ≤ 1 - corr ^ 2 := by
      obtain ⟨a, b⟩ := abs_le.1 h
      nlinarith
    set r := Real.sqrt (1 + gamma * (gamma - 2 * corr)) with hrdef
    have hr0 : r ≠ 0 := by
      have : (0 : ℝ) < 1 / 10000 := by norm_num
      linarith [this, hr] |> fun (h : 0 < r) => h.ne'
    have hpos : 0 ≤ 1 + gamma * (gamma - 2 * corr) := by nlinarith [sq_nonneg (gamma - corr)]
    have hr2 : r ^ 2 = 1 + gamma * (gamma - 2 * corr) := Real.sq_sqrt hpos
    have hq := Real.sq_sqrt hc
    constructor
    · rw [div_pow, div_pow, ← add_div, div_eq_one_iff_eq (pow_ne_zero 2 hr0), mul_pow, hq, hr2]
      ring
    · field_simp
      ring
  · cases hf

/-- **C86** is violated for two-dimensional data: the number plotted as correlation with the reference is that of the first two
rows of the dataset, even for the reference itself. -/
theorem c86_2d_violated : (point [[(0, false), (1, false)], [(1, false), (0, false)]]
    [[(0, false), (1, false)], [(1, false), (0, false)]]).corr = some (-1) := by
  have e : corr01 [[(0, false), (1, false)], [(1, false), (0, false)]] [[(0, false), (1, false)], [(1, false), (0, false)]] =
      rowCorr [(0, false), (1, false)] [(1, false), (0, false)] := by
    simp [corr01, commonMask, intersect]
  have hb : bothValid [((0 : ℝ), false), (1, false)] [((1 : ℝ), false), (0, false)] = [(0, 1), (1, 0)] := by simp [bothValid]
  unfold point
  simp only [e]
  rw [rowCorr_eq _ _ (by rw [hb]; simp [compressed]) (by rw [hb]; simp [compressed]), hb]
  have h1 : Spec.ss [(0 : ℝ), 1] = 1 / 2 := by norm_num [Spec.ss, Spec.mean]
  have h2 : Spec.ss [(1 : ℝ), 0] = 1 / 2 := by norm_num [Spec.ss, Spec.mean]
  have h3 : Spec.pearson [((0 : ℝ), 1), (1, 0)] = -1 := by
    unfold Spec.pearson
    rw [(dev_ss _).1, (dev_ss _).2]
    simp only [List.map_cons, List.map_nil, h1, h2]
    rw [Real.mul_self_sqrt (by norm_num)]
    norm_num [Spec.dev, Spec.mean]
  simp only [List.map_cons, List.map_nil, h1, h2, h3]
  norm_num [clip]

/-- **C86** is violated with `logv` for data with missing values: the values behind the mask take part. Here the logarithms of
the valid values of the dataset equal those of the reference. -/
theorem c86_log_violated : ((points true [[[(Real.exp 1, false), (1, false), (1, true)]],
    [[(Real.exp 1, false), (1, false), (-999, true)]]]).map (fun p => p.bias) = [some 0, some 0]) = False := by
  simp only [points, if_true, List.map_cons, List.map_nil, eq_iff_iff, iff_false]
  have hle : ¬ Real.exp 1 ≤ 0 := not_le.2 (Real.exp_pos 1)
  have h1 : logData [[(Real.exp 1, false), (1, false), (1, true)]] = [[(1, false), (0, false), (1, false)]] := by
    simp [logData, hle]
  have h2 : logData [[(Real.exp 1, false), (1, false), (-999, true)]] = [[(1, false), (0, false), (-999, false)]] := by
    simp [logData, hle]
  rw [h1, h2]
  intro h
  have hc1 : compressed [((1 : ℝ), false), (0, false), (1, false)] = [1, 0, 1] := by simp [compressed]
  have hc2 : compressed [((1 : ℝ), false), (0, false), (-999, false)] = [1, 0, -999] := by simp [compressed]
  have hss : Spec.ss [(1 : ℝ), 0, 1] ≠ 0 := by norm_num [Spec.ss, Spec.mean]
  have := (c86_gamma_bias [(1, false), (0, false), (1, false)] [(1, false), (0, false), (-999, false)] (by rw [hc1]; simp)
    (by rw [hc2]; simp) (by rw [hc1]; exact (std_pos_iff _ (by simp)).2 hss)).2
  simp only [List.cons.injEq] at h
  rw [h.2.1, hc1, hc2] at this
  simp only [Option.some.injEq] at this
  have hstd : Spec.std [(1 : ℝ), 0, 1] ≠ 0 := (std_pos_iff _ (by simp)).2 hss
  field_simp at this
  norm_num [Spec.mean] at this

/-- **C86** is violated for data whose missing values differ from those of the reference: here dataset and reference agree
wherever both are valid, yet the point is not at the reference point. -/
theorem c86_mask_violated : (point [[(0, false), (1, false), (9, true)]] [[(0, false), (1, false), (3, false)]]).corr = some 1 ∧
    (point [[(0, false), (1, false), (9, true)]] [[(0, false), (1, false), (3, false)]]).gamma ≠ some 1 := by
  have hb : bothValid [((0 : ℝ), false), (1, false), (3, false)] [((0 : ℝ), false), (1, false), (9, true)] = [(0, 0), (1, 1)] := by
    simp [bothValid]
  have hc1 : compressed [((0 : ℝ), false), (1, false), (9, true)] = [0, 1] := by simp [compressed]
  have hc2 : compressed [((0 : ℝ), false), (1, false), (3, false)] = [0, 1, 3] := by simp [compressed]
  have h1 : Spec.ss [(0 : ℝ), 1] = 1 / 2 := by norm_num [Spec.ss, Spec.mean]
  constructor
  · rw [(c86_correlation _ _).1, hb]
    simp only [List.map_cons, List.map_nil, h1]
    norm_num
    unfold Spec.pearson
    rw [(dev_ss _).1, (dev_ss _).2]
    simp only [List.map_cons, List.map_nil, h1]
    rw [Real.mul_self_sqrt (by norm_num)]
    norm_num [Spec.dev, Spec.mean]
  · have hs : Spec.std [(0 : ℝ), 1] ≠ 0 := (std_pos_iff _ (by simp)).2 (by rw [h1]; norm_num)
    rw [(c86_gamma_bias _ _ (by rw [hc1]; simp) (by rw [hc2]; simp) (by rw [hc1]; exact hs)).1, hc1, hc2]
    simp only [ne_eq, Option.some.injEq]
    rw [div_eq_one_iff_eq hs]
    intro h
    have := congrArg (fun x => x ^ 2) h
    unfold Spec.std at this
    rw [Real.sq_sqrt (div_nonneg (ss_nonneg _) (by norm_num)), Real.sq_sqrt (div_nonneg (ss_nonneg _) (by norm_num))] at this
    norm_num [Spec.ss, Spec.mean] at this

/-- The hypotheses of the theorems above are met. -/
example : 1 < (compressed [((0 : ℝ), false), (1, false), (9, true)]).length ∧
    Spec.std (compressed [((0 : ℝ), false), (1, false), (9, true)]) ≠ 0 := by
  have hc1 : compressed [((0 : ℝ), false), (1, false), (9, true)] = [0, 1] := by simp [compressed]
  rw [hc1]
  exact ⟨by simp, (std_pos_iff _ (by simp)).2 (by norm_num [Spec.ss, Spec.mean])⟩
example : ∃ c s, flag 2 0 = some (c, s) := by
  have h1 : Real.sqrt (1 + 2 * (2 - 2 * 0)) > 1 / 10000 := by
    apply Real.lt_sqrt_of_sq_lt
    norm_num
  unfold flag
  simp only
  rw [if_pos h1]
  exact ⟨_, _, rfl⟩

/-- **C86**: with a reference of no spread neither gamma nor bias is a number: the element is masked. -/
theorem c86_constant_reference (ref d : MArr ℝ) (h : 1 < (compressed ref).length) (h' : 1 < (compressed d).length)
    (hs : Spec.std (compressed ref) = 0) : (point [ref] [d]).gamma = none := by
  unfold point
  simp only [sigma_eq ref h, sigma_eq d h', mdiv, if_pos hs]

example : Spec.std (compressed [((2 : ℝ), false), (2, false)]) = 0 := by
  simp [compressed, Spec.std, Spec.ss, Spec.mean]

end Cis.Plot
