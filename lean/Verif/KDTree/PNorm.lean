import Verif.KDTree.Lemmas2
import Mathlib.Algebra.BigOperators.Fin
import Mathlib.Algebra.Order.BigOperators.Group.Finset
import Mathlib.Analysis.SpecialFunctions.Pow.Real
set_option linter.unusedSectionVars false
set_option linter.unusedSimpArgs false
/-
Minkowski norms (kdtree.py:25-80).
-/
namespace Cis.KDTree
variable {K : Type} [Field K] [LinearOrder K] [IsStrictOrderedRing K] {m : Nat}

/-- The argument `p` of `minkowski_distance_p`: infinity, or a finite exponent given by the functions `t ↦ t ** p` and
`t ↦ t ** (1. / p)` (for `p == 1` the code skips both powers, i.e. they are the identity, kdtree.py:51,77). -/
inductive PNorm (K : Type) where
  | inf
  | fin (pow root : K → K)

/-- What is needed of the two functions on non-negative arguments. -/
def PNorm.Valid : PNorm K → Prop
  | .inf => True
  | .fin pow root => (∀ a b, 0 ≤ a → a ≤ b → pow a ≤ pow b) ∧ pow 0 = 0 ∧
      (∀ a b, 0 ≤ a → a < b → root a < root b) ∧ (∀ a, 0 ≤ a → root (pow a) = a)

/-- `minkowski_distance_p(x, y, p)` (kdtree.py:25-54); `np.amax` of the non-negative values `|y - x|`. -/
def PNorm.distP (P : PNorm K) (x y : Pt m K) : K :=
  match P with
  | .inf => (List.finRange m).foldl (fun a i => max a |y i - x i|) 0
  | .fin pow _ => ∑ i, pow |y i - x i|

/-- The last step of `minkowski_distance` (kdtree.py:77-80). -/
def PNorm.root (P : PNorm K) (d : K) : K :=
  match P with
  | .inf => d
  | .fin _ root => root d

/-- `minkowski_distance(x, y, p)` (kdtree.py:57-80). -/
def PNorm.dist (P : PNorm K) (x y : Pt m K) : K := P.root (P.distP x y)

theorem foldl_max_mono {β : Type} (f g : β → K) (l : List β) (a b : K) (hab : a ≤ b) (h : ∀ i ∈ l, f i ≤ g i) :
    l.foldl (fun a i => max a (f i)) a ≤ l.foldl (fun a i => max a (g i)) b := by
  induction l generalizing a b with
  | nil => exact hab
  | cons x t ih => exact ih _ _ (max_le_max hab (h x (by simp))) (fun i hi => h i (by simp [hi]))

theorem foldl_max_le_of {β : Type} (f : β → K) (l : List β) (a c : K) (ha : a ≤ c) (h : ∀ i ∈ l, f i ≤ c) :
    l.foldl (fun a i => max a (f i)) a ≤ c := by
  induction l generalizing a with
  | nil => exact ha
  | cons x t ih => exact ih _ (max_le ha (h x (by simp))) (fun i hi => h i (by simp [hi]))

theorem PNorm.pow_nonneg {pow root : K → K} (h : (PNorm.fin pow root).Valid) {a : K} (ha : 0 ≤ a) : 0 ≤ pow a := by
  have := h.1 0 a le_rfl ha; rwa [h.2.1] at this

theorem PNorm.distP_nonneg {P : PNorm K} (h : P.Valid) (x y : Pt m K) : 0 ≤ P.distP x y := by
  cases P with
  | inf => exact foldl_max_le_init (fun i => |y i - x i|) (List.finRange m) 0
  | fin pow root => exact Finset.sum_nonneg (fun i _ => PNorm.pow_nonneg h (abs_nonneg _))

theorem PNorm.root_lt {P : PNorm K} (h : P.Valid) {a b : K} (ha : 0 ≤ a) (hab : a < b) : P.root a < P.root b := by
  cases P with
  | inf => exact hab
  | fin pow root => exact h.2.2.1 a b ha hab

theorem PNorm.root_le {P : PNorm K} (h : P.Valid) {a b : K} (ha : 0 ≤ a) (hab : a ≤ b) : P.root a ≤ P.root b := by
  rcases eq_or_lt_of_le hab with rfl | h'
  · exact le_rfl
  · exact le_of_lt (PNorm.root_lt h ha h')

theorem PNorm.distP_mono {P : PNorm K} (h : P.Valid) (x y u v : Pt m K) (hle : ∀ i, |y i - x i| ≤ |v i - u i|) :
    P.distP x y ≤ P.distP u v := by
  cases P with
  | inf => exact foldl_max_mono _ _ _ _ _ le_rfl (fun i _ => hle i)
  | fin pow root => exact Finset.sum_le_sum (fun i _ => h.1 _ _ (abs_nonneg _) (hle i))

/-- Each `minkowski_distance` is a `Metric`, so every theorem about `Metric` holds for it. -/
def PNorm.toMetric (P : PNorm K) (h : P.Valid) : Metric m K where
  norm v := P.root (P.distP 0 v)
  mono u v hu huv := by
    apply PNorm.root_le h (PNorm.distP_nonneg h _ _)
    apply PNorm.distP_mono h
    intro i
    simp only [Pi.zero_apply, sub_zero]
    rw [abs_of_nonneg (hu i), abs_of_nonneg (le_trans (hu i) (huv i))]
    exact huv i

theorem PNorm.toMetric_dist (P : PNorm K) (h : P.Valid) (x y : Pt m K) : (P.toMetric h).dist x y = P.dist x y := by
  cases P <;> simp [Metric.dist, PNorm.toMetric, PNorm.dist, PNorm.distP, abs_abs]

/-- `p == 1`. -/
def PNorm.one : PNorm K := .fin id id
theorem PNorm.one_valid : (PNorm.one : PNorm K).Valid :=
  ⟨fun _ _ _ h => h, rfl, fun _ _ _ h => h, fun _ _ => rfl⟩

/-- A finite real exponent `p` (with the special case `p == 1` taken out, kdtree.py:51-54,77-80). -/
noncomputable def PNorm.real (p : ℝ) : PNorm ℝ := if p = 1 then PNorm.one else .fin (fun t => t ^ p) (fun t => t ^ (1 / p))

theorem PNorm.real_valid (p : ℝ) (hp : 1 ≤ p) : (PNorm.real p).Valid := by
  unfold PNorm.real
  split
  · exact PNorm.one_valid
  · have hp0 : 0 < p := by linarith
    refine ⟨fun a b ha hab => Real.rpow_le_rpow ha hab hp0.le, Real.zero_rpow hp0.ne', ?_, ?_⟩
    · intro a b ha hab
      exact Real.rpow_lt_rpow ha hab (by positivity)
    · intro a ha
      simp only [← Real.rpow_mul ha]
      rw [mul_one_div_cancel hp0.ne', Real.rpow_one]

/-- The distance for a real exponent `p ≥ 1` is the textbook formula (also at `p = 1`). -/
theorem PNorm.real_dist (p : ℝ) (hp : 1 ≤ p) (x y : Pt m ℝ) :
    (PNorm.real p).dist x y = (∑ i, |y i - x i| ^ p) ^ (1 / p) := by
  unfold PNorm.real
  split
  · rename_i h; subst h; simp [PNorm.one, PNorm.dist, PNorm.root, PNorm.distP]
  · rfl

end Cis.KDTree
