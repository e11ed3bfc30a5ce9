import Verif.Fp.Round
import Verif.Colloc.Model
set_option linter.unusedSectionVars false
set_option linter.unusedSimpArgs false
/-!
Properties C134 and C135: what rounding does to the separations of a collocation and to the mean of the selected values. Model in double
precision of the checks of altitude and pressure (cis/collocation/col_implementations.py:298-311), of the nearest neighbour kernels
(480-526) and of the `mean` kernel (365-380). The exact versions are in `Colloc/Model.lean`.

Contract of numpy: a sum is made of rounded additions of two numbers, in an order and grouping that depend on the number of values and the
layout of the array, here left open; the mean is the rounded quotient of the sum and the number of values.
-/
namespace Cis.Fp.Kernel
open Cis.Fp

/-- `np.abs(points.altitude - ref_point.altitude) < self.a_sep` (col_implementations.py:301-303) for one point. -/
def altCheck (rnd : ℚ → ℚ) (a p r : ℚ) : Bool := decide (|rnd (p - r)| < a)

/-- The check of pressures (col_implementations.py:305-311) for one point. -/
def presCheck (rnd : ℚ → ℚ) (q p r : ℚ) : Bool :=
  (decide (rnd (r / p) < q) && decide (p ≤ r)) || (decide (rnd (p / r) < q) && decide (p > r))

/-- The loop of the nearest neighbour kernels (col_implementations.py:480-556): the first point, replaced by each later one whose
(rounded) separation is strictly less. -/
def nearest (sep : ℚ → ℚ) : List ℚ → Option ℚ
  | [] => none
  | first :: rest => some (rest.foldl (fun near p => if sep near > sep p then p else near) first)

/-- `nn_altitude` (col_implementations.py:484-502): the separation, rounded. -/
def altSep (rnd : ℚ → ℚ) (r p : ℚ) : ℚ := |rnd (r - p)|

/-- What a sum of values can be: values are added two by two, each result rounded, in some order. -/
inductive Sums (rnd : ℚ → ℚ) : List ℚ → ℚ → Prop
  | nil : Sums rnd [] 0
  | one (x : ℚ) : Sums rnd [x] x
  | add {l k : List ℚ} {a b : ℚ} : Sums rnd l a → Sums rnd k b → Sums rnd (l ++ k) (rnd (a + b))
  | perm {l k : List ℚ} {a : ℚ} : l.Perm k → Sums rnd l a → Sums rnd k a

/-- What the `mean` kernel (col_implementations.py:365-380) can give. -/
def Means (rnd : ℚ → ℚ) (l : List ℚ) (m : ℚ) : Prop := ∃ s, Sums rnd l s ∧ m = rnd (s / l.length)

/-! ### Specification -/

/-- Pressures within a factor of each other. -/
def Spec.PresWithin (q p r : ℚ) : Prop := r / p < q ∧ p / r < q

/-- The mean. -/
def Spec.mean (l : List ℚ) : ℚ := l.sum / l.length

/-- The mean magnitude. -/
def Spec.magnitude (l : List ℚ) : ℚ := (l.map abs).sum / l.length

/-! ### Separations -/

theorem abs_rnd_ge {rnd : ℚ → ℚ} (h : Rounds rnd) {x a : ℚ} (ha : IsFloat a) (hx : a ≤ |x|) : a ≤ |rnd x| := by
  rcases le_abs.1 hx with h1 | h1
  · exact le_trans (h.float_le ha h1) (le_abs_self _)
  · have := h.le_float ha.neg (x := x) (by linarith)
    exact le_trans (by linarith) (neg_le_abs _)

theorem abs_rnd_le {rnd : ℚ → ℚ} (h : Rounds rnd) {x a : ℚ} (ha : IsFloat a) (hx : |x| ≤ a) : |rnd x| ≤ a := by
  rw [abs_le] at hx ⊢
  exact ⟨h.float_le ha.neg hx.1, h.le_float ha hx.2⟩

/-- **C134**: rounding never lets a point in that is not closer than the separation. -/
theorem c134_altitude_sound (rnd : ℚ → ℚ) (h : Rounds rnd) (a p r : ℚ) (ha : IsFloat a) (hc : altCheck rnd a p r = true) : |p - r| < a := by
  unfold altCheck at hc
  rw [decide_eq_true_eq] at hc
  by_contra hle
  exact absurd (abs_rnd_ge h ha (not_lt.1 hle)) (not_le.2 hc)

/-- **C134**: a point is taken if some number of double precision is not less than its distance but less than the separation; so it is
if its distance is less by a relative `2^-53`. -/
theorem c134_altitude (rnd : ℚ → ℚ) (h : Rounds rnd) (a p r : ℚ) :
    ((∃ y, IsFloat y ∧ |p - r| ≤ y ∧ y < a) → altCheck rnd a p r = true) ∧
    (|p - r| * (1 + 2 ^ (-53 : ℤ)) < a → altCheck rnd a p r = true) := by
  unfold altCheck
  rw [decide_eq_true_eq]
  constructor
  · rintro ⟨y, hy, h1, h2⟩
    exact lt_of_le_of_lt (abs_rnd_le h hy h1) h2
  · intro h1
    have h2 := h.rel (p - r)
    have h3 := abs_sub_abs_le_abs_sub (rnd (p - r)) (p - r)
    linarith

/-- **C134**: with IEEE 754's rounding the check is the same from both sides. -/
theorem c134_symmetric (a p r : ℚ) : altCheck double a p r = altCheck double a r p := by
  unfold altCheck
  rw [← neg_sub r p, double_neg, abs_neg]

/-- **C134**, pressures: rounding never lets a point in whose pressure is not within the factor. -/
theorem c134_pressure_sound (rnd : ℚ → ℚ) (h : Rounds rnd) (q p r : ℚ) (hq : IsFloat q) (hp : 0 < p) (hr : 0 < r)
    (hc : presCheck rnd q p r = true) : Spec.PresWithin q p r := by
  unfold presCheck at hc
  simp only [Bool.or_eq_true, Bool.and_eq_true, decide_eq_true_eq] at hc
  have key : ∀ x, rnd x < q → x < q := by
    intro x hx
    by_contra hle
    exact absurd (h.float_le hq (not_lt.1 hle)) (not_le.2 hx)
  rcases hc with ⟨h1, h2⟩ | ⟨h1, h2⟩
  · have h3 := key _ h1
    refine ⟨h3, lt_of_le_of_lt ?_ h3⟩
    rw [div_le_div_iff₀ hr hp]; nlinarith
  · have h3 := key _ h1
    refine ⟨lt_of_le_of_lt ?_ h3, h3⟩
    rw [div_le_div_iff₀ hp hr]; nlinarith

/-- **C134**, pressures: a point is taken if its pressure is within the factor less a relative `2^-53`. -/
theorem c134_pressure (rnd : ℚ → ℚ) (h : Rounds rnd) (q p r : ℚ) (hp : 0 < p) (hr : 0 < r)
    (h1 : r / p * (1 + 2 ^ (-53 : ℤ)) < q) (h2 : p / r * (1 + 2 ^ (-53 : ℤ)) < q) : presCheck rnd q p r = true := by
  have key : ∀ x, 0 < x → x * (1 + 2 ^ (-53 : ℤ)) < q → rnd x < q := by
    intro x hx hlt
    have := h.rel x
    rw [abs_of_pos hx] at this
    have := (abs_le.1 this).2
    linarith
  unfold presCheck
  simp only [Bool.or_eq_true, Bool.and_eq_true, decide_eq_true_eq]
  rcases le_or_gt p r with hle | hgt
  · exact Or.inl ⟨key _ (by positivity) h1, hle⟩
  · exact Or.inr ⟨key _ (by positivity) h2, hgt⟩

theorem nearest_spec (sep : ℚ → ℚ) (l : List ℚ) (x : ℚ) (h : nearest sep l = some x) : x ∈ l ∧ ∀ y ∈ l, sep x ≤ sep y := by
  cases l with
  | nil => cases h
  | cons f t =>
    simp only [nearest, Option.some.injEq] at h
    subst h
    have : ∀ (t : List ℚ) (f : ℚ), (t.foldl (fun near p => if sep near > sep p then p else near) f = f ∨
        t.foldl (fun near p => if sep near > sep p then p else near) f ∈ t) ∧
        sep (t.foldl (fun near p => if sep near > sep p then p else near) f) ≤ sep f ∧
        ∀ y ∈ t, sep (t.foldl (fun near p => if sep near > sep p then p else near) f) ≤ sep y := by
      intro t
      induction t with
      | nil => intro f; simp
      | cons a t ih =>
        intro f
        simp only [List.foldl_cons, List.mem_cons]
        obtain ⟨i1, i2, i3⟩ := ih (if sep f > sep a then a else f)
        generalize t.foldl (fun near p => if sep near > sep p then p else near) (if sep f > sep a then a else f) = z at *
        by_cases hc : sep f > sep a
        · rw [if_pos hc] at i1 i2
          refine ⟨?_, by linarith, ?_⟩
          · rcases i1 with e | e
            · exact Or.inr (Or.inl e)
            · exact Or.inr (Or.inr e)
          · rintro y (rfl | hy)
            · exact i2
            · exact i3 y hy
        · rw [if_neg hc] at i1 i2
          refine ⟨?_, i2, ?_⟩
          · rcases i1 with e | e
            · exact Or.inl e
            · exact Or.inr (Or.inr e)
          · rintro y (rfl | hy)
            · linarith
            · exact i3 y hy
    obtain ⟨a, b, c⟩ := this t f
    refine ⟨?_, ?_⟩
    · rcases a with e | e
      · rw [e]; simp
      · exact List.mem_cons_of_mem _ e
    · intro y hy
      rcases List.mem_cons.1 hy with rfl | hy
      · exact b
      · exact c y hy

/-- **C134**, nearest neighbour: the point taken is one of the points, and no other is closer by more than a relative `2^-51`. -/
theorem c134_nearest (rnd : ℚ → ℚ) (h : Rounds rnd) (r : ℚ) (l : List ℚ) (x : ℚ) (hx : nearest (altSep rnd r) l = some x) :
    x ∈ l ∧ ∀ y ∈ l, |r - x| ≤ (1 + 2 ^ (-51 : ℤ)) * |r - y| := by
  obtain ⟨h1, h2⟩ := nearest_spec _ _ _ hx
  refine ⟨h1, fun y hy => ?_⟩
  have h3 := h2 y hy
  unfold altSep at h3
  have a := h.rel (r - x)
  have b := h.rel (r - y)
  have a1 := abs_sub_abs_le_abs_sub (r - x) (rnd (r - x))
  have b1 := abs_sub_abs_le_abs_sub (rnd (r - y)) (r - y)
  rw [abs_sub_comm (r - x)] at a1
  have p := abs_nonneg (r - y)
  generalize |r - x| = X at *
  generalize |r - y| = Y at *
  norm_num at *
  linarith

/-- **C134**, nearest neighbour: there is one if there are points. -/
theorem c134_nearest_some (sep : ℚ → ℚ) (l : List ℚ) : nearest sep l = none ↔ l = [] := by
  cases l <;> simp [nearest]

/-- C134 violated: a point closer than the separation is left out: altitudes 1 and `2^-60`, separation 1. -/
theorem c134_altitude_violated (rnd : ℚ → ℚ) (h : Rounds rnd) :
    IsFloat (2 ^ (-60 : ℤ)) ∧ |(1 : ℚ) - 2 ^ (-60 : ℤ)| < 1 ∧ altCheck rnd 1 1 (2 ^ (-60 : ℤ)) = false := by
  refine ⟨⟨1, -60, by norm_num, by norm_num⟩, by rw [abs_of_pos (by norm_num)]; norm_num, ?_⟩
  unfold altCheck
  have : rnd (1 - 2 ^ (-60 : ℤ)) = (2 ^ 53 : ℤ) * 2 ^ (-53 : ℤ) :=
    h.eq (by norm_num) (by norm_num) (by push_cast; rw [abs_lt]; norm_num)
  rw [this]
  push_cast
  norm_num

/-- C134 violated: the farther of two points is taken for the nearest if it comes first. -/
theorem c134_nearest_violated (rnd : ℚ → ℚ) (h : Rounds rnd) :
    nearest (altSep rnd 1) [0, 2 ^ (-60 : ℤ)] = some 0 ∧ |(1 : ℚ) - 2 ^ (-60 : ℤ)| < |(1 : ℚ) - 0| := by
  have : rnd (1 - 2 ^ (-60 : ℤ)) = (2 ^ 53 : ℤ) * 2 ^ (-53 : ℤ) :=
    h.eq (by norm_num) (by norm_num) (by push_cast; rw [abs_lt]; norm_num)
  have h1 : rnd (1 - 0) = 1 := by rw [sub_zero]; exact h.id (by simpa using isFloat_int 1 (by norm_num))
  refine ⟨?_, by rw [abs_of_pos (by norm_num), abs_of_pos (by norm_num)]; norm_num⟩
  unfold nearest altSep
  simp only [List.foldl_cons, List.foldl_nil]
  rw [this, h1]
  push_cast
  norm_num

/-! ### Means -/

theorem Sums.float {rnd : ℚ → ℚ} (h : Rounds rnd) {l : List ℚ} {a : ℚ} (hs : Sums rnd l a) (hl : ∀ x ∈ l, IsFloat x) : IsFloat a := by
  induction hs with
  | nil => exact isFloat_zero
  | one x => exact hl x (by simp)
  | add _ _ _ _ => exact (h _).1
  | perm hp _ ih => exact ih (fun x hx => hl x (hp.mem_iff.1 hx))

theorem abs_sum_nonneg (l : List ℚ) : 0 ≤ (l.map abs).sum := by
  apply List.sum_nonneg
  intro x hx
  obtain ⟨y, -, rfl⟩ := List.mem_map.1 hx
  exact abs_nonneg y

theorem abs_sum_le (l : List ℚ) : |l.sum| ≤ (l.map abs).sum := by
  induction l with
  | nil => simp
  | cons a t ih =>
    simp only [List.sum_cons, List.map_cons]
    exact le_trans (abs_add_le _ _) (by linarith)

/-- The error of a sum, whatever the order. -/
theorem Sums.error {rnd : ℚ → ℚ} (h : Rounds rnd) {l : List ℚ} {a : ℚ} (hs : Sums rnd l a) (hl : ∀ x ∈ l, IsFloat x) :
    |a - l.sum| ≤ ((1 + 2 ^ (-53 : ℤ)) ^ l.length - 1) * (l.map abs).sum := by
  induction hs with
  | nil => simp
  | one x =>
    simp only [List.sum_singleton, sub_self, abs_zero, List.length_singleton, pow_one, List.map_singleton]
    have := abs_nonneg x
    positivity
  | @add l k a b hs1 hs2 ih1 ih2 =>
    have f1 : ∀ x ∈ l, IsFloat x := fun x hx => hl x (by simp [hx])
    have f2 : ∀ x ∈ k, IsFloat x := fun x hx => hl x (by simp [hx])
    have i1 := ih1 f1
    have i2 := ih2 f2
    have fa := hs1.float h f1
    have fb := hs2.float h f2
    have s1 := abs_sum_nonneg l
    have s2 := abs_sum_nonneg k
    have t1 := abs_sum_le l
    have t2 := abs_sum_le k
    rw [List.sum_append, List.map_append, List.sum_append, List.length_append]
    by_cases hl0 : l.length = 0
    · have : l = [] := List.length_eq_zero_iff.1 hl0
      subst this
      have ha : a = 0 := by
        have := i1; simp at this; exact this
      rw [ha, zero_add, h.id fb]
      simpa using i2
    by_cases hk0 : k.length = 0
    · have : k = [] := List.length_eq_zero_iff.1 hk0
      subst this
      have hb : b = 0 := by
        have := i2; simp at this; exact this
      rw [hb, add_zero, h.id fa]
      simpa using i1
    have hu : (0 : ℚ) < 2 ^ (-53 : ℤ) := by positivity
    have hrel := h.rel (a + b)
    generalize (2 : ℚ) ^ (-53 : ℤ) = u at *
    have hone : (1 : ℚ) ≤ 1 + u := by linarith
    have p1 : (1 + u) ^ l.length ≤ (1 + u) ^ (l.length + k.length - 1) := pow_le_pow_right₀ hone (by omega)
    have p2 : (1 + u) ^ k.length ≤ (1 + u) ^ (l.length + k.length - 1) := pow_le_pow_right₀ hone (by omega)
    have p3 : (1 + u) ^ (l.length + k.length) = (1 + u) * (1 + u) ^ (l.length + k.length - 1) := by
      rw [← pow_succ']; congr 1; omega
    rw [p3]
    generalize (1 + u) ^ (l.length + k.length - 1) = P at *
    have j1 : |a - l.sum| ≤ (P - 1) * (l.map abs).sum := le_trans i1 (mul_le_mul_of_nonneg_right (by linarith) s1)
    have j2 : |b - k.sum| ≤ (P - 1) * (k.map abs).sum := le_trans i2 (mul_le_mul_of_nonneg_right (by linarith) s2)
    generalize (l.map abs).sum = A at *
    generalize (k.map abs).sum = B at *
    have j3 : |a + b| ≤ P * (A + B) := by
      have : a + b = (a - l.sum) + (b - k.sum) + l.sum + k.sum := by ring
      have k1 := abs_add_le (a - l.sum + (b - k.sum) + l.sum) k.sum
      have k2 := abs_add_le (a - l.sum + (b - k.sum)) l.sum
      have k3 := abs_add_le (a - l.sum) (b - k.sum)
      rw [this]
      nlinarith
    have j4 : |rnd (a + b) - (l.sum + k.sum)| ≤ |rnd (a + b) - (a + b)| + (|a - l.sum| + |b - k.sum|) := by
      have : rnd (a + b) - (l.sum + k.sum) = (rnd (a + b) - (a + b)) + ((a - l.sum) + (b - k.sum)) := by ring
      rw [this]
      exact le_trans (abs_add_le _ _) (by have := abs_add_le (a - l.sum) (b - k.sum); linarith)
    have j5 : u * |a + b| ≤ u * (P * (A + B)) := mul_le_mul_of_nonneg_left j3 hu.le
    have : ((1 + u) * P - 1) * (A + B) = u * (P * (A + B)) + ((P - 1) * A + (P - 1) * B) := by ring
    rw [this]
    linarith
  | @perm l k a hp hs ih =>
    rw [← hp.sum_eq, ← (hp.map abs).sum_eq, ← hp.length_eq]
    exact ih (fun x hx => hl x (hp.mem_iff.1 hx))

theorem pow_small (n : Nat) (hn : n ≤ 2 ^ 50) : ((1 : ℚ) + 2 ^ (-53 : ℤ)) ^ n ≤ 1 + n * 2 ^ (-52 : ℤ) := by
  induction n with
  | zero => simp
  | succ n ih =>
    have ih := ih (by omega)
    have hnq : (n : ℚ) ≤ 2 ^ 50 := by exact_mod_cast (by omega : n ≤ 2 ^ 50)
    rw [pow_succ]
    push_cast
    have : ((1 : ℚ) + 2 ^ (-53 : ℤ)) ^ n * (1 + 2 ^ (-53 : ℤ)) ≤ (1 + n * 2 ^ (-52 : ℤ)) * (1 + 2 ^ (-53 : ℤ)) :=
      mul_le_mul_of_nonneg_right ih (by positivity)
    refine le_trans this ?_
    clear this ih hn
    norm_num at hnq ⊢
    have hnq : (n : ℚ) ≤ 1125899906842624 := by exact_mod_cast hnq
    linarith

/-- **C135**, mean: in whatever order the values are added, the mean is wrong by at most `(n + 1) 2^-52` times their mean magnitude. -/
theorem c135_mean (rnd : ℚ → ℚ) (h : Rounds rnd) (l : List ℚ) (hl : ∀ x ∈ l, IsFloat x) (hne : l ≠ []) (hn : l.length < 2 ^ 50) (m : ℚ)
    (hm : Means rnd l m) : |m - Spec.mean l| ≤ (l.length + 1) * 2 ^ (-52 : ℤ) * Spec.magnitude l := by
  obtain ⟨s, hs, rfl⟩ := hm
  have he := hs.error h hl
  have hp := pow_small (l.length + 1) (by omega)
  have hlen : (0 : ℚ) < l.length := by
    have := List.length_pos_of_ne_nil hne
    exact_mod_cast this
  have hrel := h.rel (s / l.length)
  have hA := abs_sum_nonneg l
  have hB := abs_sum_le l
  have hu : (0 : ℚ) < 2 ^ (-53 : ℤ) := by positivity
  unfold Spec.mean Spec.magnitude
  rw [pow_succ] at hp
  push_cast at hp
  generalize ((2 : ℚ) ^ (-53 : ℤ)) = u at *
  generalize ((1 : ℚ) + u) ^ l.length = P at *
  generalize (l.map abs).sum = A at *
  generalize hnn : (l.length : ℚ) = n at *
  rw [abs_div, abs_of_pos hlen] at hrel
  have h1 : |s| ≤ P * A := by
    have := abs_sub_abs_le_abs_sub s l.sum
    linarith
  have h2 : |s / n - l.sum / n| ≤ (P - 1) * A / n := by
    rw [← sub_div, abs_div, abs_of_pos hlen]
    exact div_le_div_of_nonneg_right he hlen.le
  have h3 : u * (|s| / n) ≤ u * (P * A / n) := mul_le_mul_of_nonneg_left (div_le_div_of_nonneg_right h1 hlen.le) hu.le
  have h4 : |rnd (s / n) - l.sum / n| ≤ |rnd (s / n) - s / n| + |s / n - l.sum / n| := abs_sub_le _ _ _
  have h5 : u * (P * A / n) + (P - 1) * A / n = (P * (1 + u) - 1) * (A / n) := by ring
  have h6 : (P * (1 + u) - 1) * (A / n) ≤ (n + 1) * 2 ^ (-52 : ℤ) * (A / n) :=
    mul_le_mul_of_nonneg_right (by linarith) (div_nonneg hA hlen.le)
  linarith

/-- **C135**: of values that are not negative the mean is right up to a relative `(n + 1) 2^-52`, and not negative. -/
theorem c135_mean_nonneg (rnd : ℚ → ℚ) (h : Rounds rnd) (l : List ℚ) (hl : ∀ x ∈ l, IsFloat x) (hp : ∀ x ∈ l, 0 ≤ x) (hne : l ≠ [])
    (hn : l.length < 2 ^ 50) (m : ℚ) (hm : Means rnd l m) :
    0 ≤ m ∧ |m - Spec.mean l| ≤ (l.length + 1) * 2 ^ (-52 : ℤ) * Spec.mean l := by
  have e : Spec.magnitude l = Spec.mean l := by
    unfold Spec.magnitude Spec.mean
    congr 2
    conv_rhs => rw [← List.map_id l]
    apply List.map_congr_left
    intro x hx
    rw [abs_of_nonneg (hp x hx)]; rfl
  refine ⟨?_, by have := c135_mean rnd h l hl hne hn m hm; rwa [e] at this⟩
  obtain ⟨s, hs, rfl⟩ := hm
  have : 0 ≤ s := by
    clear hl hne hn e
    induction hs with
    | nil => exact le_rfl
    | one x => exact hp x (by simp)
    | add _ _ i1 i2 => exact h.nonneg (add_nonneg (i1 (fun x hx => hp x (by simp [hx]))) (i2 (fun x hx => hp x (by simp [hx]))))
    | perm hpm _ ih => exact ih (fun x hx => hp x (hpm.mem_iff.1 hx))
  exact h.nonneg (div_nonneg this (Nat.cast_nonneg _))

/-- **C135**: the mean of one value is that value. -/
theorem c135_mean_one (rnd : ℚ → ℚ) (h : Rounds rnd) (x : ℚ) (hx : IsFloat x) (m : ℚ) (hm : Means rnd [x] m) : m = x := by
  obtain ⟨s, hs, rfl⟩ := hm
  have hs' : s = x := by
    have key : ∀ (l : List ℚ) (a : ℚ), Sums rnd l a → (l = [] → a = 0) ∧ ∀ y, l = [y] → IsFloat y → a = y := by
      intro l a hs
      induction hs with
      | nil => simp
      | one z => simp
      | @add l k a b _ _ i1 i2 =>
        constructor
        · intro hnil
          obtain ⟨rfl, rfl⟩ := List.append_eq_nil_iff.1 hnil
          rw [i1.1 rfl, i2.1 rfl, add_zero, h.zero]
        · intro y hy fy
          rcases List.append_eq_singleton_iff.1 hy with ⟨rfl, rfl⟩ | ⟨rfl, rfl⟩
          · rw [i1.1 rfl, i2.2 y rfl fy, zero_add, h.id fy]
          · rw [i1.2 y rfl fy, i2.1 rfl, add_zero, h.id fy]
      | @perm l k a hp _ ih =>
        constructor
        · rintro rfl; exact ih.1 (List.perm_nil.1 hp)
        · rintro y rfl fy; exact ih.2 y (List.perm_singleton.1 hp) fy
    exact (key _ _ hs).2 x rfl hx
  rw [hs']
  simp [h.id hx]

/-- C135 violated: the mean of three equal values (0.1) is greater than all of them. -/
theorem c135_equal_violated : ∃ x m : ℚ, x = double (1 / 10) ∧ Means double [x, x, x] m ∧ x < m := by
  have hx : double (1 / 10) = 7205759403792794 * 2 ^ (-56 : ℤ) := by
    have := double_rounds.eq (x := 1 / 10) (n := 7205759403792794) (j := -56) (by norm_num) (by norm_num) (by rw [abs_lt]; norm_num)
    simpa using this
  have f : IsFloat (7205759403792794 * 2 ^ (-56 : ℤ)) := ⟨7205759403792794, -56, by norm_num, by norm_num⟩
  have s2 : double (7205759403792794 * 2 ^ (-56 : ℤ) + 7205759403792794 * 2 ^ (-56 : ℤ)) = 7205759403792794 * 2 ^ (-55 : ℤ) := by
    have := double_rounds.id (x := 7205759403792794 * 2 ^ (-55 : ℤ)) ⟨7205759403792794, -55, by norm_num, by norm_num⟩
    rw [← this]; congr 1; norm_num
  have s3 : double (7205759403792794 * 2 ^ (-55 : ℤ) + 7205759403792794 * 2 ^ (-56 : ℤ)) = 5404319552844596 * 2 ^ (-54 : ℤ) := by
    rw [double_eq (e := -2) (by norm_num) (by norm_num)]
    have hfl : ⌊((7205759403792794 : ℚ) * 2 ^ (-55 : ℤ) + 7205759403792794 * 2 ^ (-56 : ℤ)) / 2 ^ ((-2 : ℤ) - 52)⌋ = 5404319552844595 := by
      rw [Int.floor_eq_iff]; norm_num
    have : halfEven (((7205759403792794 : ℚ) * 2 ^ (-55 : ℤ) + 7205759403792794 * 2 ^ (-56 : ℤ)) / 2 ^ ((-2 : ℤ) - 52)) = 5404319552844596 := by
      unfold halfEven
      rw [hfl]
      norm_num
    rw [this]; norm_num
  refine ⟨_, double (5404319552844596 * 2 ^ (-54 : ℤ) / 3), rfl, ⟨5404319552844596 * 2 ^ (-54 : ℤ), ?_, by norm_num⟩, ?_⟩
  · rw [hx]
    have := (((Sums.one (7205759403792794 * 2 ^ (-56 : ℤ))).add (Sums.one (7205759403792794 * 2 ^ (-56 : ℤ)))).add
      (Sums.one (7205759403792794 * 2 ^ (-56 : ℤ))) : Sums double _ _)
    rw [s2, s3] at this
    exact this
  · rw [hx]
    have := double_rounds.eq (x := 5404319552844596 * 2 ^ (-54 : ℤ) / 3) (n := 7205759403792795) (j := -56) (by norm_num) (by norm_num)
      (by rw [abs_lt]; norm_num)
    rw [this]; norm_num

/-- C135 violated: the mean depends on the order of the points. -/
theorem c135_order_violated (rnd : ℚ → ℚ) (h : Rounds rnd) : ∃ (l k : List ℚ) (a b : ℚ), l.Perm k ∧ (∀ x ∈ l, IsFloat x) ∧
    l.foldl (fun s x => rnd (s + x)) 0 = a ∧ k.foldl (fun s x => rnd (s + x)) 0 = b ∧ rnd (a / 4) ≠ rnd (b / 4) := by
  have i : ∀ n : ℤ, |n| ≤ 2 ^ 53 → rnd n = n := fun n hn => h.id (isFloat_int n hn)
  have i1 : rnd 1 = 1 := by simpa using i 1 (by norm_num)
  have i2 : rnd 2 = 2 := by simpa using i 2 (by norm_num)
  have i3 : rnd 3 = 3 := by simpa using i 3 (by norm_num)
  have f54 : IsFloat (2 ^ 54) := ⟨1, 54, by norm_num, by norm_num⟩
  have big : rnd (2 ^ 54) = 2 ^ 54 := h.id f54
  have big1 : rnd (2 ^ 54 + 1) = 2 ^ 54 := by
    have h1 := (h (2 ^ 54 + 1)).2 _ f54
    have h2 := h.float_le f54 (x := 2 ^ 54 + 1) (by norm_num)
    have h3 : (2 : ℚ) ^ (54 : ℤ) ≤ |rnd (2 ^ 54 + 1)| := le_trans (by exact_mod_cast h2) (le_abs_self _)
    obtain ⟨n, hn⟩ := (h (2 ^ 54 + 1)).1.multiple h3
    rw [hn] at h1 h2 ⊢
    norm_num at h1 h2 ⊢
    have h4 := (abs_le.1 h1).2
    have a : (4503599627370496 : ℤ) ≤ n := by
      have : (4503599627370496 : ℚ) ≤ n := by linarith
      exact_mod_cast this
    have b : n < 4503599627370497 := by
      have : (n : ℚ) < 4503599627370497 := by linarith
      exact_mod_cast this
    have : n = 4503599627370496 := by omega
    rw [this]; norm_num
  have big3 : rnd (3 + 2 ^ 54) = 2 ^ 54 + 4 := by
    have := h.eq (x := 3 + 2 ^ 54) (n := 2 ^ 52 + 1) (j := 2) (by norm_num) (by norm_num) (by push_cast; rw [abs_lt]; norm_num)
    rw [this]; push_cast; norm_num
  refine ⟨[2 ^ 54, 1, 1, 1], [1, 1, 1, 2 ^ 54], 2 ^ 54, 2 ^ 54 + 4, ?_, ?_, ?_, ?_, ?_⟩
  · exact (List.perm_append_comm (l₁ := [2 ^ 54]) (l₂ := [1, 1, 1]))
  · intro x hx
    simp only [List.mem_cons, List.not_mem_nil, or_false] at hx
    rcases hx with rfl | rfl | rfl | rfl
    · exact f54
    all_goals simpa using isFloat_int 1 (by norm_num)
  · simp only [List.foldl_cons, List.foldl_nil, zero_add, big, big1]
  · simp only [List.foldl_cons, List.foldl_nil, zero_add, i1]
    rw [show (1 : ℚ) + 1 = 2 by norm_num, i2, show (2 : ℚ) + 1 = 3 by norm_num, i3, big3]
  · rw [show (2 : ℚ) ^ 54 / 4 = ((2 ^ 52 : ℤ) : ℚ) by norm_num, show ((2 : ℚ) ^ 54 + 4) / 4 = ((2 ^ 52 + 1 : ℤ) : ℚ) by norm_num,
      i _ (by norm_num), i _ (by norm_num)]
    norm_num

/-- Sums in the order of the values, as for fewer than eight, are among the sums considered. -/
theorem Sums.sequential (rnd : ℚ → ℚ) (l : List ℚ) : Sums rnd l (l.foldl (fun s x => rnd (s + x)) 0) := by
  have : ∀ (t p : List ℚ) (a : ℚ), Sums rnd p a → Sums rnd (p ++ t) (t.foldl (fun s x => rnd (s + x)) a) := by
    intro t
    induction t with
    | nil => intro p a h; simpa using h
    | cons x t ih =>
      intro p a h
      have := ih (p ++ [x]) (rnd (a + x)) (h.add (.one x))
      simpa using this
  simpa using this l [] 0 .nil

example : ∃ m, Means double [1, 2, 4] m ∧ |m - Spec.mean [1, 2, 4]| ≤ 4 * 2 ^ (-52 : ℤ) * Spec.mean [1, 2, 4] := by
  refine ⟨_, ⟨_, Sums.sequential double [1, 2, 4], rfl⟩, ?_⟩
  have := (c135_mean_nonneg double double_rounds [1, 2, 4] (by
    intro x hx
    simp only [List.mem_cons, List.not_mem_nil, or_false] at hx
    rcases hx with rfl | rfl | rfl
    · simpa using isFloat_int 1 (by norm_num)
    · simpa using isFloat_int 2 (by norm_num)
    · simpa using isFloat_int 4 (by norm_num)) (by
    intro x hx
    simp only [List.mem_cons, List.not_mem_nil, or_false] at hx
    rcases hx with rfl | rfl | rfl <;> norm_num) (by simp) (by norm_num) _ ⟨_, Sums.sequential double [1, 2, 4], rfl⟩).2
  norm_num at this ⊢
  exact this

end Cis.Fp.Kernel
