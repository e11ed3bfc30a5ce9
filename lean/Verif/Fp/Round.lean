import Mathlib.Data.Int.Log
import Mathlib.Algebra.Order.Round
import Mathlib.Data.Rat.Floor
import Mathlib.Algebra.Order.Field.Power
import Mathlib.Tactic.Linarith
import Mathlib.Tactic.Ring
import Mathlib.Tactic.FieldSimp
import Mathlib.Tactic.Positivity
set_option linter.unusedSectionVars false
set_option linter.unusedSimpArgs false
/-!
Numbers of double precision, for the properties C132 to C136 about what rounding does to longitudes, grids, separations, means and
times. The numbers of numpy (`float64`) are the rationals `m * 2^e` with `|m| ≤ 2^53`; exponents are unbounded, so overflow, underflow,
infinities, NaN and the sign of zero are left out. The theorems hold for every way to round to a nearest number; `double` is IEEE 754's (ties to
even).
-/
namespace Cis.Fp

/-- A number of double precision. -/
def IsFloat (x : ℚ) : Prop := ∃ m e : ℤ, |m| ≤ 2 ^ 53 ∧ x = m * (2 : ℚ) ^ e

/-- A way to round: the result is a number of double precision, and none is nearer. -/
def Rounds (rnd : ℚ → ℚ) : Prop := ∀ x, IsFloat (rnd x) ∧ ∀ y, IsFloat y → |rnd x - x| ≤ |y - x|

/-- To an integer, ties to even. -/
def halfEven (q : ℚ) : ℤ :=
  if q - ⌊q⌋ < 1 / 2 then ⌊q⌋ else if 1 / 2 < q - ⌊q⌋ then ⌊q⌋ + 1 else if ⌊q⌋ % 2 = 0 then ⌊q⌋ else ⌊q⌋ + 1

/-- IEEE 754: round to nearest, ties to even, for positive numbers: 53 significant bits. -/
def doublePos (x : ℚ) : ℚ := halfEven (x / 2 ^ (Int.log 2 x - 52)) * 2 ^ (Int.log 2 x - 52)

/-- IEEE 754: round to nearest, ties to even. -/
def double (x : ℚ) : ℚ := if x = 0 then 0 else if x < 0 then -doublePos (-x) else doublePos x

theorem IsFloat.neg {x : ℚ} (h : IsFloat x) : IsFloat (-x) := by
  obtain ⟨m, e, hm, rfl⟩ := h
  exact ⟨-m, e, by rwa [abs_neg], by push_cast; ring⟩

theorem isFloat_int (n : ℤ) (h : |n| ≤ 2 ^ 53) : IsFloat n := ⟨n, 0, h, by simp⟩

theorem isFloat_zero : IsFloat 0 := by simpa using isFloat_int 0 (by norm_num)

theorem IsFloat.scale {x : ℚ} (h : IsFloat x) (k : ℤ) : IsFloat (x * 2 ^ k) := by
  obtain ⟨m, e, hm, rfl⟩ := h
  exact ⟨m, e + k, hm, by rw [zpow_add₀ (by norm_num)]; ring⟩

theorem IsFloat.half {x : ℚ} (h : IsFloat x) : IsFloat (x / 2) := by
  have := h.scale (-1)
  rwa [zpow_neg_one, ← div_eq_mul_inv] at this

theorem IsFloat.abs {x : ℚ} (h : IsFloat x) : IsFloat |x| := by
  rcases abs_choice x with e | e <;> rw [e]
  · exact h
  · exact h.neg

/-- A number of double precision not below a power of two in magnitude is a multiple of its unit. -/
theorem IsFloat.multiple {y : ℚ} (h : IsFloat y) {e : ℤ} (he : (2 : ℚ) ^ e ≤ |y|) : ∃ n : ℤ, y = n * (2 : ℚ) ^ (e - 52) := by
  obtain ⟨m, k, hm, rfl⟩ := h
  have hm' : (|m| : ℚ) ≤ 2 ^ (53 : ℤ) := by
    have : ((|m| : ℤ) : ℚ) ≤ ((2 ^ 53 : ℤ) : ℚ) := by exact_mod_cast hm
    push_cast at this
    exact this
  have h2 : (0 : ℚ) < 2 ^ k := by positivity
  rw [abs_mul, abs_of_pos h2] at he
  by_cases hk : e - 52 ≤ k
  · refine ⟨m * 2 ^ (k - (e - 52)).toNat, ?_⟩
    have : (2 : ℚ) ^ k = 2 ^ (k - (e - 52)).toNat * 2 ^ (e - 52) := by
      rw [← zpow_natCast, ← zpow_add₀ (by norm_num)]
      congr 1
      omega
    push_cast
    rw [this]; ring
  · have hk2 : k ≤ e - 53 := by omega
    have h3 : (2 : ℚ) ^ k ≤ 2 ^ (e - 53) := zpow_le_zpow_right₀ (by norm_num) hk2
    have h4 : (2 : ℚ) ^ e = 2 ^ (53 : ℤ) * 2 ^ (e - 53) := by rw [← zpow_add₀ (by norm_num)]; congr 1; omega
    have h5 : (|m| : ℚ) = 2 ^ (53 : ℤ) := by
      apply le_antisymm hm'
      by_contra hlt
      push Not at hlt
      have : (|m| : ℚ) * 2 ^ k < 2 ^ (53 : ℤ) * 2 ^ (e - 53) := by
        calc (|m| : ℚ) * 2 ^ k < 2 ^ (53 : ℤ) * 2 ^ k := by apply mul_lt_mul_of_pos_right hlt h2
          _ ≤ _ := by apply mul_le_mul_of_nonneg_left h3; positivity
      rw [← h4] at this
      linarith
    have h6 : (2 : ℚ) ^ k = 2 ^ (e - 53) := by
      apply le_antisymm h3
      rw [h5, h4] at he
      exact le_of_mul_le_mul_left he (by positivity)
    have hk3 : k = e - 53 := zpow_right_injective₀ (by norm_num) (by norm_num) h6
    have h7 : |m| = 2 ^ 53 := by
      have : ((|m| : ℤ) : ℚ) = ((2 ^ 53 : ℤ) : ℚ) := by push_cast; exact h5
      exact_mod_cast this
    subst hk3
    have h8 : (2 : ℚ) ^ (e - 52) = 2 * 2 ^ (e - 53) := by
      rw [show e - 52 = (e - 53) + 1 by ring, zpow_add_one₀ (by norm_num)]; ring
    rcases abs_choice m with hs | hs
    · refine ⟨2 ^ 52, ?_⟩
      rw [h8, ← hs, h7]; push_cast; ring
    · refine ⟨-2 ^ 52, ?_⟩
      have : m = -2 ^ 53 := by rw [h7] at hs; omega
      rw [h8, this]; push_cast; ring

namespace Rounds
variable {rnd : ℚ → ℚ}

theorem id (h : Rounds rnd) {x : ℚ} (hx : IsFloat x) : rnd x = x := by
  have := (h x).2 x hx
  rw [sub_self, abs_zero] at this
  have := abs_nonpos_iff.1 this
  linarith

theorem zero (h : Rounds rnd) : rnd 0 = 0 := h.id isFloat_zero

theorem mono (h : Rounds rnd) {x y : ℚ} (hxy : x ≤ y) : rnd x ≤ rnd y := by
  by_contra hlt
  push Not at hlt
  have h1 := (h x).2 (rnd y) (h y).1
  have h2 := (h y).2 (rnd x) (h x).1
  rcases eq_or_lt_of_le hxy with rfl | hxy
  · exact lt_irrefl _ hlt
  have h1' : (rnd x - x) ^ 2 ≤ (rnd y - x) ^ 2 := sq_le_sq.2 h1
  have h2' : (rnd y - y) ^ 2 ≤ (rnd x - y) ^ 2 := sq_le_sq.2 h2
  nlinarith [mul_pos (sub_pos.2 hlt) (sub_pos.2 hxy)]

theorem le_float (h : Rounds rnd) {x y : ℚ} (hy : IsFloat y) (hxy : x ≤ y) : rnd x ≤ y := by
  rw [← h.id hy]; exact h.mono hxy

theorem float_le (h : Rounds rnd) {x y : ℚ} (hy : IsFloat y) (hxy : y ≤ x) : y ≤ rnd x := by
  rw [← h.id hy]; exact h.mono hxy

theorem nonneg (h : Rounds rnd) {x : ℚ} (hx : 0 ≤ x) : 0 ≤ rnd x := h.float_le isFloat_zero hx

/-- The error is at most half a unit of the last place. -/
theorem err (h : Rounds rnd) {x : ℚ} {k : ℤ} (hx : |x| ≤ 2 ^ k) : |rnd x - x| ≤ 2 ^ (k - 54) := by
  have hu : (0 : ℚ) < 2 ^ (k - 53) := by positivity
  have h1 := abs_sub_round (x / 2 ^ (k - 53))
  have hq : |x / 2 ^ (k - 53)| ≤ 2 ^ 53 := by
    rw [abs_div, abs_of_pos hu, div_le_iff₀ hu]
    calc |x| ≤ 2 ^ k := hx
      _ = 2 ^ (53 : ℤ) * 2 ^ (k - 53) := by rw [← zpow_add₀ (by norm_num)]; congr 1; omega
      _ = _ := by norm_num
  have hm : |round (x / 2 ^ (k - 53))| ≤ 2 ^ 53 := by
    have : |(round (x / 2 ^ (k - 53)) : ℚ)| < 2 ^ 53 + 1 := by
      have h3 : |(round (x / 2 ^ (k - 53)) : ℚ)| ≤ |x / 2 ^ (k - 53)| + |x / 2 ^ (k - 53) - round (x / 2 ^ (k - 53))| := by
        have := abs_sub_abs_le_abs_sub (round (x / 2 ^ (k - 53)) : ℚ) (x / 2 ^ (k - 53))
        rw [abs_sub_comm (round (x / 2 ^ (k - 53)) : ℚ)] at this
        linarith
      linarith
    have h4 : |round (x / 2 ^ (k - 53))| < 2 ^ 53 + 1 := by exact_mod_cast this
    omega
  have h2 := (h x).2 _ ⟨round (x / 2 ^ (k - 53)), k - 53, hm, rfl⟩
  refine le_trans h2 ?_
  have h5 : (round (x / 2 ^ (k - 53)) : ℚ) * 2 ^ (k - 53) - x = -((x / 2 ^ (k - 53) - round (x / 2 ^ (k - 53))) * 2 ^ (k - 53)) := by
    field_simp; ring
  rw [h5, abs_neg, abs_mul, abs_of_pos hu]
  calc _ ≤ 1 / 2 * (2 : ℚ) ^ (k - 53) := by apply mul_le_mul_of_nonneg_right h1 hu.le
    _ = 2 ^ (k - 54) := by rw [show k - 53 = (k - 54) + 1 by ring, zpow_add_one₀ (by norm_num)]; ring

/-- The relative error is at most `2^-53`. -/
theorem rel (h : Rounds rnd) (x : ℚ) : |rnd x - x| ≤ 2 ^ (-53 : ℤ) * |x| := by
  rcases eq_or_ne x 0 with rfl | hx
  · rw [h.zero]; simp
  have hp : 0 < |x| := abs_pos.2 hx
  have h1 : |x| < 2 ^ (Int.log 2 |x| + 1) := by
    have := Int.lt_zpow_succ_log_self (b := 2) (by norm_num) |x|
    exact_mod_cast this
  have h2 : (2 : ℚ) ^ (Int.log 2 |x|) ≤ |x| := by
    have := Int.zpow_log_le_self (b := 2) (by norm_num) hp
    exact_mod_cast this
  refine le_trans (h.err h1.le) ?_
  rw [show Int.log 2 |x| + 1 - 54 = -53 + Int.log 2 |x| by ring, zpow_add₀ (by norm_num)]
  exact mul_le_mul_of_nonneg_left h2 (by positivity)

/-- Which number is the nearest one. -/
theorem eq (h : Rounds rnd) {x : ℚ} {n j : ℤ} (hn : 2 ^ 52 < n) (hn' : n ≤ 2 ^ 53) (hx : |n * (2 : ℚ) ^ j - x| < 2 ^ (j - 1)) :
    rnd x = n * 2 ^ j := by
  have hf : IsFloat (n * (2 : ℚ) ^ j) := ⟨n, j, by rw [abs_of_pos (by omega)]; exact hn', rfl⟩
  have h1 := (h x).2 _ hf
  have hj : (2 : ℚ) ^ j = 2 * 2 ^ (j - 1) := by rw [show j = (j - 1) + 1 by ring, zpow_add_one₀ (by norm_num)]; ring_nf
  have hp : (0 : ℚ) < 2 ^ (j - 1) := by positivity
  have h2 : |rnd x - n * 2 ^ j| < 2 ^ j := by
    have : rnd x - n * 2 ^ j = (rnd x - x) - (n * 2 ^ j - x) := by ring
    rw [this]
    have := abs_sub (rnd x - x) (n * 2 ^ j - x)
    linarith
  have hnq : (2 ^ 52 + 1 : ℚ) ≤ n := by exact_mod_cast hn
  have h3 : (2 : ℚ) ^ (j + 52) ≤ |rnd x| := by
    have h4 := (abs_lt.1 h2).1
    refine le_trans ?_ (le_abs_self _)
    rw [zpow_add₀ (by norm_num)]
    have : (2 ^ 52 + 1) * (2 : ℚ) ^ j ≤ n * 2 ^ j := mul_le_mul_of_nonneg_right hnq (by positivity)
    have e : (2 : ℚ) ^ (52 : ℤ) = 2 ^ 52 := by norm_num
    rw [e]
    linarith
  obtain ⟨k, hk⟩ := (h x).1.multiple h3
  rw [show j + 52 - 52 = j by ring] at hk
  rw [hk] at h2 ⊢
  rw [← sub_mul, abs_mul, abs_of_pos (by positivity : (0 : ℚ) < 2 ^ j)] at h2
  have h5 : |(k : ℚ) - n| < 1 := by
    by_contra hc
    push Not at hc
    have := mul_le_mul_of_nonneg_right hc (by positivity : (0 : ℚ) ≤ 2 ^ j)
    linarith
  have h6 : |k - n| < 1 := by exact_mod_cast h5
  have : k = n := by
    have := Int.abs_lt_one_iff.1 h6
    omega
  rw [this]

end Rounds

/-! ### IEEE 754 rounds -/

theorem halfEven_near (q : ℚ) (n : ℤ) : |(halfEven q : ℚ) - q| ≤ |(n : ℚ) - q| := by
  have h1 := Int.floor_le q
  have h2 := Int.lt_floor_add_one q
  have hn : (n : ℚ) ≤ ⌊q⌋ ∨ (⌊q⌋ : ℚ) + 1 ≤ n := by
    rcases le_or_gt n ⌊q⌋ with h | h
    · left; exact_mod_cast h
    · right; exact_mod_cast h
  have low : q - ⌊q⌋ ≤ 1 / 2 → |((⌊q⌋ : ℤ) : ℚ) - q| ≤ |(n : ℚ) - q| := by
    intro h
    rw [abs_of_nonpos (by linarith)]
    rcases hn with hn | hn
    · rw [abs_of_nonpos (by linarith)]; linarith
    · rw [abs_of_nonneg (by linarith)]; linarith
  have high : 1 / 2 ≤ q - ⌊q⌋ → |((⌊q⌋ + 1 : ℤ) : ℚ) - q| ≤ |(n : ℚ) - q| := by
    intro h
    push_cast
    rw [abs_of_nonneg (by linarith)]
    rcases hn with hn | hn
    · rw [abs_of_nonpos (by linarith)]; linarith
    · rw [abs_of_nonneg (by linarith)]; linarith
  unfold halfEven
  split_ifs with a b c
  · exact low a.le
  · exact high b.le
  · exact low (by linarith)
  · exact high (by linarith)

theorem doublePos_rounds {x : ℚ} (hx : 0 < x) :
    IsFloat (doublePos x) ∧ ∀ y, IsFloat y → |doublePos x - x| ≤ |y - x| := by
  have h1 : x < 2 ^ (Int.log 2 x + 1) := by
    have := Int.lt_zpow_succ_log_self (b := 2) (by norm_num) x
    exact_mod_cast this
  have h2 : (2 : ℚ) ^ (Int.log 2 x) ≤ x := by
    have := Int.zpow_log_le_self (b := 2) (by norm_num) hx
    exact_mod_cast this
  unfold doublePos
  generalize Int.log 2 x = e at *
  have hu : (0 : ℚ) < 2 ^ (e - 52) := by positivity
  have he : (2 : ℚ) ^ e = 2 ^ 52 * 2 ^ (e - 52) := by
    rw [← zpow_natCast, ← zpow_add₀ (by norm_num)]; congr 1; push_cast; ring
  have he1 : (2 : ℚ) ^ (e + 1) = 2 ^ 53 * 2 ^ (e - 52) := by
    rw [zpow_add_one₀ (by norm_num), he]; ring
  have hq : x = x / 2 ^ (e - 52) * 2 ^ (e - 52) := by field_simp
  have near : ∀ n : ℤ, |(halfEven (x / 2 ^ (e - 52)) : ℚ) * 2 ^ (e - 52) - x| ≤ |(n : ℚ) * 2 ^ (e - 52) - x| := by
    intro n
    have := halfEven_near (x / 2 ^ (e - 52)) n
    have key : ∀ k : ℚ, |k * 2 ^ (e - 52) - x| = |k - x / 2 ^ (e - 52)| * 2 ^ (e - 52) := by
      intro k
      rw [← abs_of_pos hu, ← abs_mul, abs_of_pos hu, sub_mul, ← hq]
    rw [key, key]
    exact mul_le_mul_of_nonneg_right this hu.le
  constructor
  · refine ⟨halfEven (x / 2 ^ (e - 52)), e - 52, ?_, rfl⟩
    have hb1 : (0 : ℚ) ≤ x / 2 ^ (e - 52) := by positivity
    have hb2 : x / 2 ^ (e - 52) < 2 ^ 53 := by rw [div_lt_iff₀ hu, ← he1]; exact h1
    have hf0 : 0 ≤ ⌊x / 2 ^ (e - 52)⌋ := Int.floor_nonneg.2 hb1
    have hf1 : ⌊x / 2 ^ (e - 52)⌋ < 2 ^ 53 := by rw [Int.floor_lt]; push_cast; exact hb2
    unfold halfEven
    split_ifs <;> rw [abs_of_nonneg (by omega)] <;> omega
  · intro y hy
    rcases le_or_gt ((2 : ℚ) ^ e) y with h | h
    · obtain ⟨n, rfl⟩ := hy.multiple (le_trans h (le_abs_self y))
      exact near n
    · refine le_trans (near (2 ^ 52)) ?_
      have e52 : ((2 ^ 52 : ℤ) : ℚ) = 2 ^ 52 := by norm_cast
      rw [e52, ← he, abs_of_nonpos (by linarith), abs_of_nonpos (by linarith)]
      linarith

/-- IEEE 754's rounding is a rounding. -/
theorem double_rounds : Rounds double := by
  intro x
  unfold double
  split_ifs with h0 h1
  · subst h0
    exact ⟨isFloat_zero, fun y _ => by simp⟩
  · obtain ⟨h2, h3⟩ := doublePos_rounds (neg_pos.2 h1)
    refine ⟨h2.neg, fun y hy => ?_⟩
    have := h3 _ hy.neg
    rw [show -doublePos (-x) - x = -(doublePos (-x) - -x) by ring, abs_neg, show y - x = -(-y - -x) by ring, abs_neg]
    exact this
  · exact doublePos_rounds (lt_of_le_of_ne (not_lt.1 h1) (Ne.symm h0))

/-- IEEE 754's rounding of a number of known size. -/
theorem double_eq {x : ℚ} {e : ℤ} (h1 : (2 : ℚ) ^ e ≤ x) (h2 : x < 2 ^ (e + 1)) :
    double x = halfEven (x / 2 ^ (e - 52)) * 2 ^ (e - 52) := by
  have hx : 0 < x := lt_of_lt_of_le (by positivity) h1
  have hl : Int.log 2 x = e := by
    apply le_antisymm
    · have := (Int.lt_zpow_iff_log_lt (b := 2) (by norm_num) hx (x := e + 1)).1 (by exact_mod_cast h2)
      omega
    · exact (Int.zpow_le_iff_le_log (b := 2) (by norm_num) hx).1 (by exact_mod_cast h1)
  unfold double
  rw [if_neg hx.ne', if_neg (not_lt.2 hx.le)]
  unfold doublePos
  rw [hl]

/-- IEEE 754's rounding treats both signs alike. -/
theorem double_neg (x : ℚ) : double (-x) = -double x := by
  unfold double
  rcases lt_trichotomy x 0 with h | h | h
  · rw [if_neg (by linarith), if_neg (by linarith), if_neg (by linarith), if_pos h, neg_neg]
  · subst h; simp
  · rw [if_neg (by linarith), if_pos (by linarith), if_neg (by linarith), if_neg (by linarith), neg_neg]

/-- One tenth is not a number of double precision, and is rounded up. -/
example : double (1 / 10) = 3602879701896397 * 2 ^ (-55 : ℤ) ∧ double (1 / 10) > 1 / 10 := by
  have : double (1 / 10) = (7205759403792794 : ℤ) * (2 : ℚ) ^ (-56 : ℤ) :=
    double_rounds.eq (by norm_num) (by norm_num) (by rw [abs_lt]; norm_num)
  rw [this]
  norm_num

end Cis.Fp
