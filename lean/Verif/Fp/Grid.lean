import Verif.Fp.Round
import Verif.Agg.Model
set_option linter.unusedSectionVars false
set_option linter.unusedSimpArgs false
/-!
Property C133: what rounding does to the grid of an aggregation. Model in double precision of `aggregation_grid_array`
(cis/aggregation/ungridded_aggregator.py:142-149), of the bounds of the coordinate made from it (100-120) and of the cell a number falls in
(cis/collocation/data_index.py:45-92). The exact version is in `Agg/Model.lean`.

Contracts: `np.arange(a, b, d)` has `ceil((b - a) / d)` elements, the difference and the quotient being rounded; its elements are `a`, `a + d` and
`a + i * ((a + d) - a)`, each operation being rounded. `guess_bounds` of iris takes half the rounded differences of the points.
-/
namespace Cis.Fp.Grid
open Cis.Fp

/-- The first point, `start + delta / 2` (ungridded_aggregator.py:144). -/
def first (rnd : ℚ → ℚ) (s d : ℚ) : ℚ := rnd (s + rnd (d / 2))

/-- The number of points of `np.arange(start + delta / 2, end + delta / 2, delta)` (ungridded_aggregator.py:144). -/
def cells (rnd : ℚ → ℚ) (s e d : ℚ) : Nat := ⌈rnd (rnd (first rnd e d - first rnd s d) / d)⌉.toNat

/-- The points of `np.arange`. -/
def point (rnd : ℚ → ℚ) (s d : ℚ) (i : Nat) : ℚ :=
  let a := first rnd s d
  if i = 0 then a
  else if i = 1 then rnd (a + d)
  else rnd (a + rnd (i * rnd (rnd (a + d) - a)))

/-- Half the difference of two points, as in `guess_bounds`. -/
def halfStep (rnd : ℚ → ℚ) (s d : ℚ) (i : Nat) : ℚ := rnd (rnd (point rnd s d (i + 1) - point rnd s d i) * (1 / 2))

/-- The lower bound of cell `i` of `n` cells (ungridded_aggregator.py:116-119). -/
def lower (rnd : ℚ → ℚ) (s d : ℚ) (n i : Nat) : ℚ :=
  if n = 1 then s else rnd (point rnd s d i - halfStep rnd s d (i - 1))

/-- The upper bound of the last of `n` cells (ungridded_aggregator.py:116-119). -/
def upper (rnd : ℚ → ℚ) (s e d : ℚ) (n : Nat) : ℚ :=
  if n = 1 then e else rnd (point rnd s d (n - 1) + halfStep rnd s d (n - 2))

/-- The cell of a number (data_index.py:80-86), -1 for none: `searchsorted(lower, x, side='right') - 1`, which is the number of bounds
that are not greater if they are sorted. -/
def cellOf (rnd : ℚ → ℚ) (s e d x : ℚ) : Int :=
  let n := cells rnd s e d
  if x < upper rnd s e d n then (((List.range n).countP (fun i => decide (lower rnd s d n i ≤ x)) : Nat) : Int) - 1 else -1

/-! ### Specification -/

/-- A grid that was asked for: limits in order, a positive step, at most about four million steps from zero. -/
structure Spec.Sane (s e d : ℚ) : Prop where
  fs : IsFloat s
  fe : IsFloat e
  fd : IsFloat d
  pos : 0 < d
  le : s ≤ e
  bs : |s| ≤ 2 ^ 22 * d
  be : |e| ≤ 2 ^ 22 * d

/-- The number of cells asked for. -/
def Spec.cells (s e d : ℚ) : Int := ⌈(e - s) / d⌉

/-! ### Proofs -/

theorem relBound {rnd : ℚ → ℚ} (h : Rounds rnd) {x B : ℚ} (hx : |x| ≤ B) : |rnd x - x| ≤ B / 2 ^ 53 := by
  have := h.rel x
  refine le_trans this ?_
  rw [zpow_neg, inv_mul_eq_div]
  have e : (2 : ℚ) ^ (53 : ℤ) = 2 ^ 53 := by norm_num
  rw [e]
  exact div_le_div_of_nonneg_right hx (by positivity)

theorem first_near {rnd : ℚ → ℚ} (h : Rounds rnd) {s d : ℚ} (hd : 0 < d) (fd : IsFloat d) (bs : |s| ≤ 2 ^ 22 * d) :
    |first rnd s d - (s + d / 2)| ≤ (2 ^ 22 + 1) * d / 2 ^ 53 ∧ |first rnd s d| ≤ (2 ^ 22 + 1) * d := by
  unfold first
  rw [h.id fd.half]
  have h1 := relBound h (x := s + d / 2) (B := (2 ^ 22 + 1 / 2) * d) (by rw [abs_le] at bs ⊢; constructor <;> linarith)
  rw [abs_le] at bs h1
  constructor
  · rw [abs_le]; norm_num at *; constructor <;> linarith
  · rw [abs_le]; norm_num at *; constructor <;> linarith

theorem quotient_near {rnd : ℚ → ℚ} (h : Rounds rnd) {s e d : ℚ} (g : Spec.Sane s e d) :
    |rnd (rnd (first rnd e d - first rnd s d) / d) - (e - s) / d| ≤ 1 / 2 ^ 27 := by
  obtain ⟨a1, a2⟩ := first_near h g.pos g.fd g.bs
  obtain ⟨b1, b2⟩ := first_near h g.pos g.fd g.be
  have hd := g.pos
  have h1 := relBound h (x := first rnd e d - first rnd s d) (B := (2 ^ 23 + 2) * d) (by rw [abs_le] at *; constructor <;> linarith)
  generalize first rnd e d = b at *
  generalize first rnd s d = a at *
  have h2 : |rnd (b - a) - (e - s)| ≤ d / 2 ^ 28 := by
    rw [abs_le] at *
    norm_num at *
    constructor <;> linarith
  have h3 : |rnd (b - a) / d - (e - s) / d| ≤ 1 / 2 ^ 28 := by
    rw [← sub_div, abs_div, abs_of_pos hd, div_le_iff₀ hd]
    linarith
  have h4 : |(e - s) / d| ≤ 2 ^ 23 := by
    have hs := g.bs
    have he := g.be
    rw [abs_div, abs_of_pos hd, div_le_iff₀ hd]
    rw [abs_le] at *
    constructor <;> linarith
  have h5 := relBound h (x := rnd (b - a) / d) (B := 2 ^ 24) (by rw [abs_le] at *; norm_num at *; constructor <;> linarith)
  rw [abs_le] at *
  norm_num at *
  constructor <;> linarith

/-- **C133**, number of cells: unless the number of steps between the limits is within `2^-27` of a whole number, the grid has the cells
asked for. -/
theorem c133_cells (rnd : ℚ → ℚ) (h : Rounds rnd) (s e d : ℚ) (g : Spec.Sane s e d) (k : Int)
    (h1 : k + 1 / 2 ^ 27 < (e - s) / d) (h2 : (e - s) / d ≤ k + 1 - 1 / 2 ^ 27) :
    (cells rnd s e d : Int) = Spec.cells s e d ∧ Spec.cells s e d = k + 1 := by
  have hq := abs_le.1 (quotient_near h g)
  have e1 : Spec.cells s e d = k + 1 := by
    unfold Spec.cells
    rw [Int.ceil_eq_iff]
    push_cast
    have : (0 : ℚ) < 1 / 2 ^ 27 := by positivity
    constructor <;> linarith
  have e2 : ⌈rnd (rnd (first rnd e d - first rnd s d) / d)⌉ = k + 1 := by
    rw [Int.ceil_eq_iff]
    push_cast
    constructor <;> linarith [hq.1, hq.2]
  have hk : -1 < k + 1 := by
    have h0 : 0 ≤ (e - s) / d := div_nonneg (by linarith [g.le]) g.pos.le
    have : (-1 : ℚ) < k + 1 := by
      have : (0 : ℚ) < 1 / 2 ^ 27 := by positivity
      linarith
    exact_mod_cast this
  refine ⟨?_, e1⟩
  unfold cells
  rw [e1, e2]
  omega

/-- **C133**, number of cells: it is never wrong by more than one. -/
theorem c133_cells_near (rnd : ℚ → ℚ) (h : Rounds rnd) (s e d : ℚ) (g : Spec.Sane s e d) :
    Spec.cells s e d - 1 ≤ cells rnd s e d ∧ (cells rnd s e d : Int) ≤ Spec.cells s e d + 1 := by
  have hq := abs_le.1 (quotient_near h g)
  have h0 : 0 ≤ (e - s) / d := div_nonneg (by linarith [g.le]) g.pos.le
  have c1 := Int.le_ceil ((e - s) / d)
  have c2 := Int.ceil_lt_add_one ((e - s) / d)
  have d1 := Int.le_ceil (rnd (rnd (first rnd e d - first rnd s d) / d))
  have d2 := Int.ceil_lt_add_one (rnd (rnd (first rnd e d - first rnd s d) / d))
  have hc0 : 0 ≤ ⌈(e - s) / d⌉ := Int.ceil_nonneg h0
  unfold cells Spec.cells
  generalize rnd (rnd (first rnd e d - first rnd s d) / d) = y at *
  have a : ⌈(e - s) / d⌉ < ⌈y⌉ + 2 := by
    have : (⌈(e - s) / d⌉ : ℚ) < ⌈y⌉ + 2 := by norm_num at hq; linarith [hq.1, hq.2]
    exact_mod_cast this
  have b : ⌈y⌉ < ⌈(e - s) / d⌉ + 2 := by
    have : (⌈y⌉ : ℚ) < ⌈(e - s) / d⌉ + 2 := by norm_num at hq; linarith [hq.1, hq.2]
    exact_mod_cast this
  omega

/-- **C133**, points: the points are the middles of the cells asked for, up to `(2 i + 3) 2^-30` steps. -/
theorem c133_points (rnd : ℚ → ℚ) (h : Rounds rnd) (s e d : ℚ) (g : Spec.Sane s e d) (i : Nat) :
    |point rnd s d i - (s + (i + 1 / 2) * d)| ≤ (2 * i + 3) * d / 2 ^ 30 := by
  obtain ⟨a1, a2⟩ := first_near h g.pos g.fd g.bs
  have hd := g.pos
  unfold point
  simp only
  generalize first rnd s d = a at *
  have h1 := relBound h (x := a + d) (B := (2 ^ 22 + 2) * d) (by rw [abs_le] at *; constructor <;> linarith)
  split_ifs with c0 c1
  · subst c0
    rw [abs_le] at *
    norm_num at *
    constructor <;> linarith
  · subst c1
    rw [abs_le] at *
    norm_num at *
    constructor <;> linarith
  · generalize rnd (a + d) = p at *
    have h2 := relBound h (x := p - a) (B := 2 * d) (by rw [abs_le] at *; norm_num at *; constructor <;> linarith)
    have h3 : |rnd (p - a) - d| ≤ d / 2 ^ 30 := by
      rw [abs_le] at *; norm_num at *; constructor <;> linarith
    generalize rnd (p - a) = δ at *
    have hi : (0 : ℚ) ≤ i := Nat.cast_nonneg i
    have hid : (0 : ℚ) ≤ i * d := mul_nonneg hi hd.le
    have h4 : |i * δ - i * d| ≤ i * d / 2 ^ 30 := by
      rw [← mul_sub, abs_mul, abs_of_nonneg hi, mul_div_assoc]
      exact mul_le_mul_of_nonneg_left h3 hi
    have h5 := relBound h (x := i * δ) (B := 2 * (i * d)) (by rw [abs_le] at *; norm_num at *; constructor <;> linarith)
    generalize (i : ℚ) * δ = m at *
    have h6 := relBound h (x := a + rnd m) (B := (2 ^ 22 + 1) * d + 3 * (i * d)) (by
      rw [abs_le] at *; norm_num at *; constructor <;> linarith)
    have e1 : s + (i + 1 / 2) * d = s + d / 2 + i * d := by ring
    have e2 : (2 * (i : ℚ) + 3) * d / 2 ^ 30 = (2 * (i * d) + 3 * d) / 2 ^ 30 := by ring
    rw [e1, e2]
    generalize (i : ℚ) * d = t at *
    rw [abs_le] at *
    norm_num at *
    constructor <;> linarith

theorem halfStep_near {rnd : ℚ → ℚ} (h : Rounds rnd) {s e d : ℚ} (g : Spec.Sane s e d) (i : Nat) (hi : i ≤ 2 ^ 24) :
    |halfStep rnd s d i - d / 2| ≤ (2 * i + 5) * d / 2 ^ 30 := by
  have p1 := c133_points rnd h s e d g i
  have p2 := c133_points rnd h s e d g (i + 1)
  have hd := g.pos
  have hiq : (i : ℚ) ≤ 2 ^ 24 := by exact_mod_cast hi
  have hi0 : (0 : ℚ) ≤ i := Nat.cast_nonneg i
  have hid : (0 : ℚ) ≤ i * d := mul_nonneg hi0 hd.le
  have hid2 : i * d ≤ 2 ^ 24 * d := mul_le_mul_of_nonneg_right hiq hd.le
  unfold halfStep
  generalize point rnd s d (i + 1) = y at *
  generalize point rnd s d i = x at *
  push_cast at p2
  have e1 : s + (↑i + 1 / 2) * d = s + d / 2 + i * d := by ring
  have e2 : s + (↑i + 1 + 1 / 2) * d = s + d / 2 + i * d + d := by ring
  have e3 : (2 * (i : ℚ) + 3) * d / 2 ^ 30 = (2 * (i * d) + 3 * d) / 2 ^ 30 := by ring
  have e4 : (2 * ((i : ℚ) + 1) + 3) * d / 2 ^ 30 = (2 * (i * d) + 5 * d) / 2 ^ 30 := by ring
  have e5 : (2 * (i : ℚ) + 5) * d / 2 ^ 30 = (2 * (i * d) + 5 * d) / 2 ^ 30 := by ring
  rw [e1, e3] at p1
  rw [e2, e4] at p2
  rw [e5]
  generalize (i : ℚ) * d = t at *
  have h1 : |y - x - d| ≤ (4 * t + 8 * d) / 2 ^ 30 := by
    rw [abs_le] at *; norm_num at *; constructor <;> linarith
  have h2 := relBound h (x := y - x) (B := 2 * d) (by rw [abs_le] at *; norm_num at *; constructor <;> linarith)
  have hf : rnd (rnd (y - x) * (1 / 2)) = rnd (y - x) * (1 / 2) := by
    apply h.id
    have := (h (y - x)).1.half
    rwa [div_eq_mul_one_div] at this
  rw [hf]
  rw [abs_le] at *; norm_num at *; constructor <;> linarith

theorem lower_near {rnd : ℚ → ℚ} (h : Rounds rnd) {s e d : ℚ} (g : Spec.Sane s e d) (n i : Nat) (hn : n ≠ 1) (hi : i ≤ 2 ^ 24) :
    |lower rnd s d n i - (s + i * d)| ≤ (5 * i + 10) * d / 2 ^ 30 := by
  have p1 := c133_points rnd h s e d g i
  have p2 := halfStep_near h g (i - 1) (by omega)
  have hd := g.pos
  have hs := g.bs
  unfold lower
  rw [if_neg hn]
  have hj : ((i - 1 : Nat) : ℚ) ≤ i := by exact_mod_cast Nat.sub_le i 1
  have hi0 : (0 : ℚ) ≤ i := Nat.cast_nonneg i
  have hid : (0 : ℚ) ≤ i * d := mul_nonneg hi0 hd.le
  have hjd : ((i - 1 : Nat) : ℚ) * d ≤ i * d := mul_le_mul_of_nonneg_right hj hd.le
  generalize halfStep rnd s d (i - 1) = y at *
  generalize point rnd s d i = x at *
  generalize ((i - 1 : Nat) : ℚ) = j at *
  have e1 : s + (↑i + 1 / 2) * d = s + d / 2 + i * d := by ring
  have e3 : (2 * (i : ℚ) + 3) * d / 2 ^ 30 = (2 * (i * d) + 3 * d) / 2 ^ 30 := by ring
  have e4 : (2 * j + 5) * d / 2 ^ 30 = (2 * (j * d) + 5 * d) / 2 ^ 30 := by ring
  have e5 : (5 * (i : ℚ) + 10) * d / 2 ^ 30 = (5 * (i * d) + 10 * d) / 2 ^ 30 := by ring
  rw [e1, e3] at p1
  rw [e4] at p2
  rw [e5]
  generalize (i : ℚ) * d = t at *
  generalize j * d = w at *
  have h2 := relBound h (x := x - y) (B := (2 ^ 22 + 3) * d + 2 * t) (by rw [abs_le] at *; norm_num at *; constructor <;> linarith)
  rw [abs_le] at *; norm_num at *; constructor <;> linarith

theorem upper_near {rnd : ℚ → ℚ} (h : Rounds rnd) {s e d : ℚ} (g : Spec.Sane s e d) (n : Nat) (hn : 2 ≤ n) (hi : n ≤ 2 ^ 24) :
    |upper rnd s e d n - (s + n * d)| ≤ (5 * n + 10) * d / 2 ^ 30 := by
  have p1 := c133_points rnd h s e d g (n - 1)
  have p2 := halfStep_near h g (n - 2) (by omega)
  have hd := g.pos
  have hs := g.bs
  unfold upper
  rw [if_neg (by omega)]
  have hk : ((n - 1 : Nat) : ℚ) = n - 1 := by rw [Nat.cast_sub (by omega)]; push_cast; ring
  have hj : ((n - 2 : Nat) : ℚ) = n - 2 := by rw [Nat.cast_sub (by omega)]; push_cast; ring
  have hn0 : (2 : ℚ) ≤ n := by exact_mod_cast hn
  have hid : 2 * d ≤ n * d := mul_le_mul_of_nonneg_right hn0 hd.le
  generalize halfStep rnd s d (n - 2) = y at *
  generalize point rnd s d (n - 1) = x at *
  rw [hk] at p1
  rw [hj] at p2
  have e1 : s + ((n : ℚ) - 1 + 1 / 2) * d = s - d / 2 + n * d := by ring
  have e3 : (2 * ((n : ℚ) - 1) + 3) * d / 2 ^ 30 = (2 * (n * d) + d) / 2 ^ 30 := by ring
  have e4 : (2 * ((n : ℚ) - 2) + 5) * d / 2 ^ 30 = (2 * (n * d) + d) / 2 ^ 30 := by ring
  have e5 : (5 * (n : ℚ) + 10) * d / 2 ^ 30 = (5 * (n * d) + 10 * d) / 2 ^ 30 := by ring
  rw [e1, e3] at p1
  rw [e4] at p2
  rw [e5]
  generalize (n : ℚ) * d = t at *
  have h2 := relBound h (x := x + y) (B := (2 ^ 22 + 3) * d + 2 * t) (by rw [abs_le] at *; norm_num at *; constructor <;> linarith)
  rw [abs_le] at *; norm_num at *; constructor <;> linarith

theorem cells_le {rnd : ℚ → ℚ} (h : Rounds rnd) {s e d : ℚ} (g : Spec.Sane s e d) : cells rnd s e d ≤ 2 ^ 24 := by
  have h1 := (c133_cells_near rnd h s e d g).2
  have hd := g.pos
  have hs := g.bs
  have he := g.be
  have h4 : (e - s) / d ≤ 2 ^ 23 := by
    rw [div_le_iff₀ hd]
    rw [abs_le] at *
    linarith
  have h5 : Spec.cells s e d ≤ 2 ^ 23 := by
    unfold Spec.cells
    rw [Int.ceil_le]
    exact_mod_cast h4
  omega

/-- **C133**, bounds: the lower bounds of the cells are those asked for, up to `(5 i + 10) 2^-30` steps, and they increase. -/
theorem c133_bounds (rnd : ℚ → ℚ) (h : Rounds rnd) (s e d : ℚ) (g : Spec.Sane s e d) (hn : 2 ≤ cells rnd s e d) (i : Nat)
    (hi : i < cells rnd s e d) :
    |lower rnd s d (cells rnd s e d) i - (s + i * d)| ≤ (5 * i + 10) * d / 2 ^ 30 ∧
    ∀ j < i, lower rnd s d (cells rnd s e d) j < lower rnd s d (cells rnd s e d) i := by
  have hle := cells_le h g
  have hd := g.pos
  have h1 := lower_near h g (cells rnd s e d) i (by omega) (by omega)
  refine ⟨h1, fun j hj => ?_⟩
  have h2 := lower_near h g (cells rnd s e d) j (by omega) (by omega)
  have hij : (j : ℚ) + 1 ≤ i := by exact_mod_cast hj
  have hi2 : (i : ℚ) ≤ 2 ^ 24 := by exact_mod_cast (by omega : i ≤ 2 ^ 24)
  have a := mul_le_mul_of_nonneg_right hij hd.le
  have b := mul_le_mul_of_nonneg_right hi2 hd.le
  have e1 : (5 * (i : ℚ) + 10) * d / 2 ^ 30 = (5 * (i * d) + 10 * d) / 2 ^ 30 := by ring
  have e2 : (5 * (j : ℚ) + 10) * d / 2 ^ 30 = (5 * (j * d) + 10 * d) / 2 ^ 30 := by ring
  rw [e1] at h1
  rw [e2] at h2
  rw [add_mul, one_mul] at a
  rw [abs_le] at h1 h2
  norm_num at *
  linarith

/-- **C133**, cells: a number that is in a cell, and not within `(5 i + 15) 2^-30` steps of its limits, is counted there. -/
theorem c133_cell (rnd : ℚ → ℚ) (h : Rounds rnd) (s e d : ℚ) (g : Spec.Sane s e d) (hn : 2 ≤ cells rnd s e d) (i : Nat)
    (hi : i < cells rnd s e d) (x : ℚ) (h1 : s + i * d + (5 * i + 15) * d / 2 ^ 30 ≤ x)
    (h2 : x < s + (i + 1) * d - (5 * i + 15) * d / 2 ^ 30) : cellOf rnd s e d x = i := by
  have hle := cells_le h g
  have hd := g.pos
  have hlow := (c133_bounds rnd h s e d g hn i hi).1
  have hinc := (c133_bounds rnd h s e d g hn i hi).2
  have e0 : (5 * (i : ℚ) + 15) * d / 2 ^ 30 = (5 * i + 10) * d / 2 ^ 30 + 5 * d / 2 ^ 30 := by ring
  have hp : 0 < 5 * d / 2 ^ 30 := by positivity
  have a1 : lower rnd s d (cells rnd s e d) i ≤ x := by
    rw [abs_le] at hlow
    linarith [hlow.2]
  have e1 : (5 * ((i + 1 : Nat) : ℚ) + 10) * d / 2 ^ 30 = (5 * i + 15) * d / 2 ^ 30 := by push_cast; ring
  have a2 : ∀ j, i < j → j < cells rnd s e d → x < lower rnd s d (cells rnd s e d) j := by
    have hnext : i + 1 < cells rnd s e d → x < lower rnd s d (cells rnd s e d) (i + 1) := by
      intro hlt
      have := abs_le.1 (c133_bounds rnd h s e d g hn (i + 1) hlt).1
      rw [e1] at this
      push_cast at this
      linarith [this.1]
    intro j hj hjn
    rcases Nat.eq_or_lt_of_le (show i + 1 ≤ j from hj) with he | hlt
    · rw [← he]; exact hnext (by omega)
    · exact lt_trans (hnext (by omega)) ((c133_bounds rnd h s e d g hn j hjn).2 (i + 1) hlt)
  have a3 : x < upper rnd s e d (cells rnd s e d) := by
    have hu := abs_le.1 (upper_near h g (cells rnd s e d) hn (by omega))
    rcases Nat.eq_or_lt_of_le (show i + 1 ≤ cells rnd s e d from hi) with he | hlt
    · rw [← he] at hu ⊢
      rw [e1] at hu
      push_cast at hu
      linarith [hu.1]
    · refine lt_trans (a2 _ (by omega) (show cells rnd s e d - 1 < cells rnd s e d by omega)) ?_
      have hlast := abs_le.1 (c133_bounds rnd h s e d g hn (cells rnd s e d - 1) (by omega)).1
      have hc : ((cells rnd s e d - 1 : Nat) : ℚ) = (cells rnd s e d : ℚ) - 1 := by rw [Nat.cast_sub (by omega)]; push_cast; ring
      rw [hc] at hlast
      have hb : (cells rnd s e d : ℚ) ≤ 2 ^ 24 := by exact_mod_cast hle
      have hb2 := mul_le_mul_of_nonneg_right hb hd.le
      have k1 : (5 * ((cells rnd s e d : ℚ) - 1) + 10) * d / 2 ^ 30 = (5 * (cells rnd s e d * d) + 5 * d) / 2 ^ 30 := by ring
      have k2 : (5 * (cells rnd s e d : ℚ) + 10) * d / 2 ^ 30 = (5 * (cells rnd s e d * d) + 10 * d) / 2 ^ 30 := by ring
      have k3 : s + ((cells rnd s e d : ℚ) - 1) * d = s + cells rnd s e d * d - d := by ring
      rw [k1, k3] at hlast
      rw [k2] at hu
      generalize (cells rnd s e d : ℚ) * d = t at *
      norm_num at *
      linarith [hlast.2, hu.1]
  unfold cellOf
  simp only
  rw [if_pos a3]
  have hc : (List.range (cells rnd s e d)).countP (fun j => decide (lower rnd s d (cells rnd s e d) j ≤ x)) = i + 1 := by
    have hsplit : List.range (cells rnd s e d) = List.range (i + 1) ++ (List.range (cells rnd s e d - (i + 1))).map (fun k => i + 1 + k) := by
      rw [← List.range_add]
      congr 1; omega
    rw [hsplit, List.countP_append]
    have c1 : (List.range (i + 1)).countP (fun j => decide (lower rnd s d (cells rnd s e d) j ≤ x)) = i + 1 := by
      conv_rhs => rw [← List.length_range (n := i + 1)]
      rw [List.countP_eq_length]
      intro j hj
      rw [List.mem_range] at hj
      rw [decide_eq_true_eq]
      rcases Nat.eq_or_lt_of_le (Nat.le_of_lt_succ hj) with rfl | hlt
      · exact a1
      · exact le_trans (hinc j hlt).le a1
    have c2 : ((List.range (cells rnd s e d - (i + 1))).map (fun k => i + 1 + k)).countP
        (fun j => decide (lower rnd s d (cells rnd s e d) j ≤ x)) = 0 := by
      rw [List.countP_eq_zero]
      intro j hj
      obtain ⟨k, hk, rfl⟩ := List.mem_map.1 hj
      rw [List.mem_range] at hk
      rw [decide_eq_true_eq, not_le]
      exact a2 _ (by omega) (by omega)
    rw [c1, c2]
  rw [hc]
  push_cast
  ring

/-! ### Violations -/

/-- The nearest numbers of double precision to the numbers of `[1, 1.3, 0.1]`. -/
theorem request (rnd : ℚ → ℚ) (h : Rounds rnd) : rnd 1 = 1 ∧ rnd (13 / 10) = 5854679515581645 * 2 ^ (-52 : ℤ) ∧
    rnd (1 / 10) = 7205759403792794 * 2 ^ (-56 : ℤ) := by
  refine ⟨h.id (by simpa using isFloat_int 1 (by norm_num)), ?_, ?_⟩
  · have := h.eq (x := 13 / 10) (n := 5854679515581645) (j := -52) (by norm_num) (by norm_num) (by rw [abs_lt]; norm_num)
    simpa using this
  · have := h.eq (x := 1 / 10) (n := 7205759403792794) (j := -56) (by norm_num) (by norm_num) (by rw [abs_lt]; norm_num)
    simpa using this

/-- C133 violated, number of cells: from 1 to 1.3 in steps of 0.1 there are three cells, but the grid has four; the fourth is
beyond the limit asked for. -/
theorem c133_cells_violated (rnd : ℚ → ℚ) (h : Rounds rnd) :
    Spec.cells 1 (13 / 10) (1 / 10) = 3 ∧ cells rnd (rnd 1) (rnd (13 / 10)) (rnd (1 / 10)) = 4 ∧
    rnd (13 / 10) < point rnd (rnd 1) (rnd (1 / 10)) 3 := by
  obtain ⟨r1, r2, r3⟩ := request rnd h
  rw [r1, r2, r3]
  have fd : IsFloat (7205759403792794 * 2 ^ (-56 : ℤ)) := ⟨7205759403792794, -56, by norm_num, by norm_num⟩
  have f1 : first rnd 1 (7205759403792794 * 2 ^ (-56 : ℤ)) = 4728779608739021 * 2 ^ (-52 : ℤ) := by
    unfold first
    rw [h.id fd.half]
    have := h.eq (x := 1 + 7205759403792794 * 2 ^ (-56 : ℤ) / 2) (n := 4728779608739021) (j := -52) (by norm_num) (by norm_num)
      (by rw [abs_lt]; norm_num)
    simpa using this
  have f2 : first rnd (5854679515581645 * 2 ^ (-52 : ℤ)) (7205759403792794 * 2 ^ (-56 : ℤ)) = 6079859496950170 * 2 ^ (-52 : ℤ) := by
    unfold first
    rw [h.id fd.half]
    have := h.eq (x := 5854679515581645 * 2 ^ (-52 : ℤ) + 7205759403792794 * 2 ^ (-56 : ℤ) / 2) (n := 6079859496950170) (j := -52)
      (by norm_num) (by norm_num) (by rw [abs_lt]; norm_num)
    simpa using this
  refine ⟨?_, ?_, ?_⟩
  · unfold Spec.cells
    rw [Int.ceil_eq_iff]; norm_num
  · unfold cells
    rw [f1, f2]
    have e1 : rnd (6079859496950170 * 2 ^ (-52 : ℤ) - 4728779608739021 * 2 ^ (-52 : ℤ)) = 5404319552844596 * 2 ^ (-54 : ℤ) := by
      have := h.eq (x := 6079859496950170 * 2 ^ (-52 : ℤ) - 4728779608739021 * 2 ^ (-52 : ℤ)) (n := 5404319552844596) (j := -54)
        (by norm_num) (by norm_num) (by rw [abs_lt]; norm_num)
      simpa using this
    rw [e1]
    have e2 : rnd (5404319552844596 * 2 ^ (-54 : ℤ) / (7205759403792794 * 2 ^ (-56 : ℤ))) = 6755399441055745 * 2 ^ (-51 : ℤ) := by
      have := h.eq (x := 5404319552844596 * 2 ^ (-54 : ℤ) / (7205759403792794 * 2 ^ (-56 : ℤ))) (n := 6755399441055745) (j := -51)
        (by norm_num) (by norm_num) (by rw [abs_lt]; norm_num)
      simpa using this
    rw [e2]
    have : ⌈(6755399441055745 : ℚ) * 2 ^ (-51 : ℤ)⌉ = 4 := by
      rw [Int.ceil_eq_iff]; norm_num
    rw [this]; rfl
  · have g : Spec.Sane 1 (5854679515581645 * 2 ^ (-52 : ℤ)) (7205759403792794 * 2 ^ (-56 : ℤ)) :=
      ⟨by simpa using isFloat_int 1 (by norm_num), ⟨5854679515581645, -52, by norm_num, by norm_num⟩, fd, by norm_num, by norm_num,
        by norm_num, by rw [abs_of_pos (by norm_num)]; norm_num⟩
    have := abs_le.1 (c133_points rnd h _ _ _ g 3)
    norm_num at this ⊢
    linarith [this.1]

/-- Without rounding the points are those of `Agg/Model.lean`. -/
theorem point_exact (s e d : ℚ) : (List.range (cells (fun x => x) s e d)).map (point (fun x => x) s d) = Agg.gridArray s e d := by
  unfold cells first Agg.gridArray Agg.arange
  simp only
  apply List.map_congr_left
  intro i _
  unfold point first
  simp only
  split_ifs with h0 h1
  · subst h0; simp
  · subst h1; simp
  · ring

/-- The hypotheses are met by a grid of one degree around the globe, whose cells and points are exact. -/
example : Spec.Sane (-180) 180 1 ∧ cells double (-180) 180 1 = 360 ∧ cellOf double (-180) 180 1 (1 / 2) = 180 := by
  have g : Spec.Sane (-180) 180 1 := ⟨by simpa using isFloat_int (-180) (by norm_num), by simpa using isFloat_int 180 (by norm_num),
    by simpa using isFloat_int 1 (by norm_num), by norm_num, by norm_num, by norm_num, by norm_num⟩
  have h := double_rounds
  have h1 : IsFloat ((1 : ℚ) / 2) := ⟨1, -1, by norm_num, by norm_num⟩
  have f1 : first double (-180) 1 = -359 / 2 := by
    unfold first; rw [h.id h1]
    rw [h.id ⟨-359, -1, by norm_num, by norm_num⟩]; norm_num
  have f2 : first double 180 1 = 361 / 2 := by
    unfold first; rw [h.id h1]
    rw [h.id ⟨361, -1, by norm_num, by norm_num⟩]; norm_num
  have c : cells double (-180) 180 1 = 360 := by
    unfold cells
    rw [f1, f2, show (361 : ℚ) / 2 - -359 / 2 = 360 by norm_num, h.id (x := 360) (by simpa using isFloat_int 360 (by norm_num)), div_one,
      h.id (x := 360) (by simpa using isFloat_int 360 (by norm_num))]
    rfl
  refine ⟨g, c, ?_⟩
  exact c133_cell double h _ _ _ g (by rw [c]; norm_num) 180 (by rw [c]; norm_num) _ (by norm_num) (by norm_num)

end Cis.Fp.Grid
