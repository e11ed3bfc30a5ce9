import Mathlib.Data.Set.Basic
import Mathlib.Data.Rat.Init
import Mathlib.Algebra.Group.Basic
import Mathlib.Algebra.Order.Ring.Rat
import Mathlib.Tactic.Ring
import Mathlib.Tactic.Linarith
/-!
Model of the placing of two-dimensional gridded data in a plot: `Generic2DPlot._cube_manipulation`
(plotting/genericplot.py:206-271) for coordinates of one dimension, with `pcolormesh` (plotting/heatmap.py:22) for heat maps. The
case of auxiliary coordinates with two dimensions (genericplot.py:241-255) is not modelled.
-/
set_option linter.unusedSectionVars false
set_option linter.unusedSimpArgs false
namespace Cis.Plot.Mesh

/-- A coordinate: `n` numbers. -/
structure Axis where
  n : ℕ
  pt : ℕ → ℚ

/-- A two-dimensional array with `r` rows and `c` columns. -/
structure Grid (V : Type) where
  r : ℕ
  c : ℕ
  v : ℕ → ℕ → V

variable {V : Type}

def Grid.T (g : Grid V) : Grid V := ⟨g.c, g.r, fun i j => g.v j i⟩

/-- `cartopy.util.add_cyclic_point(data, coord)` with `except ValueError` (genericplot.py:257-260, 263-266): if the coordinate is
equally spaced (the library's test `spaced`), a copy of the first column is added to the data and another point to the coordinate. -/
def cyclic (spaced : Axis → Bool) (g : Grid V) (a : Axis) : Grid V × Axis :=
  if spaced a then
    (⟨g.r, g.c + 1, fun i j => if j = g.c then g.v i 0 else g.v i j⟩,
      ⟨a.n + 1, fun j => if j = a.n then a.pt (a.n - 1) + (a.pt 1 - a.pt 0) else a.pt j⟩)
  else (g, a)

/-- Coordinates for drawing: one-dimensional, or a mesh with `r` rows and `c` columns. -/
inductive Coords2 where
  | flat (x y : Axis)
  | mesh (r c : ℕ) (x y : ℕ → ℕ → ℚ)

/-- genericplot.py:256-270, after the transposition. -/
def manip (spaced : Axis → Bool) (g : Grid V) (x y : Axis) : Grid V × Coords2 :=
  if x.n = g.c then
    let p := cyclic spaced g x
    (p.1, .mesh y.n p.2.n (fun _ j => p.2.pt j) (fun i _ => y.pt i))
  else if y.n = g.c then
    let p := cyclic spaced g y
    (p.1, .mesh x.n p.2.n (fun i _ => x.pt i) (fun _ j => p.2.pt j))
  else (g, .flat x y)

/-- genericplot.py:228-234: the cube is transposed on the advice of the library (`t`), whatever the axes are. -/
def cubeManip (spaced : Axis → Bool) (t : Bool) (g : Grid V) (x y : Axis) : Grid V × Coords2 :=
  manip spaced (if t then g.T else g) x y

/-- What a contour or a scatter plot gets to draw: the value and its position, for every element of the data. `none` if the
shapes do not agree (an error of the library). -/
def points (p : Grid V × Coords2) : Option (Set (ℚ × ℚ × V)) :=
  match p.2 with
  | .mesh r c x y => if r = p.1.r ∧ c = p.1.c then some {q | ∃ i j, i < r ∧ j < c ∧ q = (x i j, y i j, p.1.v i j)} else none
  | .flat x y => if y.n = p.1.r ∧ x.n = p.1.c then some {q | ∃ i j, i < y.n ∧ j < x.n ∧ q = (x.pt j, y.pt i, p.1.v i j)}
      else none

/-- `pcolormesh` (library) on coordinates that are bounds: the cells with their lower and upper bounds, for `r × c` data and
`(r + 1) × (c + 1)` bounds; a surplus last row or column of data is dropped; other shapes are an error. -/
def cells (p : Grid V × Coords2) : Option (Set ((ℚ × ℚ) × (ℚ × ℚ) × V)) :=
  match p.2 with
  | .mesh r c x y => if (p.1.c = c ∨ p.1.c + 1 = c) ∧ (p.1.r = r ∨ p.1.r + 1 = r) then
      some {q | ∃ i j, i + 1 < r ∧ j + 1 < c ∧ q = ((x i j, x i (j + 1)), (y i j, y (i + 1) j), p.1.v i j)} else none
  | .flat x y => if (p.1.c = x.n ∨ p.1.c + 1 = x.n) ∧ (p.1.r = y.n ∨ p.1.r + 1 = y.n) then
      some {q | ∃ i j, i + 1 < y.n ∧ j + 1 < x.n ∧ q = ((x.pt j, x.pt (j + 1)), (y.pt i, y.pt (i + 1)), p.1.v i j)} else none

/-! ### Specification -/

/-- The values of a cube at their coordinates: `a` belongs to the first dimension and `b` to the second. The x axis is `b` if
`xSecond`, else `a`; the y axis is the other one. -/
def ideal (g : Grid V) (a b : Axis) (xSecond : Bool) : Set (ℚ × ℚ × V) :=
  {q | ∃ i j, i < g.r ∧ j < g.c ∧ q = if xSecond then (b.pt j, a.pt i, g.v i j) else (a.pt i, b.pt j, g.v i j)}

/-- The cells of a cube with the bounds of its coordinates (`a` and `b` have one more number than the dimension). -/
def idealCells (g : Grid V) (a b : Axis) (xSecond : Bool) : Set ((ℚ × ℚ) × (ℚ × ℚ) × V) :=
  {q | ∃ i j, i < g.r ∧ j < g.c ∧ q =
    if xSecond then ((b.pt j, b.pt (j + 1)), (a.pt i, a.pt (i + 1)), g.v i j)
    else ((a.pt i, a.pt (i + 1)), (b.pt j, b.pt (j + 1)), g.v i j)}

/-- The x axis belongs to the columns of the array that is drawn: the second dimension, or the first if transposed. -/
def XOnColumns (t xSecond : Bool) : Prop := xSecond = !t

/-! ### Properties -/

theorem cyclic_eq (spaced : Axis → Bool) (g : Grid V) (a : Axis) (ha : a.n = g.c) :
    (cyclic spaced g a).1.r = g.r ∧ (cyclic spaced g a).2.n = (cyclic spaced g a).1.c ∧ g.c ≤ (cyclic spaced g a).1.c ∧
    (∀ i j, j < g.c → (cyclic spaced g a).1.v i j = g.v i j ∧ (cyclic spaced g a).2.pt j = a.pt j) ∧
    (∀ i j, j < (cyclic spaced g a).1.c → ¬ j < g.c → spaced a = true ∧ (cyclic spaced g a).1.v i j = g.v i 0 ∧
      (cyclic spaced g a).2.pt j = a.pt (a.n - 1) + (a.pt 1 - a.pt 0)) := by
  unfold cyclic
  split
  · rename_i hs
    refine ⟨rfl, by simp [ha], by simp, ?_, ?_⟩
    · intro i j hj
      have h1 : j ≠ g.c := by omega
      have h2 : j ≠ a.n := by omega
      simp [h1, h2]
    · intro i j hj hj'
      have h1 : j = g.c := by simp at hj; omega
      have h2 : j = a.n := by omega
      refine ⟨hs, ?_, ?_⟩
      · simp [h1]
      · simp [h2]
  · exact ⟨rfl, ha, le_refl _, fun i j _ => ⟨rfl, rfl⟩, fun i j h h' => absurd h h'⟩

/-- What is drawn for data `g` (after transposition) with rows at `rows` and columns at `cols`. -/
theorem points_manip_cols (spaced : Axis → Bool) (g : Grid V) (rows cols : Axis) (hr : rows.n = g.r) (hc : cols.n = g.c) :
    ∃ s, points (manip spaced g cols rows) = some s ∧
      (∀ i j, i < g.r → j < g.c → (cols.pt j, rows.pt i, g.v i j) ∈ s) ∧
      ∀ q ∈ s, (∃ i j, i < g.r ∧ j < g.c ∧ q = (cols.pt j, rows.pt i, g.v i j)) ∨
        (spaced cols = true ∧ ∃ i, i < g.r ∧ q = (cols.pt (cols.n - 1) + (cols.pt 1 - cols.pt 0), rows.pt i, g.v i 0)) := by
  obtain ⟨h1, h2, h3, h4, h5⟩ := cyclic_eq spaced g cols hc
  unfold manip
  rw [if_pos hc]
  dsimp only [points]
  rw [if_pos ⟨by rw [h1, hr], h2⟩]
  refine ⟨_, rfl, ?_, ?_⟩
  · intro i j hi hj
    refine ⟨i, j, by omega, by omega, ?_⟩
    rw [(h4 i j hj).1, (h4 i j hj).2]
  · rintro q ⟨i, j, hi, hj, rfl⟩
    by_cases hj' : j < g.c
    · left
      exact ⟨i, j, by omega, hj', by rw [(h4 i j hj').1, (h4 i j hj').2]⟩
    · right
      obtain ⟨g1, g2, g3⟩ := h5 i j (by omega) hj'
      exact ⟨g1, i, by omega, by rw [g2, g3]⟩

theorem points_manip_rows (spaced : Axis → Bool) (g : Grid V) (rows cols : Axis) (hr : rows.n = g.r) (hc : cols.n = g.c)
    (hne : g.r ≠ g.c) :
    ∃ s, points (manip spaced g rows cols) = some s ∧
      (∀ i j, i < g.r → j < g.c → (rows.pt i, cols.pt j, g.v i j) ∈ s) ∧
      ∀ q ∈ s, (∃ i j, i < g.r ∧ j < g.c ∧ q = (rows.pt i, cols.pt j, g.v i j)) ∨
        (spaced cols = true ∧ ∃ i, i < g.r ∧ q = (rows.pt i, cols.pt (cols.n - 1) + (cols.pt 1 - cols.pt 0), g.v i 0)) := by
  obtain ⟨h1, h2, h3, h4, h5⟩ := cyclic_eq spaced g cols hc
  unfold manip
  rw [if_neg (by omega), if_pos hc]
  dsimp only [points]
  rw [if_pos ⟨by rw [h1, hr], h2⟩]
  refine ⟨_, rfl, ?_, ?_⟩
  · intro i j hi hj
    refine ⟨i, j, by omega, by omega, ?_⟩
    rw [(h4 i j hj).1, (h4 i j hj).2]
  · rintro q ⟨i, j, hi, hj, rfl⟩
    by_cases hj' : j < g.c
    · left
      exact ⟨i, j, by omega, hj', by rw [(h4 i j hj').1, (h4 i j hj').2]⟩
    · right
      obtain ⟨g1, g2, g3⟩ := h5 i j (by omega) hj'
      exact ⟨g1, i, by omega, by rw [g2, g3]⟩

/-- The points added for an equally spaced coordinate of the columns: the values at its first point once more, one step after
the last point. `first = true`: the columns belong to the first dimension. -/
def extraPoints (g : Grid V) (a b : Axis) (first xCols : Bool) : Set (ℚ × ℚ × V) :=
  let cols := if first then a else b
  let next := cols.pt (cols.n - 1) + (cols.pt 1 - cols.pt 0)
  {q | ∃ k, k < (if first then g.c else g.r) ∧ q =
    (let other := (if first then b else a).pt k
     let val := if first then g.v 0 k else g.v k 0
     if xCols then (next, other, val) else (other, next, val))}

/-- **C90**, contour and scatter plots. Every value of the cube is drawn at its own coordinates, whichever of the two
coordinates is the x axis and whether or not the cube is transposed, and everything else drawn is the copy of the first column
that is added one step after the last if the coordinate of the columns is equally spaced. Missing: square cubes with the x axis
on the rows (`c90_square_violated`), and that nothing is added (`c90_extra_violated`). -/
theorem c90_points (spaced : Axis → Bool) (t xSecond : Bool) (g : Grid V) (a b : Axis) (ha : a.n = g.r)
    (hb : b.n = g.c) (h : XOnColumns t xSecond ∨ g.r ≠ g.c) :
    ∃ s, points (cubeManip spaced t g (if xSecond then b else a) (if xSecond then a else b)) = some s ∧
      ideal g a b xSecond ⊆ s ∧
      s ⊆ ideal g a b xSecond ∪ {q | spaced (if t then a else b) = true ∧ q ∈ extraPoints g a b t (xSecond != t)} := by
  unfold cubeManip XOnColumns at *
  cases t <;> cases xSecond
  · obtain ⟨s, h1, h2, h3⟩ := points_manip_rows spaced g a b ha hb (by simpa using h)
    refine ⟨s, h1, ?_, ?_⟩
    · rintro q ⟨i, j, hi, hj, rfl⟩; exact h2 i j hi hj
    · intro q hq
      rcases h3 q hq with ⟨i, j, hi, hj, rfl⟩ | ⟨hs, i, hi, rfl⟩
      · left; exact ⟨i, j, hi, hj, rfl⟩
      · right; exact ⟨hs, i, hi, rfl⟩
  · obtain ⟨s, h1, h2, h3⟩ := points_manip_cols spaced g a b ha hb
    refine ⟨s, h1, ?_, ?_⟩
    · rintro q ⟨i, j, hi, hj, rfl⟩; exact h2 i j hi hj
    · intro q hq
      rcases h3 q hq with ⟨i, j, hi, hj, rfl⟩ | ⟨hs, i, hi, rfl⟩
      · left; exact ⟨i, j, hi, hj, rfl⟩
      · right; exact ⟨hs, i, hi, rfl⟩
  · obtain ⟨s, h1, h2, h3⟩ := points_manip_cols spaced g.T b a hb ha
    refine ⟨s, h1, ?_, ?_⟩
    · rintro q ⟨i, j, hi, hj, rfl⟩; exact h2 j i hj hi
    · intro q hq
      rcases h3 q hq with ⟨i, j, hi, hj, rfl⟩ | ⟨hs, i, hi, rfl⟩
      · left; exact ⟨j, i, hj, hi, rfl⟩
      · right; exact ⟨hs, i, hi, rfl⟩
  · obtain ⟨s, h1, h2, h3⟩ := points_manip_rows spaced g.T b a hb ha
      (by rcases h with h | h; · cases h
          · exact fun e => h e.symm)
    refine ⟨s, h1, ?_, ?_⟩
    · rintro q ⟨i, j, hi, hj, rfl⟩; exact h2 j i hj hi
    · intro q hq
      rcases h3 q hq with ⟨i, j, hi, hj, rfl⟩ | ⟨hs, i, hi, rfl⟩
      · left; exact ⟨j, i, hj, hi, rfl⟩
      · right; exact ⟨hs, i, hi, rfl⟩

/-- **C90.** On a full circle the added points are the values of the first column at the same longitude, 360 degrees further
on. -/
theorem c90_cyclic (cols : Axis) (h : cols.n ≠ 0) (d : ℚ) (hd : ∀ k, k + 1 < cols.n → cols.pt (k + 1) - cols.pt k = d)
    (hc : cols.pt 1 - cols.pt 0 = d) (hfull : (cols.n : ℚ) * d = 360) :
    cols.pt (cols.n - 1) + (cols.pt 1 - cols.pt 0) = cols.pt 0 + 360 := by
  have hk : ∀ k, k < cols.n → cols.pt k = cols.pt 0 + k * d := by
    intro k
    induction k with
    | zero => intro _; simp
    | succ k ih =>
      intro hk
      have := hd k hk
      have := ih (by omega)
      push_cast
      linarith
  rw [hk (cols.n - 1) (by omega), hc, ← hfull]
  have : ((cols.n - 1 : ℕ) : ℚ) = (cols.n : ℚ) - 1 := by
    rw [Nat.cast_sub (by omega)]; simp
  rw [this]; ring

/-- **C90** is violated for square cubes: with the x axis on the rows, the values are drawn at exchanged coordinates. -/
theorem c90_square_violated :
    ∃ (g : Grid ℕ) (a b : Axis) (s : Set (ℚ × ℚ × ℕ)), a.n = g.r ∧ b.n = g.c ∧
      points (cubeManip (fun _ => false) false g a b) = some s ∧ ¬ ideal g a b false ⊆ s := by
  refine ⟨⟨2, 2, fun i j => 10 * i + j⟩, ⟨2, fun i => i⟩, ⟨2, fun i => 5 + i⟩, _, rfl, rfl, rfl, ?_⟩
  intro h
  have h1 : ((0 : ℚ), (6 : ℚ), 1) ∈ ideal (⟨2, 2, fun i j => 10 * i + j⟩ : Grid ℕ) ⟨2, fun i => i⟩ ⟨2, fun i => 5 + i⟩ false :=
    ⟨0, 1, by decide, by decide, by simp; norm_num⟩
  obtain ⟨i, j, hi, hj, he⟩ := h h1
  simp only [cyclic, if_false, Bool.false_eq_true] at hi hj he
  simp only [Prod.mk.injEq] at he
  obtain ⟨h1, h2, h3⟩ := he
  have hi2 : i = 1 := by
    have : (i : ℚ) = 1 := by linarith
    exact_mod_cast this
  subst hi2
  simp [cubeManip, manip, cyclic] at h3
  omega

/-- **C90** is violated: of a coordinate that is not a circle (three times, say) a fourth point is drawn, with the values of the
first. -/
theorem c90_extra_violated :
    ∃ (g : Grid ℕ) (a b : Axis) (s : Set (ℚ × ℚ × ℕ)), a.n = g.r ∧ b.n = g.c ∧
      points (cubeManip (fun _ => true) false g b a) = some s ∧ ((3 : ℚ), (0 : ℚ), 0) ∈ s ∧
      ((3 : ℚ), (0 : ℚ), 0) ∉ ideal g a b true := by
  refine ⟨⟨2, 3, fun i j => 10 * i + j⟩, ⟨2, fun i => i⟩, ⟨3, fun i => i⟩, _, rfl, rfl, rfl, ?_, ?_⟩
  · refine ⟨0, 3, by decide, by decide, ?_⟩
    simp [cubeManip, manip, cyclic]
    norm_num
  · rintro ⟨i, j, hi, hj, he⟩
    simp only [if_true, Prod.mk.injEq] at he
    have : (j : ℚ) = 3 := he.1.symm
    have : j = 3 := by exact_mod_cast this
    have hj' : j < 3 := hj
    omega

/-- **C90**, heat maps. With the x axis on the columns of the array drawn, and the number of its rows not one less than that of
its columns, every value fills exactly the cell between the bounds of its coordinates, and nothing else is drawn. -/
theorem c90_cells (spaced : Axis → Bool) (t xSecond : Bool) (g : Grid V) (a b : Axis) (ha : a.n = g.r + 1)
    (hb : b.n = g.c + 1) (h : XOnColumns t xSecond) (hne : if t then g.c + 1 ≠ g.r else g.r + 1 ≠ g.c) :
    cells (cubeManip spaced t g (if xSecond then b else a) (if xSecond then a else b)) = some (idealCells g a b xSecond) := by
  unfold XOnColumns at h
  subst h
  cases t
  · simp only [Bool.not_false, if_true, if_false, Bool.false_eq_true] at *
    unfold cubeManip manip
    simp only [if_false, Bool.false_eq_true]
    rw [if_neg (by omega), if_neg (by omega)]
    dsimp only [cells]
    rw [if_pos ⟨by omega, by omega⟩]
    congr 1
    ext q
    constructor
    · rintro ⟨i, j, hi, hj, rfl⟩; exact ⟨i, j, by omega, by omega, rfl⟩
    · rintro ⟨i, j, hi, hj, rfl⟩; exact ⟨i, j, by omega, by omega, rfl⟩
  · simp only [Bool.not_true, if_true, if_false, Bool.false_eq_true] at *
    unfold cubeManip manip
    simp only [if_true, Grid.T]
    rw [if_neg (by omega), if_neg (by omega)]
    dsimp only [cells]
    rw [if_pos ⟨by omega, by omega⟩]
    congr 1
    ext q
    constructor
    · rintro ⟨i, j, hi, hj, rfl⟩; exact ⟨j, i, by omega, by omega, rfl⟩
    · rintro ⟨i, j, hi, hj, rfl⟩; exact ⟨j, i, by omega, by omega, rfl⟩

/-- **C90** is violated for heat maps with one row less than columns: they are never drawn, whatever the data (the bounds of the
rows are taken for points of the columns). -/
theorem c90_cells_shape_violated (spaced : Axis → Bool) (g : Grid V) (a b : Axis) (ha : a.n = g.r + 1) (hb : b.n = g.c + 1)
    (hne : g.r + 1 = g.c) : cells (cubeManip spaced false g b a) = none := by
  unfold cubeManip manip
  simp only [if_false, Bool.false_eq_true]
  rw [if_neg (by omega), if_pos (by omega)]
  obtain ⟨h1, h2, h3, h4, h5⟩ := cyclic_eq spaced g a (by omega)
  dsimp only [cells]
  rw [if_neg]
  rintro ⟨-, h | h⟩
  · rw [h1] at h; omega
  · rw [h1] at h; omega

/-- **C90** is violated for heat maps with the x axis on the rows: they are not drawn unless the cube is square (or one row
less, or more, than square). -/
theorem c90_cells_swapped_violated (spaced : Axis → Bool) (g : Grid V) (a b : Axis) (ha : a.n = g.r + 1)
    (hb : b.n = g.c + 1) (h1 : g.r ≠ g.c) (h2 : g.r + 1 ≠ g.c) : cells (cubeManip spaced false g a b) = none := by
  unfold cubeManip manip
  simp only [if_false, Bool.false_eq_true]
  rw [if_neg (by omega), if_neg (by omega)]
  dsimp only [cells]
  rw [if_neg]
  rintro ⟨h | h, h' | h'⟩ <;> omega

/-- **C90** is violated for heat maps of square cubes with the x axis on the rows: drawn at exchanged coordinates. -/
theorem c90_cells_square_violated :
    ∃ (g : Grid ℕ) (a b : Axis) (s : Set ((ℚ × ℚ) × (ℚ × ℚ) × ℕ)), a.n = g.r + 1 ∧ b.n = g.c + 1 ∧
      cells (cubeManip (fun _ => false) false g a b) = some s ∧
      ((1, 2), (0, 1), 1) ∈ s ∧ (((1 : ℚ), (2 : ℚ)), ((0 : ℚ), (1 : ℚ)), 1) ∉ idealCells g a b false := by
  refine ⟨⟨2, 2, fun i j => 10 * i + j⟩, ⟨3, fun i => i⟩, ⟨3, fun i => i⟩, _, rfl, rfl, rfl, ?_, ?_⟩
  · exact ⟨0, 1, by decide, by decide, by simp [cubeManip, manip]⟩
  · rintro ⟨i, j, hi, hj, he⟩
    simp only [if_false, Bool.false_eq_true, Prod.mk.injEq] at he
    obtain ⟨⟨h1, -⟩, ⟨h2, -⟩, h3⟩ := he
    have : i = 1 := by exact_mod_cast h1.symm
    omega

/-! ### Examples -/

/-- The hypotheses of `c90_points` are met by a 2 × 3 cube with either axis. -/
example : ∃ s, points (cubeManip (fun _ => false) false (⟨2, 3, fun i j => 10 * i + j⟩ : Grid ℕ) ⟨2, fun i => i⟩ ⟨3, fun i => i⟩) =
    some s ∧ ((1 : ℚ), (2 : ℚ), 12) ∈ s := by
  obtain ⟨s, h1, h2, -⟩ := c90_points (fun _ => false) false false (⟨2, 3, fun i j => 10 * i + j⟩ : Grid ℕ)
    ⟨2, fun i => i⟩ ⟨3, fun i => i⟩ rfl rfl (.inr (by decide))
  exact ⟨s, h1, h2 ⟨1, 2, by decide, by decide, by simp⟩⟩

example : cells (cubeManip (fun _ => true) false (⟨2, 2, fun i j => 10 * i + j⟩ : Grid ℕ) ⟨3, fun i => i⟩ ⟨3, fun i => i⟩) =
    some (idealCells (⟨2, 2, fun i j => 10 * i + j⟩ : Grid ℕ) ⟨3, fun i => i⟩ ⟨3, fun i => i⟩ true) :=
  c90_cells (fun _ => true) false true _ _ _ rfl rfl rfl (by decide)

/-- A full circle of four longitudes. -/
example : let c : Axis := ⟨4, fun k => 90 * k⟩
    c.pt (c.n - 1) + (c.pt 1 - c.pt 0) = c.pt 0 + 360 :=
  c90_cyclic ⟨4, fun k => 90 * k⟩ (by decide) 90 (by intro k _; push_cast; ring) (by norm_num) (by norm_num)

end Cis.Plot.Mesh
