import Mathlib.Tactic
set_option linter.unusedSectionVars false
set_option linter.unusedSimpArgs false
/-!
Model of the positions of 1 km variables in MODIS level 2 files: `__get_data_scale`, `__field_interpolate` and `_create_coord_list` of
`MODIS_L2` (cis/data_io/products/MODIS.py:222-293). Property C100.

Positions are given every 5 km, one for five by five pixels. Values are rationals without rounding; `none` is NaN. Contract of numpy: a
masked array assigned to a slice of an ordinary array gives the values under its mask.
-/
namespace Cis.ModisInterp

/-- The two meanings of `/` between integers; the slice bound `-1 * factor / 2 + 1` depends on it. -/
inductive Python
  | two
  | three
deriving DecidableEq

inductive Err
  | invalidVariable
  | type
  | value
deriving DecidableEq

/-- `s in t` for texts. -/
def isInfix (s t : List Char) : Bool := t.tails.any (fun u => s.isPrefixOf u)

/-- `__get_data_scale` (MODIS.py:222-234): `dims` has the name of the first dimension of each variable of the first file. -/
def dataScale (dims : List (String × List Char)) (var : String) : Except Err (Option (List Char)) :=
  match dims.find? (fun d => d.1 == var) with
  | none => .error .invalidVariable
  | some d => .ok (["1km".toList, "5km".toList, "10km".toList].find? (fun s => isInfix s d.2))

/-- A two-dimensional array with NaN. -/
structure Arr where
  rows : Nat
  cols : Nat
  at' : Nat → Nat → Option ℚ

/-- A masked array: values, and whether they are masked. -/
structure MArr where
  rows : Nat
  cols : Nat
  at' : Nat → Nat → ℚ × Bool

/-- The indices of `start:stop:step` in an axis of length `len`; `stop` may be negative. -/
def pySlice (len start : Nat) (stop : Int) (step : Nat) : List Nat :=
  let e : Nat := if stop < 0 then ((len : Int) + stop).toNat else min stop.toNat len
  (List.range ((e - start + step - 1) / step)).map (fun k => start + step * k)

/-- `-1 * factor / 2 + 1` with factor 5 (MODIS.py:250): an integer only in Python 2, whose division rounds down. -/
def stopIndex : Python → Except Err Int
  | .two => .ok (-3 + 1)
  | .three => .error .type

/-- `i * ((b - a) / 5) + a`, NaN if one of them is. -/
def lin (i : Nat) (b a : Option ℚ) : Option ℚ :=
  match b, a with
  | some b, some a => some (i * ((b - a) / 5) + a)
  | _, _ => none

/-- One pass of the first loop (MODIS.py:249-252), along the rows. -/
def rowStep (py : Python) (o : Arr) (i : Nat) : Except Err Arr :=
  match stopIndex py with
  | .error e => .error e
  | .ok stop =>
    let target := pySlice o.rows (2 + i) stop 5
    let next := pySlice o.rows 7 o.rows 5
    let cur := pySlice o.rows 2 (-5) 5
    if next.length ≠ cur.length ∨ target.length ≠ cur.length then .error .value
    else
      let moves := target.zip (next.zip cur)
      .ok { o with at' := fun r c => match moves.find? (fun m => m.1 == r) with
        | some m => lin i (o.at' m.2.1 c) (o.at' m.2.2 c)
        | none => o.at' r c }

def swap (o : Arr) : Arr := ⟨o.cols, o.rows, fun r c => o.at' c r⟩

/-- The first loop (MODIS.py:249-252). -/
def rowLoop (py : Python) (o : Arr) : Except Err Arr := [1, 2, 3, 4, 5].foldlM (rowStep py) o

/-- The second loop (MODIS.py:253-256): the same along the columns. -/
def colLoop (py : Python) (o : Arr) : Except Err Arr :=
  match rowLoop py (swap o) with
  | .error e => .error e
  | .ok o' => .ok (swap o')

/-- The array of NaN with the data in the centre pixels (MODIS.py:247-248). -/
def spread (data : MArr) : Arr :=
  ⟨5 * data.rows, 5 * data.cols, fun r c => if r % 5 = 2 ∧ c % 5 = 2 then some (data.at' (r / 5) (c / 5)).1 else none⟩

/-- `__field_interpolate` with factor 5 (MODIS.py:236-257). -/
def fieldInterpolate (py : Python) (data : MArr) : Except Err Arr :=
  match rowLoop py (spread data) with
  | .error e => .error e
  | .ok o => colLoop py o

/-- Concatenation of the arrays of all files (hdf.py:108-126). -/
def concat (a b : MArr) : MArr := ⟨a.rows + b.rows, a.cols, fun r c => if r < a.rows then a.at' r c else b.at' (r - a.rows) c⟩

def plain (data : MArr) : Arr := ⟨data.rows, data.cols, fun r c => if (data.at' r c).2 then none else some (data.at' r c).1⟩

/-- The number of latitudes and of times of the coordinates (`_create_coord_list`, MODIS.py:259-293): latitude and longitude are
interpolated for 1 km variables, times are not. -/
def coordSizes (py : Python) (dims : List (String × List Char)) (var : Option String) (lat time : MArr) : Except Err (Nat × Nat) :=
  match var with
  | none => .ok (lat.rows * lat.cols, time.rows * time.cols)
  | some v => match dataScale dims v with
    | .error e => .error e
    | .ok s => if s = some "1km".toList then
        match fieldInterpolate py lat with
        | .error e => .error e
        | .ok a => .ok (a.rows * a.cols, time.rows * time.cols)
      else .ok (lat.rows * lat.cols, time.rows * time.cols)

/-! ### Specification -/

/-- The value at a pixel `i` fifths of the way from row `k` to the next and `j` fifths of the way from column `l` to the next, from the
four values around it. -/
def Spec.bilinear (data : MArr) (k l i j : Nat) : ℚ :=
  ((5 - i) * (5 - j) * (data.at' k l).1 + i * (5 - j) * (data.at' (k + 1) l).1 + (5 - i) * j * (data.at' k (l + 1)).1
    + i * j * (data.at' (k + 1) (l + 1)).1) / 25

/-! ### Proofs -/

theorem slice_target (n i : Nat) (hi : 1 ≤ i ∧ i ≤ 5) : pySlice (5 * n) (2 + i) (-3 + 1) 5 = (List.range (n - 1)).map (fun k => 2 + i + 5 * k) := by
  unfold pySlice
  simp only
  have : ((if (-3 + 1 : Int) < 0 then (((5 * n : Nat) : Int) + (-3 + 1)).toNat else min (-3 + 1 : Int).toNat (5 * n)) - (2 + i) + 5 - 1) / 5 = n - 1 := by
    rw [if_pos (by norm_num)]
    omega
  rw [this]

theorem slice_next (n : Nat) : pySlice (5 * n) 7 ((5 * n : Nat) : Int) 5 = (List.range (n - 1)).map (fun k => 7 + 5 * k) := by
  unfold pySlice
  simp only
  have : ((if ((5 * n : Nat) : Int) < 0 then (((5 * n : Nat) : Int) + ((5 * n : Nat) : Int)).toNat else min ((5 * n : Nat) : Int).toNat (5 * n)) - 7 + 5 - 1) / 5 = n - 1 := by
    rw [if_neg (by omega)]
    omega
  rw [this]

theorem slice_cur (n : Nat) : pySlice (5 * n) 2 (-5) 5 = (List.range (n - 1)).map (fun k => 2 + 5 * k) := by
  unfold pySlice
  simp only
  have : ((if (-5 : Int) < 0 then (((5 * n : Nat) : Int) + (-5)).toNat else min (-5 : Int).toNat (5 * n)) - 2 + 5 - 1) / 5 = n - 1 := by
    rw [if_pos (by norm_num)]
    omega
  rw [this]

theorem find_moves (s N r : Nat) : ((List.range N).map (fun k => (s + 5 * k, (7 + 5 * k, 2 + 5 * k)))).find? (fun m => m.1 == r) =
    if s ≤ r ∧ (r - s) % 5 = 0 ∧ (r - s) / 5 < N then some (r, (7 + 5 * ((r - s) / 5), 2 + 5 * ((r - s) / 5))) else none := by
  induction N with
  | zero => simp
  | succ N ih =>
    rw [List.range_succ, List.map_append, List.find?_append, ih]
    by_cases h1 : s ≤ r ∧ (r - s) % 5 = 0 ∧ (r - s) / 5 < N
    · rw [if_pos h1, if_pos (by omega)]
      rfl
    · rw [if_neg h1]
      simp only [List.map_cons, List.map_nil, List.find?_cons, List.find?_nil, Option.none_or]
      by_cases h2 : s + 5 * N = r
      · have h3 : (r - s) / 5 = N := by omega
        rw [if_pos (by omega), h3]
        simp [h2]
      · have : (s + 5 * N == r) = false := by simpa using h2
        rw [this, if_neg (by omega)]

theorem rowStep_two (o : Arr) (n i : Nat) (hn : o.rows = 5 * n) (hi : 1 ≤ i ∧ i ≤ 5) :
    rowStep .two o i = .ok ⟨o.rows, o.cols, fun r c => if 2 + i ≤ r ∧ (r - (2 + i)) % 5 = 0 ∧ (r - (2 + i)) / 5 < n - 1
      then lin i (o.at' (r - i + 5) c) (o.at' (r - i) c) else o.at' r c⟩ := by
  unfold rowStep stopIndex
  simp only
  rw [hn, slice_target n i hi, slice_next, slice_cur]
  rw [if_neg (by simp)]
  congr 1
  congr 1
  funext r c
  have hz : ((List.range (n - 1)).map (fun k => 2 + i + 5 * k)).zip
      (((List.range (n - 1)).map (fun k => 7 + 5 * k)).zip ((List.range (n - 1)).map (fun k => 2 + 5 * k))) =
      (List.range (n - 1)).map (fun k => (2 + i + 5 * k, (7 + 5 * k, 2 + 5 * k))) := by
    rw [List.zip_map', List.zip_map']
  rw [hz, find_moves]
  by_cases h : 2 + i ≤ r ∧ (r - (2 + i)) % 5 = 0 ∧ (r - (2 + i)) / 5 < n - 1
  · rw [if_pos h, if_pos h]
    simp only
    have e1 : 7 + 5 * ((r - (2 + i)) / 5) = r - i + 5 := by omega
    have e2 : 2 + 5 * ((r - (2 + i)) / 5) = r - i := by omega
    rw [e1, e2]
  · rw [if_neg h, if_neg h]

/-- What the first loop leaves: rows from the second to the second last of each file are interpolated, the others are as they were. -/
theorem rowLoop_two (o : Arr) (n : Nat) (hn : o.rows = 5 * n) : ∃ o', rowLoop .two o = .ok o' ∧ o'.rows = o.rows ∧ o'.cols = o.cols ∧
    (∀ k i c, 1 ≤ i → i ≤ 5 → k + 1 < n → o'.at' (5 * k + 2 + i) c = lin i (o.at' (5 * (k + 1) + 2) c) (o.at' (5 * k + 2) c)) ∧
    (∀ c, o'.at' 2 c = o.at' 2 c) ∧ (∀ r c, (r < 2 ∨ 5 * n < r + 3) → o'.at' r c = o.at' r c) := by
  have e1 := rowStep_two o n 1 hn (by omega)
  set o1 : Arr := ⟨o.rows, o.cols, fun r c => if 2 + 1 ≤ r ∧ (r - (2 + 1)) % 5 = 0 ∧ (r - (2 + 1)) / 5 < n - 1
      then lin 1 (o.at' (r - 1 + 5) c) (o.at' (r - 1) c) else o.at' r c⟩ with ho1
  have e2 := rowStep_two o1 n 2 hn (by omega)
  set o2 : Arr := ⟨o1.rows, o1.cols, fun r c => if 2 + 2 ≤ r ∧ (r - (2 + 2)) % 5 = 0 ∧ (r - (2 + 2)) / 5 < n - 1
      then lin 2 (o1.at' (r - 2 + 5) c) (o1.at' (r - 2) c) else o1.at' r c⟩ with ho2
  have e3 := rowStep_two o2 n 3 hn (by omega)
  set o3 : Arr := ⟨o2.rows, o2.cols, fun r c => if 2 + 3 ≤ r ∧ (r - (2 + 3)) % 5 = 0 ∧ (r - (2 + 3)) / 5 < n - 1
      then lin 3 (o2.at' (r - 3 + 5) c) (o2.at' (r - 3) c) else o2.at' r c⟩ with ho3
  have e4 := rowStep_two o3 n 4 hn (by omega)
  set o4 : Arr := ⟨o3.rows, o3.cols, fun r c => if 2 + 4 ≤ r ∧ (r - (2 + 4)) % 5 = 0 ∧ (r - (2 + 4)) / 5 < n - 1
      then lin 4 (o3.at' (r - 4 + 5) c) (o3.at' (r - 4) c) else o3.at' r c⟩ with ho4
  have e5 := rowStep_two o4 n 5 hn (by omega)
  set o5 : Arr := ⟨o4.rows, o4.cols, fun r c => if 2 + 5 ≤ r ∧ (r - (2 + 5)) % 5 = 0 ∧ (r - (2 + 5)) / 5 < n - 1
      then lin 5 (o4.at' (r - 5 + 5) c) (o4.at' (r - 5) c) else o4.at' r c⟩ with ho5
  have c1 : ∀ k c, o1.at' (5 * k + 2) c = o.at' (5 * k + 2) c := by
    intro k c
    simp only [ho1]
    rw [if_neg (by omega)]
  have c2 : ∀ k c, o2.at' (5 * k + 2) c = o.at' (5 * k + 2) c := by
    intro k c
    simp only [ho2]
    rw [if_neg (by omega), c1]
  have c3 : ∀ k c, o3.at' (5 * k + 2) c = o.at' (5 * k + 2) c := by
    intro k c
    simp only [ho3]
    rw [if_neg (by omega), c2]
  have c4 : ∀ k c, o4.at' (5 * k + 2) c = o.at' (5 * k + 2) c := by
    intro k c
    simp only [ho4]
    rw [if_neg (by omega), c3]
  refine ⟨o5, ?_, rfl, rfl, ?_, ?_, ?_⟩
  · unfold rowLoop
    simp only [List.foldlM_cons, List.foldlM_nil, e1, e2, e3, e4, e5, bind, Except.bind, pure, Except.pure]
  · intro k i c h1 h2 hk
    have step : ∀ (m : Nat) (p q : Arr), q = ⟨p.rows, p.cols, fun r c => if 2 + m ≤ r ∧ (r - (2 + m)) % 5 = 0 ∧ (r - (2 + m)) / 5 < n - 1
        then lin m (p.at' (r - m + 5) c) (p.at' (r - m) c) else p.at' r c⟩ → (∀ k c, p.at' (5 * k + 2) c = o.at' (5 * k + 2) c) →
        q.at' (5 * k + 2 + m) c = lin m (o.at' (5 * (k + 1) + 2) c) (o.at' (5 * k + 2) c) := by
      intro m p q hq hp
      rw [hq]
      simp only
      rw [if_pos (by omega)]
      have a1 : 5 * k + 2 + m - m + 5 = 5 * (k + 1) + 2 := by omega
      have a2 : 5 * k + 2 + m - m = 5 * k + 2 := by omega
      rw [a1, a2, hp, hp]
    have keep : ∀ (m j : Nat) (p q : Arr), q = ⟨p.rows, p.cols, fun r c => if 2 + m ≤ r ∧ (r - (2 + m)) % 5 = 0 ∧ (r - (2 + m)) / 5 < n - 1
        then lin m (p.at' (r - m + 5) c) (p.at' (r - m) c) else p.at' r c⟩ → 1 ≤ j → j < m → m ≤ 5 →
        q.at' (5 * k + 2 + j) c = p.at' (5 * k + 2 + j) c := by
      intro m j p q hq hj1 hj2 hm
      rw [hq]
      simp only
      rw [if_neg (by omega)]
    obtain rfl | rfl | rfl | rfl | rfl : i = 1 ∨ i = 2 ∨ i = 3 ∨ i = 4 ∨ i = 5 := by omega
    · rw [keep 5 1 o4 o5 ho5 (by omega) (by omega) (by omega), keep 4 1 o3 o4 ho4 (by omega) (by omega) (by omega),
        keep 3 1 o2 o3 ho3 (by omega) (by omega) (by omega), keep 2 1 o1 o2 ho2 (by omega) (by omega) (by omega)]
      exact step 1 o o1 ho1 (fun _ _ => rfl)
    · rw [keep 5 2 o4 o5 ho5 (by omega) (by omega) (by omega), keep 4 2 o3 o4 ho4 (by omega) (by omega) (by omega),
        keep 3 2 o2 o3 ho3 (by omega) (by omega) (by omega)]
      exact step 2 o1 o2 ho2 c1
    · rw [keep 5 3 o4 o5 ho5 (by omega) (by omega) (by omega), keep 4 3 o3 o4 ho4 (by omega) (by omega) (by omega)]
      exact step 3 o2 o3 ho3 c2
    · rw [keep 5 4 o4 o5 ho5 (by omega) (by omega) (by omega)]
      exact step 4 o3 o4 ho4 c3
    · exact step 5 o4 o5 ho5 c4
  · intro c
    have := c4 0 c
    simp only [ho5]
    rw [if_neg (by omega)]
    exact this
  · intro r c hr
    simp only [ho5]
    rw [if_neg (by omega)]
    simp only [ho4]
    rw [if_neg (by omega)]
    simp only [ho3]
    rw [if_neg (by omega)]
    simp only [ho2]
    rw [if_neg (by omega)]
    simp only [ho1]
    rw [if_neg (by omega)]

/-- A column that has values in all centre rows is interpolated between them. -/
theorem rowLoop_some (o o' : Arr) (n : Nat) (hn : o.rows = 5 * n) (h : rowLoop .two o = .ok o') (c : Nat) (g : Nat → ℚ)
    (hg : ∀ k, k < n → o.at' (5 * k + 2) c = some (g k)) (r : Nat) (h1 : 2 ≤ r) (h2 : r + 3 ≤ 5 * n) :
    o'.at' r c = some (((5 - ((r - 2) % 5 : Nat) : ℚ) * g ((r - 2) / 5) + ((r - 2) % 5 : Nat) * g ((r - 2) / 5 + 1)) / 5) := by
  obtain ⟨o₂, e, -, -, hi, hz, -⟩ := rowLoop_two o n hn
  rw [h] at e
  cases e
  by_cases h0 : (r - 2) % 5 = 0
  · by_cases hr : r = 2
    · subst hr
      rw [hz c]
      have := hg 0 (by omega)
      rw [Nat.mul_zero, Nat.zero_add] at this
      rw [this]
      norm_num
    · have hk : r = 5 * ((r - 2) / 5 - 1) + 2 + 5 := by omega
      have := hi ((r - 2) / 5 - 1) 5 c (by omega) (by omega) (by omega)
      rw [← hk, hg _ (by omega), hg _ (by omega)] at this
      rw [this, h0]
      have e1 : (r - 2) / 5 - 1 + 1 = (r - 2) / 5 := by omega
      rw [e1]
      simp only [lin]
      congr 1
      push_cast
      ring
  · have hk : r = 5 * ((r - 2) / 5) + 2 + (r - 2) % 5 := by omega
    have := hi ((r - 2) / 5) ((r - 2) % 5) c (by omega) (by omega) (by omega)
    rw [← hk, hg _ (by omega), hg _ (by omega)] at this
    rw [this]
    simp only [lin]
    congr 1
    ring

/-- A column that has no values in the centre rows gets none. -/
theorem rowLoop_none (o o' : Arr) (n : Nat) (hn : o.rows = 5 * n) (h : rowLoop .two o = .ok o') (c : Nat)
    (hg : ∀ k, k < n → o.at' (5 * k + 2) c = none) (r : Nat) (h1 : 2 ≤ r) (h2 : r + 3 ≤ 5 * n) : o'.at' r c = none := by
  obtain ⟨o₂, e, -, -, hi, hz, -⟩ := rowLoop_two o n hn
  rw [h] at e
  cases e
  by_cases h0 : (r - 2) % 5 = 0
  · by_cases hr : r = 2
    · subst hr
      rw [hz c]
      exact hg 0 (by omega)
    · have hk : r = 5 * ((r - 2) / 5 - 1) + 2 + 5 := by omega
      have := hi ((r - 2) / 5 - 1) 5 c (by omega) (by omega) (by omega)
      rw [← hk, hg _ (by omega), hg _ (by omega)] at this
      exact this
  · have hk : r = 5 * ((r - 2) / 5) + 2 + (r - 2) % 5 := by omega
    have := hi ((r - 2) / 5) ((r - 2) % 5) c (by omega) (by omega) (by omega)
    rw [← hk, hg _ (by omega), hg _ (by omega)] at this
    exact this

theorem rowLoop_edge (o o' : Arr) (n : Nat) (hn : o.rows = 5 * n) (h : rowLoop .two o = .ok o') (r c : Nat) (hr : r < 2 ∨ 5 * n < r + 3) :
    o'.at' r c = o.at' r c := by
  obtain ⟨o₂, e, -, -, -, -, he⟩ := rowLoop_two o n hn
  rw [h] at e
  cases e
  exact he r c hr

/-- The value of the first loop at row `r` and centre column `l`. -/
def rowValue (data : MArr) (r l : Nat) : ℚ :=
  ((5 - ((r - 2) % 5 : Nat) : ℚ) * (data.at' ((r - 2) / 5) l).1 + ((r - 2) % 5 : Nat) * (data.at' ((r - 2) / 5 + 1) l).1) / 5

theorem interpolate_two (data : MArr) : ∃ a, fieldInterpolate .two data = .ok a ∧ a.rows = 5 * data.rows ∧ a.cols = 5 * data.cols ∧
    (∀ r c, 2 ≤ r → r + 3 ≤ 5 * data.rows → 2 ≤ c → c + 3 ≤ 5 * data.cols → a.at' r c =
      some (((5 - ((c - 2) % 5 : Nat) : ℚ) * rowValue data r ((c - 2) / 5) + ((c - 2) % 5 : Nat) * rowValue data r ((c - 2) / 5 + 1)) / 5)) ∧
    (∀ r c, r < 5 * data.rows → c < 5 * data.cols → (r < 2 ∨ 5 * data.rows < r + 3 ∨ c < 2 ∨ 5 * data.cols < c + 3) → a.at' r c = none) := by
  obtain ⟨o, e, er, ec, -⟩ := rowLoop_two (spread data) data.rows rfl
  obtain ⟨q, e', er', ec', -⟩ := rowLoop_two (swap o) data.cols ec
  have h1 : ∀ r l, 2 ≤ r → r + 3 ≤ 5 * data.rows → o.at' r (5 * l + 2) = some (rowValue data r l) := by
    intro r l hr1 hr2
    refine rowLoop_some (spread data) o data.rows rfl e (5 * l + 2) (fun k => (data.at' k l).1) ?_ r hr1 hr2
    intro k _
    simp only [spread]
    rw [if_pos (by omega)]
    have a1 : (5 * k + 2) / 5 = k := by omega
    have a2 : (5 * l + 2) / 5 = l := by omega
    rw [a1, a2]
  have h2 : ∀ r c, c % 5 ≠ 2 → o.at' r c = none := by
    intro r c hc
    have hs : ∀ r', (spread data).at' r' c = none := by
      intro r'
      simp only [spread]
      rw [if_neg (by omega)]
    by_cases hr : r < 2 ∨ 5 * data.rows < r + 3
    · rw [rowLoop_edge (spread data) o data.rows rfl e r c hr, hs]
    · exact rowLoop_none (spread data) o data.rows rfl e c (fun k _ => hs _) r (by omega) (by omega)
  have h3 : ∀ r c, r < 5 * data.rows → (r < 2 ∨ 5 * data.rows < r + 3) → o.at' r c = none := by
    intro r c hr0 hr
    rw [rowLoop_edge (spread data) o data.rows rfl e r c hr]
    simp only [spread]
    rw [if_neg (by omega)]
  refine ⟨swap q, ?_, ?_, ?_, ?_, ?_⟩
  · unfold fieldInterpolate
    rw [e]
    simp only
    unfold colLoop
    rw [e']
  · show q.cols = _
    rw [ec']
    exact er
  · show q.rows = _
    rw [er']
    exact ec
  · intro r c hr1 hr2 hc1 hc2
    exact rowLoop_some (swap o) q data.cols ec e' r (rowValue data r) (fun l _ => h1 r l hr1 hr2) c hc1 hc2
  · intro r c hr hc hcase
    show q.at' c r = none
    by_cases hce : c < 2 ∨ 5 * data.cols < c + 3
    · rw [rowLoop_edge (swap o) q data.cols ec e' c r hce]
      exact h2 r c (by omega)
    · exact rowLoop_none (swap o) q data.cols ec e' r (fun l _ => h3 r _ hr (by omega)) c (by omega) (by omega)

/-- C100 with Python 2: each of five by five pixels between four positions has the position interpolated from them; positions given are
kept; the two outermost rows and columns have no position. -/
theorem c100_interpolated_partial (data : MArr) : ∃ a, fieldInterpolate .two data = .ok a ∧ a.rows = 5 * data.rows ∧ a.cols = 5 * data.cols ∧
    (∀ k l i j, k + 1 < data.rows → l + 1 < data.cols → i ≤ 5 → j ≤ 5 →
      a.at' (5 * k + 2 + i) (5 * l + 2 + j) = some (Spec.bilinear data k l i j)) ∧
    (∀ k l, k < data.rows → l < data.cols → a.at' (5 * k + 2) (5 * l + 2) = some (data.at' k l).1) ∧
    (∀ r c, r < 5 * data.rows → c < 5 * data.cols →
      (a.at' r c = none ↔ r < 2 ∨ 5 * data.rows < r + 3 ∨ c < 2 ∨ 5 * data.cols < c + 3)) := by
  obtain ⟨a, e, er, ec, hv, hn⟩ := interpolate_two data
  refine ⟨a, e, er, ec, ?_, ?_, ?_⟩
  · have key : ∀ (g : Nat → ℚ) (k i : Nat), i ≤ 5 → ((5 - (((5 * k + 2 + i) - 2) % 5 : Nat) : ℚ) * g (((5 * k + 2 + i) - 2) / 5) +
        (((5 * k + 2 + i) - 2) % 5 : Nat) * g (((5 * k + 2 + i) - 2) / 5 + 1)) / 5 = ((5 - i) * g k + i * g (k + 1)) / 5 := by
      intro g k i hi
      by_cases h5 : i = 5
      · subst h5
        have a1 : (5 * k + 2 + 5 - 2) % 5 = 0 := by omega
        have a2 : (5 * k + 2 + 5 - 2) / 5 = k + 1 := by omega
        rw [a1, a2]
        push_cast
        ring
      · have a1 : (5 * k + 2 + i - 2) % 5 = i := by omega
        have a2 : (5 * k + 2 + i - 2) / 5 = k := by omega
        rw [a1, a2]
    intro k l i j hk hl hi hj
    rw [hv _ _ (by omega) (by omega) (by omega) (by omega)]
    rw [key (rowValue data (5 * k + 2 + i)) l j hj]
    unfold rowValue Spec.bilinear
    rw [key (fun x => (data.at' x l).1) k i hi, key (fun x => (data.at' x (l + 1)).1) k i hi]
    congr 1
    ring
  · intro k l hk hl
    rw [hv _ _ (by omega) (by omega) (by omega) (by omega)]
    have a1 : (5 * k + 2 - 2) % 5 = 0 := by omega
    have a2 : (5 * k + 2 - 2) / 5 = k := by omega
    have b1 : (5 * l + 2 - 2) % 5 = 0 := by omega
    have b2 : (5 * l + 2 - 2) / 5 = l := by omega
    unfold rowValue
    rw [a1, a2, b1, b2]
    congr 1
    push_cast
    ring
  · intro r c hr hc
    constructor
    · intro hnone
      by_contra hcase
      rw [hv r c (by omega) (by omega) (by omega) (by omega)] at hnone
      cases hnone
    · exact hn r c hr hc

/-- C100: interpolation is done exactly for variables whose first dimension is named 1km. -/
theorem c100_scale (dims : List (String × List Char)) (var : String) (d : List Char) (h : dims.find? (fun x => x.1 == var) = some (var, d)) :
    (∃ s, dataScale dims var = .ok s ∧ (s = some "1km".toList ↔ "1km".toList <:+: d)) := by
  unfold dataScale
  rw [h]
  refine ⟨_, rfl, ?_⟩
  have hin : ∀ (s t : List Char), isInfix s t = true ↔ s <:+: t := by
    intro s t
    unfold isInfix
    rw [List.any_eq_true]
    constructor
    · rintro ⟨u, hu, hp⟩
      rw [List.mem_tails] at hu
      rw [List.isPrefixOf_iff_prefix] at hp
      exact hp.isInfix.trans hu.isInfix
    · rintro ⟨a, b, rfl⟩
      refine ⟨s ++ b, ?_, ?_⟩
      · rw [List.mem_tails]
        exact ⟨a, by simp⟩
      · rw [List.isPrefixOf_iff_prefix]
        exact ⟨b, rfl⟩
  rw [← hin, List.find?_cons]
  cases hx : isInfix "1km".toList d with
  | true => simp [hx]
  | false =>
    simp only [hx]
    constructor
    · intro hc
      have := List.mem_of_find?_eq_some hc
      revert this
      decide
    · intro hc; cases hc

/-- C100: other variables, and coordinates alone, have as many latitudes as the file. -/
theorem c100_plain (py : Python) (dims : List (String × List Char)) (lat time : MArr) (v : String) (s : Option (List Char))
    (h : dataScale dims v = .ok s) (hs : s ≠ some "1km".toList) :
    coordSizes py dims none lat time = .ok (lat.rows * lat.cols, time.rows * time.cols) ∧
    coordSizes py dims (some v) lat time = .ok (lat.rows * lat.cols, time.rows * time.cols) := by
  constructor
  · rfl
  · unfold coordSizes
    simp only [h]
    rw [if_neg hs]

/-! ### A concrete case, and where the property fails -/

def exData : MArr := ⟨2, 2, fun r c => ((10 * r + c : Nat), false)⟩

def shownAt (r : Except Err Arr) (i j : Nat) : Option ℚ :=
  match r with
  | .ok a => a.at' i j
  | .error _ => none

example : shownAt (fieldInterpolate .two exData) 2 2 = some 0 ∧ shownAt (fieldInterpolate .two exData) 4 7 = some 5 ∧
    shownAt (fieldInterpolate .two exData) 7 7 = some 11 ∧ shownAt (fieldInterpolate .two exData) 1 7 = none := by decide +kernel

example : dataScale [("Cloud_Mask_1km", "Cell_Along_Swath_1km:mod06".toList)] "Cloud_Mask_1km" = .ok (some "1km".toList) := by decide +kernel

/-- C100 is violated with Python 3: no 1 km variable can be read at all; the bound of a slice is not an integer. -/
theorem c100_python3_violated (dims : List (String × List Char)) (v : String) (lat time : MArr)
    (h : dataScale dims v = .ok (some "1km".toList)) : coordSizes .three dims (some v) lat time = .error .type := by
  unfold coordSizes
  simp only [h, if_true]
  rfl

/-- C100 is violated with Python 2 by the times: there are 25 times as many positions. -/
theorem c100_times_violated (dims : List (String × List Char)) (v : String) (lat time : MArr) (hsame : time.rows = lat.rows ∧ time.cols = lat.cols)
    (hne : 0 < lat.rows ∧ 0 < lat.cols) (h : dataScale dims v = .ok (some "1km".toList)) :
    ∃ a b, coordSizes .two dims (some v) lat time = .ok (a, b) ∧ a = 25 * b ∧ a ≠ b := by
  obtain ⟨a, e, er, ec, -⟩ := interpolate_two lat
  have hpos := Nat.mul_pos hne.1 hne.2
  refine ⟨a.rows * a.cols, time.rows * time.cols, ?_, ?_, ?_⟩
  · unfold coordSizes
    simp only [h, if_true, e]
  · rw [er, ec, hsame.1, hsame.2]
    ring
  · rw [er, ec, hsame.1, hsame.2]
    intro hc
    have : 5 * lat.rows * (5 * lat.cols) = 25 * (lat.rows * lat.cols) := by ring
    omega

/-- C100 is violated by missing positions: the fill value under the mask (here -999) is taken for a position, and pulls the pixels around
it away. -/
theorem c100_missing_violated : shownAt (fieldInterpolate .two ⟨1, 2, fun _ c => if c = 0 then (50, false) else (-999, true)⟩) 2 7 = some (-999) ∧
    shownAt (fieldInterpolate .two ⟨1, 2, fun _ c => if c = 0 then (50, false) else (-999, true)⟩) 2 3 = some (-799 / 5) := by
  decide +kernel

/-- C100 is violated across the antimeridian: between 179 and -179 degrees east (two degrees apart) lie pixels on the other side of the
Earth. -/
theorem c100_antimeridian_violated :
    shownAt (fieldInterpolate .two ⟨1, 2, fun _ c => if c = 0 then (179, false) else (-179, false)⟩) 2 4 = some (179 / 5) := by
  decide +kernel

/-- C100: with several files, the given positions of each file stay at the centre pixels of its own rows. -/
theorem c100_files_partial (a b : MArr) (hc : b.cols = a.cols) : ∃ o, fieldInterpolate .two (concat a b) = .ok o ∧
    (∀ k l, k < a.rows → l < a.cols → o.at' (5 * k + 2) (5 * l + 2) = some (a.at' k l).1) ∧
    (∀ k l, k < b.rows → l < b.cols → o.at' (5 * a.rows + (5 * k + 2)) (5 * l + 2) = some (b.at' k l).1) := by
  obtain ⟨o, e, -, -, -, h, -⟩ := c100_interpolated_partial (concat a b)
  refine ⟨o, e, ?_, ?_⟩
  · intro k l hk hl
    rw [h k l (by show k < a.rows + b.rows; omega) hl]
    simp [concat, hk]
  · intro k l hk hl
    have := h (a.rows + k) l (by show a.rows + k < a.rows + b.rows; omega) (by show l < a.cols; omega)
    rw [show 5 * a.rows + (5 * k + 2) = 5 * (a.rows + k) + 2 by ring, this]
    simp [concat]

/-- C100 is violated by several files: the rows at the seam are interpolated between the last positions of one file and the first of the
next, however far apart, where the file alone gives none. -/
theorem c100_files_violated : shownAt (fieldInterpolate .two (concat ⟨1, 1, fun _ _ => (0, false)⟩ ⟨1, 1, fun _ _ => (50, false)⟩)) 4 2 = some 20 ∧
    shownAt (fieldInterpolate .two ⟨1, 1, fun _ _ => (0, false)⟩) 4 2 = none := by
  decide +kernel

end Cis.ModisInterp
