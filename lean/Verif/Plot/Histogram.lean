import Verif.Masks.Model
import Mathlib.Data.Rat.Floor
import Mathlib.Tactic
set_option linter.unusedSectionVars false
set_option linter.unusedSimpArgs false
/-!
Model of histograms and comparative scatter plots: `Histogram` (plotting/histogram.py), `Histogram2D` (plotting/histogram2d.py),
`ComparativeScatter` (plotting/comparativescatter.py), and the choice of what is plotted in `basic_plot` (plotting/plot.py:339-372).
Property C99.

Values are rationals, with a mask; arrays are flat. numpy's `histogram` (uniform bins) and `histogramdd` are modelled as their algorithms,
without rounding; NaN are not modelled. matplotlib draws cell (j, i) of a mesh between the edges i, i+1 in x and j, j+1 in y, and no point
or cell that is masked (contracts). Colours, labels and the guide line are not modelled.
-/
namespace Cis.Hist

open Cis.Masks (MArr compressed intersect)

inductive Err
  | value
  | style
  | attribute
deriving DecidableEq

/-! ### numpy -/

def minOf : List ℚ → ℚ
  | [] => 0
  | [x] => x
  | x :: t => min x (minOf t)

def maxOf : List ℚ → ℚ
  | [] => 1
  | [x] => x
  | x :: t => max x (maxOf t)

/-- The range of the bins (numpy `_get_outer_edges`): 0 to 1 for no data, widened if all values are equal. -/
def outer (data : List ℚ) : ℚ × ℚ :=
  if minOf data = maxOf data then (minOf data - 1 / 2, maxOf data + 1 / 2) else (minOf data, maxOf data)

/-- `linspace(lo, hi, n + 1)`, the edge of number `i`. -/
def edge (lo hi : ℚ) (n i : Nat) : ℚ := lo + (hi - lo) * i / n

/-- `numpy.histogram` with `n` uniform bins: the bin of a value is found by multiplication; the last bin has its right edge. -/
def binOf (lo hi : ℚ) (n : Nat) (x : ℚ) : Nat :=
  let k := ⌊(x - lo) / (hi - lo) * n⌋.toNat
  if k = n then n - 1 else k

/-- `numpy.histogram`: edges and counts; at least one bin is asked for. -/
def npHistogram (data : List ℚ) (n : Nat) : Except Err (List ℚ × List Nat) :=
  if n = 0 then .error .value
  else
    let r := outer data
    .ok ((List.range (n + 1)).map (edge r.1 r.2 n), (List.range n).map (fun i => data.countP (fun x => binOf r.1 r.2 n x == i)))

/-- `searchsorted(edges, x, side='right')` less one for values on the last edge, less one for the bin before the first edge
(numpy `histogramdd`). -/
def digitize (edges : List ℚ) (x : ℚ) : Int :=
  ((edges.countP (fun e => decide (e ≤ x)) : Nat) : Int) - (if edges.getLast? = some x then 1 else 0) - 1

structure H2 where
  xedges : List ℚ
  yedges : List ℚ
  counts : List (List Nat)

/-- `numpy.histogram2d`: the counts are indexed by the bin of x, then by the bin of y. -/
def npHistogram2d (xs ys : List ℚ) (nx ny : Nat) : Except Err H2 :=
  if nx = 0 ∨ ny = 0 ∨ xs.length ≠ ys.length then .error .value
  else
    let rx := outer xs
    let ry := outer ys
    let ex := (List.range (nx + 1)).map (edge rx.1 rx.2 nx)
    let ey := (List.range (ny + 1)).map (edge ry.1 ry.2 ny)
    .ok ⟨ex, ey, (List.range nx).map (fun i : Nat => (List.range ny).map (fun j : Nat =>
      (xs.zip ys).countP (fun p => digitize ex p.1 == (i : Int) && digitize ey p.2 == (j : Int))))⟩

/-! ### The plots -/

/-- `valid_histogram_styles` (histogram.py:8). -/
def styles : List String := ["bar", "step", "stepfilled"]

/-- `Histogram.__call__` (histogram.py:20-45): what is drawn. The empty style is as none. -/
def histogram (data : MArr ℚ) (xbins : Nat) (style : Option String) : Except Err (List ℚ × List Nat) :=
  match style with
  | some s => if s ≠ "" ∧ s ∉ styles then .error .style else npHistogram (compressed data) xbins
  | none => npHistogram (compressed data) xbins

/-- The axis given to a comparative plot: a coordinate, with points, or data, which have none. Coordinates of iris have no `data`. -/
inductive Axis
  | coord (iris : Bool) (points : MArr ℚ)
  | data (values : MArr ℚ)

/-- The truth of an array: the truth of its one element; an error if there are several. (A masked element counts as false.) -/
def truth : MArr ℚ → Except Err Bool
  | [] => .ok false
  | [p] => .ok (!p.2 && p.1 != 0)
  | _ => .error .value

/-- `getattr(self.xaxis, 'points', None) or self.xaxis.data` (comparativescatter.py:17). -/
def axisValues : Axis → Except Err (MArr ℚ)
  | .data v => .ok v
  | .coord iris p => match truth p with
    | .error e => .error e
    | .ok true => .ok p
    | .ok false => if iris then .error .attribute else .ok p

/-- `ComparativeScatter.__call__` (comparativescatter.py:24-44): the points drawn. -/
def scatter (x : Axis) (y : MArr ℚ) : Except Err (List (ℚ × ℚ)) :=
  match axisValues x with
  | .error e => .error e
  | .ok xv => if xv.length ≠ y.length then .error .value
    else .ok (((xv.zip y).filter (fun p => !p.1.2 && !p.2.2)).map (fun p => (p.1.1, p.2.1)))

/-- A mesh: the edges, and the colour of each cell by row (y) and column (x); `none` is not drawn. -/
structure Mesh where
  xedges : List ℚ
  yedges : List ℚ
  cells : List (List (Option Nat))

/-- `histogram2ddata.T` of an array with `m` columns. -/
def transpose (m : Nat) (a : List (List (Option Nat))) : List (List (Option Nat)) :=
  (List.range m).map (fun j => a.map (fun r => (r[j]?).join))

/-- `Histogram2D.__call__` (histogram2d.py:38-60). -/
def histogram2d (x : Axis) (y : MArr ℚ) (xbins ybins : Nat) : Except Err Mesh :=
  match axisValues x with
  | .error e => .error e
  | .ok xv => if xv.length ≠ y.length then .error .value
    else
      let both := intersect xv y
      match npHistogram2d (compressed both.1) (compressed both.2) xbins ybins with
      | .error e => .error e
      | .ok h => .ok ⟨h.xedges, h.yedges, transpose ybins (h.counts.map (fun r => r.map (fun c => if c = 0 then none else some c)))⟩

/-- What `basic_plot` hands to the plot as data (plotting/plot.py:366-372): `generic` says whether the plot is a `GenericPlot` (line,
scatter, histogram); `yaxis` is the coordinate found for the y axis the user gave, if any. -/
def plottedData (generic : Bool) (data : MArr ℚ) (yaxis : Option (MArr ℚ)) : MArr ℚ :=
  match yaxis with
  | some c => if generic then c else data
  | none => data

/-! ### Specification -/

/-- The value lies in bin `i` of `n`: between its edges, the right edge only in the last bin. -/
def Spec.InBin (edges : List ℚ) (n i : Nat) (x : ℚ) : Prop :=
  ∃ lo hi, edges[i]? = some lo ∧ edges[i + 1]? = some hi ∧ lo ≤ x ∧ (x < hi ∨ (i + 1 = n ∧ x = hi))

/-- The values that are not missing. -/
def Spec.valid (data : MArr ℚ) : List ℚ := data.filterMap (fun p => if p.2 then none else some p.1)

/-- The pairs of values, neither of which is missing. -/
def Spec.pairs (x y : MArr ℚ) : List (ℚ × ℚ) := (x.zip y).filterMap (fun p => if p.1.2 || p.2.2 then none else some (p.1.1, p.2.1))

open Classical in
/-- The number of elements with a property. -/
noncomputable def Spec.count {α : Type} (l : List α) (p : α → Prop) : Nat := l.countP (fun x => decide (p x))

/-- The edges are those of `n` bins of equal width from `lo` to `hi`. -/
def Spec.Even (edges : List ℚ) (n : Nat) (lo hi : ℚ) : Prop :=
  edges.length = n + 1 ∧ edges.head? = some lo ∧ edges.getLast? = some hi ∧
    ∀ i a b, edges[i]? = some a → edges[i + 1]? = some b → b - a = (hi - lo) / n

/-! ### Proofs -/

theorem compressed_valid (data : MArr ℚ) : compressed data = Spec.valid data := by
  unfold compressed Spec.valid
  induction data with
  | nil => rfl
  | cons p t ih =>
    cases h : p.2 <;> simp [List.filter_cons, h] <;> simpa using ih

theorem minOf_le : ∀ (l : List ℚ) (x : ℚ), x ∈ l → minOf l ≤ x
  | [], x, h => by cases h
  | [a], x, h => by simp at h; subst h; exact le_refl _
  | a :: b :: t, x, h => by
    unfold minOf
    rcases List.mem_cons.1 h with rfl | h
    · exact min_le_left _ _
    · exact le_trans (min_le_right _ _) (minOf_le (b :: t) x h)

theorem le_maxOf : ∀ (l : List ℚ) (x : ℚ), x ∈ l → x ≤ maxOf l
  | [], x, h => by cases h
  | [a], x, h => by simp at h; subst h; exact le_refl _
  | a :: b :: t, x, h => by
    unfold maxOf
    rcases List.mem_cons.1 h with rfl | h
    · exact le_max_left _ _
    · exact le_trans (le_maxOf (b :: t) x h) (le_max_right _ _)

theorem minOf_mem : ∀ (l : List ℚ), l ≠ [] → minOf l ∈ l
  | [], h => absurd rfl h
  | [a], _ => by simp [minOf]
  | a :: b :: t, _ => by
    unfold minOf
    rcases min_choice a (minOf (b :: t)) with h | h
    · rw [h]; simp
    · rw [h]; exact List.mem_cons_of_mem _ (minOf_mem (b :: t) (by simp))

theorem maxOf_mem : ∀ (l : List ℚ), l ≠ [] → maxOf l ∈ l
  | [], h => absurd rfl h
  | [a], _ => by simp [maxOf]
  | a :: b :: t, _ => by
    unfold maxOf
    rcases max_choice a (maxOf (b :: t)) with h | h
    · rw [h]; simp
    · rw [h]; exact List.mem_cons_of_mem _ (maxOf_mem (b :: t) (by simp))

theorem minOf_le_maxOf : ∀ (l : List ℚ), minOf l ≤ maxOf l
  | [] => by simp [minOf, maxOf]
  | a :: t => le_trans (minOf_le (a :: t) a (by simp)) (le_maxOf (a :: t) a (by simp))

theorem outer_lt (data : List ℚ) : (outer data).1 < (outer data).2 := by
  unfold outer
  split
  · rename_i h
    simp only
    rw [h]
    linarith
  · rename_i h
    exact lt_of_le_of_ne (minOf_le_maxOf data) h

theorem outer_mem (data : List ℚ) (x : ℚ) (hx : x ∈ data) : (outer data).1 ≤ x ∧ x ≤ (outer data).2 := by
  have h1 := minOf_le data x hx
  have h2 := le_maxOf data x hx
  unfold outer
  split
  · exact ⟨by simp only; linarith, by simp only; linarith⟩
  · exact ⟨h1, h2⟩

theorem edge_strict (lo hi : ℚ) (h : lo < hi) (n : Nat) (hn : 0 < n) (i j : Nat) : edge lo hi n i ≤ edge lo hi n j ↔ i ≤ j := by
  unfold edge
  have hn' : (0 : ℚ) < n := by exact_mod_cast hn
  rw [add_le_add_iff_left, div_le_div_iff_of_pos_right hn', mul_le_mul_iff_of_pos_left (by linarith)]
  exact_mod_cast Iff.rfl

theorem edge_le_iff (lo hi : ℚ) (h : lo < hi) (n : Nat) (hn : 0 < n) (i : Nat) (x : ℚ) :
    edge lo hi n i ≤ x ↔ (i : ℚ) ≤ (x - lo) / (hi - lo) * n := by
  unfold edge
  have hn' : (0 : ℚ) < n := by exact_mod_cast hn
  have hd : 0 < hi - lo := by linarith
  rw [div_mul_eq_mul_div, le_div_iff₀ hd, ← le_sub_iff_add_le', div_le_iff₀ hn']
  constructor <;> intro h <;> linarith

theorem edge_zero (lo hi : ℚ) (n : Nat) : edge lo hi n 0 = lo := by simp [edge]

theorem edge_last (lo hi : ℚ) (n : Nat) (hn : 0 < n) : edge lo hi n n = hi := by
  unfold edge
  have hn' : (n : ℚ) ≠ 0 := by exact_mod_cast hn.ne'
  field_simp
  ring

def evenEdges (lo hi : ℚ) (n : Nat) : List ℚ := (List.range (n + 1)).map (edge lo hi n)

theorem evenEdges_get (lo hi : ℚ) (n i : Nat) : (evenEdges lo hi n)[i]? = if i < n + 1 then some (edge lo hi n i) else none := by
  unfold evenEdges
  rw [List.getElem?_map]
  split
  · rename_i h
    rw [List.getElem?_range h]
    rfl
  · rename_i h
    rw [List.getElem?_eq_none (by simp; omega)]
    rfl

theorem inBin_iff (lo hi : ℚ) (n i : Nat) (hi' : i < n) (x : ℚ) :
    Spec.InBin (evenEdges lo hi n) n i x ↔ edge lo hi n i ≤ x ∧ (x < edge lo hi n (i + 1) ∨ (i + 1 = n ∧ x = edge lo hi n (i + 1))) := by
  unfold Spec.InBin
  rw [evenEdges_get, evenEdges_get, if_pos (by omega), if_pos (by omega)]
  constructor
  · rintro ⟨a, b, ha, hb, h⟩
    cases ha
    cases hb
    exact h
  · intro h
    exact ⟨_, _, rfl, rfl, h⟩

theorem evenEdges_even (lo hi : ℚ) (n : Nat) (hn : 0 < n) : Spec.Even (evenEdges lo hi n) n lo hi := by
  refine ⟨by simp [evenEdges], ?_, ?_, ?_⟩
  · rw [List.head?_eq_getElem?, evenEdges_get, if_pos (by omega), edge_zero]
  · rw [List.getLast?_eq_getElem?, evenEdges_get, if_pos (by simp [evenEdges])]
    have : (evenEdges lo hi n).length - 1 = n := by simp [evenEdges]
    rw [this, edge_last lo hi n hn]
  · intro i a b ha hb
    rw [evenEdges_get] at ha hb
    split at ha <;> cases ha
    split at hb <;> cases hb
    unfold edge
    push_cast
    ring

theorem binOf_iff (lo hi : ℚ) (h : lo < hi) (n : Nat) (hn : 0 < n) (x : ℚ) (h1 : lo ≤ x) (h2 : x ≤ hi) (i : Nat) (hi' : i < n) :
    binOf lo hi n x = i ↔ Spec.InBin (evenEdges lo hi n) n i x := by
  rw [inBin_iff lo hi n i hi', edge_le_iff lo hi h n hn, ← not_le, edge_le_iff lo hi h n hn]
  unfold binOf
  simp only
  have hd : 0 < hi - lo := by linarith
  have hn' : (0 : ℚ) < n := by exact_mod_cast hn
  set y := (x - lo) / (hi - lo) * n with hy
  have hy0 : 0 ≤ y := mul_nonneg (div_nonneg (by linarith) hd.le) hn'.le
  have hyn : y ≤ n := by
    have : (x - lo) / (hi - lo) ≤ 1 := by rw [div_le_one hd]; linarith
    calc y ≤ 1 * n := by exact mul_le_mul_of_nonneg_right this hn'.le
      _ = n := one_mul _
  have hlast : x = edge lo hi n n ↔ (n : ℚ) ≤ y := by
    rw [edge_last lo hi n hn]
    rw [hy, ← edge_le_iff lo hi h n hn, edge_last lo hi n hn]
    exact ⟨fun h => h ▸ le_refl _, fun h => le_antisymm h2 h⟩
  have hk : ((⌊y⌋.toNat : Nat) : Int) = ⌊y⌋ := Int.toNat_of_nonneg (Int.floor_nonneg.2 hy0)
  have hfl : ∀ j : Nat, j ≤ ⌊y⌋.toNat ↔ (j : ℚ) ≤ y := by
    intro j
    rw [← Int.ofNat_le, hk, Int.le_floor]
    simp
  have hkn : ⌊y⌋.toNat ≤ n := by
    by_contra hc
    have := (hfl (n + 1)).1 (by omega)
    push_cast at this
    linarith
  by_cases hkn' : ⌊y⌋.toNat = n
  · rw [if_pos hkn']
    have hny : (n : ℚ) ≤ y := (hfl n).1 (by omega)
    constructor
    · intro he
      have hin : i + 1 = n := by omega
      refine ⟨?_, .inr ⟨hin, ?_⟩⟩
      · have : (i : ℚ) ≤ n := by exact_mod_cast hi'.le
        linarith
      · rw [hin]; exact hlast.2 hny
    · rintro ⟨-, hlt | ⟨he, -⟩⟩
      · exfalso
        apply hlt
        have : ((i + 1 : Nat) : ℚ) ≤ n := by exact_mod_cast hi'
        linarith
      · omega
  · rw [if_neg hkn']
    have hny : ¬ (n : ℚ) ≤ y := fun hc => hkn' (le_antisymm hkn ((hfl n).2 hc))
    rw [← hfl, ← hfl]
    constructor
    · intro he
      exact ⟨he.ge, .inl (by omega)⟩
    · rintro ⟨h3, h4 | ⟨h4, h5⟩⟩
      · omega
      · rw [h4] at h5
        exact absurd (hlast.1 h5) hny

/-- Every value between the outer edges lies in exactly one bin. -/
theorem one_bin (lo hi : ℚ) (h : lo < hi) (n : Nat) (hn : 0 < n) (x : ℚ) (h1 : lo ≤ x) (h2 : x ≤ hi) :
    ∃ i, i < n ∧ ∀ j, j < n → (Spec.InBin (evenEdges lo hi n) n j x ↔ j = i) := by
  have hb : binOf lo hi n x < n := by
    have hd : 0 < hi - lo := by linarith
    have hn' : (0 : ℚ) < n := by exact_mod_cast hn
    have hyn : (x - lo) / (hi - lo) * n ≤ n := by
      have : (x - lo) / (hi - lo) ≤ 1 := by rw [div_le_one hd]; linarith
      calc (x - lo) / (hi - lo) * n ≤ 1 * n := by exact mul_le_mul_of_nonneg_right this hn'.le
        _ = n := one_mul _
    have : ⌊(x - lo) / (hi - lo) * n⌋ ≤ n := by
      have := Int.floor_le_floor hyn
      simpa using this
    unfold binOf
    simp only
    split <;> omega
  refine ⟨binOf lo hi n x, hb, ?_⟩
  intro j hj
  rw [← binOf_iff lo hi h n hn x h1 h2 j hj]
  exact eq_comm

/-- `digitize` finds the bin a value lies in. -/
theorem digitize_iff (lo hi : ℚ) (h : lo < hi) (n : Nat) (hn : 0 < n) (x : ℚ) (h1 : lo ≤ x) (h2 : x ≤ hi) (i : Nat) (hi' : i < n) :
    digitize (evenEdges lo hi n) x = (i : Int) ↔ Spec.InBin (evenEdges lo hi n) n i x := by
  obtain ⟨k, hk, hkb⟩ := one_bin lo hi h n hn x h1 h2
  have hkin := (hkb k hk).2 rfl
  have hlastE : (evenEdges lo hi n).getLast? = some hi := (evenEdges_even lo hi n hn).2.2.1
  have hcount : ∀ m : Nat, (∀ j, j < n + 1 → (edge lo hi n j ≤ x ↔ j < m)) → m ≤ n + 1 →
      (evenEdges lo hi n).countP (fun e => decide (e ≤ x)) = m := by
    intro m hm hmn
    unfold evenEdges
    rw [List.countP_map]
    have : (List.range (n + 1)).countP ((fun e => decide (e ≤ x)) ∘ edge lo hi n) = (List.range (n + 1)).countP (fun j => decide (j < m)) := by
      apply List.countP_congr
      intro j hj
      have := hm j (List.mem_range.1 hj)
      simp [this]
    rw [this]
    clear this hm
    have : ∀ N, (List.range N).countP (fun j => decide (j < m)) = min N m := by
      intro N
      induction N with
      | zero => simp
      | succ N ih =>
        rw [List.range_succ, List.countP_append, ih]
        by_cases hNm : N < m
        · simp [hNm]; omega
        · simp [hNm]; omega
    rw [this]
    omega
  have hd : digitize (evenEdges lo hi n) x = (k : Int) := by
    rw [inBin_iff lo hi n k hk] at hkin
    obtain ⟨ha, hb⟩ := hkin
    unfold digitize
    rw [hlastE]
    by_cases hx : x = hi
    · subst hx
      have hkn : k + 1 = n := by
        rcases hb with hb | hb
        · exfalso
          have : edge lo x n (k + 1) ≤ edge lo x n n := (edge_strict lo x h n hn _ _).2 (by omega)
          rw [edge_last lo x n hn] at this
          linarith
        · exact hb.1
      rw [hcount (n + 1) ?_ (le_refl _), if_pos rfl]
      · push_cast
        omega
      · intro j hj
        have : edge lo x n j ≤ edge lo x n n := (edge_strict lo x h n hn _ _).2 (by omega)
        rw [edge_last lo x n hn] at this
        exact ⟨fun _ => hj, fun _ => this⟩
    · rw [hcount (k + 1) ?_ (by omega), if_neg (by intro hc; cases hc; exact hx rfl)]
      · push_cast
        omega
      · have hlt : x < edge lo hi n (k + 1) := by
          rcases hb with hb | ⟨hb1, hb2⟩
          · exact hb
          · exfalso
            rw [hb1, edge_last lo hi n hn] at hb2
            exact hx hb2
        intro j hj
        constructor
        · intro hc
          by_contra hjk
          have : edge lo hi n (k + 1) ≤ edge lo hi n j := (edge_strict lo hi h n hn _ _).2 (by omega)
          linarith
        · intro hc
          exact le_trans ((edge_strict lo hi h n hn _ _).2 (by omega)) ha
  rw [hd, hkb i hi']
  constructor
  · intro h; exact_mod_cast h.symm
  · intro h; exact_mod_cast h.symm

theorem sum_counts {α : Type} (f : α → Nat) (n : Nat) : ∀ (l : List α), (∀ x ∈ l, f x < n) →
    ((List.range n).map (fun i => l.countP (fun x => f x == i))).sum = l.length
  | [], _ => by simp
  | a :: t, h => by
    have ih := sum_counts f n t (fun x hx => h x (by simp [hx]))
    simp only [List.countP_cons]
    rw [List.sum_map_add, ih, List.length_cons]
    have : ∀ N, ((List.range N).map (fun i => if (f a == i) = true then 1 else 0)).sum = if f a < N then 1 else 0 := by
      intro N
      induction N with
      | zero => simp
      | succ N ihN =>
        rw [List.range_succ, List.map_append, List.sum_append, ihN]
        by_cases h1 : f a < N
        · have : f a ≠ N := by omega
          simp [h1, this]
          omega
        · by_cases h2 : f a = N
          · simp [h2]
          · simp [h1, h2]
            omega
    rw [this n, if_pos (h a (by simp))]

theorem binOf_lt (lo hi : ℚ) (h : lo < hi) (n : Nat) (hn : 0 < n) (x : ℚ) (h2 : x ≤ hi) : binOf lo hi n x < n := by
  have hd : 0 < hi - lo := by linarith
  have hn' : (0 : ℚ) < n := by exact_mod_cast hn
  have hyn : (x - lo) / (hi - lo) * n ≤ n := by
    have : (x - lo) / (hi - lo) ≤ 1 := by rw [div_le_one hd]; linarith
    calc (x - lo) / (hi - lo) * n ≤ 1 * n := by exact mul_le_mul_of_nonneg_right this hn'.le
      _ = n := one_mul _
  have : ⌊(x - lo) / (hi - lo) * n⌋ ≤ n := by
    have := Int.floor_le_floor hyn
    simpa using this
  unfold binOf
  simp only
  split <;> omega

/-- C99 for histograms: bins of equal width over the range of the values that are not missing; the height of a bin is the number of values
in it; every value that is not missing is counted once. -/
theorem c99_histogram (data : MArr ℚ) (n : Nat) (hn : 0 < n) (style : Option String) (hs : ∀ s, style = some s → s ∈ ["bar", "step", "stepfilled"]) :
    ∃ edges counts, histogram data n style = .ok (edges, counts) ∧ counts.length = n ∧
      (∃ lo hi, Spec.Even edges n lo hi ∧ lo < hi ∧ (∀ x ∈ Spec.valid data, lo ≤ x ∧ x ≤ hi) ∧
        ((∃ x ∈ Spec.valid data, ∃ y ∈ Spec.valid data, x ≠ y) → lo ∈ Spec.valid data ∧ hi ∈ Spec.valid data)) ∧
      (∀ i, i < n → counts[i]? = some (Spec.count (Spec.valid data) (Spec.InBin edges n i))) ∧
      counts.sum = (Spec.valid data).length := by
  have hstyle : histogram data n style = npHistogram (compressed data) n := by
    unfold histogram
    match style with
    | none => rfl
    | some s =>
      simp only
      rw [if_neg]
      rintro ⟨-, hc⟩
      exact hc (hs s rfl)
  rw [hstyle, compressed_valid]
  unfold npHistogram
  rw [if_neg hn.ne']
  refine ⟨_, _, rfl, by simp, ?_, ?_, ?_⟩
  · refine ⟨_, _, evenEdges_even _ _ n hn, outer_lt _, fun x hx => outer_mem _ x hx, ?_⟩
    rintro ⟨x, hx, y, hy, hne⟩
    have hnn : Spec.valid data ≠ [] := by intro hc; rw [hc] at hx; cases hx
    have hmm : minOf (Spec.valid data) ≠ maxOf (Spec.valid data) := by
      intro hc
      apply hne
      have a1 := minOf_le _ x hx
      have a2 := le_maxOf _ x hx
      have b1 := minOf_le _ y hy
      have b2 := le_maxOf _ y hy
      rw [hc] at a1 b1
      linarith
    unfold outer
    rw [if_neg hmm]
    exact ⟨minOf_mem _ hnn, maxOf_mem _ hnn⟩
  · intro i hi
    rw [List.getElem?_map, List.getElem?_range hi]
    simp only [Option.map_some]
    congr 1
    unfold Spec.count
    apply List.countP_congr
    intro x hx
    have hm := outer_mem _ x hx
    have := binOf_iff _ _ (outer_lt (Spec.valid data)) n hn x hm.1 hm.2 i hi
    simp only [beq_iff_eq, decide_eq_true_eq]
    exact this
  · exact sum_counts _ n _ (fun x hx => binOf_lt _ _ (outer_lt _) n hn x (outer_mem _ x hx).2)

/-- C99: other styles, and histograms without bins, are refused. -/
theorem c99_refused (data : MArr ℚ) (n : Nat) (s : String) (hs : s ≠ "") (h : s ∉ ["bar", "step", "stepfilled"]) :
    histogram data n (some s) = .error .style ∧ histogram data 0 none = .error .value := by
  constructor
  · unfold histogram
    simp only
    rw [if_pos ⟨hs, h⟩]
  · rfl

theorem intersect_pairs : ∀ (x y : MArr ℚ),
    (compressed (intersect x y).1).zip (compressed (intersect x y).2) = Spec.pairs x y ∧
    (compressed (intersect x y).1).length = (compressed (intersect x y).2).length
  | [], y => by simp [intersect, compressed, Spec.pairs]
  | _ :: _, [] => by simp [intersect, compressed, Spec.pairs]
  | (a, p) :: t, (b, q) :: u => by
    obtain ⟨h1, h2⟩ := intersect_pairs t u
    simp only [intersect, compressed, Spec.pairs] at h1 h2 ⊢
    cases p <;> cases q <;> simp_all

theorem axisValues_data (v : MArr ℚ) : axisValues (.data v) = .ok v := rfl

/-- C99 for comparative scatter plots: the points drawn are the pairs of values neither of which is missing, in order. -/
theorem c99_scatter (x y : MArr ℚ) (h : x.length = y.length) : scatter (.data x) y = .ok (Spec.pairs x y) := by
  unfold scatter
  rw [axisValues_data]
  simp only
  rw [if_neg (by simp [h])]
  congr 1
  clear h
  induction x generalizing y with
  | nil => simp [Spec.pairs]
  | cons p t ih =>
    cases y with
    | nil => simp [Spec.pairs]
    | cons q u =>
      have := ih u
      unfold Spec.pairs at this ⊢
      cases hp : p.2 <;> cases hq : q.2 <;> simp [List.filter_cons, hp, hq] <;> simpa using this

/-- C99: data of different sizes are refused. -/
theorem c99_sizes (x y : MArr ℚ) (h : x.length ≠ y.length) (m n : Nat) :
    scatter (.data x) y = .error .value ∧ histogram2d (.data x) y m n = .error .value := by
  unfold scatter histogram2d
  rw [axisValues_data]
  simp [h]

/-- C99 for two-dimensional histograms: the cell drawn in column `i` and row `j` has the number of pairs, neither value missing, with the
first in bin `i` of the x axis and the second in bin `j` of the y axis; cells without any are not drawn. -/
theorem c99_histogram2d (x y : MArr ℚ) (h : x.length = y.length) (m n : Nat) (hm : 0 < m) (hn : 0 < n) :
    ∃ mesh, histogram2d (.data x) y m n = .ok mesh ∧
      (∃ a b, a < b ∧ Spec.Even mesh.xedges m a b ∧ ∀ p ∈ Spec.pairs x y, a ≤ p.1 ∧ p.1 ≤ b) ∧
      (∃ a b, a < b ∧ Spec.Even mesh.yedges n a b ∧ ∀ p ∈ Spec.pairs x y, a ≤ p.2 ∧ p.2 ≤ b) ∧
      mesh.cells.length = n ∧
      ∀ i j, i < m → j < n → ∃ row, mesh.cells[j]? = some row ∧ row.length = m ∧
        ∃ c, row[i]? = some c ∧
          c.getD 0 = Spec.count (Spec.pairs x y) (fun p => Spec.InBin mesh.xedges m i p.1 ∧ Spec.InBin mesh.yedges n j p.2) ∧
          (c = none ↔ ∀ p ∈ Spec.pairs x y, ¬ (Spec.InBin mesh.xedges m i p.1 ∧ Spec.InBin mesh.yedges n j p.2)) := by
  obtain ⟨hz, hl⟩ := intersect_pairs x y
  have hx : ∀ p ∈ Spec.pairs x y, p.1 ∈ compressed (intersect x y).1 := by
    intro p hp
    rw [← hz] at hp
    exact (List.of_mem_zip hp).1
  have hy : ∀ p ∈ Spec.pairs x y, p.2 ∈ compressed (intersect x y).2 := by
    intro p hp
    rw [← hz] at hp
    exact (List.of_mem_zip hp).2
  unfold histogram2d
  rw [axisValues_data]
  simp only
  rw [if_neg (by simp [h])]
  unfold npHistogram2d
  rw [if_neg (by simp only [not_or]; exact ⟨hm.ne', hn.ne', by simp [hl]⟩)]
  simp only
  rw [hz]
  set rx := outer (compressed (intersect x y).1) with hrx
  set ry := outer (compressed (intersect x y).2) with hry
  have hxe : (List.range (m + 1)).map (edge rx.1 rx.2 m) = evenEdges rx.1 rx.2 m := rfl
  have hye : (List.range (n + 1)).map (edge ry.1 ry.2 n) = evenEdges ry.1 ry.2 n := rfl
  rw [hxe, hye]
  refine ⟨_, rfl, ⟨rx.1, rx.2, outer_lt _, evenEdges_even _ _ m hm, fun p hp => outer_mem _ _ (hx p hp)⟩,
    ⟨ry.1, ry.2, outer_lt _, evenEdges_even _ _ n hn, fun p hp => outer_mem _ _ (hy p hp)⟩, by simp [transpose], ?_⟩
  intro i j hi hj
  simp only
  have hcount : (Spec.pairs x y).countP (fun p => digitize (evenEdges rx.1 rx.2 m) p.1 == (i : Int) && digitize (evenEdges ry.1 ry.2 n) p.2 == (j : Int)) =
      Spec.count (Spec.pairs x y) (fun p => Spec.InBin (evenEdges rx.1 rx.2 m) m i p.1 ∧ Spec.InBin (evenEdges ry.1 ry.2 n) n j p.2) := by
    unfold Spec.count
    apply List.countP_congr
    intro p hp
    have h1 := outer_mem _ _ (hx p hp)
    have h2 := outer_mem _ _ (hy p hp)
    have e1 := digitize_iff rx.1 rx.2 (outer_lt _) m hm p.1 h1.1 h1.2 i hi
    have e2 := digitize_iff ry.1 ry.2 (outer_lt _) n hn p.2 h2.1 h2.2 j hj
    simp only [Bool.and_eq_true, beq_iff_eq, decide_eq_true_eq]
    rw [e1, e2]
  refine ⟨_, by unfold transpose; rw [List.getElem?_map, List.getElem?_range hj]; rfl, by simp, ?_⟩
  simp only [List.map_map]
  rw [List.getElem?_map, List.getElem?_range hi]
  simp only [Option.map_some, Function.comp_apply]
  refine ⟨_, rfl, ?_⟩
  rw [List.getElem?_map, List.getElem?_map, List.getElem?_range hj]
  simp only [Option.map_some, Option.join_some]
  rw [hcount]
  constructor
  · split
    · rename_i h0; rw [h0]; rfl
    · rfl
  · unfold Spec.count
    split
    · rename_i h0
      rw [List.countP_eq_zero] at h0
      simp only [decide_eq_true_eq] at h0
      exact ⟨fun _ => h0, fun _ => rfl⟩
    · rename_i h0
      rw [List.countP_eq_zero] at h0
      simp only [decide_eq_true_eq] at h0
      constructor
      · intro hc; cases hc
      · intro hc; exact absurd hc h0

theorem even_eq (edges : List ℚ) (n : Nat) (lo hi : ℚ) (h : Spec.Even edges n lo hi) : edges = evenEdges lo hi n := by
  obtain ⟨h1, h2, h3, h4⟩ := h
  have hget : ∀ i, i < n + 1 → edges[i]? = some (edge lo hi n i) := by
    intro i
    induction i with
    | zero => intro _; rw [← List.head?_eq_getElem?, h2, edge_zero]
    | succ i ih =>
      intro hi'
      have h5 := ih (by omega)
      have h6 : edges[i + 1]? = some (edges[i + 1]'(by omega)) := List.getElem?_eq_getElem _
      rw [h6]
      have := h4 i _ _ h5 h6
      congr 1
      unfold edge at this ⊢
      push_cast
      rw [sub_eq_iff_eq_add] at this
      rw [this]
      ring
  apply List.ext_getElem?
  intro i
  rw [evenEdges_get]
  split
  · rename_i h; exact hget i h
  · rename_i h; exact List.getElem?_eq_none (by omega)

/-- C99: even bins leave nothing out and overlap nowhere: every value from the first edge to the last lies in exactly one. -/
theorem c99_one_bin (edges : List ℚ) (n : Nat) (hn : 0 < n) (lo hi : ℚ) (hlt : lo < hi) (h : Spec.Even edges n lo hi) (x : ℚ) (h1 : lo ≤ x)
    (h2 : x ≤ hi) : ∃ i, i < n ∧ ∀ j, j < n → (Spec.InBin edges n j x ↔ j = i) := by
  rw [even_eq edges n lo hi h]
  exact one_bin lo hi hlt n hn x h1 h2

/-- C99: a one-element coordinate may be given as the axis. (Longer ones: see the violation.) -/
theorem c99_coord (iris : Bool) (a : ℚ) (ha : a ≠ 0) (y : MArr ℚ) (hy : y.length = 1) :
    scatter (.coord iris [(a, false)]) y = .ok (Spec.pairs [(a, false)] y) := by
  rw [← c99_scatter [(a, false)] y (by simp [hy])]
  have : axisValues (.coord iris [(a, false)]) = .ok [(a, false)] := by
    have hb : (a != 0) = true := by simpa using ha
    simp only [axisValues, truth, hb, Bool.not_false, Bool.and_self]
  unfold scatter
  rw [this, axisValues_data]

/-! ### A concrete case, and where the property fails -/

/-- Five values, one of them missing, in two bins. -/
example : (match histogram [(1, false), (2, false), (3, true), (2, false), (5, false)] 2 (some "step") with
    | .ok r => r | .error _ => ([], [])) = ([1, 3, 5], [3, 1]) := by decide +kernel

/-- Four pairs, two of which have a missing value. -/
example : (match histogram2d (.data [(1, false), (2, false), (3, true), (5, false)]) [(10, false), (20, true), (30, false), (40, false)] 2 1 with
    | .ok r => (r.xedges, r.yedges, r.cells) | .error _ => ([], [], [])) = ([1, 3, 5], [10, 40], [[some 1, some 1]]) := by decide +kernel

/-- C99 is violated by a coordinate given as the x axis, which is allowed by the documentation and is the default: whatever its values,
unless it has just one element, or none, nothing is drawn. -/
theorem c99_coord_violated (iris : Bool) (p q : ℚ × Bool) (t y : MArr ℚ) (m n : Nat) :
    scatter (.coord iris (p :: q :: t)) y = .error .value ∧ histogram2d (.coord iris (p :: q :: t)) y m n = .error .value := by
  constructor <;> rfl

/-- C99 is violated by a histogram with a y axis given: it shows the coordinate, not the data. -/
theorem c99_yaxis_violated : ∃ data yaxis : MArr ℚ, plottedData true data (some yaxis) ≠ data ∧
    histogram (plottedData true data (some yaxis)) 1 none ≠ histogram data 1 none := by
  refine ⟨[(1, false), (3, false)], [(10, false), (20, false)], by decide, ?_⟩
  intro hc
  have : (match histogram (plottedData true [((1 : ℚ), false), (3, false)] (some [(10, false), (20, false)])) 1 none with
      | .ok r => r.1 | .error _ => []) =
    (match histogram ([((1 : ℚ), false), (3, false)] : MArr ℚ) 1 none with | .ok r => r.1 | .error _ => []) := by rw [hc]
  revert this
  decide +kernel

end Cis.Hist
