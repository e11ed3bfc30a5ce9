import Verif.Agg.Spec
import Verif.DataIndex.Props
import Mathlib.Tactic.Linarith
import Mathlib.Tactic.FieldSimp
import Mathlib.Tactic.Positivity
set_option linter.unusedSectionVars false
set_option linter.unusedSimpArgs false
/-! The aggregation grid (C39). -/
namespace Cis.Agg
open Cis.DataIndex

@[simp] theorem fin_lt (a b : ℚ) : fin a < fin b ↔ a < b := by
  unfold fin; rw [WithBot.coe_lt_coe, WithTop.coe_lt_coe]

@[simp] theorem fin_le (a b : ℚ) : fin a ≤ fin b ↔ a ≤ b := by
  unfold fin; rw [WithBot.coe_le_coe, WithTop.coe_le_coe]

/-- The number of cells. -/
def count (s e d : ℚ) : Nat := ⌈(e - s) / d⌉.toNat

theorem gridArray_eq (s e d : ℚ) :
    gridArray s e d = (List.range (count s e d)).map (fun (i : Nat) => s + d / 2 + (i : ℚ) * d) := by
  unfold gridArray arange count
  have : e + d / 2 - (s + d / 2) = e - s := by ring
  rw [this]

theorem gridArray_length (s e d : ℚ) : (gridArray s e d).length = count s e d := by simp [gridArray_eq]

theorem lt_count (s e d : ℚ) (hd : 0 < d) (i : Nat) : i < count s e d ↔ s + (i : ℚ) * d < e := by
  unfold count
  rw [Int.lt_toNat, Int.lt_ceil, lt_div_iff₀ hd]
  simp only [Int.cast_natCast]
  constructor <;> intro h <;> linarith

theorem count_pos (s e d : ℚ) (h : s < e) (hd : 0 < d) : 0 < count s e d := by
  rw [lt_count s e d hd]; simpa using h

theorem count_one (s e d : ℚ) (h : s < e) (hd : 0 < d) : count s e d = 1 ↔ e ≤ s + d := by
  have h0 := count_pos s e d h hd
  have h1 := lt_count s e d hd 1
  rw [Nat.cast_one, one_mul] at h1
  constructor
  · intro hc
    by_contra hlt
    have := h1.2 (not_le.1 hlt)
    omega
  · intro hle
    have : ¬ 1 < count s e d := fun hh => absurd (h1.1 hh) (not_lt.2 hle)
    omega

theorem guessBounds_arith (a d : ℚ) (n : Nat) (hn : 2 ≤ n) :
    guessBounds ((List.range n).map (fun (i : Nat) => a + (i : ℚ) * d)) =
      (List.range n).map (fun (i : Nat) => (a + (i : ℚ) * d - d / 2, a + (i : ℚ) * d + d / 2)) := by
  have hd : List.zipWith (fun b a => b - a) ((List.range n).map (fun (i : Nat) => a + (i : ℚ) * d)).tail
      ((List.range n).map (fun (i : Nat) => a + (i : ℚ) * d)) = List.replicate (n - 1) d := by
    apply List.ext_getElem
    · simp
    · intro i h1 h2
      simp only [List.length_replicate] at h2
      simp only [List.getElem_zipWith, List.getElem_tail, List.getElem_map, List.getElem_range, List.getElem_replicate]
      push_cast; ring
  unfold guessBounds
  rw [hd]
  have h1 : (List.replicate (n - 1) d).headD 0 :: List.replicate (n - 1) d ++ [(List.replicate (n - 1) d).getLastD 0] =
      List.replicate (n + 1) d := by
    obtain ⟨m, rfl⟩ : ∃ m, n = m + 2 := ⟨n - 2, by omega⟩
    have e1 : (List.replicate (m + 2 - 1) d).headD 0 = d := by
      rw [show m + 2 - 1 = m + 1 by omega, List.replicate_succ]; rfl
    have e2 : (List.replicate (m + 2 - 1) d).getLastD 0 = d := by
      rw [show m + 2 - 1 = m + 1 by omega, List.replicate_succ']; simp
    rw [e1, e2, ← List.replicate_succ, ← List.replicate_succ']
    congr 1
  dsimp only
  rw [h1]
  apply List.ext_getElem
  · simp
  · intro i h1 h2
    simp only [List.length_map, List.length_range] at h2
    simp only [List.getElem_zipWith, List.getElem_map, List.getElem_range, List.getElem_zip, List.getElem_replicate,
      List.getElem_tail, Prod.mk.injEq]
    constructor <;> ring

/-- The bounds of the cells. -/
theorem partialBounds_eq (s e d : ℚ) (h : s < e) (hd : 0 < d) :
    partialBounds s e d = (List.range (count s e d)).map (fun (i : Nat) => (s + (i : ℚ) * d, Spec.cellEnd s e d i)) := by
  have h0 := count_pos s e d h hd
  unfold partialBounds Spec.cellEnd
  rw [gridArray_length]
  by_cases h1 : count s e d = 1
  · rw [if_pos h1, h1]
    simp [(count_one s e d h hd).1 h1]
  · have hne : ¬ e ≤ s + d := fun hh => h1 ((count_one s e d h hd).2 hh)
    simp only [hne, if_false]
    rw [if_neg h1, gridArray_eq, guessBounds_arith _ _ _ (by omega)]
    apply List.map_congr_left
    intro i _
    simp only [Prod.mk.injEq]
    constructor <;> ring

/-- **C39**. The centres of the cells of the grid are `d` apart, the first cell begins at the start, the last ends at or
after the end of the range, by less than one step; every value of the range lies in exactly one cell. The bounds of the
cells are those of the cells around the centres; only a single cell is cut at the end of the range. -/
theorem grid_tiles (s e d : ℚ) (h : s < e) (hd : 0 < d) :
    let g := gridArray s e d
    let n := g.length
    0 < n ∧ e ≤ s + (n : ℚ) * d ∧ s + (n : ℚ) * d < e + d ∧
    (∀ i (hi : i < n), g[i] = s + ((i : ℚ) + 1 / 2) * d) ∧
    (∀ x, s ≤ x → x < e → ∃! i, ∃ hi : i < n, g[i] - d / 2 ≤ x ∧ x < g[i] + d / 2) ∧
    (2 ≤ n → partialBounds s e d = g.map (fun c => (c - d / 2, c + d / 2))) ∧
    (n = 1 → partialBounds s e d = [(s, e)]) := by
  intro g n
  have hg : g = (List.range (count s e d)).map (fun (i : Nat) => s + d / 2 + (i : ℚ) * d) := gridArray_eq s e d
  have hn : n = count s e d := gridArray_length s e d
  have h0 := count_pos s e d h hd
  have hget : ∀ i (hi : i < n), g[i] = s + ((i : ℚ) + 1 / 2) * d := by
    intro i hi
    have : g[i] = ((List.range (count s e d)).map (fun (i : Nat) => s + d / 2 + (i : ℚ) * d))[i]'(by
      simp; rw [← hn]; exact hi) := by congr 1
    rw [this]; simp; ring
  have hcov : e ≤ s + (n : ℚ) * d := by
    by_contra hlt
    have := (lt_count s e d hd n).2 (not_le.1 hlt)
    omega
  have hlast : s + ((n - 1 : Nat) : ℚ) * d < e := (lt_count s e d hd (n - 1)).1 (by omega)
  rw [Nat.cast_sub (by omega), Nat.cast_one] at hlast
  refine ⟨by omega, hcov, by linarith, hget, ?_, ?_, ?_⟩
  · intro x hsx hxe
    have hfl : 0 ≤ ⌊(x - s) / d⌋ := Int.floor_nonneg.2 (div_nonneg (by linarith) hd.le)
    obtain ⟨k, hk⟩ : ∃ k : Nat, ⌊(x - s) / d⌋ = (k : Int) := ⟨_, (Int.toNat_of_nonneg hfl).symm⟩
    have hk1 : (k : ℚ) * d ≤ x - s := by
      have := Int.floor_le ((x - s) / d)
      rw [hk, Int.cast_natCast] at this
      rw [le_div_iff₀ hd] at this; exact this
    have hk2 : x - s < ((k : ℚ) + 1) * d := by
      have := Int.lt_floor_add_one ((x - s) / d)
      rw [hk, Int.cast_natCast] at this
      rw [div_lt_iff₀ hd] at this; exact this
    have hkn : k < n := by
      rw [hn, lt_count s e d hd]; linarith
    refine ⟨k, ⟨hkn, ?_, ?_⟩, ?_⟩
    · rw [hget k hkn]; linarith
    · rw [hget k hkn]; linarith
    · rintro j ⟨hj, hj1, hj2⟩
      rw [hget j hj] at hj1 hj2
      have a1 : (j : ℚ) < k + 1 := by
        by_contra hc
        have := mul_le_mul_of_nonneg_right (not_lt.1 hc) hd.le
        linarith
      have a2 : (k : ℚ) < j + 1 := by
        by_contra hc
        have := mul_le_mul_of_nonneg_right (not_lt.1 hc) hd.le
        linarith
      have a1' : j < k + 1 := by exact_mod_cast a1
      have a2' : k < j + 1 := by exact_mod_cast a2
      omega
  · intro h2
    have : partialBounds s e d = guessBounds g := by
      unfold partialBounds; rw [if_neg]; change ¬ n = 1; omega
    rw [this, hg, guessBounds_arith _ _ _ (by omega), List.map_map]
    rfl
  · intro h1
    unfold partialBounds
    rw [if_pos h1]

example : gridArray 0 25 10 = [5, 15, 25] ∧ partialBounds 0 25 10 = [(0, 10), (10, 20), (20, 30)] ∧
    partialBounds 0 5 10 = [(0, 5)] := by decide +kernel

/-! ### The coordinates of the grid -/

theorem makeCoord_decreasing (c : ℚ) (r : Req) (h : Spec.Req.Ok r) : (makeCoord c r).decreasing = false := by
  cases r with
  | none => rfl
  | some t =>
    obtain ⟨s, e, d⟩ := t
    unfold makeCoord Coord.decreasing
    dsimp only
    rw [gridArray_eq]
    generalize count s e d = n
    match n with
    | 0 => rfl
    | 1 => rfl
    | n + 2 =>
      rw [List.range_succ_eq_map, List.range_succ_eq_map]
      simp only [List.map_cons, List.map_map]
      rw [decide_eq_false_iff_not, fin_lt]
      have := h.2
      push_cast
      linarith

theorem cellEnd_gt (s e d : ℚ) (h : s < e) (hd : 0 < d) (i : Nat) (hi : i < count s e d) :
    s + (i : ℚ) * d < Spec.cellEnd s e d i := by
  unfold Spec.cellEnd
  split
  · rename_i hle
    rw [(count_one s e d h hd).2 hle] at hi
    obtain rfl : i = 0 := by omega
    simpa using h
  · linarith

theorem cellEnd_le_next (s e d : ℚ) (h : s < e) (hd : 0 < d) (i j : Nat) (hij : i < j) (hj : j < count s e d) :
    Spec.cellEnd s e d i ≤ s + (j : ℚ) * d := by
  unfold Spec.cellEnd
  split
  · rename_i hle
    rw [(count_one s e d h hd).2 hle] at hj
    omega
  · have : (i : ℚ) + 1 ≤ j := by exact_mod_cast hij
    have := mul_le_mul_of_nonneg_right this hd.le
    linarith

theorem makeCoord_bounds (c : ℚ) (s e d : ℚ) (h : s < e) (hd : 0 < d) :
    (makeCoord c (some (s, e, d))).bounds =
      (List.range (count s e d)).map (fun (i : Nat) => (fin (s + (i : ℚ) * d), fin (Spec.cellEnd s e d i))) := by
  unfold makeCoord
  dsimp only
  rw [partialBounds_eq s e d h hd, List.map_map]
  rfl

theorem makeCoord_monotonic (c : ℚ) (r : Req) (h : Spec.Req.Ok r) : DataIndex.Spec.Monotonic (makeCoord c r) := by
  have hdec := makeCoord_decreasing c r h
  cases r with
  | none =>
    refine ⟨rfl, by simp [makeCoord], fun _ => ⟨?_, ?_⟩, fun hh => by rw [hdec] at hh; cases hh⟩
    · intro b hb
      simp only [makeCoord, List.mem_singleton] at hb
      subst hb
      exact WithBot.bot_lt_coe _
    · simp [makeCoord]
  | some t =>
    obtain ⟨s, e, d⟩ := t
    obtain ⟨hse, hd⟩ := h
    have hb := makeCoord_bounds c s e d hse hd
    refine ⟨?_, ?_, fun _ => ⟨?_, ?_⟩, fun hh => by rw [hdec] at hh; cases hh⟩
    · rw [hb]; simp [makeCoord, gridArray_length]
    · rw [hb]; simpa using count_pos s e d hse hd
    · intro b hm
      rw [hb] at hm
      obtain ⟨i, hi, rfl⟩ := List.mem_map.1 hm
      rw [fin_lt]
      exact cellEnd_gt s e d hse hd i (List.mem_range.1 hi)
    · rw [hb, List.pairwise_map]
      refine (List.pairwise_lt_range).imp_of_mem ?_
      intro i j _ hj hij
      rw [fin_le]
      exact cellEnd_le_next s e d hse hd i j hij (List.mem_range.1 hj)

theorem makeCoord_contiguous (c : ℚ) (r : Req) (h : Spec.Req.Ok r) : DataIndex.Spec.Contiguous (makeCoord c r) := by
  cases r with
  | none => intro i a b _ hb; simp [makeCoord] at hb
  | some t =>
    obtain ⟨s, e, d⟩ := t
    obtain ⟨hse, hd⟩ := h
    intro i a b ha hb
    rw [makeCoord_bounds c s e d hse hd] at ha hb
    simp only [List.getElem?_map, Option.map_eq_some_iff] at ha hb
    obtain ⟨i', hi', rfl⟩ := ha
    obtain ⟨j', hj', rfl⟩ := hb
    have e1 := List.getElem?_eq_some_iff.1 hi'
    have e2 := List.getElem?_eq_some_iff.1 hj'
    simp only [List.length_range, List.getElem_range] at e1 e2
    obtain ⟨l1, rfl⟩ := e1
    obtain ⟨l2, rfl⟩ := e2
    unfold Spec.cellEnd
    rw [if_neg (fun hle => by have := (count_one s e d hse hd).2 hle; omega)]
    push_cast; rfl

theorem makeCoord_inInterval (c : ℚ) (r : Req) (h : Spec.Req.Ok r) (i : Nat) (x : ℚ) :
    DataIndex.Spec.InInterval (makeCoord c r) i (fin x) ↔ Spec.inInterval r i x = true := by
  cases r with
  | none =>
    simp only [DataIndex.Spec.InInterval, makeCoord, Spec.inInterval, decide_eq_true_eq]
    constructor
    · rintro ⟨b, hb, -⟩
      have := (List.getElem?_eq_some_iff.1 hb).1
      simpa using this
    · rintro rfl
      refine ⟨_, rfl, ?_, ?_⟩
      · rw [min_eq_left bot_le]; exact bot_le
      · rw [max_eq_right bot_le]; unfold fin; rw [WithBot.coe_lt_coe]; exact WithTop.coe_lt_top _
  | some t =>
    obtain ⟨s, e, d⟩ := t
    obtain ⟨hse, hd⟩ := h
    unfold DataIndex.Spec.InInterval
    rw [makeCoord_bounds c s e d hse hd]
    simp only [Spec.inInterval, Bool.and_eq_true, decide_eq_true_eq]
    constructor
    · rintro ⟨b, hb, h1, h2⟩
      simp only [List.getElem?_map, Option.map_eq_some_iff] at hb
      obtain ⟨i', hi', rfl⟩ := hb
      have e1 := List.getElem?_eq_some_iff.1 hi'
      simp only [List.length_range, List.getElem_range] at e1
      obtain ⟨l1, rfl⟩ := e1
      have hlt := cellEnd_gt s e d hse hd i l1
      rw [min_eq_left ((fin_le _ _).2 hlt.le), fin_le] at h1
      rw [max_eq_right ((fin_le _ _).2 hlt.le), fin_lt] at h2
      exact ⟨⟨(lt_count s e d hd i).1 l1, h1⟩, h2⟩
    · rintro ⟨⟨h0, h1⟩, h2⟩
      have l1 := (lt_count s e d hd i).2 h0
      have hlt := cellEnd_gt s e d hse hd i l1
      refine ⟨(fin (s + (i : ℚ) * d), fin (Spec.cellEnd s e d i)), by simp [l1], ?_, ?_⟩
      · rw [min_eq_left ((fin_le _ _).2 hlt.le), fin_le]; exact h1
      · rw [max_eq_right ((fin_le _ _).2 hlt.le), fin_lt]; exact h2

end Cis.Agg
