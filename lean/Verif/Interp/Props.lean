import Verif.Interp.Core
import Mathlib.Tactic.NormNum
set_option linter.unusedSectionVars false
set_option linter.unusedSimpArgs false
/-! Properties C18, C19, C20: interpolation of gridded data at ungridded points. -/
namespace Cis.Interp
variable {K : Type} [Field K] [LinearOrder K] [IsStrictOrderedRing K]

/-- The sample point lies in the range of every axis. -/
def AllInRange (axes : List (Axis K)) (xs : List K) : Prop := ∀ ax ∈ axes.zip xs, Spec.InRange (Spec.nodes ax.1) ax.2

theorem lin_main (flag : Option Nat) (axes : List (Axis K)) (h : Handled flag axes)
    (h2 : ∀ a ∈ axes, 2 ≤ (Spec.nodes a).length) (data : List Nat → Val K) (xs : List K) (hx : xs.length = axes.length)
    (ext : Bool) (hr : ext = true ∨ AllInRange axes xs) :
    ∃ cells : List ((K × Nat) × (K × Nat) × K),
      List.Forall₂ (fun (ax : Axis K × K) c => Cell (Spec.nodes ax.1) ax.2 c) (axes.zip xs) cells ∧
      (∀ f : List Nat → K, (∀ idx, CellCorner cells idx → data idx = .num (f idx)) →
        interpolate flag .lin axes data xs ext false = .ok (.num (Spec.multilinear (weights cells) f))) ∧
      ((∃ idx, CellCorner cells idx ∧ data idx = .masked) → interpolate flag .lin axes data xs ext false = .ok .masked) := by
  obtain ⟨values, hv, hval⟩ := interpolate_eq flag .lin axes h data xs hx ext false
  have hp : ∀ p ∈ axes.map proc, (p.map Prod.fst).Pairwise (· < ·) ∧ 2 ≤ p.length := by
    intro p hp
    rw [List.mem_map] at hp
    obtain ⟨a, ha, rfl⟩ := hp
    refine ⟨(grid_eq_proc h ha).2.1, ?_⟩
    have : (proc a).length = (Spec.nodes a).length := by unfold proc; split <;> simp
    rw [this]; exact h2 a ha
  obtain ⟨is, ys, cells, h3, h4, h5, h6, h7, h8, h9, h10⟩ := cells_exist (axes.map proc) xs (by simpa using hx) hp
  have hrange : ¬ ((!ext && (List.zipWith outOfBounds ((axes.map proc).map (fun p => p.map Prod.fst)) xs).any id) = true) := by
    rw [Bool.and_eq_true, Bool.not_eq_true', oob_any _ (fun p hp' => ⟨(hp p hp').1, by have := (hp p hp').2; intro e; rw [e] at this; simp at this⟩)]
    rintro ⟨he, px, hpx, hn⟩
    rcases hr with hr | hr
    · rw [hr] at he; cases he
    · rw [List.zip_map_left, List.mem_map] at hpx
      obtain ⟨ax, hax, rfl⟩ := hpx
      exact hn (inRange_proc.2 (hr ax hax))
  have hreg : interpolate flag .lin axes data xs ext false = .ok (evaluateLinear ((axes.map proc).map List.length) values
      (is.map (fun i : Nat => (i : Int))) (ys.map Val.num)) := by
    rw [hv]
    simp only [Bool.false_eq_true, if_false]
    unfold regularGrid
    simp only
    rw [if_neg hrange, h5, h6]
  have hlen : ((axes.map proc).map List.length).length = is.length := by rw [h3]; simp
  refine ⟨cells, ?_, ?_, ?_⟩
  · rw [List.zip_map_left, List.forall₂_map_left_iff] at h7
    exact h7.imp (fun a c hc => Cell.nodes hc)
  · intro f hf
    rw [hreg, evaluateLinear_num is ys (by rw [h3, h4]) _ hlen values (fun idx => f (List.zipWith lookup (axes.map proc) idx)), h10]
    intro idx hi
    obtain ⟨h11, h12⟩ := h8 idx hi
    rw [hval idx h11]; exact hf _ h12
  · rintro ⟨idx, hc, hm⟩
    obtain ⟨idx', h11, h12⟩ := h9 idx hc
    rw [hreg, evaluateLinear_masked is ys _ hlen values idx' h11]
    rw [hval idx' (h8 idx' h11).1, h12]; exact hm

/-- C18, at a node: the value of the node, if no data are masked. Missing: axes that are not handled, axes with a single
node, masked neighbours (see the violations). -/
theorem c18_node (flag : Option Nat) (axes : List (Axis K)) (h : Handled flag axes)
    (h2 : ∀ a ∈ axes, 2 ≤ (Spec.nodes a).length) (f : List Nat → K) (idx : List Nat) (xs : List K)
    (hidx : List.Forall₂ (fun (a : Axis K) k => k < a.points.length) axes idx)
    (hxs : xs = List.zipWith (fun (a : Axis K) k => a.points[k]?.getD 0) axes idx) (ext : Bool) :
    interpolate flag .lin axes (fun i => .num (f i)) xs ext false = .ok (.num (f idx)) := by
  have hl := hidx.length_eq
  have hnode : ∀ d (hd : d < axes.length) (hd' : d < idx.length) (hdx : d < xs.length), (xs[d], idx[d]) ∈ Spec.nodes axes[d] := by
    intro d hd hd' hdx
    have hk := (List.forall₂_iff_get.1 hidx).2 d hd hd'
    simp only [List.get_eq_getElem] at hk
    subst hxs
    rw [List.getElem_zipWith, List.getElem?_eq_getElem hk]
    unfold Spec.nodes
    apply List.mem_append_left
    rw [List.mem_zipIdx_iff_getElem?]
    exact List.getElem?_eq_getElem hk
  have hxl : xs.length = axes.length := by rw [hxs]; simp [hl]
  have hrange : AllInRange axes xs := by
    intro ax hax
    obtain ⟨d, hd, e⟩ := List.mem_iff_getElem.1 hax
    have hd0 : d < axes.length := by simp at hd; omega
    rw [List.getElem_zip] at e
    subst e
    have := hnode d hd0 (by omega) (by omega)
    exact ⟨⟨_, this, le_refl _⟩, ⟨_, this, le_refl _⟩⟩
  obtain ⟨cells, hc, hf, -⟩ := lin_main flag axes h h2 (fun i => .num (f i)) xs hxl ext (Or.inr hrange)
  rw [hf f (fun _ _ => rfl), multilinear_node cells idx]
  have hcl : cells.length = axes.length := by have := hc.length_eq; simp [hxl] at this; omega
  rw [List.forall₂_iff_get]
  refine ⟨by omega, ?_⟩
  intro d h3 h4
  simp only [List.get_eq_getElem]
  have hd0 : d < axes.length := by omega
  have cell := (List.forall₂_iff_get.1 hc).2 d (by simp; omega) h3
  simp only [List.get_eq_getElem, List.getElem_zip] at cell
  have hn := hnode d hd0 h4 (by omega)
  obtain ⟨-, -, hlo, hhi, -, -⟩ := cell.inRange (hrange _ (List.mem_iff_getElem.2 ⟨d, by simp; omega, by rw [List.getElem_zip]⟩))
  -- nodes with equal coordinates are equal
  have inj : ∀ u ∈ Spec.nodes axes[d], ∀ v ∈ Spec.nodes axes[d], u.1 = v.1 → u = v := by
    have hpw : ((proc axes[d]).map Prod.fst).Pairwise (· < ·) := (grid_eq_proc h (List.getElem_mem hd0)).2.1
    intro u hu v hv huv
    rw [← mem_proc] at hu hv
    obtain ⟨i, hi, rfl⟩ := List.mem_iff_getElem.1 hu
    obtain ⟨j, hj, rfl⟩ := List.mem_iff_getElem.1 hv
    have hmono : ∀ j k (hj : j < (proc axes[d]).length) (hk : k < (proc axes[d]).length), j < k →
        ((proc axes[d])[j]).1 < ((proc axes[d])[k]).1 := by
      intro j k hj hk hjk
      have := pairwise_getElem hpw (i := j) (j := k) (by simpa using hj) (by simpa using hk) hjk
      simpa using this
    rcases lt_trichotomy i j with hij | hij | hij
    · exact absurd huv (hmono i j hi hj hij).ne
    · subst hij; rfl
    · exact absurd huv (hmono j i hj hi hij).ne'
  have hrep := cell.reproduces
  have hlt := cell.lt
  have hpos : cells[d].2.1.1 - cells[d].1.1 ≠ 0 := (sub_pos.2 hlt).ne'
  have hgap := cell.gap _ hn
  rcases eq_or_lt_of_le hlo with e | e
  · left
    have hy : cells[d].2.2 * (cells[d].2.1.1 - cells[d].1.1) = 0 := by
      have : (1 - cells[d].2.2) * cells[d].1.1 + cells[d].2.2 * cells[d].2.1.1
        = cells[d].1.1 + cells[d].2.2 * (cells[d].2.1.1 - cells[d].1.1) := by ring
      rw [this] at hrep; linarith
    refine ⟨(mul_eq_zero.1 hy).resolve_right hpos, ?_⟩
    have := inj _ cell.mem0 _ hn e
    rw [this]
  · right
    have e2 : xs[d] = cells[d].2.1.1 := by
      by_contra hne
      exact hgap ⟨e, lt_of_le_of_ne hhi hne⟩
    have hy : (cells[d].2.2 - 1) * (cells[d].2.1.1 - cells[d].1.1) = 0 := by
      have : (1 - cells[d].2.2) * cells[d].1.1 + cells[d].2.2 * cells[d].2.1.1
        = cells[d].2.1.1 + (cells[d].2.2 - 1) * (cells[d].2.1.1 - cells[d].1.1) := by ring
      rw [this] at hrep; linarith
    refine ⟨by have := (mul_eq_zero.1 hy).resolve_right hpos; linarith, ?_⟩
    have := inj _ cell.mem1 _ hn e2.symm
    rw [this]

/-- C18, a field affine in every coordinate is reproduced exactly (no circular axis), also by extrapolation. -/
theorem c18_affine (flag : Option Nat) (axes : List (Axis K)) (h : Handled flag axes)
    (h2 : ∀ a ∈ axes, 2 ≤ a.points.length) (hnc : ∀ a ∈ axes, a.circular = none) (α : K) (βs xs : List K)
    (hβ : βs.length = axes.length) (hx : xs.length = axes.length) (ext : Bool) (hr : ext = true ∨ AllInRange axes xs)
    (data : List Nat → Val K)
    (hdata : ∀ idx, List.Forall₂ (fun (a : Axis K) k => k < a.points.length) axes idx → data idx = .num (α +
      (List.zipWith (fun (ab : Axis K × K) k => ab.2 * ab.1.points[k]?.getD 0) (axes.zip βs) idx).sum)) :
    interpolate flag .lin axes data xs ext false = .ok (.num (α + (List.zipWith (fun β x => β * x) βs xs).sum)) := by
  have h2' : ∀ a ∈ axes, 2 ≤ (Spec.nodes a).length := by
    intro a ha; rw [nodes_noncircular (hnc a ha), List.length_zipIdx]; exact h2 a ha
  obtain ⟨cells, hc, hf, -⟩ := lin_main flag axes h h2' data xs hx ext hr
  have hcl : cells.length = axes.length := by have := hc.length_eq; simp [hx] at this; omega
  have node : ∀ a ∈ axes, ∀ q : K × Nat, q ∈ Spec.nodes a → a.points[q.2]? = some q.1 := by
    intro a ha q hq
    rw [nodes_noncircular (hnc a ha), List.mem_zipIdx_iff_getElem?] at hq
    exact hq
  have cellAt : ∀ d (h1 : d < cells.length) (h2 : d < axes.length) (h3 : d < xs.length), Cell (Spec.nodes axes[d]) xs[d] cells[d] := by
    intro d h1 h2 h3
    have cell := (List.forall₂_iff_get.1 hc).2 d (by simp; omega) h1
    simpa only [List.get_eq_getElem, List.getElem_zip] using cell
  have haff := multilinear_affine cells ((axes.zip βs).map (fun (ab : Axis K × K) k => ab.2 * ab.1.points[k]?.getD 0))
    (List.zipWith (fun β x => β * x) βs xs) (by simp [hβ, hcl]) (by
      rw [List.forall₂_iff_get]
      refine ⟨by simp [hβ, hcl, hx], ?_⟩
      intro d h3 h4
      simp only [List.length_zip, List.length_map, List.length_zipWith] at h3 h4
      have hd : d < axes.length := by omega
      have cell := cellAt d (by omega) hd (by omega)
      simp only [List.get_eq_getElem, List.getElem_zip, List.getElem_map, List.getElem_zipWith]
      rw [node _ (List.getElem_mem hd) _ cell.mem0, node _ (List.getElem_mem hd) _ cell.mem1, ← cell.reproduces]
      simp only [Option.getD_some]
      ring) α
  rw [← haff]
  apply hf
  intro idx hi
  rw [hdata idx]
  · rw [List.zipWith_map_left]
  · rw [List.forall₂_iff_get]
    have hil := hi.length_eq
    refine ⟨by omega, ?_⟩
    intro d h3 h4
    simp only [List.get_eq_getElem]
    have cell := cellAt d (by omega) h3 (by omega)
    have hk := (List.forall₂_iff_get.1 hi).2 d (by omega) h4
    simp only [List.get_eq_getElem] at hk
    rcases hk with e | e
    · rw [e]; exact (List.getElem?_eq_some_iff.1 (node _ (List.getElem_mem h3) _ cell.mem0)).1
    · rw [e]; exact (List.getElem?_eq_some_iff.1 (node _ (List.getElem_mem h3) _ cell.mem1)).1

/-- C18, within range the value lies between the extreme values of the surrounding nodes: those with no node strictly between
them and the point. A masked value among the corners of the cell gives a missing value. -/
theorem c18_bounds (flag : Option Nat) (axes : List (Axis K)) (h : Handled flag axes)
    (h2 : ∀ a ∈ axes, 2 ≤ (Spec.nodes a).length) (data : List Nat → Val K) (hnan : ∀ idx, data idx ≠ .nan) (xs : List K)
    (hx : xs.length = axes.length) (hr : AllInRange axes xs) (ext : Bool) (lo hi : K)
    (hb : ∀ idx, List.Forall₂ (fun (ax : Axis K × K) k => ∃ q, Spec.Adjacent (Spec.nodes ax.1) ax.2 (q, k)) (axes.zip xs) idx →
      ∀ v, data idx = .num v → lo ≤ v ∧ v ≤ hi) :
    (∃ v, interpolate flag .lin axes data xs ext false = .ok (.num v) ∧ lo ≤ v ∧ v ≤ hi) ∨
    (interpolate flag .lin axes data xs ext false = .ok .masked ∧ ∃ idx,
      List.Forall₂ (fun (ax : Axis K × K) k => ∃ q, Spec.Adjacent (Spec.nodes ax.1) ax.2 (q, k)) (axes.zip xs) idx ∧
      data idx = .masked) := by
  obtain ⟨cells, hc, hf, hm⟩ := lin_main flag axes h h2 data xs hx ext (Or.inr hr)
  have hin : ∀ d (h1 : d < (axes.zip xs).length) (h2 : d < cells.length), 0 ≤ cells[d].2.2 ∧ cells[d].2.2 ≤ 1 ∧
      Spec.Adjacent (Spec.nodes (axes.zip xs)[d].1) (axes.zip xs)[d].2 cells[d].1 ∧
      Spec.Adjacent (Spec.nodes (axes.zip xs)[d].1) (axes.zip xs)[d].2 cells[d].2.1 := by
    intro d h1 h2
    have cell := (List.forall₂_iff_get.1 hc).2 d h1 h2
    simp only [List.get_eq_getElem] at cell
    obtain ⟨a, b, -, -, c, e⟩ := cell.inRange (hr _ (List.getElem_mem h1))
    exact ⟨a, b, c, e⟩
  have hadj : ∀ idx, CellCorner cells idx →
      List.Forall₂ (fun (ax : Axis K × K) k => ∃ q, Spec.Adjacent (Spec.nodes ax.1) ax.2 (q, k)) (axes.zip xs) idx := by
    intro idx hi
    rw [List.forall₂_iff_get]
    refine ⟨hc.length_eq.trans hi.length_eq, ?_⟩
    intro d h3 h4
    have h5 : d < cells.length := by have := hc.length_eq; omega
    have hk := (List.forall₂_iff_get.1 hi).2 d h5 h4
    simp only [List.get_eq_getElem] at hk ⊢
    obtain ⟨-, -, a0, a1⟩ := hin d h3 h5
    rcases hk with e | e
    · exact ⟨cells[d].1.1, by rw [e]; exact a0⟩
    · exact ⟨cells[d].2.1.1, by rw [e]; exact a1⟩
  by_cases hmask : ∃ idx, CellCorner cells idx ∧ data idx = .masked
  · obtain ⟨idx, h3, h4⟩ := hmask
    exact Or.inr ⟨hm ⟨idx, h3, h4⟩, idx, hadj idx h3, h4⟩
  · left
    have hnum : ∀ idx, CellCorner cells idx → data idx = .num (match data idx with | .num v => v | _ => 0) := by
      intro idx hi
      cases hd : data idx with
      | num v => rfl
      | masked => exact absurd ⟨idx, hi, hd⟩ hmask
      | nan => exact absurd hd (hnan idx)
    refine ⟨_, hf (fun idx => match data idx with | .num v => v | _ => 0) hnum, ?_⟩
    apply multilinear_bounds
    · intro c hcm
      obtain ⟨d, hd, rfl⟩ := List.mem_iff_getElem.1 hcm
      have := hin d (by have := hc.length_eq; omega) hd
      exact ⟨this.1, this.2.1⟩
    · intro idx hi
      exact hb idx (hadj idx hi) _ (hnum idx hi)

/-- C19: nearest neighbour interpolation gives the value at the node nearest in every dimension. Missing: axes that are not
handled (`c18_descending_violated`). -/
theorem c19_nearest (flag : Option Nat) (axes : List (Axis K)) (h : Handled flag axes) (data : List Nat → Val K)
    (xs : List K) (hx : xs.length = axes.length) (ext : Bool) (hr : ext = true ∨ AllInRange axes xs) :
    ∃ idx, List.Forall₂ (fun (ax : Axis K × K) k => ∃ q, Spec.Nearest (Spec.nodes ax.1) ax.2 (q, k)) (axes.zip xs) idx ∧
      interpolate flag .nn axes data xs ext false = .ok (data idx) := by
  obtain ⟨values, hv, hval⟩ := interpolate_eq flag .nn axes h data xs hx ext false
  have hp : ∀ p ∈ axes.map proc, (p.map Prod.fst).Pairwise (· < ·) ∧ p ≠ [] := by
    intro p hp
    rw [List.mem_map] at hp
    obtain ⟨a, ha, rfl⟩ := hp
    refine ⟨(grid_eq_proc h ha).2.1, ?_⟩
    obtain ⟨d, hd⟩ := List.mem_iff_getElem?.1 ha
    have hne := (h d a hd).1
    rw [← List.length_pos_iff, (grid_eq_proc h ha).2.2]
    have := List.length_pos_iff.2 hne
    omega
  have hrange : ¬ ((!ext && (List.zipWith outOfBounds ((axes.map proc).map (fun p => p.map Prod.fst)) xs).any id) = true) := by
    rw [Bool.and_eq_true, Bool.not_eq_true', oob_any _ hp]
    rintro ⟨he, px, hpx, hn⟩
    rcases hr with hr | hr
    · rw [hr] at he; cases he
    · rw [List.zip_map_left, List.mem_map] at hpx
      obtain ⟨ax, hax, rfl⟩ := hpx
      exact hn (inRange_proc.2 (hr ax hax))
  -- choose the indices dimension by dimension
  have choose : ∀ (ps : List (List (K × Nat))) (xs : List K), xs.length = ps.length →
      (∀ p ∈ ps, (p.map Prod.fst).Pairwise (· < ·) ∧ p ≠ []) →
      List.Forall₂ (fun (p : List (K × Nat)) k => k < p.length) ps (List.zipWith pyIdx (ps.map List.length)
        (List.zipWith nearestIndex (List.zipWith findIndex (ps.map (fun p => p.map Prod.fst)) xs)
          (List.zipWith normDistance (ps.map (fun p => p.map Prod.fst)) xs))) ∧
      List.Forall₂ (fun (px : List (K × Nat) × K) k => ∃ q, Spec.Nearest px.1 px.2 (q, k)) (ps.zip xs)
        (List.zipWith lookup ps (List.zipWith pyIdx (ps.map List.length)
        (List.zipWith nearestIndex (List.zipWith findIndex (ps.map (fun p => p.map Prod.fst)) xs)
          (List.zipWith normDistance (ps.map (fun p => p.map Prod.fst)) xs)))) := by
    intro ps
    induction ps with
    | nil => intro xs _ _; exact ⟨by simp, by simp⟩
    | cons p ps ih =>
      intro xs hl hp
      cases xs with
      | nil => simp at hl
      | cons x xs =>
        obtain ⟨i1, i2⟩ := ih xs (by simpa using hl) (fun q hq => hp q (by simp [hq]))
        obtain ⟨k, hk, e, hn⟩ := nearestIndex_spec (p.map Prod.fst) (hp p (by simp)).1
          (by have := List.length_pos_iff.2 (hp p (by simp)).2; rw [List.length_map]; omega) x
        rw [List.length_map] at e hk
        simp only [List.map_cons, List.zipWith_cons_cons, List.zip_cons_cons]
        rw [e]
        refine ⟨.cons hk i1, .cons ?_ i2⟩
        have l : lookup p k = (p[k]).2 := by unfold lookup; rw [List.getElem?_eq_getElem hk]; rfl
        refine ⟨(p[k]).1, ?_⟩
        rw [l]
        refine ⟨List.getElem_mem _, ?_⟩
        intro b hb
        obtain ⟨j, hj, rfl⟩ := List.mem_iff_getElem.1 hb
        have := hn j (by simpa using hj)
        simpa using this
  obtain ⟨c1, c2⟩ := choose (axes.map proc) xs (by simpa using hx) hp
  refine ⟨List.zipWith lookup (axes.map proc) (List.zipWith pyIdx ((axes.map proc).map List.length)
        (List.zipWith nearestIndex (List.zipWith findIndex ((axes.map proc).map (fun p => p.map Prod.fst)) xs)
          (List.zipWith normDistance ((axes.map proc).map (fun p => p.map Prod.fst)) xs))), ?_, ?_⟩
  · rw [List.zip_map_left, List.forall₂_map_left_iff] at c2
    refine c2.imp ?_
    rintro ax k ⟨q, hq⟩
    exact ⟨q, mem_proc.1 hq.1, fun b hb => hq.2 b (mem_proc.2 hb)⟩
  · rw [hv]
    simp only [Bool.false_eq_true, if_false]
    unfold regularGrid
    simp only
    rw [if_neg hrange]
    unfold evaluateNearest indexArray
    rw [hval _ c1]

/-! ### C20 -/

/-- Ascending, or descending and not circular. -/
def Monotonic (a : Axis K) : Prop := a.points ≠ [] ∧ (Spec.Ascending a ∨ (a.circular = none ∧ a.points.Pairwise (· > ·)))

theorem monotonic_grid {a : Axis K} (h : Monotonic a) :
    a.grid = (proc a).map Prod.fst ∧ ((proc a).map Prod.fst).Pairwise (· < ·) ∧ proc a ≠ [] := by
  have h1 : Handled (some 1) [⟨[(0 : K)], none⟩, a] := by
    intro d b hb
    match d, hb with
    | 0, hb =>
      simp at hb; subst hb
      exact ⟨by simp, Or.inl (by simp [Spec.Ascending, Spec.nodes])⟩
    | 1, hb =>
      simp at hb; subst hb
      exact ⟨h.1, h.2.imp id (fun h => ⟨rfl, rfl, h.1, h.2⟩)⟩
    | n + 2, hb => simp at hb
  obtain ⟨h2, h3, h4⟩ := grid_eq_proc h1 (a := a) (by simp)
  refine ⟨h2, h3, ?_⟩
  rw [← List.length_pos_iff, h4]
  have := List.length_pos_iff.2 h.1
  omega

theorem add_ne_masked {a b : Val K} (ha : a ≠ .masked) (hb : b ≠ .masked) : Val.add a b ≠ .masked := by
  cases a <;> cases b <;> simp_all [Val.add]

theorem mul_ne_masked {a b : Val K} (ha : a ≠ .masked) (hb : b ≠ .masked) : Val.mul a b ≠ .masked := by
  cases a <;> cases b <;> simp_all [Val.mul]

theorem weight_ne_masked (es is : List Int) (ys : List (Val K)) (hy : ∀ y ∈ ys, y ≠ .masked) : ∀ w : Val K, w ≠ .masked →
    weight es is ys w ≠ .masked := by
  induction es generalizing is ys with
  | nil => intro w hw; simpa [weight] using hw
  | cons e es ih =>
    intro w hw
    cases is with
    | nil => simpa [weight] using hw
    | cons i is =>
      cases ys with
      | nil => simpa [weight] using hw
      | cons y ys =>
        rw [weight]
        apply ih _ _ (fun z hz => hy z (by simp [hz]))
        apply mul_ne_masked hw
        unfold factor
        have := hy y (by simp)
        split
        · exact add_ne_masked (by simp) (mul_ne_masked (by simp) this)
        · exact this

theorem foldl_ne_masked {A : Type} (l : List A) (v : A → Val K) (h : ∀ a ∈ l, v a ≠ .masked) : ∀ z : Val K, z ≠ .masked →
    l.foldl (fun acc a => Val.add acc (v a)) z ≠ .masked := by
  induction l with
  | nil => intro z hz; exact hz
  | cons a t ih =>
    intro z hz
    rw [List.foldl_cons]
    exact ih (fun b hb => h b (by simp [hb])) _ (add_ne_masked hz (h a (by simp)))

theorem norms_ne_masked (grid : List (List K)) (xs : List K) : ∀ y ∈ List.zipWith normDistance grid xs, y ≠ Val.masked := by
  induction grid generalizing xs with
  | nil => simp
  | cons c grid ih =>
    cases xs with
    | nil => simp
    | cons x xs =>
      rw [List.zipWith_cons_cons]
      intro y hy
      rcases List.mem_cons.1 hy with rfl | hy
      · unfold normDistance
        simp only
        split
        · split <;> simp
        · simp
      · exact ih xs y hy

/-- C20: with extrapolation off, whenever the interpolation succeeds the value is missing iff the point is outside the range
of some axis, ascending or descending, for data without masked values; outside the range it is missing whatever the data. -/
theorem c20_no_extrapolation (flag : Option Nat) (m : Method) (axes : List (Axis K)) (hax : ∀ a ∈ axes, Monotonic a)
    (data : List Nat → Val K) (xs : List K) (v : Val K) (h : interpolate flag m axes data xs false false = .ok v) :
    (¬ AllInRange axes xs → v = .masked) ∧ ((∀ idx, data idx ≠ .masked) → AllInRange axes xs → v ≠ .masked) := by
  unfold interpolate at h
  split at h
  · cases h
  split at h
  · cases h
  split at h
  · cases h
  rename_i values hval
  simp only [Bool.false_eq_true, if_false, Except.ok.injEq] at h
  have hg : axes.map Axis.grid = (axes.map proc).map (fun p => p.map Prod.fst) := by
    rw [List.map_map]
    apply List.map_congr_left
    intro a ha; exact (monotonic_grid (hax a ha)).1
  have hp : ∀ p ∈ axes.map proc, (p.map Prod.fst).Pairwise (· < ·) ∧ p ≠ [] := by
    intro p hp
    rw [List.mem_map] at hp
    obtain ⟨a, ha, rfl⟩ := hp
    exact (monotonic_grid (hax a ha)).2
  have hoob : (List.zipWith outOfBounds (axes.map Axis.grid) xs).any id = true ↔ ¬ AllInRange axes xs := by
    rw [hg, oob_any _ hp, List.zip_map_left]
    unfold AllInRange
    simp only [List.mem_map, not_forall]
    constructor
    · rintro ⟨px, ⟨ax, hax', rfl⟩, hn⟩
      exact ⟨ax, hax', fun hr => hn (inRange_proc.2 hr)⟩
    · rintro ⟨ax, hax', hn⟩
      exact ⟨_, ⟨ax, hax', rfl⟩, fun hr => hn (inRange_proc.1 hr)⟩
  unfold regularGrid at h
  simp only [Bool.not_false, Bool.true_and] at h
  constructor
  · intro hr
    rw [if_pos (hoob.2 hr)] at h
    exact h.symm
  · intro hd hr
    rw [if_neg (fun h' => hoob.1 h' hr)] at h
    have hvals : ∀ idx, values idx ≠ .masked := by
      intro idx
      unfold accountForInverted at hval
      split at hval
      · simp only [Option.some.injEq] at hval
        rw [← hval]; exact hd _
      · cases hval
    rw [← h]
    cases m with
    | lin =>
      simp only
      unfold evaluateLinear
      apply foldl_ne_masked _ _ _ _ (by simp)
      intro e _
      exact mul_ne_masked (hvals _) (weight_ne_masked _ _ _ (norms_ne_masked _ _) _ (by simp))
    | nn => exact hvals _

/-- With the sample value masked (and this taken into account) the result is missing. -/
theorem c20_missing_sample (flag : Option Nat) (m : Method) (axes : List (Axis K)) (data : List Nat → Val K) (xs : List K)
    (ext : Bool) (v : Val K) (h : interpolate flag m axes data xs ext true = .ok v) : v = .masked := by
  unfold interpolate at h
  split at h
  · cases h
  split at h
  · cases h
  split at h
  · cases h
  · simpa using h.symm

end Cis.Interp
