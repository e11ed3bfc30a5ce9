import Verif.Main.SubsetGridded
import Verif.Interp.Command
import Verif.Interp.Local
set_option linter.unusedSectionVars false
set_option linter.unusedSimpArgs false

/-!
# `cis subset` of gridded data and `cis col` of the result onto points, one after the other

Nothing new is modelled: the subset of Main/SubsetGridded.lean and the collocation of Interp/Command.lean.
-/
namespace Cis.SubsetCol
open Cis.Str
open Cis.ColOpts hiding Err
open Cis.Interp hiding Opts Err Var
open Cis.InterpCmd (Values Sample)

/-! ### One point -/

section
variable {K : Type} [Field K] [LinearOrder K] [IsStrictOrderedRing K]

/-- `lin_main` for all data at once. -/
theorem lin_all (flag : Option Nat) (axes : List (Axis K)) (h : Handled flag axes)
    (h2 : ∀ a ∈ axes, 2 ≤ (Interp.Spec.nodes a).length) (xs : List K) (hx : xs.length = axes.length)
    (ext : Bool) (hr : ext = true ∨ AllInRange axes xs) :
    ∃ cells : List ((K × Nat) × (K × Nat) × K),
      List.Forall₂ (fun (ax : Axis K × K) c => Cell (Interp.Spec.nodes ax.1) ax.2 c) (axes.zip xs) cells ∧ ∀ data : List Nat → Val K,
      (∀ f : List Nat → K, (∀ idx, CellCorner cells idx → data idx = .num (f idx)) →
        interpolate flag .lin axes data xs ext false = .ok (.num (Interp.Spec.multilinear (weights cells) f))) ∧
      ((∃ idx, CellCorner cells idx ∧ data idx = .masked) → interpolate flag .lin axes data xs ext false = .ok .masked) := by
  have hp : ∀ p ∈ axes.map proc, (p.map Prod.fst).Pairwise (· < ·) ∧ 2 ≤ p.length := by
    intro p hp
    rw [List.mem_map] at hp
    obtain ⟨a, ha, rfl⟩ := hp
    refine ⟨(grid_eq_proc h ha).2.1, ?_⟩
    have : (proc a).length = (Interp.Spec.nodes a).length := by unfold proc; split <;> simp
    rw [this]; exact h2 a ha
  obtain ⟨is, ys, cells, h3, h4, h5, h6, h7, h8, h9, h10⟩ := cells_exist (axes.map proc) xs (by simpa using hx) hp
  refine ⟨cells, ?_, fun data => ?_⟩
  · rw [List.zip_map_left, List.forall₂_map_left_iff] at h7
    exact h7.imp (fun a c hc => Cell.nodes hc)
  obtain ⟨values, hv, hval⟩ := interpolate_eq flag .lin axes h data xs hx ext false
  have hrange : ¬ ((!ext && (List.zipWith Interp.outOfBounds ((axes.map proc).map (fun p => p.map Prod.fst)) xs).any id) = true) := by
    rw [Bool.and_eq_true, Bool.not_eq_true', oob_any _ (fun p hp' => ⟨(hp p hp').1, by have := (hp p hp').2; intro e; rw [e] at this; simp at this⟩)]
    rintro ⟨he, px, hpx, hn⟩
    rcases hr with hr | hr
    · rw [hr] at he; cases he
    · rw [List.zip_map_left, List.mem_map] at hpx
      obtain ⟨ax, hax, rfl⟩ := hpx
      exact hn (inRange_proc.2 (hr ax hax))
  have hreg : interpolate flag .lin axes data xs ext false = .ok (evaluateLinear ((axes.map proc).map List.length) values
      (is.map (fun i : Nat => (i : Int))) (ys.map Val.num)) := by
    rw [hv]
    simp only [Bool.false_eq_true, if_false]
    unfold regularGrid
    simp only
    rw [if_neg hrange, h5, h6]
  have hlen : ((axes.map proc).map List.length).length = is.length := by rw [h3]; simp
  constructor
  · intro f hf
    rw [hreg, evaluateLinear_num is ys (by rw [h3, h4]) _ hlen values (fun idx => f (List.zipWith lookup (axes.map proc) idx)), h10]
    intro idx hi
    obtain ⟨h11, h12⟩ := h8 idx hi
    rw [hval idx h11]; exact hf _ h12
  · rintro ⟨idx, hc, hm⟩
    obtain ⟨idx', h11, h12⟩ := h9 idx hc
    rw [hreg, evaluateLinear_masked is ys _ hlen values idx' h11]
    rw [hval idx' (h8 idx' h11).1, h12]; exact hm

/-- An index of a cell of the axes. -/
def In (axes : List (Axis K)) (idx : List Nat) : Prop := List.Forall₂ (fun (a : Axis K) k => k < a.points.length) axes idx

theorem node_in {a : Axis K} {q : K × Nat} (h : q ∈ Interp.Spec.nodes a) : q.2 < a.points.length := by
  unfold Interp.Spec.nodes at h
  rcases List.mem_append.1 h with h | h
  · rw [List.mem_zipIdx_iff_getElem?] at h
    exact (List.getElem?_eq_some_iff.1 h).1
  · split at h
    · rename_i hp
      rw [List.mem_singleton] at h
      subst h
      rw [hp]; simp
    · cases h

theorem corner_in : ∀ (axes : List (Axis K)) (xs : List K) (cells : List ((K × Nat) × (K × Nat) × K)) (idx : List Nat), xs.length = axes.length →
    List.Forall₂ (fun (ax : Axis K × K) c => Cell (Interp.Spec.nodes ax.1) ax.2 c) (axes.zip xs) cells → CellCorner cells idx → In axes idx
  | [], [], _, _, _, .nil, .nil => .nil
  | a :: t, x :: xs, c :: cs, k :: idx, hl, .cons h1 h2, .cons h3 h4 => by
    refine .cons ?_ (corner_in t xs cs idx (by simpa using hl) h2 h4)
    rcases h3 with rfl | rfl
    · exact node_in h1.mem0
    · exact node_in h1.mem1

theorem nearest_in : ∀ (axes : List (Axis K)) (xs : List K) (idx : List Nat), xs.length = axes.length →
    List.Forall₂ (fun (ax : Axis K × K) k => ∃ q, Interp.Spec.Nearest (Interp.Spec.nodes ax.1) ax.2 (q, k)) (axes.zip xs) idx → In axes idx
  | [], [], _, _, .nil => .nil
  | a :: t, x :: xs, k :: idx, hl, .cons h1 h2 => by
    refine .cons ?_ (nearest_in t xs idx (by simpa using hl) h2)
    obtain ⟨q, hq, -⟩ := h1
    exact node_in hq

/-- Linear interpolation looks at the cells of the axes only. -/
theorem lin_congr (flag : Option Nat) (axes : List (Axis K)) (h : Handled flag axes)
    (h2 : ∀ a ∈ axes, 2 ≤ (Interp.Spec.nodes a).length) (xs : List K) (hx : xs.length = axes.length) (ext : Bool) (hr : AllInRange axes xs)
    (data data' : List Nat → Val K) (hd : ∀ idx, In axes idx → data idx = data' idx) (hn : ∀ idx, In axes idx → data idx ≠ .nan) :
    interpolate flag .lin axes data xs ext false = interpolate flag .lin axes data' xs ext false := by
  obtain ⟨cells, hc, hall⟩ := lin_all flag axes h h2 xs hx ext (Or.inr hr)
  by_cases hm : ∃ idx, CellCorner cells idx ∧ data idx = .masked
  · rw [(hall data).2 hm]
    obtain ⟨idx, hi, e⟩ := hm
    exact ((hall data').2 ⟨idx, hi, by rw [← hd idx (corner_in axes xs cells idx hx hc hi)]; exact e⟩).symm
  · push Not at hm
    have hnum : ∀ idx, CellCorner cells idx → data idx = .num (match data idx with | .num v => v | _ => 0) := by
      intro idx hi
      cases e : data idx with
      | num v => rfl
      | masked => exact absurd e (hm idx hi)
      | nan => exact absurd e (hn idx (corner_in axes xs cells idx hx hc hi))
    rw [(hall data).1 _ hnum, (hall data').1 (fun idx => match data idx with | .num v => v | _ => 0)]
    intro idx hi
    rw [← hd idx (corner_in axes xs cells idx hx hc hi)]
    exact hnum idx hi

/-- The value at a point within the part, when the data of the part are those of the whole at the same cells. -/
theorem point_part (flag : Option Nat) (m : Method) (axes axes' : List (Axis K)) (es : List (Nat → Nat)) (h : Handled flag axes) (h' : Handled flag axes')
    (h2 : m = .lin → ∀ a ∈ axes', 2 ≤ (Interp.Spec.nodes a).length) (hp : Interp.Spec.Parts axes axes' es) (data data' : List Nat → Val K)
    (hd : ∀ idx, In axes' idx → data' idx = data (List.zipWith (fun e k => e k) es idx)) (hnan : ∀ i, data i ≠ .nan) (xs : List K)
    (hx : xs.length = axes.length) (hr : AllInRange axes' xs)
    (hc : m = .nn ∨ (∀ i, data i ≠ .masked) ∨ ∀ ax ∈ axes.zip xs, ax.2 ∉ (Interp.Spec.nodes ax.1).map Prod.fst) (ext : Bool) :
    interpolate flag m axes' data' xs ext false = interpolate flag m axes data xs ext false := by
  have hl := parts_length hp
  cases m with
  | nn =>
    obtain ⟨idx, h1, e1⟩ := c19_nearest flag axes h data xs hx ext (Or.inr (parts_range axes axes' es xs hp hr))
    obtain ⟨idx', h1', e1'⟩ := c19_nearest flag axes' h' data' xs (by omega) ext (Or.inr hr)
    rw [e1, e1', parts_nearest axes axes' es xs idx idx' hp hx (fun a ha => distinct_nodes h ha) hr h1 h1',
      hd idx' (nearest_in axes' xs idx' (by omega) h1')]
  | lin =>
    have hcon := lin_congr flag axes' h' (h2 rfl) xs (by omega) ext hr (Interp.Spec.partData es data) data' (fun idx hi => (hd idx hi).symm)
      (fun idx _ => hnan _)
    rw [← hcon]
    rcases hc with hc | hc | hc
    · cases hc
    · have : data = fun i => .num (match data i with | .num v => v | _ => 0) := by
        funext i
        cases e : data i with
        | num v => rfl
        | masked => exact absurd e (hc i)
        | nan => exact absurd e (hnan i)
      obtain ⟨v, e1, e2⟩ := c150_linear flag axes axes' es h h' (h2 rfl) hp (fun i => match data i with | .num v => v | _ => 0) xs hx hr ext
      rw [← this] at e1 e2
      rw [e1, e2]
    · exact c150_missing flag axes axes' es h h' (h2 rfl) hp data hnan xs hx hr hc ext

end

/-! ### Specification -/

open Cis.SubsetGrid (Crd)
open Cis.SubsetCmd.Spec (Range)

/-- The subset does not move points by whole turns: in degrees, the ends of the range, open ends filled in, are less than a turn apart, and every point
that is in the range up to whole turns is in it as it is. Dates grow with the numbers of the time coordinate. -/
def Spec.AsIs (c : Crd) : Range → Prop
  | .time _ _ => ∀ f, c.dates = some f → ∀ x y, x ≤ y → Time.Spec.instant (f x) ≤ Time.Spec.instant (f y)
  | .num lo hi => c.modular = true → ∃ l h : ℚ, SubsetGrid.Spec.Ends c l h ∧ hi.getD h < lo.getD l + 360 ∧
      ∀ p ∈ c.points, SubsetGrid.Spec.Inside c (.num lo hi) p → lo.getD l ≤ p ∧ p ≤ hi.getD h

/-! ### One dimension -/

theorem new_same {a : Crd} {r : Range} (h : Spec.AsIs a r) {p q : ℚ} (hp : p ∈ a.points) (hi : SubsetGrid.Spec.Inside a r p)
    (hn : SubsetGrid.Spec.NewPoint a r p q) : q = p := by
  cases r with
  | time lo hi => exact hn
  | num lo hi =>
    unfold SubsetGrid.Spec.NewPoint at hn
    by_cases hm : a.modular = true
    · simp only [hm, if_true] at hn
      obtain ⟨l, u, he, hw, hin⟩ := h hm
      obtain ⟨h1, h2⟩ := hin p hp hi
      obtain ⟨⟨n, rfl⟩, l', u', he', h3, h4⟩ := hn
      rw [(SubsetGrid.ends_unique he').1, ← (SubsetGrid.ends_unique he).1] at h3
      rw [(SubsetGrid.ends_unique he').2, ← (SubsetGrid.ends_unique he).2] at h4
      have a1 : (n : ℚ) < 1 := by linarith
      have a2 : (-1 : ℚ) < n := by linarith
      have b1 : n < 1 := by exact_mod_cast a1
      have b2 : -1 < n := by exact_mod_cast a2
      have : n = 0 := by omega
      rw [this]; simp
    · simp only [Bool.not_eq_true] at hm
      simpa [hm] using hn

/-- What lies between points in the range is in the range. -/
theorem inside_between {a : Crd} {r : Range} (h : Spec.AsIs a r) {x y z : ℚ} (hx : x ∈ a.points) (hz : z ∈ a.points)
    (ix : SubsetGrid.Spec.Inside a r x) (iz : SubsetGrid.Spec.Inside a r z) (h1 : x ≤ y) (h2 : y ≤ z) : SubsetGrid.Spec.Inside a r y := by
  cases r with
  | time lo hi =>
    obtain ⟨f, hf, i1, -⟩ := ix
    obtain ⟨g, hg, -, i2⟩ := iz
    rw [hf] at hg
    injection hg with hg
    subst hg
    exact ⟨f, hf, i1.trans (h f hf x y h1), (h f hf y z h2).trans i2⟩
  | num lo hi =>
    by_cases hm : a.modular = true
    · obtain ⟨l, u, he, -, hin⟩ := h hm
      have k1 := (hin x hx ix).1
      have k2 := (hin z hz iz).2
      unfold SubsetGrid.Spec.Inside
      simp only [hm, if_true]
      exact ⟨0, l, u, he, by simpa using k1.trans h1, by simpa using h2.trans k2⟩
    · unfold SubsetGrid.Spec.Inside at ix iz ⊢
      simp only [hm] at ix iz ⊢
      exact ⟨fun b hb => (ix.1 b hb).trans h1, fun b hb => h2.trans (iz.2 b hb)⟩

/-- What a subset leaves of a coordinate is a part of the axis. -/
theorem part_sel {a b : Crd} {r : Range} {f : List Nat} (hs : SubsetGrid.Spec.AxisSel a b r f) (hr : Spec.AsIs a r) (circ : Option ℚ)
    (hasc : circ.isSome = true → Interp.Spec.Ascending (⟨a.points, circ⟩ : Axis ℚ)) :
    Interp.Spec.Part (⟨a.points, circ⟩ : Axis ℚ) ⟨b.points, none⟩ (fun k => f.getD k 0) := by
  have key : ∀ (q : ℚ) (k : Nat), b.points[k]? = some q → ∃ i, f[k]? = some i ∧ a.points[i]? = some q ∧ SubsetGrid.Spec.Inside a r q := by
    intro q k hk
    have hkl := (List.getElem?_eq_some_iff.1 hk).1
    have hfk : f[k]? = some (f[k]'(by rw [← hs.length]; exact hkl)) := List.getElem?_eq_getElem _
    obtain ⟨p, hp, hi⟩ := (hs.kept _).1 (List.mem_of_getElem? hfk)
    have := hs.points k _ p q hfk hp hk
    have e := new_same hr (List.mem_of_getElem? hp) hi this
    subst e
    exact ⟨_, hfk, hp, hi⟩
  have hsub : ∀ q ∈ Interp.Spec.nodes (⟨b.points, none⟩ : Axis ℚ), b.points[q.2]? = some q.1 := by
    intro q hq
    rw [nodes_noncircular rfl] at hq
    exact List.mem_zipIdx_iff_getElem?.1 hq
  constructor
  · intro q hq
    obtain ⟨i, h1, h2, -⟩ := key q.1 q.2 (hsub q hq)
    unfold Interp.Spec.nodes
    apply List.mem_append_left
    rw [List.mem_zipIdx_iff_getElem?]
    simp only [List.getD_eq_getElem?_getD, h1, Option.getD_some]
    exact h2
  · rintro ⟨y, i⟩ hb ⟨lo, hlo, l1⟩ ⟨hi, hhi, l2⟩
    obtain ⟨j1, -, p1, i1⟩ := key lo.1 lo.2 (hsub lo hlo)
    obtain ⟨j2, -, p2, i2⟩ := key hi.1 hi.2 (hsub hi hhi)
    simp only at l1 l2
    have hy : a.points[i]? = some y := by
      have hb' := hb
      unfold Interp.Spec.nodes at hb
      rcases List.mem_append.1 hb with hb | hb
      · exact List.mem_zipIdx_iff_getElem?.1 hb
      · exfalso
        cases circ with
        | none => simp at hb
        | some m =>
          have hA := hasc rfl
          unfold Interp.Spec.Ascending Interp.Spec.nodes at hA
          split at hb
          · rename_i m' p t hc hp
            simp only at hc hp
            simp only [hp] at hA
            rw [List.mem_singleton] at hb
            rw [List.map_append, List.pairwise_append] at hA
            injection hc with hc
            subst hc
            have := hA.2.2 hi.1 (by
              rw [List.zipIdx_map_fst]
              rw [← hp]; exact List.mem_of_getElem? p2) (p + m) (by simp)
            have e : y = p + m := congrArg Prod.fst hb
            linarith
          · cases hb
    have hin := inside_between hr (List.mem_of_getElem? p1) (List.mem_of_getElem? p2) i1 i2 l1 l2
    have hif := (hs.kept i).2 ⟨y, hy, hin⟩
    obtain ⟨j, hj⟩ := List.mem_iff_getElem?.1 hif
    have hjl := (List.getElem?_eq_some_iff.1 hj).1
    have hbj : b.points[j]? = some (b.points[j]'(by rw [hs.length]; exact hjl)) := List.getElem?_eq_getElem _
    have := hs.points j i y _ hj hy hbj
    have e := new_same hr (List.mem_of_getElem? hy) hin this
    rw [e] at hbj
    refine ⟨(y, j), ?_, ?_⟩
    · rw [nodes_noncircular rfl, List.mem_zipIdx_iff_getElem?]
      exact hbj
    · simp only [List.getD_eq_getElem?_getD, hj, Option.getD_some]

/-- The part of a coordinate that is all of it. -/
theorem part_all (a : Axis ℚ) (e : Nat → Nat) (he : ∀ k, k < a.points.length → e k = k) (circ' : Option ℚ) (hc : circ' = none ∨ circ' = a.circular)
    (hasc : circ' = none → a.circular.isSome = true → Interp.Spec.Ascending a) : Interp.Spec.Part a ⟨a.points, circ'⟩ e := by
  rcases hc with rfl | rfl
  · constructor
    · intro q hq
      rw [nodes_noncircular rfl] at hq
      have hk := List.mem_zipIdx_iff_getElem?.1 hq
      rw [he q.2 (List.getElem?_eq_some_iff.1 hk).1]
      exact List.mem_append_left _ hq
    · rintro ⟨y, i⟩ hb - ⟨hi, hhi, l2⟩
      have hb' := hb
      unfold Interp.Spec.nodes at hb
      rcases List.mem_append.1 hb with hb | hb
      · have hk := List.mem_zipIdx_iff_getElem?.1 hb
        refine ⟨(y, i), by rw [nodes_noncircular rfl]; exact hb, ?_⟩
        rw [he i (List.getElem?_eq_some_iff.1 hk).1]
      · exfalso
        rw [nodes_noncircular rfl] at hhi
        have hk := List.mem_zipIdx_iff_getElem?.1 hhi
        split at hb
        · rename_i m p t hc hp
          have hA := hasc rfl (by rw [hc]; rfl)
          unfold Interp.Spec.Ascending Interp.Spec.nodes at hA
          simp only [hc, hp] at hA
          rw [List.mem_singleton] at hb
          rw [List.map_append, List.pairwise_append] at hA
          have := hA.2.2 hi.1 (by
            rw [List.zipIdx_map_fst, ← hp]; exact List.mem_of_getElem? hk) (p + m) (by simp)
          have e1 : y = p + m := congrArg Prod.fst hb
          simp only at l2
          linarith
        · cases hb
  · have hid : ∀ q ∈ Interp.Spec.nodes a, e q.2 = q.2 := fun q hq => he _ (node_in hq)
    exact ⟨fun q hq => by rw [hid q hq]; exact hq, fun b hb _ _ => ⟨b, hb, by rw [hid b hb]⟩⟩

theorem parts_index : ∀ (axes axes' : List (Axis ℚ)) (es : List (Nat → Nat)), axes'.length = axes.length → es.length = axes.length →
    (∀ (k : Nat) (a a' : Axis ℚ) (e : Nat → Nat), axes[k]? = some a → axes'[k]? = some a' → es[k]? = some e → Interp.Spec.Part a a' e) →
    Interp.Spec.Parts axes axes' es
  | [], [], [], _, _, _ => trivial
  | a :: t, a' :: t', e :: es, h1, h2, h => ⟨h 0 a a' e rfl rfl rfl,
      parts_index t t' es (by simpa using h1) (by simpa using h2) (fun k a a' e => h (k + 1) a a' e)⟩

/-! ### All dimensions -/

/-- The axes of the interpolator: the points of each coordinate and, if it goes round, the modulus. -/
def axesOf (cs : List Crd) (rounds : List (Option ℚ)) : List (Axis ℚ) := List.zipWith (fun c m => ⟨c.points, m⟩) cs rounds

/-- A visible value, or missing. -/
def valOf : Option ℚ → Val ℚ
  | none => .masked
  | some x => .num x

/-- The variables as they are collocated, with their metadata. -/
def colVars (names : List Names) (axes : List (Axis ℚ)) (vs : List (SubsetGrid.Var ℚ)) : List (InterpCmd.Var ℚ) :=
  List.zipWith (fun n v => ⟨n, axes, fun idx => valOf (v.value idx)⟩) names vs

/-- A coordinate of the part goes round only if it is whole and did before. -/
def Spec.Rounds (cs cs' : List Crd) (rounds rounds' : List (Option ℚ)) : Prop :=
  ∀ (k : Nat) (m : Option ℚ), rounds'[k]? = some m → m = none ∨
    (rounds[k]? = some m ∧ (cs'[k]?).map Crd.points = (cs[k]?).map Crd.points)

theorem handled_circ {flag : Option Nat} {axes : List (Axis ℚ)} (h : Handled flag axes) {k : Nat} {a : Axis ℚ} (ha : axes[k]? = some a)
    (hc : a.circular.isSome = true) : Interp.Spec.Ascending a := by
  rcases (h k a ha).2 with h1 | ⟨-, -, h2, -⟩
  · exact h1
  · rw [h2] at hc; cases hc

theorem handled_nodup {flag : Option Nat} {axes : List (Axis ℚ)} (h : Handled flag axes) {k : Nat} {a : Axis ℚ} (ha : axes[k]? = some a) :
    a.points.Nodup := by
  rcases (h k a ha).2 with h1 | ⟨-, -, -, h1⟩
  · unfold Interp.Spec.Ascending Interp.Spec.nodes at h1
    rw [List.map_append, List.zipIdx_map_fst, List.pairwise_append] at h1
    exact h1.1.imp (fun h => ne_of_lt h)
  · exact h1.imp (fun h => ne_of_gt h)

theorem mapIdx_zipWith (f : Nat → List Nat) (n : Nat) (idx : List Nat) (h : idx.length = n) :
    List.zipWith (fun (e : Nat → Nat) (k : Nat) => e k) ((List.range n).map (fun k j => (f k).getD j 0)) idx =
      idx.mapIdx (fun k i => (f k).getD i 0) := by
  apply List.ext_getElem
  · simp [h]
  · intro i h1 h2
    simp

theorem in_get : ∀ {axes : List (Axis ℚ)} {idx : List Nat}, In axes idx → idx.length = axes.length ∧
    ∀ (k i : Nat) (a : Axis ℚ), idx[k]? = some i → axes[k]? = some a → i < a.points.length
  | _, _, h => by
    refine ⟨h.length_eq.symm, fun k i a hi ha => ?_⟩
    unfold In at h
    rw [List.forall₂_iff_get] at h
    obtain ⟨h1, rfl⟩ := List.getElem?_eq_some_iff.1 hi
    obtain ⟨h2, rfl⟩ := List.getElem?_eq_some_iff.1 ha
    exact h.2 k h2 h1

/-- A subset of a variable by limits is a part of its grid with the values of the same cells. -/
theorem sub_parts {flag : Option Nat} {asked : List SubsetGrid.Spec.Asked} {v r : SubsetGrid.Var ℚ} (hs : SubsetGrid.Spec.SubGrid asked v r)
    (has : ∀ x ∈ asked, x.coord ∈ v.crds ∧ Spec.AsIs x.coord x.range) (hnames : (v.crds.map (fun c => c.name)).Nodup) {rounds rounds' : List (Option ℚ)}
    (hl : rounds.length = v.crds.length) (hl' : rounds'.length = v.crds.length)
    (hrounds : Spec.Rounds v.crds r.crds rounds rounds') (hh : Handled flag (axesOf v.crds rounds)) :
    ∃ es, Interp.Spec.Parts (axesOf v.crds rounds) (axesOf r.crds rounds') es ∧
      ∀ idx, In (axesOf r.crds rounds') idx → valOf (r.value idx) = valOf (v.value (List.zipWith (fun e k => e k) es idx)) := by
  obtain ⟨hlen, f, hf, -, hval⟩ := hs
  refine ⟨(List.range v.crds.length).map (fun k j => (f k).getD j 0), ?_, ?_⟩
  · apply parts_index
    · simp [axesOf, hl, hl', hlen]
    · simp [axesOf, hl]
    · intro k A A' e hA hA' he
      have hAh := hA
      obtain ⟨a, m, ha, hm, rfl⟩ : ∃ a m, v.crds[k]? = some a ∧ rounds[k]? = some m ∧ A = ⟨a.points, m⟩ := by
        unfold axesOf at hA
        rw [List.getElem?_zipWith_eq_some] at hA
        obtain ⟨a, m, h1, h2, h3⟩ := hA
        exact ⟨a, m, h1, h2, h3.symm⟩
      obtain ⟨b, m', hb, hm', rfl⟩ : ∃ b m, r.crds[k]? = some b ∧ rounds'[k]? = some m ∧ A' = ⟨b.points, m⟩ := by
        unfold axesOf at hA'
        rw [List.getElem?_zipWith_eq_some] at hA'
        obtain ⟨a, m, h1, h2, h3⟩ := hA'
        exact ⟨a, m, h1, h2, h3.symm⟩
      have he' : e = fun j => (f k).getD j 0 := by
        rw [List.getElem?_map, List.getElem?_range (List.getElem?_eq_some_iff.1 ha).1] at he
        injection he with he
        exact he.symm
      subst he'
      have hround : m' = none ∨ (m' = m ∧ b.points = a.points) := by
        rcases hrounds k m' hm' with h | ⟨h1, h2⟩
        · exact .inl h
        · rw [hm] at h1
          rw [ha, hb] at h2
          injection h1 with h1
          injection h2 with h2
          exact .inr ⟨h1.symm, h2⟩
      obtain ⟨h1, h2⟩ := hf k a b ha hb
      by_cases hx : ∃ x ∈ asked, x.coord.name = a.name
      · obtain ⟨x, hx, hxn⟩ := hx
        have hsel := h1 x hx hxn
        have hxa : x.coord = a := by
          obtain ⟨hxc, -⟩ := has x hx
          obtain ⟨j, hj⟩ := List.mem_iff_getElem?.1 hxc
          obtain ⟨j1, j2⟩ := List.getElem?_eq_some_iff.1 hj
          obtain ⟨k1, k2⟩ := List.getElem?_eq_some_iff.1 ha
          have : j = k := by
            have := (List.Nodup.getElem_inj_iff hnames (i := j) (j := k) (hi := by simpa using j1) (hj := by simpa using k1)).1 (by
              simp only [List.getElem_map, j2, k2]; exact hxn)
            exact this
          subst this
          rw [ha] at hj
          injection hj with hj
          exact hj.symm
        have hasis : Spec.AsIs a x.range := hxa ▸ (has x hx).2
        rcases hround with rfl | ⟨rfl, hpts⟩
        · exact part_sel hsel hasis m (fun hc => handled_circ hh hAh hc)
        · rw [hpts]
          refine part_all ⟨a.points, m'⟩ _ (fun i hi => ?_) _ (.inr rfl) (fun h0 h1 => by rw [h0] at h1; cases h1)
          simp only at hi
          have hnd := handled_nodup hh hAh
          have hfl : i < (f k).length := by rw [← hsel.length, hpts]; exact hi
          obtain ⟨p, hp, hin⟩ := (hsel.kept (f k)[i]).1 (List.getElem_mem _)
          have hbi : b.points[i]? = some (a.points[i]) := by rw [hpts]; exact List.getElem?_eq_getElem hi
          have := new_same hasis (List.mem_of_getElem? hp) hin (hsel.points i _ p _ (List.getElem?_eq_getElem hfl) hp hbi)
          obtain ⟨q1, q2⟩ := List.getElem?_eq_some_iff.1 hp
          have : (f k)[i] = i := (List.Nodup.getElem_inj_iff hnd).1 (q2.trans this.symm)
          simp only [List.getD_eq_getElem?_getD, List.getElem?_eq_getElem hfl, Option.getD_some]
          exact this
      · push Not at hx
        obtain ⟨rfl, hfk⟩ := h2 hx
        refine part_all ⟨b.points, m⟩ _ (fun i hi => ?_) _ (hround.imp id And.left) (fun _ hc => handled_circ hh hAh hc)
        rw [hfk]
        simp only at hi
        simp [List.getD_eq_getElem?_getD, hi]
  · intro idx hi
    obtain ⟨i1, i2⟩ := in_get hi
    have hl2 : idx.length = r.crds.length := by rw [i1]; simp [axesOf, hl', hlen]
    rw [mapIdx_zipWith f _ _ (by omega), hval idx hl2]
    intro k i b hk hb
    have hkl := (List.getElem?_eq_some_iff.1 hb).1
    have hm : rounds'[k]? = some (rounds'[k]'(by omega)) := List.getElem?_eq_getElem _
    exact i2 k i ⟨b.points, _⟩ hk (by
      unfold axesOf
      rw [List.getElem?_zipWith_eq_some]
      exact ⟨b, _, hb, hm, rfl⟩)

/-! ### The commands -/

theorem mask_length {missing : Bool} {s : Sample ℚ} {b : List Bool} (h : InterpCmd.missingMask missing s = .ok b) : b.length = s.points.length := by
  unfold InterpCmd.missingMask at h
  dsimp only at h
  cases missing with
  | false => simp at h; rw [← h]; simp
  | true =>
    rw [if_pos rfl] at h
    cases hv : s.values with
    | coordinates => rw [hv] at h; cases h
    | plain => rw [hv] at h; injection h with h; rw [← h]; simp
    | nomask =>
      rw [hv] at h
      dsimp only at h
      by_cases h1 : s.points.length = 1
      · rw [if_pos h1] at h; injection h with h; rw [← h]; simp
      · rw [if_neg h1] at h; cases h
    | mask c =>
      rw [hv] at h
      dsimp only at h
      by_cases h1 : c.length = s.points.length
      · rw [if_pos h1] at h; injection h with h; rw [← h]; exact h1
      · rw [if_neg h1] at h; cases h

/-- What the collocation of variables on one grid gives. -/
theorem collocate_run {flag : Option Nat} {p : Plan} {nearest : Bool} {s : Sample ℚ} {axes : List (Axis ℚ)} (hax : Handled flag axes)
    (hpts : ∀ x ∈ s.points, x.length = axes.length) {b : List Bool} (hb : InterpCmd.missingMask p.missing s = .ok b) (vars : List (InterpCmd.Var ℚ))
    (hgrid : ∀ v ∈ vars, v.axes = axes) :
    ∃ res, InterpCmd.collocate flag p nearest false s vars = .ok res ∧ List.Forall₂ (fun (v : InterpCmd.Var ℚ) (r : Out × List (Val ℚ)) =>
      r.1 = ⟨override p v.names, some p.fill⟩ ∧ List.Forall₂ (fun q x =>
        interpolate flag (if nearest then .nn else .lin) axes v.vals q.1 false (p.missing && q.2) = .ok x) (s.points.zip b) r.2) vars res := by
  have hpl : ∀ q ∈ s.points.zip b, q.1.length = axes.length := fun q hq => hpts _ (List.of_mem_zip hq).1
  obtain ⟨rs, hrs, hown⟩ := InterpCmd.collocate_each ⟨flag, false, p.missing⟩ axes hax (s.points.zip b) (if nearest then .nn else .lin) hpl
    (vars.map (fun v => ⟨v.axes, v.vals⟩)) (by intro v hv; obtain ⟨w, hw, rfl⟩ := List.mem_map.1 hv; exact hgrid w hw)
  rw [List.forall₂_map_left_iff] at hown
  refine ⟨(vars.map (fun v => (⟨override p v.names, some p.fill⟩ : Out))).zip rs, ?_, ?_⟩
  · cases vars with
    | nil => rfl
    | cons v t =>
      rw [InterpCmd.collocate, hb]
      dsimp only
      rw [hrs]
  · have hz : (vars.map (fun v => (⟨override p v.names, some p.fill⟩ : Out))).zip rs =
        List.zipWith (fun (v : InterpCmd.Var ℚ) (r : List (Val ℚ)) => ((⟨override p v.names, some p.fill⟩ : Out), r)) vars rs := by
      rw [List.zip_map_left, List.zip, List.map_zipWith]
      rfl
    rw [hz, List.forall₂_iff_get]
    have hlen := hown.length_eq
    refine ⟨by simp [hlen], fun i hi hj => ?_⟩
    rw [List.forall₂_iff_get] at hown
    have := hown.2 i hi (by omega)
    simp only [List.get_eq_getElem, List.getElem_zipWith] at this ⊢
    exact ⟨trivial, this⟩

/-- The coordinate of the point is that of no cell. -/
def Spec.OffNodes (axes : List (Axis ℚ)) (x : List ℚ) : Prop := ∀ ax ∈ axes.zip x, ax.2 ∉ (Interp.Spec.nodes ax.1).map Prod.fst

/-- **C220.** `cis subset` of gridded variables on one grid (C188), where no point is moved by whole turns, and then `cis col` of the result onto points,
with `lin` or `nn` and any general options (C191), compared with `cis col` of all data: it fails in the same way; and if it succeeds then it gives
the same results, under the same metadata, with the same value at every point of the sample that lies within the part, if the method is nearest neighbour, or
the variable has no missing values, or the point has no coordinate of a cell; at points outside the part the value is missing. -/
theorem c220_subset_before (e : SubsetCmd.Env) (vs rs : List (SubsetGrid.Var ℚ)) (cs cs' : List Crd) (asked : List SubsetGrid.Spec.Asked)
    -- the subset
    (hvs : vs ≠ []) (hgrid : ∀ v ∈ vs, v.crds = cs) (hnames : (cs.map (fun c => c.name)).Nodup)
    (hne : asked ≠ []) (hword : ∀ x ∈ asked, SubsetGrid.Spec.Words x) (hshape : ∀ x ∈ asked, ¬ "shape".toList <+: x.dim)
    (hsays : ∀ x ∈ asked, SubsetCmd.Spec.Denotes e x.dim x.first x.second x.range)
    (hfind : ∀ x ∈ asked, x.coord ∈ cs ∧ CollapseCmd.Spec.Means (cs.map Crd.toCrd) (String.ofList x.dim) x.coord.toCrd)
    (hdims : (asked.map SubsetGrid.Spec.Asked.dim).Nodup) (hdiff : (asked.map (fun x => x.coord.name)).Nodup)
    (hsuits : ∀ x ∈ asked, SubsetGrid.Spec.Suits e x) (hasis : ∀ x ∈ asked, Spec.AsIs x.coord x.range)
    (hrun : SubsetGrid.run e vs (Parse.joinBy ',' (asked.map (fun x => Limits.Spec.render x.dim x.first x.second))) = .ok rs)
    (hgrid' : ∀ r ∈ rs, r.crds = cs')
    -- the collocation
    (num : Str → Option ℚ) (kernels : List Str) (flag : Option Nat) (how : Str) (l : Opts) (col : Option (Str × Opts)) (kern : Str) (s : Sample ℚ)
    (names : List Names) (rounds rounds' : List (Option ℚ)) (hnl : names.length = vs.length)
    (ht : InterpCmd.Spec.Text how l col) (hhow : how ∈ ["".toList, "lin".toList, "nn".toList]) (hkeys : ∀ kv ∈ l, kv.1 ∉ ColOpts.Spec.given)
    (hF : ∀ v, (kFill, some v) ∈ l → ∃ x, num v = some x) (hk : kern = [] ∨ kern ∈ kernels)
    (hl : rounds.length = cs.length) (hl' : rounds'.length = cs.length) (hround : Spec.Rounds cs cs' rounds rounds')
    (hh : Handled flag (axesOf cs rounds)) (hh' : Handled flag (axesOf cs' rounds'))
    (h2 : how ≠ "nn".toList → ∀ a ∈ axesOf cs' rounds', 2 ≤ (Interp.Spec.nodes a).length)
    (hpts : ∀ x ∈ s.points, x.length = cs.length) :
    (∀ x, InterpCmd.run num kernels flag col (some (kern, [])) s (colVars names (axesOf cs rounds) vs) = .error x →
      InterpCmd.run num kernels flag col (some (kern, [])) s (colVars names (axesOf cs' rounds') rs) = .error x) ∧
    ∀ res, InterpCmd.run num kernels flag col (some (kern, [])) s (colVars names (axesOf cs rounds) vs) = .ok res →
      ∃ res', InterpCmd.run num kernels flag col (some (kern, [])) s (colVars names (axesOf cs' rounds') rs) = .ok res' ∧
        res.length = vs.length ∧ res'.length = vs.length ∧
        ∀ (j : Nat) (v : SubsetGrid.Var ℚ) (o o' : Out) (y y' : List (Val ℚ)), vs[j]? = some v → res[j]? = some (o, y) → res'[j]? = some (o', y') →
          o' = o ∧ y'.length = s.points.length ∧ ∀ (i : Nat) (x : List ℚ), s.points[i]? = some x →
            (¬ AllInRange (axesOf cs' rounds') x → y'[i]? = some .masked) ∧
            (AllInRange (axesOf cs' rounds') x →
              how = "nn".toList ∨ (∀ idx, v.value idx ≠ none) ∨ Spec.OffNodes (axesOf cs rounds) x → y'[i]? = y[i]?) := by
  have hsub : List.Forall₂ (SubsetGrid.Spec.SubGrid asked) vs rs := by
    obtain ⟨c1, c2⟩ := SubsetGrid.c188_subset e vs cs hvs hgrid hnames asked hne hword hshape hsays hfind hdims hdiff hsuits
    by_cases h : ∀ x ∈ asked, ∃ p ∈ x.coord.points, SubsetGrid.Spec.Inside x.coord x.range p
    · obtain ⟨rs', h1, h2⟩ := c1 h
      rw [hrun] at h1
      injection h1 with h1
      rw [h1]; exact h2
    · push Not at h
      rw [c2 h] at hrun
      cases hrun
  have hrl : rs.length = vs.length := hsub.length_eq.symm
  have hcl : cs'.length = cs.length := by
    cases hsub with
    | nil => exact absurd rfl hvs
    | @cons v r _ _ h _ => rw [← hgrid v (by simp), ← hgrid' r (by simp)]; exact h.1
  obtain ⟨p, m, fill, hp, -, -, hwork, -, -, -, -, -⟩ := InterpCmd.plan s ht hhow hkeys hF hk
  have hrunc : ∀ vars : List (InterpCmd.Var ℚ), InterpCmd.run num kernels flag col (some (kern, [])) s vars =
      InterpCmd.collocate flag p (how = "nn".toList) false s vars := by
    intro vars
    rw [InterpCmd.run, hp]
    dsimp only
    rw [hwork]
  have hne1 : ∀ axes, ∃ w t, colVars names axes vs = w :: t := by
    intro axes
    cases vs with
    | nil => exact absurd rfl hvs
    | cons v vs =>
      cases names with
      | nil => simp at hnl
      | cons n ns => exact ⟨_, _, rfl⟩
  have hne2 : ∀ axes, ∃ w t, colVars names axes rs = w :: t := by
    intro axes
    have : rs ≠ [] := by intro h; rw [h] at hrl; exact hvs (List.length_eq_zero_iff.1 hrl.symm)
    cases rs with
    | nil => exact absurd rfl this
    | cons v vs =>
      cases names with
      | nil => rw [List.length_nil] at hnl; rw [List.length_cons] at hrl; omega
      | cons n ns => exact ⟨_, _, rfl⟩
  rw [hrunc, hrunc]
  cases hb : InterpCmd.missingMask p.missing s with
  | error x =>
    obtain ⟨w, t, e1⟩ := hne1 (axesOf cs rounds)
    obtain ⟨w', t', e2⟩ := hne2 (axesOf cs' rounds')
    rw [e1, e2, InterpCmd.collocate, InterpCmd.collocate, hb]
    refine ⟨fun x' h => h, fun res h => by cases h⟩
  | ok b =>
    have hbl := mask_length hb
    have hal : (axesOf cs rounds).length = cs.length := by simp [axesOf, hl]
    have hal' : (axesOf cs' rounds').length = cs.length := by simp [axesOf, hl', hcl]
    have hg : ∀ (axes : List (Axis ℚ)) (ws : List (SubsetGrid.Var ℚ)), ∀ w ∈ colVars names axes ws, w.axes = axes := by
      intro axes ws w hw
      obtain ⟨j, hj, rfl⟩ := List.mem_iff_getElem.1 hw
      simp [colVars]
    obtain ⟨res, e1, f1⟩ := collocate_run (p := p) (nearest := decide (how = "nn".toList)) hh (fun x hx => by rw [hpts x hx, hal]) hb
      (colVars names (axesOf cs rounds) vs) (hg _ _)
    obtain ⟨res', e2, f2⟩ := collocate_run (p := p) (nearest := decide (how = "nn".toList)) hh' (fun x hx => by rw [hpts x hx, hal']) hb
      (colVars names (axesOf cs' rounds') rs) (hg _ _)
    rw [e1, e2]
    refine ⟨fun x h => (by cases h), fun res0 h => ?_⟩
    injection h with h
    subst h
    refine ⟨res', rfl, ?_, ?_, ?_⟩
    · rw [← f1.length_eq]; simp [colVars, hnl]
    · rw [← f2.length_eq]; simp [colVars, hnl, hrl]
    intro j v o o' y y' hv hr hr'
    rw [List.forall₂_iff_get] at f1 f2 hsub
    obtain ⟨hv1, rfl⟩ := List.getElem?_eq_some_iff.1 hv
    obtain ⟨hr1, hr2⟩ := List.getElem?_eq_some_iff.1 hr
    obtain ⟨hr1', hr2'⟩ := List.getElem?_eq_some_iff.1 hr'
    have g1 := f1.2 j (by omega) hr1
    have g2 := f2.2 j (by omega) hr1'
    have g3 := hsub.2 j hv1 (by omega)
    simp only [List.get_eq_getElem, colVars, List.getElem_zipWith, hr2, hr2'] at g1 g2 g3
    obtain ⟨g1, k1⟩ := g1
    obtain ⟨g2, k2⟩ := g2
    have hzl : (s.points.zip b).length = s.points.length := by simp [hbl]
    refine ⟨g2.trans g1.symm, by rw [← k2.length_eq, hzl], fun i x hx => ?_⟩
    have hcr : vs[j].crds = cs := hgrid _ (List.getElem_mem _)
    have hcr' : (rs[j]'(by omega)).crds = cs' := hgrid' _ (List.getElem_mem _)
    obtain ⟨es, p1, p2⟩ := sub_parts (flag := flag) g3 (fun x hx => by rw [hcr]; exact ⟨(hfind x hx).1, hasis x hx⟩) (by rw [hcr]; exact hnames)
      (rounds := rounds) (rounds' := rounds') (by rw [hcr]; exact hl) (by rw [hcr]; exact hl') (by rw [hcr, hcr']; exact hround) (by rw [hcr]; exact hh)
    rw [hcr, hcr'] at p1
    rw [hcr'] at p2
    obtain ⟨i1, i2⟩ := List.getElem?_eq_some_iff.1 hx
    rw [List.forall₂_iff_get] at k1 k2
    have l1 := k1.2 i (by omega) (by omega)
    have l2 := k2.2 i (by omega) (by omega)
    simp only [List.get_eq_getElem, List.getElem_zip, i2] at l1 l2
    have hy : y[i]? = some (y[i]'(by omega)) := List.getElem?_eq_getElem _
    have hy' : y'[i]? = some (y'[i]'(by omega)) := List.getElem?_eq_getElem _
    cases hmis : (p.missing && b[i]'(by omega)) with
    | true =>
      rw [hmis] at l1 l2
      have a1 := c20_missing_sample _ _ _ _ _ _ _ l1
      have a2 := c20_missing_sample _ _ _ _ _ _ _ l2
      rw [hy, hy', a1, a2]
      exact ⟨fun _ => rfl, fun _ _ => rfl⟩
    | false =>
      rw [hmis] at l1 l2
      refine ⟨fun hn => ?_, fun hin hc => ?_⟩
      · rw [hy', (c20_no_extrapolation flag _ _ (InterpCmd.handled_monotonic hh') _ _ _ l2).1 hn]
      · have hxl : x.length = (axesOf cs rounds).length := by rw [hpts x (List.mem_of_getElem? hx), hal]
        have := point_part flag (if (decide (how = "nn".toList)) = true then .nn else .lin) _ _ es hh hh' (by
            intro hm
            apply h2
            rintro rfl
            simp at hm) p1 (fun idx => valOf (vs[j].value idx)) (fun idx => valOf (rs[j].value idx)) p2
          (by intro i; cases vs[j].value i <;> simp [valOf]) x hxl hin (by
            rcases hc with h | h | h
            · left; simp [h]
            · right; left
              intro i
              cases hv : vs[j].value i with
              | none => exact absurd hv (h i)
              | some q => simp [valOf]
            · exact .inr (.inr h)) false
        rw [this, l1] at l2
        injection l2 with l2
        rw [hy, hy', l2]

/-! ### Non-vacuity: longitudes that go round, `x=[100,250]`, and then `lin[var_name=x,fill_value=-999]` onto three points -/

def exEnv : SubsetCmd.Env :=
  ⟨fun s => if s = "100".toList then some (.fin 100) else if s = "250".toList then some (.fin 250) else none, ⟨2020, 6, 15, 0, 0, 0, 0⟩, fun _ => none⟩

def exVar (cs : List Crd) (data : List Nat → ℚ) : SubsetGrid.Var ℚ := ⟨cs, data, none⟩

def exGrid : List Crd := [SubsetGrid.exLat [-80, 0, 80], SubsetGrid.exLon [0, 120, 240, 355]]
def exPart : List Crd := [SubsetGrid.exLat [-80, 0, 80], SubsetGrid.exLon [120, 240]]
def exData (idx : List Nat) : ℚ := 10 * (idx.getD 0 0 : ℚ) + idx.getD 1 0
def exText : Str := "x=[100,250]".toList
def exSample : Sample ℚ := ⟨[[40, 150], [0, 240], [40, 300]], .mask [false, false, false]⟩
def exNames : List Names := [⟨"a".toList, none, none, none⟩]

/-- The result of the subset. -/
def exLeft : List (SubsetGrid.Var ℚ) :=
  match SubsetGrid.run exEnv [exVar exGrid exData] exText with
  | .ok rs => rs
  | .error _ => []

theorem ex_run : SubsetGrid.run exEnv [exVar exGrid exData] exText = .ok exLeft := by
  unfold exLeft
  have : (SubsetGrid.run exEnv [exVar exGrid exData] exText).toBool = true := by decide +kernel
  cases h : SubsetGrid.run exEnv [exVar exGrid exData] exText with
  | ok rs => rfl
  | error x => rw [h] at this; cases this

theorem ex_crds : exLeft.map SubsetGrid.Var.crds = [exPart] := by
  with_unfolding_all rfl

/-- The values: onto all data, and onto the part, where the last point is outside. -/
example : (match InterpCmd.run ColOpts.exNum [] none (some (Method.methodArgs (Method.Spec.method "lin".toList InterpCmd.exOpts'))) (some ([], [])) exSample
      (colVars exNames (axesOf exGrid [none, some 360]) [exVar exGrid exData]) with
    | .ok res => some (res.map (fun r => r.2))
    | .error _ => none) = some [[.num (65 / 4), .num 12, .num (15 + 60 / 115 + 2)]] ∧
    (match InterpCmd.run ColOpts.exNum [] none (some (Method.methodArgs (Method.Spec.method "lin".toList InterpCmd.exOpts'))) (some ([], [])) exSample
      (colVars exNames (axesOf exPart [none, none]) exLeft) with
    | .ok res => some (res.map (fun r => r.2))
    | .error _ => none) = some [[.num (65 / 4), .num 12, .masked]] := by
  decide +kernel

theorem ex_inside {p : ℚ} (hp : p ∈ (SubsetGrid.exLon [0, 120, 240, 355]).points)
    (hi : SubsetGrid.Spec.Inside (SubsetGrid.exLon [0, 120, 240, 355]) (.num (some 100) (some 250)) p) : 100 ≤ p ∧ p ≤ 250 := by
  unfold SubsetGrid.Spec.Inside at hi
  dsimp only at hi
  rw [if_pos (show (SubsetGrid.exLon [0, 120, 240, 355]).modular = true from rfl)] at hi
  obtain ⟨n, l, h, -, h1, h2⟩ := hi
  simp only [Option.getD_some] at h1 h2
  have hp' : 0 ≤ p ∧ p ≤ 355 ∧ (p = 0 ∨ 120 ≤ p) ∧ (p ≤ 240 ∨ p = 355) := by
    simp [SubsetGrid.exLon] at hp
    rcases hp with rfl | rfl | rfl | rfl <;> norm_num
  have a1 : (n : ℚ) < 1 := by linarith
  have a2 : (-1 : ℚ) < n := by linarith
  have b1 : n < 1 := by exact_mod_cast a1
  have b2 : -1 < n := by exact_mod_cast a2
  have : n = 0 := by omega
  subst this
  simp only [Int.cast_zero, mul_zero, add_zero] at h1 h2
  exact ⟨h1, h2⟩

theorem ex_ends : SubsetGrid.Spec.Ends (SubsetGrid.exLon [0, 120, 240, 355]) 0 355 :=
  ⟨by simp [SubsetGrid.exLon], by simp [SubsetGrid.exLon], by intro x hx; simp [SubsetGrid.exLon] at hx; rcases hx with rfl | rfl | rfl | rfl <;> norm_num⟩

/-- The hypotheses of `c220_subset_before` hold. -/
example : ∃ res', InterpCmd.run ColOpts.exNum [] none (some (Method.methodArgs (Method.Spec.method "lin".toList InterpCmd.exOpts'))) (some ([], [])) exSample
    (colVars exNames (axesOf exPart [none, none]) exLeft) = .ok res' ∧ res'.length = 1 := by
  have hmem : ∀ x ∈ ([⟨"x".toList, "100".toList, some "250".toList, SubsetGrid.exLon [0, 120, 240, 355], .num (some 100) (some 250)⟩] : List SubsetGrid.Spec.Asked),
      x = ⟨"x".toList, "100".toList, some "250".toList, SubsetGrid.exLon [0, 120, 240, 355], .num (some 100) (some 250)⟩ := by simp
  have key := c220_subset_before exEnv [exVar exGrid exData] exLeft exGrid exPart
    [⟨"x".toList, "100".toList, some "250".toList, SubsetGrid.exLon [0, 120, 240, 355], .num (some 100) (some 250)⟩]
    (by simp) (by simp [exVar]) (by decide +kernel) (by simp)
    (fun x hx => by rw [hmem x hx]; exact ⟨⟨by decide, by decide⟩, ⟨by decide, by decide⟩, fun s hs => by cases hs; exact ⟨by decide, by decide⟩⟩)
    (fun x hx => by rw [hmem x hx]; decide)
    (fun x hx => by
      rw [hmem x hx]
      exact ⟨by decide, .inr (.inr ⟨by decide, 100, by decide +kernel, rfl⟩), .inr ⟨_, rfl, .inr (.inr ⟨by decide, 250, by decide +kernel, rfl⟩)⟩,
        fun _ => ⟨100, 250, rfl, rfl, by norm_num, by norm_num⟩⟩)
    (fun x hx => by
      rw [hmem x hx]
      exact ⟨by simp [exGrid], .letter "longitude" (by decide +kernel) (by decide +kernel) rfl (by decide +kernel) (by decide +kernel) (by decide +kernel)⟩)
    (by decide) (by decide +kernel)
    (fun x hx => by
      rw [hmem x hx]
      exact ⟨rfl, fun _ => ⟨by decide +kernel, fun s hs => by cases hs; decide +kernel, 0, 355, ex_ends, by norm_num, by norm_num⟩⟩)
    (fun x hx => by
      rw [hmem x hx]
      exact fun _ => ⟨0, 355, ex_ends, by norm_num, fun p hp hi => by simpa using ex_inside hp hi⟩)
    (by
      rw [show Parse.joinBy ',' _ = exText from (by decide +kernel : Parse.joinBy ',' (List.map (fun x : SubsetGrid.Spec.Asked => Limits.Spec.render x.dim x.first x.second)
        [⟨"x".toList, "100".toList, some "250".toList, SubsetGrid.exLon [0, 120, 240, 355], .num (some 100) (some 250)⟩]) = exText)]
      exact ex_run)
    (fun r hr => by
      have := List.mem_map_of_mem (f := SubsetGrid.Var.crds) hr
      rw [ex_crds] at this
      simpa using this)
    ColOpts.exNum [] none "lin".toList InterpCmd.exOpts' (some (Method.methodArgs (Method.Spec.method "lin".toList InterpCmd.exOpts'))) [] exSample exNames
    [none, some 360] [none, none] rfl
    (.inr ⟨rfl, by decide, by decide, by decide, by decide +kernel, by decide⟩) (by decide) (by decide +kernel)
    (by
      intro v hv
      simp only [InterpCmd.exOpts', List.mem_cons, List.not_mem_nil, or_false, Prod.mk.injEq] at hv
      rcases hv with ⟨h, -⟩ | ⟨-, h⟩
      · exact absurd h (by decide)
      · injection h with h; subst h; exact ⟨-999, by decide +kernel⟩)
    (.inl rfl) rfl rfl
    (by
      intro k m hk
      match k with
      | 0 => cases hk; exact .inl rfl
      | 1 => cases hk; exact .inl rfl
      | k + 2 => simp at hk)
    (by
      intro d a ha
      match d with
      | 0 => cases ha; exact ⟨by simp [SubsetGrid.exLat], Or.inl (by unfold Interp.Spec.Ascending Interp.Spec.nodes; decide +kernel)⟩
      | 1 => cases ha; exact ⟨by simp [SubsetGrid.exLon], Or.inl (by unfold Interp.Spec.Ascending Interp.Spec.nodes; decide +kernel)⟩
      | d + 2 => simp [axesOf, exGrid] at ha)
    (by
      intro d a ha
      match d with
      | 0 => cases ha; exact ⟨by simp [SubsetGrid.exLat], Or.inl (by unfold Interp.Spec.Ascending Interp.Spec.nodes; decide +kernel)⟩
      | 1 => cases ha; exact ⟨by simp [SubsetGrid.exLon], Or.inl (by unfold Interp.Spec.Ascending Interp.Spec.nodes; decide +kernel)⟩
      | d + 2 => simp [axesOf, exPart] at ha)
    (by
      intro _ a ha
      simp only [axesOf, exPart, List.zipWith_cons_cons, List.zipWith_nil_left, List.mem_cons, List.not_mem_nil, or_false] at ha
      rcases ha with rfl | rfl <;> simp [Interp.Spec.nodes, SubsetGrid.exLat, SubsetGrid.exLon])
    (by simp [exSample, exGrid])
  have hok : (InterpCmd.run ColOpts.exNum [] none (some (Method.methodArgs (Method.Spec.method "lin".toList InterpCmd.exOpts'))) (some ([], [])) exSample
      (colVars exNames (axesOf exGrid [none, some 360]) [exVar exGrid exData])).toBool = true := by decide +kernel
  cases h : InterpCmd.run ColOpts.exNum [] none (some (Method.methodArgs (Method.Spec.method "lin".toList InterpCmd.exOpts'))) (some ([], [])) exSample
      (colVars exNames (axesOf exGrid [none, some 360]) [exVar exGrid exData]) with
  | error x => rw [h] at hok; cases hok
  | ok res =>
    obtain ⟨res', h1, -, h2, -⟩ := key.2 res h
    exact ⟨res', h1, h2⟩

end Cis.SubsetCol
