import Verif.Interp.Lemmas
set_option linter.unusedSectionVars false
set_option linter.unusedSimpArgs false
/-! Interpolation in terms of the nodes of the axes. -/
namespace Cis.Interp
variable {K : Type} [Field K] [LinearOrder K] [IsStrictOrderedRing K]

/-- The axes for which the code works: ascending ones; for versions of numpy in which `True` is the index 1, also a
descending second axis that is not circular. -/
def Handled (flag : Option Nat) (axes : List (Axis K)) : Prop :=
  ∀ d a, axes[d]? = some a → a.points ≠ [] ∧ (Spec.Ascending a ∨
    (d = 1 ∧ flag = some 1 ∧ a.circular = none ∧ a.points.Pairwise (· > ·)))

/-- The nodes in the order in which the interpolator sees them. -/
def proc (a : Axis K) : List (K × Nat) := if a.decreasing then (Spec.nodes a).reverse else Spec.nodes a

/-- The data index of a node. -/
def lookup (p : List (K × Nat)) (k : Nat) : Nat := (p[k]?.map Prod.snd).getD 0

theorem decreasing_of_ascending {a : Axis K} (h : Spec.Ascending a) : a.decreasing = false := by
  unfold Axis.decreasing
  unfold Spec.Ascending Spec.nodes at h
  rw [List.map_append, List.zipIdx_map_fst, List.pairwise_append] at h
  cases hp : a.points with
  | nil => rfl
  | cons p t =>
    cases t with
    | nil => rfl
    | cons q t =>
      rw [hp] at h
      have := (List.pairwise_cons.1 h.1).1 q (by simp)
      simp only [decide_eq_false_iff_not, not_lt]; exact this.le

theorem decreasing_of_descending {a : Axis K} (h : a.points.Pairwise (· > ·)) (h2 : 2 ≤ a.points.length) : a.decreasing = true := by
  unfold Axis.decreasing
  cases hp : a.points with
  | nil => rw [hp] at h2; simp at h2
  | cons p t =>
    cases t with
    | nil => rw [hp] at h2; simp at h2
    | cons q t =>
      rw [hp] at h
      have := (List.pairwise_cons.1 h).1 q (by simp)
      simpa using this

theorem grid_ascending {a : Axis K} (h : Spec.Ascending a) : a.grid = (Spec.nodes a).map Prod.fst := by
  unfold Axis.grid Spec.nodes
  rw [decreasing_of_ascending h, List.map_append, List.zipIdx_map_fst]
  simp only [Bool.false_eq_true, if_false]
  cases a.circular with
  | none => simp
  | some m => cases a.points <;> simp

theorem nodes_noncircular {a : Axis K} (h : a.circular = none) : Spec.nodes a = a.points.zipIdx := by
  unfold Spec.nodes; rw [h]; simp

theorem descending_one {a : Axis K} (hc : a.circular = none) (h : a.points.length ≤ 1) : Spec.Ascending a := by
  unfold Spec.Ascending
  rw [nodes_noncircular hc, List.zipIdx_map_fst]
  match hp : a.points, h with
  | [], _ => simp
  | [x], _ => simp
  | _ :: _ :: _, h => simp at h

/-- Either ascending, or really descending with at least two points. -/
theorem handled_cases {flag : Option Nat} {axes : List (Axis K)} (h : Handled flag axes) {d : Nat} {a : Axis K}
    (ha : axes[d]? = some a) : (Spec.Ascending a ∧ a.decreasing = false) ∨
      (d = 1 ∧ flag = some 1 ∧ a.circular = none ∧ a.points.Pairwise (· > ·) ∧ a.decreasing = true) := by
  obtain ⟨-, h1 | ⟨h1, h2, h3, h4⟩⟩ := h d a ha
  · exact Or.inl ⟨h1, decreasing_of_ascending h1⟩
  · by_cases hl : 2 ≤ a.points.length
    · exact Or.inr ⟨h1, h2, h3, h4, decreasing_of_descending h4 hl⟩
    · have := descending_one h3 (by omega)
      exact Or.inl ⟨this, decreasing_of_ascending this⟩

theorem grid_eq_proc {flag : Option Nat} {axes : List (Axis K)} (h : Handled flag axes) {a : Axis K} (ha : a ∈ axes) :
    a.grid = (proc a).map Prod.fst ∧ ((proc a).map Prod.fst).Pairwise (· < ·) ∧
      (proc a).length = a.points.length + (if a.circular.isSome then 1 else 0) := by
  obtain ⟨d, hd⟩ := List.mem_iff_getElem?.1 ha
  have hne := (h d a hd).1
  have hlen : (Spec.nodes a).length = a.points.length + (if a.circular.isSome then 1 else 0) := by
    unfold Spec.nodes
    rw [List.length_append, List.length_zipIdx]
    congr 1
    cases a.circular with
    | none => rfl
    | some m => cases hp : a.points with
      | nil => exact absurd hp hne
      | cons p t => rfl
  rcases handled_cases h hd with ⟨h1, h2⟩ | ⟨-, -, h3, h4, h5⟩
  · unfold proc
    rw [h2]
    simp only [Bool.false_eq_true, if_false]
    exact ⟨grid_ascending h1, h1, hlen⟩
  · unfold proc
    rw [h5, if_pos rfl, List.length_reverse]
    refine ⟨?_, ?_, hlen⟩
    · unfold Axis.grid
      rw [h5, h3, if_pos rfl, nodes_noncircular h3, List.map_reverse, List.zipIdx_map_fst]
    · rw [nodes_noncircular h3, List.map_reverse, List.zipIdx_map_fst, List.pairwise_reverse]
      exact h4

theorem lookup_nodes {a : Axis K} (k : Nat) (hk : k < (Spec.nodes a).length) : extendIndex a k = lookup (Spec.nodes a) k := by
  unfold extendIndex lookup Spec.nodes at *
  cases hc : a.circular with
  | none =>
    rw [hc] at hk
    simp at hk
    simp [List.getElem?_zipIdx, hk]
  | some m =>
    rw [hc] at hk
    cases hp : a.points with
    | nil => rw [hp] at hk; simp at hk
    | cons p t =>
      rw [hp] at hk
      simp at hk
      simp only
      by_cases h : k = (p :: t).length
      · rw [if_pos h, List.getElem?_append_right (by simp [h]), h]; simp
      · rw [if_neg h, List.getElem?_append_left (by simp at h ⊢; omega)]
        have : k < (p :: t).length := by simp at h ⊢; omega
        rw [List.getElem?_zipIdx, List.getElem?_eq_getElem this]; simp

theorem zipWith_lookup (flag : Option Nat) (axes : List (Axis K)) (h : Handled flag axes) (idx : List Nat)
    (hi : List.Forall₂ (fun (a : Axis K) k => k < (proc a).length) axes idx) :
    List.zipWith extendIndex axes (List.zipWith (fun (nd : Nat × Nat) k =>
        if some nd.2 ∈ decreasingDims flag axes then nd.1 - 1 - k else k) (extendShape axes).zipIdx idx)
      = List.zipWith (fun a k => lookup (proc a) k) axes idx := by
  have hl : axes.length = idx.length := hi.length_eq
  apply List.ext_getElem
  · simp [extendShape, hl]
  · intro d h1 h2
    have hd : d < axes.length := by simp at h2; omega
    have hd' : d < idx.length := by omega
    rw [List.getElem_zipWith, List.getElem_zipWith, List.getElem_zipWith]
    have hk : idx[d] < (proc axes[d]).length := by
      have := List.forall₂_iff_get.1 hi
      exact this.2 d hd hd'
    set a := axes[d] with had
    set k := idx[d] with hkd
    have hget : axes[d]? = some a := by rw [List.getElem?_eq_getElem hd]
    have hnd : (extendShape axes).zipIdx[d]'(by simp [extendShape]; exact hd)
        = (a.points.length + (if a.circular.isSome then 1 else 0), d) := by
      simp [extendShape, had]
    rw [hnd]
    rcases handled_cases h hget with ⟨hasc, hdec⟩ | ⟨rfl, rfl, h3, h4, h5⟩
    · -- not inverted
      have hno : some d ∉ decreasingDims flag axes := by
        intro hm
        unfold decreasingDims at hm
        rw [List.mem_map] at hm
        obtain ⟨b, hb, e⟩ := hm
        rw [List.mem_filter] at hb
        obtain ⟨j, hj⟩ := List.mem_iff_getElem?.1 hb.1
        rcases handled_cases h hj with ⟨-, h0⟩ | ⟨rfl, h0, -, -, -⟩
        · rw [h0] at hb; simp at hb
        · rw [h0] at e
          cases e
          rw [hget] at hj
          have hab : a = b := by simpa using hj
          rw [← hab, hdec] at hb; simp at hb
      rw [if_neg hno]
      have e : proc a = Spec.nodes a := by unfold proc; rw [hdec]; simp
      rw [e] at hk ⊢
      exact lookup_nodes k hk
    · have hyes : some 1 ∈ decreasingDims (some 1) axes := by
        unfold decreasingDims
        rw [List.mem_map]
        exact ⟨a, List.mem_filter.2 ⟨by rw [had]; exact List.getElem_mem _, h5⟩, rfl⟩
      rw [if_pos hyes]
      have e : proc a = a.points.zipIdx.reverse := by unfold proc; rw [h5, nodes_noncircular h3]; simp
      rw [e] at hk ⊢
      rw [h3]
      unfold extendIndex lookup
      rw [h3]
      simp only [Option.isSome_none, Bool.false_eq_true, if_false, Nat.add_zero]
      rw [List.length_reverse, List.length_zipIdx] at hk
      rw [List.getElem?_reverse (by simpa using hk), List.length_zipIdx, List.getElem?_zipIdx,
        List.getElem?_eq_getElem (by omega)]
      simp

/-- The interpolation in terms of the nodes. -/
theorem interpolate_eq (flag : Option Nat) (m : Method) (axes : List (Axis K)) (h : Handled flag axes) (data : List Nat → Val K)
    (xs : List K) (hx : xs.length = axes.length) (ext missing : Bool) :
    ∃ values, interpolate flag m axes data xs ext missing = .ok (if missing then .masked else
        regularGrid m ((axes.map proc).map (fun p => p.map Prod.fst)) xs ((axes.map proc).map List.length) values ext) ∧
      ∀ idx, List.Forall₂ (fun (p : List (K × Nat)) k => k < p.length) (axes.map proc) idx →
        values idx = data (List.zipWith lookup (axes.map proc) idx) := by
  have hg : axes.map Axis.grid = (axes.map proc).map (fun p => p.map Prod.fst) := by
    rw [List.map_map]
    apply List.map_congr_left
    intro a ha; exact (grid_eq_proc h ha).1
  have hsh : extendShape axes = (axes.map proc).map List.length := by
    unfold extendShape
    rw [List.map_map]
    apply List.map_congr_left
    intro a ha; exact (grid_eq_proc h ha).2.2.symm
  have hinv : (decreasingDims flag axes).all (validDim (extendShape axes).length) = true := by
    rw [List.all_eq_true]
    intro o ho
    unfold decreasingDims at ho
    rw [List.mem_map] at ho
    obtain ⟨b, hb, rfl⟩ := ho
    rw [List.mem_filter] at hb
    obtain ⟨j, hj⟩ := List.mem_iff_getElem?.1 hb.1
    rcases handled_cases h hj with ⟨-, h0⟩ | ⟨rfl, h0, -, -, -⟩
    · rw [h0] at hb; simp at hb
    · rw [h0]
      have := (List.getElem?_eq_some_iff.1 hj).1
      simp [validDim, extendShape]; exact this
  unfold interpolate accountForInverted
  rw [if_neg (by simpa using hx), if_neg, if_pos hinv]
  · refine ⟨_, by rw [hg, hsh], ?_⟩
    intro idx hi
    unfold extendData
    rw [← hsh, zipWith_lookup flag axes h idx (by rw [List.forall₂_map_left_iff] at hi; exact hi), List.zipWith_map_left]
  · simp only [Bool.not_eq_true', Bool.not_eq_false, List.all_eq_true]
    intro a ha
    unfold ascending
    rw [(grid_eq_proc h ha).1]
    simpa using (grid_eq_proc h ha).2.1

/-- One dimension of linear interpolation: the two nodes and the weight. -/
structure Cell (p : List (K × Nat)) (x : K) (c : (K × Nat) × (K × Nat) × K) : Prop where
  mem0 : c.1 ∈ p
  mem1 : c.2.1 ∈ p
  lt : c.1.1 < c.2.1.1
  gap : ∀ b ∈ p, ¬ (c.1.1 < b.1 ∧ b.1 < c.2.1.1)
  reproduces : (1 - c.2.2) * c.1.1 + c.2.2 * c.2.1.1 = x
  inRange : Spec.InRange p x → 0 ≤ c.2.2 ∧ c.2.2 ≤ 1 ∧ c.1.1 ≤ x ∧ x ≤ c.2.1.1 ∧ Spec.Adjacent p x c.1 ∧ Spec.Adjacent p x c.2.1

theorem cell_exists (p : List (K × Nat)) (hp : (p.map Prod.fst).Pairwise (· < ·)) (h2 : 2 ≤ p.length) (x : K) :
    ∃ (i : Nat) (hi : i + 1 < p.length) (y : K), findIndex (p.map Prod.fst) x = i ∧ normDistance (p.map Prod.fst) x = .num y ∧
      Cell p x (p[i], p[i + 1], y) := by
  obtain ⟨i, hi, e1, e2, h3, h4, -, -⟩ := findIndex_spec (p.map Prod.fst) hp (by simpa using h2) x
  have hi' : i + 1 < p.length := by simpa using hi
  refine ⟨i, hi', _, e1, e2, ?_⟩
  have hmono : ∀ j k (hj : j < p.length) (hk : k < p.length), j < k → (p[j]).1 < (p[k]).1 := by
    intro j k hj hk hjk
    have := pairwise_getElem hp (i := j) (j := k) (by simpa using hj) (by simpa using hk) hjk
    simpa using this
  have hlt := hmono i (i + 1) (by omega) hi' (by omega)
  simp only [List.getElem_map, List.length_map] at h3 h4 ⊢
  have hpos : 0 < (p[i + 1]).1 - (p[i]).1 := sub_pos.2 hlt
  refine ⟨List.getElem_mem _, List.getElem_mem _, hlt, ?_, ?_, ?_⟩
  · rintro b hb ⟨h5, h6⟩
    obtain ⟨j, hj, rfl⟩ := List.mem_iff_getElem.1 hb
    simp only at h5 h6
    rcases Nat.lt_or_ge i j with h | h
    · rcases Nat.lt_or_ge (i + 1) j with h' | h'
      · exact absurd (hmono (i + 1) j hi' hj h') (not_lt.2 h6.le)
      · have : j = i + 1 := by omega
        subst this; exact lt_irrefl _ h6
    · rcases Nat.lt_or_ge j i with h' | h'
      · exact absurd (hmono j i hj (by omega) h') (not_lt.2 h5.le)
      · have : j = i := by omega
        subst this; exact lt_irrefl _ h5
  · simp only
    field_simp
    ring
  · rintro ⟨⟨a, ha, hax⟩, ⟨b, hb, hbx⟩⟩
    obtain ⟨ja, hja, rfl⟩ := List.mem_iff_getElem.1 ha
    obtain ⟨jb, hjb, rfl⟩ := List.mem_iff_getElem.1 hb
    have l0 : (p[0]).1 ≤ x := by
      rcases Nat.eq_zero_or_pos ja with h | h
      · subst h; exact hax
      · exact le_trans (hmono 0 ja (by omega) hja h).le hax
    have l1 : x ≤ (p[p.length - 1]).1 := by
      rcases Nat.lt_or_ge jb (p.length - 1) with h | h
      · exact le_trans hbx (hmono jb (p.length - 1) hjb (by omega) h).le
      · have : jb = p.length - 1 := by omega
        subst this; exact hbx
    have hl := h3 l0
    have hr := h4 l1
    have adj : ∀ k (hk : k < p.length), (k = i ∨ k = i + 1) → Spec.Adjacent p x p[k] := by
      intro k hk hki
      refine ⟨List.getElem_mem _, ?_⟩
      intro b hb
      obtain ⟨j, hj, rfl⟩ := List.mem_iff_getElem.1 hb
      constructor
      · rintro ⟨ha, hb⟩
        have hjk : k < j := by
          by_contra hc
          rcases Nat.lt_or_ge j k with h | h
          · exact absurd (hmono j k hj hk h) (not_lt.2 ha.le)
          · have : j = k := by omega
            subst this; exact lt_irrefl _ ha
        have : (p[i + 1]).1 ≤ (p[j]).1 := by
          rcases Nat.lt_or_ge (i + 1) j with h | h
          · exact (hmono (i + 1) j hi' hj h).le
          · have : j = i + 1 := by omega
            subst this; exact le_refl _
        exact absurd hr (not_le.2 (lt_of_le_of_lt this hb))
      · rintro ⟨ha, hb⟩
        have hjk : j < k := by
          by_contra hc
          rcases Nat.lt_or_ge k j with h | h
          · exact absurd (hmono k j hk hj h) (not_lt.2 hb.le)
          · have : j = k := by omega
            subst this; exact lt_irrefl _ hb
        have : (p[j]).1 ≤ (p[i]).1 := by
          rcases Nat.lt_or_ge j i with h | h
          · exact (hmono j i hj (by omega) h).le
          · have : j = i := by omega
            subst this; exact le_refl _
        exact absurd hl (not_le.2 (lt_of_lt_of_le ha this))
    refine ⟨div_nonneg (by simpa using hl) hpos.le, ?_, hl, hr, adj i (by omega) (Or.inl rfl), adj (i + 1) hi' (Or.inr rfl)⟩
    simp only
    rw [div_le_one hpos]; linarith

theorem outOfBounds_iff (p : List (K × Nat)) (hp : (p.map Prod.fst).Pairwise (· < ·)) (hne : p ≠ []) (x : K) :
    outOfBounds (p.map Prod.fst) x = true ↔ ¬ Spec.InRange p x := by
  have hmono : ∀ j k (hj : j < p.length) (hk : k < p.length), j < k → (p[j]).1 < (p[k]).1 := by
    intro j k hj hk hjk
    have := pairwise_getElem hp (i := j) (j := k) (by simpa using hj) (by simpa using hk) hjk
    simpa using this
  have hl : 0 < p.length := List.length_pos_iff.2 hne
  unfold outOfBounds
  rw [List.head?_map, List.getLast?_map, List.head?_eq_getElem?, List.getLast?_eq_getElem?, List.getElem?_eq_getElem hl,
    List.getElem?_eq_getElem (by omega : p.length - 1 < p.length)]
  simp only [Option.map_some, Bool.or_eq_true, decide_eq_true_eq]
  unfold Spec.InRange
  constructor
  · rintro (h | h) ⟨⟨a, ha, hax⟩, ⟨b, hb, hbx⟩⟩
    · obtain ⟨j, hj, rfl⟩ := List.mem_iff_getElem.1 ha
      rcases Nat.eq_zero_or_pos j with h0 | h0
      · subst h0; exact absurd hax (not_le.2 h)
      · exact absurd (le_trans (hmono 0 j hl hj h0).le hax) (not_le.2 h)
    · obtain ⟨j, hj, rfl⟩ := List.mem_iff_getElem.1 hb
      rcases Nat.lt_or_ge j (p.length - 1) with h0 | h0
      · exact absurd (le_trans hbx (hmono j (p.length - 1) hj (by omega) h0).le) (not_le.2 h)
      · have : j = p.length - 1 := by omega
        subst this; exact absurd hbx (not_le.2 h)
  · intro h
    by_contra hc
    rw [not_or, not_lt, not_lt] at hc
    exact h ⟨⟨_, List.getElem_mem hl, hc.1⟩, ⟨_, List.getElem_mem (by omega), hc.2⟩⟩

theorem mem_proc {a : Axis K} {q : K × Nat} : q ∈ proc a ↔ q ∈ Spec.nodes a := by
  unfold proc; split <;> simp

theorem Cell.nodes {a : Axis K} {x : K} {c : (K × Nat) × (K × Nat) × K} (h : Cell (proc a) x c) : Cell (Spec.nodes a) x c := by
  refine ⟨mem_proc.1 h.mem0, mem_proc.1 h.mem1, h.lt, fun b hb => h.gap b (mem_proc.2 hb), h.reproduces, ?_⟩
  rintro ⟨⟨a0, ha0, h0⟩, ⟨b0, hb0, h1⟩⟩
  obtain ⟨h2, h3, h4, h5, h6, h7⟩ := h.inRange ⟨⟨a0, mem_proc.2 ha0, h0⟩, ⟨b0, mem_proc.2 hb0, h1⟩⟩
  exact ⟨h2, h3, h4, h5, ⟨mem_proc.1 h6.1, fun b hb => h6.2 b (mem_proc.2 hb)⟩, ⟨mem_proc.1 h7.1, fun b hb => h7.2 b (mem_proc.2 hb)⟩⟩

theorem inRange_proc {a : Axis K} {x : K} : Spec.InRange (proc a) x ↔ Spec.InRange (Spec.nodes a) x := by
  unfold Spec.InRange; simp only [mem_proc]

/-- The data indices at the corners of the cells. -/
def CellCorner (cells : List ((K × Nat) × (K × Nat) × K)) (idx : List Nat) : Prop :=
  List.Forall₂ (fun c k => k = c.1.2 ∨ k = c.2.1.2) cells idx

/-- The data indices and weights of the cells. -/
def weights (cells : List ((K × Nat) × (K × Nat) × K)) : List (Nat × Nat × K) := cells.map (fun c => (c.1.2, c.2.1.2, c.2.2))

/-- All dimensions together. -/
theorem cells_exist : ∀ (ps : List (List (K × Nat))) (xs : List K), xs.length = ps.length →
    (∀ p ∈ ps, (p.map Prod.fst).Pairwise (· < ·) ∧ 2 ≤ p.length) →
    ∃ (is : List Nat) (ys : List K) (cells : List ((K × Nat) × (K × Nat) × K)),
      is.length = ps.length ∧ ys.length = ps.length ∧
      List.zipWith findIndex (ps.map (fun p => p.map Prod.fst)) xs = is.map (fun i : Nat => (i : Int)) ∧
      List.zipWith normDistance (ps.map (fun p => p.map Prod.fst)) xs = ys.map Val.num ∧
      List.Forall₂ (fun (px : List (K × Nat) × K) c => Cell px.1 px.2 c) (ps.zip xs) cells ∧
      (∀ idx, Corner is idx → List.Forall₂ (fun (p : List (K × Nat)) k => k < p.length) ps idx ∧
        CellCorner cells (List.zipWith lookup ps idx)) ∧
      (∀ idx, CellCorner cells idx → ∃ idx', Corner is idx' ∧ List.zipWith lookup ps idx' = idx) ∧
      (∀ f : List Nat → K, Spec.multilinear (List.zipWith (fun i y => (i, i + 1, y)) is ys) (fun idx => f (List.zipWith lookup ps idx))
        = Spec.multilinear (weights cells) f)
  | [], [], _, _ => ⟨[], [], [], rfl, rfl, rfl, rfl, .nil, by
      intro idx h; cases h; exact ⟨.nil, .nil⟩, by
      intro idx h; cases h; exact ⟨[], .nil, rfl⟩, by intro f; rfl⟩
  | [], _ :: _, h, _ => by simp at h
  | _ :: _, [], h, _ => by simp at h
  | p :: ps, x :: xs, hl, hp => by
    obtain ⟨is, ys, cells, h1, h2, h3, h4, h5, h6, h7, h8⟩ := cells_exist ps xs (by simpa using hl) (fun q hq => hp q (by simp [hq]))
    obtain ⟨i, hi, y, e1, e2, hc⟩ := cell_exists p (hp p (by simp)).1 (hp p (by simp)).2 x
    have l0 : lookup p i = (p[i]).2 := by unfold lookup; rw [List.getElem?_eq_getElem (by omega)]; rfl
    have l1 : lookup p (i + 1) = (p[i + 1]).2 := by unfold lookup; rw [List.getElem?_eq_getElem hi]; rfl
    refine ⟨i :: is, y :: ys, (p[i], p[i + 1], y) :: cells, by simp [h1], by simp [h2], ?_, ?_, ?_, ?_, ?_, ?_⟩
    · rw [List.map_cons, List.zipWith_cons_cons, e1, h3]; rfl
    · rw [List.map_cons, List.zipWith_cons_cons, e2, h4]; rfl
    · rw [List.zip_cons_cons]; exact .cons hc h5
    · intro idx h
      cases h with
      | cons hk ht =>
        obtain ⟨h9, h10⟩ := h6 _ ht
        refine ⟨.cons (by rcases hk with rfl | rfl <;> omega) h9, ?_⟩
        rw [List.zipWith_cons_cons]
        refine .cons ?_ h10
        rcases hk with rfl | rfl
        · exact Or.inl l0
        · exact Or.inr l1
    · intro idx h
      cases h with
      | cons hk ht =>
        obtain ⟨idx', h9, h10⟩ := h7 _ ht
        rcases hk with rfl | rfl
        · exact ⟨i :: idx', .cons (Or.inl rfl) h9, by rw [List.zipWith_cons_cons, h10, l0]⟩
        · exact ⟨(i + 1) :: idx', .cons (Or.inr rfl) h9, by rw [List.zipWith_cons_cons, h10, l1]⟩
    · intro f
      simp only [List.zipWith_cons_cons, Spec.multilinear, weights, List.map_cons]
      rw [l0, l1, h8 (fun idx => f ((p[i]).2 :: idx)), h8 (fun idx => f ((p[i + 1]).2 :: idx))]
      rfl

theorem oob_any (ps : List (List (K × Nat))) (hp : ∀ p ∈ ps, (p.map Prod.fst).Pairwise (· < ·) ∧ p ≠ []) (xs : List K) :
    (List.zipWith outOfBounds (ps.map (fun p => p.map Prod.fst)) xs).any id = true ↔ ∃ px ∈ ps.zip xs, ¬ Spec.InRange px.1 px.2 := by
  induction ps generalizing xs with
  | nil => simp
  | cons p ps ih =>
    cases xs with
    | nil => simp
    | cons x xs =>
      rw [List.map_cons, List.zipWith_cons_cons, List.any_cons, Bool.or_eq_true, ih (fun q hq => hp q (by simp [hq])), id,
        outOfBounds_iff p (hp p (by simp)).1 (hp p (by simp)).2]
      simp

/-! ### Facts about multilinear combinations -/

theorem multilinear_bounds (cells : List ((K × Nat) × (K × Nat) × K)) (hy : ∀ c ∈ cells, 0 ≤ c.2.2 ∧ c.2.2 ≤ 1) (lo hi : K) :
    ∀ f : List Nat → K, (∀ idx, CellCorner cells idx → lo ≤ f idx ∧ f idx ≤ hi) →
    lo ≤ Spec.multilinear (weights cells) f ∧ Spec.multilinear (weights cells) f ≤ hi := by
  induction cells with
  | nil => intro f h; exact h [] .nil
  | cons c cells ih =>
    intro f h
    have hc := hy c (by simp)
    have ih' := ih (fun d hd => hy d (by simp [hd]))
    obtain ⟨a1, a2⟩ := ih' (fun idx => f (c.1.2 :: idx)) (fun idx hi => h _ (.cons (Or.inl rfl) hi))
    obtain ⟨b1, b2⟩ := ih' (fun idx => f (c.2.1.2 :: idx)) (fun idx hi => h _ (.cons (Or.inr rfl) hi))
    simp only [weights, List.map_cons, Spec.multilinear] at a1 a2 b1 b2 ⊢
    have w0 : 0 ≤ 1 - c.2.2 := by linarith [hc.2]
    have w1 : 0 ≤ c.2.2 := hc.1
    constructor
    · have := add_le_add (mul_le_mul_of_nonneg_left a1 w0) (mul_le_mul_of_nonneg_left b1 w1)
      linarith
    · have := add_le_add (mul_le_mul_of_nonneg_left a2 w0) (mul_le_mul_of_nonneg_left b2 w1)
      linarith

/-- If in each dimension all the weight is on one node, the result is the value there. -/
theorem multilinear_node (cells : List ((K × Nat) × (K × Nat) × K)) (idx : List Nat)
    (h : List.Forall₂ (fun c k => (c.2.2 = 0 ∧ c.1.2 = k) ∨ (c.2.2 = 1 ∧ c.2.1.2 = k)) cells idx) :
    ∀ f : List Nat → K, Spec.multilinear (weights cells) f = f idx := by
  induction h with
  | nil => intro f; rfl
  | cons h _ ih =>
    intro f
    simp only [weights, List.map_cons, Spec.multilinear] at ih ⊢
    rw [ih (fun idx => f (_ :: idx)), ih (fun idx => f (_ :: idx))]
    rcases h with ⟨h1, h2⟩ | ⟨h1, h2⟩
    · rw [h1, h2]; ring
    · rw [h1, h2]; ring

/-- Sums of functions of one index each. -/
theorem multilinear_affine (cells : List ((K × Nat) × (K × Nat) × K)) (bs : List (Nat → K)) (vs : List K)
    (hl : bs.length = cells.length)
    (h : List.Forall₂ (fun (bc : (Nat → K) × ((K × Nat) × (K × Nat) × K)) v =>
      (1 - bc.2.2.2) * bc.1 bc.2.1.2 + bc.2.2.2 * bc.1 bc.2.2.1.2 = v) (bs.zip cells) vs) : ∀ α : K,
    Spec.multilinear (weights cells) (fun idx => α + (List.zipWith (fun b k => b k) bs idx).sum) = α + vs.sum := by
  induction cells generalizing bs vs with
  | nil =>
    intro α
    cases bs with
    | nil => cases h; simp [weights, Spec.multilinear]
    | cons b bs => simp at hl
  | cons c cells ih =>
    intro α
    cases bs with
    | nil => simp at hl
    | cons b bs =>
      rw [List.zip_cons_cons] at h
      cases h with
      | cons h1 h2 =>
        have ih' := ih bs _ (by simpa using hl) h2
        simp only [weights, List.map_cons, Spec.multilinear, List.zipWith_cons_cons, List.sum_cons] at ih' ⊢
        have e0 := ih' (α + b c.1.2)
        have e1 := ih' (α + b c.2.1.2)
        simp only [add_assoc] at e0 e1
        rw [e0, e1, ← h1]; ring

end Cis.Interp
