import Verif.Interp.Props
import Mathlib.Data.List.Nodup
import Mathlib.Algebra.Order.Ring.Rat
set_option linter.unusedSectionVars false
set_option linter.unusedSimpArgs false
/-!
Properties C150, C151: interpolating from a part of a grid (for example a subset of the data) that contains the nodes around the sample point gives the
same value as interpolating from the whole grid (`GriddedUngriddedInterpolator`, cis/collocation/gridded_interpolation.py:48-184, and
`_RegularGridInterpolator`, 215-386, modelled in Interp/Model.lean).
-/
namespace Cis.Interp
variable {K : Type} [Field K] [LinearOrder K] [IsStrictOrderedRing K]

/-! ### Specification -/

/-- `a'` is a part of the axis `a` without gaps; its `k`-th value is the `e k`-th of `a`. -/
def Spec.Part (a a' : Axis K) (e : Nat → Nat) : Prop :=
  (∀ q ∈ Spec.nodes a', (q.1, e q.2) ∈ Spec.nodes a) ∧
  ∀ b ∈ Spec.nodes a, (∃ lo ∈ Spec.nodes a', lo.1 ≤ b.1) → (∃ hi ∈ Spec.nodes a', b.1 ≤ hi.1) → ∃ q ∈ Spec.nodes a', b = (q.1, e q.2)

/-- The same in every dimension. -/
def Spec.Parts : List (Axis K) → List (Axis K) → List (Nat → Nat) → Prop
  | [], [], [] => True
  | a :: t, a' :: t', e :: es => Spec.Part a a' e ∧ Spec.Parts t t' es
  | _, _, _ => False

/-- The data of the part. -/
def Spec.partData (es : List (Nat → Nat)) (data : List Nat → Val K) (idx : List Nat) : Val K := data (List.zipWith (fun e k => e k) es idx)

/-! ### One dimension -/

/-- Nodes are told apart by their coordinates. -/
def Distinct (p : List (K × Nat)) : Prop := ∀ a ∈ p, ∀ b ∈ p, a.1 = b.1 → a = b

theorem distinct_of_pairwise (p : List (K × Nat)) (h : (p.map Prod.fst).Pairwise (· ≠ ·)) : Distinct p := by
  induction p with
  | nil => intro a ha; cases ha
  | cons q t ih =>
    rw [List.map_cons, List.pairwise_cons] at h
    have h1 := ih h.2
    intro a ha b hb e
    rcases List.mem_cons.1 ha with ha' | ha' <;> rcases List.mem_cons.1 hb with hb' | hb'
    · rw [ha', hb']
    · rw [ha'] at e; exact absurd e (h.1 b.1 (List.mem_map.2 ⟨b, hb', rfl⟩))
    · rw [hb'] at e; exact absurd e.symm (h.1 a.1 (List.mem_map.2 ⟨a, ha', rfl⟩))
    · exact h1 a ha' b hb' e

theorem distinct_nodes {flag : Option Nat} {axes : List (Axis K)} (h : Handled flag axes) {a : Axis K} (ha : a ∈ axes) : Distinct (Spec.nodes a) := by
  obtain ⟨d, hd⟩ := List.mem_iff_getElem?.1 ha
  apply distinct_of_pairwise
  rcases (h d a hd).2 with h1 | ⟨-, -, hc, h1⟩
  · exact List.Pairwise.imp (fun h => ne_of_lt h) h1
  · rw [nodes_noncircular hc, List.zipIdx_map_fst]
    exact List.Pairwise.imp (fun h => ne_of_gt h) h1

theorem weight_zero {p : List (K × Nat)} {x : K} {c : (K × Nat) × (K × Nat) × K} (h : Cell p x c) (e : x = c.1.1) : c.2.2 = 0 := by
  have h1 := h.reproduces
  have h2 : c.2.2 * (c.2.1.1 - c.1.1) = 0 := by rw [← sub_eq_zero.2 e]; rw [← h1]; ring
  rcases mul_eq_zero.1 h2 with h3 | h3
  · exact h3
  · exact absurd (sub_eq_zero.1 h3) (ne_of_gt h.lt)

theorem weight_one {p : List (K × Nat)} {x : K} {c : (K × Nat) × (K × Nat) × K} (h : Cell p x c) (e : x = c.2.1.1) : c.2.2 = 1 := by
  have h1 := h.reproduces
  have h2 : (1 - c.2.2) * (c.2.1.1 - c.1.1) = 0 := by
    have : (1 - c.2.2) * (c.2.1.1 - c.1.1) = c.2.1.1 - ((1 - c.2.2) * c.1.1 + c.2.2 * c.2.1.1) := by ring
    rw [this, h1, e, sub_self]
  rcases mul_eq_zero.1 h2 with h3 | h3
  · exact (sub_eq_zero.1 h3).symm
  · exact absurd (sub_eq_zero.1 h3) (ne_of_gt h.lt)

/-- The cell of the part is that of the whole axis, or the point is a node of both. -/
theorem cell_part {a a' : Axis K} {e : Nat → Nat} (hd : Distinct (Spec.nodes a)) (hp : Spec.Part a a' e) {x : K} {c c' : (K × Nat) × (K × Nat) × K}
    (hc : Cell (Spec.nodes a) x c) (hc' : Cell (Spec.nodes a') x c') (hr : Spec.InRange (Spec.nodes a') x) :
    (c.1 = (c'.1.1, e c'.1.2) ∧ c.2.1 = (c'.2.1.1, e c'.2.1.2) ∧ c.2.2 = c'.2.2) ∨
    (x ∈ (Spec.nodes a).map Prod.fst ∧ ∀ g : Nat → K, (1 - c.2.2) * g c.1.2 + c.2.2 * g c.2.1.2 = (1 - c'.2.2) * g (e c'.1.2) + c'.2.2 * g (e c'.2.1.2)) := by
  obtain ⟨-, -, l0', l1', -, -⟩ := hc'.inRange hr
  have m0 := hp.1 _ hc'.mem0
  have m1 := hp.1 _ hc'.mem1
  have hr2 : Spec.InRange (Spec.nodes a) x := ⟨⟨_, m0, l0'⟩, ⟨_, m1, l1'⟩⟩
  obtain ⟨-, -, l0, l1, -, -⟩ := hc.inRange hr2
  -- no node of the whole axis strictly inside the cell of the part
  have hin : ∀ b ∈ Spec.nodes a, ¬ (c'.1.1 < b.1 ∧ b.1 < c'.2.1.1) := by
    rintro b hb ⟨h1, h2⟩
    obtain ⟨q, hq, rfl⟩ := hp.2 b hb ⟨_, hc'.mem0, le_of_lt h1⟩ ⟨_, hc'.mem1, le_of_lt h2⟩
    exact hc'.gap q hq ⟨h1, h2⟩
  by_cases e0 : x = c.1.1
  · right
    refine ⟨List.mem_map.2 ⟨_, hc.mem0, e0.symm⟩, fun g => ?_⟩
    rw [weight_zero hc e0]
    have h := hin c.1 hc.mem0
    rw [← e0] at h
    rcases lt_or_eq_of_le l0' with h1 | h1
    · rcases lt_or_eq_of_le l1' with h2 | h2
      · exact absurd ⟨h1, h2⟩ h
      · rw [weight_one hc' h2]
        have := hd _ hc.mem0 _ m1 (by rw [← e0, h2])
        rw [this]; simp
    · rw [weight_zero hc' h1.symm]
      have := hd _ hc.mem0 _ m0 (by rw [← e0, h1])
      rw [this]; simp
  by_cases e1 : x = c.2.1.1
  · right
    refine ⟨List.mem_map.2 ⟨_, hc.mem1, e1.symm⟩, fun g => ?_⟩
    rw [weight_one hc e1]
    have h := hin c.2.1 hc.mem1
    rw [← e1] at h
    rcases lt_or_eq_of_le l0' with h1 | h1
    · rcases lt_or_eq_of_le l1' with h2 | h2
      · exact absurd ⟨h1, h2⟩ h
      · rw [weight_one hc' h2]
        have := hd _ hc.mem1 _ m1 (by rw [← e1, h2])
        rw [this]; simp
    · rw [weight_zero hc' h1.symm]
      have := hd _ hc.mem1 _ m0 (by rw [← e1, h1])
      rw [this]; simp
  left
  have l0s : c.1.1 < x := lt_of_le_of_ne l0 (Ne.symm e0)
  have l1s : x < c.2.1.1 := lt_of_le_of_ne l1 e1
  have k0 : c'.1.1 = c.1.1 := by
    rcases lt_trichotomy c'.1.1 c.1.1 with h | h | h
    · exact absurd ⟨h, lt_of_lt_of_le l0s l1'⟩ (hin _ hc.mem0)
    · exact h
    · exact absurd ⟨h, lt_of_le_of_lt l0' l1s⟩ (hc.gap _ m0)
  have k1 : c'.2.1.1 = c.2.1.1 := by
    rcases lt_trichotomy c'.2.1.1 c.2.1.1 with h | h | h
    · exact absurd ⟨lt_of_lt_of_le l0s l1', h⟩ (hc.gap _ m1)
    · exact h
    · exact absurd ⟨lt_of_le_of_lt l0' l1s, h⟩ (hin _ hc.mem1)
  refine ⟨hd _ hc.mem0 _ m0 k0.symm, hd _ hc.mem1 _ m1 k1.symm, ?_⟩
  have r := hc.reproduces
  have r' := hc'.reproduces
  rw [k0, k1] at r'
  have hne : c.2.1.1 - c.1.1 ≠ 0 := sub_ne_zero.2 (ne_of_gt hc.lt)
  have : (c.2.2 - c'.2.2) * (c.2.1.1 - c.1.1) = 0 := by
    have h1 : (c.2.2 - c'.2.2) * (c.2.1.1 - c.1.1) = ((1 - c.2.2) * c.1.1 + c.2.2 * c.2.1.1) - ((1 - c'.2.2) * c.1.1 + c'.2.2 * c.2.1.1) := by ring
    rw [h1, r, r', sub_self]
  rcases mul_eq_zero.1 this with h | h
  · exact sub_eq_zero.1 h
  · exact absurd h hne

/-! ### All dimensions -/

theorem multilinear_add (l : List (Nat × Nat × K)) (α β : K) : ∀ f g : List Nat → K,
    α * Spec.multilinear l f + β * Spec.multilinear l g = Spec.multilinear l (fun i => α * f i + β * g i) := by
  induction l with
  | nil => intro f g; rfl
  | cons c t ih =>
    intro f g
    obtain ⟨k0, k1, y⟩ := c
    show α * ((1 - y) * _ + y * _) + β * ((1 - y) * _ + y * _) = (1 - y) * _ + y * _
    rw [← ih, ← ih]
    ring

/-- The corners of both cells and the values the combination gives. -/
inductive Agree : List (Nat → Nat) → List ((K × Nat) × (K × Nat) × K) → List ((K × Nat) × (K × Nat) × K) → Prop
  | nil : Agree [] [] []
  | cons {e c c' es cs cs'} (h : ∀ g : Nat → K, (1 - c.2.2) * g c.1.2 + c.2.2 * g c.2.1.2 = (1 - c'.2.2) * g (e c'.1.2) + c'.2.2 * g (e c'.2.1.2))
      (t : Agree es cs cs') : Agree (e :: es) (c :: cs) (c' :: cs')

theorem multilinear_agree {es : List (Nat → Nat)} {cs cs' : List ((K × Nat) × (K × Nat) × K)} (h : Agree es cs cs') : ∀ f : List Nat → K,
    Spec.multilinear (weights cs) f = Spec.multilinear (weights cs') (fun idx => f (List.zipWith (fun e k => e k) es idx)) := by
  induction h with
  | nil => intro f; rfl
  | @cons e c c' es cs cs' h t ih =>
    intro f
    show (1 - c.2.2) * Spec.multilinear (weights cs) (fun idx => f (c.1.2 :: idx)) + c.2.2 * Spec.multilinear (weights cs) (fun idx => f (c.2.1.2 :: idx)) =
      (1 - c'.2.2) * Spec.multilinear (weights cs') (fun idx => f (e c'.1.2 :: List.zipWith (fun e k => e k) es idx)) +
        c'.2.2 * Spec.multilinear (weights cs') (fun idx => f (e c'.2.1.2 :: List.zipWith (fun e k => e k) es idx))
    rw [ih, ih, multilinear_add, multilinear_add]
    congr 1
    funext i
    exact h (fun k => f (k :: List.zipWith (fun e k => e k) es i))

theorem parts_length : ∀ {axes axes' : List (Axis K)} {es : List (Nat → Nat)}, Spec.Parts axes axes' es → axes'.length = axes.length ∧ es.length = axes.length
  | [], [], [], _ => ⟨rfl, rfl⟩
  | _ :: _, _ :: _, _ :: _, h => by
    have := parts_length h.2
    simp [this.1, this.2]

theorem parts_agree : ∀ (axes axes' : List (Axis K)) (es : List (Nat → Nat)) (xs : List K) (cs cs' : List ((K × Nat) × (K × Nat) × K)),
    Spec.Parts axes axes' es → xs.length = axes.length → (∀ a ∈ axes, Distinct (Spec.nodes a)) → AllInRange axes' xs →
    List.Forall₂ (fun (ax : Axis K × K) c => Cell (Spec.nodes ax.1) ax.2 c) (axes.zip xs) cs →
    List.Forall₂ (fun (ax : Axis K × K) c => Cell (Spec.nodes ax.1) ax.2 c) (axes'.zip xs) cs' → Agree es cs cs'
  | [], [], [], _, _, _, _, _, _, _, .nil, .nil => .nil
  | a :: t, a' :: t', e :: es, x :: xs, c :: cs, c' :: cs', hp, hx, hd, hr, .cons h1 h2, .cons h1' h2' => by
    refine .cons ?_ (parts_agree t t' es xs cs cs' hp.2 (by simpa using hx) (fun b hb => hd b (by simp [hb])) (fun ax hax => hr ax (by simp [hax])) h2 h2')
    rcases cell_part (hd a (by simp)) hp.1 h1 h1' (hr (a', x) (by simp)) with ⟨k0, k1, ky⟩ | ⟨-, h⟩
    · intro g; rw [k0, k1, ky]
    · exact h

theorem corner_part : ∀ (es : List (Nat → Nat)) (cs cs' : List ((K × Nat) × (K × Nat) × K)),
    List.Forall₂ (fun (e : Nat → Nat) (p : ((K × Nat) × (K × Nat) × K) × ((K × Nat) × (K × Nat) × K)) =>
      p.1.1.2 = e p.2.1.2 ∧ p.1.2.1.2 = e p.2.2.1.2) es (cs.zip cs') → cs.length = es.length → cs'.length = es.length →
    ∀ idx, CellCorner cs idx ↔ ∃ idx', CellCorner cs' idx' ∧ idx = List.zipWith (fun e k => e k) es idx'
  | [], [], [], _, _, _, idx => by
    constructor
    · intro h; cases h; exact ⟨[], .nil, rfl⟩
    · rintro ⟨idx', h, rfl⟩; cases h; exact .nil
  | e :: es, c :: cs, c' :: cs', .cons h1 h2, hl, hl', idx => by
    have ih := corner_part es cs cs' h2 (by simpa using hl) (by simpa using hl')
    constructor
    · intro h
      cases h with
      | @cons _ k _ idx h3 h4 =>
        obtain ⟨idx', h5, rfl⟩ := (ih idx).1 h4
        rcases h3 with rfl | rfl
        · exact ⟨c'.1.2 :: idx', .cons (Or.inl rfl) h5, by simp only [List.zipWith_cons_cons]; rw [h1.1]⟩
        · exact ⟨c'.2.1.2 :: idx', .cons (Or.inr rfl) h5, by simp only [List.zipWith_cons_cons]; rw [h1.2]⟩
    · rintro ⟨idx', h, rfl⟩
      cases h with
      | @cons _ k _ idx h3 h4 =>
        refine .cons ?_ ((ih _).2 ⟨idx, h4, rfl⟩)
        rcases h3 with rfl | rfl
        · exact Or.inl h1.1.symm
        · exact Or.inr h1.2.symm

theorem part_two {flag : Option Nat} {axes' : List (Axis K)} (h' : Handled flag axes') {a a' : Axis K} (ha' : a' ∈ axes') {e : Nat → Nat}
    (hp : Spec.Part a a' e) (h2 : 2 ≤ (Spec.nodes a').length) : 2 ≤ (Spec.nodes a).length := by
  obtain ⟨d, hd⟩ := List.mem_iff_getElem?.1 ha'
  have hne : ((Spec.nodes a').map Prod.fst).Pairwise (· ≠ ·) := by
    rcases (h' d a' hd).2 with h1 | ⟨-, -, hc, h1⟩
    · exact List.Pairwise.imp (fun h => ne_of_lt h) h1
    · rw [nodes_noncircular hc, List.zipIdx_map_fst]
      exact List.Pairwise.imp (fun h => ne_of_gt h) h1
  match hn : Spec.nodes a', h2 with
  | q :: r :: t, _ =>
    rw [hn] at hne
    have hqr : q.1 ≠ r.1 := by
      simp only [List.map_cons, List.pairwise_cons] at hne
      exact hne.1 r.1 (by simp)
    have m0 := hp.1 q (by rw [hn]; simp)
    have m1 := hp.1 r (by rw [hn]; simp)
    match hna : Spec.nodes a with
    | [] => rw [hna] at m0; cases m0
    | [b] =>
      rw [hna, List.mem_singleton] at m0 m1
      exact absurd (by rw [m0.symm] at m1; exact (congrArg Prod.fst m1).symm) hqr
    | _ :: _ :: _ => simp

theorem parts_two (flag : Option Nat) (full : List (Axis K)) (h' : Handled flag full) : ∀ (axes axes' : List (Axis K)) (es : List (Nat → Nat)),
    (∀ a ∈ axes', a ∈ full ∧ 2 ≤ (Spec.nodes a).length) → Spec.Parts axes axes' es → ∀ a ∈ axes, 2 ≤ (Spec.nodes a).length
  | [], _, _, _, _ => by simp
  | a :: t, a' :: t', e :: es, h2, hp => by
    intro b hb
    rcases List.mem_cons.1 hb with rfl | hb
    · exact part_two h' (h2 a' (by simp)).1 hp.1 (h2 a' (by simp)).2
    · exact parts_two flag full h' t t' es (fun c hc => h2 c (by simp [hc])) hp.2 b hb

theorem parts_range : ∀ (axes axes' : List (Axis K)) (es : List (Nat → Nat)) (xs : List K), Spec.Parts axes axes' es → AllInRange axes' xs →
    AllInRange axes xs
  | [], _, _, _, _, _ => by simp [AllInRange]
  | _ :: _, _, _, [], _, _ => by simp [AllInRange]
  | a :: t, a' :: t', e :: es, x :: xs, hp, hr => by
    intro ax hax
    rw [List.zip_cons_cons] at hax
    rcases List.mem_cons.1 hax with rfl | hax
    · obtain ⟨⟨lo, hlo, l1⟩, ⟨hi, hhi, l2⟩⟩ := hr (a', x) (by simp)
      exact ⟨⟨_, hp.1.1 lo hlo, l1⟩, ⟨_, hp.1.1 hi hhi, l2⟩⟩
    · exact parts_range t t' es xs hp.2 (fun b hb => hr b (by simp [hb])) ax hax

/-- The cells when no coordinate of the point is that of a node. -/
theorem parts_corners : ∀ (axes axes' : List (Axis K)) (es : List (Nat → Nat)) (xs : List K) (cs cs' : List ((K × Nat) × (K × Nat) × K)),
    Spec.Parts axes axes' es → xs.length = axes.length → (∀ a ∈ axes, Distinct (Spec.nodes a)) → AllInRange axes' xs →
    (∀ ax ∈ axes.zip xs, ax.2 ∉ (Spec.nodes ax.1).map Prod.fst) →
    List.Forall₂ (fun (ax : Axis K × K) c => Cell (Spec.nodes ax.1) ax.2 c) (axes.zip xs) cs →
    List.Forall₂ (fun (ax : Axis K × K) c => Cell (Spec.nodes ax.1) ax.2 c) (axes'.zip xs) cs' →
    List.Forall₂ (fun (e : Nat → Nat) (p : ((K × Nat) × (K × Nat) × K) × ((K × Nat) × (K × Nat) × K)) =>
      p.1.1.2 = e p.2.1.2 ∧ p.1.2.1.2 = e p.2.2.1.2) es (cs.zip cs')
  | [], [], [], _, _, _, _, _, _, _, _, .nil, .nil => .nil
  | a :: t, a' :: t', e :: es, x :: xs, c :: cs, c' :: cs', hp, hx, hd, hr, hn, .cons h1 h2, .cons h1' h2' => by
    refine .cons ?_ (parts_corners t t' es xs cs cs' hp.2 (by simpa using hx) (fun b hb => hd b (by simp [hb])) (fun ax hax => hr ax (by simp [hax]))
      (fun ax hax => hn ax (by simp [hax])) h2 h2')
    rcases cell_part (hd a (by simp)) hp.1 h1 h1' (hr (a', x) (by simp)) with ⟨k0, k1, -⟩ | ⟨hx', -⟩
    · exact ⟨by rw [k0], by rw [k1]⟩
    · exact absurd hx' (hn (a, x) (by simp))

/-- The nearest nodes. -/
theorem parts_nearest : ∀ (axes axes' : List (Axis K)) (es : List (Nat → Nat)) (xs : List K) (idx idx' : List Nat),
    Spec.Parts axes axes' es → xs.length = axes.length → (∀ a ∈ axes, Distinct (Spec.nodes a)) → AllInRange axes' xs →
    List.Forall₂ (fun (ax : Axis K × K) k => ∃ q, Spec.Nearest (Spec.nodes ax.1) ax.2 (q, k)) (axes.zip xs) idx →
    List.Forall₂ (fun (ax : Axis K × K) k => ∃ q, Spec.Nearest (Spec.nodes ax.1) ax.2 (q, k)) (axes'.zip xs) idx' →
    idx = List.zipWith (fun e k => e k) es idx'
  | [], [], [], _, _, _, _, _, _, _, .nil, .nil => rfl
  | a :: t, a' :: t', e :: es, x :: xs, k :: idx, k' :: idx', hp, hx, hd, hr, .cons h1 h2, .cons h1' h2' => by
    rw [List.zipWith_cons_cons, ← parts_nearest t t' es xs idx idx' hp.2 (by simpa using hx) (fun b hb => hd b (by simp [hb]))
      (fun ax hax => hr ax (by simp [hax])) h2 h2']
    congr 1
    obtain ⟨q, hq, hqm⟩ := h1
    obtain ⟨q', hq', hqm'⟩ := h1'
    have m' := hp.1.1 _ hq'
    obtain ⟨⟨lo, hlo, l1⟩, ⟨hi, hhi, l2⟩⟩ := hr (a', x) (by simp)
    simp only at l1 l2
    -- the nearest node of the whole axis is one of the part
    have hin : ∃ r ∈ Spec.nodes a', ((q, k) : K × Nat) = (r.1, e r.2) := by
      apply hp.1.2 _ hq
      · refine ⟨lo, hlo, ?_⟩
        by_contra hc
        push Not at hc
        have h3 := (hqm _ (hp.1.1 lo hlo)).1
        simp only at h3 hc
        rw [abs_of_nonneg (by linarith), abs_of_nonneg (by linarith)] at h3
        linarith
      · refine ⟨hi, hhi, ?_⟩
        by_contra hc
        push Not at hc
        have h3 := (hqm _ (hp.1.1 hi hhi)).1
        simp only at h3 hc
        rw [abs_of_nonpos (by linarith), abs_of_nonpos (by linarith)] at h3
        linarith
    obtain ⟨r, hr', er⟩ := hin
    have e1 : q = r.1 := congrArg Prod.fst er
    have a1 := hqm _ m'
    have a2 := hqm' r hr'
    simp only at a1 a2
    rw [← e1] at a2
    have hab : |x - q| = |x - q'| := le_antisymm a1.1 a2.1
    have hqq : q = q' := le_antisymm (a1.2 hab.symm) (a2.2 hab)
    have := hd a (by simp) _ hq _ m' (by simpa using hqq)
    exact congrArg Prod.snd this

/-! ### Theorems -/

/-- C150: linear interpolation from a part of the grid in which the point lies gives the value of the interpolation from the whole grid, for data
without missing values. -/
theorem c150_linear (flag : Option Nat) (axes axes' : List (Axis K)) (es : List (Nat → Nat)) (h : Handled flag axes) (h' : Handled flag axes')
    (h2 : ∀ a ∈ axes', 2 ≤ (Spec.nodes a).length) (hp : Spec.Parts axes axes' es) (f : List Nat → K) (xs : List K) (hx : xs.length = axes.length)
    (hr : AllInRange axes' xs) (ext : Bool) :
    ∃ v : K, interpolate flag .lin axes' (Spec.partData es (fun i => .num (f i))) xs ext false = .ok (.num v) ∧
      interpolate flag .lin axes (fun i => .num (f i)) xs ext false = .ok (.num v) := by
  have hl := parts_length hp
  obtain ⟨cs, hc, hf, -⟩ := lin_main flag axes h (parts_two flag axes' h' axes axes' es (fun a ha => ⟨ha, h2 a ha⟩) hp) (fun i => .num (f i)) xs hx ext
    (Or.inr (parts_range axes axes' es xs hp hr))
  obtain ⟨cs', hc', hf', -⟩ := lin_main flag axes' h' h2 (Spec.partData es (fun i => .num (f i))) xs (by omega) ext (Or.inr hr)
  refine ⟨_, hf' (fun idx => f (List.zipWith (fun e k => e k) es idx)) (fun _ _ => rfl), ?_⟩
  rw [hf f (fun _ _ => rfl), multilinear_agree (parts_agree axes axes' es xs cs cs' hp hx (fun a ha => distinct_nodes h ha) hr hc hc') f]

/-- C150: with missing values too, unless a coordinate of the point is that of a node. -/
theorem c150_missing (flag : Option Nat) (axes axes' : List (Axis K)) (es : List (Nat → Nat)) (h : Handled flag axes) (h' : Handled flag axes')
    (h2 : ∀ a ∈ axes', 2 ≤ (Spec.nodes a).length) (hp : Spec.Parts axes axes' es) (data : List Nat → Val K) (hnan : ∀ i, data i ≠ .nan) (xs : List K)
    (hx : xs.length = axes.length) (hr : AllInRange axes' xs) (hn : ∀ ax ∈ axes.zip xs, ax.2 ∉ (Spec.nodes ax.1).map Prod.fst) (ext : Bool) :
    interpolate flag .lin axes' (Spec.partData es data) xs ext false = interpolate flag .lin axes data xs ext false := by
  have hl := parts_length hp
  obtain ⟨cs, hc, hf, hm⟩ := lin_main flag axes h (parts_two flag axes' h' axes axes' es (fun a ha => ⟨ha, h2 a ha⟩) hp) data xs hx ext
    (Or.inr (parts_range axes axes' es xs hp hr))
  obtain ⟨cs', hc', hf', hm'⟩ := lin_main flag axes' h' h2 (Spec.partData es data) xs (by omega) ext (Or.inr hr)
  have hd := fun a ha => distinct_nodes h (a := a) ha
  have hcor := corner_part es cs cs' (parts_corners axes axes' es xs cs cs' hp hx hd hr hn hc hc')
    (by have := hc.length_eq; simp at this; omega) (by have := hc'.length_eq; simp at this; omega)
  by_cases hmask : ∃ idx, CellCorner cs idx ∧ data idx = .masked
  · rw [hm hmask]
    obtain ⟨idx, hi, e⟩ := hmask
    obtain ⟨idx', hi', rfl⟩ := (hcor idx).1 hi
    exact hm' ⟨idx', hi', e⟩
  · push Not at hmask
    obtain ⟨f, hnum⟩ : ∃ f : List Nat → K, ∀ idx, CellCorner cs idx → data idx = .num (f idx) := by
      have : ∀ idx : List Nat, ∃ v : K, CellCorner cs idx → data idx = .num v := by
        intro idx
        cases e : data idx with
        | num v => exact ⟨v, fun _ => rfl⟩
        | masked => exact ⟨0, fun hi => absurd e (hmask idx hi)⟩
        | nan => exact absurd e (hnan idx)
      exact ⟨fun i => (this i).choose, fun idx => (this idx).choose_spec⟩
    rw [hf f hnum, hf' (fun idx => f (List.zipWith (fun (e : Nat → Nat) (k : Nat) => e k) es idx)) (fun idx hi => hnum _ ((hcor _).2 ⟨idx, hi, rfl⟩)),
      multilinear_agree (parts_agree axes axes' es xs cs cs' hp hx hd hr hc hc')]

/-- C150: so does nearest neighbour interpolation, for all data. -/
theorem c150_nearest (flag : Option Nat) (axes axes' : List (Axis K)) (es : List (Nat → Nat)) (h : Handled flag axes) (h' : Handled flag axes')
    (hp : Spec.Parts axes axes' es) (data : List Nat → Val K) (xs : List K) (hx : xs.length = axes.length) (hr : AllInRange axes' xs) (ext : Bool) :
    interpolate flag .nn axes' (Spec.partData es data) xs ext false = interpolate flag .nn axes data xs ext false := by
  have hl := parts_length hp
  obtain ⟨idx, h1, e1⟩ := c19_nearest flag axes h data xs hx ext (Or.inr (parts_range axes axes' es xs hp hr))
  obtain ⟨idx', h1', e1'⟩ := c19_nearest flag axes' h' (Spec.partData es data) xs (by omega) ext (Or.inr hr)
  rw [e1, e1', parts_nearest axes axes' es xs idx idx' hp hx (fun a ha => distinct_nodes h ha) hr h1 h1']
  rfl

/-- C150: a subset of an ascending axis by limits is such a part. -/
theorem c150_subset (a : Axis K) (hc : a.circular = none) (ha : a.points.Pairwise (· < ·)) (lo hi : K) :
    Spec.Part a ⟨a.points.filter (fun p => decide (lo ≤ p ∧ p ≤ hi)), none⟩ (fun k => a.points.countP (fun p => decide (p < lo)) + k) := by
  rw [Spec.Part, nodes_noncircular hc, nodes_noncircular rfl]
  have key : ∀ pts : List K, pts.Pairwise (· < ·) →
      pts = pts.filter (fun p => decide (p < lo)) ++ pts.filter (fun p => decide (lo ≤ p ∧ p ≤ hi)) ++ pts.filter (fun p => decide (lo ≤ p ∧ hi < p)) := by
    intro pts
    induction pts with
    | nil => intro _; rfl
    | cons p t ih =>
      intro h
      rw [List.pairwise_cons] at h
      have iht := ih h.2
      rcases lt_or_ge p lo with h1 | h1
      · have n1 : ¬ lo ≤ p := not_le.2 h1
        simp only [List.filter_cons, h1, n1, decide_true, false_and, decide_false, if_true, Bool.false_eq_true, if_false, List.cons_append]
        rw [← iht]
      · have e1 : t.filter (fun p => decide (p < lo)) = [] := by
          rw [List.filter_eq_nil_iff]
          intro q hq
          have := h.1 q hq
          simp only [decide_eq_true_eq, not_lt]
          linarith
        have n1 : ¬ p < lo := not_lt.2 h1
        rcases le_or_gt p hi with h3 | h3
        · have n3 : ¬ hi < p := not_lt.2 h3
          simp only [List.filter_cons, n1, h1, h3, n3, e1, decide_true, true_and, and_false, decide_false, if_true, Bool.false_eq_true, if_false,
            List.nil_append, List.cons_append]
          rw [e1, List.nil_append] at iht
          rw [← iht]
        · have e2 : t.filter (fun p => decide (lo ≤ p ∧ p ≤ hi)) = [] := by
            rw [List.filter_eq_nil_iff]
            intro q hq
            have := h.1 q hq
            simp only [decide_eq_true_eq, not_and, not_le]
            intro _; linarith
          have n3 : ¬ p ≤ hi := not_le.2 h3
          simp only [List.filter_cons, n1, h1, h3, n3, e1, e2, decide_true, true_and, and_false, decide_false, if_true, Bool.false_eq_true, if_false,
            List.nil_append, List.cons_append]
          rw [e1, e2, List.nil_append, List.nil_append] at iht
          rw [← iht]
  have hk := key a.points ha
  have hn : a.points.countP (fun p => decide (p < lo)) = (a.points.filter (fun p => decide (p < lo))).length := List.countP_eq_length_filter
  rw [hn]
  generalize a.points.filter (fun p => decide (p < lo)) = A at hk
  generalize hC : a.points.filter (fun p => decide (lo ≤ p ∧ hi < p)) = C at hk
  have hBmem : ∀ p, p ∈ a.points → lo ≤ p → p ≤ hi → p ∈ a.points.filter (fun p => decide (lo ≤ p ∧ p ≤ hi)) := by
    intro p hp h1 h2; rw [List.mem_filter]; exact ⟨hp, by simpa using ⟨h1, h2⟩⟩
  have hBlim : ∀ p ∈ a.points.filter (fun p => decide (lo ≤ p ∧ p ≤ hi)), lo ≤ p ∧ p ≤ hi := by
    intro p hp; simpa using (List.mem_filter.1 hp).2
  generalize a.points.filter (fun p => decide (lo ≤ p ∧ p ≤ hi)) = B at hk hBmem hBlim
  have hnd : List.Nodup a.points := ha.imp (fun h => ne_of_lt h)
  constructor
  · intro q hq
    rw [List.mem_zipIdx_iff_getElem?] at hq ⊢
    simp only
    rw [hk, List.append_assoc, List.getElem?_append_right (by omega), Nat.add_sub_cancel_left]
    exact List.getElem?_append_left (List.getElem?_eq_some_iff.1 hq).1 ▸ hq
  · rintro b hb ⟨l, hl, h1⟩ ⟨u, hu, h2⟩
    rw [List.mem_zipIdx_iff_getElem?] at hb
    have hlB : l.1 ∈ B := List.mem_of_getElem? ((List.mem_zipIdx_iff_getElem?).1 hl)
    have huB : u.1 ∈ B := List.mem_of_getElem? ((List.mem_zipIdx_iff_getElem?).1 hu)
    have hbB := hBmem b.1 (List.mem_of_getElem? hb) (le_trans (hBlim _ hlB).1 h1) (le_trans h2 (hBlim _ huB).2)
    obtain ⟨j, hj, ej⟩ := List.mem_iff_getElem.1 hbB
    refine ⟨(b.1, j), ?_, ?_⟩
    · rw [List.mem_zipIdx_iff_getElem?, List.getElem?_eq_getElem hj, ej]
    · have hA : a.points[A.length + j]? = some b.1 := by
        rw [hk, List.append_assoc, List.getElem?_append_right (by omega), Nat.add_sub_cancel_left, List.getElem?_append_left hj,
          List.getElem?_eq_getElem hj, ej]
      obtain ⟨hb1, hb2⟩ := List.getElem?_eq_some_iff.1 hb
      obtain ⟨ha1, ha2⟩ := List.getElem?_eq_some_iff.1 hA
      have := (List.Nodup.getElem_inj_iff hnd).1 (hb2.trans ha2.symm)
      ext
      · rfl
      · exact this

/-! ### Where it makes a difference, and a case that meets the conditions -/

/-- C151 fails for missing values when the point is on a node at the edge of the part: 0 | 10, 20 with the value at 0 missing. From the part that
begins at 10 the value at 10 is found, from the whole axis it is missing. -/
theorem c151_edge_violated : ∃ (a a' : Axis ℚ) (data : List Nat → Val ℚ) (x : ℚ), Spec.Part a a' (fun k => 1 + k) ∧ Handled none [a] ∧ Handled none [a'] ∧
    AllInRange [a'] [x] ∧ interpolate none .lin [a'] (Spec.partData [fun k => 1 + k] data) [x] false false = .ok (.num 5) ∧
    interpolate none .lin [a] data [x] false false = .ok .masked := by
  refine ⟨⟨[0, 10, 20], none⟩, ⟨[10, 20], none⟩, fun i => if i = [0] then .masked else .num 5, 10, ?_, ?_, ?_, ?_, ?_, ?_⟩
  · have := c150_subset (⟨[0, 10, 20], none⟩ : Axis ℚ) rfl (by decide +kernel) 10 20
    have e1 : ([0, 10, 20] : List ℚ).filter (fun p => decide (10 ≤ p ∧ p ≤ 20)) = [10, 20] := by decide +kernel
    have e2 : ([0, 10, 20] : List ℚ).countP (fun p => decide (p < 10)) = 1 := by decide +kernel
    simpa only [e1, e2] using this
  · intro d a ha
    cases d with
    | zero => cases ha; exact ⟨by simp, Or.inl (by unfold Spec.Ascending Spec.nodes; decide +kernel)⟩
    | succ d => simp at ha
  · intro d a ha
    cases d with
    | zero => cases ha; exact ⟨by simp, Or.inl (by unfold Spec.Ascending Spec.nodes; decide +kernel)⟩
    | succ d => simp at ha
  · intro ax hax
    simp only [List.zip_cons_cons, List.zip_nil_left, List.mem_singleton] at hax
    subst hax
    exact ⟨⟨(10, 0), by simp [Spec.nodes], le_refl _⟩, ⟨(20, 1), by simp [Spec.nodes], by norm_num⟩⟩
  · decide +kernel
  · decide +kernel

/-- Latitudes 0, 10, 20, 30 (a part: 10 to 30) by longitudes 0, 90, 180, 270 that go round (a part: 90 and 180). -/
example : Handled none [(⟨[0, 10, 20, 30], none⟩ : Axis ℚ), ⟨[0, 90, 180, 270], some 360⟩] ∧
    Handled none [(⟨[10, 20, 30], none⟩ : Axis ℚ), ⟨[90, 180], none⟩] ∧
    Spec.Parts [(⟨[0, 10, 20, 30], none⟩ : Axis ℚ), ⟨[0, 90, 180, 270], some 360⟩] [⟨[10, 20, 30], none⟩, ⟨[90, 180], none⟩] [fun k => 1 + k, fun k => 1 + k] ∧
    AllInRange [(⟨[10, 20, 30], none⟩ : Axis ℚ), ⟨[90, 180], none⟩] [12, 100] := by
  refine ⟨?_, ?_, ⟨?_, ?_, trivial⟩, ?_⟩
  · intro d a ha
    match d with
    | 0 => cases ha; exact ⟨by simp, Or.inl (by unfold Spec.Ascending Spec.nodes; decide +kernel)⟩
    | 1 => cases ha; exact ⟨by simp, Or.inl (by unfold Spec.Ascending Spec.nodes; decide +kernel)⟩
    | d + 2 => simp at ha
  · intro d a ha
    match d with
    | 0 => cases ha; exact ⟨by simp, Or.inl (by unfold Spec.Ascending Spec.nodes; decide +kernel)⟩
    | 1 => cases ha; exact ⟨by simp, Or.inl (by unfold Spec.Ascending Spec.nodes; decide +kernel)⟩
    | d + 2 => simp at ha
  · unfold Spec.Part Spec.nodes; decide +kernel
  · unfold Spec.Part Spec.nodes; decide +kernel
  · unfold AllInRange Spec.InRange Spec.nodes; decide +kernel

end Cis.Interp
