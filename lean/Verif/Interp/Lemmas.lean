import Verif.Interp.Model
import Verif.Interp.Spec
import Mathlib.Tactic.Ring
import Mathlib.Tactic.FieldSimp
import Mathlib.Tactic.Linarith
import Mathlib.Data.List.Forall2
set_option linter.unusedSectionVars false
set_option linter.unusedSimpArgs false
/-! Lemmas for interpolation. -/
namespace Cis.Interp
variable {K : Type} [Field K] [LinearOrder K] [IsStrictOrderedRing K]

/-! ### One dimension -/

theorem searchsorted_spec (c : List K) (hc : c.Pairwise (· < ·)) (x : K) :
    searchsorted c x ≤ c.length ∧ (∀ j (hj : j < c.length), j < searchsorted c x → c[j] < x) ∧
      ∀ j (hj : j < c.length), searchsorted c x ≤ j → x ≤ c[j] := by
  unfold searchsorted
  refine ⟨List.countP_le_length, ?_⟩
  induction c with
  | nil => simp
  | cons a t ih =>
    rw [List.pairwise_cons] at hc
    obtain ⟨h1, h2⟩ := ih hc.2
    rw [List.countP_cons]
    by_cases ha : a < x
    · rw [if_pos (by simpa using ha)]
      constructor
      · rintro (_ | j) hj hlt
        · exact ha
        · exact h1 j _ (by omega)
      · rintro (_ | j) hj hle
        · omega
        · exact h2 j _ (by omega)
    · rw [if_neg (by simpa using ha)]
      have hz : t.countP (fun v => decide (v < x)) = 0 := by
        rw [List.countP_eq_zero]
        intro b hb
        simp only [decide_eq_true_eq, not_lt]
        exact le_trans (not_lt.1 ha) (hc.1 b hb).le
      constructor
      · intro j hj hlt; omega
      · rintro (_ | j) hj hle
        · exact not_lt.1 ha
        · exact h2 j _ (by omega)

theorem pairwise_getElem {c : List K} (hc : c.Pairwise (· < ·)) {i j : Nat} (hi : i < c.length) (hj : j < c.length) (h : i < j) :
    c[i] < c[j] := List.pairwise_iff_getElem.1 hc i j hi hj h

/-- What is found for a dimension with at least two nodes. -/
theorem findIndex_spec (c : List K) (hc : c.Pairwise (· < ·)) (h2 : 2 ≤ c.length) (x : K) :
    ∃ (i : Nat) (hi : i + 1 < c.length), findIndex c x = i ∧
      normDistance c x = .num ((x - c[i]) / (c[i + 1] - c[i])) ∧
      (c[0] ≤ x → c[i] ≤ x) ∧ (x ≤ c[c.length - 1] → x ≤ c[i + 1]) ∧
      (i ≠ 0 → c[i] < x) ∧ (i + 2 < c.length → x ≤ c[i + 1]) := by
  obtain ⟨hs, hlo, hhi⟩ := searchsorted_spec c hc x
  set s := searchsorted c x with hsd
  have hfi : findIndex c x = ((min (s - 1) (c.length - 2) : Nat) : Int) := by
    unfold findIndex
    simp only
    rw [← hsd]
    split_ifs <;> omega
  refine ⟨min (s - 1) (c.length - 2), by omega, hfi, ?_, ?_, ?_, ?_, ?_⟩
  · unfold normDistance
    simp only
    rw [hfi]
    have e1 : pyIdx c.length ((min (s - 1) (c.length - 2) : Nat) : Int) = min (s - 1) (c.length - 2) := by
      unfold pyIdx; rw [if_neg (by omega)]; omega
    have e2 : pyIdx c.length (((min (s - 1) (c.length - 2) : Nat) : Int) + 1) = min (s - 1) (c.length - 2) + 1 := by
      unfold pyIdx; rw [if_neg (by omega)]; omega
    rw [e1, e2, List.getElem?_eq_getElem (by omega), List.getElem?_eq_getElem (by omega)]
    simp only
    rw [if_neg]
    have := pairwise_getElem hc (i := min (s - 1) (c.length - 2)) (j := min (s - 1) (c.length - 2) + 1) (by omega) (by omega) (by omega)
    exact (sub_pos.2 this).ne'
  · intro h0
    by_cases hz : s = 0
    · have : min (s - 1) (c.length - 2) = 0 := by omega
      simp only [this]; exact h0
    · exact (hlo _ (by omega) (by omega)).le
  · intro hl
    by_cases hz : s - 1 ≤ c.length - 2
    · exact hhi _ (by omega) (by omega)
    · have : min (s - 1) (c.length - 2) + 1 = c.length - 1 := by omega
      simp only [this]; exact hl
  · intro hne
    exact hlo _ (by omega) (by omega)
  · intro hlt
    exact hhi _ (by omega) (by omega)

/-- The index chosen by nearest neighbour interpolation, for any number of nodes. -/
theorem nearestIndex_spec (c : List K) (hc : c.Pairwise (· < ·)) (h1 : 1 ≤ c.length) (x : K) :
    ∃ k, ∃ hk : k < c.length, pyIdx c.length (nearestIndex (findIndex c x) (normDistance c x)) = k ∧
      ∀ j (hj : j < c.length), |x - c[k]| ≤ |x - c[j]| ∧ (|x - c[j]| = |x - c[k]| → c[k] ≤ c[j]) := by
  by_cases h2 : 2 ≤ c.length
  · obtain ⟨i, hi, e1, e2, -, -, h3, h4⟩ := findIndex_spec c hc h2 x
    have hlt := pairwise_getElem hc (i := i) (j := i + 1) (by omega) hi (by omega)
    have hpos : 0 < c[i + 1] - c[i] := sub_pos.2 hlt
    rw [e1, e2]
    unfold nearestIndex
    simp only
    have below : ∀ j (hj : j < c.length), j < i → c[j] < c[i] := fun j hj h => pairwise_getElem hc hj (by omega) h
    have above : ∀ j (hj : j < c.length), i + 1 < j → c[i + 1] < c[j] := fun j hj h => pairwise_getElem hc hi hj h
    have hsplit : (x - c[i]) / (c[i + 1] - c[i]) ≤ 1 / 2 ↔ 2 * (x - c[i]) ≤ c[i + 1] - c[i] := by
      rw [div_le_iff₀ hpos]; constructor <;> intro h <;> linarith
    by_cases hy : (x - c[i]) / (c[i + 1] - c[i]) ≤ 1 / 2
    · rw [if_pos hy]
      have hy' := hsplit.1 hy
      refine ⟨i, by omega, by unfold pyIdx; rw [if_neg (by omega)]; simp, ?_⟩
      intro j hj
      rcases lt_trichotomy j i with h | h | h
      · have hb := below j hj h
        have hx := h3 (by omega)
        rw [abs_of_pos (sub_pos.2 hx), abs_of_pos (by linarith : 0 < x - c[j])]
        exact ⟨by linarith, fun e => by linarith⟩
      · subst h; exact ⟨le_refl _, fun _ => le_refl _⟩
      · have hb : c[i + 1] ≤ c[j] := by
          rcases Nat.lt_or_ge (i + 1) j with h' | h'
          · exact (above j hj h').le
          · have : j = i + 1 := by omega
            subst this; exact le_refl _
        refine ⟨?_, fun _ => by linarith⟩
        rw [abs_le]
        have hx : x ≤ c[j] := by linarith
        rw [abs_of_nonpos (by linarith : x - c[j] ≤ 0)]
        constructor <;> linarith
    · rw [if_neg hy]
      have hy' := (not_congr hsplit).1 hy
      rw [not_le] at hy'
      refine ⟨i + 1, hi, by unfold pyIdx; rw [if_neg (by omega)]; omega, ?_⟩
      intro j hj
      rcases lt_trichotomy j (i + 1) with h | h | h
      · have hb : c[j] ≤ c[i] := by
          rcases Nat.lt_or_ge j i with h' | h'
          · exact (below j hj h').le
          · have : j = i := by omega
            subst this; exact le_refl _
        have hx : c[j] < x := by linarith
        rw [abs_of_pos (by linarith : 0 < x - c[j])]
        have hstrict : |x - c[i + 1]| < x - c[j] := by
          rw [abs_lt]; constructor <;> linarith
        exact ⟨hstrict.le, fun e => by rw [← e] at hstrict; exact absurd hstrict (lt_irrefl _)⟩
      · subst h; exact ⟨le_refl _, fun _ => le_refl _⟩
      · have hb := above j hj h
        have hx := h4 (by omega)
        rw [abs_of_nonpos (by linarith : x - c[i + 1] ≤ 0), abs_of_nonpos (by linarith : x - c[j] ≤ 0)]
        exact ⟨by linarith, fun e => by linarith⟩
  · have hl : c.length = 1 := by omega
    refine ⟨0, by omega, ?_, ?_⟩
    · have hf : findIndex c x = -1 := by
        unfold findIndex
        simp only
        split_ifs <;> omega
      have hn : ∀ v : Val K, pyIdx c.length (nearestIndex (-1) v) = 0 := by
        intro v
        unfold nearestIndex pyIdx
        rw [hl]
        cases v <;> simp
        split <;> simp
      rw [hf]; exact hn _
    · intro j hj
      have : j = 0 := by omega
      subst this; exact ⟨le_refl _, fun _ => le_refl _⟩

/-! ### Several dimensions -/

/-- The weight of an edge as a number. -/
def wt : List Int → List Int → List K → K
  | e :: es, i :: is, y :: ys => (if e = i then 1 - y else y) * wt es is ys
  | _, _, _ => 1

theorem weight_num (es is : List Int) (ys : List K) : ∀ w : K,
    weight es is (ys.map Val.num) (.num w) = .num (w * wt es is ys) := by
  induction es generalizing is ys with
  | nil => intro w; simp [weight, wt]
  | cons e es ih =>
    intro w
    cases is with
    | nil => simp [weight, wt]
    | cons i is =>
      cases ys with
      | nil => simp [weight, wt]
      | cons y ys =>
        simp only [List.map_cons, weight, wt]
        have : factor e i (Val.num y) = .num (if e = i then 1 - y else y) := by
          unfold factor
          split <;> simp [Val.add, Val.mul, sub_eq_add_neg]
        rw [this]
        simp only [Val.mul]
        rw [ih]; ring_nf

theorem foldl_add_num {A : Type} (l : List A) (v : A → Val K) (g : A → K) (h : ∀ a ∈ l, v a = .num (g a)) :
    ∀ z : K, l.foldl (fun acc a => Val.add acc (v a)) (.num z) = .num (z + (l.map g).sum) := by
  induction l with
  | nil => intro z; simp
  | cons a t ih =>
    intro z
    rw [List.foldl_cons, h a (by simp), Val.add]
    rw [ih (fun b hb => h b (by simp [hb])), List.map_cons, List.sum_cons, add_assoc]

theorem foldl_add_masked {A : Type} (l : List A) (v : A → Val K) : l.foldl (fun acc a => Val.add acc (v a)) .masked = .masked := by
  induction l with
  | nil => rfl
  | cons a t ih => rw [List.foldl_cons]; exact ih

theorem foldl_add_has_masked {A : Type} (l : List A) (v : A → Val K) (h : ∃ a ∈ l, v a = .masked) :
    ∀ z : Val K, l.foldl (fun acc a => Val.add acc (v a)) z = .masked := by
  induction l with
  | nil => simp at h
  | cons a t ih =>
    intro z
    rw [List.foldl_cons]
    by_cases ha : v a = .masked
    · rw [ha]
      have : Val.add z .masked = .masked := by cases z <;> rfl
      rw [this]; exact foldl_add_masked t v
    · obtain ⟨b, hb, e⟩ := h
      rcases List.mem_cons.1 hb with rfl | hb
      · exact absurd e ha
      · exact ih ⟨b, hb, e⟩ _

theorem sum_mul_left {A : Type} (l : List A) (g : A → K) (c : K) : (l.map (fun a => c * g a)).sum = c * (l.map g).sum := by
  induction l with
  | nil => simp
  | cons a t ih => simp only [List.map_cons, List.sum_cons, ih, mul_add]

theorem sum_edges (is : List Int) (ys : List K) (hl : is.length = ys.length) : ∀ g : List Int → K,
    ((edges is).map (fun e => g e * wt e is ys)).sum = match is, ys with
      | i :: is', y :: ys' => (1 - y) * ((edges is').map (fun e => g (i :: e) * wt e is' ys')).sum
          + y * ((edges is').map (fun e => g ((i + 1) :: e) * wt e is' ys')).sum
      | _, _ => g [] := by
  intro g
  cases is with
  | nil => cases ys <;> simp [edges, wt]
  | cons i is =>
    cases ys with
    | nil => simp at hl
    | cons y ys =>
      simp only [edges, List.flatMap_cons, List.flatMap_nil, List.append_nil, List.map_append, List.map_map, List.sum_append]
      congr 1
      · rw [← sum_mul_left]
        congr 1
        apply List.map_congr_left
        intro e _
        simp only [Function.comp_apply, wt, if_true]
        ring
      · rw [← sum_mul_left]
        congr 1
        apply List.map_congr_left
        intro e _
        simp only [Function.comp_apply, wt]
        rw [if_neg (by omega)]
        ring

theorem mem_edges {is e : List Int} (h : e ∈ edges is) : List.Forall₂ (fun i e => e = i ∨ e = i + 1) is e := by
  induction is generalizing e with
  | nil => simp [edges] at h; subst h; exact .nil
  | cons i is ih =>
    simp only [edges, List.flatMap_cons, List.flatMap_nil, List.append_nil, List.mem_append, List.mem_map] at h
    rcases h with ⟨e', h, rfl⟩ | ⟨e', h, rfl⟩
    · exact .cons (Or.inl rfl) (ih h)
    · exact .cons (Or.inr rfl) (ih h)

theorem edges_mem {is e : List Int} (h : List.Forall₂ (fun i e => e = i ∨ e = i + 1) is e) : e ∈ edges is := by
  induction h with
  | nil => simp [edges]
  | cons h _ ih =>
    simp only [edges, List.flatMap_cons, List.flatMap_nil, List.append_nil, List.mem_append, List.mem_map]
    rcases h with rfl | rfl
    · exact Or.inl ⟨_, ih, rfl⟩
    · exact Or.inr ⟨_, ih, rfl⟩

/-- Corner of the cell with lower indices `is`. -/
def Corner (is idx : List Nat) : Prop := List.Forall₂ (fun i k => k = i ∨ k = i + 1) is idx

theorem pyIdx_nat (n k : Nat) : pyIdx n (k : Int) = k := by
  unfold pyIdx; rw [if_neg (by omega)]; omega

theorem pyIdx_nat_succ (n k : Nat) : pyIdx n ((k : Int) + 1) = k + 1 := by
  unfold pyIdx; rw [if_neg (by omega)]; omega

theorem corner_of_edge {is : List Nat} {e : List Int} {shape : List Nat} (hs : shape.length = is.length)
    (h : List.Forall₂ (fun i e => e = i ∨ e = i + 1) (is.map (fun i : Nat => (i : Int))) e) :
    Corner is (List.zipWith pyIdx shape e) := by
  induction is generalizing e shape with
  | nil =>
    simp at h; subst h
    simp at hs; subst hs; exact .nil
  | cons i is ih =>
    cases shape with
    | nil => simp at hs
    | cons n shape =>
      rw [List.map_cons] at h
      cases h with
      | cons h1 h2 =>
        rw [List.zipWith_cons_cons]
        refine .cons ?_ (ih (by simpa using hs) h2)
        rcases h1 with rfl | rfl
        · exact Or.inl (pyIdx_nat _ _)
        · exact Or.inr (pyIdx_nat_succ _ _)

theorem edge_of_corner {is idx : List Nat} {shape : List Nat} (hs : shape.length = is.length) (h : Corner is idx) :
    ∃ e ∈ edges (is.map (fun i : Nat => (i : Int))), List.zipWith pyIdx shape e = idx := by
  refine ⟨idx.map (fun i : Nat => (i : Int)), edges_mem ?_, ?_⟩
  · rw [List.forall₂_map_left_iff, List.forall₂_map_right_iff]
    refine h.imp ?_
    rintro a b (rfl | rfl)
    · exact Or.inl rfl
    · exact Or.inr (by push_cast; rfl)
  · have hl : shape.length = idx.length := hs.trans h.length_eq
    clear h hs
    induction idx generalizing shape with
    | nil => simp
    | cons k t ih =>
      cases shape with
      | nil => simp at hl
      | cons n shape => rw [List.map_cons, List.zipWith_cons_cons, pyIdx_nat, ih (by simpa using hl)]

theorem sum_edges_multilinear (is : List Nat) (ys : List K) (hl : is.length = ys.length) (shape : List Nat)
    (hs : shape.length = is.length) : ∀ f : List Nat → K,
    ((edges (is.map (fun i : Nat => (i : Int)))).map (fun e => f (List.zipWith pyIdx shape e) *
        wt e (is.map (fun i : Nat => (i : Int))) ys)).sum
      = Spec.multilinear (List.zipWith (fun i y => (i, i + 1, y)) is ys) f := by
  induction is generalizing ys shape with
  | nil =>
    intro f
    cases ys with
    | nil => simp [edges, wt, Spec.multilinear]
    | cons y ys => simp at hl
  | cons i is ih =>
    intro f
    cases ys with
    | nil => simp at hl
    | cons y ys =>
      cases shape with
      | nil => simp at hs
      | cons n shape =>
        rw [List.map_cons, sum_edges _ _ (by simpa using hl) (fun e => f (List.zipWith pyIdx (n :: shape) e))]
        simp only [List.zipWith_cons_cons, Spec.multilinear, pyIdx_nat, pyIdx_nat_succ]
        rw [ih ys (by simpa using hl) shape (by simpa using hs) (fun idx => f (i :: idx)),
          ih ys (by simpa using hl) shape (by simpa using hs) (fun idx => f ((i + 1) :: idx))]

/-- Linear interpolation with unmasked corners. -/
theorem evaluateLinear_num (is : List Nat) (ys : List K) (hl : is.length = ys.length) (shape : List Nat)
    (hs : shape.length = is.length) (values : List Nat → Val K) (f : List Nat → K)
    (hv : ∀ idx, Corner is idx → values idx = .num (f idx)) :
    evaluateLinear shape values (is.map (fun i : Nat => (i : Int))) (ys.map Val.num)
      = .num (Spec.multilinear (List.zipWith (fun i y => (i, i + 1, y)) is ys) f) := by
  unfold evaluateLinear
  rw [foldl_add_num _ _ (fun e => f (List.zipWith pyIdx shape e) * wt e (is.map (fun i : Nat => (i : Int))) ys), zero_add,
    sum_edges_multilinear is ys hl shape hs]
  intro e he
  rw [weight_num, one_mul]
  unfold indexArray
  rw [hv _ (corner_of_edge hs (mem_edges he))]
  rfl

/-- Linear interpolation with a masked corner. -/
theorem evaluateLinear_masked (is : List Nat) (ys : List K) (shape : List Nat)
    (hs : shape.length = is.length) (values : List Nat → Val K) (idx : List Nat) (hc : Corner is idx) (hv : values idx = .masked) :
    evaluateLinear shape values (is.map (fun i : Nat => (i : Int))) (ys.map Val.num) = .masked := by
  unfold evaluateLinear
  apply foldl_add_has_masked
  obtain ⟨e, he, h⟩ := edge_of_corner hs hc
  refine ⟨e, he, ?_⟩
  unfold indexArray
  rw [h, hv]; rfl

theorem multilinear_map (gs : List (Nat → Nat)) (cs : List (Nat × Nat × K)) (hl : gs.length = cs.length) : ∀ f : List Nat → K,
    Spec.multilinear cs (fun idx => f (List.zipWith (fun g k => g k) gs idx))
      = Spec.multilinear (List.zipWith (fun g (c : Nat × Nat × K) => (g c.1, g c.2.1, c.2.2)) gs cs) f := by
  induction cs generalizing gs with
  | nil => intro f; simp [Spec.multilinear]
  | cons c cs ih =>
    intro f
    cases gs with
    | nil => simp at hl
    | cons g gs =>
      obtain ⟨k0, k1, y⟩ := c
      simp only [List.zipWith_cons_cons, Spec.multilinear]
      rw [ih gs (by simpa using hl) (fun idx => f (g k0 :: idx)), ih gs (by simpa using hl) (fun idx => f (g k1 :: idx))]

end Cis.Interp
