import Verif.Subset.Gridded
set_option linter.unusedSectionVars false
set_option linter.unusedSimpArgs false
/-!
Property C154: subsetting gridded data in steps. The model is that of `Gridded.lean` (subsetting/subset.py:108-174).
-/
namespace Cis.Subset.Gridded
open Cis.Lon Cis.Subset

variable {V : Type}

/-- Two results are the same data: equal coordinates, and equal visible values at every index. -/
def Spec.SameData (r r' : Cube V) : Prop :=
  r.axes = r'.axes ∧ r.mask.isSome = r'.mask.isSome ∧
    ∀ idx : List Nat, idx.length = r.axes.length → (∀ (k i : Nat) (b : Axis), idx[k]? = some i → r.axes[k]? = some b → i < b.points.length) →
      r.value idx = r'.value idx

/-- Both requests select nothing, or both give the same data. -/
def Spec.SameResult (x y : Except Err (Option (Cube V))) : Prop :=
  (x = .ok none ∧ y = .ok none) ∨ ∃ r r', x = .ok (some r) ∧ y = .ok (some r') ∧ Spec.SameData r r'

/-! ### Other coordinates -/

theorem modify_comm {A : Type} (l : List A) (i j : Nat) (f g : A → A) (h : i ≠ j) : (l.modify i f).modify j g = (l.modify j g).modify i f := by
  apply List.ext_getElem?
  intro n
  simp only [List.getElem?_modify]
  by_cases h1 : i = n
  · have h2 : j ≠ n := by omega
    simp [h1, h2]
  · simp [h1]

theorem take_comm (c : Cube V) (k l : Nat) (s t : List (Nat × ℚ)) (h : k ≠ l) : (c.take k s).take l t = (c.take l t).take k s := by
  have e1 : ∀ idx : List Nat, ((idx.modify l (fun i => (t.getD i (0, 0)).1)).modify k (fun i => (s.getD i (0, 0)).1)) =
      ((idx.modify k (fun i => (s.getD i (0, 0)).1)).modify l (fun i => (t.getD i (0, 0)).1)) := fun idx => modify_comm _ _ _ _ _ (Ne.symm h)
  cases c with
  | mk axes data mask =>
    simp only [Cube.take, Cube.mk.injEq]
    refine ⟨modify_comm _ _ _ _ _ h, ?_, ?_⟩
    · funext idx; rw [e1]
    · cases mask with
      | none => rfl
      | some m =>
        simp only [Option.map_some, Option.some.injEq]
        funext idx; rw [e1]

theorem take_axis (c : Cube V) (k l : Nat) (s : List (Nat × ℚ)) (h : k ≠ l) : (c.take k s).axes[l]? = c.axes[l]? := by
  simp only [Cube.take, List.getElem?_modify]
  cases c.axes[l]? <;> simp [h]

theorem intersection_take (k : Nat) (s : List (Nat × ℚ)) : ∀ (A : List Limit) (c : Cube V), (∀ l ∈ A, l.coord ≠ k) →
    intersection A (c.take k s) = (intersection A c).map (fun r => r.take k s) := by
  intro A
  induction A with
  | nil => intro c _; rfl
  | cons l t ih =>
    intro c h
    have hl : k ≠ l.coord := Ne.symm (h l (by simp))
    rw [intersection, intersection, take_axis c k l.coord s hl]
    cases ha : c.axes[l.coord]? with
    | none => rfl
    | some a =>
      simp only
      split
      · rfl
      · split
        · rfl
        · rw [take_comm c k l.coord _ _ hl, ih _ (fun x hx => h x (by simp [hx]))]

theorem extract_append (A B : List Limit) (c : Cube V) : extract (A ++ B) c = (extract A c).bind (extract B) := by
  induction A generalizing c with
  | nil => rfl
  | cons l t ih =>
    rw [List.cons_append, extract, extract]
    cases c.axes[l.coord]? with
    | none => rfl
    | some a =>
      simp only
      split
      · rfl
      · exact ih _

theorem intersection_append (A B : List Limit) (c : Cube V) : intersection (A ++ B) c = (intersection A c).bind (intersection B) := by
  induction A generalizing c with
  | nil => rfl
  | cons l t ih =>
    rw [List.cons_append, intersection, intersection]
    cases c.axes[l.coord]? with
    | none => rfl
    | some a =>
      simp only
      split
      · rfl
      · split
        · rfl
        · exact ih _

/-- Limits on coordinates other than those of `A` commute with `intersection` for `A`. -/
theorem extract_intersection (A : List Limit) : ∀ (B : List Limit) (c : Cube V), (∀ a ∈ A, ∀ b ∈ B, a.coord ≠ b.coord) → ∀ c1, intersection A c = .ok c1 →
    (extract B c1 = none ∧ extract B c = none) ∨ ∃ d d1, extract B c = some d ∧ extract B c1 = some d1 ∧ intersection A d = .ok d1 := by
  intro B
  induction B with
  | nil => intro c _ c1 h; exact Or.inr ⟨c, c1, rfl, rfl, h⟩
  | cons l t ih =>
    intro c hd c1 h
    have hax : c1.axes[l.coord]? = c.axes[l.coord]? := by
      clear ih
      induction A generalizing c with
      | nil => cases h; rfl
      | cons x xs ihx =>
        rw [intersection] at h
        cases ha : c.axes[x.coord]? with
        | none => rw [ha] at h; cases h
        | some a =>
          rw [ha] at h
          simp only at h
          split at h
          · cases h
          · split at h
            · cases h
            · rw [ihx _ (fun a ha b hb => hd a (by simp [ha]) b hb) h, take_axis _ _ _ _ (hd x (by simp) l (by simp))]
    rw [extract, extract, hax]
    cases c.axes[l.coord]? with
    | none => exact Or.inl ⟨rfl, rfl⟩
    | some a =>
      simp only
      split
      · exact Or.inl ⟨rfl, rfl⟩
      · apply ih _ (fun a ha b hb => hd a ha b (by simp [hb]))
        rw [intersection_take _ _ _ _ (fun x hx => hd x hx l (by simp)), h]
        rfl

theorem extract_intersection_error (A : List Limit) : ∀ (B : List Limit) (c : Cube V), (∀ a ∈ A, ∀ b ∈ B, a.coord ≠ b.coord) → ∀ e, intersection A c = .error e →
    extract B c = none ∨ ∃ d, extract B c = some d ∧ intersection A d = .error e := by
  intro B
  induction B with
  | nil => intro c _ e h; exact Or.inr ⟨c, rfl, h⟩
  | cons l t ih =>
    intro c hd e h
    rw [extract]
    cases c.axes[l.coord]? with
    | none => exact Or.inl rfl
    | some a =>
      simp only
      split
      · exact Or.inl rfl
      · apply ih _ (fun a ha b hb => hd a ha b (by simp [hb]))
        rw [intersection_take _ _ _ _ (fun x hx => hd x hx l (by simp)), h]
        rfl

theorem take_kind (c : Cube V) (k : Nat) (s : List (Nat × ℚ)) (l : Limit) : isModular (c.take k s) l = isModular c l := by
  unfold isModular
  simp only [Cube.take, List.getElem?_modify]
  cases c.axes[l.coord]? with
  | none => rfl
  | some a => by_cases h : k = l.coord <;> simp [h]

theorem extract_kind : ∀ (A : List Limit) (c c1 : Cube V) (l : Limit), extract A c = some c1 → isModular c1 l = isModular c l := by
  intro A
  induction A with
  | nil => intro c c1 l h; cases h; rfl
  | cons x xs ih =>
    intro c c1 l h
    rw [extract] at h
    cases ha : c.axes[x.coord]? with
    | none => rw [ha] at h; cases h
    | some a =>
      rw [ha] at h
      simp only at h
      split at h
      · cases h
      · rw [ih _ _ l h, take_kind]

theorem intersection_kind : ∀ (A : List Limit) (c c1 : Cube V) (l : Limit), intersection A c = .ok c1 → isModular c1 l = isModular c l := by
  intro A
  induction A with
  | nil => intro c c1 l h; cases h; rfl
  | cons x xs ih =>
    intro c c1 l h
    rw [intersection] at h
    cases ha : c.axes[x.coord]? with
    | none => rw [ha] at h; cases h
    | some a =>
      rw [ha] at h
      simp only at h
      split at h
      · cases h
      · split at h
        · cases h
        · rw [ih _ _ l h, take_kind]

/-- **C154**. Subsetting by some coordinates and then by others (and a shape) is subsetting by all of them at once; if the first step leaves nothing
then so does the request for all. -/
theorem c154_other (xdim : Nat) (L1 L2 : List Limit) (hd : ∀ a ∈ L1, ∀ b ∈ L2, a.coord ≠ b.coord) (s : Option Shape) (c : Cube V) :
    (∀ c1, constrain xdim L1 none c = .ok (some c1) → constrain xdim (L1 ++ L2) s c = constrain xdim L2 s c1) ∧
      (constrain xdim L1 none c = .ok none → constrain xdim (L1 ++ L2) s c = .ok none) := by
  have hd' : ∀ a ∈ L1.filter (isModular c), ∀ b ∈ L2.filter (fun l => !isModular c l), a.coord ≠ b.coord := fun a ha b hb =>
    hd a (List.mem_filter.1 ha).1 b (List.mem_filter.1 hb).1
  constructor
  · intro c1 h
    unfold constrain at h
    cases hx : extract (L1.filter (fun l => !isModular c l)) c with
    | none => rw [hx] at h; cases h
    | some x =>
      rw [hx] at h
      simp only at h
      cases hi : intersection (L1.filter (isModular c)) x with
      | error e => rw [hi] at h; cases e <;> cases h
      | ok y =>
        rw [hi] at h
        simp only [Except.ok.injEq, Option.some.injEq] at h
        subst h
        have hk : ∀ l, isModular y l = isModular c l := fun l => by rw [intersection_kind _ _ _ l hi, extract_kind _ _ _ l hx]
        have hk1 : isModular y = isModular c := funext hk
        unfold constrain
        rw [hk1, List.filter_append, List.filter_append, extract_append, hx]
        simp only [Option.bind_some, intersection_append]
        rcases extract_intersection _ _ x hd' y hi with ⟨h1, h2⟩ | ⟨d, d1, h1, h2, h3⟩
        · rw [h1, h2]
        · rw [h1, h2]
          simp only
          rw [h3]
          rfl
  · intro h
    unfold constrain at h ⊢
    rw [List.filter_append, List.filter_append, extract_append]
    cases hx : extract (L1.filter (fun l => !isModular c l)) c with
    | none => rfl
    | some x =>
      rw [hx] at h
      simp only at h
      cases hi : intersection (L1.filter (isModular c)) x with
      | ok y => rw [hi] at h; cases h
      | error e =>
        rw [hi] at h
        have he : e = .index := by cases e <;> first | rfl | cases h
        subst he
        simp only [Option.bind_some, intersection_append]
        rcases extract_intersection_error _ _ x hd' _ hi with h1 | ⟨d, h1, h2⟩
        · rw [h1]
        · rw [h1]
          simp only
          rw [h2]
          rfl

/-! ### The same coordinate again -/

/-- A selection from a selection. -/
def compose (s t : List (Nat × ℚ)) : List (Nat × ℚ) := t.map (fun e => ((s.getD e.1 (0, 0)).1, e.2))

theorem take_take (c : Cube V) (k : Nat) (s t : List (Nat × ℚ)) : Spec.SameData ((c.take k s).take k t) (c.take k (compose s t)) := by
  have hax : ((c.take k s).take k t).axes = (c.take k (compose s t)).axes := by
    simp only [Cube.take]
    apply List.ext_getElem?
    intro n
    simp only [List.getElem?_modify]
    by_cases h : k = n
    · cases c.axes[n]? <;> simp [h, compose]
    · cases c.axes[n]? <;> simp [h]
  refine ⟨hax, ?_, ?_⟩
  · simp only [Cube.take]; cases c.mask <;> rfl
  · intro idx hl hin
    rw [value_take, value_take, value_take]
    congr 1
    apply List.ext_getElem?
    intro n
    simp only [List.getElem?_modify]
    by_cases h : k = n
    · subst h
      cases hn : idx[k]? with
      | none => rfl
      | some i =>
        have hk : k < ((c.take k s).take k t).axes.length := by rw [← hl]; exact (List.getElem?_eq_some_iff.1 hn).1
        have hi := hin k i _ hn (List.getElem?_eq_getElem hk)
        have hb : (((c.take k s).take k t).axes[k]'hk).points.length = t.length := by
          simp [Cube.take, List.getElem_modify]
        rw [hb] at hi
        have e : t[i]? = some (t[i]'hi) := List.getElem?_eq_getElem hi
        simp [compose, List.getD_eq_getElem?_getD, e]
    · cases idx[n]? <;> simp [h]

theorem compose_enum (L : List (Nat × ℚ)) : compose L (enum (L.map (·.2))) = L := by
  unfold compose enum
  apply List.ext_getElem
  · simp
  · intro n h1 h2
    simp [List.getD_eq_getElem?_getD, List.getElem?_eq_getElem h2]

theorem compose_filter (L : List (Nat × ℚ)) (p : ℚ → Bool) : compose L ((enum (L.map (·.2))).filter (fun e => p e.2)) = L.filter (fun e => p e.2) := by
  conv_rhs => rw [← compose_enum L]
  unfold compose
  rw [List.filter_map]
  rfl

theorem compose_contains (pts : List ℚ) (s1 t1 s2 t2 : ℚ) :
    compose (containsSel pts s1 t1) (containsSel ((containsSel pts s1 t1).map (·.2)) s2 t2) = containsSel pts (max s1 s2) (min t1 t2) := by
  have := compose_filter (containsSel pts s1 t1) (fun q => decide (s2 ≤ q) && decide (q ≤ t2))
  unfold containsSel at this ⊢
  rw [this, List.filter_filter]
  apply List.filter_congr
  intro e _
  rw [Bool.eq_iff_iff]
  simp only [Bool.and_eq_true, decide_eq_true_eq, max_le_iff, le_min_iff]
  tauto

theorem compose_nil (s t : List (Nat × ℚ)) : compose s t = [] ↔ t = [] := by unfold compose; exact List.map_eq_nil_iff

/-- One limit on a coordinate that has no modulus. -/
theorem constrain_plain (xdim : Nat) (l : Limit) (c : Cube V) (a : Axis) (ha : c.axes[l.coord]? = some a) (hm : a.modular = false) :
    constrain xdim [l] none c = .ok (if containsSel a.points l.start l.stop = [] then none else some (c.take l.coord (containsSel a.points l.start l.stop))) := by
  have h : isModular c l = false := by simp [isModular, ha, hm]
  simp only [constrain, List.filter_cons, h, Bool.not_false, if_true, List.filter_nil, extract, ha]
  by_cases h0 : containsSel a.points l.start l.stop = [] <;> simp [h0, h, intersection]

/-- One limit on a coordinate that has a modulus. -/
theorem constrain_modular (xdim : Nat) (l : Limit) (c : Cube V) (a : Axis) (ha : c.axes[l.coord]? = some a) (hm : a.modular = true)
    (hl : l.stop ≤ l.start + 360) (hs : maxOf a.points ≤ minOf a.points + 360) :
    constrain xdim [l] none c = .ok (if intersectSel a.points l.start l.stop = [] then none else some (c.take l.coord (intersectSel a.points l.start l.stop))) := by
  have h : isModular c l = true := by simp [isModular, ha, hm]
  simp only [constrain, List.filter_cons, h, Bool.not_true, if_true, List.filter_nil, extract, intersection, ha, Bool.false_eq_true, if_false]
  rw [if_neg (by rintro (h1 | h1) <;> linarith)]
  by_cases h0 : intersectSel a.points l.start l.stop = [] <;> simp [h0]

theorem take_axis_self (c : Cube V) (k : Nat) (s : List (Nat × ℚ)) (a : Axis) (ha : c.axes[k]? = some a) :
    (c.take k s).axes[k]? = some { a with points := s.map (·.2) } := by
  simp [Cube.take, List.getElem?_modify, ha]

/-- **C154**. For a coordinate without modulus, one range and then another select what the common part of the two ranges selects. -/
theorem c154_same (xdim : Nat) (l1 l2 : Limit) (hk : l2.coord = l1.coord) (c : Cube V) (a : Axis) (ha : c.axes[l1.coord]? = some a) (hm : a.modular = false) :
    (∀ c1, constrain xdim [l1] none c = .ok (some c1) →
      Spec.SameResult (constrain xdim [l2] none c1) (constrain xdim [⟨l1.coord, max l1.start l2.start, min l1.stop l2.stop⟩] none c)) ∧
    (constrain xdim [l1] none c = .ok none → constrain xdim [⟨l1.coord, max l1.start l2.start, min l1.stop l2.stop⟩] none c = .ok none) := by
  have hcomp := compose_contains a.points l1.start l1.stop l2.start l2.stop
  rw [constrain_plain xdim l1 c a ha hm, constrain_plain xdim ⟨l1.coord, max l1.start l2.start, min l1.stop l2.stop⟩ c a ha hm]
  simp only
  constructor
  · intro c1 h
    split at h
    · cases h
    · simp only [Except.ok.injEq, Option.some.injEq] at h
      subst h
      have ha1 := take_axis_self c l1.coord (containsSel a.points l1.start l1.stop) a ha
      rw [constrain_plain xdim l2 _ { a with points := (containsSel a.points l1.start l1.stop).map (·.2) } (by rw [hk]; exact ha1) hm, ← hcomp, hk]
      simp only
      by_cases h0 : containsSel ((containsSel a.points l1.start l1.stop).map (·.2)) l2.start l2.stop = []
      · left
        rw [if_pos h0, if_pos ((compose_nil _ _).2 h0)]
        exact ⟨rfl, rfl⟩
      · right
        rw [if_neg h0, if_neg (fun h1 => h0 ((compose_nil _ _).1 h1))]
        exact ⟨_, _, rfl, rfl, take_take _ _ _ _⟩
  · intro h
    split at h
    · rename_i h0
      rw [if_pos]
      rw [← hcomp, compose_nil, h0]
      rfl
    · cases h

theorem wrap_unique (s p q : ℚ) (h : ∃ n : ℤ, q = p + 360 * n) (h1 : s ≤ q) (h2 : q < s + 360) : wrap s p = q := by
  obtain ⟨⟨m, hm⟩, h3, h4⟩ := wrap_spec s p
  obtain ⟨n, hn⟩ := h
  have : m = n := by
    have a1 : (360 : ℚ) * (m - n) < 360 := by linarith
    have a2 : (-360 : ℚ) < 360 * (m - n) := by linarith
    have b1 : ((m - n : ℤ) : ℚ) < 1 := by push_cast; linarith
    have b2 : (-1 : ℚ) < ((m - n : ℤ) : ℚ) := by push_cast; linarith
    have c1 : m - n < 1 := by exact_mod_cast b1
    have c2 : -1 < m - n := by exact_mod_cast b2
    omega
  rw [hm, hn, this]

theorem wrap_wrap (s t p : ℚ) : wrap t (wrap s p) = wrap t p := by
  obtain ⟨⟨m, hm⟩, -, -⟩ := wrap_spec s p
  obtain ⟨⟨n, hn⟩, h3, h4⟩ := wrap_spec t p
  apply wrap_unique _ _ _ _ h3 h4
  exact ⟨n - m, by rw [hn, hm]; push_cast; ring⟩

/-- Longitudes in ascending order that do not go around. -/
def Spec.Ascending (pts : List ℚ) : Prop := pts.Pairwise (· < ·) ∧ ∀ p ∈ pts, ∀ q ∈ pts, q < p + 360

/-- Of two points of which the first is before the second and less than a turn away: moved by the same number of turns they keep their order,
otherwise the second is moved one turn less far back and comes first. -/
theorem wrap_order (s p q : ℚ) (h : p < q) (h' : q < p + 360) :
    (p - wrap s p = q - wrap s q ∧ wrap s p < wrap s q) ∨ (p - wrap s p < q - wrap s q ∧ wrap s q < wrap s p) := by
  obtain ⟨⟨m, hm⟩, h1, h2⟩ := wrap_spec s p
  obtain ⟨⟨n, hn⟩, h3, h4⟩ := wrap_spec s q
  have a1 : (360 : ℚ) * (n - m) < 360 := by linarith
  have a2 : (-720 : ℚ) < 360 * (n - m) := by linarith
  have b1 : ((n - m : ℤ) : ℚ) < 1 := by push_cast; linarith
  have b2 : (-2 : ℚ) < ((n - m : ℤ) : ℚ) := by push_cast; linarith
  have c1 : n - m < 1 := by exact_mod_cast b1
  have c2 : -2 < n - m := by exact_mod_cast b2
  rcases (by omega : n = m ∨ n = m - 1) with e | e
  · left
    rw [e] at hn
    constructor <;> linarith
  · right
    rw [e] at hn
    push_cast at hn
    constructor <;> linarith

/-- The result of the selection is in ascending order. -/
theorem intersectSel_sorted (pts : List ℚ) (s t : ℚ) (ha : Spec.Ascending pts) : ((intersectSel pts s t).map (·.2)).Pairwise (· < ·) := by
  unfold intersectSel
  simp only
  generalize hins : (enum pts).filter (fun e => decide (s ≤ wrap s e.2) && decide (wrap s e.2 ≤ t)) = ins
  have hasc : ins.Pairwise (fun e f => e.2 < f.2) := by
    rw [← hins]
    apply List.Pairwise.sublist List.filter_sublist
    unfold enum
    rw [List.pairwise_map]
    have : (pts.zipIdx.map Prod.fst).Pairwise (· < ·) := by rw [List.zipIdx_map_fst]; exact ha.1
    rw [List.pairwise_map] at this
    exact this
  have hmem : ∀ e ∈ ins, e.2 ∈ pts := by
    intro e he
    rw [← hins] at he
    have := (mem_enum pts e.1 e.2).1 (List.mem_filter.1 he).1
    exact List.mem_of_getElem? this
  have hspan : ∀ e ∈ ins, ∀ f ∈ ins, f.2 < e.2 + 360 := fun e he f hf => ha.2 _ (hmem e he) _ (hmem f hf)
  clear hins hmem
  cases ins with
  | nil => simp
  | cons e0 tl =>
    simp only
    set P : Nat × ℚ → Bool := fun x => x.2 - wrap s x.2 == e0.2 - wrap s e0.2 with hP
    have hsplit : (e0 :: tl).drop ((e0 :: tl).takeWhile P).length = (e0 :: tl).dropWhile P := by
      have h := List.takeWhile_append_dropWhile (p := P) (l := e0 :: tl)
      generalize (e0 :: tl).takeWhile P = A at h ⊢
      generalize (e0 :: tl).dropWhile P = B at h ⊢
      rw [← h, List.drop_left]
    rw [hsplit]
    have happ := List.takeWhile_append_dropWhile (p := P) (l := e0 :: tl)
    set A := (e0 :: tl).takeWhile P with hA
    set B := (e0 :: tl).dropWhile P with hB
    have hall : (A ++ B).Pairwise (fun e f => e.2 < f.2) := by rw [happ]; exact hasc
    obtain ⟨pA, pB, pAB⟩ := List.pairwise_append.1 hall
    have hin : ∀ e, e ∈ A ∨ e ∈ B → e ∈ e0 :: tl := fun e he => by rw [← happ]; exact List.mem_append.2 he
    have hAP : ∀ e ∈ A, e.2 - wrap s e.2 = e0.2 - wrap s e0.2 := by
      intro e he
      have h0 := List.all_takeWhile (p := P) (l := e0 :: tl)
      have := List.all_eq_true.1 h0 e he
      simpa [hP] using this
    have he0 : e0 ∈ A := by
      rw [hA, List.takeWhile_cons]
      simp [hP]
    have hBP : ∀ e ∈ B, e0.2 - wrap s e0.2 < e.2 - wrap s e.2 := by
      intro e he
      cases hBc : B with
      | nil => rw [hBc] at he; simp at he
      | cons b bs =>
        have hb0 : ¬ P b = true := by
          have := List.head_dropWhile_not (p := P) (l := e0 :: tl) (by rw [← hB, hBc]; simp)
          have hh : (List.dropWhile P (e0 :: tl)).head (by rw [← hB, hBc]; simp) = b := by
            simp only [← hB, hBc, List.head_cons]
          rw [hh] at this
          simp [this]
        have hbm : b ∈ B := by rw [hBc]; simp
        have hb : e0.2 - wrap s e0.2 < b.2 - wrap s b.2 := by
          rcases wrap_order s e0.2 b.2 (pAB e0 he0 b hbm) (hspan _ (hin _ (Or.inl he0)) _ (hin _ (Or.inr hbm))) with h | h
          · exact absurd (by simp [hP, h.1]) hb0
          · exact h.1
        rw [hBc] at he
        rcases List.mem_cons.1 he with rfl | he
        · exact hb
        · have hbe : b.2 < e.2 := by rw [hBc] at pB; exact (List.pairwise_cons.1 pB).1 e he
          rcases wrap_order s b.2 e.2 hbe (hspan _ (hin _ (Or.inr hbm)) _ (hin _ (Or.inr (by rw [hBc]; simp [he])))) with h | h
          · rw [← h.1]; exact hb
          · exact hb.trans h.1
    rw [List.map_map, List.pairwise_map]
    rw [List.pairwise_append]
    refine ⟨?_, ?_, ?_⟩
    · refine List.Pairwise.imp_of_mem ?_ pB
      intro e f he hf hef
      rcases wrap_order s e.2 f.2 hef (hspan _ (hin _ (Or.inr he)) _ (hin _ (Or.inr hf))) with h | h
      · exact h.2
      · exfalso
        -- the deltas of B are one turn more than that of the first point
        rcases wrap_order s e0.2 f.2 (pAB e0 he0 f hf) (hspan _ (hin _ (Or.inl he0)) _ (hin _ (Or.inr hf))) with h2 | h2
        · exact absurd h2.1 (ne_of_lt (hBP f hf))
        · rcases wrap_order s e0.2 e.2 (pAB e0 he0 e he) (hspan _ (hin _ (Or.inl he0)) _ (hin _ (Or.inr he))) with h3 | h3
          · exact absurd h3.1 (ne_of_lt (hBP e he))
          · obtain ⟨⟨m, hm⟩, -, -⟩ := wrap_spec s e.2
            obtain ⟨⟨n, hn⟩, -, -⟩ := wrap_spec s f.2
            obtain ⟨⟨k, hk⟩, w1, w2⟩ := wrap_spec s e0.2
            obtain ⟨-, w3, w4⟩ := wrap_spec s f.2
            obtain ⟨-, w5, w6⟩ := wrap_spec s e.2
            have h4 := h.1
            have h5 := h2.1
            have h6 := h3.1
            have h7 := hspan _ (hin _ (Or.inl he0)) _ (hin _ (Or.inr hf))
            rw [hm, hn] at h4
            rw [hn, hk] at h5
            rw [hm, hk] at h6
            have i1 : (n : ℚ) < m := by linarith
            have i2 : (m : ℚ) < k := by linarith
            have j1 : n < m := by exact_mod_cast i1
            have j2 : m < k := by exact_mod_cast i2
            have j3 : n + 2 ≤ k := by omega
            have j4 : (n : ℚ) + 2 ≤ k := by exact_mod_cast j3
            linarith
    · refine List.Pairwise.imp_of_mem ?_ pA
      intro e f he hf hef
      have h1 := hAP e he
      have h2 := hAP f hf
      simp only [Function.comp_apply]
      linarith
    · intro f hf e he
      simp only [Function.comp_apply]
      rcases wrap_order s e.2 f.2 (pAB e he f hf) (hspan _ (hin _ (Or.inl he)) _ (hin _ (Or.inr hf))) with h | h
      · exfalso
        have h1 := hAP e he
        have h2 := hBP f hf
        linarith [h.1]
      · exact h.2

theorem mem_intersectSel (pts : List ℚ) (s t : ℚ) (i : Nat) (q : ℚ) :
    (i, q) ∈ intersectSel pts s t ↔ ∃ p, pts[i]? = some p ∧ q = wrap s p ∧ q ≤ t := by
  obtain ⟨u, v, h1, h2⟩ := intersectSel_perm pts s t
  have hm : ∀ e, e ∈ u ++ v ↔ e ∈ enum pts ∧ wrap s e.2 ≤ t := by
    intro e
    have : e ∈ u ++ v ↔ e ∈ v ++ u := by rw [List.mem_append, List.mem_append]; exact or_comm
    rw [this, h2, List.mem_filter]
    simp [(wrap_spec s e.2).2.1]
  rw [h1, List.mem_map]
  constructor
  · rintro ⟨e, he, e1⟩
    obtain ⟨h3, h4⟩ := (hm e).1 he
    simp only [Prod.mk.injEq] at e1
    obtain ⟨rfl, rfl⟩ := e1
    exact ⟨e.2, (mem_enum _ _ _).1 h3, rfl, h4⟩
  · rintro ⟨p, hp, rfl, hq⟩
    exact ⟨(i, p), (hm _).2 ⟨(mem_enum _ _ _).2 hp, hq⟩, rfl⟩

theorem mem_compose (L T : List (Nat × ℚ)) (hT : ∀ e ∈ T, e.1 < L.length) (i : Nat) (q : ℚ) :
    (i, q) ∈ compose L T ↔ ∃ (j : Nat) (p : ℚ), (j, q) ∈ T ∧ L[j]? = some (i, p) := by
  unfold compose
  rw [List.mem_map]
  constructor
  · rintro ⟨e, he, e1⟩
    have hlt := hT e he
    simp only [Prod.mk.injEq] at e1
    obtain ⟨h1, h2⟩ := e1
    refine ⟨e.1, (L[e.1]'hlt).2, by rw [← h2]; exact he, ?_⟩
    rw [List.getD_eq_getElem?_getD, List.getElem?_eq_getElem hlt] at h1
    rw [List.getElem?_eq_getElem hlt, ← h1]
    rfl
  · rintro ⟨j, p, h1, h2⟩
    exact ⟨(j, q), h1, by simp [List.getD_eq_getElem?_getD, h2]⟩

theorem compose_intersect (pts : List ℚ) (ha : Spec.Ascending pts) (s1 t1 s2 t2 : ℚ) (h1 : s1 ≤ s2) (h2 : t2 ≤ t1) (h3 : t2 < s1 + 360) :
    compose (intersectSel pts s1 t1) (intersectSel ((intersectSel pts s1 t1).map (·.2)) s2 t2) = intersectSel pts s2 t2 := by
  have hasc2 : Spec.Ascending ((intersectSel pts s1 t1).map (·.2)) := by
    refine ⟨intersectSel_sorted pts s1 t1 ha, ?_⟩
    have hr : ∀ p ∈ (intersectSel pts s1 t1).map (·.2), s1 ≤ p ∧ p < s1 + 360 := by
      intro p hp
      rw [List.mem_map] at hp
      obtain ⟨⟨i, q⟩, hq, rfl⟩ := hp
      obtain ⟨p, -, rfl, -⟩ := (mem_intersectSel _ _ _ _ _).1 hq
      exact (wrap_spec s1 p).2
    intro p hp q hq
    have := hr p hp; have := hr q hq
    linarith [(hr p hp).1, (hr q hq).2]
  have hlt : ∀ e ∈ intersectSel ((intersectSel pts s1 t1).map (·.2)) s2 t2, e.1 < (intersectSel pts s1 t1).length := by
    intro e he
    obtain ⟨p, hp, -⟩ := (mem_intersectSel _ _ _ e.1 e.2).1 he
    have := (List.getElem?_eq_some_iff.1 hp).1
    rwa [List.length_map] at this
  have hs1 : (compose (intersectSel pts s1 t1) (intersectSel ((intersectSel pts s1 t1).map (·.2)) s2 t2)).Pairwise (fun e f => e.2 < f.2) := by
    have := intersectSel_sorted _ s2 t2 hasc2
    unfold compose
    rw [List.pairwise_map] at this ⊢
    exact this
  have hs2 : (intersectSel pts s2 t2).Pairwise (fun e f => e.2 < f.2) := by
    have := intersectSel_sorted pts s2 t2 ha
    rwa [List.pairwise_map] at this
  have hmem : ∀ e, e ∈ compose (intersectSel pts s1 t1) (intersectSel ((intersectSel pts s1 t1).map (·.2)) s2 t2) ↔ e ∈ intersectSel pts s2 t2 := by
    rintro ⟨i, q⟩
    rw [mem_compose _ _ hlt, mem_intersectSel]
    constructor
    · rintro ⟨j, p', hj, hL⟩
      obtain ⟨p2, hp2, hq, hq2⟩ := (mem_intersectSel _ _ _ _ _).1 hj
      rw [List.getElem?_map, hL] at hp2
      simp only [Option.map_some, Option.some.injEq] at hp2
      subst hp2
      obtain ⟨p, hp, hp', -⟩ := (mem_intersectSel _ _ _ _ _).1 (List.mem_of_getElem? hL)
      exact ⟨p, hp, by rw [hq, hp', wrap_wrap], hq2⟩
    · rintro ⟨p, hp, hq, hq2⟩
      have hw : wrap s1 p = q := by
        obtain ⟨hn, h4, h5⟩ := wrap_spec s2 p
        rw [hq]
        rw [hq] at hq2
        exact wrap_unique _ _ _ hn (by linarith) (by linarith)
      have hL : (i, q) ∈ intersectSel pts s1 t1 := (mem_intersectSel _ _ _ _ _).2 ⟨p, hp, hw.symm, by linarith⟩
      obtain ⟨j, hj⟩ := List.mem_iff_getElem?.1 hL
      refine ⟨j, q, (mem_intersectSel _ _ _ _ _).2 ⟨q, by rw [List.getElem?_map, hj]; rfl, ?_, hq2⟩, hj⟩
      rw [← hw, wrap_wrap, hw]; exact hq
  have hne : ∀ {a b : Nat × ℚ}, a.2 < b.2 → a ≠ b := by rintro a b h rfl; exact lt_irrefl _ h
  have hn1 := hs1.imp hne
  have hn2 := hs2.imp hne
  have hperm := (List.perm_ext_iff_of_nodup hn1 hn2).2 hmem
  exact hperm.eq_of_pairwise (fun a b _ _ h1 h2 => absurd (lt_trans h1 h2) (lt_irrefl _)) hs1 hs2

theorem foldl_choice (op : ℚ → ℚ → ℚ) (hop : ∀ a b, op a b = a ∨ op a b = b) (l : List ℚ) : ∀ x, l.foldl op x = x ∨ l.foldl op x ∈ l := by
  induction l with
  | nil => intro x; exact Or.inl rfl
  | cons a t ih =>
    intro x
    rw [List.foldl_cons]
    rcases ih (op x a) with h | h
    · rcases hop x a with h1 | h1
      · left; rw [h, h1]
      · right; rw [h, h1]; simp
    · right; simp [h]

theorem ascending_short (pts : List ℚ) (h : ∀ p ∈ pts, ∀ q ∈ pts, q < p + 360) : maxOf pts ≤ minOf pts + 360 := by
  cases pts with
  | nil => simp [maxOf, minOf]
  | cons a t =>
    have h1 : maxOf (a :: t) ∈ a :: t := by
      unfold maxOf
      rcases foldl_choice max max_choice (a :: t) a with h | h
      · simp only [List.headD_cons]; rw [h]; simp
      · exact h
    have h2 : minOf (a :: t) ∈ a :: t := by
      unfold minOf
      rcases foldl_choice min min_choice (a :: t) a with h | h
      · simp only [List.headD_cons]; rw [h]; simp
      · exact h
    exact (h _ h2 _ h1).le

/-- **C154**. For longitudes in ascending order, a range and then a range within it select what the second range selects. -/
theorem c154_nested (xdim : Nat) (l1 l2 : Limit) (hk : l2.coord = l1.coord) (c : Cube V) (a : Axis) (ha : c.axes[l1.coord]? = some a) (hm : a.modular = true)
    (hasc : Spec.Ascending a.points) (h1 : l1.start ≤ l2.start) (h2 : l2.stop ≤ l1.stop) (h3 : l1.stop ≤ l1.start + 360) (h4 : l2.stop < l1.start + 360) :
    (∀ c1, constrain xdim [l1] none c = .ok (some c1) → Spec.SameResult (constrain xdim [l2] none c1) (constrain xdim [l2] none c)) ∧
    (constrain xdim [l1] none c = .ok none → constrain xdim [l2] none c = .ok none) := by
  have hcomp := compose_intersect a.points hasc l1.start l1.stop l2.start l2.stop h1 h2 h4
  rw [constrain_modular xdim l1 c a ha hm h3 (ascending_short _ hasc.2), constrain_modular xdim l2 c a (by rw [hk]; exact ha) hm (by linarith) (ascending_short _ hasc.2)]
  constructor
  · intro c1 h
    split at h
    · cases h
    · simp only [Except.ok.injEq, Option.some.injEq] at h
      subst h
      have ha1 := take_axis_self c l1.coord (intersectSel a.points l1.start l1.stop) a ha
      have hspan : ∀ p ∈ (intersectSel a.points l1.start l1.stop).map (·.2), ∀ q ∈ (intersectSel a.points l1.start l1.stop).map (·.2), q < p + 360 := by
        have hr : ∀ p ∈ (intersectSel a.points l1.start l1.stop).map (·.2), l1.start ≤ p ∧ p < l1.start + 360 := by
          intro p hp
          rw [List.mem_map] at hp
          obtain ⟨⟨i, q⟩, hq, rfl⟩ := hp
          obtain ⟨p, -, rfl, -⟩ := (mem_intersectSel _ _ _ _ _).1 hq
          exact (wrap_spec l1.start p).2
        intro p hp q hq
        linarith [(hr p hp).1, (hr q hq).2]
      rw [constrain_modular xdim l2 _ { a with points := (intersectSel a.points l1.start l1.stop).map (·.2) } (by rw [hk]; exact ha1) hm (by linarith)
        (ascending_short _ hspan), ← hcomp, hk]
      simp only
      by_cases h0 : intersectSel ((intersectSel a.points l1.start l1.stop).map (·.2)) l2.start l2.stop = []
      · left
        rw [if_pos h0, if_pos ((compose_nil _ _).2 h0)]
        exact ⟨rfl, rfl⟩
      · right
        rw [if_neg h0, if_neg (fun h1 => h0 ((compose_nil _ _).1 h1))]
        exact ⟨_, _, rfl, rfl, take_take _ _ _ _⟩
  · intro h
    split at h
    · rename_i h0
      rw [if_pos]
      rw [← hcomp, compose_nil, h0]
      rfl
    · cases h

/-! The conditions are met: a range across the Greenwich meridian on a grid from 0 to 270, then a part of it; a coordinate without modulus; two coordinates. -/

private theorem exStep : constrain 1 [⟨1, -100, 100⟩] none exGrid = .ok (some (exGrid.take 1 (intersectSel [0, 90, 180, 270] (-100) 100))) := by
  rw [constrain_modular 1 ⟨1, -100, 100⟩ exGrid ⟨true, [0, 90, 180, 270]⟩ rfl rfl (by norm_num) (by decide +kernel), if_neg (by decide +kernel)]

example : ∃ c1, constrain 1 [⟨1, -100, 100⟩] none exGrid = .ok (some c1) ∧ c1.axes = [⟨false, [1, 2, 3, 4]⟩, ⟨true, [-90, 0, 90]⟩] ∧
    Spec.SameResult (constrain 1 [⟨1, -95, 5⟩] none c1) (constrain 1 [⟨1, -95, 5⟩] none exGrid) := by
  refine ⟨_, exStep, by decide +kernel, ?_⟩
  exact (c154_nested 1 ⟨1, -100, 100⟩ ⟨1, -95, 5⟩ rfl exGrid ⟨true, [0, 90, 180, 270]⟩ rfl rfl ⟨by decide +kernel, by decide +kernel⟩
    (by norm_num) (by norm_num) (by norm_num) (by norm_num)).1 _ exStep

example : ∃ c1, constrain 1 [⟨0, 2, 9⟩] none exGrid = .ok (some c1) ∧ c1.axes = [⟨false, [2, 3, 4]⟩, ⟨true, [0, 90, 180, 270]⟩] ∧
    Spec.SameResult (constrain 1 [⟨0, 0, 3⟩] none c1) (constrain 1 [⟨0, 2, 3⟩] none exGrid) := by
  refine ⟨_, rfl, by decide +kernel, ?_⟩
  have := (c154_same 1 ⟨0, 2, 9⟩ ⟨0, 0, 3⟩ rfl exGrid _ rfl rfl).1 _ rfl
  norm_num at this
  exact this

example : ∃ c1, constrain 1 [⟨1, -100, 100⟩] none exGrid = .ok (some c1) ∧ constrain 1 [⟨1, -100, 100⟩, ⟨0, 2, 3⟩] none exGrid = constrain 1 [⟨0, 2, 3⟩] none c1 :=
  ⟨_, exStep, (c154_other 1 [⟨1, -100, 100⟩] [⟨0, 2, 3⟩] (by simp) none exGrid).1 _ exStep⟩

end Cis.Subset.Gridded
