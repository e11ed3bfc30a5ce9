import Verif.Colloc.TreeCollocate
set_option linter.unusedSectionVars false
set_option linter.unusedSimpArgs false
/-!
Property C130: the collocated value of a sample point depends only on the sample point and on the data around it, not on the
other sample points, the order of the data, or data beyond the separations; larger separations use more data. The model is that
of `Model.lean` (col_implementations.py:19-112, 211-361, 365-556).
-/
namespace Cis.Colloc
open Cis.Geo Cis.KDTree Real

/-- Inputs for which the search is exact (see C17): some datum is valid, pressures are positive where they are compared, the
horizontal separation is not zero, no datum lies exactly at that separation, and points are near each other. -/
structure Spec.Good (s : Seps) (sample data : List Row) : Prop where
  some_valid : dropna data ≠ []
  pressures : ∀ r ∈ sample, PresOK s r.loc (dropna data)
  not_zero : s.h ≠ some 0
  edge : ∀ h, s.h = some h → ∀ r ∈ sample, ∀ q ∈ dropna data, hdist r.loc q.loc ≠ h
  near : s.h = none ∨ ∃ w, Window sample w ∧ ∀ h, s.h = some h → ∀ r ∈ sample, ∀ q ∈ dropna data, Near w h r.loc q.loc

/-- The separations of `s'` are at least those of `s`. -/
structure Spec.Wider (s s' : Seps) : Prop where
  h : ∀ x', s'.h = some x' → ∃ x, s.h = some x ∧ x ≤ x'
  a : ∀ x', s'.a = some x' → ∃ x, s.a = some x ∧ x ≤ x'
  p : ∀ x', s'.p = some x' → ∃ x, s.p = some x ∧ x ≤ x'
  t : ∀ x', s'.t = some x' → ∃ x, s.t = some x ∧ x ≤ x'

theorem good_statement {s : Seps} {sample data : List Row} (g : Spec.Good s sample data) (k : Kernel) (missing hasVals : Bool)
    (cx cy : List Col) (hc : ColsOK k cx cy) : Statement treeSearch s k missing hasVals cx cy sample data := by
  rcases g.near with h | ⟨w, hw, hn⟩
  · exact c17_no_horizontal s h k missing hasVals cx cy hc sample data g.some_valid g.pressures
  · exact c17_tree_partial s k missing hasVals cx cy hc sample data g.some_valid g.pressures g.not_zero g.edge w hw hn

theorem cols_of_dataOnly {k : Kernel} (hk : k.dataOnly) (cx cy : List Col) : ColsOK k cx cy := by
  intro h; subst h; exact absurd hk (by simp [Kernel.dataOnly])

/-- The value at a sample point. -/
theorem good_value {s : Seps} {sample data : List Row} (g : Spec.Good s sample data) (k : Kernel) (hk : k.dataOnly) (missing hasVals : Bool)
    (cx cy : List Col) {out : List (List (Option ℝ))} (ho : collocate s k missing hasVals cx cy sample data = .ok out) :
    out.length = k.size ∧ (∀ v ∈ out, v.length = sample.length) ∧ ∀ i r, sample[i]? = some r →
      column out i = if missing = true ∧ hasVals = true ∧ r.val = none then List.replicate k.size none
        else (getValue k cx cy r.loc (Spec.selected s r.loc (dropna data))).getD (List.replicate k.size none) := by
  have hst := good_statement g k missing hasVals cx cy (cols_of_dataOnly hk cx cy)
  obtain ⟨out', e', h'⟩ := c17_statistics treeSearch s k hk missing hasVals cx cy sample data hst
  obtain ⟨out'', e'', h1, h2, -⟩ := hst
  have e1 : out' = out := by
    have : (Except.ok out' : Except Err _) = .ok out := by rw [← e', ← ho]; rfl
    exact Except.ok.inj this
  have e2 : out'' = out := by
    have : (Except.ok out'' : Except Err _) = .ok out := by rw [← e'', ← ho]; rfl
    exact Except.ok.inj this
  subst e1; subst e2
  exact ⟨h1, h2, h'⟩

/-- **C130**. The values at a sample point depend only on the point itself and on the valid data within the separations
around it, in any order: two collocations that agree on these agree at the point, whatever other sample points and data there
are. -/
theorem c130_local (s : Seps) (k : Kernel) (hk : k.dataOnly) (missing hasVals : Bool) (cx cy cx' cy' : List Col)
    (sample data sample' data' : List Row) (g : Spec.Good s sample data) (g' : Spec.Good s sample' data')
    (out out' : List (List (Option ℝ))) (ho : collocate s k missing hasVals cx cy sample data = .ok out)
    (ho' : collocate s k missing hasVals cx' cy' sample' data' = .ok out') (i j : Nat) (r : Row)
    (hi : sample[i]? = some r) (hj : sample'[j]? = some r)
    (hsel : (Spec.selected s r.loc (dropna data)).Perm (Spec.selected s r.loc (dropna data'))) :
    column out i = column out' j := by
  obtain ⟨-, -, h⟩ := good_value g k hk missing hasVals cx cy ho
  obtain ⟨-, -, h'⟩ := good_value g' k hk missing hasVals cx' cy' ho'
  rw [h i r hi, h' j r hj, c15_order_independent k hk cx cy cx' cy' r.loc r.loc _ _ hsel]

theorem columns_ext {n m : Nat} {out out' : List (List (Option ℝ))} (h1 : out.length = m) (h1' : out'.length = m)
    (h2 : ∀ v ∈ out, v.length = n) (h2' : ∀ v ∈ out', v.length = n) (h : ∀ i < n, column out i = column out' i) : out = out' := by
  apply List.ext_getElem (by omega)
  intro v hv hv'
  have l1 := h2 _ (List.getElem_mem hv)
  have l2 := h2' _ (List.getElem_mem hv')
  apply List.ext_getElem (by omega)
  intro i hi hi'
  have e := h i (by omega)
  unfold column at e
  have e' := congrArg (fun l => l[v]?) e
  simp only [List.getElem?_map, List.getElem?_eq_getElem hv, List.getElem?_eq_getElem hv', Option.map_some, Option.some.injEq,
    List.getElem?_eq_getElem hi, List.getElem?_eq_getElem hi', Option.join_some] at e'
  exact e'

theorem dropna_perm {d d' : List Row} (h : d.Perm d') : (dropna d).Perm (dropna d') := h.filterMap _

theorem selected_perm (s : Seps) (ref : Loc) {d d' : List DRow} (h : d.Perm d') :
    (Spec.selected s ref d).Perm (Spec.selected s ref d') := h.filter _

/-- Same values everywhere. -/
theorem good_same (s : Seps) (k : Kernel) (hk : k.dataOnly) (missing hasVals : Bool) (cx cy : List Col) (sample data data' : List Row)
    (g : Spec.Good s sample data) (g' : Spec.Good s sample data')
    (hsel : ∀ r ∈ sample, (Spec.selected s r.loc (dropna data)).Perm (Spec.selected s r.loc (dropna data'))) :
    collocate s k missing hasVals cx cy sample data = collocate s k missing hasVals cx cy sample data' := by
  obtain ⟨out, ho, -⟩ := good_statement g k missing hasVals cx cy (cols_of_dataOnly hk cx cy)
  obtain ⟨out', ho', -⟩ := good_statement g' k missing hasVals cx cy (cols_of_dataOnly hk cx cy)
  have e1 : collocate s k missing hasVals cx cy sample data = .ok out := ho
  have e2 : collocate s k missing hasVals cx cy sample data' = .ok out' := ho'
  obtain ⟨a1, a2, -⟩ := good_value g k hk missing hasVals cx cy e1
  obtain ⟨b1, b2, -⟩ := good_value g' k hk missing hasVals cx cy e2
  rw [e1, e2]
  congr 1
  refine columns_ext a1 b1 a2 b2 (fun i hi => ?_)
  have hr : sample[i]? = some sample[i] := List.getElem?_eq_getElem hi
  exact c130_local s k hk missing hasVals cx cy cx cy sample data sample data' g g' out out' e1 e2 i i _ hr hr
    (hsel _ (List.getElem_mem hi))

/-- **C130**. The order of the data does not matter. -/
theorem c130_order (s : Seps) (k : Kernel) (hk : k.dataOnly) (missing hasVals : Bool) (cx cy : List Col)
    (sample data data' : List Row) (g : Spec.Good s sample data) (hp : data.Perm data') :
    collocate s k missing hasVals cx cy sample data = collocate s k missing hasVals cx cy sample data' := by
  have hm : ∀ q, q ∈ dropna data' ↔ q ∈ dropna data := fun q => (dropna_perm hp).symm.mem_iff
  have g' : Spec.Good s sample data' := by
    refine ⟨?_, ?_, g.not_zero, ?_, ?_⟩
    · intro h; exact g.some_valid (List.Perm.eq_nil (h ▸ dropna_perm hp))
    · intro r hr hs; exact ⟨(g.pressures r hr hs).1, fun q hq => (g.pressures r hr hs).2 q ((hm q).1 hq)⟩
    · intro h eh r hr q hq; exact g.edge h eh r hr q ((hm q).1 hq)
    · rcases g.near with h | ⟨w, hw, hn⟩
      · exact Or.inl h
      · exact Or.inr ⟨w, hw, fun h eh r hr q hq => hn h eh r hr q ((hm q).1 hq)⟩
  exact good_same s k hk missing hasVals cx cy sample data data' g g' (fun r _ => selected_perm s r.loc (dropna_perm hp))

/-- **C130**. Data beyond the separations, or without a value, make no difference wherever they are inserted. -/
theorem c130_far (s : Seps) (k : Kernel) (hk : k.dataOnly) (missing hasVals : Bool) (cx cy : List Col)
    (sample before far after : List Row) (g : Spec.Good s sample (before ++ after)) (g' : Spec.Good s sample (before ++ far ++ after))
    (hfar : ∀ q ∈ far, q.val = none ∨ ∀ r ∈ sample, ¬ Spec.Within s r.loc q.loc) :
    collocate s k missing hasVals cx cy sample (before ++ far ++ after) =
      collocate s k missing hasVals cx cy sample (before ++ after) := by
  refine good_same s k hk missing hasVals cx cy sample _ _ g' g (fun r hr => ?_)
  have e : Spec.selected s r.loc (dropna far) = [] := by
    unfold Spec.selected
    rw [List.filter_eq_nil_iff]
    intro q hq
    unfold dropna at hq
    rw [List.mem_filterMap] at hq
    obtain ⟨q0, h0, e0⟩ := hq
    rw [Option.map_eq_some_iff] at e0
    obtain ⟨v, hv, rfl⟩ := e0
    rcases hfar q0 h0 with h | h
    · rw [hv] at h; simp at h
    · simpa using h r hr
  have : Spec.selected s r.loc (dropna (before ++ far ++ after)) = Spec.selected s r.loc (dropna (before ++ after)) := by
    unfold dropna at *
    rw [List.filterMap_append, List.filterMap_append, List.filterMap_append]
    unfold Spec.selected at *
    rw [List.filter_append, List.filter_append, List.filter_append, e, List.append_nil]
  rw [this]

/-- **C130**. Collocating onto some of the sample points gives the values of these points. -/
theorem c130_sample (s : Seps) (k : Kernel) (hk : k.dataOnly) (missing hasVals : Bool) (cx cy : List Col)
    (sample part data : List Row) (f : Nat → Nat) (hf : ∀ j r, part[j]? = some r → sample[f j]? = some r)
    (g : Spec.Good s sample data) (g' : Spec.Good s part data) :
    ∃ out out', collocate s k missing hasVals cx cy sample data = .ok out ∧ collocate s k missing hasVals cx cy part data = .ok out' ∧
      out' = out.map (fun v => (List.range part.length).map (fun j => (v[f j]?).join)) := by
  obtain ⟨out, ho, -⟩ := good_statement g k missing hasVals cx cy (cols_of_dataOnly hk cx cy)
  obtain ⟨out', ho', -⟩ := good_statement g' k missing hasVals cx cy (cols_of_dataOnly hk cx cy)
  refine ⟨out, out', ho, ho', ?_⟩
  obtain ⟨a1, a2, -⟩ := good_value g k hk missing hasVals cx cy ho
  obtain ⟨b1, b2, -⟩ := good_value g' k hk missing hasVals cx cy ho'
  refine columns_ext b1 (by rw [List.length_map, a1]) b2 (by
    intro v hv; obtain ⟨w, -, rfl⟩ := List.mem_map.1 hv; simp) (fun j hj => ?_)
  have hr : part[j]? = some part[j] := List.getElem?_eq_getElem hj
  rw [← c130_local s k hk missing hasVals cx cy cx cy sample data part data g g' out out' ho ho' (f j) j _ (hf j _ hr) hr
    (List.Perm.refl _)]
  unfold column
  rw [List.map_map]
  apply List.map_congr_left
  intro v _
  simp [List.getElem?_range, hj]

theorem selected_sublist {s s' : Seps} (hw : Spec.Wider s s') (ref : Loc) (d : List DRow) :
    (Spec.selected s ref d).Sublist (Spec.selected s' ref d) := by
  unfold Spec.selected
  refine List.monotone_filter_right d ?_
  intro r hr
  simp only [decide_eq_true_eq] at hr ⊢
  obtain ⟨h1, h2, h3, h4⟩ := hr
  refine ⟨?_, ?_, ?_, ?_⟩
  · intro x' e; obtain ⟨x, ex, hx⟩ := hw.h x' e; exact lt_of_lt_of_le (h1 x ex) hx
  · intro x' e; obtain ⟨x, ex, hx⟩ := hw.a x' e; exact lt_of_lt_of_le (h2 x ex) hx
  · intro x' e; obtain ⟨x, ex, hx⟩ := hw.p x' e; exact lt_of_lt_of_le (h3 x ex) hx
  · intro x' e; obtain ⟨x, ex, hx⟩ := hw.t x' e; exact lt_of_lt_of_le (h4 x ex) hx

theorem found {s : Seps} {sample data : List Row} (g : Spec.Good s sample data) (k : Kernel) (hk : k.dataOnly) (missing hasVals : Bool)
    (cx cy : List Col) {out : List (List (Option ℝ))} (ho : collocate s k missing hasVals cx cy sample data = .ok out)
    {i : Nat} {r : Row} (hr : sample[i]? = some r) (x : ℝ) (l : List (Option ℝ)) (hx : column out i = some x :: l) :
    ¬ (missing = true ∧ hasVals = true ∧ r.val = none) ∧ Spec.selected s r.loc (dropna data) ≠ [] ∧
      getValue k cx cy r.loc (Spec.selected s r.loc (dropna data)) = some (some x :: l) := by
  obtain ⟨-, -, h⟩ := good_value g k hk missing hasVals cx cy ho
  have h := h i r hr
  rw [hx] at h
  have hrep : ∀ n, some x :: l ≠ List.replicate n none := by
    intro n e; cases n <;> simp [List.replicate_succ] at e
  split at h
  · exact absurd h (hrep _)
  · next hm =>
    refine ⟨hm, ?_, ?_⟩
    · intro hd
      rw [(c15_empty k cx cy r.loc _).2 hd] at h
      exact hrep _ h
    · cases e : getValue k cx cy r.loc (Spec.selected s r.loc (dropna data)) with
      | none => rw [e] at h; exact absurd h (hrep _)
      | some v => rw [e] at h; rw [h]; rfl

theorem value_missing (k : Kernel) (hk : k.dataOnly) (cx cy : List Col) (ref : Loc) (d d' : List DRow) (hsub : d.Sublist d')
    (hd : d ≠ []) (h : (getValue k cx cy ref d').getD (List.replicate k.size none) = List.replicate k.size none) :
    (getValue k cx cy ref d).getD (List.replicate k.size none) = List.replicate k.size none := by
  have hd' : d' ≠ [] := by intro h'; rw [h'] at hsub; exact hd (List.sublist_nil.1 hsub)
  have hlen := hsub.length_le
  cases k <;> simp only [Kernel.dataOnly] at hk <;> simp [getValue, hd', Kernel.size] at h
  · have hle : d'.length ≤ 1 := by
      by_contra hgt
      unfold npStd at h
      rw [if_neg (by simpa using hgt)] at h
      simp at h
    have hd1 : npStd (d.map DRow.val) = none := by
      unfold npStd
      rw [if_pos (by rw [List.length_map]; omega)]
    simp [getValue, hd, Kernel.size, hd1]
  · obtain ⟨lo, -, -, -, e, -⟩ := c15_bounds cx cy ref d' hd'
    simp [getValue, hd'] at e
    rw [e] at h; simp at h
  · obtain ⟨-, hi', -, -, -, e, -⟩ := c15_bounds cx cy ref d' hd'
    simp [getValue, hd'] at e
    rw [e] at h; simp at h

/-- **C130**. With larger separations, or fewer of them, no value that was found is lost; the maximum does not decrease, the
minimum does not increase and the number of points does not decrease. -/
theorem c130_wider (s s' : Seps) (hw : Spec.Wider s s') (missing hasVals : Bool) (cx cy : List Col) (sample data : List Row)
    (g : Spec.Good s sample data) (g' : Spec.Good s' sample data) (i : Nat) (hi : i < sample.length) :
    (∀ k out out' : _, Kernel.dataOnly k → collocate s k missing hasVals cx cy sample data = .ok out →
      collocate s' k missing hasVals cx cy sample data = .ok out' →
      column out' i = List.replicate k.size none → column out i = List.replicate k.size none) ∧
    (∀ out out' x, collocate s .max missing hasVals cx cy sample data = .ok out → collocate s' .max missing hasVals cx cy sample data = .ok out' →
      column out i = [some x] → ∃ x', column out' i = [some x'] ∧ x ≤ x') ∧
    (∀ out out' x, collocate s .min missing hasVals cx cy sample data = .ok out → collocate s' .min missing hasVals cx cy sample data = .ok out' →
      column out i = [some x] → ∃ x', column out' i = [some x'] ∧ x' ≤ x) ∧
    (∀ out out' m sd n, collocate s .moments missing hasVals cx cy sample data = .ok out →
      collocate s' .moments missing hasVals cx cy sample data = .ok out' →
      column out i = [m, sd, some n] → ∃ m' sd' n', column out' i = [m', sd', some n'] ∧ n ≤ n') := by
  have hr : sample[i]? = some sample[i] := List.getElem?_eq_getElem hi
  generalize sample[i] = r at hr
  have hsub := selected_sublist hw r.loc (dropna data)
  set d := Spec.selected s r.loc (dropna data)
  set d' := Spec.selected s' r.loc (dropna data)
  have hne : d ≠ [] → d' ≠ [] := by
    intro h h'; rw [h'] at hsub; exact h (List.sublist_nil.1 hsub)
  refine ⟨?_, ?_, ?_, ?_⟩
  · intro k out out' hk ho ho' hmiss
    obtain ⟨-, -, h⟩ := good_value g k hk missing hasVals cx cy ho
    obtain ⟨-, -, h'⟩ := good_value g' k hk missing hasVals cx cy ho'
    have h := h i r hr
    have h' := h' i r hr
    rw [hmiss] at h'
    rw [h]
    split
    · rfl
    · next hm =>
      rw [if_neg hm] at h'
      by_cases hd : d = []
      · rw [(c15_empty k cx cy r.loc d).2 hd]; rfl
      · exact value_missing k hk cx cy r.loc d d' hsub hd h'.symm
  · intro out out' x ho ho' hx
    obtain ⟨hm, hd, e⟩ := found g .max trivial missing hasVals cx cy ho hr x [] hx
    have hd' := hne hd
    obtain ⟨_, x', _, _, -, e', -, -, -, -, hb', -⟩ := c15_bounds cx cy r.loc d' hd'
    obtain ⟨_, x1, _, _, -, e1, -, -, -, ⟨q, hq, eq⟩, -⟩ := c15_bounds cx cy r.loc d hd
    rw [e1] at e
    simp only [Option.some.injEq, List.cons.injEq, and_true] at e
    subst e
    obtain ⟨-, -, h'⟩ := good_value g' .max trivial missing hasVals cx cy ho'
    refine ⟨x', by rw [h' i r hr, if_neg hm, e']; rfl, ?_⟩
    rw [← eq]
    exact (hb' q (hsub.subset hq)).2
  · intro out out' x ho ho' hx
    obtain ⟨hm, hd, e⟩ := found g .min trivial missing hasVals cx cy ho hr x [] hx
    have hd' := hne hd
    obtain ⟨x', _, _, _, e', -, -, -, -, -, hb', -⟩ := c15_bounds cx cy r.loc d' hd'
    obtain ⟨x1, _, _, _, e1, -, -, -, ⟨q, hq, eq⟩, -⟩ := c15_bounds cx cy r.loc d hd
    rw [e1] at e
    simp only [Option.some.injEq, List.cons.injEq, and_true] at e
    subst e
    obtain ⟨-, -, h'⟩ := good_value g' .min trivial missing hasVals cx cy ho'
    refine ⟨x', by rw [h' i r hr, if_neg hm, e']; rfl, ?_⟩
    rw [← eq]
    exact (hb' q (hsub.subset hq)).1
  · intro out out' m sd n ho ho' hx
    obtain ⟨-, -, h⟩ := good_value g .moments trivial missing hasVals cx cy ho
    have h := h i r hr
    rw [hx] at h
    split at h
    · simp [Kernel.size, List.replicate] at h
    · next hm =>
      by_cases hd : d = []
      · rw [(c15_empty .moments cx cy r.loc d).2 hd] at h; simp [Kernel.size, List.replicate] at h
      · obtain ⟨m1, sd1, -, -, e⟩ := c15_moments cx cy r.loc d hd
        obtain ⟨m', sd', -, -, e'⟩ := c15_moments cx cy r.loc d' (hne hd)
        rw [e] at h
        simp only [Option.getD_some, List.cons.injEq, Option.some.injEq, and_true] at h
        obtain ⟨-, -, h⟩ := good_value g' .moments trivial missing hasVals cx cy ho'
        refine ⟨m', sd', d'.length, by rw [h i r hr, if_neg hm, e']; rfl, ?_⟩
        simp_all
        exact hsub.length_le

/-- The separation that a nearest neighbour kernel compares. -/
noncomputable def Spec.separation (k : Kernel) (ref p : Loc) : ℝ :=
  match k with
  | .nnHorizontal => Geo.Spec.greatCircle 6378 ref.lat ref.lon p.lat p.lon
  | .nnAltitude => |ref.alt - p.alt|
  | .nnPressure => max (p.pres / ref.pres) (ref.pres / p.pres)
  | .nnTime => |ref.time - p.time|
  | _ => 0

theorem firstNearest_unique {sep : Loc → ℝ} {d : List DRow} {r q : DRow} (h : Spec.FirstNearest sep d r) (hq : q ∈ d)
    (hu : ∀ q' ∈ d, q' ≠ q → sep q.loc < sep q'.loc) : r = q := by
  obtain ⟨b, a, e, h1, h2⟩ := h
  by_contra hne
  have hlt := hu r (by rw [e]; simp) hne
  rw [e] at hq
  rcases List.mem_append.1 hq with hq | hq
  · exact absurd (h1 q hq) (not_lt.2 hlt.le)
  · rcases List.mem_cons.1 hq with rfl | hq
    · exact hne rfl
    · exact absurd (h2 q hq) (not_le.2 hlt)

/-- **C130**. A nearest neighbour kernel gives the value of the datum that is nearest among those within the separations, if
there is just one such, whatever other sample points and data there are and in any order. -/
theorem c130_nearest (s : Seps) (k : Kernel) (hk : ¬ k.dataOnly) (missing hasVals : Bool) (cx cy : List Col) (hc : ColsOK k cx cy)
    (sample data : List Row) (g : Spec.Good s sample data) (hp : k = .nnPressure → ∀ r ∈ sample, 0 < r.loc.pres ∧ ∀ q ∈ dropna data, 0 < q.loc.pres)
    (out : List (List (Option ℝ))) (ho : collocate s k missing hasVals cx cy sample data = .ok out) (i : Nat) (r : Row)
    (hi : sample[i]? = some r) (hm : ¬ (missing = true ∧ hasVals = true ∧ r.val = none)) (q : DRow)
    (hq : q ∈ dropna data) (hw : Spec.Within s r.loc q.loc)
    (hu : ∀ q' ∈ dropna data, Spec.Within s r.loc q'.loc → q' ≠ q → Spec.separation k r.loc q.loc < Spec.separation k r.loc q'.loc) :
    column out i = [some q.val] := by
  obtain ⟨out', ho', -, -, h⟩ := good_statement g k missing hasVals cx cy hc
  have e1 : out' = out := by
    have : (Except.ok out' : Except Err _) = .ok out := by rw [← ho', ← ho]; rfl
    exact Except.ok.inj this
  subst e1
  have h := h i r hi
  rw [if_neg hm] at h
  obtain ⟨sel, hperm, e⟩ := h
  have hmem : ∀ x, x ∈ sel ↔ x ∈ dropna data ∧ Spec.Within s r.loc x.loc := by
    intro x; rw [hperm.mem_iff]; unfold Spec.selected; simp
  have hqs : q ∈ sel := (hmem q).2 ⟨hq, hw⟩
  have hus : ∀ q' ∈ sel, q' ≠ q → Spec.separation k r.loc q.loc < Spec.separation k r.loc q'.loc := fun q' h' =>
    hu q' ((hmem q').1 h').1 ((hmem q').1 h').2
  have hne : sel ≠ [] := by intro h'; rw [h'] at hqs; simp at hqs
  have key : ∃ r', Spec.FirstNearest (Spec.separation k r.loc) sel r' ∧ getValue k cx cy r.loc sel = some [some r'.val] := by
    obtain ⟨a1, a2, a3⟩ := c16_nearest cx cy r.loc sel hne
    cases k <;> simp only [Kernel.dataOnly, not_true] at hk
    · obtain ⟨⟨t, rfl⟩, ⟨t', rfl⟩⟩ := hc rfl
      exact c16_nearest_horizontal t t' r.loc sel hne
    · exact a1
    · have hp := hp rfl r (List.mem_of_getElem? hi)
      exact a3 ⟨hp.1, fun q' h' => hp.2 q' ((hmem q').1 h').1⟩
    · exact a2
  obtain ⟨r', h1, h2⟩ := key
  rw [firstNearest_unique h1 hqs hus] at h2
  rw [e, h2]; rfl

/-! ### Violations -/

def eq (lon : ℝ) : Loc := ⟨0, lon, 0, 1, 0⟩

/-- A separation of 45 degrees of arc. -/
noncomputable def sep45 : Seps := ⟨some (6378 * (π / 4)), none, none, none⟩

theorem win0 : Window [⟨eq 0, some 1⟩] 0 := by refine ⟨Or.inl rfl, ?_, ?_⟩ <;> simp [eq]

theorem rad330 : cos (radians 330) = √3 / 2 := by
  rw [show radians 330 = 2 * π - π / 6 by unfold radians; ring, cos_two_pi_sub, cos_pi_div_six]

theorem arc330 : arccos (√3 / 2) = π / 6 := by
  rw [← cos_pi_div_six, arccos_cos] <;> linarith [pi_pos]

/-- With the datum at 330 degrees only, it is found from the sample point at longitude 0. -/
theorem near_alone : collocate sep45 .max false true [.lat, .lon] [.lat, .lon] [⟨eq 0, some 1⟩] [⟨eq 330, some 7⟩] = .ok [[some 7]] := by
  have hpi := pi_pos
  unfold collocate collocateWith
  simp only
  rw [window_start win0, setLongitudeRange_id _ 0 win0.2.2, window_start win0, setLongitudeRange_id _ 0 (by
    intro r hr; simp at hr; subst hr; norm_num [eq])]
  have ed : dropna [⟨eq 330, some 7⟩] = [⟨eq 330, 7⟩] := rfl
  rw [ed]
  have et : treeOf [⟨eq 330, 7⟩] = _ := HavTree.mkTree_leaf _ (by simp) (by simp)
  rw [et]
  simp only
  have hs : treeSearch (KD.mk 1 (latLon [⟨eq 330, 7⟩]) 10
      (colMax 1 (latLon [⟨eq 330, 7⟩])) (colMin 1 (latLon [⟨eq 330, 7⟩])) (.leaf (List.range 1)))
      [⟨eq 0, some 1⟩] (6378 * (π / 4)) 0 = [0] := by
    unfold treeSearch HavTree.pointsWithinDistanceSample
    rw [HavTree.mkTree_leaf _ (by simp) (by simp)]
    simp only
    unfold HavTree.queryBallTree
    simp only
    rw [HavTree.checkTree_bulk]
    · simp [List.range_succ, noCheckTree, Results.extend]
    · unfold HavTree.minRect
      rw [HavTree.havPt_zero_eq]
      simp [Rect.mk', colMax, colMin, List.range_succ, HavTree.rad0, latLon, sampleLatLon, eq, rad330, arc330]
      nlinarith
    · unfold HavTree.maxRect
      rw [HavTree.havPt_zero_eq]
      simp [Rect.mk', colMax, colMin, List.range_succ, HavTree.rad0, latLon, sampleLatLon, eq, rad330, arc330]
      nlinarith
  have hz : (6378 * (π / 4) = 0) = False := by simp [pi_ne_zero]
  rw [show List.range 1 = [0] from rfl] at hs
  unfold kdIterator
  simp [sep45, horizontal, hz, hs, iloc, kdChecks, applyChecks, Kernel.size, fillValues, fillStep, getValue, npMax]

/-- With another datum at 60 degrees, beyond the separation, it is not found. -/
theorem near_lost : collocate sep45 .max false true [.lat, .lon] [.lat, .lon] [⟨eq 0, some 1⟩] [⟨eq 60, some 5⟩, ⟨eq 330, some 7⟩] =
    .ok [[none]] := by
  have hpi := pi_pos
  unfold collocate collocateWith
  simp only
  rw [window_start win0, setLongitudeRange_id _ 0 win0.2.2, window_start win0, setLongitudeRange_id _ 0 (by
    intro r hr; simp at hr; rcases hr with rfl | rfl <;> norm_num [eq])]
  have ed : dropna [⟨eq 60, some 5⟩, ⟨eq 330, some 7⟩] = [⟨eq 60, 5⟩, ⟨eq 330, 7⟩] := rfl
  rw [ed]
  have et : treeOf [⟨eq 60, 5⟩, ⟨eq 330, 7⟩] = _ := HavTree.mkTree_leaf _ (by simp) (by simp)
  rw [et]
  simp only
  have hs : ∀ i, treeSearch (KD.mk 2 (latLon [⟨eq 60, 5⟩, ⟨eq 330, 7⟩]) 10
      (colMax 2 (latLon [⟨eq 60, 5⟩, ⟨eq 330, 7⟩])) (colMin 2 (latLon [⟨eq 60, 5⟩, ⟨eq 330, 7⟩])) (.leaf (List.range 2)))
      [⟨eq 0, some 1⟩] (6378 * (π / 4)) i = [] := by
    intro i
    unfold treeSearch HavTree.pointsWithinDistanceSample
    rw [HavTree.mkTree_leaf _ (by simp) (by simp)]
    simp only
    unfold HavTree.queryBallTree
    simp only
    have e1 : max (60 : ℝ) 330 = 330 := by norm_num
    have e2 : min (60 : ℝ) 330 = 60 := by norm_num
    have e3 : min (330 : ℝ) 60 = 60 := by norm_num
    have e4 : max (330 : ℝ) 60 = 330 := by norm_num
    have e8 : max (-330 : ℝ) 60 = 60 := by norm_num
    rw [HavTree.checkTree_prune]
    unfold HavTree.minRect
    rw [HavTree.havPt_zero_eq]
    have ea : arccos (1 / 2 : ℝ) = π / 3 := by rw [← cos_pi_div_three, arccos_cos] <;> linarith
    have ea' : arccos ((2 : ℝ)⁻¹) = π / 3 := by rw [← ea]; norm_num
    simp [Rect.mk', colMax, colMin, List.range_succ, HavTree.rad60, HavTree.rad0, e1, e2, e3, e4, e8, latLon, sampleLatLon, eq, ea, ea']
    nlinarith
  have hz : (6378 * (π / 4) = 0) = False := by simp [pi_ne_zero]
  unfold kdIterator
  simp [sep45, horizontal, hz, hs, iloc, kdChecks, applyChecks, Kernel.size, fillValues, fillStep, getValue]

theorem hdist_eq_lon (a b : ℝ) (h : |b - a| ≤ 180) : hdist (eq a) (eq b) = |b - a| * (6378 * π / 180) := by
  rcases le_total 0 (b - a) with h0 | h0
  · rw [abs_of_nonneg h0] at h ⊢
    unfold eq
    rw [hdist_equator _ _ _ _ _ _ _ _ h0 h]; unfold radians; ring
  · rw [abs_of_nonpos h0] at h ⊢
    unfold eq
    rw [hdist_eq, HavTree.specDist_comm, ← hdist_eq, hdist_equator _ _ _ _ _ 0 1 0 (by linarith) (by linarith)]
    unfold radians; ring

theorem hdist_wrap (a b : ℝ) : hdist (eq a) (eq b) = hdist (eq a) (eq (b - 360)) := by
  have := hdist_withLon (f := id) (g := fun x => x - 360) (fun x => ⟨0, by simp⟩) (fun x => ⟨-1, by push_cast; ring⟩) (eq a) (eq b)
  exact this.symm

theorem win180 : Window [⟨eq 0, some 1⟩, ⟨eq (-1), some 1⟩] (-180) := by
  refine ⟨Or.inr rfl, ?_, ?_⟩
  · simp [eq]
  · intro r hr; simp at hr; rcases hr with rfl | rfl <;> norm_num [eq]

theorem same_lon {lon p w : ℝ} (h : Lon.Spec.Same lon p) (h1 : w ≤ lon) (h2 : lon < w + 360) (q : ℝ) (hq : Lon.Spec.Same q p) (h3 : w ≤ q)
    (h4 : q < w + 360) : lon = q := by
  obtain ⟨k, rfl⟩ := h
  obtain ⟨m, rfl⟩ := hq
  have a : (k : ℝ) - m < 1 := by linarith
  have b : (m : ℝ) - k < 1 := by linarith
  have a' : k - m < 1 := by exact_mod_cast a
  have b' : m - k < 1 := by exact_mod_cast b
  have : k = m := by omega
  rw [this]

/-- With another sample point, at longitude -1, all inputs are near each other. -/
theorem good_pair : Spec.Good sep45 [⟨eq 0, some 1⟩, ⟨eq (-1), some 1⟩] [⟨eq 60, some 5⟩, ⟨eq 330, some 7⟩] := by
  have hpi := pi_pos
  have ed : dropna [⟨eq 60, some 5⟩, ⟨eq 330, some 7⟩] = [⟨eq 60, 5⟩, ⟨eq 330, 7⟩] := rfl
  have d1 : hdist (eq 0) (eq 60) = 60 * (6378 * π / 180) := by rw [hdist_eq_lon _ _ (by norm_num [abs_le])]; norm_num
  have d2 : hdist (eq (-1)) (eq 60) = 61 * (6378 * π / 180) := by rw [hdist_eq_lon _ _ (by norm_num [abs_le])]; norm_num
  have d3 : hdist (eq 0) (eq 330) = 30 * (6378 * π / 180) := by
    rw [hdist_wrap, hdist_eq_lon _ _ (by norm_num [abs_le])]; norm_num
  have d4 : hdist (eq (-1)) (eq 330) = 29 * (6378 * π / 180) := by
    rw [hdist_wrap, hdist_eq_lon _ _ (by norm_num [abs_le])]; norm_num
  refine ⟨by rw [ed]; simp, ?_, by simp [sep45, pi_ne_zero], ?_, Or.inr ⟨-180, win180, ?_⟩⟩
  · intro r hr hs; exact absurd rfl hs
  · intro h eh r hr q hq
    rw [ed] at hq
    simp [sep45] at eh hr hq
    subst eh
    rcases hr with rfl | rfl <;> rcases hq with rfl | rfl <;> simp only [d1, d2, d3, d4] <;> intro e <;> nlinarith
  · intro h eh r hr q hq
    rw [ed] at hq
    simp at hr hq
    have n1 : ∀ lon : ℝ, Lon.Spec.Same lon (eq 60).lon → -180 ≤ lon → lon < -180 + 360 → lon = 60 := fun lon hl a b =>
      same_lon hl a b 60 ⟨0, by simp [eq]⟩ (by norm_num) (by norm_num)
    have n2 : ∀ lon : ℝ, Lon.Spec.Same lon (eq 330).lon → -180 ≤ lon → lon < -180 + 360 → lon = -30 := fun lon hl a b =>
      same_lon hl a b (-30) ⟨-1, by simp [eq]; norm_num⟩ (by norm_num) (by norm_num)
    rcases hr with rfl | rfl <;> rcases hq with rfl | rfl <;>
      refine near_line _ _ _ _ (by simp [eq]) (by simp [eq]) (by simp [eq]) (by simp [eq]) ?_ (Or.inl ⟨rfl, rfl⟩) <;>
      intro lon hl a b
    · rw [n1 lon hl a b]; norm_num [eq, abs_le]
    · rw [n2 lon hl a b]; norm_num [eq, abs_le]
    · rw [n1 lon hl a b]; norm_num [eq, abs_le]
    · rw [n2 lon hl a b]; norm_num [eq, abs_le]

theorem selected_pair : Spec.selected sep45 (eq 0) (dropna [⟨eq 60, some 5⟩, ⟨eq 330, some 7⟩]) = [⟨eq 330, 7⟩] := by
  have hpi := pi_pos
  have ed : dropna [⟨eq 60, some 5⟩, ⟨eq 330, some 7⟩] = [⟨eq 60, 5⟩, ⟨eq 330, 7⟩] := rfl
  have d1 : hdist (eq 0) (eq 60) = 60 * (6378 * π / 180) := by rw [hdist_eq_lon _ _ (by norm_num [abs_le])]; norm_num
  have d3 : hdist (eq 0) (eq 330) = 30 * (6378 * π / 180) := by
    rw [hdist_wrap, hdist_eq_lon _ _ (by norm_num [abs_le])]; norm_num
  have w1 : ¬ Spec.Within sep45 (eq 0) (eq 60) := by
    rw [within_iff]; intro h
    have := h.1 _ rfl
    rw [d1] at this; nlinarith
  have w2 : Spec.Within sep45 (eq 0) (eq 330) := by
    rw [within_iff]
    refine ⟨?_, ?_⟩
    · rintro h ⟨⟩; rw [d3]; nlinarith
    · simp [VWithin, sep45]
  unfold Spec.selected
  rw [ed]
  simp [w1, w2]

/-- C130 is violated when points are not near each other in the longitude range of the sample: the value at the sample point at
longitude 0 changes when another sample point, at longitude -1, is added. -/
theorem c130_sample_violated : ∃ (s : Seps) (data : List Row) (p q : Row) (v : ℝ),
    collocate s .max false true [.lat, .lon] [.lat, .lon] [p] data = .ok [[none]] ∧
    ∃ out, collocate s .max false true [.lat, .lon] [.lat, .lon] [p, q] data = .ok out ∧ column out 0 = [some v] := by
  refine ⟨sep45, [⟨eq 60, some 5⟩, ⟨eq 330, some 7⟩], ⟨eq 0, some 1⟩, ⟨eq (-1), some 1⟩, 7, near_lost, ?_⟩
  obtain ⟨out, ho, -⟩ := good_statement good_pair .max false true [.lat, .lon] [.lat, .lon] (by intro h; cases h)
  refine ⟨out, ho, ?_⟩
  obtain ⟨-, -, h⟩ := good_value good_pair .max trivial false true [.lat, .lon] [.lat, .lon] ho
  rw [h 0 ⟨eq 0, some 1⟩ rfl]
  simp only [selected_pair]
  simp [getValue, npMax]

/-- C130 is violated in the same way by the data: a datum beyond the separation makes the one within it disappear. -/
theorem c130_far_violated : ∃ (s : Seps) (p far near : Row) (v : ℝ), ¬ Spec.Within s p.loc far.loc ∧ Spec.Within s p.loc near.loc ∧
    collocate s .max false true [.lat, .lon] [.lat, .lon] [p] [near] = .ok [[some v]] ∧
    collocate s .max false true [.lat, .lon] [.lat, .lon] [p] [far, near] = .ok [[none]] := by
  refine ⟨sep45, ⟨eq 0, some 1⟩, ⟨eq 60, some 5⟩, ⟨eq 330, some 7⟩, 7, ?_, ?_, near_alone, near_lost⟩
  · intro h
    have : (⟨eq 60, 5⟩ : DRow) ∈ Spec.selected sep45 (eq 0) (dropna [⟨eq 60, some 5⟩, ⟨eq 330, some 7⟩]) := by
      unfold Spec.selected
      rw [List.mem_filter]
      exact ⟨by simp [dropna], by simpa using h⟩
    rw [selected_pair] at this
    simp at this
  · have : (⟨eq 330, 7⟩ : DRow) ∈ Spec.selected sep45 (eq 0) (dropna [⟨eq 60, some 5⟩, ⟨eq 330, some 7⟩]) := by rw [selected_pair]; simp
    unfold Spec.selected at this
    rw [List.mem_filter] at this
    simpa using this.2

/-- The hypotheses of the theorems are met by inputs with data within and beyond the separation (`good_pair`), and wider
separations of the same inputs exist. -/
example : Spec.Wider ⟨some 100, some 5, none, some 1⟩ ⟨some 200, none, none, some 1⟩ := by
  refine ⟨?_, ?_, ?_, ?_⟩ <;> intro x' e <;> simp at e <;> subst e
  · exact ⟨100, rfl, by norm_num⟩
  · exact ⟨1, rfl, le_refl _⟩

end Cis.Colloc
