import Verif.Interp.Violations
set_option linter.unusedSectionVars false
set_option linter.unusedSimpArgs false
/-! Property C60: a hybrid vertical coordinate is evaluated at the horizontal position of the sample point. -/
namespace Cis.Interp
variable {K : Type} [Field K] [LinearOrder K] [IsStrictOrderedRing K]

theorem weight_append (es is : List Int) (ys zs : List (Val K)) (h : es.length = is.length) (h' : is.length = ys.length) :
    ∀ w : Val K, weight es is (ys ++ zs) w = weight es is ys w := by
  induction es generalizing is ys with
  | nil => cases is <;> simp at h; cases ys <;> simp [weight]
  | cons e es ih =>
    cases is with
    | nil => simp at h
    | cons i is =>
      cases ys with
      | nil => simp at h'
      | cons y ys =>
        intro w
        simp only [List.cons_append, weight]
        exact ih is ys (by simpa using h) (by simpa using h') _

theorem edges_length : ∀ (is : List Int), ∀ e ∈ edges is, e.length = is.length
  | [], e, he => by simp [edges] at he; simp [he]
  | i :: t, e, he => by
    simp only [edges, List.mem_flatMap, List.mem_map] at he
    obtain ⟨_, _, e', he', rfl⟩ := he
    simp [edges_length t e' he']

theorem evaluateLinear_append (shape : List Nat) (v : List Nat → Val K) (is : List Int) (ys zs : List (Val K))
    (h : is.length = ys.length) : evaluateLinear shape v is (ys ++ zs) = evaluateLinear shape v is ys := by
  unfold evaluateLinear
  apply List.foldl_ext
  intro a e he
  rw [weight_append e is ys zs (edges_length is e he) h]

theorem columnNums_map (l : List K) : columnNums (l.map Val.num) = some l := by
  induction l with
  | nil => rfl
  | cons a t ih => simp [columnNums, ih]

theorem filterMap_range {A : Type} (a b : List A) : (List.range a.length).filterMap (fun d => (a ++ b)[d]?) = a := by
  induction a with
  | nil => simp
  | cons x t ih =>
    rw [List.length_cons, List.range_succ_eq_map, List.filterMap_cons]
    simp only [List.cons_append, List.getElem?_cons_zero, List.filterMap_map]
    congr 1

/-- C60: if the hybrid coordinate depends on the leading dimensions and is, at each level, affine in their coordinates, then
linear interpolation works as on a rectilinear grid whose vertical axis is the hybrid coordinate evaluated at the horizontal
position of the sample. Missing: a hybrid coordinate that does not depend on the first dimension
(`c60_skipped_dimension_violated`), circular axes. -/
theorem c60_column (axes rest : List (Axis K)) (hasc : ∀ a ∈ axes, Spec.Ascending a)
    (h2 : ∀ a ∈ axes, 2 ≤ a.points.length) (hnc : ∀ a ∈ axes, a.circular = none) (xs ys : List K)
    (hx : xs.length = axes.length) (hy : ys.length = rest.length) (levels : Nat) (α : Nat → K) (β : Nat → List K) (hβ : ∀ l, (β l).length = axes.length)
    (hybrid : List Nat → Val K)
    (hh : ∀ l < levels, ∀ idx, List.Forall₂ (fun (a : Axis K) k => k < a.points.length) axes idx → hybrid (idx ++ [l]) = .num (α l +
      (List.zipWith (fun (ab : Axis K × K) k => ab.2 * ab.1.points[k]?.getD 0) (axes.zip (β l)) idx).sum))
    (z : K) (shape : List Nat) (values : List Nat → Val K) (ext : Bool) :
    hybridGrid .lin ((axes ++ rest).map (·.points)) (xs ++ ys) z shape values (axes.map (·.points.length)) hybrid
        (List.range axes.length) levels ext =
      regularGrid .lin ((axes ++ rest).map (·.points) ++
        [(List.range levels).map (fun l => α l + (List.zipWith (fun b x => b * x) (β l) xs).sum)])
        ((xs ++ ys) ++ [z]) shape values ext := by
  have hcol : vColumn .lin (axes.map (·.points.length)) hybrid (List.range axes.length) levels
      (List.zipWith findIndex ((axes ++ rest).map (·.points)) (xs ++ ys))
      (List.zipWith normDistance ((axes ++ rest).map (·.points)) (xs ++ ys))
      = ((List.range levels).map (fun l => α l + (List.zipWith (fun b x => b * x) (β l) xs).sum)).map Val.num := by
    unfold vColumn
    simp only
    rw [List.map_map]
    apply List.map_congr_left
    intro l hl
    rw [List.mem_range] at hl
    simp only [Function.comp]
    have hmap : (axes.map (·.points)).length = xs.length := by simp [hx]
    rw [List.map_append, List.zipWith_append hmap, List.zipWith_append hmap]
    have hlen : (List.zipWith findIndex (axes.map (·.points)) xs).length = axes.length := by simp [hx]
    have := filterMap_range (List.zipWith findIndex (axes.map (·.points)) xs) (List.zipWith findIndex (rest.map (·.points)) ys)
    rw [hlen] at this
    rw [this, evaluateLinear_append _ _ _ _ _ (by simp)]
    have hgrid : ∀ a ∈ axes, a.grid = a.points := by
      intro a ha
      rw [grid_ascending (hasc a ha), nodes_noncircular (hnc a ha), List.zipIdx_map_fst]
    have hH : Handled none axes := by
      intro d a ha
      have ham := List.mem_of_getElem? ha
      exact ⟨by have := h2 a ham; intro e; simp [e] at this, Or.inl (hasc a ham)⟩
    have hdec : decreasingDims (none : Option Nat) axes = [] := by
      unfold decreasingDims
      rw [List.map_eq_nil_iff, List.filter_eq_nil_iff]
      intro a ha
      rw [decreasing_of_ascending (hasc a ha)]; simp
    have hshape : extendShape axes = axes.map (·.points.length) := by
      unfold extendShape
      apply List.map_congr_left
      intro a ha; rw [hnc a ha]; simp
    have hasc' : axes.all (fun a => ascending a.grid) = true := by
      rw [List.all_eq_true]
      intro a ha
      unfold ascending
      rw [decide_eq_true_iff, grid_ascending (hasc a ha)]
      exact hasc a ha
    have haff := c18_affine none axes hH h2 hnc (α l) (β l) xs (hβ l) hx true (Or.inl rfl)
      (fun idx => hybrid (idx ++ [l])) (fun idx hi => hh l hl idx hi)
    unfold interpolate at haff
    rw [if_neg (by simpa using hx), hasc', hdec, hshape] at haff
    simp only [Bool.not_true, Bool.false_eq_true, if_false, accountForInverted, List.all_nil, if_true] at haff
    unfold regularGrid at haff
    simp only [Bool.not_true, Bool.false_and, Bool.false_eq_true, if_false, Except.ok.injEq] at haff
    have hg : axes.map Axis.grid = axes.map (·.points) := List.map_congr_left hgrid
    rw [hg] at haff
    rw [← haff]
    unfold evaluateLinear
    apply List.foldl_ext
    intro a e he
    congr 2
    unfold indexArray extendData
    have : ∀ (axes : List (Axis K)), (∀ a ∈ axes, a.circular = none) → ∀ e : List Int,
        List.zipWith extendIndex axes (List.zipWith (fun (nd : Nat × Nat) k => if some nd.2 ∈ ([] : List (Option Nat)) then nd.1 - 1 - k else k)
          (axes.map (·.points.length)).zipIdx (List.zipWith pyIdx (axes.map (·.points.length)) e))
        = List.zipWith pyIdx (axes.map (·.points.length)) e := by
      intro axes hnc e
      apply List.ext_getElem
      · simp
      · intro i h1 h2
        simp at h1
        simp [extendIndex, hnc axes[i] (List.getElem_mem _)]
    show hybrid (_ ++ [l]) = hybrid (_ ++ [l])
    rw [this axes hnc e]
  unfold hybridGrid
  simp only
  rw [hcol, columnNums_map]
  simp only
  unfold regularGrid
  have hz : ∀ {C : Type} (f : List K → K → C) (col : List K), List.zipWith f ((axes ++ rest).map (·.points) ++ [col])
      ((xs ++ ys) ++ [z]) = List.zipWith f ((axes ++ rest).map (·.points)) (xs ++ ys) ++ [f col z] := by
    intro C f col
    rw [List.zipWith_append (by simp [hx, hy])]
    rfl
  simp only [hz, List.any_append, List.any_cons, List.any_nil, Bool.or_false, id_eq]

/-- C60 is violated for a hybrid coordinate that does not depend on the first dimension (for instance hybrid height in a cube
with time): dimensions time, latitude, level; the height of level l at latitude y is y + l. At time 0, latitude 1 and height 1
the value is that of level 0 on the true column, but another is given. -/
theorem c60_skipped_dimension_violated : ∃ (time lat : List ℚ) (hybrid values : List Nat → Val ℚ) (v : ℚ),
    (∀ j l, j < lat.length → hybrid [j, l] = .num ((lat[j]?.getD 0) + l)) ∧ (∀ t j l, values [t, j, l] = .num (l : ℚ)) ∧ v ≠ 0 ∧
    0 ∈ time ∧ 1 ∈ lat ∧ hybridGrid .lin [time, lat] [0, 1] 1 [2, 2, 2] values [2] hybrid [1] 2 true = .num v := by
  refine ⟨[0, 1], [0, 1], fun idx => match idx with | [j, l] => .num ((([0, 1] : List ℚ)[j]?.getD 0) + l) | _ => .nan,
    fun idx => match idx with | [_, _, l] => .num l | _ => .nan, 1, ?_, ?_, ?_, ?_, ?_, ?_⟩
  · intro j l _; rfl
  · intro t j l; rfl
  · norm_num
  · simp
  · simp
  · decide +kernel

/-- Hybrid pressure over latitude (leading) and level, then a further horizontal dimension. -/
example (values : List Nat → Val ℚ) : hybridGrid .lin [[0, 1, 2], [0, 10]] [1, 5] (7 / 2) [3, 2, 3] values [3]
    (fun idx => match idx with | [j, l] => .num (2 * l + ((([0, 1, 2] : List ℚ)[j]?.getD 0) + 0)) | _ => .nan) [0] 3 false
    = regularGrid .lin [[0, 1, 2], [0, 10], [1, 3, 5]] [1, 5, 7 / 2] [3, 2, 3] values false := by
  have := c60_column [(⟨[0, 1, 2], none⟩ : Axis ℚ)] [⟨[0, 10], none⟩] (by simp [Spec.Ascending, Spec.nodes]) (by simp) (by simp)
    [1] [5] rfl rfl 3 (fun l => 2 * l) (fun _ => [1]) (by simp)
    (fun idx => match idx with | [j, l] => .num (2 * l + ((([0, 1, 2] : List ℚ)[j]?.getD 0) + 0)) | _ => .nan) (by
      intro l hl idx hi
      cases hi with
      | cons h1 h2 => cases h2; simp) (7 / 2) [3, 2, 3] values false
  have e : (List.range 3).map (fun l : Nat => 2 * (l : ℚ) + (List.zipWith (fun b x => b * x) [1] [1]).sum) = [1, 3, 5] := by
    decide +kernel
  rw [e] at this
  exact this
end Cis.Interp
