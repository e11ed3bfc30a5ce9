import Verif.Agg.Props
import Verif.Subset.Props
set_option linter.unusedSectionVars false
set_option linter.unusedSimpArgs false
/-!
Property C156: a cell of the aggregate is the statistic of the subset by the limits of the cell. Aggregation is the model of `Agg/Model.lean`
(ungridded_aggregator.py:12-149, col_implementations.py:774-900, 1019-1047), subsetting that of `Subset/Model.lean` (subset.py:12-76, 177-225).
-/
namespace Cis.Agg
open Cis.DataIndex
open Cis.Subset (UData Limit)

/-! ### The data as both see them -/

/-- The coordinates of the data with the requested grids (ungridded_aggregator.py:31-66). A coordinate without a grid has one cell. -/
def colsOf : List (List ℚ) → List Req → List ℚ → List Col
  | c :: cs, r :: rs, x :: xs => ⟨r, x, fun p => c.getD p 0⟩ :: colsOf cs rs xs
  | _, _, _ => []

/-- The value of a point is missing. -/
def missing (d : UData (Option ℚ)) (p : Nat) : Bool := (d.values.getD p none).isNone

/-- The value of a point. -/
def valueOf (d : UData (Option ℚ)) (p : Nat) : ℚ := (d.values.getD p none).getD 0

/-! ### Specification -/

/-- The limits of a cell, for `subset`: coordinate number, lower and upper end. -/
def Spec.cellLimits : Nat → List Req → List Nat → List Limit
  | i, some (s, e, d) :: t, j :: js => ⟨i, s + (j : ℚ) * d, Spec.cellEnd s e d j⟩ :: Spec.cellLimits (i + 1) t js
  | i, none :: t, _ :: js => Spec.cellLimits (i + 1) t js
  | _, _, _ => []

/-- A cell of the grid. -/
def Spec.IsCell (reqs : List Req) (cell : List Nat) : Prop :=
  List.Forall₂ (fun (r : Req) (j : Nat) => match r with
    | none => j = 0
    | some (s, e, d) => s + (j : ℚ) * d < e) reqs cell

/-- The values that are not missing in the result of `subset`, which may be nothing. -/
def Spec.present : Option (UData (Option ℚ)) → List ℚ
  | none => []
  | some r => r.values.filterMap id

/-! ### Proofs -/

theorem list_as_map {α : Type} (L : List α) (dflt : α) : L = (List.range L.length).map (fun p => L.getD p dflt) := by
  apply List.ext_getElem (by simp)
  intro i h1 h2
  simp [List.getD_eq_getElem?_getD, List.getElem?_eq_getElem h1]

theorem filter_present (v : Nat → Option ℚ) (a : Nat → Bool) (L : List Nat) :
    (L.filter a).filterMap v = (L.filter (fun p => !(v p).isNone && a p)).map (fun p => (v p).getD 0) := by
  induction L with
  | nil => rfl
  | cons p t ih =>
    cases hv : v p <;> cases ha : a p <;> simp [List.filter_cons, hv, ha, ih]

theorem cellLimits_all (row : List ℚ × Option ℚ) (p : Nat) : ∀ (i : Nat) (cs : List (List ℚ)) (reqs : List Req) (xs : List ℚ) (cell : List Nat),
    (∀ k c, cs[k]? = some c → row.1[i + k]? = some (c.getD p 0)) → reqs.length = cs.length → xs.length = cs.length → Spec.IsCell reqs cell →
    (∀ l ∈ Spec.cellLimits i reqs cell, ∀ x, row.1[l.coord]? = some x → x ≠ l.stop) →
    (Spec.cellLimits i reqs cell).all (fun l => Cis.Subset.Inside l row) = Spec.inCell (colsOf cs reqs xs) cell p := by
  intro i cs
  induction cs generalizing i with
  | nil =>
    intro reqs xs cell _ h1 _ h3 _
    have : reqs = [] := by simpa using h1
    subst this
    cases h3
    simp [Spec.cellLimits, colsOf, Spec.inCell]
  | cons c cs ih =>
    intro reqs xs cell hrow h1 h2 h3 h4
    cases reqs with
    | nil => simp at h1
    | cons r rs =>
      cases xs with
      | nil => simp at h2
      | cons x xs =>
        cases h3 with
        | @cons _ j _ js h3a h3b =>
          have h0 := hrow 0 c (by simp)
          have hrec : ∀ k c', cs[k]? = some c' → row.1[i + 1 + k]? = some (c'.getD p 0) := by
            intro k c' hk
            have := hrow (k + 1) c' (by simpa using hk)
            rw [← this]; congr 1; omega
          cases r with
          | none =>
            rw [Spec.cellLimits] at h4 ⊢
            have := ih (i + 1) rs xs js hrec (by simpa using h1) (by simpa using h2) h3b h4
            rw [this]
            simp only at h3a
            simp [colsOf, Spec.inCell, Spec.inInterval, h3a]
          | some g =>
            obtain ⟨s, e, d⟩ := g
            rw [Spec.cellLimits] at h4 ⊢
            have := ih (i + 1) rs xs js hrec (by simpa using h1) (by simpa using h2) h3b (fun l hl => h4 l (by simp [hl]))
            rw [List.all_cons, this]
            simp only [colsOf, Spec.inCell]
            congr 1
            have hne := h4 ⟨i, s + (j : ℚ) * d, Spec.cellEnd s e d j⟩ (by simp) (c.getD p 0) (by simpa using h0)
            simp only [Cis.Subset.Inside]
            rw [show row.1[i]? = some (c.getD p 0) by simpa using h0]
            simp only at h3a hne ⊢
            simp only [Spec.inInterval, h3a, decide_true, Bool.true_and]
            congr 1
            rw [decide_eq_decide]
            exact ⟨fun h => lt_of_le_of_ne h hne, le_of_lt⟩

theorem cellLimits_coord : ∀ (reqs : List Req) (i : Nat) (cell : List Nat), (∀ l ∈ Spec.cellLimits i reqs cell, i ≤ l.coord ∧ l.coord < i + reqs.length) ∧
    ((Spec.cellLimits i reqs cell).map Limit.coord).Nodup
  | [], i, cell => by simp [Spec.cellLimits]
  | r :: rs, i, [] => by cases r <;> simp [Spec.cellLimits]
  | none :: rs, i, j :: js => by
    obtain ⟨h1, h2⟩ := cellLimits_coord rs (i + 1) js
    rw [Spec.cellLimits]
    refine ⟨fun l hl => ?_, h2⟩
    have := h1 l hl
    simp only [List.length_cons]; omega
  | some (s, e, d) :: rs, i, j :: js => by
    obtain ⟨h1, h2⟩ := cellLimits_coord rs (i + 1) js
    rw [Spec.cellLimits]
    constructor
    · intro l hl
      rcases List.mem_cons.1 hl with rfl | hl
      · simp
      · have := h1 l hl
        simp only [List.length_cons]; omega
    · rw [List.map_cons, List.nodup_cons]
      refine ⟨fun hm => ?_, h2⟩
      obtain ⟨l, hl, he⟩ := List.mem_map.1 hm
      have := h1 l hl
      simp only at he
      omega

theorem colsOf_reqs : ∀ (cs : List (List ℚ)) (reqs : List Req) (xs : List ℚ), ∀ c ∈ colsOf cs reqs xs, c.req ∈ reqs
  | c :: cs, r :: rs, x :: xs => by
    intro a ha
    rw [colsOf] at ha
    rcases List.mem_cons.1 ha with rfl | ha
    · simp
    · exact List.mem_cons_of_mem _ (colsOf_reqs cs rs xs a ha)
  | [], _, _ => by simp [colsOf]
  | _ :: _, [], _ => by simp [colsOf]
  | _ :: _, _ :: _, [] => by simp [colsOf]

/-- **C156**. The value of a cell of the aggregate is the kernel's value for the values that are not missing of the subset by the limits of the cell, if no
point lies on an upper end of the cell (subsets contain it, cells do not) and the longitudes need no conversion for these limits. -/
theorem c156_cell {β : Type} (k : List ℚ → Option β) (hk : Spec.Kernel k) (d : UData (Option ℚ)) (hwf : d.WF) (hv : d.values ≠ []) (hc : d.coords ≠ [])
    (reqs : List Req) (hr : reqs.length = d.coords.length) (hok : ∀ r ∈ reqs, Spec.Req.Ok r) (centres : List ℚ) (hx : centres.length = d.coords.length)
    (order : List Nat) (ho : DataIndex.Spec.Sorts d.values.length (cellNumber (dims (colsOf d.coords reqs centres)) (missing d)) order) (lon lat : Nat) :
    ∃ out, aggregate k (colsOf d.coords reqs centres) (missing d) (valueOf d) order = some out ∧
      ∀ cell, Spec.IsCell reqs cell → (∀ l ∈ Spec.cellLimits 0 reqs cell, l.stop ∉ d.coords.getD l.coord []) →
        (∀ l ∈ Spec.cellLimits 0 reqs cell, l.coord = lon → Cis.Subset.newRange (d.coords.getD lon []) l.start l.stop = none) →
        out cell = k (Spec.present (Cis.Subset.subset lon lat (Cis.Subset.kws (Spec.cellLimits 0 reqs cell)) d)) := by
  have hne : colsOf d.coords reqs centres ≠ [] := by
    cases hd : d.coords with
    | nil => exact absurd hd hc
    | cons a t =>
      cases reqs with
      | nil => rw [hd] at hr; simp at hr
      | cons r rs =>
        cases centres with
        | nil => rw [hd] at hx; simp at hx
        | cons x xs => simp [colsOf]
  obtain ⟨out, h1, h2⟩ := aggregate_cells k hk (colsOf d.coords reqs centres) hne
    (fun c hcm => hok _ (colsOf_reqs _ _ _ c hcm)) (missing d) (valueOf d) d.values.length (List.length_pos_of_ne_nil hv) order ho
  refine ⟨out, h1, fun cell hcell hedge hconv => ?_⟩
  rw [h2]
  congr 1
  have hcoord := cellLimits_coord reqs 0 cell
  obtain ⟨hs1, hs2⟩ := Cis.Subset.subset_exact lon lat d hwf (Spec.cellLimits 0 reqs cell) hcoord.2
    (fun l hl => by have := hcoord.1 l hl; omega) hconv
  have hlen : d.rows.length = d.values.length := Cis.Subset.rowsOf_length _ _
  have hrow : ∀ p < d.values.length, ∀ (j : Nat) c, d.coords[j]? = some c → (d.rows.getD p ([], none)).1[j]? = some (c.getD p 0) := by
    intro p hp j c hj
    have e := congrArg (fun l => l[p]?) (Cis.Subset.rows_column d.values d.coords hwf j c hj)
    have hcl : p < c.length := by rw [hwf c (List.mem_of_getElem? hj)]; exact hp
    have hp2 : p < (Cis.Subset.rowsOf d.coords d.values).length := by rw [Cis.Subset.rowsOf_length]; exact hp
    simp only [List.getElem?_map, List.getElem?_eq_getElem hp2, List.getElem?_eq_getElem hcl, Option.map_some, Option.some.injEq] at e
    simp only [UData.rows, List.getD_eq_getElem?_getD, List.getElem?_eq_getElem hp2, List.getElem?_eq_getElem hcl, Option.getD_some]
    exact e
  have hval : ∀ p, (d.rows.getD p ([], none)).2 = d.values.getD p none := by
    intro p
    have e := congrArg (fun l => l[p]?) (Cis.Subset.rows_value d.values d.coords)
    simp only [List.getElem?_map] at e
    simp only [UData.rows, List.getD_eq_getElem?_getD, ← e]
    cases (Cis.Subset.rowsOf d.coords d.values)[p]? <;> rfl
  have hin : ∀ p < d.values.length, (Spec.cellLimits 0 reqs cell).all (fun l => Cis.Subset.Inside l (d.rows.getD p ([], none))) =
      Spec.inCell (colsOf d.coords reqs centres) cell p := by
    intro p hp
    refine cellLimits_all _ p 0 d.coords reqs centres cell (fun j c hj => by rw [Nat.zero_add]; exact hrow p hp j c hj) hr hx hcell ?_
    intro l hl x hx' he
    have hlc : l.coord < d.coords.length := by have := hcoord.1 l hl; omega
    have hj : d.coords[l.coord]? = some d.coords[l.coord] := List.getElem?_eq_getElem hlc
    have h3 := hrow p hp l.coord _ hj
    rw [hx', Option.some.injEq] at h3
    apply hedge l hl
    rw [List.getD_eq_getElem?_getD, hj, Option.getD_some, ← he, h3]
    have hcl : p < d.coords[l.coord].length := by rw [hwf _ (List.getElem_mem hlc)]; exact hp
    rw [List.getD_eq_getElem?_getD, List.getElem?_eq_getElem hcl, Option.getD_some]
    exact List.getElem_mem hcl
  -- the values of the subset
  have hall : Spec.present (Cis.Subset.subset lon lat (Cis.Subset.kws (Spec.cellLimits 0 reqs cell)) d) =
      ((d.rows.filter (fun p => (Spec.cellLimits 0 reqs cell).all (fun l => Cis.Subset.Inside l p))).map Prod.snd).filterMap id := by
    cases hsub : Cis.Subset.subset lon lat (Cis.Subset.kws (Spec.cellLimits 0 reqs cell)) d with
    | none =>
      have h3 := hs2.1 hsub
      have : d.rows.filter (fun p => (Spec.cellLimits 0 reqs cell).all (fun l => Cis.Subset.Inside l p)) = [] := by
        rw [List.filter_eq_nil_iff]; exact h3
      rw [this]; rfl
    | some r =>
      obtain ⟨-, h3⟩ := hs1 r hsub
      rw [← h3]
      simp only [Spec.present, UData.rows, Cis.Subset.rows_value]
  rw [hall]
  conv_rhs => rw [list_as_map d.rows ([], none), hlen, List.filter_map, List.map_map, List.filterMap_map]
  have e1 : (List.range d.values.length).filter ((fun p => (Spec.cellLimits 0 reqs cell).all (fun l => Cis.Subset.Inside l p)) ∘ fun p => d.rows.getD p ([], none)) =
      (List.range d.values.length).filter (fun p => Spec.inCell (colsOf d.coords reqs centres) cell p) := by
    apply List.filter_congr
    intro p hp
    exact hin p (List.mem_range.1 hp)
  rw [e1]
  have e2 : (id ∘ (Prod.snd ∘ fun p => d.rows.getD p ([], none))) = (fun p => d.values.getD p none) := by
    funext p; exact hval p
  rw [e2, filter_present]
  rfl

/-! ### The hypotheses are met, and the condition on upper ends is needed -/

/-- Five points with a longitude and a latitude, one value missing; cells of 10 degrees of latitude. -/
def exPoints : UData (Option ℚ) := ⟨[[1, 2, 3, 4, 5], [5, 12, 8, 33, 10]], [some 1, some 2, none, some 4, some 5]⟩

private def total (l : List ℚ) : Option ℚ := if l = [] then none else some l.sum

example : exPoints.WF ∧ (∀ r ∈ ([none, some (0, 40, 10)] : List Req), Spec.Req.Ok r) ∧
    DataIndex.Spec.Sorts 5 (cellNumber (dims (colsOf exPoints.coords [none, some (0, 40, 10)] [3, 0])) (missing exPoints)) [2, 0, 1, 4, 3] ∧
    Spec.IsCell [none, some (0, 40, 10)] [0, 1] ∧ Spec.cellLimits 0 [none, some (0, 40, 10)] [0, 1] = [⟨1, 10, 20⟩] ∧
    (20 : ℚ) ∉ exPoints.coords.getD 1 [] ∧ Spec.present (Cis.Subset.subset 0 1 (Cis.Subset.kws [⟨1, 10, 20⟩]) exPoints) = [2, 5] := by
  refine ⟨by unfold UData.WF; decide +kernel, ?_, ⟨by decide, by decide +kernel⟩, ?_, by decide +kernel, by decide +kernel, by decide +kernel⟩
  · intro r hr
    simp only [List.mem_cons, List.not_mem_nil, or_false] at hr
    rcases hr with rfl | rfl
    · trivial
    · exact ⟨by norm_num, by norm_num⟩
  · exact .cons rfl (.cons (by norm_num) .nil)

/-- A point on the upper end of a cell is in the subset by the limits of the cell but not in the cell: the first cell has the sum 1, the subset 6. -/
theorem c156_upper_end_differs :
    ((aggregate total (colsOf exPoints.coords [none, some (0, 40, 10)] [3, 0]) (missing exPoints) (valueOf exPoints) [2, 0, 1, 4, 3]).map (fun out => out [0, 0])) =
      some (some 1) ∧
    total (Spec.present (Cis.Subset.subset 0 1 (Cis.Subset.kws (Spec.cellLimits 0 [none, some (0, 40, 10)] [0, 0])) exPoints)) = some 6 := by
  decide +kernel

end Cis.Agg
