import Verif.Main.SubsetGridded
import Verif.Collapse.Command
set_option linter.unusedSectionVars false
set_option linter.unusedSimpArgs false

/-!
# `cis subset` of gridded data and `cis collapse` of the result, one after the other

Nothing new is modelled: the subset of Main/SubsetGridded.lean and the collapse of Collapse/Command.lean.
-/
namespace Cis.SubsetCollapse
open Cis.Str
open Cis.SubsetGrid (Crd)
open Cis.SubsetGrid.Spec (Asked AxisSel Inside SubGrid)
open Cis.Collapse (Out Meta)

abbrev GVar := SubsetGrid.Var ℚ

/-- A variable as the collapse sees it. -/
def colVar (area : GVar → List Nat → ℚ) (md : Meta) (v : GVar) : CollapseCmd.Var :=
  ⟨md, v.crds.map (fun c => c.points.length), v.value, area v, v.crds.map Crd.toCrd⟩

/-! ### Specification -/

/-- `f` gives for each dimension the old index of each new one: of exactly the points in the ranges asked for (C188). -/
def Spec.Cut (asked : List Asked) (v r : GVar) (f : Nat → List Nat) : Prop :=
  r.crds.length = v.crds.length ∧ ∀ (k : Nat) (a b : Crd), v.crds[k]? = some a → r.crds[k]? = some b →
    (∀ x ∈ asked, x.coord.name = a.name → AxisSel a b x.range (f k)) ∧
    ((∀ x ∈ asked, x.coord.name ≠ a.name) → b = a ∧ f k = List.range a.points.length)

/-- The old indices of a cell. -/
def Spec.old (f : Nat → List Nat) (idx : List Nat) : List Nat := idx.mapIdx (fun k i => (f k).getD i 0)

/-- The indices of a cell of the variable. -/
def Spec.CellOf (v : GVar) (idx : List Nat) : Prop :=
  idx.length = v.crds.length ∧ ∀ (k i : Nat) (a : Crd), idx[k]? = some i → v.crds[k]? = some a → i < a.points.length

/-- The cell is in all the ranges. -/
def Spec.Within (asked : List Asked) (v : GVar) (idx : List Nat) : Prop :=
  ∀ (k i : Nat) (a : Crd), idx[k]? = some i → v.crds[k]? = some a → ∀ x ∈ asked, x.coord.name = a.name →
    ∃ p, a.points[i]? = some p ∧ Inside a x.range p

/-- Exactly the cells of all the data that are in all the ranges, have a value, and are in the same place as cell `j` in every dimension that is not
collapsed. -/
def Spec.Group (asked : List Asked) (v : GVar) (cols : List CollapseCmd.Crd) (j : List Nat) (l : List (List Nat)) : Prop :=
  l.Nodup ∧ ∀ i, i ∈ l ↔ Spec.CellOf v i ∧ Spec.Within asked v i ∧ (v.value i).isSome = true ∧
    ∀ k, k < v.crds.length → (∀ c ∈ cols, k ∉ c.dims) → i[k]? = j[k]?

/-- The dimensions, of `n`, that are not collapsed. -/
def Spec.kept (n : Nat) (cols : List CollapseCmd.Crd) : List Nat := (List.range n).filter (fun k => decide (∀ c ∈ cols, k ∉ c.dims))

/-- One of the coordinates is the latitude. -/
def Spec.Lat (cols : List CollapseCmd.Crd) : Prop := ∃ c ∈ cols, c.standard = some "latitude"

/-- The weight of a cell: its area if latitude is collapsed, else 1. -/
noncomputable def Spec.weight (cols : List CollapseCmd.Crd) (area : List Nat → ℚ) (idx : List Nat) : ℚ :=
  open Classical in if Spec.Lat cols then area idx else 1

/-- What is left of a variable called `name`: for each statistic a variable named after it, on the dimensions that are not collapsed, as long as the
part; each value is the statistic of all cells, of all the data, that are in the ranges, have a value, and agree in the dimensions that are not
collapsed. -/
def Spec.Left (asked : List Asked) (cols : List CollapseCmd.Crd) (sts : List (String × (List (ℚ × ℚ) → Option ℚ))) (name : String)
    (area : List Nat → ℚ) (v r : GVar) (outs : List Out) : Prop :=
  ∃ f, Spec.Cut asked v r f ∧ List.Forall₂ (fun st o => o.md.varName = name ++ st.1 ∧
    o.shape = (Spec.kept v.crds.length cols).map (fun k => (f k).length) ∧
    ∀ j, Spec.CellOf r j → Spec.CellOf v (Spec.old f j) ∧ Spec.Within asked v (Spec.old f j) ∧
      ∃ l, Spec.Group asked v cols (Spec.old f j) l ∧
        o.value ((Spec.kept v.crds.length cols).map (fun k => j.getD k 0)) = st.2 (l.map (fun i => (Spec.weight cols area i, (v.value i).getD 0)))) sts outs

/-! ### Cells -/

theorem mem_indices (area : GVar → List Nat → ℚ) (md : Meta) (v : GVar) (idx : List Nat) :
    idx ∈ CollapseCmd.Spec.indices (colVar area md v).shape ↔ Spec.CellOf v idx := by
  rw [CollapseCmd.indices_eq, Agg.mem_allIdx, colVar, List.forall₂_map_right_iff, List.forall₂_iff_get]
  unfold Spec.CellOf
  constructor
  · rintro ⟨h1, h2⟩
    refine ⟨h1, fun k i a hi ha => ?_⟩
    obtain ⟨g1, rfl⟩ := List.getElem?_eq_some_iff.1 hi
    obtain ⟨g2, rfl⟩ := List.getElem?_eq_some_iff.1 ha
    exact h2 k g1 g2
  · rintro ⟨h1, h2⟩
    exact ⟨h1, fun k g1 g2 => h2 k _ _ (List.getElem?_eq_getElem g1) (List.getElem?_eq_getElem g2)⟩

theorem nodup_indices (area : GVar → List Nat → ℚ) (md : Meta) (v : GVar) : (CollapseCmd.Spec.indices (colVar area md v).shape).Nodup := by
  rw [CollapseCmd.indices_eq]
  exact Agg.nodup_allIdx _

theorem axis_nodup {a b : Crd} {r : SubsetCmd.Spec.Range} {f : List Nat} (h : AxisSel a b r f) : f.Nodup := by
  obtain ⟨u, v, rfl, h1, -⟩ := h.order
  have : (v ++ u).Nodup := h1.imp (fun h => ne_of_lt h)
  exact (List.perm_append_comm.nodup_iff).1 this

section
variable {asked : List Asked} {v r : GVar} {f : Nat → List Nat}

theorem cut_facts (h : Spec.Cut asked v r f) {k : Nat} {a b : Crd} (ha : v.crds[k]? = some a) (hb : r.crds[k]? = some b) :
    (f k).Nodup ∧ (f k).length = b.points.length ∧ ∀ n, n ∈ f k ↔ n < a.points.length ∧ ∀ x ∈ asked, x.coord.name = a.name →
      ∃ p, a.points[n]? = some p ∧ Inside a x.range p := by
  obtain ⟨h1, h2⟩ := h.2 k a b ha hb
  by_cases hx : ∃ x ∈ asked, x.coord.name = a.name
  · obtain ⟨x, hx, hn⟩ := hx
    have hs := h1 x hx hn
    refine ⟨axis_nodup hs, hs.length.symm, fun n => ⟨fun hm => ⟨?_, fun y hy hyn => ((h1 y hy hyn).kept n).1 hm⟩, fun hm => (hs.kept n).2 (hm.2 x hx hn)⟩⟩
    obtain ⟨p, hp, -⟩ := (hs.kept n).1 hm
    exact (List.getElem?_eq_some_iff.1 hp).1
  · push Not at hx
    obtain ⟨rfl, hf⟩ := h2 hx
    rw [hf]
    exact ⟨List.nodup_range, by simp, fun n => by
      rw [List.mem_range]
      exact ⟨fun hn => ⟨hn, fun x hx' hxn => absurd hxn (hx x hx')⟩, And.left⟩⟩

theorem old_get {idx : List Nat} {k i : Nat} (hi : idx[k]? = some i) : (Spec.old f idx)[k]? = some ((f k).getD i 0) := by
  unfold Spec.old
  rw [List.getElem?_mapIdx, hi]; rfl

theorem get_lt {α : Type} {l m : List α} {k : Nat} {a : α} (hl : l.length = m.length) (h : l[k]? = some a) : ∃ b, m[k]? = some b := by
  have := (List.getElem?_eq_some_iff.1 h).1
  exact ⟨_, List.getElem?_eq_getElem (by omega)⟩

theorem old_mem (h : Spec.Cut asked v r f) {idx : List Nat} (hc : Spec.CellOf r idx) {k i : Nat} {a b : Crd} (hi : idx[k]? = some i)
    (ha : v.crds[k]? = some a) (hb : r.crds[k]? = some b) : i < (f k).length ∧ (f k).getD i 0 ∈ f k := by
  obtain ⟨-, h2, -⟩ := cut_facts h ha hb
  have hlt : i < (f k).length := by rw [h2]; exact hc.2 k i b hi hb
  exact ⟨hlt, by simp [List.getD_eq_getElem?_getD, List.getElem?_eq_getElem hlt]⟩

/-- Old indices of a cell of the part. -/
theorem old_cell (h : Spec.Cut asked v r f) {idx : List Nat} (hc : Spec.CellOf r idx) :
    Spec.CellOf v (Spec.old f idx) ∧ Spec.Within asked v (Spec.old f idx) := by
  have hl : (Spec.old f idx).length = idx.length := by simp [Spec.old]
  have key : ∀ (k n : Nat) (a : Crd), (Spec.old f idx)[k]? = some n → v.crds[k]? = some a → n < a.points.length ∧ ∀ x ∈ asked, x.coord.name = a.name →
      ∃ p, a.points[n]? = some p ∧ Inside a x.range p := by
    intro k n a hn ha
    obtain ⟨b, hb⟩ := get_lt h.1.symm ha
    obtain ⟨i, hi⟩ := get_lt (l := Spec.old f idx) (m := idx) hl hn
    rw [old_get hi] at hn
    injection hn with hn
    subst hn
    exact ((cut_facts h ha hb).2.2 _).1 (old_mem h hc hi ha hb).2
  exact ⟨⟨by rw [hl, hc.1, h.1], fun k n a hn ha => (key k n a hn ha).1⟩, fun k n a hn ha => (key k n a hn ha).2⟩

/-- Every cell in the ranges is a cell of the part. -/
theorem old_onto (h : Spec.Cut asked v r f) {i : List Nat} (hc : Spec.CellOf v i) (hw : Spec.Within asked v i) :
    ∃ i', Spec.CellOf r i' ∧ Spec.old f i' = i := by
  have key : ∀ (k n : Nat) (a b : Crd), i[k]? = some n → v.crds[k]? = some a → r.crds[k]? = some b → n ∈ f k ∧ (f k).idxOf n < b.points.length := by
    intro k n a b hn ha hb
    obtain ⟨-, h2, h3⟩ := cut_facts h ha hb
    have hm := (h3 n).2 ⟨hc.2 k n a hn ha, hw k n a hn ha⟩
    exact ⟨hm, by rw [← h2]; exact List.idxOf_lt_length_iff.2 hm⟩
  refine ⟨i.mapIdx (fun k n => (f k).idxOf n), ⟨by rw [List.length_mapIdx, hc.1, h.1], ?_⟩, ?_⟩
  · intro k m b hm hb
    rw [List.getElem?_mapIdx] at hm
    obtain ⟨a, ha⟩ := get_lt h.1 hb
    cases hn : i[k]? with
    | none => rw [hn] at hm; cases hm
    | some n =>
      rw [hn] at hm
      injection hm with hm
      rw [← hm]
      exact (key k n a b hn ha hb).2
  · apply List.ext_getElem?
    intro k
    unfold Spec.old
    rw [List.getElem?_mapIdx, List.getElem?_mapIdx]
    cases hn : i[k]? with
    | none => rfl
    | some n =>
      have hkl := (List.getElem?_eq_some_iff.1 hn).1
      have ha : v.crds[k]? = some (v.crds[k]'(by rw [← hc.1]; exact hkl)) := List.getElem?_eq_getElem _
      obtain ⟨b, hb⟩ := get_lt h.1.symm ha
      have hm := (key k n _ b hn ha hb).1
      simp only [Option.map_some, List.getD_eq_getElem?_getD]
      rw [List.getElem?_eq_getElem (List.idxOf_lt_length_iff.2 hm), List.getElem_idxOf]
      rfl

/-- Different cells have different old indices, in each dimension. -/
theorem old_inj (h : Spec.Cut asked v r f) {i j : List Nat} (hi : Spec.CellOf r i) (hj : Spec.CellOf r j) (k : Nat) :
    (Spec.old f i)[k]? = (Spec.old f j)[k]? ↔ i[k]? = j[k]? := by
  by_cases hk : k < r.crds.length
  · have hb : r.crds[k]? = some r.crds[k] := List.getElem?_eq_getElem hk
    obtain ⟨a, ha⟩ := get_lt h.1 hb
    have gi : i[k]? = some (i[k]'(by rw [hi.1]; exact hk)) := List.getElem?_eq_getElem _
    have gj : j[k]? = some (j[k]'(by rw [hj.1]; exact hk)) := List.getElem?_eq_getElem _
    rw [old_get gi, old_get gj, gi, gj]
    have li := (old_mem h hi gi ha hb).1
    have lj := (old_mem h hj gj ha hb).1
    simp only [List.getD_eq_getElem?_getD, List.getElem?_eq_getElem li, List.getElem?_eq_getElem lj, Option.getD_some, Option.some.injEq]
    exact (List.Nodup.getElem_inj_iff (cut_facts h ha hb).1)
  · have e1 : i[k]? = none := List.getElem?_eq_none (by rw [hi.1]; omega)
    have e2 : j[k]? = none := List.getElem?_eq_none (by rw [hj.1]; omega)
    unfold Spec.old
    rw [List.getElem?_mapIdx, List.getElem?_mapIdx, e1, e2]
    simp

/-- The cells that the collapse of the part takes together, in all the data. -/
theorem cells_group (area : GVar → List Nat → ℚ) (md : Meta) (h : Spec.Cut asked v r f) (hval : ∀ i, Spec.CellOf r i → r.value i = v.value (Spec.old f i))
    (cols : List CollapseCmd.Crd) {j : List Nat} (hj : Spec.CellOf r j) :
    Spec.Group asked v cols (Spec.old f j) ((CollapseCmd.Spec.cells (colVar area md r) cols j).map (Spec.old f)) := by
  have hmem : ∀ i, i ∈ CollapseCmd.Spec.cells (colVar area md r) cols j ↔ Spec.CellOf r i ∧ (r.value i).isSome = true ∧
      ∀ k, k < r.crds.length → (∀ c ∈ cols, k ∉ c.dims) → i[k]? = j[k]? := by
    intro i
    unfold CollapseCmd.Spec.cells
    rw [List.mem_filter, mem_indices, Bool.and_eq_true, decide_eq_true_eq]
    constructor
    · rintro ⟨h1, h2, h3⟩
      refine ⟨h1, h3, fun k hk hc => ?_⟩
      have := h2 k (by simpa [colVar] using hk) hc
      rw [List.getElem?_eq_getElem (by rw [h1.1]; exact hk), List.getElem?_eq_getElem (by rw [hj.1]; exact hk)]
      rw [List.getD_eq_getElem?_getD, List.getD_eq_getElem?_getD, List.getElem?_eq_getElem (by rw [h1.1]; exact hk),
        List.getElem?_eq_getElem (by rw [hj.1]; exact hk)] at this
      exact congrArg some this
    · rintro ⟨h1, h2, h3⟩
      refine ⟨h1, fun k hk hc => ?_, h2⟩
      rw [List.getD_eq_getElem?_getD, List.getD_eq_getElem?_getD, h3 k (by simpa [colVar] using hk) hc]
  constructor
  · apply List.Nodup.map_on
    · intro i hi i2 hi2 e
      apply List.ext_getElem?
      intro k
      exact (old_inj h ((hmem i).1 hi).1 ((hmem i2).1 hi2).1 k).1 (by rw [e])
    · exact (nodup_indices area md r).filter _
  · intro i
    rw [List.mem_map]
    constructor
    · rintro ⟨i', hi', rfl⟩
      obtain ⟨h1, h2, h3⟩ := (hmem i').1 hi'
      obtain ⟨c1, c2⟩ := old_cell h h1
      exact ⟨c1, c2, by rw [← hval i' h1]; exact h2, fun k hk hc => (old_inj h h1 hj k).2 (h3 k (by rw [h.1]; exact hk) hc)⟩
    · rintro ⟨h1, h2, h3, h4⟩
      obtain ⟨i', hi', rfl⟩ := old_onto h h1 h2
      exact ⟨i', (hmem i').2 ⟨hi', by rw [hval i' hi']; exact h3, fun k hk hc => (old_inj h hi' hj k).1 (h4 k (by rw [← h.1]; exact hk) hc)⟩, rfl⟩

end

/-! ### The two commands -/

theorem toCrd_same {a b : Crd} (h : { b with points := a.points } = a) : b.toCrd = a.toCrd := by
  rw [← h]

/-- The coordinates are the same but for their points. -/
theorem crds_same {asked : List Asked} {v r : GVar} {f : Nat → List Nat} (h : Spec.Cut asked v r f) : r.crds.map Crd.toCrd = v.crds.map Crd.toCrd := by
  apply List.ext_getElem?
  intro k
  rw [List.getElem?_map, List.getElem?_map]
  cases ha : v.crds[k]? with
  | none =>
    have : r.crds[k]? = none := by
      rw [List.getElem?_eq_none_iff] at ha ⊢
      rw [h.1]; exact ha
    rw [this]
  | some a =>
    obtain ⟨b, hb⟩ := get_lt h.1.symm ha
    rw [hb]
    obtain ⟨h1, h2⟩ := h.2 k a b ha hb
    by_cases hx : ∃ x ∈ asked, x.coord.name = a.name
    · obtain ⟨x, hx, hn⟩ := hx
      simp only [Option.map_some, toCrd_same (h1 x hx hn).same]
    · push Not at hx
      rw [(h2 hx).1]

theorem left_of {asked : List Asked} {v r : GVar} (area : GVar → List Nat → ℚ) (md : Meta) (cols : List CollapseCmd.Crd)
    (sts : List (String × (List (ℚ × ℚ) → Option ℚ))) (outs : List Out) (hs : SubGrid asked v r)
    (harea : Spec.Lat cols → ∀ f, Spec.Cut asked v r f → ∀ j, Spec.CellOf r j → area r j = area v (Spec.old f j))
    (hc : CollapseCmd.Spec.Collapsed (colVar area md r) cols (Spec.weight cols (area r)) sts outs) :
    Spec.Left asked cols sts md.varName (area v) v r outs := by
  obtain ⟨h1, f, h2, -, h3⟩ := hs
  have hf : Spec.Cut asked v r f := ⟨h1, h2⟩
  refine ⟨f, hf, hc.imp ?_⟩
  rintro st o ⟨c1, c2, c3⟩
  have hsl : (colVar area md r).shape.length = v.crds.length := by simp [colVar, h1]
  refine ⟨c1, ?_, fun j hj => ?_⟩
  · rw [c2]
    unfold CollapseCmd.Spec.left Spec.kept
    rw [hsl]
    apply List.map_congr_left
    intro k hk
    have hk := List.mem_range.1 (List.mem_filter.1 hk).1
    have ha : v.crds[k]? = some v.crds[k] := List.getElem?_eq_getElem hk
    obtain ⟨b, hb⟩ := get_lt h1.symm ha
    rw [(cut_facts hf ha hb).2.1]
    simp [colVar, List.getD_eq_getElem?_getD, hb]
  · obtain ⟨o1, o2⟩ := old_cell hf hj
    refine ⟨o1, o2, _, cells_group area md hf (fun i hi => h3 i hi.1 hi.2) cols hj, ?_⟩
    have := c3 j
    unfold CollapseCmd.Spec.left at this
    rw [hsl] at this
    unfold Spec.kept
    rw [this, List.map_map]
    refine congrArg st.2 (List.map_congr_left ?_)
    intro i hi
    have hic : Spec.CellOf r i := (mem_indices area md r i).1 (List.mem_filter.1 hi).1
    have hv : (colVar area md r).value i = v.value (Spec.old f i) := h3 i hic.1 hic.2
    simp only [Function.comp_apply, hv]
    congr 1
    unfold Spec.weight
    by_cases hl : Spec.Lat cols
    · simp only [hl, if_true]
      exact harea hl f hf i hic
    · simp only [hl, if_false]

/-- **C221.** `cis subset` of gridded variables on one grid (C188), and `cis collapse` (C187) of the result, along dimensions named as in C187, with
the kernel mean, min, max, moments, none, or, if latitude is not collapsed, sum. If latitude is collapsed, the parts have latitudes and longitudes
whose bounds are there or can be guessed, and the cells of the part have the areas that they have in all the data. Then the collapse writes, for each
variable in order, the statistics asked for, in order, named after the variable, on the dimensions left, as long as the part is; and each value is the
statistic of exactly the cells of all the data, before the subset, that are in all the ranges, have a value, and differ in the collapsed dimensions
only. -/
theorem c221_subset_collapse (e : SubsetCmd.Env) (vs rs : List GVar) (cs : List Crd) (asked : List Asked)
    -- the subset
    (hvs : vs ≠ []) (hgrid : ∀ v ∈ vs, v.crds = cs) (hnames : (cs.map (fun c => c.name)).Nodup)
    (hne : asked ≠ []) (hword : ∀ x ∈ asked, SubsetGrid.Spec.Words x) (hshape : ∀ x ∈ asked, ¬ "shape".toList <+: x.dim)
    (hsays : ∀ x ∈ asked, SubsetCmd.Spec.Denotes e x.dim x.first x.second x.range)
    (hfind : ∀ x ∈ asked, x.coord ∈ cs ∧ CollapseCmd.Spec.Means (cs.map Crd.toCrd) (String.ofList x.dim) x.coord.toCrd)
    (hdims : (asked.map SubsetGrid.Spec.Asked.dim).Nodup) (hdiff : (asked.map (fun x => x.coord.name)).Nodup)
    (hsuits : ∀ x ∈ asked, SubsetGrid.Spec.Suits e x)
    (hrun : SubsetGrid.run e vs (Parse.joinBy ',' (asked.map (fun x => Limits.Spec.render x.dim x.first x.second))) = .ok rs)
    -- the collapse
    (iris : String → List ℚ → Option ℚ) (plugins : List String) (os : Parse.OS) (names : List Str) (hnn : names ≠ [])
    (hcomma : ∀ n ∈ names, ',' ∉ n) (args : List Str) (hargs : args = names ∨ args = [Str.join ',' names])
    (kernel : Option String) (sts : List (String × (List (ℚ × ℚ) → Option ℚ))) (hk : CollapseCmd.Spec.Asks kernel sts)
    (cols : List CollapseCmd.Crd) (hcols : List.Forall₂ (CollapseCmd.Spec.Means (cs.map Crd.toCrd)) (names.map String.ofList) cols)
    (hsum : kernel = some "sum" → ¬ Spec.Lat cols) (mds : List Meta) (hmds : mds.length = vs.length) (area : GVar → List Nat → ℚ)
    (hbounds : Spec.Lat cols → ∀ w ∈ List.zipWith (colVar area) mds rs, CollapseCmd.Spec.Bounded w "latitude" ∧ CollapseCmd.Spec.Bounded w "longitude")
    (harea : Spec.Lat cols → ∀ (n : Nat) (v r : GVar), vs[n]? = some v → rs[n]? = some r → ∀ f, Spec.Cut asked v r f → ∀ j, Spec.CellOf r j →
      area r j = area v (Spec.old f j))
    (files : List Str) (output file : Str) (hcol : ':' ∉ output) (hf : file = if os.ext output = [] then output ++ ".nc".toList else output)
    (force : Bool) (env : Str) (answers : List Str) (hcons : Parse.Consent os file force env answers)
    (hin : ∀ i ∈ files, ¬(os.pathExists file = true ∧ os.samefile file i = true)) :
    ∃ parts : List (List Out),
      CollapseCmd.run iris plugins os (some (List.zipWith (colVar area) mds rs)) ⟨args, kernel, files, output, force, env, answers⟩ =
        .ok (file, parts.flatten) ∧ rs.length = vs.length ∧ parts.length = vs.length ∧
      ∀ (n : Nat) (md : Meta) (v r : GVar) (outs : List Out), mds[n]? = some md → vs[n]? = some v → rs[n]? = some r → parts[n]? = some outs →
        Spec.Left asked cols sts md.varName (area v) v r outs := by
  have hsub : List.Forall₂ (SubGrid asked) vs rs := by
    obtain ⟨c1, c2⟩ := SubsetGrid.c188_subset e vs cs hvs hgrid hnames asked hne hword hshape hsays hfind hdims hdiff hsuits
    by_cases h : ∀ x ∈ asked, ∃ p ∈ x.coord.points, SubsetGrid.Spec.Inside x.coord x.range p
    · obtain ⟨rs', h1, h2⟩ := c1 h
      rw [hrun] at h1
      injection h1 with h1
      rw [h1]; exact h2
    · push Not at h
      rw [c2 h] at hrun
      cases hrun
  have hrl : rs.length = vs.length := hsub.length_eq.symm
  have hget : ∀ (n : Nat) (v r : GVar), vs[n]? = some v → rs[n]? = some r → SubGrid asked v r := by
    intro n v r hv hr
    rw [List.forall₂_iff_get] at hsub
    obtain ⟨h1, rfl⟩ := List.getElem?_eq_some_iff.1 hv
    obtain ⟨h2, rfl⟩ := List.getElem?_eq_some_iff.1 hr
    exact hsub.2 n h1 h2
  have hcrds : ∀ w ∈ List.zipWith (colVar area) mds rs, w.crds = cs.map Crd.toCrd := by
    intro w hw
    obtain ⟨n, hn, rfl⟩ := List.mem_iff_getElem.1 hw
    simp only [List.length_zipWith] at hn
    obtain ⟨g1, f, g2, -⟩ := hget n _ _ (List.getElem?_eq_getElem (by omega)) (List.getElem?_eq_getElem (by omega))
    have := crds_same (f := f) (asked := asked) ⟨g1, g2⟩
    rw [hgrid _ (List.getElem_mem _)] at this
    simpa [colVar] using this
  obtain ⟨parts, h1, h2⟩ := CollapseCmd.c187_collapse iris plugins os (List.zipWith (colVar area) mds rs) names hnn hcomma args hargs kernel sts hk
    (fun _ => cols) (fun w => Spec.weight cols w.area) (fun w hw => by rw [hcrds w hw]; exact hcols)
    (fun w hw => by
      by_cases hl : Spec.Lat cols
      · left
        refine ⟨hl, (hbounds hl w hw).1, (hbounds hl w hw).2, ?_⟩
        funext i
        simp only [Spec.weight, hl, if_true]
      · right
        refine ⟨fun c hc h => hl ⟨c, hc, h⟩, ?_⟩
        funext i
        simp only [Spec.weight, hl, if_false])
    (fun h w _ c hc hl => hsum h ⟨c, hc, hl⟩) files output file hcol hf force env answers hcons hin
  refine ⟨parts, h1, hrl, by rw [← h2.length_eq]; simp [hmds, hrl], ?_⟩
  intro n md v r outs hmd hv hr ho
  rw [List.forall₂_iff_get] at h2
  obtain ⟨k1, k2⟩ := List.getElem?_eq_some_iff.1 hmd
  obtain ⟨k3, k4⟩ := List.getElem?_eq_some_iff.1 hr
  obtain ⟨k5, k6⟩ := List.getElem?_eq_some_iff.1 ho
  have := h2.2 n (by simp; omega) k5
  simp only [List.get_eq_getElem, List.getElem_zipWith, k2, k4, k6] at this
  exact left_of area md cols sts outs (hget n v r hv hr) (fun hl f hf j hj => harea hl n v r hv hr f hf j hj) this

/-! ### Non-vacuity: `x=[100,250]`, and then the moments along x -/

def exFlt (s : Str) : Option Limits.Fl := if s = "100".toList then some (.fin 100) else if s = "250".toList then some (.fin 250) else none
def exEnv : SubsetCmd.Env := ⟨exFlt, ⟨2020, 6, 15, 0, 0, 0, 0⟩, fun _ => none⟩
def exGrid : List Crd := [SubsetGrid.exLat [-80, 0], SubsetGrid.exLon [0, 120, 240, 355]]

/-- One cell in the range has no value. -/
def exVar : GVar := ⟨exGrid, fun idx => 10 * (idx.getD 0 0 : ℚ) + idx.getD 1 0, some (fun i => i == [1, 2])⟩
def exText : Str := "x=[100,250]".toList
def exAsked : List Asked := [⟨"x".toList, "100".toList, some "250".toList, SubsetGrid.exLon [0, 120, 240, 355], .num (some 100) (some 250)⟩]
def exMd : Meta := ⟨"rain", none, none, none⟩

/-- The result of the subset. -/
def exLeft : List GVar :=
  match SubsetGrid.run exEnv [exVar] exText with
  | .ok rs => rs
  | .error _ => []

theorem ex_run : SubsetGrid.run exEnv [exVar] exText = .ok exLeft := by
  unfold exLeft
  have : (SubsetGrid.run exEnv [exVar] exText).toBool = true := by decide +kernel
  cases h : SubsetGrid.run exEnv [exVar] exText with
  | ok rs => rfl
  | error x => rw [h] at this; cases this

def exLine : CollapseCmd.Line := ⟨["x".toList], none, [], "new".toList, false, [], []⟩

/-- The values: 1 and 2 in the first row; 11 only, in the second. -/
example : (match CollapseCmd.run (fun _ _ => none) [] Parse.exampleOS (some (List.zipWith (colVar (fun _ _ => 1)) [exMd] exLeft)) exLine with
    | .ok (_, os) => some (os.map (fun o => (o.md.varName, o.shape, o.value [0], o.value [1])))
    | .error _ => none) =
    some [("rain", [2], some (3 / 2), some 11), ("rain_std_dev", [2], some (1 / 2), none), ("rain_num_points", [2], some 2, some 1)] := by
  decide +kernel

theorem ex_ends : SubsetGrid.Spec.Ends (SubsetGrid.exLon [0, 120, 240, 355]) 0 355 :=
  ⟨by simp [SubsetGrid.exLon], by simp [SubsetGrid.exLon], by intro x hx; simp [SubsetGrid.exLon] at hx; rcases hx with rfl | rfl | rfl | rfl <;> norm_num⟩

theorem ex_means : CollapseCmd.Spec.Means (exGrid.map Crd.toCrd) "x" (SubsetGrid.exLon [0, 120, 240, 355]).toCrd :=
  .letter "longitude" (by decide +kernel) (by decide +kernel) rfl (by decide +kernel) (by decide +kernel) (by decide +kernel)

theorem ex_lat : ¬ Spec.Lat [(SubsetGrid.exLon [0, 120, 240, 355]).toCrd] := by
  rintro ⟨c, hc, h⟩
  rw [List.mem_singleton] at hc
  subst hc
  exact absurd h (by decide)

/-- The hypotheses of `c221_subset_collapse` hold. -/
example : ∃ file outs, CollapseCmd.run (fun _ _ => none) [] Parse.exampleOS (some (List.zipWith (colVar (fun _ _ => 1)) [exMd] exLeft)) exLine = .ok (file, outs) := by
  have hmem : ∀ x ∈ exAsked, x = ⟨"x".toList, "100".toList, some "250".toList, SubsetGrid.exLon [0, 120, 240, 355], .num (some 100) (some 250)⟩ := by
    simp [exAsked]
  obtain ⟨parts, h, -⟩ := c221_subset_collapse exEnv [exVar] exLeft exGrid exAsked
    (by simp) (by simp [exVar]) (by decide +kernel) (by simp [exAsked])
    (fun x hx => by rw [hmem x hx]; exact ⟨⟨by decide, by decide⟩, ⟨by decide, by decide⟩, fun s hs => by cases hs; exact ⟨by decide, by decide⟩⟩)
    (fun x hx => by rw [hmem x hx]; decide)
    (fun x hx => by
      rw [hmem x hx]
      exact ⟨by decide, .inr (.inr ⟨by decide, 100, by decide +kernel, rfl⟩), .inr ⟨_, rfl, .inr (.inr ⟨by decide, 250, by decide +kernel, rfl⟩)⟩,
        fun _ => ⟨100, 250, rfl, rfl, by norm_num, by norm_num⟩⟩)
    (fun x hx => by rw [hmem x hx]; exact ⟨by simp [exGrid], ex_means⟩)
    (by decide) (by decide +kernel)
    (fun x hx => by
      rw [hmem x hx]
      exact ⟨rfl, fun _ => ⟨by decide +kernel, fun s hs => by cases hs; decide +kernel, 0, 355, ex_ends, by norm_num, by norm_num⟩⟩)
    (by
      rw [(by decide +kernel : Parse.joinBy ',' (exAsked.map (fun x => Limits.Spec.render x.dim x.first x.second)) = exText)]
      exact ex_run)
    (fun _ _ => none) [] Parse.exampleOS ["x".toList] (by decide) (by decide) ["x".toList] (.inl rfl) none _ .default
    [(SubsetGrid.exLon [0, 120, 240, 355]).toCrd] (.cons ex_means .nil) (by simp) [exMd] rfl (fun _ _ => 1)
    (fun h => absurd h ex_lat) (fun h => absurd h ex_lat) [] "new".toList "new.nc".toList (by decide) (by decide +kernel) false [] []
    (Or.inl (by decide +kernel)) (by simp)
  exact ⟨_, _, h⟩

/-- Areas that go by the latitude. -/
def exArea (v : GVar) (idx : List Nat) : ℚ := 90 - |((v.crds.getD 0 (SubsetGrid.exLat [])).points).getD (idx.getD 0 0) 0|

/-- Collapsed along y, the mean of the first column, of weights 10 and 90. -/
example : (match CollapseCmd.run (fun _ _ => none) [] Parse.exampleOS (some (List.zipWith (colVar exArea) [exMd] exLeft))
      ⟨["y".toList], some "mean", [], "new".toList, false, [], []⟩ with
    | .ok (_, os) => some (os.map (fun o => (o.md.varName, o.shape, o.value [0], o.value [1])))
    | .error _ => none) = some [("rain", [2], some 10, some 2)] := by
  decide +kernel

/-- The hypotheses on the areas and the bounds, for a collapse along y. -/
example : (∀ (n : Nat) (v r : GVar), [exVar][n]? = some v → exLeft[n]? = some r → ∀ f, Spec.Cut exAsked v r f → ∀ j, Spec.CellOf r j →
      exArea r j = exArea v (Spec.old f j)) ∧
    ∀ w ∈ List.zipWith (colVar exArea) [exMd] exLeft, CollapseCmd.Spec.Bounded w "latitude" ∧ CollapseCmd.Spec.Bounded w "longitude" := by
  have hl : exLeft.map (fun r => r.crds) = [[SubsetGrid.exLat [-80, 0], SubsetGrid.exLon [120, 240]]] := by
    with_unfolding_all rfl
  constructor
  · intro n v r hv hr f hf j hj
    match n with
    | n + 1 => simp at hv
    | 0 =>
      cases hv
      have hc : r.crds = [SubsetGrid.exLat [-80, 0], SubsetGrid.exLon [120, 240]] := by
        have := congrArg (fun l => l[0]?) hl
        simp only [List.getElem?_map, hr, Option.map_some, List.getElem?_cons_zero, Option.some.injEq] at this
        exact this
      have h0 := (hf.2 0 (SubsetGrid.exLat [-80, 0]) (SubsetGrid.exLat [-80, 0]) rfl (by rw [hc]; rfl)).2 (by
        intro x hx
        simp only [exAsked, List.mem_singleton] at hx
        subst hx
        decide)
      have hj0 : ∃ i, j[0]? = some i := ⟨_, List.getElem?_eq_getElem (by rw [hj.1, hc]; decide)⟩
      obtain ⟨i, hi⟩ := hj0
      have hlt := hj.2 0 i _ hi (by rw [hc]; rfl)
      have ho := old_get (f := f) hi
      rw [h0.2] at ho
      unfold exArea
      rw [hc]
      simp only [List.getD_eq_getElem?_getD, hi, ho, List.getElem?_range hlt, exVar, exGrid, List.getElem?_cons_zero, Option.getD_some]
  · intro w hw
    have hw' : w.crds = [(SubsetGrid.exLat [-80, 0]).toCrd, (SubsetGrid.exLon [120, 240]).toCrd] ∧ w.shape = [2, 2] := by
      match h : exLeft with
      | [] => rw [h] at hl; simp at hl
      | r :: t =>
        rw [h] at hl hw
        simp only [List.map_cons, List.cons.injEq] at hl
        simp only [List.zipWith_cons_cons, List.zipWith_nil_left, List.mem_singleton] at hw
        subst hw
        simp only [colVar, hl.1]
        exact ⟨rfl, rfl⟩
    obtain ⟨w1, w2⟩ := hw'
    constructor
    · exact ⟨(SubsetGrid.exLat [-80, 0]).toCrd, by rw [w1]; simp, rfl, by rw [w1]; decide +kernel, .inr ⟨rfl, by rw [w2]; decide⟩⟩
    · exact ⟨(SubsetGrid.exLon [120, 240]).toCrd, by rw [w1]; simp, rfl, by rw [w1]; decide +kernel, .inr ⟨rfl, by rw [w2]; decide⟩⟩

end Cis.SubsetCollapse
