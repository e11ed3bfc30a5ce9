import Verif.Main.SubsetCollapse
import Verif.Main.SubsetColGrid
import Verif.Stats.Command
set_option linter.unusedSectionVars false
set_option linter.unusedSimpArgs false

/-!
# `cis subset` of two gridded variables and `cis stats` of the result, one after the other

Nothing new is modelled: the subset of Main/SubsetGridded.lean and the statistics of Stats/Command.lean.
-/
namespace Cis.SubsetGridStats
open Cis.Str
open Cis.SubsetGrid (Crd Err)
open Cis.SubsetCmd (Env Bound)
open Cis.SubsetGrid.Spec (Asked AxisSel Inside SubGrid)
open Cis.StatsCmd (DataSet)

variable {V W : Type}

/-! ### Specification -/

/-- A variable with real values. -/
abbrev RVar := SubsetGrid.Var ℝ

/-- The cells of a grid. -/
def Spec.cells (cs : List Crd) : List (List Nat) := CollapseCmd.Spec.indices (cs.map (fun c => c.points.length))

/-- The cell is in all the ranges. -/
def Spec.Within (asked : List Asked) (cs : List Crd) (idx : List Nat) : Prop :=
  ∀ (k i : Nat) (a : Crd), idx[k]? = some i → cs[k]? = some a → ∀ x ∈ asked, x.coord.name = a.name → ∃ p, a.points[i]? = some p ∧ Inside a x.range p

/-- The values of a variable in C order, as `cis stats` reads it. -/
def Spec.dataSet (name : String) (v : RVar) : DataSet :=
  ⟨name, v.crds.map (fun c => c.points.length), (Spec.cells v.crds).map (fun i => match v.value i with | some x => (x, false) | none => (0, true))⟩

/-- The two values of a cell, if neither is missing. -/
def Spec.both (v w : RVar) (i : List Nat) : Option (ℝ × ℝ) :=
  match v.value i, w.value i with
  | some x, some y => some (x, y)
  | _, _ => none

open Classical in
/-- The pairs of values of the cells that are in all the ranges and miss neither. -/
noncomputable def Spec.inside (asked : List Asked) (v w : RVar) : List (ℝ × ℝ) :=
  ((Spec.cells v.crds).filter (fun i => decide (Spec.Within asked v.crds i))).filterMap (Spec.both v w)

open Classical in
/-- The variable, masked also where the cell is not in all the ranges. -/
noncomputable def Spec.blanked (asked : List Asked) (v : RVar) : RVar :=
  ⟨v.crds, v.data, some (fun i => !decide (Spec.Within asked v.crds i) || match v.mask with | some m => m i | none => false)⟩

/-! ### What a subset does depends on the grid only -/

/-- The variable on other coordinates, with the values of the cells given by `g`. -/
def moved (v : SubsetGrid.Var V) (cs : List Crd) (g : List Nat → List Nat) : SubsetGrid.Var V := ⟨cs, fun i => v.data (g i), v.mask.map (fun m i => m (g i))⟩

theorem moved_self (v : SubsetGrid.Var V) : moved v v.crds id = v := by
  obtain ⟨c, d, m⟩ := v
  cases m <;> rfl

theorem moved_moved (v : SubsetGrid.Var V) (cs cs' : List Crd) (g g' : List Nat → List Nat) : moved (moved v cs g) cs' g' = moved v cs' (fun i => g (g' i)) := by
  obtain ⟨c, d, m⟩ := v
  cases m <;> rfl

theorem moved_value (v : SubsetGrid.Var V) (cs : List Crd) (g : List Nat → List Nat) (i : List Nat) : (moved v cs g).value i = v.value (g i) := by
  obtain ⟨c, d, m⟩ := v
  cases m <;> rfl

/-- What is done to the variables on one grid: the same error, nothing left, or the same cells. -/
inductive Fate
  | error (e : Err)
  | none
  | cells (cs : List Crd) (g : List Nat → List Nat)

def Fate.apply (v : SubsetGrid.Var V) : Fate → Except Err (Option (SubsetGrid.Var V))
  | .error e => .error e
  | .none => .ok Option.none
  | .cells cs g => .ok (some (moved v cs g))

theorem take_moved (v : SubsetGrid.Var V) (k : Nat) (sel : List (Nat × ℚ)) :
    v.take k sel = moved v (v.crds.modify k (fun a => { a with points := sel.map (·.2) })) (fun idx => idx.modify k (fun i => (sel.getD i (0, 0)).1)) := rfl

theorem extract_fate : ∀ (L : List (Str × Bound × Bound)) (cs : List Crd), ∃ F : Fate, ∀ {V : Type} (v : SubsetGrid.Var V), v.crds = cs →
    SubsetGrid.extract L v = F.apply v
  | [], cs => ⟨.cells cs id, fun v hv => by rw [Fate.apply, ← hv, moved_self]; rfl⟩
  | (n, a, b) :: t, cs => by
    cases h1 : SubsetGrid.index cs n with
    | none => exact ⟨.none, fun v hv => by rw [SubsetGrid.extract, hv, h1]; rfl⟩
    | some k =>
      cases h2 : cs[k]? with
      | none => exact ⟨.none, fun v hv => by rw [SubsetGrid.extract, hv, h1]; dsimp only; rw [h2]; rfl⟩
      | some c =>
        cases h3 : SubsetGrid.contains c a b with
        | error e => exact ⟨.error e, fun v hv => by rw [SubsetGrid.extract, hv, h1]; dsimp only; rw [h2]; dsimp only; rw [h3]; rfl⟩
        | ok sel =>
          by_cases h4 : sel = []
          · exact ⟨.none, fun v hv => by rw [SubsetGrid.extract, hv, h1]; dsimp only; rw [h2]; dsimp only; rw [h3]; dsimp only; rw [if_pos h4]; rfl⟩
          · obtain ⟨F, hF⟩ := extract_fate t (cs.modify k (fun a => { a with points := sel.map (·.2) }))
            refine ⟨match F with
              | .error e => .error e
              | .none => .none
              | .cells cs' g => .cells cs' (fun i => (fun idx => idx.modify k (fun i => (sel.getD i (0, 0)).1)) (g i)), fun v hv => ?_⟩
            rw [SubsetGrid.extract, hv, h1]; dsimp only; rw [h2]; dsimp only; rw [h3]; dsimp only; rw [if_neg h4, hF (v.take k sel) (by rw [← hv]; rfl)]
            cases F with
            | error e => rfl
            | none => rfl
            | cells cs' g => rw [Fate.apply, Fate.apply, take_moved, moved_moved]

theorem intersection_fate : ∀ (L : List (Str × Bound × Bound)) (cs : List Crd), ∃ F : Fate, ∀ {V : Type} (v : SubsetGrid.Var V), v.crds = cs →
    SubsetGrid.intersection L v = F.apply v
  | [], cs => ⟨.cells cs id, fun v hv => by rw [Fate.apply, ← hv, moved_self]; rfl⟩
  | (n, a, b) :: t, cs => by
    cases h1 : SubsetGrid.index cs n with
    | none => exact ⟨.error .notFound, fun v hv => by rw [SubsetGrid.intersection, hv, h1]; rfl⟩
    | some k =>
      cases h2 : cs[k]? with
      | none => exact ⟨.error .notFound, fun v hv => by rw [SubsetGrid.intersection, hv, h1]; dsimp only; rw [h2]; rfl⟩
      | some c =>
        by_cases hab : ∃ x y : ℚ, a = .num (.fin x) ∧ b = .num (.fin y)
        · obtain ⟨x, y, rfl, rfl⟩ := hab
          by_cases h3 : y > x + 360 ∨ Subset.maxOf c.points > Subset.minOf c.points + 360
          · exact ⟨.error .value, fun v hv => by rw [SubsetGrid.intersection, hv, h1]; dsimp only; rw [h2]; dsimp only; rw [if_pos h3]; rfl⟩
          · by_cases h4 : Subset.Gridded.intersectSel c.points x y = []
            · exact ⟨.none, fun v hv => by
                rw [SubsetGrid.intersection, hv, h1]; dsimp only; rw [h2]; dsimp only; rw [if_neg h3, if_pos h4]; rfl⟩
            · obtain ⟨F, hF⟩ := intersection_fate t (cs.modify k (fun a => { a with points := (Subset.Gridded.intersectSel c.points x y).map (·.2) }))
              refine ⟨match F with
                | .error e => .error e
                | .none => .none
                | .cells cs' g => .cells cs' (fun i => (fun idx => idx.modify k (fun i => ((Subset.Gridded.intersectSel c.points x y).getD i (0, 0)).1)) (g i)),
                fun v hv => ?_⟩
              rw [SubsetGrid.intersection, hv, h1]; dsimp only; rw [h2]; dsimp only; rw [if_neg h3, if_neg h4, hF (v.take k _) (by rw [← hv]; rfl)]
              cases F with
              | error e => rfl
              | none => rfl
              | cells cs' g => rw [Fate.apply, Fate.apply, take_moved, moved_moved]
        · have : (∃ e, ∀ {V : Type} (v : SubsetGrid.Var V), v.crds = cs → SubsetGrid.intersection ((n, a, b) :: t) v = .error e) := by
            match a, b with
            | .num (.fin x), .num (.fin y) => exact absurd ⟨x, y, rfl, rfl⟩ hab
            | .num (.fin _), .num .pinf => exact ⟨.value, fun v hv => by rw [SubsetGrid.intersection, hv, h1]; dsimp only; rw [h2]⟩
            | .num (.fin _), .num .ninf => exact ⟨.value, fun v hv => by rw [SubsetGrid.intersection, hv, h1]; dsimp only; rw [h2]⟩
            | .num (.fin _), .num .nan => exact ⟨.value, fun v hv => by rw [SubsetGrid.intersection, hv, h1]; dsimp only; rw [h2]⟩
            | .num .pinf, .num _ => exact ⟨.value, fun v hv => by rw [SubsetGrid.intersection, hv, h1]; dsimp only; rw [h2]⟩
            | .num .ninf, .num _ => exact ⟨.value, fun v hv => by rw [SubsetGrid.intersection, hv, h1]; dsimp only; rw [h2]⟩
            | .num .nan, .num _ => exact ⟨.value, fun v hv => by rw [SubsetGrid.intersection, hv, h1]; dsimp only; rw [h2]⟩
            | .date _, _ => exact ⟨.type, fun v hv => by rw [SubsetGrid.intersection, hv, h1]; dsimp only; rw [h2]⟩
            | .num f, .date _ => exact ⟨.type, fun v hv => by rw [SubsetGrid.intersection, hv, h1]; dsimp only; rw [h2]; cases f <;> rfl⟩
          obtain ⟨e, he⟩ := this
          exact ⟨.error e, fun v hv => he v hv⟩

theorem each_fate (f : SubsetGrid.Var V → Except Err (Option (SubsetGrid.Var V))) (F : Fate) : ∀ vs : List (SubsetGrid.Var V), (∀ v ∈ vs, f v = F.apply v) → vs ≠ [] →
    SubsetGrid.each f vs = match F with
      | .error e => .error e
      | .none => .ok Option.none
      | .cells cs g => .ok (some (vs.map (fun v => moved v cs g)))
  | [], _, h => absurd rfl h
  | v :: t, h, _ => by
    rw [SubsetGrid.each, h v (by simp)]
    cases F with
    | error e => rfl
    | none => rfl
    | cells cs g =>
      rw [Fate.apply]
      dsimp only
      cases t with
      | nil => rfl
      | cons w t =>
        rw [each_fate f (.cells cs g) (w :: t) (fun v hv => h v (List.mem_cons_of_mem _ hv)) (by simp)]
        rfl

/-- The subset of variables on one grid. -/
theorem run_fate (e : Env) (text : Str) (cs : List Crd) : ∃ F : Fate, ∀ {V : Type} (vs : List (SubsetGrid.Var V)), vs ≠ [] → (∀ v ∈ vs, v.crds = cs) →
    SubsetGrid.run e vs text = match F with
      | .error e => .error e
      | .none => .error .noData
      | .cells cs' g => .ok (vs.map (fun v => moved v cs' g)) := by
  cases h1 : Limits.subsetLimits (SubsetCmd.conv e) text with
  | error x => exact ⟨.error (.parse x), fun vs _ _ => by rw [SubsetGrid.run, h1]⟩
  | ok l =>
    cases h2 : SubsetGrid.keywords cs l [] with
    | error x =>
      refine ⟨.error x, fun vs hne hg => ?_⟩
      cases vs with
      | nil => exact absurd rfl hne
      | cons v t =>
        rw [SubsetGrid.run, h1]
        dsimp only
        rw [hg v (by simp), h2]
    | ok k =>
      obtain ⟨F, hF⟩ := extract_fate (k.filter (fun x => !SubsetGrid.isModular cs x.1)) cs
      have key : ∀ {V : Type} (vs : List (SubsetGrid.Var V)), vs ≠ [] → (∀ v ∈ vs, v.crds = cs) → SubsetGrid.run e vs text =
          match SubsetGrid.each (SubsetGrid.extract (k.filter (fun x => !SubsetGrid.isModular cs x.1))) vs with
          | .error x => .error x
          | .ok none => .error .noData
          | .ok (some ws) =>
            match SubsetGrid.each (SubsetGrid.intersection (k.filter (fun x => SubsetGrid.isModular cs x.1))) ws with
            | .error x => .error x
            | .ok none => .error .noData
            | .ok (some r) => .ok r := by
        intro V vs hne hg
        cases vs with
        | nil => exact absurd rfl hne
        | cons v t =>
          rw [SubsetGrid.run, h1]
          dsimp only
          rw [hg v (by simp), h2]
          rfl
      have hex : ∀ {V : Type} (vs : List (SubsetGrid.Var V)), vs ≠ [] → (∀ v ∈ vs, v.crds = cs) → _ :=
        fun {V} vs hne hg => each_fate (V := V) _ F vs (fun v hv => hF v (hg v hv)) hne
      cases F with
      | error x => exact ⟨.error x, fun vs hne hg => by rw [key vs hne hg, hex vs hne hg]⟩
      | none => exact ⟨.none, fun vs hne hg => by rw [key vs hne hg, hex vs hne hg]⟩
      | cells cs1 g1 =>
        obtain ⟨F2, hF2⟩ := intersection_fate (k.filter (fun x => SubsetGrid.isModular cs x.1)) cs1
        refine ⟨match F2 with
          | .error e => .error e
          | .none => .none
          | .cells cs' g => .cells cs' (fun i => g1 (g i)), fun vs hne hg => ?_⟩
        rw [key vs hne hg, hex vs hne hg]
        dsimp only
        rw [each_fate _ F2 (vs.map (fun v => moved v cs1 g1)) (by
          intro w hw
          obtain ⟨v, _, rfl⟩ := List.mem_map.1 hw
          exact hF2 _ rfl) (by simpa using hne)]
        cases F2 with
        | error e => rfl
        | none => rfl
        | cells cs' g => simp only [List.map_map, Function.comp_def, moved_moved]

/-! ### The pairs -/

/-- The grid alone. -/
def grid (cs : List Crd) : SubsetCollapse.GVar := ⟨cs, fun _ => 0, none⟩

/-- The subset takes the same cells of all variables on the grid, each once. -/
theorem same_cells (e : Env) (vs rs : List RVar) (cs : List Crd) (hvs : vs ≠ []) (hgrid : ∀ v ∈ vs, v.crds = cs) (hnames : (cs.map (fun c => c.name)).Nodup)
    (asked : List Asked) (hne : asked ≠ []) (hword : ∀ x ∈ asked, SubsetGrid.Spec.Words x) (hshape : ∀ x ∈ asked, ¬ "shape".toList <+: x.dim)
    (hsays : ∀ x ∈ asked, SubsetCmd.Spec.Denotes e x.dim x.first x.second x.range)
    (hfind : ∀ x ∈ asked, x.coord ∈ cs ∧ CollapseCmd.Spec.Means (cs.map Crd.toCrd) (String.ofList x.dim) x.coord.toCrd)
    (hdims : (asked.map SubsetGrid.Spec.Asked.dim).Nodup) (hdiff : (asked.map (fun x => x.coord.name)).Nodup)
    (hsuits : ∀ x ∈ asked, SubsetGrid.Spec.Suits e x)
    (hrun : SubsetGrid.run e vs (Parse.joinBy ',' (asked.map (fun x => Limits.Spec.render x.dim x.first x.second))) = .ok rs) :
    ∃ cs' f, SubsetCollapse.Spec.Cut asked (grid cs) (grid cs') f ∧ rs.length = vs.length ∧ ∀ (n : Nat) (v r : RVar), vs[n]? = some v → rs[n]? = some r →
      r.crds = cs' ∧ ∀ i, SubsetCollapse.Spec.CellOf (grid cs') i → r.value i = v.value (SubsetCollapse.Spec.old f i) := by
  obtain ⟨F, hF⟩ := run_fate e (Parse.joinBy ',' (asked.map (fun x => Limits.Spec.render x.dim x.first x.second))) cs
  have h1 := hF vs hvs hgrid
  rw [hrun] at h1
  cases F with
  | error x => cases h1
  | none => cases h1
  | cells cs' g =>
    injection h1 with h1
    have h2 := hF [(⟨cs, id, none⟩ : SubsetGrid.Var (List Nat))] (by simp) (by simp)
    dsimp only at h2
    obtain ⟨c1, c2⟩ := SubsetGrid.c188_subset e [(⟨cs, id, none⟩ : SubsetGrid.Var (List Nat))] cs (by simp) (by simp) hnames asked hne hword hshape hsays hfind
      hdims hdiff hsuits
    have hin : ∀ x ∈ asked, ∃ p ∈ x.coord.points, SubsetGrid.Spec.Inside x.coord x.range p := by
      by_contra h
      push Not at h
      rw [c2 h] at h2
      cases h2
    obtain ⟨ws, h3, h4⟩ := c1 hin
    rw [h2] at h3
    injection h3 with h3
    subst h3
    simp only [List.map_cons, List.map_nil] at h4
    cases h4 with
    | cons h5 _ =>
      obtain ⟨g1, f, g2, -, g3⟩ := h5
      refine ⟨cs', f, ⟨g1, g2⟩, by rw [h1]; simp, ?_⟩
      intro n v r hv hr
      rw [h1, List.getElem?_map, hv] at hr
      injection hr with hr
      subst hr
      refine ⟨rfl, fun i hi => ?_⟩
      have := g3 i hi.1 hi.2
      rw [moved_value] at this
      rw [moved_value]
      have e2 : g i = SubsetCollapse.Spec.old f i := by
        simpa [SubsetGrid.Var.value, SubsetCollapse.Spec.old] using this
      rw [e2]

theorem mem_cells (cs : List Crd) (i : List Nat) : i ∈ Spec.cells cs ↔ SubsetCollapse.Spec.CellOf (grid cs) i :=
  SubsetCollapse.mem_indices (fun _ _ => 0) ⟨"", none, none, none⟩ (grid cs) i

theorem nodup_cells (cs : List Crd) : (Spec.cells cs).Nodup :=
  SubsetCollapse.nodup_indices (fun _ _ => 0) ⟨"", none, none, none⟩ (grid cs)

open Classical in
theorem cells_perm {asked : List Asked} {cs cs' : List Crd} {f : Nat → List Nat} (h : SubsetCollapse.Spec.Cut asked (grid cs) (grid cs') f) :
    ((Spec.cells cs').map (SubsetCollapse.Spec.old f)).Perm ((Spec.cells cs).filter (fun i => decide (Spec.Within asked cs i))) := by
  rw [List.perm_ext_iff_of_nodup]
  · intro i
    rw [List.mem_map, List.mem_filter, decide_eq_true_eq]
    constructor
    · rintro ⟨j, hj, rfl⟩
      obtain ⟨h1, h2⟩ := SubsetCollapse.old_cell h ((mem_cells cs' j).1 hj)
      exact ⟨(mem_cells cs _).2 h1, h2⟩
    · rintro ⟨h1, h2⟩
      obtain ⟨j, h3, h4⟩ := SubsetCollapse.old_onto h ((mem_cells cs i).1 h1) h2
      exact ⟨j, (mem_cells cs' j).2 h3, h4⟩
  · apply List.Nodup.map_on _ (nodup_cells cs')
    intro i hi j hj e
    apply List.ext_getElem?
    intro k
    exact (SubsetCollapse.old_inj h ((mem_cells cs' i).1 hi) ((mem_cells cs' j).1 hj) k).1 (by rw [e])
  · exact (nodup_cells cs).filter _

theorem pairs_both (n1 n2 : String) (v w : RVar) (h : v.crds = w.crds) :
    StatsCmd.Spec.pairs (Spec.dataSet n1 v).values (Spec.dataSet n2 w).values = (Spec.cells v.crds).filterMap (Spec.both v w) := by
  unfold Spec.dataSet
  dsimp only
  rw [← h]
  generalize Spec.cells v.crds = l
  induction l with
  | nil => rfl
  | cons i t ih =>
    rw [List.filterMap_cons]
    simp only [List.map_cons, Spec.both]
    cases v.value i <;> cases w.value i <;> simp only [StatsCmd.Spec.pairs] <;> rw [ih] <;> rfl

theorem blanked_value (asked : List Asked) (v : RVar) (i : List Nat) :
    (Spec.Within asked v.crds i → (Spec.blanked asked v).value i = v.value i) ∧ (¬ Spec.Within asked v.crds i → (Spec.blanked asked v).value i = none) := by
  unfold Spec.blanked SubsetGrid.Var.value
  dsimp only
  constructor
  · intro h
    simp only [h, decide_true, Bool.not_true, Bool.false_or]
    cases v.mask <;> simp
  · intro h
    simp only [h, decide_false, Bool.not_false, Bool.true_or, if_true]

theorem blanked_both (asked : List Asked) (v w : RVar) (h : v.crds = w.crds) :
    (Spec.cells v.crds).filterMap (Spec.both (Spec.blanked asked v) (Spec.blanked asked w)) = Spec.inside asked v w := by
  unfold Spec.inside
  generalize Spec.cells v.crds = l
  induction l with
  | nil => rfl
  | cons i t ih =>
    rw [List.filterMap_cons, List.filter_cons]
    by_cases hi : Spec.Within asked v.crds i
    · simp only [hi, decide_true, if_true, List.filterMap_cons]
      rw [ih]
      have : Spec.both (Spec.blanked asked v) (Spec.blanked asked w) i = Spec.both v w i := by
        unfold Spec.both
        rw [(blanked_value asked v i).1 hi, (blanked_value asked w i).1 (h ▸ hi)]
      rw [this]
    · have : Spec.both (Spec.blanked asked v) (Spec.blanked asked w) i = none := by
        unfold Spec.both
        rw [(blanked_value asked v i).2 hi]
      rw [this]
      simp only [hi, decide_false]
      exact ih

/-- **C223.** `cis subset` of two gridded variables on one grid by limits that leave something (C188), and `cis stats` of the result. `cis stats` accepts the two if and only if
at least two cells in all the ranges miss neither value, and the number of points, the means, the standard deviations, and the mean and the standard
deviation of the difference are those of exactly these cells, also where the subset turns the longitudes. And all that it prints and saves is what it
prints and saves for all the data, masked at the cells not in the ranges. -/
theorem c223_subset_stats (e : Env) (v w : RVar) (cs : List Crd) (asked : List Asked) (hv : v.crds = cs) (hw : w.crds = cs)
    (hnames : (cs.map (fun c => c.name)).Nodup) (hne : asked ≠ []) (hword : ∀ x ∈ asked, SubsetGrid.Spec.Words x)
    (hshape : ∀ x ∈ asked, ¬ "shape".toList <+: x.dim) (hsays : ∀ x ∈ asked, SubsetCmd.Spec.Denotes e x.dim x.first x.second x.range)
    (hfind : ∀ x ∈ asked, x.coord ∈ cs ∧ CollapseCmd.Spec.Means (cs.map Crd.toCrd) (String.ofList x.dim) x.coord.toCrd)
    (hdims : (asked.map SubsetGrid.Spec.Asked.dim).Nodup) (hdiff : (asked.map (fun x => x.coord.name)).Nodup)
    (hsuits : ∀ x ∈ asked, SubsetGrid.Spec.Suits e x)
    (hsome : ∀ x ∈ asked, ∃ p ∈ x.coord.points, Inside x.coord x.range p) (n1 n2 : String) (shown : Option ℝ → String) (output : Bool) :
    ∃ r1 r2, SubsetGrid.run e [v, w] (Parse.joinBy ',' (asked.map (fun x => Limits.Spec.render x.dim x.first x.second))) = .ok [r1, r2] ∧
    ((∃ rep, StatsCmd.run shown [Spec.dataSet n1 r1, Spec.dataSet n2 r2] output = .ok rep) ↔ 2 ≤ (Spec.inside asked v w).length) ∧
    StatsCmd.run shown [Spec.dataSet n1 r1, Spec.dataSet n2 r2] output =
      StatsCmd.run shown [Spec.dataSet n1 (Spec.blanked asked v), Spec.dataSet n2 (Spec.blanked asked w)] output ∧
    (2 ≤ (Spec.inside asked v w).length → ∃ rs, StatsCmd.analyze (Spec.dataSet n1 r1) (Spec.dataSet n2 r2) = .ok rs ∧
      StatsCmd.Spec.Reports rs "Number of points" "num_points" (Spec.inside asked v w).length ∧
      StatsCmd.Spec.Reports rs "Mean value of dataset 1" "dataset_mean_1" (StatsCmd.Spec.avg ((Spec.inside asked v w).map Prod.fst)) ∧
      StatsCmd.Spec.Reports rs "Mean value of dataset 2" "dataset_mean_2" (StatsCmd.Spec.avg ((Spec.inside asked v w).map Prod.snd)) ∧
      StatsCmd.Spec.Reports rs "Standard deviation for dataset 1" "dataset_stddev_1" (StatsCmd.Spec.sd ((Spec.inside asked v w).map Prod.fst)) ∧
      StatsCmd.Spec.Reports rs "Standard deviation for dataset 2" "dataset_stddev_2" (StatsCmd.Spec.sd ((Spec.inside asked v w).map Prod.snd)) ∧
      StatsCmd.Spec.Reports rs "Mean of absolute difference" "abs_mean" (StatsCmd.Spec.avg ((Spec.inside asked v w).map (fun p => p.2 - p.1))) ∧
      StatsCmd.Spec.Reports rs "Standard deviation of absolute difference" "abs_stddev"
        (StatsCmd.Spec.sd ((Spec.inside asked v w).map (fun p => p.2 - p.1)))) := by
  have hgrid : ∀ u ∈ [v, w], u.crds = cs := by
    intro u hu
    simp only [List.mem_cons, List.not_mem_nil, or_false] at hu
    rcases hu with rfl | rfl
    · exact hv
    · exact hw
  obtain ⟨rs, hrun, hsub⟩ := (SubsetGrid.c188_subset e [v, w] cs (by simp) hgrid hnames asked hne hword hshape hsays hfind hdims hdiff hsuits).1 hsome
  obtain ⟨r1, r2, rfl⟩ : ∃ r1 r2, rs = [r1, r2] := List.length_eq_two.1 hsub.length_eq.symm
  refine ⟨r1, r2, hrun, ?_⟩
  obtain ⟨cs', f, hf, -, hall⟩ := same_cells e [v, w] [r1, r2] cs (by simp) hgrid hnames asked hne hword hshape hsays hfind hdims hdiff hsuits hrun
  obtain ⟨a1, a2⟩ := hall 0 v r1 rfl rfl
  obtain ⟨b1, b2⟩ := hall 1 w r2 rfl rfl
  have hlen : ∀ x y : RVar, x.crds = y.crds → (Spec.dataSet n1 x).values.length = (Spec.dataSet n2 y).values.length := by
    intro x y h
    simp [Spec.dataSet, h]
  have hin : (StatsCmd.Spec.pairs (Spec.dataSet n1 r1).values (Spec.dataSet n2 r2).values).Perm (Spec.inside asked v w) := by
    rw [pairs_both n1 n2 r1 r2 (a1.trans b1.symm), a1]
    have : (Spec.cells cs').filterMap (Spec.both r1 r2) = ((Spec.cells cs').map (SubsetCollapse.Spec.old f)).filterMap (Spec.both v w) := by
      rw [List.filterMap_map]
      apply List.filterMap_congr
      intro i hi
      have hi := (mem_cells cs' i).1 hi
      simp only [Function.comp_apply, Spec.both, a2 i hi, b2 i hi]
    rw [this]
    unfold Spec.inside
    rw [hv]
    exact (cells_perm hf).filterMap _
  have hbl : StatsCmd.Spec.pairs (Spec.dataSet n1 (Spec.blanked asked v)).values (Spec.dataSet n2 (Spec.blanked asked w)).values = Spec.inside asked v w := by
    have hb : (Spec.blanked asked v).crds = (Spec.blanked asked w).crds := hv.trans hw.symm
    rw [pairs_both n1 n2 _ _ hb]
    exact blanked_both asked v w (hv.trans hw.symm)
  have hb : (Spec.blanked asked v).crds = (Spec.blanked asked w).crds := hv.trans hw.symm
  have heq : StatsCmd.analyze (Spec.dataSet n1 r1) (Spec.dataSet n2 r2) =
      StatsCmd.analyze (Spec.dataSet n1 (Spec.blanked asked v)) (Spec.dataSet n2 (Spec.blanked asked w)) :=
    StatsCmd.c185_points_only _ _ _ _ ⟨rfl, rfl⟩ (hlen r1 r2 (a1.trans b1.symm)) (hlen _ _ hb) (by rw [hbl]; exact hin)
  refine ⟨?_, ?_, ?_⟩
  · rw [StatsCmd.c185_accepted]
    constructor
    · rintro ⟨a, b, h, -, h2⟩
      injection h with h3 h4
      injection h4 with h4
      subst h3 h4
      rw [hin.length_eq] at h2
      exact h2
    · intro h
      exact ⟨_, _, rfl, hlen r1 r2 (a1.trans b1.symm), by rw [hin.length_eq]; exact h⟩
  · unfold StatsCmd.run
    dsimp only
    rw [heq]
  · intro h
    rw [heq]
    have := StatsCmd.c185_values (Spec.dataSet n1 (Spec.blanked asked v)) (Spec.dataSet n2 (Spec.blanked asked w)) (hlen _ _ hb) (by rw [hbl]; exact h)
    rw [hbl] at this
    exact this

/-! ### Not vacuous: `x=[100,250]` -/

noncomputable def exV : RVar := ⟨SubsetCollapse.exGrid, fun i => 10 * (i.getD 0 0 : ℝ) + i.getD 1 0, none⟩

/-- A value in the range is missing. -/
noncomputable def exW : RVar := ⟨SubsetCollapse.exGrid, fun i => i.getD 1 0, some (fun i => i == [1, 2])⟩

theorem ex_lon {p : ℚ} (hp : p ∈ (SubsetGrid.exLon [0, 120, 240, 355]).points) :
    Inside (SubsetGrid.exLon [0, 120, 240, 355]) (.num (some 100) (some 250)) p ↔ p = 120 ∨ p = 240 := by
  constructor
  · intro h
    obtain ⟨h1, h2⟩ := SubsetCol.ex_inside hp h
    simp only [SubsetGrid.exLon, List.mem_cons, List.not_mem_nil, or_false] at hp
    rcases hp with rfl | rfl | rfl | rfl
    · norm_num at h1
    · exact .inl rfl
    · exact .inr rfl
    · norm_num at h2
  · intro h
    unfold SubsetGrid.Spec.Inside
    dsimp only
    rw [if_pos (show (SubsetGrid.exLon [0, 120, 240, 355]).modular = true from rfl)]
    refine ⟨0, 0, 355, SubsetCollapse.ex_ends, ?_, ?_⟩ <;> rcases h with rfl | rfl <;> norm_num

theorem ex_within {i : List Nat} (hi : i ∈ Spec.cells SubsetCollapse.exGrid) :
    Spec.Within SubsetCollapse.exAsked SubsetCollapse.exGrid i ↔ i.getD 1 0 = 1 ∨ i.getD 1 0 = 2 := by
  have hc : i = [0, 0] ∨ i = [0, 1] ∨ i = [0, 2] ∨ i = [0, 3] ∨ i = [1, 0] ∨ i = [1, 1] ∨ i = [1, 2] ∨ i = [1, 3] := by
    have : Spec.cells SubsetCollapse.exGrid = [[0, 0], [0, 1], [0, 2], [0, 3], [1, 0], [1, 1], [1, 2], [1, 3]] := by decide +kernel
    rw [this] at hi
    simpa using hi
  have key : ∀ a b : Nat, ∀ p, (SubsetGrid.exLon [0, 120, 240, 355]).points[b]? = some p →
      (Spec.Within SubsetCollapse.exAsked SubsetCollapse.exGrid [a, b] ↔ p = 120 ∨ p = 240) := by
    intro a b p hp
    rw [← ex_lon (List.mem_of_getElem? hp)]
    constructor
    · intro h
      obtain ⟨q, h1, h2⟩ := h 1 b _ rfl rfl _ (List.mem_singleton.2 rfl) rfl
      rw [hp] at h1
      cases h1
      exact h2
    · intro h k n c hn hc x hx hxc
      rw [SubsetCollapse.exAsked, List.mem_singleton] at hx
      subst hx
      match k with
      | 0 =>
        cases hc
        exact absurd hxc (by decide)
      | 1 =>
        cases hc
        cases hn
        exact ⟨p, hp, h⟩
      | k + 2 => simp at hn
  rcases hc with rfl | rfl | rfl | rfl | rfl | rfl | rfl | rfl
  all_goals rw [key _ _ _ rfl]
  all_goals norm_num

theorem ex_inside : Spec.inside SubsetCollapse.exAsked exV exW = [(1, 1), (2, 2), (11, 1)] := by
  unfold Spec.inside
  have : ((Spec.cells exV.crds).filter (fun i => @decide (Spec.Within SubsetCollapse.exAsked exV.crds i) (Classical.propDecidable _))) =
      (Spec.cells SubsetCollapse.exGrid).filter (fun i => decide (i.getD 1 0 = 1 ∨ i.getD 1 0 = 2)) := by
    apply List.filter_congr
    intro i hi
    rw [decide_eq_decide]
    exact ex_within hi
  rw [this]
  have h2 : (Spec.cells SubsetCollapse.exGrid).filter (fun i => decide (i.getD 1 0 = 1 ∨ i.getD 1 0 = 2)) = [[0, 1], [0, 2], [1, 1], [1, 2]] := by decide +kernel
  rw [h2]
  simp [Spec.both, exV, exW, SubsetGrid.Var.value]
  norm_num

/-- The hypotheses of `c223_subset_stats` hold; the mean of the second variable is 4/3. -/
example (shown : Option ℝ → String) : ∃ r1 r2 rs, SubsetGrid.run SubsetCollapse.exEnv [exV, exW] "x=[100,250]".toList = .ok [r1, r2] ∧
    StatsCmd.analyze (Spec.dataSet "a" r1) (Spec.dataSet "b" r2) = .ok rs ∧
    StatsCmd.Spec.Reports rs "Number of points" "num_points" 3 ∧ StatsCmd.Spec.Reports rs "Mean value of dataset 2" "dataset_mean_2" (4 / 3) := by
  have hmem : ∀ x ∈ SubsetCollapse.exAsked, x = ⟨"x".toList, "100".toList, some "250".toList, SubsetGrid.exLon [0, 120, 240, 355], .num (some 100) (some 250)⟩ := by
    simp [SubsetCollapse.exAsked]
  obtain ⟨r1, r2, h1, -, -, h2⟩ := c223_subset_stats SubsetCollapse.exEnv exV exW SubsetCollapse.exGrid SubsetCollapse.exAsked rfl rfl
    (by decide +kernel) (by simp [SubsetCollapse.exAsked])
    (fun x hx => by rw [hmem x hx]; exact ⟨⟨by decide, by decide⟩, ⟨by decide, by decide⟩, fun s hs => by cases hs; exact ⟨by decide, by decide⟩⟩)
    (fun x hx => by rw [hmem x hx]; decide)
    (fun x hx => by
      rw [hmem x hx]
      exact ⟨by decide, .inr (.inr ⟨by decide, 100, by decide +kernel, rfl⟩), .inr ⟨_, rfl, .inr (.inr ⟨by decide, 250, by decide +kernel, rfl⟩)⟩,
        fun _ => ⟨100, 250, rfl, rfl, by norm_num, by norm_num⟩⟩)
    (fun x hx => by rw [hmem x hx]; exact ⟨by simp [SubsetCollapse.exGrid], SubsetCollapse.ex_means⟩)
    (by decide) (by decide +kernel)
    (fun x hx => by
      rw [hmem x hx]
      exact ⟨rfl, fun _ => ⟨by decide +kernel, fun s hs => by cases hs; decide +kernel, 0, 355, SubsetCollapse.ex_ends, by norm_num, by norm_num⟩⟩)
    (fun x hx => by
      rw [hmem x hx]
      exact ⟨120, by simp [SubsetGrid.exLon], (ex_lon (by simp [SubsetGrid.exLon])).2 (.inl rfl)⟩) "a" "b" shown false
  rw [(by decide +kernel : Parse.joinBy ',' (SubsetCollapse.exAsked.map (fun x => Limits.Spec.render x.dim x.first x.second)) = "x=[100,250]".toList)] at h1
  obtain ⟨rs, g1, g2, -, g3, -⟩ := h2 (by rw [ex_inside]; simp)
  refine ⟨r1, r2, rs, h1, g1, ?_, ?_⟩
  · rw [ex_inside] at g2
    simpa using g2
  · rw [ex_inside] at g3
    have : StatsCmd.Spec.avg (List.map Prod.snd [((1 : ℝ), (1 : ℝ)), (2, 2), (11, 1)]) = 4 / 3 := by norm_num [StatsCmd.Spec.avg]
    rwa [this] at g3

end Cis.SubsetGridStats
