import Verif.Agg.Reorder
import Verif.Agg.BinCommand
set_option linter.unusedSectionVars false
set_option linter.unusedSimpArgs false

/-!
# The order of the points does not matter to `cis col` onto a grid

The points of each variable in another order (each variable in one of its own): the same output cubes, or the same error, for all options, with no
condition on the grid of the sample but that its bounds are as many as its points.
-/

namespace Cis.Agg
open Cis.DataIndex
variable {K : Type} [LinearOrder K]

/-- The points of a cell, whatever the grid. -/
def dimMembers (ds : List (Dim K)) (masked : Nat → Bool) (n : Nat) (cell : List Nat) : List Nat :=
  (List.range n).filter (fun p => gridMask ds masked p && decide (indexColumn ds p = cell.map Int.ofNat))

/-- The value of each cell of any grid: missing where the sample is missing, otherwise the kernel's value for its points. -/
theorem binOnto_general {β : Type} (k : List ℚ → Option β) (hk : Spec.Kernel k) (ds : List (Dim K)) (hl : ∀ d ∈ ds, d.1.points.length = d.1.bounds.length)
    (masked : Nat → Bool) (vals : Nat → ℚ) (n : Nat) (hn : 0 < n) (order : List Nat) (ho : DataIndex.Spec.Sorts n (cellNumber ds masked) order)
    (miss : List Nat → Bool) :
    binOnto k ds masked vals order miss = some (fun cell => if miss cell then none else k ((dimMembers ds masked n cell).map vals)) := by
  obtain ⟨slices, hs, hmem, hnd, hcomp⟩ := slices_general hl masked n hn order ho
  unfold binOnto
  rw [hs, Option.map_some]
  refine congrArg some (funext fun cell => ?_)
  have hcell : (cell.map Int.ofNat).map Int.toNat = cell := by
    rw [List.map_map]
    exact (List.map_congr_left (fun a _ => by simp [Function.comp])).trans (List.map_id cell)
  cases hm : miss cell with
  | true =>
    rw [if_pos rfl]
    rw [foldl_setCell_other k vals _ _ cell]
    intro s hs' e
    have := (List.mem_filter.1 hs').2
    rw [e, hcell, hm] at this
    simp at this
  | false =>
    rw [if_neg (by simp)]
    by_cases hex : ∃ s ∈ slices, s.1 = cell.map Int.ofNat
    · obtain ⟨s, hsm, he⟩ := hex
      rw [foldl_setCell k vals _ _ cell s (List.mem_filter.2 ⟨hsm, by rw [he, hcell, hm]; rfl⟩) he
        (hnd.sublist (List.Sublist.map _ List.filter_sublist)) rfl]
      apply hk.perm
      apply List.Perm.map
      obtain ⟨h3, h4⟩ := hmem s hsm
      refine (List.perm_ext_iff_of_nodup h3 (List.nodup_range.filter _)).2 ?_
      intro p
      rw [h4, he]
      simp [AtColumn]
    · push Not at hex
      rw [foldl_setCell_other k vals _ _ cell (fun s hs' => hex s (List.mem_filter.1 hs').1)]
      have : dimMembers ds masked n cell = [] := by
        rw [List.eq_nil_iff_forall_not_mem]
        intro p hpm
        simp only [dimMembers, List.mem_filter, List.mem_range, Bool.and_eq_true, decide_eq_true_eq] at hpm
        obtain ⟨s, hs1, hs2⟩ := hcomp p hpm.1 _ ⟨hpm.2.1, hpm.2.2⟩
        exact hex s hs1 hs2
      rw [this]
      exact hk.empty.symm

/-- The same coordinate with the points of the first, rearranged. -/
def FollowsDim (g : Nat → Nat) (n : Nat) (d d' : Dim K) : Prop := d'.1 = d.1 ∧ ∀ p < n, d'.2 p = d.2 (g p)

theorem followsDim (g : Nat → Nat) (n : Nat) (ds ds' : List (Dim K)) (h : List.Forall₂ (FollowsDim g n) ds ds') (masked masked' : Nat → Bool)
    (hm : ∀ p < n, masked' p = masked (g p)) (p : Nat) (hp : p < n) : gridMask ds' masked' p = gridMask ds masked (g p) ∧
      indexColumn ds' p = indexColumn ds (g p) := by
  unfold gridMask indexColumn
  induction h with
  | nil => exact ⟨rfl, rfl⟩
  | cons h1 _ ih =>
    obtain ⟨e1, e3⟩ := h1
    obtain ⟨i1, i2⟩ := ih
    rw [hm p hp] at i1 ⊢
    simp only [List.map_cons, List.all_cons, e1, e3 p hp, i1, i2, and_self]

/-- Rearranged points give the same cells. -/
theorem binOnto_reorder {β : Type} (k : List ℚ → Option β) (hk : Spec.Kernel k) (l : List Nat) (n : Nat) (hl : l.Perm (List.range n))
    (ds ds' : List (Dim K)) (hb : ∀ d ∈ ds, d.1.points.length = d.1.bounds.length) (h : List.Forall₂ (FollowsDim (fun p => l.getD p 0) n) ds ds')
    (masked masked' : Nat → Bool) (vals vals' : Nat → ℚ)
    (hm : ∀ p < n, masked' p = masked (l.getD p 0)) (hv : ∀ p < n, vals' p = vals (l.getD p 0))
    (order order' : List Nat) (ho : DataIndex.Spec.Sorts n (cellNumber ds masked) order)
    (ho' : DataIndex.Spec.Sorts n (cellNumber ds' masked') order') (miss : List Nat → Bool) :
    binOnto k ds' masked' vals' order' miss = binOnto k ds masked vals order miss := by
  have hlen : l.length = n := by simpa using hl.length_eq
  have hb' : ∀ d ∈ ds', d.1.points.length = d.1.bounds.length := by
    clear ho ho'
    induction h with
    | nil => simp
    | cons h1 _ ih =>
      intro d hd
      rcases List.mem_cons.1 hd with rfl | hd
      · rw [h1.1]; exact hb _ (by simp)
      · exact ih (fun d hd => hb d (by simp [hd])) d hd
  rcases Nat.eq_zero_or_pos n with rfl | hn
  · have e1 : order = [] := by simpa using ho.1
    have e2 : order' = [] := by simpa using ho'.1
    subst e1; subst e2
    rfl
  · rw [binOnto_general k hk ds' hb' _ _ n hn order' ho', binOnto_general k hk ds hb masked vals n hn order ho]
    refine congrArg some (funext fun cell => ?_)
    split
    · rfl
    · apply hk.perm
      have hperm : ((dimMembers ds' masked' n cell).map (fun p => l.getD p 0)).Perm (dimMembers ds masked n cell) := by
        unfold dimMembers
        rw [List.filter_congr (q := (fun p => gridMask ds masked p && decide (indexColumn ds p = cell.map Int.ofNat)) ∘ (fun p => l.getD p 0)),
          ← List.filter_map, map_getD_range l 0 n hlen]
        · exact hl.filter _
        · intro p hp
          have := followsDim (fun p => l.getD p 0) n ds ds' h masked masked' hm p (List.mem_range.1 hp)
          simp only [this.1, this.2, Function.comp]
      have := hperm.map vals
      rw [List.map_map] at this
      refine List.Perm.trans (List.Perm.of_eq ?_) this
      refine List.map_congr_left (fun p hp => ?_)
      exact hv p (List.mem_range.1 (List.mem_filter.1 hp).1)

end Cis.Agg

namespace Cis.BinCmd
open Cis.Str
open Cis.ColOpts hiding Err
open Cis.Agg Cis.DataIndex

/-- The variable with its points in another order: those of all its coordinates and its values rearranged alike. `l` lists the old positions in the
new order. -/
def Spec.reorder (l : List Nat) (v : Var) : Var where
  names := v.names
  coord := fun h => (v.coord h).map (fun pts => l.map (fun p => pts.getD p 0))
  vals := l.map (fun (p : Nat) => (v.vals[p]?).join)

/-- `v'` is `v` with its points in another order. -/
def Spec.Reordered (v v' : Var) : Prop := ∃ l : List Nat, l.Perm (List.range v.vals.length) ∧ v' = Spec.reorder l v

/-- The bounds of the sample, where it has any, are as many as its points. -/
def Spec.Bounded (s : Sample) : Prop := ∀ c ∈ s.coords, ∀ b, c.bounds = some b → b.length = c.points.length

theorem stat_ok (k : Colloc.Kernel) (hk : k.dataOnly) : Agg.Spec.Kernel (stat k) := by
  constructor
  · intro a b h
    exact Colloc.c15_order_independent k hk _ _ _ _ _ _ _ _ (h.map _)
  · exact (Colloc.c15_empty k _ _ _ _).2 rfl

theorem dataOnly_of {k : Colloc.Kernel} (h : dataOnly k = true) : k.dataOnly := by
  cases k <;> simp_all [dataOnly, Colloc.Kernel.dataOnly]

theorem mapOf_reorder (s : Sample) (l : List Nat) (v : Var) : mapOf s (Spec.reorder l v) = mapOf s v := by
  have : has (Spec.reorder l v) = has v := by
    funext h
    unfold has
    split
    · unfold Spec.reorder
      simp
    · rfl
  unfold mapOf
  rw [this]

theorem column_reorder (s : Sample) (l : List Nat) (v : Var) (hl : l.Perm (List.range v.vals.length))
    (hsize : ∀ h p, v.coord h = some p → p.length = v.vals.length) (h p : Nat) (hp : p < v.vals.length) :
    column s (Spec.reorder l v) h p = column s v h (l.getD p 0) := by
  have hll : l.length = v.vals.length := by simpa using hl.length_eq
  have hq : l.getD p 0 < v.vals.length := by
    have : l.getD p 0 ∈ l := by
      rw [List.getD_eq_getElem?_getD, List.getElem?_eq_getElem (by omega : p < l.length)]
      exact List.getElem_mem _
    exact List.mem_range.1 (hl.mem_iff.1 this)
  have hget : ∀ (x : List ℚ), (l.map (fun p => x.getD p 0)).getD p 0 = x.getD (l.getD p 0) 0 := by
    intro x
    simp [List.getD_eq_getElem?_getD, List.getElem?_eq_getElem (by omega : p < l.length)]
  have hmap : ∀ (x : List ℚ) (f : ℚ → ℚ), x.length = v.vals.length →
      ((l.map (fun p => x.getD p 0)).map f).getD p 0 = (x.map f).getD (l.getD p 0) 0 := by
    intro x f hx
    rw [List.getD_eq_getElem?_getD, List.getElem?_map, List.getD_eq_getElem?_getD, List.getElem?_map, List.getElem?_map,
      List.getElem?_eq_getElem (by omega : p < l.length), List.getElem?_eq_getElem (by omega : l.getD p 0 < x.length)]
    simp only [Option.map_some, Option.getD_some]
    congr 1
    have e : l[p] = l.getD p 0 := by rw [List.getD_eq_getElem?_getD, List.getElem?_eq_getElem (by omega : p < l.length)]; rfl
    rw [e, List.getD_eq_getElem?_getD, List.getElem?_eq_getElem (by omega : l.getD p 0 < x.length)]
    rfl
  unfold column
  split
  swap
  · rfl
  rename_i hh
  unfold moved
  cases lonStart s.coords with
  | none =>
    dsimp only [Spec.reorder]
    cases v.coord ⟨h, hh⟩ with
    | none => rfl
    | some x => exact hget x
  | some st =>
    dsimp only
    unfold Lon.ungriddedSetRange
    cases h1 : v.coord 1 with
    | none =>
      have : (Spec.reorder l v).coord 1 = none := by unfold Spec.reorder; simp [h1]
      rw [this]
      dsimp only [Spec.reorder]
      cases v.coord ⟨h, hh⟩ with
      | none => rfl
      | some x => exact hget x
    | some x =>
      have : (Spec.reorder l v).coord 1 = some (l.map (fun p => x.getD p 0)) := by unfold Spec.reorder; simp [h1]
      rw [this]
      dsimp only
      by_cases he : (⟨h, hh⟩ : Fin 5) = 1
      · rw [he, Function.update_self, Function.update_self]
        simp only [Option.getD_some, List.map_map]
        have := hmap x ((fun l : ℚ => if l ≥ st + 360 then l - 360 else l) ∘ fun l => if l < st then l + 360 else l) (hsize 1 x h1)
        rw [List.map_map] at this
        exact this
      · rw [Function.update_of_ne he, Function.update_of_ne he]
        dsimp only [Spec.reorder]
        cases v.coord ⟨h, hh⟩ with
        | none => rfl
        | some y => exact hget y

theorem dims_mapM {E : Type} (n : Nat) (g : Nat → Nat) (F : E → Option (DataIndex.Coord ℚ)) (a b : E → Nat → ℚ) (h : ∀ e, ∀ p < n, b e p = a e (g p)) :
    ∀ (m : List E), (m.mapM (fun e => (F e).map (fun c => (c, a e))) = none ∧ m.mapM (fun e => (F e).map (fun c => (c, b e))) = none) ∨
      ∃ ds ds', m.mapM (fun e => (F e).map (fun c => (c, a e))) = some ds ∧ m.mapM (fun e => (F e).map (fun c => (c, b e))) = some ds' ∧
        List.Forall₂ (FollowsDim g n) ds ds' ∧ ∀ d ∈ ds, ∃ e ∈ m, F e = some d.1 := by
  intro m
  induction m with
  | nil => exact Or.inr ⟨[], [], rfl, rfl, List.Forall₂.nil, by simp⟩
  | cons e t ih =>
    rw [List.mapM_cons, List.mapM_cons]
    cases hF : F e with
    | none => exact Or.inl ⟨rfl, rfl⟩
    | some c =>
      rcases ih with ⟨h1, h2⟩ | ⟨ds, ds', h1, h2, h3, h4⟩
      · left; rw [h1, h2]; exact ⟨rfl, rfl⟩
      · right
        refine ⟨(c, a e) :: ds, (c, b e) :: ds', by rw [h1]; rfl, by rw [h2]; rfl, List.Forall₂.cons ⟨rfl, h e⟩ h3, ?_⟩
        intro d hd
        rcases List.mem_cons.1 hd with rfl | hd
        · exact ⟨e, by simp, hF⟩
        · obtain ⟨e', he', h'⟩ := h4 d hd
          exact ⟨e', by simp [he'], h'⟩

theorem boundsOf_length {s : Sample} (hb : Spec.Bounded s) {c : SCoord} (hc : c ∈ s.coords) {b : List (ℚ × ℚ)} (h : boundsOf c = some b) :
    c.points.length = b.length := by
  unfold boundsOf at h
  cases hcb : c.bounds with
  | some b0 =>
    rw [hcb] at h
    rw [← Option.some.inj h]
    exact (hb c hc b0 hcb).symm
  | none =>
    rw [hcb] at h
    dsimp only at h
    split at h
    · cases h
    · rw [← Option.some.inj h]
      split
      · unfold guessLatBounds
        split
        · rw [List.length_map, guessBounds_length]
        · rw [guessBounds_length]
      · rw [guessBounds_length]

theorem binVar_reorder (sort sort' : Nat → (Nat → Int) → List Nat) (hs : ∀ n key, DataIndex.Spec.Sorts n key (sort n key))
    (hs' : ∀ n key, DataIndex.Spec.Sorts n key (sort' n key)) (p : Plan) (kname : Str) (k : Colloc.Kernel) (hk : k.dataOnly) (s : Sample)
    (hb : Spec.Bounded s) (v v' : Var) (hsize : ∀ h x, v.coord h = some x → x.length = v.vals.length) (hr : Spec.Reordered v v') :
    binVar sort' p kname k s v' = binVar sort p kname k s v := by
  obtain ⟨l, hl, rfl⟩ := hr
  have hll : l.length = v.vals.length := by simpa using hl.length_eq
  have hlen : (Spec.reorder l v).vals.length = v.vals.length := by unfold Spec.reorder; simp [hll]
  have hget : ∀ i < v.vals.length, ((Spec.reorder l v).vals[i]?).join = ((v.vals[l.getD i 0]?).join) := by
    intro i hi
    unfold Spec.reorder
    simp [List.getElem?_eq_getElem (by omega : i < l.length), List.getD_eq_getElem?_getD]
  unfold binVar
  rw [mapOf_reorder]
  split
  · rfl
  · have hd : ∀ v : Var, dimsOf s v = (mapOf s v).mapM (fun e => ((s.coords[e.ci]?).bind (fun c => (boundsOf c).map (fun b => (⟨c.points, b⟩ : DataIndex.Coord ℚ)))).map
        (fun c => (c, column s v e.hpi))) := by
      intro v
      unfold dimsOf
      congr 1
      funext e
      cases s.coords[e.ci]? with
      | none => rfl
      | some c =>
        simp only [Option.bind_some]
        cases boundsOf c <;> rfl
    rw [hd, hd, mapOf_reorder]
    rcases dims_mapM v.vals.length (fun p => l.getD p 0) (fun e : MapEntry => (s.coords[e.ci]?).bind (fun c => (boundsOf c).map (fun b => (⟨c.points, b⟩ : DataIndex.Coord ℚ))))
      (fun e => column s v e.hpi) (fun e => column s (Spec.reorder l v) e.hpi)
      (fun e p hp => column_reorder s l v hl hsize e.hpi p hp) (mapOf s v) with ⟨h1, h2⟩ | ⟨ds, ds', h1, h2, h3, h4⟩
    · rw [h1, h2]
    · rw [h1, h2]
      dsimp only
      rw [binOnto_reorder (stat k) (stat_ok k hk) l v.vals.length hl ds ds' ?_ h3 (fun (i : Nat) => ((v.vals[i]?).join).isNone) _
        (fun (i : Nat) => ((v.vals[i]?).join).getD 0) _ (fun i hi => by rw [hget i hi]) (fun i hi => by rw [hget i hi]) (sort v.vals.length (cellNumber ds _)) _ (hs _ _)
        (by rw [hlen]; exact hs' _ _)]
      · rfl
      intro d hd
      obtain ⟨e, he, hF⟩ := h4 d hd
      cases hc : s.coords[e.ci]? with
      | none => rw [hc] at hF; cases hF
      | some c =>
        rw [hc] at hF
        simp only [Option.bind_some] at hF
        cases hbo : boundsOf c with
        | none => rw [hbo] at hF; cases hF
        | some b =>
          rw [hbo] at hF
          have := Option.some.inj hF
          rw [← this]
          exact boundsOf_length hb (List.mem_of_getElem? hc) hbo

/-- **C197** (`cis col` onto a grid). The points of the variables in other orders, the same command: the same variables with the same values in all
cells, or the same error. -/
theorem c197_bin (num : Str → Option ℚ) (kernels : List Str) (sort sort' : Nat → (Nat → Int) → List Nat)
    (hs : ∀ n key, DataIndex.Spec.Sorts n key (sort n key)) (hs' : ∀ n key, DataIndex.Spec.Sorts n key (sort' n key)) (sampleVar : Bool)
    (col kern : Option (Str × Opts)) (s : Sample) (hb : Spec.Bounded s) (vars vars' : List Var)
    (hsize : ∀ v ∈ vars, ∀ h x, v.coord h = some x → x.length = v.vals.length) (hr : List.Forall₂ Spec.Reordered vars vars') :
    run num kernels sort' sampleVar col kern s vars' = run num kernels sort sampleVar col kern s vars := by
  have heach : ∀ (p : Plan) (kname : Str) (k : Colloc.Kernel), k.dataOnly → eachVar sort' p kname k s vars' = eachVar sort p kname k s vars := by
    intro p kname k hk
    induction hr with
    | nil => rfl
    | cons h1 _ ih =>
      rw [eachVar, eachVar, binVar_reorder sort sort' hs hs' p kname k hk s hb _ _ (hsize _ (by simp)) h1, ih (fun v hv => hsize v (by simp [hv]))]
  unfold run
  cases colCommand num kernels sampleVar true false col kern with
  | error e => rfl
  | ok p =>
    dsimp only
    cases p.work with
    | binGrid kname =>
      dsimp only
      cases ColCmd.kernelNamed kname with
      | none => rfl
      | some k =>
        dsimp only
        split
        · rename_i hk
          exact heach p kname k (dataOnly_of hk)
        · rfl
    | _ => rfl

/-- The example of C193 with its first and last points exchanged. -/
example : Spec.Bounded exSample ∧ (∀ h x, exVar.coord h = some x → x.length = exVar.vals.length) ∧
    Spec.Reordered exVar (Spec.reorder [3, 1, 2, 0] exVar) ∧ (Spec.reorder [3, 1, 2, 0] exVar).coord 0 = some [35, 14, 3, 12] ∧
    (Spec.reorder [3, 1, 2, 0] exVar).vals = [some 7, some 5, none, some 1] := by
  refine ⟨?_, ?_, ⟨_, by decide, rfl⟩, rfl, rfl⟩
  · intro c hc b hb
    simp only [exSample, List.mem_cons, List.not_mem_nil, or_false] at hc
    rcases hc with rfl | rfl
    · cases hb
    · cases hb; rfl
  · intro h x hx
    unfold exVar at hx ⊢
    dsimp only at hx
    split at hx
    · cases hx; rfl
    · split at hx
      · cases hx; rfl
      · split at hx
        · cases hx; rfl
        · cases hx

end Cis.BinCmd
