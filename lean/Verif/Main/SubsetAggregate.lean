import Verif.Main.SubsetFiles
import Verif.Agg.Reorder
set_option linter.unusedSectionVars false
set_option linter.unusedSimpArgs false

/-!
# `cis subset` before `cis aggregate`

Nothing new is modelled: `cis subset` is that of `Main/SubsetCommand.lean`, `cis aggregate` that of `Main/AggregateCommand.lean`. A subset that leaves
all valid points in the cells of the grid does not change the aggregate.
-/
namespace Cis.AggCmd
open Cis.Str Cis.Time Cis.SubsetCmd

/-! ### Specification -/

/-- The data as `cis aggregate` uses them: the same coordinates, by number, with the functions from dates to numbers that belong to their units. -/
def Spec.forAggregate (num : Nat → Option (ℚ → ℚ)) (d : SubsetCmd.Data (Option ℚ)) : Data where
  coords := d.coords.map (fun c => ⟨c.stdName, c.longName, c.varName, c.axis, c.attrs, ⟨c.payload.id, c.payload.points, num c.payload.id⟩⟩)
  values := d.values

/-- A point lies in a cell: in each coordinate in the interval of the cell, longitudes modulo 360. -/
def Spec.RowIn : List SubsetCmd.Crd → List Agg.Req → List Nat → SubsetCmd.Spec.Row (Option ℚ) → Prop
  | [], [], [], _ => True
  | c :: t, r :: u, i :: cell, p =>
    (if c.stdName = some "longitude" then ∃ n : ℤ, Agg.Spec.inInterval r i (p.pos c.payload.id + 360 * n) = true
      else Agg.Spec.inInterval r i (p.pos c.payload.id) = true) ∧ Spec.RowIn t u cell p
  | _, _, _, _ => False

/-! ### Proofs -/

variable {meta' : List SubsetCmd.Crd} {num : Nat → Option (ℚ → ℚ)}

/-- The coordinate with the points of these rows. -/
def setRows (R : List (SubsetCmd.Spec.Row (Option ℚ))) : Crd → Crd :=
  Coords.withPayload (fun p : Column => { p with points := R.map (fun r => r.pos p.id) })

theorem forAggregate_coords (meta' : List SubsetCmd.Crd) (num : Nat → Option (ℚ → ℚ)) (rows R : List (SubsetCmd.Spec.Row (Option ℚ))) :
    (Spec.forAggregate num (SubsetCmd.Spec.ofRows meta' R)).coords =
      (Spec.forAggregate num (SubsetCmd.Spec.ofRows meta' rows)).coords.map (setRows R) := by
  unfold Spec.forAggregate SubsetCmd.Spec.ofRows
  simp only [List.map_map]
  rfl

theorem inCell_row (num : Nat → Option (ℚ → ℚ)) (R : List (SubsetCmd.Spec.Row (Option ℚ))) (p : Nat) (r : SubsetCmd.Spec.Row (Option ℚ)) (hr : R[p]? = some r) :
    ∀ (meta' : List SubsetCmd.Crd) (reqs : List Agg.Req) (cell : List Nat),
    AggApi.Spec.InCell ((Spec.forAggregate num (SubsetCmd.Spec.ofRows meta' R)).coords.map Spec.column) reqs cell p ↔ Spec.RowIn meta' reqs cell r
  | [], reqs, cell => by
    cases reqs <;> cases cell <;> simp [Spec.forAggregate, SubsetCmd.Spec.ofRows, AggApi.Spec.InCell, Spec.RowIn]
  | c :: t, [], cell => by simp [Spec.forAggregate, SubsetCmd.Spec.ofRows, AggApi.Spec.InCell, Spec.RowIn]
  | c :: t, q :: u, [] => by simp [Spec.forAggregate, SubsetCmd.Spec.ofRows, AggApi.Spec.InCell, Spec.RowIn]
  | c :: t, q :: u, i :: cell => by
    have ih := inCell_row num R p r hr t u cell
    unfold Spec.forAggregate SubsetCmd.Spec.ofRows at ih ⊢
    simp only [List.map_cons]
    rw [AggApi.Spec.InCell, Spec.RowIn, ih]
    refine and_congr ?_ Iff.rfl
    unfold AggApi.Spec.InCoord Spec.column
    dsimp only
    have e : (R.map (fun r => r.pos c.payload.id)).getD p 0 = r.pos c.payload.id := by simp [List.getD_eq_getElem?_getD, hr]
    rw [e]
    by_cases h : c.stdName = some "longitude" <;> simp [h]

open Classical in
theorem valuesIn_rows (meta' : List SubsetCmd.Crd) (num : Nat → Option (ℚ → ℚ)) (R : List (SubsetCmd.Spec.Row (Option ℚ))) (reqs : List Agg.Req) (cell : List Nat) :
    Spec.valuesIn (Spec.forAggregate num (SubsetCmd.Spec.ofRows meta' R)) reqs cell =
      (R.filter (fun r => decide (Spec.RowIn meta' reqs cell r))).filterMap SubsetCmd.Spec.Row.value := by
  unfold Spec.valuesIn
  have hlen : (Spec.forAggregate num (SubsetCmd.Spec.ofRows meta' R)).values.length = R.length := by simp [Spec.forAggregate, SubsetCmd.Spec.ofRows]
  rw [hlen]
  have h := SubsetCmd.filterMap_filter_range R
    (fun p => decide (AggApi.Spec.InCell ((Spec.forAggregate num (SubsetCmd.Spec.ofRows meta' R)).coords.map Spec.column) reqs cell p))
    (fun r => decide (Spec.RowIn meta' reqs cell r)) SubsetCmd.Spec.Row.value
    (fun i a ha => decide_eq_decide.2 (inCell_row num R i a ha meta' reqs cell))
  have h2 := congrArg (List.filterMap id) h
  rw [List.filterMap_filterMap, List.filterMap_map] at h2
  refine Eq.trans ?_ (h2.trans (by rfl))
  refine List.filterMap_congr fun p hp => ?_
  have hp : p < R.length := List.mem_range.1 (List.mem_filter.1 hp).1
  simp [Spec.forAggregate, SubsetCmd.Spec.ofRows, List.getD_eq_getElem?_getD, List.getElem?_eq_getElem hp]

theorem isCount_unique {g : ℚ × ℚ × ℚ} (hd : 0 < g.2.2) {n m : Nat} (h1 : Agg.Spec.IsCount (some g) n) (h2 : Agg.Spec.IsCount (some g) m) : n = m := by
  obtain ⟨s, e, d⟩ := g
  obtain ⟨-, a2, a3⟩ := h1
  obtain ⟨-, b2, b3⟩ := h2
  dsimp only at hd
  have key : ∀ {n m : Nat}, e ≤ s + (n : ℚ) * d → s + ((m : ℚ) - 1) * d < e → m ≤ n := by
    intro n m h h'
    have h3 : ((m : ℚ) - 1) * d < (n : ℚ) * d := by linarith
    have h4 := lt_of_mul_lt_mul_right h3 hd.le
    have h5 : (m : ℚ) < (n : ℚ) + 1 := by linarith
    have h6 : m < n + 1 := by exact_mod_cast h5
    omega
  exact le_antisymm (key b2 a3) (key a2 b3)

theorem newCoord_unique {c c' : AggApi.Coord} {g : ℚ × ℚ × ℚ} (hd : 0 < g.2.2) {x y : List ℚ × List (ℚ × ℚ)} (hx : AggApi.Spec.NewCoord c (some g) x)
    (hy : AggApi.Spec.NewCoord c' (some g) y) : x = y := by
  obtain ⟨s, e, d⟩ := g
  obtain ⟨x1, x2, x3⟩ := hx
  obtain ⟨y1, y2, y3⟩ := hy
  have hn : x.1.length = y.1.length := isCount_unique hd x2 y2
  refine Prod.ext ?_ ?_
  · refine List.ext_getElem? fun i => ?_
    by_cases hi : i < x.1.length
    · rw [(x3 i hi).1, (y3 i (by omega)).1]
    · rw [List.getElem?_eq_none (by omega), List.getElem?_eq_none (by omega)]
  · refine List.ext_getElem? fun i => ?_
    by_cases hi : i < x.1.length
    · rw [(x3 i hi).2, (y3 i (by omega)).2]
    · rw [List.getElem?_eq_none (by omega), List.getElem?_eq_none (by omega)]

open Classical in
/-- **C216.** `cis subset` with limits that leave all valid points in the cells of a grid, then `cis aggregate` with this grid (starts and ends
written out): each cell has the value it has without the subset, and the coordinates with a grid are the same. A coordinate without a grid has one
cell, from the least to the greatest value that is left. -/
theorem c216_subset_aggregate {β : Type} (k : List ℚ → Option β) (hk : Agg.Spec.Kernel k) (e : Env) (meta' : List SubsetCmd.Crd)
    (hids : (meta'.map (fun c => c.payload.id)).Nodup) (hkeys : (meta'.map SubsetCmd.key).Nodup) (num : Nat → Option (ℚ → ℚ))
    (rows : List (SubsetCmd.Spec.Row (Option ℚ)))
    -- the limits
    (limits : List SubsetCmd.Spec.Asked) (hlim : limits ≠ []) (hleg : SubsetCmd.Spec.Legible e meta' limits) (hone : SubsetCmd.Spec.OneConvention limits rows)
    -- the grid
    (d : Data) (hd : d = Spec.forAggregate num (SubsetCmd.Spec.ofRows meta' rows)) (hwf : d.WF)
    (asked : List Spec.Asked) (hne : asked ≠ [])
    (hword : ∀ a ∈ asked, Limits.Spec.Word ['=', ',', '[', '('] a.dim ∧ Limits.Spec.Word [']', ',', '[', '('] a.first ∧
      Limits.Spec.Word [']', ',', '[', '('] a.last ∧ Limits.Spec.Word [']', ',', '[', '('] a.step)
    (hsays : ∀ a ∈ asked, Spec.Denotes e a) (hout : ∀ a ∈ asked, a.first ≠ "None".toList ∧ a.last ≠ "None".toList)
    (hfind : ∀ a ∈ asked, Coords.lookupCoord standardAxes d.coords (String.ofList a.dim) = some a.coord)
    (hdims : (asked.map Spec.Asked.dim).Nodup) (hdiff : (asked.map Spec.Asked.coord).Nodup)
    (hok : ∀ a ∈ asked, a.grid.1 < a.grid.2.1 ∧ 0 < a.grid.2.2)
    (hconv : ∀ a ∈ asked, AggApi.Spec.Convention (Spec.column a.coord) (some a.grid))
    (reqs : List Agg.Req) (hr : Spec.Grids d asked reqs)
    -- the limits leave a point, and all valid points in the cells
    (hsome : ∃ r ∈ rows, SubsetCmd.Spec.Within limits r)
    (hall : ∀ r ∈ rows, r.value ≠ none → (∃ cell, Spec.RowIn meta' reqs cell r) → SubsetCmd.Spec.Within limits r)
    (sort sort' : (Nat → Int) → List Nat) (hsort : ∀ key, DataIndex.Spec.Sorts d.values.length key (sort key)) :
    ∃ d', SubsetCmd.run e (SubsetCmd.Spec.ofRows meta' rows) (SubsetCmd.Spec.text limits) = .ok d' ∧
      ((∀ key, DataIndex.Spec.Sorts d'.values.length key (sort' key)) →
        ∃ out out', run k sort e d (Parse.joinBy ',' (asked.map (fun a => Limits.Spec.renderGrid a.dim a.first a.last a.step))) = .ok out ∧
          run k sort' e (Spec.forAggregate num d') (Parse.joinBy ',' (asked.map (fun a => Limits.Spec.renderGrid a.dim a.first a.last a.step))) = .ok out' ∧
          (∀ cell, out'.cell cell = out.cell cell) ∧ out'.coords.length = out.coords.length ∧
          (∀ (i : Nat) g, reqs[i]? = some (some g) → out'.coords[i]? = out.coords[i]?) ∧
          ∀ (i : Nat) (c : SubsetCmd.Crd), reqs[i]? = some none → meta'[i]? = some c →
            ∃ lo hi, AggApi.Spec.Least ((rows.filter (fun r => decide (SubsetCmd.Spec.Within limits r))).map (fun r => r.pos c.payload.id)) lo ∧
              AggApi.Spec.Greatest ((rows.filter (fun r => decide (SubsetCmd.Spec.Within limits r))).map (fun r => r.pos c.payload.id)) hi ∧
              out'.coords[i]? = some ([(lo + hi) / 2], [(lo, hi)])) := by
  have hrun := SubsetCmd.c198_rows e meta' hids hkeys limits hlim hleg rows hone
  generalize hR : rows.filter (fun r => decide (SubsetCmd.Spec.Within limits r)) = R at hrun ⊢
  have hRne : R ≠ [] := by
    obtain ⟨r, h1, h2⟩ := hsome
    intro h0
    have : r ∈ R := by rw [← hR]; exact List.mem_filter.2 ⟨h1, by simpa using h2⟩
    rw [h0] at this
    cases this
  have hRsub : ∀ r ∈ R, r ∈ rows := fun r h => by rw [← hR] at h; exact (List.mem_filter.1 h).1
  rw [if_neg hRne] at hrun
  refine ⟨_, hrun, fun hsort' => ?_⟩
  have hco : (Spec.forAggregate num (SubsetCmd.Spec.ofRows meta' R)).coords = d.coords.map (setRows R) := by rw [hd]; exact forAggregate_coords meta' num rows R
  have hvl : (Spec.forAggregate num (SubsetCmd.Spec.ofRows meta' R)).values = (SubsetCmd.Spec.ofRows meta' R).values := rfl
  have hpts : ∀ c ∈ d.coords, c.payload.points = rows.map (fun r => r.pos c.payload.id) := by
    intro c hc
    rw [hd] at hc
    unfold Spec.forAggregate SubsetCmd.Spec.ofRows at hc
    simp only [List.map_map] at hc
    obtain ⟨c0, -, rfl⟩ := List.mem_map.1 hc
    rfl
  have hmem : ∀ a ∈ asked, a.coord ∈ d.coords := fun a ha => lookup_mem _ _ _ _ (hfind a ha)
  have hinj : ∀ c ∈ d.coords, ∀ c' ∈ d.coords, setRows R c = setRows R c' → c = c' := by
    intro c hc c' hc' h
    have hid : c.payload.id = c'.payload.id := by
      have := congrArg (fun x : Crd => x.payload.id) h
      exact this
    exact List.inj_on_of_nodup_map hwf.2.2.2.1 hc hc' hid
  obtain ⟨out, o1, o2, o3, o4⟩ := c182_aggregate k hk sort e d hwf hsort asked hne hword hsays hfind hdims hdiff hok hconv reqs hr
  have htext : (asked.map (fun a : Spec.Asked => ({ a with coord := setRows R a.coord } : Spec.Asked))).map (fun a => Limits.Spec.renderGrid a.dim a.first a.last a.step) =
      asked.map (fun a => Limits.Spec.renderGrid a.dim a.first a.last a.step) := by rw [List.map_map]; rfl
  obtain ⟨out', p1, p2, p3, p4⟩ := c182_aggregate k hk sort' e (Spec.forAggregate num (SubsetCmd.Spec.ofRows meta' R))
    (by
      obtain ⟨w1, w2, w3, w4, w5⟩ := hwf
      refine ⟨fun h0 => w1 (List.map_eq_nil_iff.1 (hco.symm.trans h0)), by rw [hvl]; simpa [SubsetCmd.Spec.ofRows] using hRne, ?_, ?_, ?_⟩
      · intro c hc
        rw [hco] at hc
        obtain ⟨c0, -, rfl⟩ := List.mem_map.1 hc
        show (R.map _).length = (R.map _).length
        rw [List.length_map, List.length_map]
      · rw [hco, List.map_map]; exact w4
      · rw [hco, List.map_map]; exact w5)
    hsort' (asked.map (fun a : Spec.Asked => ({ a with coord := setRows R a.coord } : Spec.Asked))) (by simpa using hne)
    (by intro a ha; obtain ⟨b, hb, rfl⟩ := List.mem_map.1 ha; exact hword b hb)
    (by
      intro a ha; obtain ⟨b, hb, rfl⟩ := List.mem_map.1 ha
      obtain ⟨s1, s2, s3, s4⟩ := hsays b hb
      obtain ⟨n1, n2⟩ := hout b hb
      have saying : ∀ {ext ext' : ℚ → Prop} {s : Str} {q : ℚ}, s ≠ "None".toList → Spec.Says e b.coord.payload ext s q →
          Spec.Says e (setRows R b.coord).payload ext' s q := by
        intro ext ext' s q hs h
        cases h with
        | number q h1 h2 => exact .number q h1 h2
        | date t f h1 h2 h3 => exact .date t f h1 h2 h3
        | default m h1 _ => exact absurd h1 hs
      exact ⟨saying n1 s1, saying n2 s2, s3, s4⟩)
    (by
      intro a ha; obtain ⟨b, hb, rfl⟩ := List.mem_map.1 ha
      rw [hco]
      unfold setRows
      rw [Coords.lookupCoord_map, hfind b hb]
      rfl)
    (by rw [List.map_map]; exact hdims)
    (by
      rw [List.map_map]
      have : (asked.map (Spec.Asked.coord ∘ fun a : Spec.Asked => ({ a with coord := setRows R a.coord } : Spec.Asked))) = (asked.map Spec.Asked.coord).map (setRows R) := by
        rw [List.map_map]; rfl
      rw [this]
      refine List.Nodup.map_on ?_ hdiff
      intro x hx y hy h
      obtain ⟨a, ha, rfl⟩ := List.mem_map.1 hx
      obtain ⟨b, hb, rfl⟩ := List.mem_map.1 hy
      exact hinj _ (hmem a ha) _ (hmem b hb) h)
    (by intro a ha; obtain ⟨b, hb, rfl⟩ := List.mem_map.1 ha; exact hok b hb)
    (by
      intro a ha; obtain ⟨b, hb, rfl⟩ := List.mem_map.1 ha
      intro hl
      have hsub : ∀ x ∈ (Spec.column (setRows R b.coord)).pts, x ∈ (Spec.column b.coord).pts := by
        intro x hx
        obtain ⟨r, hr, rfl⟩ := List.mem_map.1 hx
        show _ ∈ b.coord.payload.points
        rw [hpts _ (hmem b hb)]
        exact List.mem_map.2 ⟨r, hRsub r hr, rfl⟩
      rcases hconv b hb hl with ⟨a1, a2, a3⟩ | ⟨a1, a2, a3, a4⟩
      · exact .inl ⟨a1, a2, fun x hx => a3 x (hsub x hx)⟩
      · exact .inr ⟨a1, a2, a3, fun x hx => a4 x (hsub x hx)⟩)
    reqs
    (by
      obtain ⟨r1, r2, r3⟩ := hr
      refine ⟨by rw [hco, List.length_map]; exact r1, ?_, ?_⟩
      · intro a ha i hi
        obtain ⟨b, hb, rfl⟩ := List.mem_map.1 ha
        rw [hco, List.getElem?_map] at hi
        cases hc : d.coords[i]? with
        | none => rw [hc] at hi; cases hi
        | some c =>
          rw [hc] at hi
          injection hi with hi
          have := hinj c (List.mem_of_getElem? hc) b.coord (hmem b hb) hi
          exact r2 b hb i (by rw [hc, this])
      · intro i c hi hni
        rw [hco, List.getElem?_map] at hi
        cases hc : d.coords[i]? with
        | none => rw [hc] at hi; cases hi
        | some c0 =>
          rw [hc] at hi
          injection hi with hi
          refine r3 i c0 hc (fun hm => hni ?_)
          obtain ⟨b, hb, hbc⟩ := List.mem_map.1 hm
          refine List.mem_map.2 ⟨_, List.mem_map.2 ⟨b, hb, rfl⟩, ?_⟩
          show setRows R b.coord = c
          rw [hbc, hi])
  rw [htext] at p1
  have hlen2 : (Spec.forAggregate num (SubsetCmd.Spec.ofRows meta' R)).coords.length = d.coords.length := by rw [hco, List.length_map]
  refine ⟨out, out', o1, p1, ?_, by rw [p3, o3, hlen2], ?_, ?_⟩
  · intro cell
    rw [p2, o2, hd, valuesIn_rows, valuesIn_rows, ← hR, List.filter_filter]
    congr 1
    clear hsort hsort' o1 o2 o3 o4 p1 p2 p3 p4
    have : ∀ l : List (SubsetCmd.Spec.Row (Option ℚ)), (∀ r ∈ l, r ∈ rows) →
        (l.filter (fun r => decide (Spec.RowIn meta' reqs cell r) && decide (SubsetCmd.Spec.Within limits r))).filterMap SubsetCmd.Spec.Row.value =
          (l.filter (fun r => decide (Spec.RowIn meta' reqs cell r))).filterMap SubsetCmd.Spec.Row.value := by
      intro l hl
      induction l with
      | nil => rfl
      | cons r t ih =>
        have ih := ih (fun x hx => hl x (by simp [hx]))
        by_cases h1 : Spec.RowIn meta' reqs cell r
        · by_cases h2 : SubsetCmd.Spec.Within limits r
          · simp only [List.filter_cons, h1, h2, decide_true, Bool.and_self, if_true, List.filterMap_cons, ih]
          · have hv : r.value = none := by
              by_contra hv
              exact h2 (hall r (hl r (by simp)) hv ⟨cell, h1⟩)
            simp only [List.filter_cons, h1, h2, decide_true, decide_false, Bool.and_false, Bool.false_eq_true, if_false, if_true, List.filterMap_cons, hv, ih]
        · simp only [List.filter_cons, h1, decide_false, Bool.false_and, Bool.false_eq_true, if_false, ih]
    exact this rows (fun r h => h)
  · intro i g hg
    have hi : i < d.coords.length := by
      rw [← hr.1]; exact (List.getElem?_eq_some_iff.1 hg).1
    have hc : d.coords[i]? = some d.coords[i] := List.getElem?_eq_getElem hi
    have hc' : (Spec.forAggregate num (SubsetCmd.Spec.ofRows meta' R)).coords[i]? = some (setRows R d.coords[i]) := by
      rw [hco, List.getElem?_map, hc]; rfl
    have ho : out.coords[i]? = some (out.coords[i]'(by rw [o3]; exact hi)) := List.getElem?_eq_getElem _
    have hp : out'.coords[i]? = some (out'.coords[i]'(by rw [p3, hlen2]; exact hi)) := List.getElem?_eq_getElem _
    have hpos : 0 < g.2.2 := by
      by_cases hm : d.coords[i] ∈ asked.map Spec.Asked.coord
      · obtain ⟨a, ha, hac⟩ := List.mem_map.1 hm
        have := hr.2.1 a ha i (by rw [hc, hac])
        rw [hg] at this
        injection this with this
        injection this with this
        rw [this]; exact (hok a ha).2
      · have := hr.2.2 i _ hc hm
        rw [hg] at this
        injection this with this
        cases this
    rw [ho, hp]
    exact congrArg some (newCoord_unique hpos (p4 i _ _ _ hc' hg hp) (o4 i _ _ _ hc hg ho))
  · intro i c hg hc
    have hc' : (Spec.forAggregate num (SubsetCmd.Spec.ofRows meta' R)).coords[i]? =
        some ⟨c.stdName, c.longName, c.varName, c.axis, c.attrs, ⟨c.payload.id, R.map (fun r => r.pos c.payload.id), num c.payload.id⟩⟩ := by
      unfold Spec.forAggregate SubsetCmd.Spec.ofRows
      simp only [List.map_map, List.getElem?_map, hc]
      rfl
    have hi : i < out'.coords.length := by rw [p3]; exact (List.getElem?_eq_some_iff.1 hc').1
    obtain ⟨lo, hi', h1, h2, h3⟩ := p4 i _ _ _ hc' hg (List.getElem?_eq_getElem hi)
    exact ⟨lo, hi', h1, h2, by rw [List.getElem?_eq_getElem hi, h3]⟩

/-- C216: limits, at coordinates other than longitude that have a grid, that begin no later than the grid and end no earlier than its last cell leave
all points in the cells. -/
theorem c216_contain (meta' : List SubsetCmd.Crd) (reqs : List Agg.Req) (limits : List SubsetCmd.Spec.Asked)
    (h : ∀ a ∈ limits, ∃ (i : Nat) (c : SubsetCmd.Crd) (s t w lo hi : ℚ), meta'[i]? = some c ∧ c.payload.id = a.coord.payload.id ∧ c.stdName ≠ some "longitude" ∧
      reqs[i]? = some (some (s, t, w)) ∧ 0 < w ∧ a.range = .num (some lo) (some hi) ∧ lo ≤ s ∧
      ∀ j : Nat, s + (j : ℚ) * w < t → Agg.Spec.cellEnd s t w j ≤ hi)
    (r : SubsetCmd.Spec.Row (Option ℚ)) (cell : List Nat) (hin : Spec.RowIn meta' reqs cell r) : SubsetCmd.Spec.Within limits r := by
  intro a ha
  obtain ⟨i, c, s, t, w, lo, hi, h1, h2, h3, h4, h5, h6, h7, h8⟩ := h a ha
  have key : ∀ (meta' : List SubsetCmd.Crd) (reqs : List Agg.Req) (cell : List Nat) (i : Nat), Spec.RowIn meta' reqs cell r → meta'[i]? = some c →
      reqs[i]? = some (some (s, t, w)) → ∃ j, Agg.Spec.inInterval (some (s, t, w)) j (r.pos c.payload.id) = true := by
    intro meta'
    induction meta' with
    | nil => intro _ _ _ _ h; simp at h
    | cons c0 m ih =>
      intro reqs cell i hin h1 h4
      cases reqs with
      | nil => simp at h4
      | cons q u =>
        cases cell with
        | nil => simp [Spec.RowIn] at hin
        | cons j cell =>
          rw [Spec.RowIn] at hin
          cases i with
          | zero =>
            simp only [List.getElem?_cons_zero, Option.some.injEq] at h1 h4
            subst h1 h4
            rw [if_neg h3] at hin
            exact ⟨j, hin.1⟩
          | succ i => exact ih u cell i hin.2 (by simpa using h1) (by simpa using h4)
  obtain ⟨j, hj⟩ := key meta' reqs cell i hin h1 h4
  simp only [Agg.Spec.inInterval, Bool.and_eq_true, decide_eq_true_eq] at hj
  obtain ⟨⟨j1, j2⟩, j3⟩ := hj
  rw [h6, ← h2]
  refine ⟨?_, ?_⟩
  · rintro x ⟨⟩
    have : (0 : ℚ) ≤ (j : ℚ) * w := mul_nonneg (Nat.cast_nonneg j) h5.le
    linarith
  · rintro x ⟨⟩
    exact le_of_lt (lt_of_lt_of_le j3 (h8 j j1))

/-! ### The hypotheses can be met -/

def exPoint (lon lat : ℚ) (v : Option ℚ) : SubsetCmd.Spec.Row (Option ℚ) := ⟨fun j => if j = 0 then lon else lat, v⟩

/-- The last point is south of the grid. -/
def exPoints : List (SubsetCmd.Spec.Row (Option ℚ)) := [exPoint 15 10 (some 1), exPoint 20 40 (some 3), exPoint 25 70 none, exPoint 200 (-50) (some 7)]

def exMeta : List SubsetCmd.Crd := [SubsetCmd.exLon [], SubsetCmd.exLat []]

/-- `y=[0,90]` -/
def exLimit : List SubsetCmd.Spec.Asked := [⟨"y".toList, "0".toList, some "90".toList, SubsetCmd.exLat [], .num (some 0) (some 90)⟩]

def exLatOf (l : List ℚ) : Crd := ⟨some "latitude", none, some "lat", "Y", [], ⟨1, l, none⟩⟩

/-- `y=[0,90,30]` -/
def exGrid : List Spec.Asked := [⟨"y".toList, "0".toList, "90".toList, "30".toList, exLatOf [10, 40, 70, -50], (0, 90, 30)⟩]

theorem exLimit_legible : SubsetCmd.Spec.Legible exEnv' exMeta exLimit := by
  refine ⟨?_, by decide, ?_, ?_, by decide, by decide, ?_⟩
  · intro a ha
    rw [exLimit, List.mem_singleton] at ha
    subst ha
    exact ⟨⟨by decide, by decide⟩, ⟨by decide, by decide⟩, by rintro s ⟨⟩; exact ⟨by decide, by decide⟩⟩
  · intro a ha
    rw [exLimit, List.mem_singleton] at ha
    subst ha
    exact ⟨by decide, .inr (.inr ⟨by decide, 0, by decide +kernel, rfl⟩), .inr ⟨_, rfl, .inr (.inr ⟨by decide, 90, by decide +kernel, rfl⟩)⟩, fun h => absurd h (by decide)⟩
  · intro a ha
    rw [exLimit, List.mem_singleton] at ha
    subst ha
    with_unfolding_all rfl
  · intro a ha lo hi h
    rw [exLimit, List.mem_singleton] at ha
    subst ha
    cases h

example {β : Type} (k : List ℚ → Option β) (hk : Agg.Spec.Kernel k) (sort sort' : (Nat → Int) → List Nat) (hs : ∀ key, DataIndex.Spec.Sorts 4 key (sort key)) :
    ∃ d', SubsetCmd.run exEnv' (SubsetCmd.Spec.ofRows exMeta exPoints) (SubsetCmd.Spec.text exLimit) = .ok d' ∧
      ((∀ key, DataIndex.Spec.Sorts d'.values.length key (sort' key)) →
        ∃ out out', run k sort exEnv' (Spec.forAggregate (fun _ => none) (SubsetCmd.Spec.ofRows exMeta exPoints)) "y=[0,90,30]".toList = .ok out ∧
          run k sort' exEnv' (Spec.forAggregate (fun _ => none) d') "y=[0,90,30]".toList = .ok out' ∧ (∀ cell, out'.cell cell = out.cell cell) ∧
          out'.coords[1]? = out.coords[1]? ∧ out'.coords[0]? = some ([20], [(15, 25)])) := by
  have hd : Spec.forAggregate (fun _ => none) (SubsetCmd.Spec.ofRows exMeta exPoints) =
      ⟨[⟨some "longitude", none, some "lon", "X", [], ⟨0, [15, 20, 25, 200], none⟩⟩, exLatOf [10, 40, 70, -50]], [some 1, some 3, none, some 7]⟩ := rfl
  have hgrid : ∀ a ∈ exGrid, a = ⟨"y".toList, "0".toList, "90".toList, "30".toList, exLatOf [10, 40, 70, -50], (0, 90, 30)⟩ := by
    intro a ha; exact List.mem_singleton.1 ha
  have hwithin : ∀ r : SubsetCmd.Spec.Row (Option ℚ), SubsetCmd.Spec.Within exLimit r ↔ 0 ≤ r.pos 1 ∧ r.pos 1 ≤ 90 := by
    intro r
    unfold SubsetCmd.Spec.Within exLimit
    constructor
    · intro h
      have := h _ (List.mem_singleton.2 rfl)
      exact ⟨this.1 0 rfl, this.2 90 rfl⟩
    · rintro ⟨h1, h2⟩ a ha
      rw [List.mem_singleton] at ha
      subst ha
      exact ⟨by rintro x ⟨⟩; exact h1, by rintro x ⟨⟩; exact h2⟩
  obtain ⟨d', h1, h2⟩ := c216_subset_aggregate k hk exEnv' exMeta (by decide) (by decide +kernel) (fun _ => none) exPoints exLimit (by decide)
    exLimit_legible
    (by
      intro a ha hl
      rw [exLimit, List.mem_singleton] at ha
      subst ha
      exact absurd hl (by decide))
    _ rfl
    (by
      rw [hd]
      refine ⟨by simp, by simp, ?_, by decide, by decide +kernel⟩
      intro c hc
      simp only [List.mem_cons, List.not_mem_nil, or_false] at hc
      rcases hc with rfl | rfl <;> rfl)
    exGrid (by decide)
    (by intro a ha; rw [hgrid a ha]; exact ⟨⟨by decide, by decide⟩, ⟨by decide, by decide⟩, ⟨by decide, by decide⟩, ⟨by decide, by decide⟩⟩)
    (by
      intro a ha; rw [hgrid a ha]
      exact ⟨.number 0 (by decide) (by decide +kernel), .number 90 (by decide) (by decide +kernel), .number 30 (by decide +kernel), by decide⟩)
    (by intro a ha; rw [hgrid a ha]; decide)
    (by intro a ha; rw [hgrid a ha, hd]; with_unfolding_all rfl)
    (by decide) (by simp [exGrid])
    (by intro a ha; rw [hgrid a ha]; norm_num)
    (by intro a ha; rw [hgrid a ha]; intro h; simp [Spec.column, exLatOf] at h)
    [none, some (0, 90, 30)]
    (by
      rw [hd]
      refine ⟨rfl, ?_, ?_⟩
      · intro a ha i hi
        rw [hgrid a ha] at hi ⊢
        match i with
        | 0 => simp [exLatOf] at hi
        | 1 => rfl
        | n + 2 => simp at hi
      · intro i c hi hc
        match i with
        | 0 => rfl
        | 1 => exact absurd (by simp at hi; simp [exGrid, hi]) hc
        | n + 2 => simp at hi)
    ⟨exPoint 15 10 (some 1), by simp [exPoints], by rw [hwithin]; simp [exPoint]; norm_num⟩
    (by
      rintro r - - ⟨cell, hc⟩
      refine c216_contain exMeta _ exLimit ?_ r cell hc
      intro a ha
      rw [exLimit, List.mem_singleton] at ha
      subst ha
      refine ⟨1, SubsetCmd.exLat [], 0, 90, 30, 0, 90, rfl, rfl, by decide, rfl, by norm_num, rfl, le_refl _, ?_⟩
      intro j hj
      unfold Agg.Spec.cellEnd
      rw [if_neg (by norm_num)]
      have : (j : ℚ) < 3 := by linarith
      have : j < 3 := by exact_mod_cast this
      have : (j : ℚ) ≤ 2 := by exact_mod_cast (by omega : j ≤ 2)
      linarith)
    sort sort' hs
  refine ⟨d', h1, fun hs' => ?_⟩
  obtain ⟨out, out', o1, o2, o3, -, o5, o6⟩ := h2 hs'
  have ht : Parse.joinBy ',' (exGrid.map (fun a => Limits.Spec.renderGrid a.dim a.first a.last a.step)) = "y=[0,90,30]".toList := by decide +kernel
  rw [ht] at o1 o2
  refine ⟨out, out', o1, o2, o3, o5 1 _ rfl, ?_⟩
  obtain ⟨lo, hi, l1, l2, l3⟩ := o6 0 (SubsetCmd.exLon []) rfl rfl
  rw [l3]
  have hf : (exPoints.filter (fun r => @decide (SubsetCmd.Spec.Within exLimit r) (Classical.propDecidable _))).map (fun r => r.pos (SubsetCmd.exLon []).payload.id) = [15, 20, 25] := by
    have e : ∀ r : SubsetCmd.Spec.Row (Option ℚ), @decide (SubsetCmd.Spec.Within exLimit r) (Classical.propDecidable _) = decide (0 ≤ r.pos 1 ∧ r.pos 1 ≤ 90) := by
      intro r; exact decide_eq_decide.2 (hwithin r)
    simp only [e]
    with_unfolding_all rfl
  rw [hf] at l1 l2
  have a1 : lo = 15 := by
    obtain ⟨m, h⟩ := l1
    have := h 15 (by simp)
    simp at m
    rcases m with rfl | rfl | rfl
    · rfl
    · norm_num at this
    · norm_num at this
  have a2 : hi = 25 := by
    obtain ⟨m, h⟩ := l2
    have := h 25 (by simp)
    simp at m
    rcases m with rfl | rfl | rfl
    · norm_num at this
    · norm_num at this
    · rfl
  subst a1 a2
  norm_num

end Cis.AggCmd
