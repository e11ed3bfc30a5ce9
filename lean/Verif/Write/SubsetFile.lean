import Verif.Write.RoundTrip
import Verif.Evaluate.Commute
set_option linter.unusedSectionVars false
set_option linter.unusedSimpArgs false
/-!
Property C157: the file written by a subset. Ungridded data are subset (subset.py:12-76, 177-225, modelled in Subset/Model.lean), saved
(ungridded_data.py:1099-1122, write_netcdf.py, modelled in Write/RoundTrip.lean) and read again (products.py `cis`, netcdf.py).
-/
namespace Cis.RoundTrip
open Cis.Subset (UData Limit select select_nil select_nil' select_cons select_length)

/-! ### Subsets of what is saved -/

/-- The points of one variable as `subset` sees them; coordinates have no missing values. -/
def pointsOf (coords : List Obj) (o : Obj) : UData (Option ℚ) := ⟨coords.map (fun c => c.values.filterMap id), o.values⟩

/-- The object with other values (indexing of data and coordinates, ungridded_data.py:533-564). -/
def Obj.withValues (o : Obj) (v : List (Option ℚ)) : Obj := { o with values := v }

/-- `UngriddedDataList.subset` (ungridded_data.py:1124-1126) of variables on the same coordinates; the coordinates saved are those of the first one
(ungridded_data.py:1105-1122). `none`: nothing is selected. -/
def subsetObjs (lon lat : Nat) (limits : List Limit) (coords data : List Obj) : Option (List Obj × List Obj) :=
  match Cis.Subset.constrainList lon lat ⟨limits, none, none, none⟩ (data.map (pointsOf coords)) with
  | none => none
  | some [] => some (coords, [])
  | some (u :: us) => some (List.zipWith (fun c x => c.withValues (x.map some)) coords u.coords,
      List.zipWith (fun o x => o.withValues x.values) data (u :: us))

/-! ### Specification -/

/-- The points of a variable: the values of the coordinates and of the variable at point number 0, 1, … -/
def Spec.table (coords : List (List (Option ℚ))) (values : List (Option ℚ)) : List (List (Option ℚ) × Option ℚ) :=
  (List.range values.length).map (fun i => (coords.map (fun c => c.getD i none), values.getD i none))

/-- The point lies within the limits, ends included. -/
def Spec.within (limits : List Limit) (p : List (Option ℚ) × Option ℚ) : Bool :=
  limits.all (fun l => match p.1.getD l.coord none with
    | some x => decide (l.start ≤ x) && decide (x ≤ l.stop)
    | none => false)

/-! ### Proofs -/

theorem createData_id {V : Type} (lon : Nat) : ∀ (limits : List Limit) (d : UData V),
    (∀ l ∈ limits, l.coord = lon → Cis.Subset.newRange (d.coords.getD lon []) l.start l.stop = none) → Cis.Subset.createData (some lon) limits d = d
  | [], d, _ => rfl
  | l :: t, d, h => by
    rw [Cis.Subset.createData]
    by_cases hl : l.coord = lon
    · rw [if_pos (by rw [hl])]
      have h0 := h l (by simp) hl
      have e : d.coords.modify l.coord (fun c => Cis.Subset.convertLons c l.start l.stop) = d.coords := by
        rw [hl]
        apply List.ext_getElem? 
        intro i
        rw [List.getElem?_modify]
        by_cases hi : lon = i
        · subst hi
          simp only [if_true]
          cases hc : d.coords[lon]? with
          | none => rfl
          | some c =>
            rw [List.getD_eq_getElem?_getD, hc, Option.getD_some] at h0
            simp [Cis.Subset.convertLons, h0]
        · simp [hi]
      rw [e]
      exact createData_id lon t d (fun l' hl' => h l' (by simp [hl']))
    · rw [if_neg (by simpa using hl)]
      exact createData_id lon t d (fun l' hl' => h l' (by simp [hl']))

theorem filterMap_some (l : List (Option ℚ)) (h : none ∉ l) : (l.filterMap id).map some = l := by
  induction l with
  | nil => rfl
  | cons a t ih =>
    cases a with
    | none => simp at h
    | some x => simp only [List.filterMap_cons_some (show id (some x) = some x from rfl), List.map_cons, ih (fun hn => h (by simp [hn]))]

theorem select_filterMap (m : List Bool) (l : List (Option ℚ)) (h : none ∉ l) : (select m (l.filterMap id)).map some = select m l := by
  rw [← Cis.Evaluate.select_map', filterMap_some l h]

theorem select_sub {α : Type} (x : α) : ∀ (m : List Bool) (l : List α), x ∈ select m l → x ∈ l
  | [], l, h => by simp at h
  | _ :: _, [], h => by simp at h
  | b :: m, a :: l, h => by
    rw [select_cons] at h
    cases b with
    | true =>
      simp only [if_true, List.mem_cons] at h
      rcases h with rfl | h
      · simp
      · exact List.mem_cons_of_mem _ (select_sub x m l h)
    | false => exact List.mem_cons_of_mem _ (select_sub x m l (by simpa using h))

theorem faithful_sub (dflt : Bool → ℚ) (o : Obj) (v : List (Option ℚ)) (hv : ∀ x ∈ v, x ∈ o.values) (h : Spec.Faithful dflt o) :
    Spec.Faithful dflt (o.withValues v) where
  scale := h.scale
  plain := h.plain
  notMissing := fun x hx => h.notMissing x (hv _ hx)
  max := fun m hm => ⟨(h.max m hm).1, fun x hx => (h.max m hm).2 x (hv _ hx)⟩
  min := fun m hm => ⟨(h.min m hm).1, fun x hx => (h.min m hm).2 x (hv _ hx)⟩
  range := fun lo hi hr => ⟨(h.range lo hi hr).1, fun x hx => (h.range lo hi hr).2 x (hv _ hx)⟩

theorem as_map {α : Type} (L : List α) (dflt : α) : L = (List.range L.length).map (fun p => L.getD p dflt) := by
  apply List.ext_getElem (by simp)
  intro i h1 h2
  simp [List.getD_eq_getElem?_getD, List.getElem?_eq_getElem h1]

theorem select_as_map {α : Type} (m : List Bool) (L : List α) (dflt : α) : select m L = (select m (List.range L.length)).map (fun p => L.getD p dflt) := by
  conv_lhs => rw [as_map L dflt]
  rw [Cis.Evaluate.select_map']

theorem table_select (m : List Bool) (values : List (Option ℚ)) (coords : List (List (Option ℚ))) (hc : ∀ c ∈ coords, c.length = values.length) :
    Spec.table (coords.map (select m)) (select m values) = select m (Spec.table coords values) := by
  unfold Spec.table
  rw [Cis.Evaluate.select_map']
  generalize hidx : select m (List.range values.length) = idx
  have hs : ∀ l : List (Option ℚ), l.length = values.length → select m l = idx.map (fun p => l.getD p none) := by
    intro l hl
    rw [select_as_map m l none, hl, hidx]
  rw [hs values rfl, List.length_map]
  conv_rhs => rw [as_map idx 0, List.map_map]
  apply List.map_congr_left
  intro j hj
  have hj' : j < idx.length := List.mem_range.1 hj
  have hget : ∀ l : List (Option ℚ), (idx.map (fun p => l.getD p none)).getD j none = l.getD (idx.getD j 0) none := by
    intro l
    simp [List.getD_eq_getElem?_getD, List.getElem?_eq_getElem hj']
  simp only [Function.comp]
  rw [hget values, List.map_map]
  congr 1
  apply List.map_congr_left
  intro c hcm
  simp only [Function.comp]
  rw [hs c (hc c hcm), hget c]

theorem rows_get {V : Type} (d : UData V) (hwf : d.WF) (dflt : V) (p : Nat) (hp : p < d.values.length) (j : Nat) (c : List ℚ) (hj : d.coords[j]? = some c) :
    (d.rows.getD p ([], dflt)).1[j]? = some (c.getD p 0) := by
  have e := congrArg (fun l => l[p]?) (Cis.Subset.rows_column d.values d.coords hwf j c hj)
  have hcl : p < c.length := by rw [hwf c (List.mem_of_getElem? hj)]; exact hp
  have hp2 : p < (Cis.Subset.rowsOf d.coords d.values).length := by rw [Cis.Subset.rowsOf_length]; exact hp
  simp only [List.getElem?_map, List.getElem?_eq_getElem hp2, List.getElem?_eq_getElem hcl, Option.map_some, Option.some.injEq] at e
  simp only [UData.rows, List.getD_eq_getElem?_getD, List.getElem?_eq_getElem hp2, List.getElem?_eq_getElem hcl, Option.getD_some]
  exact e

/-- The mask marks the points within the limits. -/
theorem mask_within (coords : List Obj) (o : Obj) (hn : ∀ c ∈ coords, none ∉ c.values) (hl : ∀ c ∈ coords, c.values.length = o.values.length)
    (limits : List Limit) (hlim : ∀ l ∈ limits, l.coord < coords.length) :
    (pointsOf coords o).WF ∧ Cis.Subset.combinedMask limits (pointsOf coords o) = (Spec.table (coords.map Obj.values) o.values).map (Spec.within limits) := by
  have hlen : ∀ c ∈ coords, (c.values.filterMap id).length = o.values.length := by
    intro c hc
    have := congrArg List.length (filterMap_some c.values (hn c hc))
    rw [List.length_map] at this
    rw [this, hl c hc]
  have hwf : (pointsOf coords o).WF := by
    intro c hc
    obtain ⟨c0, h0, rfl⟩ := List.mem_map.1 hc
    exact hlen c0 h0
  refine ⟨hwf, ?_⟩
  have hlim' : ∀ l ∈ limits, l.coord < (pointsOf coords o).coords.length := by
    intro l h; simpa [pointsOf] using hlim l h
  rw [Cis.Subset.combinedMask_eq _ hwf limits hlim']
  conv_lhs => rw [as_map (pointsOf coords o).rows ([], none), show (pointsOf coords o).rows.length = o.values.length from Cis.Subset.rowsOf_length _ _, List.map_map]
  unfold Spec.table
  rw [List.map_map]
  apply List.map_congr_left
  intro p hp
  have hp' : p < o.values.length := List.mem_range.1 hp
  simp only [Function.comp, Spec.within]
  rw [Bool.eq_iff_iff, List.all_eq_true, List.all_eq_true]
  refine forall_congr' fun l => forall_congr' fun hlm => ?_
  have hk := hlim l hlm
  have hj : (pointsOf coords o).coords[l.coord]? = some (coords[l.coord].values.filterMap id) := by
    simp [pointsOf, List.getElem?_eq_getElem hk]
  have h1 := rows_get (pointsOf coords o) hwf none p hp' l.coord _ hj
  have h2 : coords[l.coord].values.getD p none = some ((coords[l.coord].values.filterMap id).getD p 0) := by
    have hc := List.getElem_mem hk
    have hpl : p < (coords[l.coord].values.filterMap id).length := by rw [hlen _ hc]; exact hp'
    conv_lhs => rw [← filterMap_some coords[l.coord].values (hn _ hc)]
    rw [List.getD_eq_getElem?_getD, List.getElem?_map, List.getElem?_eq_getElem hpl, List.getD_eq_getElem?_getD, List.getElem?_eq_getElem hpl]
    rfl
  have h3 : ((coords.map Obj.values).map (fun c => c.getD p none)).getD l.coord none = some ((coords[l.coord].values.filterMap id).getD p 0) := by
    rw [← h2]
    simp [List.getD_eq_getElem?_getD, List.getElem?_eq_getElem hk]
  rw [h3]
  simp only [Cis.Subset.Inside]
  rw [h1]

/-- The subset of several variables on the same coordinates. -/
theorem subsetObjs_eq (lon lat : Nat) (limits : List Limit) (coords data : List Obj) (hd : data ≠ []) (n : Nat)
    (hn : ∀ c ∈ coords, none ∉ c.values) (hlc : ∀ c ∈ coords, c.values.length = n) (hld : ∀ o ∈ data, o.values.length = n)
    (hlim : ∀ l ∈ limits, l.coord < coords.length)
    (hconv : ∀ l ∈ limits, l.coord = lon → Cis.Subset.newRange ((coords.map (fun c => c.values.filterMap id)).getD lon []) l.start l.stop = none) :
    ∃ m : List Bool, m.length = n ∧ (∀ o ∈ data, m = (Spec.table (coords.map Obj.values) o.values).map (Spec.within limits)) ∧
      subsetObjs lon lat limits coords data = if m.count true = 0 then none
        else some (coords.map (fun c => c.withValues (select m c.values)), data.map (fun o => o.withValues (select m o.values))) := by
  cases data with
  | nil => exact absurd rfl hd
  | cons o0 rest =>
    have hmask : ∀ o ∈ o0 :: rest, Cis.Subset.combinedMask limits (pointsOf coords o) = (Spec.table (coords.map Obj.values) o.values).map (Spec.within limits) :=
      fun o ho => (mask_within coords o hn (fun c hc => by rw [hlc c hc, hld o ho]) limits hlim).2
    have hsame : ∀ o ∈ o0 :: rest, Cis.Subset.combinedMask limits (pointsOf coords o) = Cis.Subset.combinedMask limits (pointsOf coords o0) :=
      fun o ho => Cis.Subset.combinedMask_values limits _ _ _ (by rw [hld o ho, hld o0 (by simp)])
    generalize hm : Cis.Subset.combinedMask limits (pointsOf coords o0) = m at hsame
    have hml : m.length = n := by rw [← hm, hmask o0 (by simp)]; simp [Spec.table, hld o0]
    have hone : ∀ (st : Option (List Bool)) (o : Obj), o ∈ o0 :: rest → (st = none ∨ st = some m) →
        Cis.Subset.constrain lon lat ⟨limits, none, st, none⟩ (pointsOf coords o) =
          (⟨limits, none, some m, none⟩, if m.count true = 0 then none else some ((pointsOf coords o).select m)) := by
      intro st o ho hst
      have hv : ((pointsOf coords o).select m).values.length = m.count true := by
        simp only [UData.select]
        exact select_length m _ (by rw [hml]; exact hld o ho)
      rcases hst with rfl | rfl
      · simp only [Cis.Subset.constrain, createData_id lon limits (pointsOf coords o) hconv, Option.getD_none, hsame o ho, hv]
      · simp only [Cis.Subset.constrain, createData_id lon limits (pointsOf coords o) hconv, Option.getD_some, hv]
    have hlist : ∀ (l : List Obj), (∀ o ∈ l, o ∈ o0 :: rest) → ∀ st : Option (List Bool), (st = none ∨ st = some m) →
        Cis.Subset.constrainList lon lat ⟨limits, none, st, none⟩ (l.map (pointsOf coords)) =
          if l ≠ [] ∧ m.count true = 0 then none else some (l.map (fun o => (pointsOf coords o).select m)) := by
      intro l
      induction l with
      | nil => intro _ st _; simp [Cis.Subset.constrainList]
      | cons o t ih =>
        intro hl st hst
        rw [List.map_cons, Cis.Subset.constrainList, hone st o (hl o (by simp)) hst]
        by_cases h0 : m.count true = 0
        · simp [h0]
        · simp only [if_neg h0, ih (fun x hx => hl x (by simp [hx])) (some m) (Or.inr rfl)]
          simp [h0]
    refine ⟨m, hml, fun o ho => by rw [← hsame o ho, hmask o ho], ?_⟩
    unfold subsetObjs
    rw [hlist (o0 :: rest) (fun o h => h) none (Or.inl rfl)]
    by_cases h0 : m.count true = 0
    · simp [h0]
    · rw [if_neg (fun h => h0 h.2), if_neg h0]
      simp only [List.map_cons]
      congr 2
      · simp only [UData.select, pointsOf, List.map_map]
        have hcz : ∀ l : List Obj, (∀ c ∈ l, none ∉ c.values) →
            List.zipWith (fun c x => c.withValues (x.map some)) l (l.map (select m ∘ fun c => c.values.filterMap id)) =
              l.map (fun c => c.withValues (select m c.values)) := by
          intro l
          induction l with
          | nil => intro _; rfl
          | cons c t ih =>
            intro h
            rw [List.map_cons, List.zipWith_cons_cons, ih (fun c hc => h c (by simp [hc])), List.map_cons]
            simp only [Function.comp, select_filterMap m c.values (h c (by simp))]
        exact hcz coords hn
      · have hdz : ∀ l : List Obj, List.zipWith (fun (o : Obj) (x : UData (Option ℚ)) => o.withValues x.values) l (l.map (fun o => (pointsOf coords o).select m)) =
            l.map (fun o => o.withValues (select m o.values)) := by
          intro l
          induction l with
          | nil => rfl
          | cons c t ih => rw [List.map_cons, List.zipWith_cons_cons, ih]; rfl
        exact hdz (o0 :: rest)

theorem good_select (valid : String → Bool) (dflt : Bool → ℚ) (coords data : List Obj) (h : Spec.Good valid dflt coords data) (m : List Bool)
    (hm : ∀ o ∈ coords ++ data, o.values.length = m.length) :
    Spec.Good valid dflt (coords.map (fun c => c.withValues (select m c.values))) (data.map (fun o => o.withValues (select m o.values))) where
  some := ⟨by simpa using h.some.1, by simpa using h.some.2⟩
  lengths := by
    obtain ⟨n, hn⟩ := h.lengths
    refine ⟨m.count true, fun o ho => ?_⟩
    rw [← List.map_append, List.mem_map] at ho
    obtain ⟨o', ho', rfl⟩ := ho
    obtain ⟨h1, h2, h3⟩ := hn o' ho'
    exact ⟨select_length m _ (hm o' ho'), h2, faithful_sub dflt o' _ (fun x hx => select_sub x m _ hx) h3⟩
  std := by
    intro c hc
    rw [List.mem_map] at hc
    obtain ⟨c', hc', rfl⟩ := hc
    obtain ⟨h1, h2, h3⟩ := h.std c' hc'
    exact ⟨h1, h2, fun hx => h3 (select_sub none m _ hx)⟩
  different := by
    rw [List.map_map]
    exact h.different
  names := by
    intro d hd
    rw [List.mem_map] at hd
    obtain ⟨d', hd', rfl⟩ := hd
    exact h.names d' hd'
  own := by
    rw [List.map_map]
    exact h.own

theorem find_withValues (f : Obj → List (Option ℚ)) (key : Info → String) (l : List Obj) (s : String) :
    (((l.map (fun o => o.withValues (f o))).find? (fun d => key d.info == s)).map Obj.values).getD [] =
      ((l.find? (fun d => key d.info == s)).map f).getD [] := by
  rw [List.find?_map]
  have : ((fun d : Obj => key d.info == s) ∘ fun o : Obj => o.withValues (f o)) = fun d : Obj => key d.info == s := rfl
  rw [this]
  cases l.find? (fun d => key d.info == s) <;> rfl

theorem find_key (key : Info → String) : ∀ (l : List Obj), (l.map (fun o => key o.info)).Nodup → ∀ o ∈ l, l.find? (fun d => key d.info == key o.info) = some o
  | [], _, o, ho => by cases ho
  | a :: t, hn, o, ho => by
    rw [List.map_cons, List.nodup_cons] at hn
    rcases List.mem_cons.1 ho with rfl | ho
    · simp
    · have : key a.info ≠ key o.info := fun e => hn.1 (by rw [e]; exact List.mem_map.2 ⟨o, ho, rfl⟩)
      rw [List.find?_cons_of_neg (by simpa using this)]
      exact find_key key t hn.2 o ho

/-- **C157**. Variables on common coordinates are subset, the result is saved and read again: every variable read has exactly the points of the variable
that lie within the limits, in order, with their coordinates, values and missing values, and its names and units; nothing is saved iff there is no such point. -/
theorem c157_subset_file (valid : String → Bool) (dflt : Bool → ℚ) (coords data : List Obj) (hg : Spec.Good valid dflt coords data) (o : Obj) (ho : o ∈ data)
    (hstd : valid o.info.std = true ∨ o.info.std = "") (lon lat : Nat) (limits : List Limit) (hlim : ∀ l ∈ limits, l.coord < coords.length)
    (hconv : ∀ l ∈ limits, l.coord = lon → Cis.Subset.newRange ((coords.map (fun c => c.values.filterMap id)).getD lon []) l.start l.stop = none) :
    (subsetObjs lon lat limits coords data = none ↔ ∀ p ∈ Spec.table (coords.map Obj.values) o.values, Spec.within limits p = false) ∧
    ∀ coords' data', subsetObjs lon lat limits coords data = some (coords', data') →
      ∃ f d, save dflt coords' data' = .ok f ∧ recognised f = true ∧ createData valid true [f] o.info.name = .ok d ∧ d.info = o.info ∧
        d.coords.map (fun c => c.2.info.std) = coords.map (fun c => c.info.std) ∧
        Spec.table (d.coords.map (fun c => c.2.values)) d.values = (Spec.table (coords.map Obj.values) o.values).filter (Spec.within limits) := by
  obtain ⟨n, hn⟩ := hg.lengths
  have hlc : ∀ c ∈ coords, c.values.length = n := fun c hc => (hn c (by simp [hc])).1
  have hld : ∀ o ∈ data, o.values.length = n := fun c hc => (hn c (by simp [hc])).1
  obtain ⟨m, hml, hmw, hsub⟩ := subsetObjs_eq lon lat limits coords data hg.some.2 n (fun c hc => (hg.std c hc).2.2) hlc hld hlim hconv
  rw [hsub]
  constructor
  · rw [hmw o ho]
    have : (List.count true ((Spec.table (coords.map Obj.values) o.values).map (Spec.within limits)) = 0) ↔
        ∀ p ∈ Spec.table (coords.map Obj.values) o.values, Spec.within limits p = false := by
      rw [List.count_eq_zero, List.mem_map]
      push Not
      simp
    rw [← this]
    split_ifs with h0 <;> simp [h0]
  · intro coords' data' h
    by_cases h0 : m.count true = 0
    · rw [if_pos h0] at h; cases h
    · rw [if_neg h0, Option.some.injEq, Prod.mk.injEq] at h
      obtain ⟨rfl, rfl⟩ := h
      have hm : ∀ o ∈ coords ++ data, o.values.length = m.length := fun o ho => by rw [hml]; exact (hn o ho).1
      have hgood := good_select valid dflt coords data hg m hm
      obtain ⟨f, hf, hrec⟩ := c96_recognised valid dflt _ _ hgood
      obtain ⟨files, d, h1, h2, h3, h4, h5, h6⟩ := c96_round_trip valid dflt
        (coords.map (fun c => c.withValues (select m c.values)), data.map (fun o => o.withValues (select m o.values))) []
        (o.withValues (select m o.values)) (by intro x hx; rw [List.mem_singleton] at hx; subst hx; exact hgood) (by simp)
        (List.mem_map.2 ⟨o, ho, rfl⟩) (by simp) hstd
      have hfiles : files = [f] := by
        simp only [List.mapM_cons, List.mapM_nil, hf] at h1
        cases h1; rfl
      subst hfiles
      have hv : d.values = select m o.values := by
        rw [h4]
        simp only [List.flatMap_cons, List.flatMap_nil, List.append_nil, Spec.variable']
        rw [show (o.withValues (select m o.values)).info.name = o.info.name from rfl,
          find_withValues (fun o => select m o.values) (fun i => i.name) data o.info.name,
          find_key (fun i => i.name) data hg.own o ho]
        rfl
      have hc : d.coords.map (fun c => c.2.values) = (coords.map Obj.values).map (select m) := by
        rw [h6]
        simp only [List.map_map]
        apply List.map_congr_left
        intro c hc
        simp only [Function.comp, List.flatMap_cons, List.flatMap_nil, List.append_nil, Spec.coordinate]
        rw [show (c.withValues (select m c.values)).info.std = c.info.std from rfl,
          find_withValues (fun o => select m o.values) (fun i => i.std) coords c.info.std,
          find_key (fun i => i.std) coords hg.different c hc]
        rfl
      refine ⟨f, d, hf, hrec, h2, h3, ?_, ?_⟩
      · have := congrArg (List.map Info.std) h5
        simpa [Function.comp_def, Obj.withValues] using this
      · rw [hv, hc, table_select m o.values _ (by
          intro c hc
          obtain ⟨c', hc', rfl⟩ := List.mem_map.1 hc
          rw [hlc c' hc', hld o ho]), hmw o ho, Cis.Subset.select_map]

/-! The hypotheses are met (`Spec.Good` for these objects: the example at the end of RoundTrip.lean): two points, one value missing; latitudes from 15 to 25. -/

/-- Subset, save and read. -/
def subsetRead (lon lat : Nat) (limits : List Limit) (coords data : List Obj) (u : String) : Option (Option (List (Option ℚ) × List (String × List (Option ℚ)))) :=
  (subsetObjs lon lat limits coords data).map (fun r => saveRead r.1 r.2 u)

example : subsetRead 1 0 [⟨0, 15, 25⟩] [exLat, exLon] [exT] "t" = some (some ([none], [("latitude", [some 20]), ("longitude", [some 5])])) ∧
    Cis.Subset.newRange [0, 5] 15 25 = none := by
  decide +kernel

/-- Two longitudes up to 360. -/
def exLon360 (p : Packing) : Obj := ⟨⟨"lon", "longitude", "", "1", ""⟩, false, true, [some 350, some 100], some (-999), p⟩

/-- C157 is violated when longitudes are converted for the limits and their metadata say that they are not negative: the longitude 350 becomes -10 and is
written beside `valid_min` 0, and the file read again has no point. Without the attribute, the point is there. -/
theorem c157_converted_violated :
    subsetRead 1 0 [⟨1, -20, 0⟩] [exLat, exLon360 ⟨none, some (some 0), none, none, none⟩] [exT] "t" =
        some (some ([], [("latitude", []), ("longitude", [])])) ∧
      subsetRead 1 0 [⟨1, -20, 0⟩] [exLat, exLon360 noPacking] [exT] "t" = some (some ([some 280], [("latitude", [some 10]), ("longitude", [some (-10)])])) := by
  constructor <;> decide +kernel

end Cis.RoundTrip
