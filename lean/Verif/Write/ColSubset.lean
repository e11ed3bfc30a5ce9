import Verif.Write.ColFile
set_option linter.unusedSectionVars false
set_option linter.unusedSimpArgs false

/-!
# `cis subset` and `cis col` of points onto points, one after the other

Nothing new is modelled: the subset of `Write/SubsetFile.lean` and the collocation of `Write/ColFile.lean`, in memory and through files. To take a
subset of the data first changes nothing if the limits leave all that is near the sample; to take a subset of the sample first is the same as to
take that subset of the result.
-/
namespace Cis.RoundTrip
open Cis.Str Cis.ColOpts
open Cis.Lon (fixLongitudeRange findLongitudeRange)
open Cis.Subset (select select_map select_length select_nil select_cons Limit)
open Cis.Evaluate (select_map')

/-! ### Proofs -/

/-- A selection of the rows of coordinates and variables. -/
def part (m : List Bool) (l : List Obj) : List Obj := l.map (fun c => c.withValues (select m c.values))

theorem filterMap_select (m : List Bool) (l : List (Option ℚ)) (h : none ∉ l) : (select m l).filterMap id = select m (l.filterMap id) := by
  rw [← select_filterMap m l h, List.filterMap_map]
  simp

theorem setRange_part (m : List Bool) (start : Option ℚ) (coords : List Obj) (h : ∀ c ∈ coords, none ∉ c.values) :
    setRange start (part m coords) = part m (setRange start coords) := by
  cases start with
  | none => rfl
  | some s =>
    unfold setRange part
    simp only [List.map_map]
    refine List.map_congr_left fun c hc => ?_
    simp only [Function.comp]
    by_cases hl : c.info.std = "longitude"
    · rw [if_pos (show (c.withValues (select m c.values)).info.std = "longitude" from hl), if_pos hl]
      unfold Obj.withValues pointsIn
      simp only [Obj.mk.injEq, true_and, and_true]
      rw [filterMap_select m _ (h c hc), select_map']
      congr 1
      unfold fixLongitudeRange Cis.Lon.wrapLons
      rw [select_map']
    · rw [if_neg (show ¬ (c.withValues (select m c.values)).info.std = "longitude" from hl), if_neg hl]

theorem colsOf_part (m : List Bool) (coords : List Obj) : colsOf (part m coords) = colsOf coords := by
  unfold colsOf part
  rw [List.filterMap_map]
  rfl

theorem find_part (m : List Bool) (coords : List Obj) (s : String) :
    (part m coords).find? (fun c => c.info.std == s) = (coords.find? (fun c => c.info.std == s)).map (fun c => c.withValues (select m c.values)) := by
  unfold part
  rw [List.find?_map]
  rfl

theorem select_get {α : Type} (m : List Bool) (l : List α) (j : Nat) :
    (select m l)[j]? = (select m (List.range l.length))[j]?.bind (fun p => l[p]?) := by
  induction m generalizing l j with
  | nil => simp [select]
  | cons b m ih =>
    cases l with
    | nil => simp
    | cons a l =>
      rw [List.length_cons, List.range_succ_eq_map, select_cons, select_cons, select_map']
      cases b
      · simp only [Bool.false_eq_true, if_false]
        rw [ih, List.getElem?_map]
        cases (select m (List.range l.length))[j]? <;> simp
      · simp only [if_true]
        cases j with
        | zero => simp
        | succ j =>
          rw [List.getElem?_cons_succ, List.getElem?_cons_succ, ih, List.getElem?_map]
          cases (select m (List.range l.length))[j]? <;> simp

theorem coordAt_part (m : List Bool) (coords : List Obj) (n : Nat) (hl : ∀ c ∈ coords, c.values.length = n) (s : String) (j p : Nat)
    (hp : (select m (List.range n))[j]? = some p) : coordAt (part m coords) s j = coordAt coords s p := by
  unfold coordAt
  rw [find_part]
  cases hf : coords.find? (fun c => c.info.std == s) with
  | none => rfl
  | some c =>
    simp only [Option.map_some, Option.bind_some, Obj.withValues]
    rw [select_get, hl c (List.mem_of_find?_eq_some hf), hp]
    rfl

theorem map_range_get {α β : Type} (l : List α) (f : Nat → β) (g : α → β) (h : ∀ j p, l[j]? = some p → f j = g p) : (List.range l.length).map f = l.map g := by
  apply List.ext_getElem?
  intro j
  rw [List.getElem?_map, List.getElem?_map]
  by_cases hj : j < l.length
  · rw [List.getElem?_range hj, List.getElem?_eq_getElem hj]
    simp only [Option.map_some]
    rw [h j _ (List.getElem?_eq_getElem hj)]
  · rw [List.getElem?_eq_none (by simpa using hj), List.getElem?_eq_none (by simpa using hj)]; rfl

theorem rowsOf_part (m : List Bool) (coords : List Obj) (n : Nat) (hm : m.length = n) (hl : ∀ c ∈ coords, c.values.length = n) (vals : List (Option ℚ))
    (hv : vals.length = n) :
    rowsOf (part m coords) (m.count true) (fun i => ((select m vals)[i]?).join) = select m (rowsOf coords n (fun i => (vals[i]?).join)) := by
  unfold rowsOf
  rw [select_map']
  have hc : m.count true = (select m (List.range n)).length := (select_length m _ (by simp [hm])).symm
  rw [hc]
  refine map_range_get _ _ _ fun j p hp => ?_
  have e : ∀ s, coordAt (part m coords) s j = coordAt coords s p := fun s => coordAt_part m coords n hl s j p hp
  rw [e, e, e, e, e]
  dsimp only
  rw [select_get, hv, hp]
  rfl

/-- Rows that are left out and are not selected make no difference. -/
theorem selected_part (s : Colloc.Seps) (ref : Colloc.Loc) : ∀ (m : List Bool) (rows : List Colloc.Row), m.length = rows.length →
    (∀ (i : Nat) (r : Colloc.Row), rows[i]? = some r → m[i]? = some false → r.val = none ∨ ¬ Colloc.Spec.Within s ref r.loc) →
    Colloc.Spec.selected s ref (Colloc.dropna (select m rows)) = Colloc.Spec.selected s ref (Colloc.dropna rows)
  | [], [], _, _ => rfl
  | b :: m, r :: rows, hlen, h => by
    have ih := selected_part s ref m rows (by simpa using hlen) (fun i r' hr hm => h (i + 1) r' (by simpa using hr) (by simpa using hm))
    have h0 := h 0 r rfl
    unfold Colloc.Spec.selected Colloc.dropna at *
    rw [select_cons]
    cases b with
    | true =>
      simp only [if_true, List.filterMap_cons]
      cases hv : r.val.map (fun v => (⟨r.loc, v⟩ : Colloc.DRow)) with
      | none => exact ih
      | some q => simp only [List.filter_cons, ih]
    | false =>
      simp only [Bool.false_eq_true, if_false, List.filterMap_cons]
      rcases h0 rfl with hv | hv
      · rw [hv]; exact ih
      · rw [ih]
        cases hr : r.val with
        | none => rfl
        | some v => simp only [Option.map_some, List.filter_cons, hv, decide_false, Bool.false_eq_true, if_false]
  | [], _ :: _, h, _ => by simp at h
  | _ :: _, [], h, _ => by simp at h

theorem dropna_select (m : List Bool) (rows : List Colloc.Row) : ∀ q ∈ Colloc.dropna (select m rows), q ∈ Colloc.dropna rows := by
  intro q hq
  unfold Colloc.dropna at *
  obtain ⟨r, hr, e⟩ := List.mem_filterMap.1 hq
  exact List.mem_filterMap.2 ⟨r, select_sub r m rows hr, e⟩

theorem good_part {s : Colloc.Seps} {sample data data' : List Colloc.Row} (g : Colloc.Spec.Good s sample data) (h0 : Colloc.dropna data' ≠ [])
    (h : ∀ q ∈ Colloc.dropna data', q ∈ Colloc.dropna data) : Colloc.Spec.Good s sample data' := by
  refine ⟨h0, ?_, g.not_zero, ?_, ?_⟩
  · intro r hr hp
    exact ⟨(g.pressures r hr hp).1, fun q hq => (g.pressures r hr hp).2 q (h q hq)⟩
  · exact fun x hx r hr q hq => g.edge x hx r hr q (h q hq)
  · rcases g.near with hn | ⟨w, hw, hn⟩
    · exact .inl hn
    · exact .inr ⟨w, hw, fun x hx r hr q hq => hn x hx r hr q (h q hq)⟩

theorem eachVar_congr (p : Plan) (s : ColOpts.Seps) (kname : Str) (k : Colloc.Kernel) (sampleVar : Bool) (cx : List Colloc.Col) (sample : List Colloc.Row)
    {v v' : List ColCmd.Var} (h : List.Forall₂ (fun a b => a.names = b.names ∧
      Colloc.collocate (ColCmd.toSeps s) k p.missing sampleVar cx a.cols sample a.rows =
        Colloc.collocate (ColCmd.toSeps s) k p.missing sampleVar cx b.cols sample b.rows) v v') :
    ColCmd.eachVar p s kname k sampleVar cx sample v = ColCmd.eachVar p s kname k sampleVar cx sample v' := by
  induction h with
  | nil => rfl
  | cons hab _ ih => rw [ColCmd.eachVar, ColCmd.eachVar, hab.1, hab.2, ih]

theorem rangeOf_isNone_part (m : List Bool) (coords : List Obj) : (rangeOf (part m coords)).isNone = (rangeOf coords).isNone := by
  unfold rangeOf
  rw [find_part]
  cases coords.find? (fun c => c.info.std == "longitude") <;> rfl

theorem hasColumns_part (o : Opts) (m : List Bool) (sample data : List Obj) : hasColumns o sample (part m data) = hasColumns o sample data := by
  unfold hasColumns part
  congr 1
  funext k
  rw [List.any_map]
  rfl

theorem table_get (coords : List (List (Option ℚ))) (v : List (Option ℚ)) (i : Nat) (hi : i < v.length) :
    (Spec.table coords v)[i]? = some (coords.map (fun c => c.getD i none), v.getD i none) := by
  rw [Spec.table, List.getElem?_map, List.getElem?_range hi]; rfl

theorem setRange_length {start : Option ℚ} {coords : List Obj} {n : Nat} (hl : ∀ c ∈ coords, c.values.length = n ∧ none ∉ c.values) :
    ∀ c ∈ setRange start coords, c.values.length = n := by
  cases start with
  | none => exact fun c hc => (hl c hc).1
  | some s =>
    intro c hc
    obtain ⟨c0, hc0, rfl⟩ := List.mem_map.1 hc
    obtain ⟨h1, h2⟩ := hl c0 hc0
    split
    · rw [List.length_map]
      unfold fixLongitudeRange Cis.Lon.wrapLons pointsIn
      rw [List.length_map]
      have := congrArg List.length (filterMap_some c0.values h2)
      rw [List.length_map] at this
      rw [this, h1]
    · exact h1

/-- The options of C184: what the program makes of them. -/
theorem box_plan (num : Str → Option ℚ) (kernels : List Str) (sampleVar : Bool) (l : Opts) (kern : Str)
    (hl : Method.Spec.Plain "box".toList l) (hkeys : ∀ kv ∈ l, kv.1 ∈ ColOpts.Spec.keys)
    (hH : ∀ v, (kH, some v) ∈ l → ∃ x, ColOpts.Spec.Km num v x) (hA : ∀ v, (kA, some v) ∈ l → ∃ x, ColOpts.Spec.Metre num v x)
    (hP : ∀ v, (kP, some v) ∈ l → ∃ x, num v = some x) (hT : ∀ v, (kT, some v) ∈ l → ∃ x, ColOpts.Spec.Days v x)
    (hF : ∀ v, (kFill, some v) ∈ l → ∃ x, num v = some x) (hk : kern = [] ∨ kern ∈ kernels) (hstat : kern ∈ ColCmd.Spec.statistics) :
    ∃ p s kname k, ColCmd.Spec.Written num l s ∧ k.dataOnly ∧ (∀ m, (details kname m).length = k.size) ∧
      ∀ cx sample vars, ColCmd.run num kernels sampleVar (some (Method.methodArgs (Method.Spec.method "box".toList l))) (some (kern, [])) cx sample vars =
        ColCmd.eachVar p s kname k sampleVar cx sample vars := by
  obtain ⟨k, hst⟩ := ColCmd.statistic_exists hstat
  obtain ⟨p, s, e, hw, sH, sA, sP, sT, -, -⟩ := c178_box num kernels sampleVar l kern hl hkeys hH hA hP hT hF hk
  obtain ⟨hn, hd, hsz⟩ := ColCmd.statistic_named hst
  refine ⟨p, s, _, k, ⟨sH, sA, sP, sT⟩, hd, hsz, ?_⟩
  intro cx sample vars
  unfold ColCmd.run
  rw [e]
  dsimp only
  rw [hw]
  dsimp only
  rw [hn]

/-- **C215.** `cis subset` of the data before `cis col` changes nothing, if the limits leave all valid values within the separations of some sample
point, and at least one valid value of each variable: the results are the same, point for point and with all their metadata. -/
theorem c215_subset_data (valid : String → Bool) (store : ℝ → ℚ) (history : String) (num : Str → Option ℚ) (kernels : List Str)
    (l : Opts) (kern : Str) (sample : List Obj × Option (List (Option ℚ))) (data data' : List Obj × List Obj) (n N : Nat)
    (hl : Method.Spec.Plain "box".toList l) (hkeys : ∀ kv ∈ l, kv.1 ∈ ColOpts.Spec.keys)
    (hH : ∀ v, (kH, some v) ∈ l → ∃ x, ColOpts.Spec.Km num v x) (hA : ∀ v, (kA, some v) ∈ l → ∃ x, ColOpts.Spec.Metre num v x)
    (hP : ∀ v, (kP, some v) ∈ l → ∃ x, num v = some x) (hT : ∀ v, (kT, some v) ∈ l → ∃ x, ColOpts.Spec.Days v x)
    (hF : ∀ v, (kFill, some v) ∈ l → ∃ x, num v = some x) (hk : kern = [] ∨ kern ∈ kernels) (hstat : kern ∈ ColCmd.Spec.statistics)
    (start dstart : Option ℚ) (sc dc : List Obj) (hstart : Spec.Start sample.1 start) (hsc : Spec.InOneRange start sample.1 sc)
    (hdstart : Spec.Start sc dstart) (hdc : Spec.InOneRange dstart data.1 dc)
    (hn : sample.1 ≠ [] ∧ ∀ c ∈ sample.1, c.values.length = n)
    (hN : data.2 ≠ [] ∧ (∀ c ∈ data.1, c.values.length = N ∧ none ∉ c.values) ∧ ∀ o ∈ data.2, o.values.length = N)
    (lon lat : Nat) (limits : List Limit) (hlim : ∀ t ∈ limits, t.coord < data.1.length)
    (hconv : ∀ t ∈ limits, t.coord = lon → Cis.Subset.newRange ((data.1.map (fun c => c.values.filterMap id)).getD lon []) t.start t.stop = none)
    (hsub : subsetObjs lon lat limits data.1 data.2 = some data')
    (hgood : ∀ s, ColCmd.Spec.Written num l s → ∀ o ∈ data.2,
      Colloc.Spec.Good (ColCmd.Spec.real s) (Spec.samplePoints sc n sample.2) (Spec.varOn dc o).rows)
    (hsome : ∀ o ∈ data.2, ∃ r ∈ Spec.table (data.1.map Obj.values) o.values, r.2 ≠ none ∧ Spec.within limits r = true)
    (hnear : ∀ s, ColCmd.Spec.Written num l s → ∀ o ∈ data.2, ∀ p ∈ Spec.samplePoints sc n sample.2, ∀ (i : Nat) (q : Colloc.Row) r,
      (Spec.varOn dc o).rows[i]? = some q → q.val ≠ none → Colloc.Spec.Within (ColCmd.Spec.real s) p.loc q.loc →
      (Spec.table (data.1.map Obj.values) o.values)[i]? = some r → Spec.within limits r = true) :
    colStep valid store history num kernels (some (Method.methodArgs (Method.Spec.method "box".toList l))) (some (kern, [])) sample data' =
      colStep valid store history num kernels (some (Method.methodArgs (Method.Spec.method "box".toList l))) (some (kern, [])) sample data := by
  obtain ⟨hd0, hNc, hNd⟩ := hN
  obtain ⟨m, hm, hmask, hres⟩ := subsetObjs_eq lon lat limits data.1 data.2 hd0 N (fun c hc => (hNc c hc).2) (fun c hc => (hNc c hc).1) hNd hlim hconv
  rw [hres] at hsub
  have hcnt : m.count true ≠ 0 := fun h => by rw [if_pos h] at hsub; cases hsub
  rw [if_neg hcnt] at hsub
  have hd' : data' = (part m data.1, part m data.2) := by injection hsub with h; exact h.symm
  subst hd'
  have e1 := start_eq hstart
  have e2 := start_eq hdstart
  have e3 := inOneRange_eq hsc
  have e4 := inOneRange_eq hdc
  obtain ⟨p, s, kname, k, hw, hdo, -, hrun⟩ := box_plan num kernels sample.2.isSome l kern hl hkeys hH hA hP hT hF hk hstat
  have hn0 : ((sample.1.head?.map (fun c => c.values.length)).getD 0) = n := by
    cases hs0 : sample.1 with
    | nil => exact absurd hs0 hn.1
    | cons c t => simpa using hn.2 c (by rw [hs0]; simp)
  unfold colStep
  simp only []
  rw [rangeOf_isNone_part, hasColumns_part, setRange_part m _ _ (fun c hc => (hNc c hc).2), hn0, e1, ← e3, e2, ← e4, hrun, hrun]
  have hpts : rowsOf sc n (fun i => (sample.2.bind (fun v => v[i]?)).join) = Spec.samplePoints sc n sample.2 := by
    rw [← mPoints_eq]; rfl
  rw [hpts]
  have hev : ColCmd.eachVar p s kname k sample.2.isSome (colsOf sc) (Spec.samplePoints sc n sample.2)
      ((part m data.2).map (fun o => ⟨namesOf o, colsOf (part m dc), rowsOf (part m dc) o.values.length (fun i => (o.values[i]?).join)⟩)) =
      ColCmd.eachVar p s kname k sample.2.isSome (colsOf sc) (Spec.samplePoints sc n sample.2)
      (data.2.map (fun o => ⟨namesOf o, colsOf dc, rowsOf dc o.values.length (fun i => (o.values[i]?).join)⟩)) := by
    refine eachVar_congr _ _ _ _ _ _ _ ?_
    unfold part
    rw [List.map_map, List.forall₂_map_left_iff, List.forall₂_map_right_iff, List.forall₂_same]
    intro o ho
    refine ⟨rfl, ?_⟩
    simp only [Function.comp, Obj.withValues]
    have hlo := hNd o ho
    have hrows : rowsOf dc o.values.length (fun i => (o.values[i]?).join) = (Spec.varOn dc o).rows := mVar_rows dc o
    have hsl : (select m o.values).length = m.count true := select_length m _ (by rw [hlo, hm])
    have hpart : rowsOf (part m dc) (select m o.values).length (fun i => ((select m o.values)[i]?).join) = select m (Spec.varOn dc o).rows := by
      rw [hsl, rowsOf_part m dc N hm (by rw [e4]; exact setRange_length hNc) o.values hlo, ← hrows, hlo]
    have hcl : colsOf (List.map (fun c => c.withValues (select m c.values)) dc) = colsOf dc := colsOf_part m dc
    unfold part at hpart
    show Colloc.collocate _ _ _ _ _ (colsOf (List.map (fun c => c.withValues (select m c.values)) dc)) _
      (rowsOf (List.map (fun c => c.withValues (select m c.values)) dc) (select m o.values).length _) = _
    rw [hcl, hpart, hrows]
    have g := hgood s hw o ho
    have hrl : (Spec.varOn dc o).rows.length = N := by rw [← hrows]; simp [rowsOf, hlo]
    have hget : ∀ (i : Nat) r, (Spec.table (data.1.map Obj.values) o.values)[i]? = some r → m[i]? = some (Spec.within limits r) := by
      intro i r hr
      rw [hmask o ho, List.getElem?_map, hr]; rfl
    have hval : ∀ (i : Nat) (q : Colloc.Row), (Spec.varOn dc o).rows[i]? = some q → q.val = ((o.values.getD i none).map (fun x => ((x : ℚ) : ℝ))) := by
      intro i q hq
      rw [← hrows, rowsOf, List.getElem?_map] at hq
      have hi : i < o.values.length := by
        by_contra h
        rw [List.getElem?_eq_none (by simpa using h)] at hq
        cases hq
      rw [List.getElem?_range hi] at hq
      injection hq with hq
      rw [← hq]
      simp [List.getD_eq_getElem?_getD, List.getElem?_eq_getElem hi]
    refine Colloc.good_same _ _ hdo _ _ _ _ _ _ _ (good_part g ?_ (dropna_select m _)) g ?_
    · obtain ⟨r, hr, hr2, hr3⟩ := hsome o ho
      obtain ⟨i, hi⟩ := List.mem_iff_getElem?.1 hr
      have hmi := hget i r hi
      rw [hr3] at hmi
      have hil : i < N := by
        rw [← hm]; exact (List.getElem?_eq_some_iff.1 hmi).1
      have hq : (Spec.varOn dc o).rows[i]? = some ((Spec.varOn dc o).rows[i]'(by rw [hrl]; exact hil)) := List.getElem?_eq_getElem _
      generalize (Spec.varOn dc o).rows[i]'(by rw [hrl]; exact hil) = q at hq
      have hqv := hval i q hq
      rw [table_get _ _ _ (by rw [hlo]; exact hil)] at hi
      injection hi with hi
      have hv : q.val ≠ none := by
        rw [hqv]
        intro h
        rw [Option.map_eq_none_iff] at h
        apply hr2
        rw [← hi]
        exact h
      have hsel : q ∈ select m (Spec.varOn dc o).rows := by
        unfold select
        refine List.mem_filterMap.2 ⟨(q, true), ?_, rfl⟩
        rw [List.mem_iff_getElem?]
        refine ⟨i, ?_⟩
        rw [List.getElem?_zip_eq_some]
        exact ⟨hq, hmi⟩
      intro h
      obtain ⟨x, hx⟩ := Option.ne_none_iff_exists'.1 hv
      have : (⟨q.loc, x⟩ : Colloc.DRow) ∈ Colloc.dropna (select m (Spec.varOn dc o).rows) :=
        List.mem_filterMap.2 ⟨q, hsel, by rw [hx]; rfl⟩
      rw [h] at this
      cases this
    · intro r hr
      refine List.Perm.of_eq (selected_part _ _ m _ (by rw [hm, hrl]) ?_)
      intro i q hq hmi
      by_contra hc
      rw [not_or, not_not] at hc
      have hil : i < o.values.length := by
        rw [hlo, ← hm]; exact (List.getElem?_eq_some_iff.1 hmi).1
      have ht := table_get (data.1.map Obj.values) o.values i hil
      have := hnear s hw o ho r hr i q _ hq hc.1 hc.2 ht
      rw [hget i _ ht, this] at hmi
      cases hmi
  rw [hev]

theorem subset_names {lon lat : Nat} {limits : List Limit} {valid : String → Bool} {dflt : Bool → ℚ} {x y : List Obj × List Obj} (hx : Spec.Sound valid dflt x)
    (hlim : ∀ t ∈ limits, t.coord < x.1.length)
    (hconv : ∀ t ∈ limits, t.coord = lon → Cis.Subset.newRange ((x.1.map (fun c => c.values.filterMap id)).getD lon []) t.start t.stop = none)
    (h : subsetObjs lon lat limits x.1 x.2 = some y) : Spec.names y = Spec.names x := by
  obtain ⟨n, hn⟩ := hx.good.lengths
  obtain ⟨m, -, -, hres⟩ := subsetObjs_eq lon lat limits x.1 x.2 hx.good.some.2 n (fun c hc => (hx.good.std c hc).2.2)
    (fun c hc => (hn c (by simp [hc])).1) (fun c hc => (hn c (by simp [hc])).1) hlim hconv
  rw [hres] at h
  split at h
  · cases h
  · injection h with h
    subst h
    unfold Spec.names
    rw [List.map_map]
    rfl

/-- C215 through files: the data are saved, a subset of what is read is saved again and collocated onto the sample that is read. The result is that of
the collocation of all the data. -/
theorem c215_subset_data_files (valid : String → Bool) (dflt : Bool → ℚ) (store : ℝ → ℚ) (history : String) (num : Str → Option ℚ) (kernels : List Str)
    (l : Opts) (kern : Str) (sample : List Obj) (sv : Obj) (useVar : Bool) (data data' : List Obj × List Obj) (n : Nat)
    (hs : Spec.Sound valid dflt (sample, [sv])) (hd : Spec.Sound valid dflt data)
    (hl : Method.Spec.Plain "box".toList l) (hkeys : ∀ kv ∈ l, kv.1 ∈ ColOpts.Spec.keys)
    (hH : ∀ v, (kH, some v) ∈ l → ∃ x, ColOpts.Spec.Km num v x) (hA : ∀ v, (kA, some v) ∈ l → ∃ x, ColOpts.Spec.Metre num v x)
    (hP : ∀ v, (kP, some v) ∈ l → ∃ x, num v = some x) (hT : ∀ v, (kT, some v) ∈ l → ∃ x, ColOpts.Spec.Days v x)
    (hF : ∀ v, (kFill, some v) ∈ l → ∃ x, num v = some x) (hk : kern = [] ∨ kern ∈ kernels) (hstat : kern ∈ ColCmd.Spec.statistics)
    (start dstart : Option ℚ) (sc dc : List Obj) (hstart : Spec.Start sample start) (hsc : Spec.InOneRange start sample sc)
    (hdstart : Spec.Start sc dstart) (hdc : Spec.InOneRange dstart data.1 dc) (hn : ∀ c ∈ sample, c.values.length = n)
    (lon lat : Nat) (limits : List Limit) (hlim : ∀ t ∈ limits, t.coord < data.1.length)
    (hconv : ∀ t ∈ limits, t.coord = lon → Cis.Subset.newRange ((data.1.map (fun c => c.values.filterMap id)).getD lon []) t.start t.stop = none)
    (hsub : subsetObjs lon lat limits data.1 data.2 = some data')
    (hgood : ∀ s, ColCmd.Spec.Written num l s → ∀ o ∈ data.2,
      Colloc.Spec.Good (ColCmd.Spec.real s) (Spec.samplePoints sc n (if useVar then some sv.values else none)) (Spec.varOn dc o).rows)
    (hsome : ∀ o ∈ data.2, ∃ r ∈ Spec.table (data.1.map Obj.values) o.values, r.2 ≠ none ∧ Spec.within limits r = true)
    (hnear : ∀ s, ColCmd.Spec.Written num l s → ∀ o ∈ data.2, ∀ p ∈ Spec.samplePoints sc n (if useVar then some sv.values else none),
      ∀ (i : Nat) (q : Colloc.Row) r, (Spec.varOn dc o).rows[i]? = some q → q.val ≠ none → Colloc.Spec.Within (ColCmd.Spec.real s) p.loc q.loc →
      (Spec.table (data.1.map Obj.values) o.values)[i]? = some r → Spec.within limits r = true) :
    ∃ f g g' u sv' x y z, save dflt sample [sv] = .ok f ∧ save dflt data.1 data.2 = .ok g ∧ loaded valid [f] [sv.info.name] = .ok (u, [sv']) ∧
      loaded valid [g] (Spec.names data) = .ok x ∧ subsetObjs lon lat limits x.1 x.2 = some y ∧ save dflt y.1 y.2 = .ok g' ∧
      loaded valid [g'] (Spec.names data) = .ok z ∧
      (colStep valid store history num kernels (some (Method.methodArgs (Method.Spec.method "box".toList l))) (some (kern, []))
        (u, if useVar then some sv'.values else none) z).map (Spec.settle dflt) =
      (colStep valid store history num kernels (some (Method.methodArgs (Method.Spec.method "box".toList l))) (some (kern, []))
        (u, if useVar then some sv'.values else none) x).map (Spec.settle dflt) := by
  obtain ⟨N, hN⟩ := hd.good.lengths
  obtain ⟨hd', -, -⟩ := subset_sound valid dflt data data' hd lon lat limits hlim hconv hsub
  obtain ⟨f, hf, hlf⟩ := c211_reread valid dflt _ hs
  obtain ⟨g, hg, hlg⟩ := c211_reread valid dflt _ hd
  obtain ⟨g', hg', hlg'⟩ := c211_reread valid dflt _ hd'
  obtain ⟨y, hy, hys⟩ := blind_step dflt _ (c211_subset_blind dflt lon lat limits) data data' hsub
  refine ⟨f, g, g', sample.map (Spec.settledCoord dflt), Spec.settled dflt sv, Spec.settle dflt data, y, Spec.settle dflt data', hf, hg, hlf, hlg, hy, ?_, ?_, ?_⟩
  · rw [save_settle valid dflt y data' hys hd', hg']
  · rw [← subset_names hd hlim hconv hsub]; exact hlg'
  · have e := fun d => colStep_settle valid dflt store history num kernels (some (Method.methodArgs (Method.Spec.method "box".toList l))) (some (kern, []))
      (sample, if useVar then some sv.values else none) d
    have e' : ∀ d, (colStep valid store history num kernels (some (Method.methodArgs (Method.Spec.method "box".toList l))) (some (kern, []))
        (sample.map (Spec.settledCoord dflt), if useVar then some (Spec.settled dflt sv).values else none) (Spec.settle dflt d)).map (Spec.settle dflt) = _ := e
    rw [e' data', e' data]
    rw [c215_subset_data valid store history num kernels l kern (sample, if useVar then some sv.values else none) data data' n N hl hkeys hH hA hP hT hF hk hstat
      start dstart sc dc hstart hsc hdstart hdc ⟨hs.good.some.1, hn⟩
      ⟨hd.good.some.2, fun c hc => ⟨(hN c (by simp [hc])).1, (hd.good.std c hc).2.2⟩, fun o ho => (hN o (by simp [ho])).1⟩
      lon lat limits hlim hconv hsub hgood hsome hnear]

/-! ### A subset of the sample -/

theorem good_fewer {s : Colloc.Seps} {sample sample' data : List Colloc.Row} (g : Colloc.Spec.Good s sample data) (h : ∀ r ∈ sample', r ∈ sample)
    (hneg : (∃ r ∈ sample, r.loc.lon < 0) → ∃ r ∈ sample', r.loc.lon < 0) : Colloc.Spec.Good s sample' data := by
  refine ⟨g.some_valid, fun r hr => g.pressures r (h r hr), g.not_zero, fun x hx r hr => g.edge x hx r (h r hr), ?_⟩
  rcases g.near with hn | ⟨w, ⟨w1, w2, w3⟩, hn⟩
  · exact .inl hn
  · refine .inr ⟨w, ⟨w1, w2.trans ⟨hneg, fun ⟨r, hr, h0⟩ => ⟨r, h r hr, h0⟩⟩, fun r hr => w3 r (h r hr)⟩, fun x hx r hr => hn x hx r (h r hr)⟩

theorem select_eq_get {α : Type} (m : List Bool) (l : List α) (d : α) (hm : m.length = l.length) :
    (List.range (m.count true)).map (fun j => (l[(select m (List.range l.length)).getD j 0]?).getD d) = select m l := by
  have hc : m.count true = (select m (List.range l.length)).length := (select_length m _ (by simp [hm])).symm
  rw [hc, select_as_map m l d]
  refine map_range_get _ _ _ fun j p hp => ?_
  rw [List.getD_eq_getElem?_getD, hp, List.getD_eq_getElem?_getD]
  rfl

/-- Collocation onto a selection of the sample points. -/
theorem collocate_part (s : Colloc.Seps) (k : Colloc.Kernel) (hk : k.dataOnly) (missing hasVals : Bool) (cx cy : List Colloc.Col) (sample data : List Colloc.Row)
    (m : List Bool) (hm : m.length = sample.length) (g : Colloc.Spec.Good s sample data) (g' : Colloc.Spec.Good s (select m sample) data) :
    ∃ out, Colloc.collocate s k missing hasVals cx cy sample data = .ok out ∧ out.length = k.size ∧ (∀ v ∈ out, v.length = sample.length) ∧
      Colloc.collocate s k missing hasVals cx cy (select m sample) data = .ok (out.map (select m)) := by
  obtain ⟨out, out', h1, h2, h3⟩ := Colloc.c130_sample s k hk missing hasVals cx cy sample (select m sample) data
    (fun j => (select m (List.range sample.length)).getD j 0)
    (by
      intro j r hr
      rw [select_get] at hr
      rw [List.getD_eq_getElem?_getD]
      cases hp : (select m (List.range sample.length))[j]? with
      | none => rw [hp] at hr; cases hr
      | some p => rw [hp] at hr; exact hr) g g'
  obtain ⟨a1, a2, -⟩ := Colloc.good_value g k hk missing hasVals cx cy h1
  refine ⟨out, h1, a1, a2, ?_⟩
  rw [h2, h3]
  congr 1
  refine List.map_congr_left fun v hv => ?_
  rw [select_length m sample hm.symm, ← a2 v hv, ← select_eq_get m v none (by rw [hm, a2 v hv])]
  refine List.map_congr_left fun j _ => ?_
  cases v[(select m (List.range v.length)).getD j 0]? <;> rfl

theorem eachVar_part (p : Plan) (s : ColOpts.Seps) (kname : Str) (k : Colloc.Kernel) (hsz : ∀ x, (details kname x).length = k.size) (hpos : 0 < k.size)
    (sampleVar : Bool) (cx : List Colloc.Col) (sample : List Colloc.Row) (m : List Bool) : ∀ vars : List ColCmd.Var,
    (∀ v ∈ vars, ∃ out, Colloc.collocate (ColCmd.toSeps s) k p.missing sampleVar cx v.cols sample v.rows = .ok out ∧ out.length = k.size ∧
      (∀ v ∈ out, v.length = sample.length) ∧
      Colloc.collocate (ColCmd.toSeps s) k p.missing sampleVar cx v.cols (select m sample) v.rows = .ok (out.map (select m))) →
    ∃ r, ColCmd.eachVar p s kname k sampleVar cx sample vars = .ok r ∧ (∀ o ∈ r, o.2.length = sample.length) ∧ (vars ≠ [] → r ≠ []) ∧
      ColCmd.eachVar p s kname k sampleVar cx (select m sample) vars = .ok (r.map (fun o => (o.1, select m o.2)))
  | [], _ => ⟨[], rfl, by simp, by simp, rfl⟩
  | v :: t, h => by
    obtain ⟨out, h1, h2, h3, h4⟩ := h v (by simp)
    obtain ⟨r, r1, r2, -, r3⟩ := eachVar_part p s kname k hsz hpos sampleVar cx sample m t (fun w hw => h w (by simp [hw]))
    refine ⟨((details kname v.names).map (fun d => (⟨d, some p.fill⟩ : Out))).zip out ++ r, ?_, ?_, ?_, ?_⟩
    · rw [ColCmd.eachVar, h1]; dsimp only; rw [r1]
    · intro o ho
      rcases List.mem_append.1 ho with ho | ho
      · exact h3 _ (List.of_mem_zip ho).2
      · exact r2 o ho
    · intro _ h0
      have h0 := congrArg List.length h0
      simp only [List.length_append, List.length_zip, List.length_map, List.length_nil, hsz, h2] at h0
      omega
    · rw [ColCmd.eachVar, h4]
      dsimp only
      rw [r3]
      dsimp only
      rw [List.map_append, List.zip_map_right]
      rfl

theorem size_pos (k : Colloc.Kernel) : 0 < k.size := by cases k <;> decide

theorem within_rows (limits : List Limit) (coords : List (List (Option ℚ))) (v v' : List (Option ℚ)) (h : v.length = v'.length) :
    (Spec.table coords v).map (Spec.within limits) = (Spec.table coords v').map (Spec.within limits) := by
  unfold Spec.table
  rw [List.map_map, List.map_map, h]
  rfl

theorem negative_rows (coords : List Obj) (n : Nat) (vals : Nat → Option ℚ) (hl : ∀ c ∈ coords, c.values.length = n) :
    (∃ r ∈ rowsOf coords n vals, r.loc.lon < 0) ↔ ∃ x, some x ∈ Spec.coordinate coords "longitude" ∧ x < 0 := by
  unfold rowsOf Spec.coordinate
  constructor
  · rintro ⟨r, hr, h0⟩
    obtain ⟨i, -, rfl⟩ := List.mem_map.1 hr
    dsimp only at h0
    unfold coordAt at h0
    cases hf : coords.find? (fun c => c.info.std == "longitude") with
    | none => rw [hf] at h0; simp at h0
    | some c =>
      rw [hf] at h0
      simp only [Option.bind_some] at h0
      rcases hv : c.values[i]? with _ | (_ | x)
      · rw [hv] at h0; simp at h0
      · rw [hv] at h0; simp at h0
      · rw [hv] at h0
        refine ⟨x, List.mem_of_getElem? hv, ?_⟩
        simpa using h0
  · rintro ⟨x, hx, h0⟩
    cases hf : coords.find? (fun c => c.info.std == "longitude") with
    | none => rw [hf] at hx; simp at hx
    | some c =>
      rw [hf] at hx
      simp only [Option.map_some, Option.getD_some] at hx
      obtain ⟨i, hi, hv⟩ := List.getElem_of_mem hx
      have hin : i < n := by rw [← hl c (List.mem_of_find?_eq_some hf)]; exact hi
      refine ⟨_, List.mem_map.2 ⟨i, List.mem_range.2 hin, rfl⟩, ?_⟩
      dsimp only
      unfold coordAt
      rw [hf]
      simp only [Option.bind_some]
      rw [List.getElem?_eq_getElem hi, hv]
      simpa using h0

theorem rangeOf_part (m : List Bool) (coords : List Obj)
    (hneg : (∃ x, some x ∈ Spec.coordinate coords "longitude" ∧ x < 0) → ∃ x, some x ∈ Spec.coordinate (part m coords) "longitude" ∧ x < 0) :
    rangeOf (part m coords) = rangeOf coords := by
  unfold rangeOf Spec.coordinate at *
  rw [find_part] at *
  cases hf : coords.find? (fun c => c.info.std == "longitude") with
  | none => rfl
  | some c =>
    rw [hf] at hneg
    simp only [Option.map_some, Option.getD_some] at hneg ⊢
    congr 1
    unfold findLongitudeRange pointsIn Obj.withValues
    dsimp only
    by_cases h : ∃ x, some x ∈ c.values ∧ x < 0
    · obtain ⟨y, hy, hy0⟩ := hneg h
      obtain ⟨x, hx, hx0⟩ := h
      rw [if_pos, if_pos]
      · rw [List.any_eq_true]; exact ⟨x, List.mem_filterMap.2 ⟨some x, hx, rfl⟩, by simpa using hx0⟩
      · rw [List.any_eq_true]; exact ⟨y, List.mem_filterMap.2 ⟨some y, hy, rfl⟩, by simpa using hy0⟩
    · rw [if_neg, if_neg]
      · rw [List.any_eq_true]
        rintro ⟨x, hx, h0⟩
        obtain ⟨y, hy, e⟩ := List.mem_filterMap.1 hx
        simp only [id] at e; subst e
        exact h ⟨x, hy, by simpa using h0⟩
      · rw [List.any_eq_true]
        rintro ⟨x, hx, h0⟩
        obtain ⟨y, hy, e⟩ := List.mem_filterMap.1 hx
        simp only [id] at e; subst e
        exact h ⟨x, select_sub _ m _ hy, by simpa using h0⟩

/-- **C215.** `cis subset` of the sample before `cis col` is the same as that subset of the result of `cis col`. The longitudes of the sample are
in one range already, and if there are negative ones some of them are left by the limits. -/
theorem c215_subset_sample (valid : String → Bool) (store : ℝ → ℚ) (history : String) (num : Str → Option ℚ) (kernels : List Str)
    (l : Opts) (kern : Str) (sample : List Obj) (sv : Obj) (part' : List Obj × List Obj) (useVar : Bool) (data : List Obj × List Obj) (n : Nat)
    (hl : Method.Spec.Plain "box".toList l) (hkeys : ∀ kv ∈ l, kv.1 ∈ ColOpts.Spec.keys)
    (hH : ∀ v, (kH, some v) ∈ l → ∃ x, ColOpts.Spec.Km num v x) (hA : ∀ v, (kA, some v) ∈ l → ∃ x, ColOpts.Spec.Metre num v x)
    (hP : ∀ v, (kP, some v) ∈ l → ∃ x, num v = some x) (hT : ∀ v, (kT, some v) ∈ l → ∃ x, ColOpts.Spec.Days v x)
    (hF : ∀ v, (kFill, some v) ∈ l → ∃ x, num v = some x) (hk : kern = [] ∨ kern ∈ kernels) (hstat : kern ∈ ColCmd.Spec.statistics)
    (start : Option ℚ) (dc : List Obj) (hstart : Spec.Start sample start) (hsc : Spec.InOneRange start sample sample)
    (hdc : Spec.InOneRange start data.1 dc) (hd : data.2 ≠ [])
    (hn : sample ≠ [] ∧ (∀ c ∈ sample, c.values.length = n ∧ none ∉ c.values) ∧ sv.values.length = n)
    (lon lat : Nat) (limits : List Limit) (hlim : ∀ t ∈ limits, t.coord < sample.length)
    (hconv : ∀ t ∈ limits, t.coord = lon → Cis.Subset.newRange ((sample.map (fun c => c.values.filterMap id)).getD lon []) t.start t.stop = none)
    (hsub : subsetObjs lon lat limits sample [sv] = some part')
    (hneg : (∃ x, some x ∈ Spec.coordinate sample "longitude" ∧ x < 0) → ∃ x, some x ∈ Spec.coordinate part'.1 "longitude" ∧ x < 0)
    (hcols : ∀ k ∈ needed, (∃ v, (k.1, some v) ∈ l) → (∃ c ∈ sample, c.info.std = k.2) ∧ ∃ c ∈ data.1, c.info.std = k.2)
    (hlon : (∃ c ∈ sample, c.info.std = "longitude") → ∃ c ∈ data.1, c.info.std = "longitude")
    (hgood : ∀ s, ColCmd.Spec.Written num l s → ∀ o ∈ data.2,
      Colloc.Spec.Good (ColCmd.Spec.real s) (Spec.samplePoints sample n (if useVar then some sv.values else none)) (Spec.varOn dc o).rows) :
    ∃ sv' y y', part'.2 = [sv'] ∧
      colStep valid store history num kernels (some (Method.methodArgs (Method.Spec.method "box".toList l))) (some (kern, []))
        (sample, if useVar then some sv.values else none) data = some y ∧
      colStep valid store history num kernels (some (Method.methodArgs (Method.Spec.method "box".toList l))) (some (kern, []))
        (part'.1, if useVar then some sv'.values else none) data = some y' ∧
      subsetObjs lon lat limits y.1 y.2 = some y' := by
  obtain ⟨hs0, hnc, hnv⟩ := hn
  obtain ⟨m, hm, hmask, hres⟩ := subsetObjs_eq lon lat limits sample [sv] (by simp) n (fun c hc => (hnc c hc).2) (fun c hc => (hnc c hc).1)
    (by simpa using hnv) hlim hconv
  rw [hres] at hsub
  have hcnt : m.count true ≠ 0 := fun h => by rw [if_pos h] at hsub; cases hsub
  rw [if_neg hcnt] at hsub
  have hp' : part' = (part m sample, [sv.withValues (select m sv.values)]) := by injection hsub with h; exact h.symm
  subst hp'
  dsimp only at hneg ⊢
  have e1 := start_eq hstart
  have e3 := inOneRange_eq hsc
  have e4 := inOneRange_eq hdc
  have e1' : rangeOf (part m sample) = start := by rw [rangeOf_part m sample hneg, e1]
  have e3' : setRange start (part m sample) = part m sample := by rw [setRange_part m _ _ (fun c hc => (hnc c hc).2), ← e3]
  have hsv : (if useVar then some sv.values else none : Option (List (Option ℚ))).isSome = useVar := by cases useVar <;> rfl
  have hsv' : (if useVar then some (sv.withValues (select m sv.values)).values else none : Option (List (Option ℚ))).isSome = useVar := by cases useVar <;> rfl
  obtain ⟨p, s, kname, k, hw, hdo, hsz, hrun⟩ := box_plan num kernels useVar l kern hl hkeys hH hA hP hT hF hk hstat
  have hhead : ((sample.head?.map (fun c => c.values.length)).getD 0) = n := by
    cases h0 : sample with
    | nil => exact absurd h0 hs0
    | cons c t => simpa using (hnc c (by rw [h0]; simp)).1
  have hhead' : (((part m sample).head?.map (fun c => c.values.length)).getD 0) = m.count true := by
    unfold part
    cases h0 : sample with
    | nil => exact absurd h0 hs0
    | cons c t => simpa [Obj.withValues] using select_length m c.values (by rw [(hnc c (by rw [h0]; simp)).1, hm])
  set R := rowsOf sample n (fun i => ((if useVar then some sv.values else none : Option (List (Option ℚ))).bind (fun v => v[i]?)).join) with hR
  have hRp : R = Spec.samplePoints sample n (if useVar then some sv.values else none) := by rw [← mPoints_eq]; rfl
  have hRl : R.length = n := by simp [hR, rowsOf]
  have hR' : rowsOf (part m sample) (m.count true)
      (fun i => ((if useVar then some (sv.withValues (select m sv.values)).values else none : Option (List (Option ℚ))).bind (fun v => v[i]?)).join) = select m R := by
    cases useVar with
    | true => exact rowsOf_part m sample n hm (fun c hc => (hnc c hc).1) sv.values hnv
    | false =>
      have h := rowsOf_part m sample n hm (fun c hc => (hnc c hc).1) (List.replicate n none) (by simp)
      have a : ∀ i : Nat, ((List.replicate n (none : Option ℚ))[i]?).join = none := by
        intro i; rw [List.getElem?_replicate]; split <;> rfl
      have b : ∀ i : Nat, ((select m (List.replicate n (none : Option ℚ)))[i]?).join = none := by
        intro i
        rcases hx : (select m (List.replicate n (none : Option ℚ)))[i]? with _ | x
        · rfl
        · have := select_sub x m _ (List.mem_of_getElem? hx)
          rw [List.eq_of_mem_replicate this]; rfl
      simp only [a, b] at h
      exact h
  have hfew : ∀ r ∈ select m R, r ∈ R := fun r hr => select_sub r m R hr
  have hneg' : (∃ r ∈ R, r.loc.lon < 0) → ∃ r ∈ select m R, r.loc.lon < 0 := by
    intro h
    rw [hR, negative_rows sample n _ (fun c hc => (hnc c hc).1)] at h
    rw [← hR', negative_rows (part m sample) _ _ ?_]
    · exact hneg h
    · intro c hc
      obtain ⟨c0, hc0, rfl⟩ := List.mem_map.1 hc
      exact select_length m _ (by rw [(hnc c0 hc0).1, hm])
  obtain ⟨r, r1, r2, r3, r4⟩ := eachVar_part p s kname k hsz (size_pos k) useVar (colsOf sample) R m
    (data.2.map (fun o => ⟨namesOf o, colsOf dc, rowsOf dc o.values.length (fun i => (o.values[i]?).join)⟩))
    (by
      intro v hv
      obtain ⟨o, ho, rfl⟩ := List.mem_map.1 hv
      have hrows : rowsOf dc o.values.length (fun i => (o.values[i]?).join) = (Spec.varOn dc o).rows := mVar_rows dc o
      have g := hgood s hw o ho
      rw [← hRp, ← hrows] at g
      exact collocate_part (ColCmd.toSeps s) k hdo p.missing useVar (colsOf sample) _ R _ m (by rw [hm, hRl]) g (good_fewer g hfew hneg'))
  have hc1 : ¬ ((rangeOf sample).isSome = true ∧ (rangeOf data.1).isNone = true) := by
    rintro ⟨a, b⟩
    unfold rangeOf at a b
    rw [Option.isSome_map] at a
    rw [Option.isNone_map] at b
    obtain ⟨c, hc⟩ := Option.isSome_iff_exists.1 a
    obtain ⟨d, hd', hd2⟩ := hlon ⟨c, List.mem_of_find?_eq_some hc, by simpa using List.find?_some hc⟩
    have := List.find?_eq_none.1 (Option.isNone_iff_eq_none.1 b) d hd'
    simp [hd2] at this
  have hpos : 0 < m.count true := Nat.pos_of_ne_zero hcnt
  have hnpos : 0 < n := by
    have := List.count_le_length (a := true) (l := m)
    omega
  have hc2 : ¬ (sample.any (fun c => c.info.std == "longitude" && c.values.isEmpty) = true) := by
    rw [List.any_eq_true]
    rintro ⟨c, hc, h⟩
    have h0 := (hnc c hc).1
    simp only [Bool.and_eq_true, List.isEmpty_iff] at h
    rw [h.2] at h0
    simp at h0
    omega
  have hc2' : ¬ ((part m sample).any (fun c => c.info.std == "longitude" && c.values.isEmpty) = true) := by
    rw [List.any_eq_true]
    rintro ⟨c, hc, h⟩
    obtain ⟨c0, hc0, rfl⟩ := List.mem_map.1 hc
    have h0 := select_length m c0.values (by rw [(hnc c0 hc0).1, hm])
    simp only [Bool.and_eq_true, List.isEmpty_iff, Obj.withValues] at h
    rw [h.2] at h0
    simp at h0
    omega
  have hc3 : hasColumns l sample data.1 = true := hasColumns_of l sample data.1 hcols
  have hc3' : hasColumns l (part m sample) data.1 = true := hasColumns_of l (part m sample) data.1 (by
    intro k0 hk0 hv
    obtain ⟨⟨c, hc, h1⟩, h2⟩ := hcols k0 hk0 hv
    exact ⟨⟨_, List.mem_map.2 ⟨c, hc, rfl⟩, h1⟩, h2⟩)
  have hopts : (Option.map Prod.snd (some (Method.methodArgs (Method.Spec.method "box".toList l)))).getD [] = l := by
    rw [Method.c85_method "box".toList l hl]; rfl
  refine ⟨_, (sample, r.map (outObj valid store history)), (part m sample, (r.map (fun o => (o.1, select m o.2))).map (outObj valid store history)), rfl, ?_, ?_, ?_⟩
  · unfold colStep
    simp only []
    rw [hopts, if_neg hc1, if_neg hc2, hc3, if_neg (by simp), hhead, e1, ← e3, e1, ← e4, hsv, hrun, ← hR, r1]
  · unfold colStep
    simp only []
    rw [hopts, if_neg (by rw [e1', ← e1]; exact hc1), if_neg hc2', hc3', if_neg (by simp), hhead', e1', e3', e1', ← e4, hsv', hrun, hR', colsOf_part, r4]
  · obtain ⟨m2, hm2, hmask2, hres2⟩ := subsetObjs_eq lon lat limits sample (r.map (outObj valid store history))
      (by simpa using r3 (by simpa using hd)) n (fun c hc => (hnc c hc).2) (fun c hc => (hnc c hc).1)
      (by
        intro o ho
        obtain ⟨x, hx, rfl⟩ := List.mem_map.1 ho
        simp [outObj, r2 x hx, hRl]) hlim hconv
    have hmm : m2 = m := by
      obtain ⟨x, t, hr⟩ := List.exists_cons_of_ne_nil (r3 (by simpa using hd))
      rw [hmask sv (by simp), hmask2 (outObj valid store history x) (by rw [hr]; simp)]
      exact within_rows _ _ _ _ (by simp [outObj, r2 x (by rw [hr]; simp), hRl, hnv])
    subst hmm
    rw [hres2, if_neg hcnt]
    simp only [Option.some.injEq, Prod.mk.injEq, List.map_map]
    refine ⟨rfl, ?_⟩
    refine List.map_congr_left fun x _ => ?_
    simp only [Function.comp, outObj, Obj.withValues, select_map']

/-! ### The hypotheses can be met -/

/-- Data of which one point is far from the sample in time. -/
def exFarVar : Obj := plainObj "so2" "" [some 1, some 3, some 7]

/-- `t=[0,1]`: the second coordinate. -/
def exLimits : List Limit := [⟨1, 0, 1⟩]

theorem ex_opts_T : ∀ v, (kT, some v) ∈ exColOpts → ∃ x, ColOpts.Spec.Days v x := fun v hv => by
  simp only [exColOpts, List.mem_cons, List.not_mem_nil, or_false, Prod.mk.injEq] at hv
  rcases hv with ⟨-, hv⟩ | ⟨hv, -⟩
  · injection hv with hv; subst hv; exact ColCmd.ex_days
  · exact absurd hv (by decide)

theorem ex_opts_F : ∀ v, (kFill, some v) ∈ exColOpts → ∃ x, exNum v = some x := fun v hv => by
  simp only [exColOpts, List.mem_cons, List.not_mem_nil, or_false, Prod.mk.injEq] at hv
  rcases hv with ⟨hv, -⟩ | ⟨-, hv⟩
  · exact absurd hv (by decide)
  · injection hv with hv; subst hv; exact ⟨-999, by decide +kernel⟩

theorem ex_good_far (s : ColOpts.Seps) (hs : ColCmd.Spec.Written exNum exColOpts s) (sample : List Colloc.Row) :
    Colloc.Spec.Good (ColCmd.Spec.real s) sample (Spec.varOn exDataMoved exFarVar).rows := by
  obtain ⟨h0, p0⟩ := ex_seps s hs
  refine ⟨?_, ?_, by simp [ColCmd.Spec.real, h0], by intro h e; simp [ColCmd.Spec.real, h0] at e, .inl (by simp [ColCmd.Spec.real, h0])⟩
  · simp [Colloc.dropna, Spec.varOn, Spec.points, exFarVar, plainObj, List.range_succ]
  · intro r hr
    simp [Colloc.PresOK, ColCmd.Spec.real, p0]

theorem ex_same : Spec.InOneRange (some 0) exSampleMoved exSampleMoved := by
  refine .cons ⟨rfl, rfl, rfl, rfl, rfl, fun h => absurd h (by decide), ?_⟩ (.cons ⟨rfl, rfl, rfl, rfl, rfl, fun _ => rfl, fun s _ h => absurd h (by decide)⟩ .nil)
  intro s hs _
  cases hs
  exact .cons ⟨160, 160, rfl, rfl, by norm_num, 0, by norm_num⟩ (.cons ⟨5, 5, rfl, rfl, by norm_num, 0, by norm_num⟩ .nil)

theorem ex_columns (sample data : List Obj) (h1 : exSampleTime ∈ sample) (h2 : exDataTime ∈ data) :
    ∀ k ∈ needed, (∃ v, (k.1, some v) ∈ exColOpts) → (∃ c ∈ sample, c.info.std = k.2) ∧ ∃ c ∈ data, c.info.std = k.2 := by
  intro k hk ⟨v, hv⟩
  have hkt : k.1 = kT ∨ k.1 = kFill := by
    simp only [exColOpts, List.mem_cons, List.not_mem_nil, or_false, Prod.mk.injEq] at hv
    rcases hv with hv | hv
    · exact .inl hv.1
    · exact .inr hv.1
  simp only [needed, List.mem_cons, List.not_mem_nil, or_false] at hk
  rcases hk with rfl | rfl | rfl | rfl | rfl
  iterate 4 exact absurd hkt (by decide)
  exact ⟨⟨exSampleTime, h1, rfl⟩, exDataTime, h2, rfl⟩

/-- The second of the two sample points is outside the limits. -/
example : ∃ part' sv' y y', subsetObjs 0 9 exLimits exSampleMoved [plainObj "s" "" [some 4, some 8]] = some part' ∧ part'.2 = [sv'] ∧
    sv'.values = [some 4] ∧
    colStep (fun _ => true) exStore "h" exNum ["mean".toList] (some (Method.methodArgs (Method.Spec.method "box".toList exColOpts))) (some ("mean".toList, []))
      (exSampleMoved, some [some 4, some 8]) ([exDataLon, exDataTime], [exFarVar]) = some y ∧
    colStep (fun _ => true) exStore "h" exNum ["mean".toList] (some (Method.methodArgs (Method.Spec.method "box".toList exColOpts))) (some ("mean".toList, []))
      (part'.1, some sv'.values) ([exDataLon, exDataTime], [exFarVar]) = some y' ∧ subsetObjs 0 9 exLimits y.1 y.2 = some y' := by
  have hsub : subsetObjs 0 9 exLimits exSampleMoved [plainObj "s" "" [some 4, some 8]] =
      some ([plainObj "lon" "longitude" [some 160], plainObj "t" "time" [some 0]], [plainObj "s" "" [some 4]]) := by rfl
  obtain ⟨sv', y, y', h1, h2, h3, h4⟩ := c215_subset_sample (fun _ => true) exStore "h" exNum ["mean".toList] exColOpts "mean".toList
    exSampleMoved (plainObj "s" "" [some 4, some 8]) _ true ([exDataLon, exDataTime], [exFarVar]) 2
    ⟨by decide, by decide, by decide, by decide +kernel, by decide⟩ (by decide)
    (ex_other (by decide) (by decide)) (ex_other (by decide) (by decide)) (ex_other (by decide) (by decide)) ex_opts_T ex_opts_F
    (.inr (by decide)) (by decide) (some 0) exDataMoved ex_dstart ex_same ex_dmoved (by simp)
    ⟨by simp [exSampleMoved], by decide +kernel, rfl⟩ 0 9 exLimits (by decide) (by decide +kernel) hsub
    (by
      rintro ⟨x, hx, h0⟩
      simp [Spec.coordinate, exSampleMoved, plainObj] at hx
      rcases hx with rfl | rfl <;> norm_num at h0)
    (ex_columns _ _ (by simp [exSampleMoved]) (by simp)) (fun _ => ⟨exDataLon, by simp, rfl⟩)
    (by
      intro s hs o ho
      rw [List.mem_singleton] at ho
      subst ho
      exact ex_good_far s hs _)
  refine ⟨_, sv', y, y', hsub, h1, ?_, h2, h3, h4⟩
  have : sv' = plainObj "s" "" [some 4] := by simpa using h1.symm
  rw [this]; rfl

theorem ex_one_day (s : ColOpts.Seps) (h : ColCmd.Spec.Written exNum exColOpts s) : s.t = some 1 := by
  obtain ⟨-, -, -, hT⟩ := h
  have h1 : ColOpts.Spec.Days "P1D".toList 1 := ⟨none, none, some "1".toList, none, 86400, by simp, by simp, by rintro n ⟨⟩; exact ⟨by decide, by decide⟩,
    by simp, by decide, by decide, by decide, by norm_num⟩
  rcases hT with ⟨v, y, hm, hy, e⟩ | ⟨h, -⟩
  · simp only [exColOpts, List.mem_cons, List.not_mem_nil, or_false, Prod.mk.injEq] at hm
    rcases hm with ⟨-, hv⟩ | ⟨hv, -⟩
    · injection hv with hv
      subst hv
      have := (days_ok hy).symm.trans (days_ok h1)
      injection this with this
      rw [e, this]
    · exact absurd hv (by decide)
  · exact absurd (h "P1D".toList) (by simp [exColOpts])

/-- The third of the three data points is outside the limits. -/
example : ∃ data', subsetObjs 0 9 exLimits [exDataLon, exDataTime] [exFarVar] = some data' ∧ data'.2.map Obj.values = [[some 1, some 3]] ∧
    colStep (fun _ => true) exStore "h" exNum ["mean".toList] (some (Method.methodArgs (Method.Spec.method "box".toList exColOpts))) (some ("mean".toList, []))
      ([exSampleLon, exSampleTime], some [some 0, none]) data' =
    colStep (fun _ => true) exStore "h" exNum ["mean".toList] (some (Method.methodArgs (Method.Spec.method "box".toList exColOpts))) (some ("mean".toList, []))
      ([exSampleLon, exSampleTime], some [some 0, none]) ([exDataLon, exDataTime], [exFarVar]) := by
  have hsub : subsetObjs 0 9 exLimits [exDataLon, exDataTime] [exFarVar] =
      some ([plainObj "x" "longitude" [some (-10), some 20], plainObj "time" "time" [some 0, some (1 / 2)]], [plainObj "so2" "" [some 1, some 3]]) := by with_unfolding_all rfl
  refine ⟨_, hsub, rfl, ?_⟩
  refine c215_subset_data (fun _ => true) exStore "h" exNum ["mean".toList] exColOpts "mean".toList
    ([exSampleLon, exSampleTime], some [some 0, none]) ([exDataLon, exDataTime], [exFarVar]) _ 2 3
    ⟨by decide, by decide, by decide, by decide +kernel, by decide⟩ (by decide)
    (ex_other (by decide) (by decide)) (ex_other (by decide) (by decide)) (ex_other (by decide) (by decide)) ex_opts_T ex_opts_F
    (.inr (by decide)) (by decide) (some (-180)) (some 0) exSampleMoved exDataMoved ex_start ex_moved ex_dstart ex_dmoved
    ⟨by simp, by decide⟩ ⟨by simp, by decide +kernel, by decide⟩ 0 9 exLimits (by decide) (by decide +kernel) hsub
    (by
      intro s hs o ho
      rw [List.mem_singleton] at ho
      subst ho
      exact ex_good_far s hs _)
    (by
      intro o ho
      rw [List.mem_singleton] at ho
      subst ho
      exact ⟨_, List.mem_cons_self, by decide +kernel, by decide +kernel⟩) ?_
  intro s hs o ho p hp i q r hq _ hw hr
  rw [List.mem_singleton] at ho
  subst ho
  have ht := hw.2.2.2 1 (by simp [ColCmd.Spec.real, ex_one_day s hs])
  have hp' : p.loc.time = 0 ∨ p.loc.time = 9 := by
    simp only [Spec.samplePoints, Spec.points, List.range_succ, List.range_zero, List.mem_map] at hp
    obtain ⟨j, hj, rfl⟩ := hp
    simp at hj
    rcases hj with rfl | rfl <;> simp [Spec.coordinate, exSampleMoved, exSampleTime, plainObj]
  match i, hq, hr with
  | 0, _, hr => injection hr with hr; subst hr; decide +kernel
  | 1, _, hr => injection hr with hr; subst hr; decide +kernel
  | 2, hq, hr =>
    injection hq with hq
    have h5 : q.loc.time = 5 := by rw [← hq]; simp [Spec.coordinate, exDataMoved, exDataTime, plainObj]
    rw [h5] at ht
    rcases hp' with h | h <;> rw [h] at ht <;> norm_num [abs_lt] at ht
  | i + 3, _, hr => simp [Spec.table, exFarVar, plainObj] at hr

end Cis.RoundTrip
