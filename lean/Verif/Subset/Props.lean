import Verif.Subset.Lemmas
set_option linter.unusedSectionVars false
set_option linter.unusedSimpArgs false
/-!
Subsetting of ungridded data: exactly the points inside the limits (C36), longitudes modulo 360 (C37), lists (C38).
-/
namespace Cis.Subset
open Cis.Lon

variable {V : Type}

/-- Keyword arguments giving the limits. -/
def kws (limits : List Limit) : List Kw := limits.map (fun l => .limit l.coord (some l.start) (some l.stop))

theorem assign_append (l : Limit) (ls : List Limit) (h : l.coord ∉ ls.map Limit.coord) : assign l ls = ls ++ [l] := by
  induction ls with
  | nil => rfl
  | cons x t ih =>
    simp only [List.map_cons, List.mem_cons, not_or] at h
    rw [assign, if_neg (fun e => h.1 e.symm), ih h.2]; rfl

theorem constraints_kws (lon lat : Nat) (d : UData V) (limits : List Limit) : ∀ (ls : List Limit) (sh : Option Shape),
    ((ls ++ limits).map Limit.coord).Nodup → constraints lon lat d (kws limits) ls sh = (ls ++ limits, sh) := by
  induction limits with
  | nil => intro ls sh _; simp [kws, constraints]
  | cons l t ih =>
    intro ls sh h
    have hl : l.coord ∉ ls.map Limit.coord := by
      intro hm
      rw [List.map_append, List.nodup_append] at h
      exact h.2.2 _ hm _ (by simp) rfl
    have e : kws (l :: t) = .limit l.coord (some l.start) (some l.stop) :: kws t := rfl
    rw [e, constraints]
    simp only [Option.getD_some]
    have e2 : (⟨l.coord, l.start, l.stop⟩ : Limit) = l := rfl
    rw [e2, assign_append l ls hl, ih (ls ++ [l]) sh (by simpa using h)]
    simp

theorem subset_kws (lon lat : Nat) (d : UData V) (limits : List Limit) (h : (limits.map Limit.coord).Nodup) :
    subset lon lat (kws limits) d =
      (let d2 := (createData (some lon) limits d).select (combinedMask limits (createData (some lon) limits d))
       if d2.values.length = 0 then none else some d2) := by
  unfold subset
  rw [constraints_kws lon lat d limits [] none (by simpa using h)]
  simp [constrain]

/-- **C36** (general form). The subset consists of exactly the points inside all the closed limits, in order, with coordinates
and values aligned; there is no result iff there is no such point. Longitudes may be converted first, each to an equal one
modulo 360 degrees (`f`), all other coordinates and the values are unchanged. -/
theorem subset_general (lon lat : Nat) (d : UData V) (hwf : d.WF) (limits : List Limit)
    (hn : (limits.map Limit.coord).Nodup) (hl : ∀ l ∈ limits, l.coord < d.coords.length) :
    ∃ f : ℚ → ℚ, (∀ x, Spec.Same (f x) x) ∧
      (∀ r, subset lon lat (kws limits) d = some r → r.WF ∧
        r.rows = (d.rows.map (convertPoint lon f)).filter (fun p => limits.all (fun l => Inside l p))) ∧
      (subset lon lat (kws limits) d = none ↔
        ∀ p ∈ d.rows, limits.all (fun l => Inside l (convertPoint lon f p)) = false) ∧
      (∀ l ∈ limits, l.coord = lon → f = convertFun (d.coords.getD lon []) l.start l.stop) ∧
      ((∀ l ∈ limits, l.coord ≠ lon) → f = id) := by
  obtain ⟨f, h1, h2, h3, h4, -⟩ := createData_rows lon limits hn d hwf
  obtain ⟨hr, hw⟩ := constrain_rows lon lat limits hn d hwf hl
  rw [subset_kws lon lat d limits hn]
  dsimp only
  generalize (createData (some lon) limits d).select (combinedMask limits (createData (some lon) limits d)) = d2 at *
  rw [h4] at hr
  have hlen : d2.values.length = d2.rows.length := (rowsOf_length _ _).symm
  refine ⟨f, h1, ?_, ?_, h2, h3⟩
  · intro r hr'
    split at hr'
    · simp at hr'
    · simp only [Option.some.injEq] at hr'
      subst hr'
      exact ⟨hw, hr⟩
  · rw [hlen, hr]
    split
    · next h =>
      simp only [true_iff]
      rw [List.length_eq_zero_iff, List.filter_eq_nil_iff] at h
      intro p hp
      have := h _ (List.mem_map.2 ⟨p, hp, rfl⟩)
      simpa using this
    · next h =>
      simp only [reduceCtorEq, false_iff]
      intro hp
      apply h
      rw [List.length_eq_zero_iff, List.filter_eq_nil_iff]
      intro q hq
      obtain ⟨p, hp', rfl⟩ := List.mem_map.1 hq
      rw [hp p hp']; simp

theorem convertPoint_id (lon : Nat) (l : List (List ℚ × V)) : l.map (convertPoint lon id) = l := by
  have : (convertPoint lon id : List ℚ × V → List ℚ × V) = id := by
    funext p
    unfold convertPoint
    have : p.1.modify lon id = p.1 := List.modify_id ..
    rw [this]; rfl
  rw [this, List.map_id]

/-- **C36**. Without a limit on longitude, or with one that needs no conversion of the data, the subset is exactly the points
of the data inside all the closed limits, in order; there is none iff there is no such point. -/
theorem subset_exact (lon lat : Nat) (d : UData V) (hwf : d.WF) (limits : List Limit)
    (hn : (limits.map Limit.coord).Nodup) (hl : ∀ l ∈ limits, l.coord < d.coords.length)
    (hconv : ∀ l ∈ limits, l.coord = lon → newRange (d.coords.getD lon []) l.start l.stop = none) :
    (∀ r, subset lon lat (kws limits) d = some r → r.WF ∧
      r.rows = d.rows.filter (fun p => limits.all (fun l => Inside l p))) ∧
    (subset lon lat (kws limits) d = none ↔ ∀ p ∈ d.rows, ¬ limits.all (fun l => Inside l p) = true) := by
  obtain ⟨f, -, h1, h2, h3, h4⟩ := subset_general lon lat d hwf limits hn hl
  have hf : f = id := by
    by_cases h : ∀ l ∈ limits, l.coord ≠ lon
    · exact h4 h
    · push Not at h
      obtain ⟨l, hl', hlc⟩ := h
      rw [h3 l hl' hlc]
      unfold convertFun
      rw [hconv l hl' hlc]
  subst hf
  constructor
  · intro r hr
    obtain ⟨a, b⟩ := h1 r hr
    rw [convertPoint_id] at b
    exact ⟨a, b⟩
  · rw [h2]
    have : ∀ p : List ℚ × V, convertPoint lon id p = p := by
      intro p
      have := convertPoint_id lon [p]
      simpa using this
    simp only [this, Bool.not_eq_true]

/-- Two points inside, one outside. -/
def exampleData : UData String := ⟨[[10, 20, 30], [-5, 5, 50]], ["a", "b", "c"]⟩

example : exampleData.WF := by unfold UData.WF; decide +kernel
example : exampleData.rows.filter (fun p => [Limit.mk 1 (-5) 5, Limit.mk 0 20 90].all (fun l => Inside l p)) = [([20, 5], "b")] := by
  decide +kernel

/-- Limits left open (a slice without start or stop) are the extremes of the data and do not restrict. -/
theorem foldl_min_le (l : List ℚ) : ∀ a, (∀ x ∈ l, l.foldl min a ≤ x) ∧ l.foldl min a ≤ a := by
  induction l with
  | nil => intro a; simp
  | cons y t ih =>
    intro a
    rw [List.foldl_cons]
    obtain ⟨h1, h2⟩ := ih (min a y)
    refine ⟨?_, h2.trans (min_le_left _ _)⟩
    intro x hx
    rcases List.mem_cons.1 hx with rfl | hx
    · exact h2.trans (min_le_right _ _)
    · exact h1 x hx

theorem foldl_max_le (l : List ℚ) : ∀ a, (∀ x ∈ l, x ≤ l.foldl max a) ∧ a ≤ l.foldl max a := by
  induction l with
  | nil => intro a; simp
  | cons y t ih =>
    intro a
    rw [List.foldl_cons]
    obtain ⟨h1, h2⟩ := ih (max a y)
    refine ⟨?_, (le_max_left _ _).trans h2⟩
    intro x hx
    rcases List.mem_cons.1 hx with rfl | hx
    · exact (le_max_right _ _).trans h2
    · exact h1 x hx

theorem open_limit (col : List ℚ) : ∀ x ∈ col, minOf col ≤ x ∧ x ≤ maxOf col :=
  fun x hx => ⟨(foldl_min_le col _).1 x hx, (foldl_max_le col _).1 x hx⟩

/-- **C36** (open limits). With limits that are open at either end (`slice(None, b)` and so on), on coordinates other than
longitude, the subset is exactly the points inside the ends that are given. -/
theorem subset_open_ends (lon lat : Nat) (d : UData V) (hwf : d.WF) (os : List (Nat × Option ℚ × Option ℚ))
    (hn : (os.map Prod.fst).Nodup) (hl : ∀ o ∈ os, o.1 < d.coords.length ∧ o.1 ≠ lon) :
    (∀ r, subset lon lat (os.map (fun o => .limit o.1 o.2.1 o.2.2)) d = some r → r.WF ∧
      r.rows = d.rows.filter (fun p => os.all (fun o => InsideOpen o p))) ∧
    (subset lon lat (os.map (fun o => .limit o.1 o.2.1 o.2.2)) d = none ↔
      ∀ p ∈ d.rows, ¬ os.all (fun o => InsideOpen o p) = true) := by
  let fill : Nat × Option ℚ × Option ℚ → Limit := fun o =>
    ⟨o.1, o.2.1.getD (minOf (d.coords.getD o.1 [])), o.2.2.getD (maxOf (d.coords.getD o.1 []))⟩
  have hk : ∀ (os : List (Nat × Option ℚ × Option ℚ)) ls sh, constraints lon lat d (os.map (fun o => .limit o.1 o.2.1 o.2.2)) ls sh =
      constraints lon lat d (kws (os.map fill)) ls sh := by
    intro os
    induction os with
    | nil => intros; rfl
    | cons o t ih =>
      intro ls sh
      simp only [List.map_cons, kws, constraints, Option.getD_some]
      exact ih _ _
  have hs : subset lon lat (os.map (fun o => .limit o.1 o.2.1 o.2.2)) d = subset lon lat (kws (os.map fill)) d := by
    unfold subset
    rw [hk]
  have hex := subset_exact lon lat d hwf (os.map fill) (by simpa [fill, Function.comp_def] using hn)
    (by
      intro l hl'
      obtain ⟨o, ho, rfl⟩ := List.mem_map.1 hl'
      exact (hl o ho).1)
    (by
      intro l hl' e
      obtain ⟨o, ho, rfl⟩ := List.mem_map.1 hl'
      exact absurd e (hl o ho).2)
  have hin : ∀ p ∈ d.rows, (os.map fill).all (fun l => Inside l p) = os.all (fun o => InsideOpen o p) := by
    intro p hp
    rw [List.all_map]
    refine Bool.eq_iff_iff.2 ?_
    simp only [List.all_eq_true, Function.comp]
    refine forall₂_congr (fun o ho => ?_)
    have hlt := (hl o ho).1
    obtain ⟨c, hc⟩ : ∃ c, d.coords[o.1]? = some c := ⟨_, List.getElem?_eq_getElem hlt⟩
    have hcol := rows_column d.values d.coords hwf o.1 c hc
    have hmem : p.1[o.1]? ∈ c.map some := by
      rw [← hcol]
      exact List.mem_map.2 ⟨p, hp, rfl⟩
    obtain ⟨x, hx, hpx⟩ := List.mem_map.1 hmem
    have hget : d.coords.getD o.1 [] = c := by simp [List.getD, hc]
    obtain ⟨h1, h2⟩ := open_limit c x hx
    simp only [Inside, InsideOpen, fill, ← hpx, hget]
    obtain ⟨k, lo, hi⟩ := o
    cases lo <;> cases hi <;> simp [h1, h2]
  have hfil : d.rows.filter (fun p => (os.map fill).all (fun l => Inside l p)) = d.rows.filter (fun p => os.all (fun o => InsideOpen o p)) :=
    List.filter_congr (fun p hp => hin p hp)
  rw [hs, ← hfil]
  refine ⟨hex.1, hex.2.trans ?_⟩
  exact forall₂_congr (fun p hp => by rw [hin p hp])

/-- An interval open above, on the latitude (coordinate 1). -/
example : (exampleData.rows.filter (fun p => [(1, some (0 : ℚ), none)].all (fun o => InsideOpen o p))).map Prod.snd = ["b", "c"] := by
  decide +kernel

/-- **C36** (order of the limits). The result does not depend on the order in which the limits are given. -/
theorem subset_order (lon lat : Nat) (d : UData V) (hwf : d.WF) (l1 l2 : List Limit) (hp : l1.Perm l2)
    (hn : (l1.map Limit.coord).Nodup) (hl : ∀ l ∈ l1, l.coord < d.coords.length) :
    subset lon lat (kws l1) d = subset lon lat (kws l2) d := by
  have hn2 : (l2.map Limit.coord).Nodup := (hp.map _).nodup_iff.1 hn
  have hl2 : ∀ l ∈ l2, l.coord < d.coords.length := fun l h => hl l (hp.mem_iff.2 h)
  rw [subset_kws lon lat d l1 hn, subset_kws lon lat d l2 hn2]
  have hc : createData (some lon) l1 d = createData (some lon) l2 d := by
    rw [createData_eq lon l1 hn d, createData_eq lon l2 hn2 d]
    have : l1.find? (fun l => decide (l.coord = lon)) = l2.find? (fun l => decide (l.coord = lon)) := by
      cases h1 : l1.find? (fun l => decide (l.coord = lon)) with
      | none =>
        symm
        rw [List.find?_eq_none] at h1 ⊢
        exact fun x hx => h1 x (hp.mem_iff.2 hx)
      | some a =>
        cases h2 : l2.find? (fun l => decide (l.coord = lon)) with
        | none =>
          rw [List.find?_eq_none] at h2
          exact absurd (List.find?_some h1) (h2 a (hp.mem_iff.1 (List.mem_of_find?_eq_some h1)))
        | some b =>
          have ha : a.coord = lon := by simpa using List.find?_some h1
          have hb : b.coord = lon := by simpa using List.find?_some h2
          rw [List.inj_on_of_nodup_map hn (List.mem_of_find?_eq_some h1)
            (hp.mem_iff.2 (List.mem_of_find?_eq_some h2)) (by rw [ha, hb])]
    rw [this]
  rw [hc]
  obtain ⟨f, -, -, -, -, hw, -, hcs⟩ := createData_rows lon l2 hn2 d hwf
  have hlen : (createData (some lon) l2 d).coords.length = d.coords.length := by rw [hcs, List.length_modify]
  have hm : combinedMask l1 (createData (some lon) l2 d) = combinedMask l2 (createData (some lon) l2 d) := by
    rw [combinedMask_eq _ hw l1 (by rw [hlen]; exact hl), combinedMask_eq _ hw l2 (by rw [hlen]; exact hl2)]
    apply List.map_congr_left
    intro p _
    rw [Bool.eq_iff_iff, List.all_eq_true, List.all_eq_true]
    exact ⟨fun h l hl' => h l (hp.mem_iff.2 hl'), fun h l hl' => h l (hp.mem_iff.1 hl')⟩
  rw [hm]

/-- **C36** (idempotence). Subsetting the subset by the same limits changes nothing. -/
theorem subset_idempotent (lon lat : Nat) (d : UData V) (hwf : d.WF) (limits : List Limit)
    (hn : (limits.map Limit.coord).Nodup) (hl : ∀ l ∈ limits, l.coord < d.coords.length) (r : UData V)
    (hr : subset lon lat (kws limits) d = some r) : subset lon lat (kws limits) r = some r := by
  obtain ⟨f, -, h1, -, -, -⟩ := subset_general lon lat d hwf limits hn hl
  obtain ⟨hrw, hrows⟩ := h1 r hr
  have hin : ∀ p ∈ r.rows, ∀ l ∈ limits, Inside l p = true := by
    intro p hp l hl'
    rw [hrows] at hp
    exact List.all_eq_true.1 (List.mem_filter.1 hp).2 l hl'
  have hne : r.values.length ≠ 0 := by
    rw [subset_kws lon lat d limits hn] at hr
    dsimp only at hr
    split at hr
    · simp at hr
    · next h => simp only [Option.some.injEq] at hr; rw [← hr]; exact h
  have hcl : r.coords.length = d.coords.length := by
    rw [subset_kws lon lat d limits hn] at hr
    dsimp only at hr
    split at hr
    · simp at hr
    · simp only [Option.some.injEq] at hr
      obtain ⟨f, -, -, -, -, -, -, hcs⟩ := createData_rows lon limits hn d hwf
      rw [← hr]
      simp [UData.select, hcs]
  have hlr : ∀ l ∈ limits, l.coord < r.coords.length := by rw [hcl]; exact hl
  -- the longitudes of `r` are inside the limits, so they are not converted
  have hcreate : createData (some lon) limits r = r := by
    rw [createData_eq lon limits hn r]
    cases hf : limits.find? (fun l => decide (l.coord = lon)) with
    | none => rfl
    | some l =>
      have hl' := List.mem_of_find?_eq_some hf
      have hlc : l.coord = lon := by simpa using List.find?_some hf
      have hlt := hlr l hl'
      have hcol : ∀ x ∈ r.coords.getD lon [], l.start ≤ x ∧ x ≤ l.stop := by
        intro x hx
        rw [hlc] at hlt
        have hk : r.coords[lon]? = some r.coords[lon] := List.getElem?_eq_getElem hlt
        rw [List.getD_eq_getElem?_getD, hk, Option.getD_some] at hx
        have hcolm := rows_column r.values r.coords hrw lon _ hk
        have : some x ∈ (rowsOf r.coords r.values).map (fun p => p.1[lon]?) := by
          rw [hcolm]; exact List.mem_map.2 ⟨x, hx, rfl⟩
        obtain ⟨p, hp, hpx⟩ := List.mem_map.1 this
        have := hin p hp l hl'
        unfold Inside at this
        rw [hlc, hpx] at this
        simpa using this
      have hnr : newRange (r.coords.getD lon []) l.start l.stop = none := by
        unfold newRange
        dsimp only
        split
        · next hb =>
          split
          · next hc =>
            simp only [Bool.and_eq_true, List.any_eq_true, decide_eq_true_eq, Bool.not_eq_true', Bool.or_eq_true,
              Bool.or_eq_false_iff, decide_eq_false_iff_not, not_lt] at hb hc
            obtain ⟨⟨x, hx, hx0⟩, -⟩ := hb
            have := (hcol x hx).1
            exact absurd hc.2.1 (by linarith)
          · rfl
        · split
          · next hb =>
            split
            · next hc =>
              simp only [Bool.and_eq_true, List.any_eq_true, decide_eq_true_eq, Bool.not_eq_true', Bool.or_eq_true,
                Bool.or_eq_false_iff, decide_eq_false_iff_not, not_lt, gt_iff_lt] at hb hc
              obtain ⟨⟨x, hx, hx0⟩, -⟩ := hb
              have := (hcol x hx).2
              exact absurd hc.2.2 (by linarith)
            · rfl
          · rfl
      dsimp only
      have : r.coords.modify lon (fun c => convertLons c l.start l.stop) = r.coords := by
        rw [modify_eq_of_getElem r.coords lon _ id]
        · exact List.modify_id ..
        · intro c hc
          have e : r.coords.getD lon [] = c := by rw [List.getD_eq_getElem?_getD, hc]; rfl
          rw [e] at hnr
          unfold convertLons
          rw [hnr]; rfl
      rw [this]
  rw [subset_kws lon lat r limits hn]
  dsimp only
  rw [hcreate]
  have hmask : combinedMask limits r = r.rows.map (fun _ => true) := by
    rw [combinedMask_eq r hrw limits hlr]
    apply List.map_congr_left
    intro p hp
    rw [List.all_eq_true]
    exact hin p hp
  have hlen : (combinedMask limits r).length = r.values.length := combinedMask_length r hrw limits hlr
  have hall : ∀ b ∈ combinedMask limits r, b = true := by
    rw [hmask]; intro b hb; obtain ⟨_, _, rfl⟩ := List.mem_map.1 hb; rfl
  have hsel : r.select (combinedMask limits r) = r := by
    unfold UData.select
    have h1 : r.coords.map (select (combinedMask limits r)) = r.coords := by
      conv_rhs => rw [← List.map_id r.coords]
      apply List.map_congr_left
      intro c hc
      exact select_true c _ (by rw [hrw c hc, hlen]) hall
    rw [h1, select_true r.values _ hlen.symm hall]
  rw [hsel, if_neg hne]

theorem shapeMask_eq (lon lat : Nat) (s : Shape) (d : UData V) (h : d.WF) (h1 : lon < d.coords.length)
    (h2 : lat < d.coords.length) : shapeMask lon lat s d = d.rows.map (InShape lon lat s) := by
  have hk1 : d.coords[lon]? = some d.coords[lon] := List.getElem?_eq_getElem h1
  have hk2 : d.coords[lat]? = some d.coords[lat] := List.getElem?_eq_getElem h2
  have c1 := rows_column d.values d.coords h lon _ hk1
  have c2 := rows_column d.values d.coords h lat _ hk2
  unfold shapeMask
  rw [List.getD_eq_getElem?_getD, hk1, List.getD_eq_getElem?_getD, hk2, Option.getD_some, Option.getD_some]
  unfold UData.rows
  generalize rowsOf d.coords d.values = rows at c1 c2
  generalize d.coords[lon] = xs at c1
  generalize d.coords[lat] = ys at c2
  clear hk1 hk2
  induction rows generalizing xs ys with
  | nil =>
    cases xs with
    | nil => simp
    | cons x t => simp at c1
  | cons r t ih =>
    cases xs with
    | nil => simp at c1
    | cons x xs =>
      cases ys with
      | nil => simp at c2
      | cons y ys =>
        simp only [List.map_cons, List.cons.injEq] at c1 c2
        rw [List.zipWith_cons_cons, List.map_cons, ih xs c1.2 ys c2.2]
        simp [InShape, c1.1, c2.1]

/-- **C36** (shape). With a shape, and limits on coordinates other than longitude and latitude, the subset is exactly the
points of the data (longitudes possibly converted, by `f`, as for the limits of the bounding box) that lie in the shape and
inside all the limits; there is none iff there is no such point. -/
theorem subset_shape (lon lat : Nat) (hll : lon ≠ lat) (d : UData V) (hwf : d.WF) (s : Shape) (hs : s.Bounded)
    (limits : List Limit) (hn : (limits.map Limit.coord).Nodup) (hl : ∀ l ∈ limits, l.coord < d.coords.length)
    (hne : ∀ l ∈ limits, l.coord ≠ lon ∧ l.coord ≠ lat) (h1 : lon < d.coords.length) (h2 : lat < d.coords.length) :
    let f := convertFun (d.coords.getD lon []) s.minX s.maxX
    (∀ r, subset lon lat (.shape s :: kws limits) d = some r → r.WF ∧
      r.rows = (d.rows.map (convertPoint lon f)).filter (fun p => InShape lon lat s p && limits.all (fun l => Inside l p))) ∧
    (subset lon lat (.shape s :: kws limits) d = none ↔ ∀ p ∈ d.rows,
      (InShape lon lat s (convertPoint lon f p) && limits.all (fun l => Inside l (convertPoint lon f p))) = false) := by
  intro f
  obtain ⟨ls, hls⟩ : ∃ ls : List Limit, ls = [⟨lon, s.minX, s.maxX⟩, ⟨lat, s.minY, s.maxY⟩] ++ limits := ⟨_, rfl⟩
  have hn' : (ls.map Limit.coord).Nodup := by
    rw [hls]
    simp only [List.cons_append, List.nil_append, List.map_cons, List.nodup_cons, List.mem_cons, List.mem_map, not_or,
      not_exists, not_and]
    exact ⟨⟨hll, fun l hl' => (hne l hl').1⟩, fun l hl' => (hne l hl').2, hn⟩
  have hcon : constraints lon lat d (.shape s :: kws limits) [] none =
      (ls, some s) := by
    rw [constraints]
    have : assign ⟨lat, s.minY, s.maxY⟩ (assign ⟨lon, s.minX, s.maxX⟩ []) =
        [⟨lon, s.minX, s.maxX⟩, ⟨lat, s.minY, s.maxY⟩] := by simp [assign, hll]
    rw [this, constraints_kws _ _ _ _ _ _ (by rw [← hls]; exact hn'), hls]
  have hl' : ∀ l ∈ ls, l.coord < d.coords.length := by
    intro l hm
    rw [hls] at hm
    simp only [List.cons_append, List.nil_append, List.mem_cons] at hm
    rcases hm with rfl | rfl | hm
    · exact h1
    · exact h2
    · exact hl l hm
  obtain ⟨g, -, hg, -, h4, -, -, hcs⟩ := createData_rows lon _ hn' d hwf
  have hgf : g = f := hg ⟨lon, s.minX, s.maxX⟩ (by simp [hls]) rfl
  subst hgf
  obtain ⟨hr, hw⟩ := constrain_rows lon lat _ hn' d hwf hl'
  have hlen2 : (((createData (some lon) ls d).select
      (combinedMask ls
        (createData (some lon) ls d))).coords).length =
      d.coords.length := by simp [UData.select, hcs]
  have hsub : subset lon lat (.shape s :: kws limits) d =
      (let d2 := (createData (some lon) ls d).select (combinedMask ls (createData (some lon) ls d))
       if (d2.select (shapeMask lon lat s d2)).values.length = 0 then none else some (d2.select (shapeMask lon lat s d2))) := by
    unfold subset
    rw [hcon]
    rfl
  rw [hsub]
  dsimp only
  generalize (createData (some lon) ls d).select
      (combinedMask ls
        (createData (some lon) ls d)) = d2 at *
  rw [h4] at hr
  have hsm := shapeMask_eq lon lat s d2 hw (by rw [hlen2]; exact h1) (by rw [hlen2]; exact h2)
  have hsl : (shapeMask lon lat s d2).length = d2.values.length := by
    rw [hsm, List.length_map]; exact rowsOf_length _ _
  have hw3 := UData.select_wf d2 _ hw hsl
  have hr3 := UData.rows_select d2 _ hw hsl
  rw [show Cis.Subset.select (shapeMask lon lat s d2) d2.rows = _ from by rw [hsm, select_map], hr, List.filter_filter] at hr3
  have hfil : (d.rows.map (convertPoint lon f)).filter (fun p => InShape lon lat s p &&
      ls.all (fun l => Inside l p)) =
      (d.rows.map (convertPoint lon f)).filter (fun p => InShape lon lat s p && limits.all (fun l => Inside l p)) := by
    apply List.filter_congr
    intro p _
    rw [hls]
    simp only [List.cons_append, List.nil_append, List.all_cons]
    cases hin : InShape lon lat s p with
    | false => rfl
    | true =>
      unfold InShape at hin
      cases hx : p.1[lon]? with
      | none => simp [hx] at hin
      | some x =>
        cases hy : p.1[lat]? with
        | none => simp [hx, hy] at hin
        | some y =>
          simp only [hx, hy] at hin
          obtain ⟨b1, b2, b3, b4⟩ := hs x y hin
          simp [Inside, hx, hy, b1, b2, b3, b4]
  rw [hfil] at hr3
  have hlen : (d2.select (shapeMask lon lat s d2)).values.length = (d2.select (shapeMask lon lat s d2)).rows.length :=
    (rowsOf_length _ _).symm
  constructor
  · intro r hr'
    split at hr'
    · simp at hr'
    · simp only [Option.some.injEq] at hr'
      subst hr'
      exact ⟨hw3, hr3⟩
  · rw [hlen, hr3]
    split
    · next h =>
      simp only [true_iff]
      rw [List.length_eq_zero_iff, List.filter_eq_nil_iff] at h
      intro p hp
      have := h _ (List.mem_map.2 ⟨p, hp, rfl⟩)
      simpa using this
    · next h =>
      simp only [reduceCtorEq, false_iff]
      intro hp
      apply h
      rw [List.length_eq_zero_iff, List.filter_eq_nil_iff]
      intro q hq
      obtain ⟨p, hp', rfl⟩ := List.mem_map.1 hq
      rw [hp p hp']; simp

/-- A triangle with its bounding box. -/
def exampleTriangle : Shape := ⟨fun x y => decide (0 ≤ x) && decide (0 ≤ y) && decide (x + y ≤ 10), 0, 0, 10, 10⟩

example : exampleTriangle.Bounded := by
  intro x y h
  simp only [exampleTriangle, Bool.and_eq_true, decide_eq_true_eq] at h ⊢
  obtain ⟨⟨h1, h2⟩, h3⟩ := h
  refine ⟨h1, by linarith, h2, by linarith⟩
example : (subset 0 1 (.shape exampleTriangle :: kws [⟨2, 0, 1⟩])
    ⟨[[1, 9, 2, 3], [1, 9, 3, 3], [0, 0, 5, 1]], ["a", "b", "c", "d"]⟩).map UData.values = some ["a", "d"] := by decide +kernel

/-- **C36** (shape). Limits given before a shape are lost where they concern longitude or latitude: with the longitudes
limited to [0, 10] and then a shape, a point at longitude 50 is returned. The other order gives no point. -/
theorem subset_shape_order_violated :
    let d : UData String := ⟨[[50], [0]], ["a"]⟩
    let s : Shape := ⟨fun _ _ => true, -100, -90, 100, 90⟩
    (subset 0 1 [.limit 0 (some 0) (some 10), .shape s] d).map UData.values = some ["a"] ∧
      (subset 0 1 [.shape s, .limit 0 (some 0) (some 10)] d).map UData.values = none := by
  decide +kernel

/-- **C36** (input unchanged). Memory that was in use before is not changed: the conversion is done on the copy. -/
theorem subset_input_unchanged (lon : Option Nat) (limits : List Limit) (h : Heap) (coords : List Nat)
    (hlim : ∀ l ∈ limits, l.coord < coords.length) :
    ∀ a < h.next, (createDataHeap lon limits h coords).1.arr a = h.arr a := by
  intro a ha
  unfold createDataHeap
  dsimp only
  have hgen : ∀ (ls : List Limit) (h' : Heap), (∀ l ∈ ls, l.coord < coords.length) →
      (ls.foldl (fun h' l => if some l.coord = lon then h'.convert ((h.copy coords).2.getD l.coord 0) l.start l.stop else h')
        h').arr a = h'.arr a := by
    intro ls
    induction ls with
    | nil => intro h' _; rfl
    | cons l t ih =>
      intro h' hls
      rw [List.foldl_cons, ih _ (fun l hl => hls l (by simp [hl]))]
      split
      · have hlc := hls l (by simp)
        have : (h.copy coords).2.getD l.coord 0 = l.coord + h.next := by
          simp [Heap.copy, List.getD_eq_getElem?_getD, hlc]
        rw [this]
        simp only [Heap.convert]
        rw [Function.update_of_ne (by omega)]
      · rfl
  rw [hgen limits _ hlim]
  simp [Heap.copy, ha]

/-- The copy has the converted coordinates. -/
example : let h : Heap := ⟨fun a => if a = 0 then [-10, 20] else [5, 6], 2⟩
    (createDataHeap (some 0) [⟨0, 100, 355⟩] h [0, 1]).1.arr 2 = [350, 20] ∧
    (createDataHeap (some 0) [⟨0, 100, 355⟩] h [0, 1]).1.arr 0 = [-10, 20] ∧
    (createDataHeap (some 0) [⟨0, 100, 355⟩] h [0, 1]).2 = [2, 3] := by decide +kernel

/-! ### C37 -/

theorem mem_window (s a b x y : ℚ) (hx : s ≤ x ∧ x < s + 360) (ha : s ≤ a) (hb : b < s + 360) (hs : Spec.Same y x) :
    (a ≤ x ∧ x ≤ b) ↔ ∃ z, Spec.Same z y ∧ a ≤ z ∧ z ≤ b := by
  constructor
  · intro h
    refine ⟨x, ?_, h⟩
    exact hs.symm
  · rintro ⟨z, hz, h1, h2⟩
    have hzx : z = x := inRange_unique (s := s) ⟨by linarith, by linarith⟩ hx (hz.trans hs)
    rw [← hzx]; exact ⟨h1, h2⟩

/-- **C37** (condition: both the data and the limits follow one of the two conventions, the limits do not reach the end of the
period, and no longitude is exactly 180 or -180). Then a longitude is inside the limits after the conversion iff it is equal,
modulo 360 degrees, to one between the limits. -/
theorem subset_longitude (lons : List ℚ) (a b : ℚ)
    (hdata : (∀ x ∈ lons, -180 < x ∧ x < 180) ∨ (∀ x ∈ lons, 0 ≤ x ∧ x < 360 ∧ x ≠ 180))
    (hlim : (-180 ≤ a ∧ b < 180) ∨ (0 ≤ a ∧ b < 360)) (hab : a ≤ b) :
    ∀ x ∈ lons, (a ≤ convertFun lons a b x ∧ convertFun lons a b x ≤ b) ↔ ∃ y, Spec.Same y x ∧ a ≤ y ∧ y ≤ b := by
  intro x hx
  have hfix : ∀ s : ℚ, s ≤ pmod (x - s + 360 * 2) 360 + s ∧ pmod (x - s + 360 * 2) 360 + s < s + 360 := by
    intro s
    have := pmod_range (x - s + 360 * 2)
    constructor <;> linarith [this.1, this.2]
  have hsame : Spec.Same x (convertFun lons a b x) := (convertFun_same lons a b x).symm
  -- find a common window of the converted longitude and the limits
  suffices h : ∃ s : ℚ, (s ≤ convertFun lons a b x ∧ convertFun lons a b x < s + 360) ∧ s ≤ a ∧ b < s + 360 by
    obtain ⟨s, h1, h2, h3⟩ := h
    exact mem_window s a b _ x h1 h2 h3 hsame
  by_cases hneg : lons.any (fun x => decide (x < 0)) = true <;> by_cases hpos : lons.any (fun x => decide (x > 180)) = true
  · -- both conventions are impossible
    exfalso
    obtain ⟨y, hy, hy0⟩ := List.any_eq_true.1 hneg
    obtain ⟨z, hz, hz0⟩ := List.any_eq_true.1 hpos
    simp only [decide_eq_true_eq, gt_iff_lt] at hy0 hz0
    rcases hdata with h | h
    · linarith [(h z hz).2]
    · linarith [(h y hy).1]
  · -- data in (-180, 180)
    have hd : ∀ x ∈ lons, -180 < x ∧ x < 180 := by
      rcases hdata with h | h
      · exact h
      · obtain ⟨y, hy, hy0⟩ := List.any_eq_true.1 hneg
        simp only [decide_eq_true_eq] at hy0
        linarith [(h y hy).1]
    by_cases hc : (a > 180 ∨ b > 180) ∧ ¬(a < 0 ∨ b < 0)
    · refine ⟨0, ?_, ?_, ?_⟩
      · have : newRange lons a b = some 0 := by
          unfold newRange
          simp only [hneg, hpos]
          push Not at hc
          rcases hc with ⟨h1 | h1, h2, h3⟩ <;> simp [h1, not_lt.2 h2, not_lt.2 h3]
        unfold convertFun
        rw [this]
        exact hfix 0
      · push Not at hc; exact hc.2.1
      · rcases hlim with h | h
        · linarith [h.2]
        · linarith [h.2]
    · have hnr : newRange lons a b = none := by
        unfold newRange
        simp only [hneg, hpos]
        by_cases h1 : a > 180 <;> by_cases h2 : b > 180 <;> by_cases h3 : a < 0 <;> by_cases h4 : b < 0 <;>
          simp_all
      unfold convertFun
      rw [hnr]
      rcases hlim with h | h
      · exact ⟨-180, ⟨(hd x hx).1.le, by simpa using by linarith [(hd x hx).2]⟩, h.1, by linarith [h.2]⟩
      · have hb : b ≤ 180 := by
          by_contra hb
          apply hc
          refine ⟨Or.inr (by linarith), ?_⟩
          rintro (h' | h') <;> linarith [h.1]
        -- the limits are within [0, 180], the window is shifted a little to the right of -180
        have hxx := hd x hx
        refine ⟨min x 0, ⟨min_le_left _ _, ?_⟩, ?_, ?_⟩
        · rcases le_total x 0 with h0 | h0
          · simp only [min_eq_left h0, id]; linarith
          · simp only [min_eq_right h0, id]; linarith
        · exact (min_le_right _ _).trans h.1
        · rcases le_total x 0 with h0 | h0
          · rw [min_eq_left h0]; linarith
          · rw [min_eq_right h0]; linarith
  · -- data in [0, 360)
    have hd : ∀ x ∈ lons, 0 ≤ x ∧ x < 360 ∧ x ≠ 180 := by
      rcases hdata with h | h
      · obtain ⟨y, hy, hy0⟩ := List.any_eq_true.1 hpos
        simp only [decide_eq_true_eq, gt_iff_lt] at hy0
        linarith [(h y hy).2]
      · exact h
    by_cases hc : (a < 0 ∨ b < 0) ∧ ¬(a > 180 ∨ b > 180)
    · refine ⟨-180, ?_, ?_, ?_⟩
      · have : newRange lons a b = some (-180) := by
          unfold newRange
          simp only [hneg, hpos]
          push Not at hc
          rcases hc with ⟨h1 | h1, h2, h3⟩ <;> simp [h1, not_lt.2 h2, not_lt.2 h3]
        unfold convertFun
        rw [this]
        exact hfix (-180)
      · rcases hlim with h | h <;> linarith [h.1]
      · push Not at hc
        rcases hlim with h | h
        · linarith [h.2]
        · exfalso
          rcases hc.1 with h' | h' <;> linarith [h.1]
    · have hnr : newRange lons a b = none := by
        unfold newRange
        simp only [hneg, hpos]
        by_cases h1 : a > 180 <;> by_cases h2 : b > 180 <;> by_cases h3 : a < 0 <;> by_cases h4 : b < 0 <;>
          simp_all
      unfold convertFun
      rw [hnr]
      have ha0 : 0 ≤ a := by
        by_contra ha0
        apply hc
        refine ⟨Or.inl (by linarith), ?_⟩
        rcases hlim with h | h
        · rintro (h' | h') <;> linarith [h.2]
        · exact absurd h.1 ha0
      exact ⟨0, ⟨(hd x hx).1, by simpa using (hd x hx).2.1⟩, ha0, by rcases hlim with h | h <;> linarith [h.2]⟩
  · -- data in [0, 180): fits both conventions
    have hd : 0 ≤ x ∧ x < 180 := by
      have h1 : ¬ x < 0 := by
        intro h; exact hneg (List.any_eq_true.2 ⟨x, hx, by simpa using h⟩)
      have h2 : ¬ x > 180 := by
        intro h; exact hpos (List.any_eq_true.2 ⟨x, hx, by simpa using h⟩)
      rcases hdata with h | h
      · exact ⟨by linarith, (h x hx).2⟩
      · exact ⟨(h x hx).1, lt_of_le_of_ne (by linarith) (h x hx).2.2⟩
    have hnr : newRange lons a b = none := by
      unfold newRange
      simp [hneg, hpos]
    unfold convertFun
    rw [hnr]
    rcases hlim with h | h
    · exact ⟨-180, ⟨by simpa using by linarith, by simpa using by linarith⟩, h.1, by linarith [h.2]⟩
    · exact ⟨0, ⟨hd.1, by simpa using by linarith⟩, h.1, by linarith [h.2]⟩

example : (∀ x ∈ [(-170 : ℚ), 10, 175], -180 < x ∧ x < 180) ∧ (0 : ℚ) ≤ 185 ∧ (200 : ℚ) < 360 := by decide +kernel
example : [(-170 : ℚ), 10, 175].map (convertFun [-170, 10, 175] 185 200) = [190, 10, 175] := by decide +kernel

/-- **C37** is violated for limits across the convention of the data: -175 is 185, but is not selected by [-10, 190]. -/
theorem subset_longitude_across_violated :
    (subset 0 1 [.limit 0 (some (-10)) (some 190)] ⟨[[-175, 0], [0, 0]], ["a", "b"]⟩).map UData.values = some ["b"] ∧
      Spec.Same (-175 : ℚ) 185 := ⟨by decide +kernel, ⟨-1, by norm_num⟩⟩

/-- **C37** is violated for limits beyond 360: 5 is 365, but is not selected by [350, 370]. -/
theorem subset_longitude_beyond_violated :
    (subset 0 1 [.limit 0 (some 350) (some 370)] ⟨[[5, -5], [0, 0]], ["a", "b"]⟩).map UData.values = some ["b"] ∧
      Spec.Same (5 : ℚ) 365 := ⟨by decide +kernel, ⟨-1, by norm_num⟩⟩

/-- **C37** is violated at the date line: -180 is 180, but is not selected by [170, 180]. -/
theorem subset_longitude_dateline_violated :
    (subset 0 1 [.limit 0 (some 170) (some 180)] ⟨[[-180, 175], [0, 0]], ["a", "b"]⟩).map UData.values = some ["b"] ∧
      Spec.Same (-180 : ℚ) 180 := ⟨by decide +kernel, ⟨-1, by norm_num⟩⟩

/-! ### C38 -/

/-- The conversion of the longitudes does not depend on the values. -/
theorem createData_values (lon : Option Nat) (limits : List Limit) : ∀ cs : List (List ℚ),
    ∃ cs' : List (List ℚ), ∀ v : List V, createData lon limits ⟨cs, v⟩ = ⟨cs', v⟩ := by
  induction limits with
  | nil => intro cs; exact ⟨cs, fun v => rfl⟩
  | cons l t ih =>
    intro cs
    by_cases h : some l.coord = lon
    · obtain ⟨cs', hc⟩ := ih (cs.modify l.coord (fun c => convertLons c l.start l.stop))
      exact ⟨cs', fun v => by rw [createData, if_pos h]; exact hc v⟩
    · obtain ⟨cs', hc⟩ := ih cs
      exact ⟨cs', fun v => by rw [createData, if_neg h]; exact hc v⟩

theorem combinedMask_values (limits : List Limit) (cs : List (List ℚ)) (v w : List V) (h : v.length = w.length) :
    combinedMask limits ⟨cs, v⟩ = combinedMask limits ⟨cs, w⟩ := by
  unfold combinedMask
  have : (limitMask (⟨cs, v⟩ : UData V)) = limitMask (⟨cs, w⟩ : UData V) := rfl
  rw [this, h]

/-- **C38** (condition: no shape, all variables have the same coordinates, and some point is selected of every one). Every
variable of a list is subset as it would be on its own. -/
theorem subset_list (lon lat : Nat) (limits : List Limit) (coords : List (List ℚ)) (vars : List (List V)) (n : Nat)
    (hlen : ∀ v ∈ vars, v.length = n)
    (hsome : ∀ v ∈ vars, (constrain lon lat ⟨limits, none, none, none⟩ ⟨coords, v⟩).2 ≠ none) :
    (constrainList lon lat ⟨limits, none, none, none⟩ (vars.map (fun v => ⟨coords, v⟩))).map (List.map some) =
      some (vars.map (fun v => (constrain lon lat ⟨limits, none, none, none⟩ ⟨coords, v⟩).2)) := by
  obtain ⟨cs', hc⟩ := createData_values (V := V) (some lon) limits coords
  -- the outcome for one variable, whether the mask is computed or was cached for a variable of the same length
  have hone : ∀ (m : Option (List Bool)) (v : List V), v.length = n →
      (∀ m', m = some m' → ∀ w : List V, w.length = n → m' = combinedMask limits ⟨cs', w⟩) →
      constrain lon lat ⟨limits, none, m, none⟩ ⟨coords, v⟩ =
        (⟨limits, none, some (combinedMask limits (⟨cs', v⟩ : UData V)), none⟩,
          (constrain lon lat ⟨limits, none, none, none⟩ ⟨coords, v⟩).2) := by
    intro m v hv hm
    cases m with
    | none => simp only [constrain, hc, Option.getD_none]
    | some m' =>
      have := hm m' rfl v hv
      simp only [constrain, hc, Option.getD_none, Option.getD_some, this]
  have hgen : ∀ (vs : List (List V)) (m : Option (List Bool)), (∀ v ∈ vs, v ∈ vars) →
      (∀ m', m = some m' → ∀ w : List V, w.length = n → m' = combinedMask limits ⟨cs', w⟩) →
      (constrainList lon lat ⟨limits, none, m, none⟩ (vs.map (fun v => ⟨coords, v⟩))).map (List.map some) =
        some (vs.map (fun v => (constrain lon lat ⟨limits, none, none, none⟩ ⟨coords, v⟩).2)) := by
    intro vs
    induction vs with
    | nil => intro m _ _; rfl
    | cons v t ih =>
      intro m hmem hm
      have hv := hlen v (hmem v (by simp))
      rw [List.map_cons, constrainList, hone m v hv hm]
      have hs := hsome v (hmem v (by simp))
      obtain ⟨r, hr⟩ := Option.ne_none_iff_exists'.1 hs
      have := ih (some (combinedMask limits (⟨cs', v⟩ : UData V))) (fun w hw => hmem w (by simp [hw])) (by
        intro m' e w hw
        simp only [Option.some.injEq] at e
        rw [← e]
        exact combinedMask_values limits cs' v w (by rw [hv, hw]))
      rw [List.map_cons, hr]
      dsimp only
      rw [Option.map_map]
      cases hrest : constrainList lon lat ⟨limits, none, some (combinedMask limits (⟨cs', v⟩ : UData V)), none⟩
          (t.map (fun v => (⟨coords, v⟩ : UData V))) with
      | none => rw [hrest] at this; simp at this
      | some rest =>
        rw [hrest] at this
        simp only [Option.map_some, Option.some.injEq] at this
        simp [this]
  exact hgen vars none (fun v h => h) (by simp)

/-- Two variables, limits selecting the second and third point. -/
example : (constrainList 0 1 ⟨[⟨0, 15, 40⟩], none, none, none⟩
      ([["a", "b", "c"], ["d", "e", "f"]].map (fun v => ⟨[[10, 20, 30], [0, 0, 0]], v⟩))).map (List.map UData.values) =
    some [["b", "c"], ["e", "f"]] := by decide +kernel

/-- **C38** is violated by a shape: it is applied to the first variable only. The second variable, which has the same
coordinates, keeps the point (0, 0) that is not in the shape. -/
theorem subset_list_shape_violated :
    let s : Shape := ⟨fun x _ => decide (x ≠ 0), -10, -10, 10, 10⟩
    let v (a b : String) : UData String := ⟨[[0, 5], [0, 5]], [a, b]⟩
    let st : CState := ⟨(constraints 0 1 (v "" "") [.shape s] [] none).1, (constraints 0 1 (v "" "") [.shape s] [] none).2, none, none⟩
    (constrainList 0 1 st [v "a" "b", v "c" "d"]).map (List.map UData.values) = some [["b"], ["c", "d"]] ∧
      ((constrain 0 1 st (v "c" "d")).2.map UData.values) = some ["d"] := by
  decide +kernel

/-- **C38** is violated when a later variable has other coordinates: it is indexed with the mask of the first one. -/
theorem subset_list_coords_violated :
    let st : CState := ⟨[⟨1, 0, 5⟩], none, none, none⟩
    (constrainList 0 1 st [⟨[[0, 0], [1, 50]], ["a", "b"]⟩, ⟨[[0, 0], [50, 1]], ["c", "d"]⟩]).map (List.map UData.values) =
        some [["a"], ["c"]] ∧
      ((constrain 0 1 st ⟨[[0, 0], [50, 1]], ["c", "d"]⟩).2.map UData.values) = some ["d"] := by
  decide +kernel

/-- **C38** is violated when nothing is selected: for a single variable the result is `None`, for a list (of any variables,
the first of which has no point inside) it is an exception. -/
theorem subset_list_empty_violated (lon lat : Nat) (st : CState) (d : UData V) (t : List (UData V))
    (h : (constrain lon lat st d).2 = none) : constrainList lon lat st (d :: t) = none := by
  rw [constrainList, h]

example : ((constrain 0 1 ⟨[⟨1, 60, 70⟩], none, none, none⟩ (⟨[[0], [50]], ["c"]⟩ : UData String)).2.map UData.values) = none := by
  decide +kernel

end Cis.Subset
