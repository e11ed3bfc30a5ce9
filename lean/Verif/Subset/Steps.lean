import Verif.Subset.Props
set_option linter.unusedSectionVars false
set_option linter.unusedSimpArgs false
/-!
Property C129: subsetting in steps. A user may give all limits at once or one after the other, in any order.
The steps are those of `subset` (subset.py:12-76), each on the result of the one before; `None` (no points left) ends the
sequence.
-/
namespace Cis.Subset
open Cis.Lon

variable {V : Type}

/-- One request after the other (subset.py:12-76). -/
def steps (lon lat : Nat) : List (List Limit) → UData V → Option (UData V)
  | [], d => some d
  | ls :: t, d => (subset lon lat (kws ls) d).bind (steps lon lat t)

/-! ### Specification -/

/-- Longitudes and limits are written in the same convention, -180…180 or 0…360. -/
def Spec.SameConvention (lons : List ℚ) (lims : List Limit) (lon : Nat) : Prop :=
  ((∀ x ∈ lons, x ≤ 180) ∧ ∀ l ∈ lims, l.coord = lon → l.start ≤ 180 ∧ l.stop ≤ 180) ∨
  ((∀ x ∈ lons, 0 ≤ x) ∧ ∀ l ∈ lims, l.coord = lon → 0 ≤ l.start ∧ 0 ≤ l.stop)

/-- A request that can be given to `subset`: each coordinate at most once, and only coordinates of the data. -/
def Spec.Valid (d : UData V) (ls : List Limit) : Prop := (ls.map Limit.coord).Nodup ∧ ∀ l ∈ ls, l.coord < d.coords.length

/-- The longitudes are in -180…180 without 180, or in 0…360 without 180. -/
def Spec.OneConvention (lons : List ℚ) : Prop :=
  (∀ x ∈ lons, -180 ≤ x ∧ x < 180) ∨ (∀ x ∈ lons, 0 ≤ x ∧ x < 360 ∧ x ≠ 180)

/-! ### Proofs -/

theorem newRange_same (lons : List ℚ) (lims : List Limit) (lon : Nat) (h : Spec.SameConvention lons lims lon) :
    ∀ l ∈ lims, l.coord = lon → newRange lons l.start l.stop = none := by
  intro l hl hc
  unfold newRange
  rcases h with ⟨h1, h2⟩ | ⟨h1, h2⟩
  · have ha : lons.any (fun x => decide (x > 180)) = false := by
      rw [List.any_eq_false]; intro x hx; simpa using h1 x hx
    have := h2 l hl hc
    simp [ha, not_lt.2 this.1, not_lt.2 this.2]
  · have ha : lons.any (fun x => decide (x < 0)) = false := by
      rw [List.any_eq_false]; intro x hx; simpa using h1 x hx
    have := h2 l hl hc
    simp [ha, not_lt.2 this.1, not_lt.2 this.2]

theorem subset_shape_of (lon lat : Nat) (d : UData V) (hwf : d.WF) (ls : List Limit) (hv : Spec.Valid d ls) (r : UData V)
    (hr : subset lon lat (kws ls) d = some r) : r.coords.length = d.coords.length := by
  rw [subset_kws lon lat d ls hv.1] at hr
  dsimp only at hr
  split at hr
  · simp at hr
  · simp only [Option.some.injEq] at hr
    obtain ⟨f, -, -, -, -, -, -, hcs⟩ := createData_rows lon ls hv.1 d hwf
    rw [← hr]
    simp [UData.select, hcs]

/-- A column of the data as the entries of the points. -/
theorem mem_column (d : UData V) (hwf : d.WF) (k : Nat) (x : ℚ) :
    x ∈ d.coords.getD k [] ↔ k < d.coords.length ∧ ∃ p ∈ d.rows, p.1[k]? = some x := by
  by_cases hk : k < d.coords.length
  · have e : d.coords[k]? = some d.coords[k] := List.getElem?_eq_getElem hk
    have hcol := rows_column d.values d.coords hwf k _ e
    rw [List.getD_eq_getElem?_getD, e, Option.getD_some]
    have : (some x ∈ d.rows.map (fun p => p.1[k]?)) ↔ some x ∈ d.coords[k].map some := by
      unfold UData.rows; rw [hcol]
    simp only [List.mem_map, Option.some.injEq, exists_eq_right] at this
    rw [← this]
    exact ⟨fun h => ⟨hk, h⟩, fun h => h.2⟩
  · rw [List.getD_eq_getElem?_getD, List.getElem?_eq_none (by omega)]
    simp [hk]

theorem convention_sub (d r : UData V) (hd : d.WF) (hr : r.WF) (hcl : r.coords.length = d.coords.length)
    (hsub : ∀ p ∈ r.rows, p ∈ d.rows) (lon : Nat) : ∀ x ∈ r.coords.getD lon [], x ∈ d.coords.getD lon [] := by
  intro x hx
  rw [mem_column r hr] at hx
  rw [mem_column d hd]
  obtain ⟨h1, p, h2, h3⟩ := hx
  exact ⟨by omega, p, hsub p h2, h3⟩

/-- **C129**. Any number of requests one after the other, in the longitude convention of the data, gives exactly the points
inside all the limits of all the requests, in order; nothing is left iff there is no such point. -/
theorem c129_steps (lon lat : Nat) (reqs : List (List Limit)) : ∀ (d : UData V), d.WF →
    (∀ ls ∈ reqs, Spec.Valid d ls) → Spec.SameConvention (d.coords.getD lon []) reqs.flatten lon →
    (∀ r, steps lon lat reqs d = some r → r.WF ∧ r.coords.length = d.coords.length ∧
      r.rows = d.rows.filter (fun p => reqs.flatten.all (fun l => Inside l p))) ∧
    (reqs ≠ [] → (steps lon lat reqs d = none ↔ ∀ p ∈ d.rows, ¬ reqs.flatten.all (fun l => Inside l p) = true)) := by
  induction reqs with
  | nil =>
    intro d hwf _ _
    refine ⟨fun r hr => ?_, fun h => absurd rfl h⟩
    simp only [steps, Option.some.injEq] at hr
    subst hr
    exact ⟨hwf, rfl, by simp⟩
  | cons ls t ih =>
    intro d hwf hv hc
    have hv0 := hv ls (by simp)
    have hc0 : Spec.SameConvention (d.coords.getD lon []) ls lon := by
      rcases hc with ⟨a, b⟩ | ⟨a, b⟩
      · exact Or.inl ⟨a, fun l hl => b l (by simp [hl])⟩
      · exact Or.inr ⟨a, fun l hl => b l (by simp [hl])⟩
    obtain ⟨h1, h2⟩ := subset_exact lon lat d hwf ls hv0.1 hv0.2 (newRange_same _ _ _ hc0)
    cases hs : subset lon lat (kws ls) d with
    | none =>
      refine ⟨fun r hr => by simp [steps, hs] at hr, fun _ => ?_⟩
      simp only [steps, hs, Option.bind_none, true_iff]
      intro p hp hall
      refine h2.1 hs p hp ?_
      rw [List.all_eq_true] at hall ⊢
      intro l hl
      exact hall l (by simp [hl])
    | some m =>
      obtain ⟨hm, hrows⟩ := h1 m hs
      have hcl := subset_shape_of lon lat d hwf ls hv0 m hs
      have hsub : ∀ p ∈ m.rows, p ∈ d.rows := by intro p hp; rw [hrows] at hp; exact (List.mem_filter.1 hp).1
      have hcol := convention_sub d m hwf hm hcl hsub lon
      have hc1 : Spec.SameConvention (m.coords.getD lon []) t.flatten lon := by
        rcases hc with ⟨a, b⟩ | ⟨a, b⟩
        · exact Or.inl ⟨fun x hx => a x (hcol x hx), fun l hl => b l (by simp only [List.flatten_cons, List.mem_append]; exact Or.inr hl)⟩
        · exact Or.inr ⟨fun x hx => a x (hcol x hx), fun l hl => b l (by simp only [List.flatten_cons, List.mem_append]; exact Or.inr hl)⟩
      obtain ⟨i1, i2⟩ := ih m hm (fun ls' h' => by
        have := hv ls' (by simp [h'])
        exact ⟨this.1, by rw [hcl]; exact this.2⟩) hc1
      have hst : steps lon lat (ls :: t) d = steps lon lat t m := by simp [steps, hs]
      have hff : m.rows.filter (fun p => t.flatten.all (fun l => Inside l p)) =
          d.rows.filter (fun p => (ls :: t).flatten.all (fun l => Inside l p)) := by
        rw [hrows, List.filter_filter]
        apply List.filter_congr
        intro p _
        rw [List.flatten_cons, List.all_append, Bool.and_comm]
      constructor
      · intro r hr
        rw [hst] at hr
        obtain ⟨j1, j2, j3⟩ := i1 r hr
        exact ⟨j1, by omega, by rw [j3, hff]⟩
      · intro _
        rw [hst]
        by_cases ht : t = []
        · subst ht
          simp only [steps, reduceCtorEq, false_iff]
          intro hno
          have : subset lon lat (kws ls) d = none := h2.2 (by
            intro p hp; simpa using hno p hp)
          rw [hs] at this; simp at this
        · rw [i2 ht]
          have e1 : (∀ p ∈ m.rows, ¬ t.flatten.all (fun l => Inside l p) = true) ↔
              m.rows.filter (fun p => t.flatten.all (fun l => Inside l p)) = [] := by rw [List.filter_eq_nil_iff]
          rw [e1, hff, List.filter_eq_nil_iff]

/-- The points determine the data. -/
theorem rows_injective (d e : UData V) (hd : d.WF) (he : e.WF) (hc : d.coords.length = e.coords.length) (h : d.rows = e.rows) : d = e := by
  have hv : d.values = e.values := by
    have := congrArg (List.map Prod.snd) h
    unfold UData.rows at this
    rwa [rows_value, rows_value] at this
  have hcs : d.coords = e.coords := by
    apply List.ext_getElem hc
    intro k h1 h2
    have a := rows_column d.values d.coords hd k _ (List.getElem?_eq_getElem h1)
    have b := rows_column e.values e.coords he k _ (List.getElem?_eq_getElem h2)
    have : rowsOf d.coords d.values = rowsOf e.coords e.values := h
    rw [this, b] at a
    exact ((List.map_inj_right (fun _ _ h => Option.some.inj h)).1 a).symm
  cases d; cases e; simp_all

/-- **C129**. The order of the requests does not matter, nor how the limits are distributed over them: two sequences of
requests that state the same limits give the same result. -/
theorem c129_order (lon lat : Nat) (d : UData V) (hwf : d.WF) (r1 r2 : List (List Limit)) (hn1 : r1 ≠ []) (hn2 : r2 ≠ [])
    (hv1 : ∀ ls ∈ r1, Spec.Valid d ls) (hv2 : ∀ ls ∈ r2, Spec.Valid d ls)
    (hsame : ∀ l, l ∈ r1.flatten ↔ l ∈ r2.flatten) (hc : Spec.SameConvention (d.coords.getD lon []) r1.flatten lon) :
    steps lon lat r1 d = steps lon lat r2 d := by
  have hc2 : Spec.SameConvention (d.coords.getD lon []) r2.flatten lon := by
    rcases hc with ⟨a, b⟩ | ⟨a, b⟩
    · exact Or.inl ⟨a, fun l hl => b l ((hsame l).2 hl)⟩
    · exact Or.inr ⟨a, fun l hl => b l ((hsame l).2 hl)⟩
  have hall : ∀ p : List ℚ × V, r1.flatten.all (fun l => Inside l p) = r2.flatten.all (fun l => Inside l p) := by
    intro p
    rw [Bool.eq_iff_iff, List.all_eq_true, List.all_eq_true]
    exact ⟨fun h l hl => h l ((hsame l).2 hl), fun h l hl => h l ((hsame l).1 hl)⟩
  obtain ⟨a1, a2⟩ := c129_steps lon lat r1 d hwf hv1 hc
  obtain ⟨b1, b2⟩ := c129_steps lon lat r2 d hwf hv2 hc2
  have hnone : steps lon lat r1 d = none ↔ steps lon lat r2 d = none := by
    rw [a2 hn1, b2 hn2]; simp only [hall]
  cases h1 : steps lon lat r1 d with
  | none => exact (hnone.1 h1).symm
  | some x =>
    cases h2 : steps lon lat r2 d with
    | none => rw [hnone.2 h2] at h1; simp at h1
    | some y =>
      obtain ⟨wx, cx, ex⟩ := a1 x h1
      obtain ⟨wy, cy, ey⟩ := b1 y h2
      congr 1
      refine rows_injective x y wx wy (by omega) ?_
      rw [ex, ey]
      simp only [hall]

theorem any_sub {A : Type} (p : A → Bool) (l m : List A) (h : ∀ x ∈ m, x ∈ l) (hl : l.any p = false) : m.any p = false := by
  rw [List.any_eq_false] at hl ⊢
  exact fun x hx => hl x (h x hx)

theorem wrap_id (s x : ℚ) (h1 : s ≤ x) (h2 : x < s + 360) : pmod (x - s + 360 * 2) 360 + s = x := by
  unfold pmod
  have : ⌊(x - s + 360 * 2) / 360⌋ = 2 := by
    rw [Int.floor_eq_iff]
    constructor
    · rw [le_div_iff₀ (by norm_num)]; push_cast; linarith
    · rw [div_lt_iff₀ (by norm_num)]; push_cast; linarith
  rw [this]; push_cast; ring

/-- The longitudes of a part of the data are converted in the same way as those of all the data. -/
theorem convertFun_sub (lons part : List ℚ) (h : ∀ x ∈ part, x ∈ lons) (hc : Spec.OneConvention lons) (a b : ℚ) :
    ∀ x ∈ part, convertFun part a b x = convertFun lons a b x := by
  intro x hx
  have hxl := h x hx
  have hsub : ∀ q : ℚ → Bool, part.any q = true → lons.any q = true := by
    intro q hq
    rw [List.any_eq_true] at hq ⊢
    obtain ⟨y, hy, e⟩ := hq
    exact ⟨y, h y hy, e⟩
  unfold convertFun newRange
  dsimp only
  rcases hc with hc | hc
  · have hl : lons.any (fun x => decide (x > 180)) = false := by
      rw [List.any_eq_false]; intro y hy; simpa using (hc y hy).2.le
    have hp : part.any (fun x => decide (x > 180)) = false := any_sub _ _ _ h hl
    rw [hl, hp]
    by_cases hb : part.any (fun x => decide (x < 0)) = true
    · rw [hb, hsub _ hb]
    · have hx0 : 0 ≤ x := by
        rw [Bool.not_eq_true, List.any_eq_false] at hb
        simpa using hb x hx
      rw [Bool.not_eq_true] at hb
      rw [hb]
      by_cases hb' : lons.any (fun x => decide (x < 0)) = true
      · rw [hb']
        have hw := wrap_id 0 x hx0 (by have := (hc x hxl).2; linarith)
        split_ifs <;> simp_all
      · rw [Bool.not_eq_true] at hb'; rw [hb']
  · have hl : lons.any (fun x => decide (x < 0)) = false := by
      rw [List.any_eq_false]; intro y hy; simpa using (hc y hy).1
    have hp : part.any (fun x => decide (x < 0)) = false := any_sub _ _ _ h hl
    rw [hl, hp]
    by_cases hb : part.any (fun x => decide (x > 180)) = true
    · rw [hb, hsub _ hb]
    · have hx0 : x < 180 := by
        rw [Bool.not_eq_true, List.any_eq_false] at hb
        have h1 : x ≤ 180 := by simpa using hb x hx
        exact lt_of_le_of_ne h1 (hc x hxl).2.2
      rw [Bool.not_eq_true] at hb
      rw [hb]
      by_cases hb' : lons.any (fun x => decide (x > 180)) = true
      · rw [hb']
        have hw := wrap_id (-180) x (by have := (hc x hxl).1; linarith) (by linarith)
        split_ifs <;> simp_all
      · rw [Bool.not_eq_true] at hb'; rw [hb']

/-- One request, as the list of the points that it leaves. -/
theorem subset_points (lon lat : Nat) (d : UData V) (hwf : d.WF) (ls : List Limit) (hv : Spec.Valid d ls) :
    ∃ f : ℚ → ℚ, ((∀ l ∈ ls, l.coord ≠ lon) → f = id) ∧
      (∀ l ∈ ls, l.coord = lon → f = convertFun (d.coords.getD lon []) l.start l.stop) ∧
      (∀ r, subset lon lat (kws ls) d = some r → r.WF ∧ r.coords.length = d.coords.length ∧
        r.rows = (d.rows.map (convertPoint lon f)).filter (fun p => ls.all (fun l => Inside l p))) ∧
      (subset lon lat (kws ls) d = none ↔ (d.rows.map (convertPoint lon f)).filter (fun p => ls.all (fun l => Inside l p)) = []) := by
  obtain ⟨f, -, h1, h2, h3, h4⟩ := subset_general lon lat d hwf ls hv.1 hv.2
  refine ⟨f, h4, h3, fun r hr => ⟨(h1 r hr).1, subset_shape_of lon lat d hwf ls hv r hr, (h1 r hr).2⟩, ?_⟩
  rw [h2, List.filter_eq_nil_iff]
  constructor
  · intro h q hq
    obtain ⟨p, hp, rfl⟩ := List.mem_map.1 hq
    rw [h p hp]; simp
  · intro h p hp
    exact Bool.not_eq_true _ ▸ h _ (List.mem_map.2 ⟨p, hp, rfl⟩)

theorem inside_convert (lon : Nat) (f : ℚ → ℚ) (l : Limit) (hl : l.coord ≠ lon) (p : List ℚ × V) :
    Inside l (convertPoint lon f p) = Inside l p := by
  unfold Inside convertPoint
  dsimp only
  rw [List.getElem?_modify]
  simp [Ne.symm hl]

theorem all_inside_convert (lon : Nat) (f : ℚ → ℚ) (ls : List Limit) (hl : ∀ l ∈ ls, l.coord ≠ lon) (p : List ℚ × V) :
    ls.all (fun l => Inside l (convertPoint lon f p)) = ls.all (fun l => Inside l p) := by
  rw [Bool.eq_iff_iff, List.all_eq_true, List.all_eq_true]
  constructor
  · intro h l hl'; rw [← inside_convert lon f l (hl l hl')]; exact h l hl'
  · intro h l hl'; rw [inside_convert lon f l (hl l hl')]; exact h l hl'

/-- **C129**. Longitude limits in any convention: two requests, of which one does not concern the longitude, give the same
result in either order, as long as all longitudes of the data are in one convention and none is 180. -/
theorem c129_convert (lon lat : Nat) (d : UData V) (hwf : d.WF) (a b : List Limit) (ha : Spec.Valid d a) (hb : Spec.Valid d b)
    (hal : ∀ l ∈ a, l.coord ≠ lon) (hc : Spec.OneConvention (d.coords.getD lon [])) :
    steps lon lat [a, b] d = steps lon lat [b, a] d := by
  obtain ⟨fa, a1, -, a3, a4⟩ := subset_points lon lat d hwf a ha
  obtain ⟨fb, b1, b2, b3, b4⟩ := subset_points lon lat d hwf b hb
  rw [a1 hal] at a3 a4
  rw [convertPoint_id] at a3 a4
  -- the points that are left
  set R := ((d.rows.map (convertPoint lon fb)).filter (fun p => b.all (fun l => Inside l p))).filter
    (fun p => a.all (fun l => Inside l p)) with hR
  have hswap : R = ((d.rows.filter (fun p => a.all (fun l => Inside l p))).map (convertPoint lon fb)).filter
      (fun p => b.all (fun l => Inside l p)) := by
    rw [hR, List.filter_filter, List.filter_map, List.filter_map, List.filter_filter]
    congr 1
    apply List.filter_congr
    intro p _
    simp only [Function.comp_apply, all_inside_convert lon fb a hal]
    rw [Bool.and_comm]
  have left : (∀ r, steps lon lat [a, b] d = some r → r.WF ∧ r.coords.length = d.coords.length ∧ r.rows = R) ∧
      (steps lon lat [a, b] d = none ↔ R = []) := by
    cases hs : subset lon lat (kws a) d with
    | none =>
      simp only [steps, hs, Option.bind_none]
      refine ⟨by simp, ?_⟩
      rw [hswap, a4.1 hs]; simp
    | some m =>
      obtain ⟨m1, m2, m3⟩ := a3 m hs
      obtain ⟨g, g1, g2, g3, g4⟩ := subset_points lon lat m m1 b ⟨hb.1, by rw [m2]; exact hb.2⟩
      have hsub : ∀ p ∈ m.rows, p ∈ d.rows := by intro p hp; rw [m3] at hp; exact (List.mem_filter.1 hp).1
      have hcol := convention_sub d m hwf m1 m2 hsub lon
      have e : m.rows.map (convertPoint lon g) = (d.rows.filter (fun p => a.all (fun l => Inside l p))).map (convertPoint lon fb) := by
        rw [← m3]
        apply List.map_congr_left
        intro p hp
        by_cases hbl : ∀ l ∈ b, l.coord ≠ lon
        · rw [g1 hbl, b1 hbl]
        · push Not at hbl
          obtain ⟨l, hl, hlc⟩ := hbl
          unfold convertPoint
          congr 1
          rw [g2 l hl hlc, b2 l hl hlc]
          by_cases hk : lon < p.1.length
          · have hx : p.1[lon] ∈ m.coords.getD lon [] := by
              rw [mem_column m m1]
              exact ⟨by rw [m2]; have := hb.2 l hl; omega, p, hp, List.getElem?_eq_getElem hk⟩
            have := convertFun_sub _ _ hcol hc l.start l.stop _ hx
            apply List.ext_getElem?
            intro i
            rw [List.getElem?_modify, List.getElem?_modify]
            by_cases hi : lon = i
            · subst hi; rw [List.getElem?_eq_getElem hk]; simp only [if_true]; exact congrArg some this
            · simp [hi]
          · rw [List.modify_eq_self (by omega), List.modify_eq_self (by omega)]
      rw [e, ← hswap] at g3 g4
      have hst : steps lon lat [a, b] d = subset lon lat (kws b) m := by simp [steps, hs]
      rw [hst]
      exact ⟨fun r hr => ⟨(g3 r hr).1, by have := (g3 r hr).2.1; omega, (g3 r hr).2.2⟩, g4⟩
  have right : (∀ r, steps lon lat [b, a] d = some r → r.WF ∧ r.coords.length = d.coords.length ∧ r.rows = R) ∧
      (steps lon lat [b, a] d = none ↔ R = []) := by
    cases hs : subset lon lat (kws b) d with
    | none =>
      simp only [steps, hs, Option.bind_none]
      refine ⟨by simp, ?_⟩
      rw [hR, b4.1 hs]; simp
    | some m =>
      obtain ⟨m1, m2, m3⟩ := b3 m hs
      obtain ⟨g, g1, -, g3, g4⟩ := subset_points lon lat m m1 a ⟨ha.1, by rw [m2]; exact ha.2⟩
      rw [g1 hal, convertPoint_id, m3, ← hR] at g3 g4
      have hst : steps lon lat [b, a] d = subset lon lat (kws a) m := by simp [steps, hs]
      rw [hst]
      exact ⟨fun r hr => ⟨(g3 r hr).1, by have := (g3 r hr).2.1; omega, (g3 r hr).2.2⟩, g4⟩
  cases h1 : steps lon lat [a, b] d with
  | none => exact (right.2.2 (left.2.1 h1)).symm
  | some x =>
    cases h2 : steps lon lat [b, a] d with
    | none => rw [left.2.2 (right.2.1 h2)] at h1; simp at h1
    | some y =>
      obtain ⟨wx, cx, ex⟩ := left.1 x h1
      obtain ⟨wy, cy, ey⟩ := right.1 y h2
      rw [rows_injective x y wx wy (by omega) (by rw [ex, ey])]

/-- C129 is violated for a longitude of exactly 180 degrees: with data at 180 and 200 degrees east, limits of -180 to -170 find
the point at 180 if they come first, but not after a request that leaves only that point. -/
theorem c129_violated : ∃ (d : UData Nat) (a b : List Limit), d.WF ∧ Spec.Valid d a ∧ Spec.Valid d b ∧ (∀ l ∈ a, l.coord ≠ 0) ∧
    (steps 0 1 [b, a] d).map UData.rows = some [([-180, 1], 7)] ∧ (steps 0 1 [a, b] d).map UData.rows = none := by
  refine ⟨⟨[[180, 200], [1, 2]], [7, 8]⟩, [⟨1, 0, 1⟩], [⟨0, -180, -170⟩], ?_, ⟨?_, ?_⟩, ⟨?_, ?_⟩, ?_, ?_, ?_⟩ <;>
    first | decide +kernel | (unfold UData.WF; decide +kernel)

/-- C129 is violated for data with longitudes of both conventions: they are not converted, but a part of them is. -/
theorem c129_mixed_violated : ∃ (d : UData Nat) (a b : List Limit), d.WF ∧ Spec.Valid d a ∧ Spec.Valid d b ∧ (∀ l ∈ a, l.coord ≠ 0) ∧
    steps 0 1 [b, a] d = none ∧ (steps 0 1 [a, b] d).map UData.rows = some [([270, 1], 7)] := by
  refine ⟨⟨[[-90, 200], [1, 2]], [7, 8]⟩, [⟨1, 0, 1⟩], [⟨0, 260, 280⟩], ?_, ⟨?_, ?_⟩, ⟨?_, ?_⟩, ?_, ?_, ?_⟩ <;>
    first | decide +kernel | (unfold UData.WF; decide +kernel) | simp [steps, subset, kws, constraints, assign, constrain, createData, convertLons, newRange, UData.select, select, combinedMask, limitMask]

/-! ### The hypotheses are met -/

def stepData : UData String := ⟨[[-170, 20, 30, 150], [-5, 5, 50, 0]], ["a", "b", "c", "d"]⟩

example : stepData.WF := by unfold UData.WF; decide +kernel
example : Spec.SameConvention (stepData.coords.getD 0 []) [[Limit.mk 0 (-180) 100], [Limit.mk 1 0 90]].flatten 0 :=
  Or.inl ⟨by decide +kernel, by decide +kernel⟩
example : (steps 0 1 [[⟨0, -180, 100⟩], [⟨1, 0, 90⟩]] stepData).map UData.rows = some [([20, 5], "b"), ([30, 50], "c")] := by
  decide +kernel
/-- Limits in the other convention, in either order. -/
example : Spec.OneConvention (stepData.coords.getD 0 []) ∧
    (steps 0 1 [[⟨0, 100, 200⟩], [⟨1, -10, -1⟩]] stepData).map UData.rows = some [([190, -5], "a")] ∧
    (steps 0 1 [[⟨1, -10, -1⟩], [⟨0, 100, 200⟩]] stepData).map UData.rows = some [([190, -5], "a")] := by
  refine ⟨Or.inl (by decide +kernel), by decide +kernel, by decide +kernel⟩

end Cis.Subset
