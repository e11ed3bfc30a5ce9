import Verif.Subset.Spec
import Verif.Lon.Props
import Mathlib.Data.List.Nodup
set_option linter.unusedSectionVars false
set_option linter.unusedSimpArgs false
namespace Cis.Subset
open Cis.Lon

variable {V : Type} {α : Type}

@[simp] theorem select_nil (m : List Bool) : select m ([] : List α) = [] := by simp [select]
@[simp] theorem select_nil' (a : List α) : select [] a = [] := by simp [select]
@[simp] theorem select_cons (b : Bool) (m : List Bool) (x : α) (a : List α) :
    select (b :: m) (x :: a) = if b then x :: select m a else select m a := by
  cases b <;> simp [select]

theorem select_map (p : α → Bool) (l : List α) : select (l.map p) l = l.filter p := by
  induction l with
  | nil => simp
  | cons a t ih => simp only [List.map_cons, select_cons, ih, List.filter_cons]

theorem select_length (m : List Bool) : ∀ (a : List α), a.length = m.length → (select m a).length = m.count true := by
  induction m with
  | nil => intro a _; simp
  | cons b t ih =>
    intro a h
    cases a with
    | nil => simp at h
    | cons x s => cases b <;> simp [ih s (by simpa using h)]

theorem select_true (a : List α) : ∀ m : List Bool, a.length = m.length → (∀ b ∈ m, b = true) → select m a = a := by
  induction a with
  | nil => intro m _ _; simp
  | cons x t ih =>
    intro m h hm
    cases m with
    | nil => simp at h
    | cons b s => rw [select_cons, hm b (by simp), if_pos rfl, ih s (by simpa using h) (fun b hb => hm b (by simp [hb]))]

theorem rowsOf_length (cs : List (List ℚ)) (vs : List V) : (rowsOf cs vs).length = vs.length := by
  induction vs generalizing cs with
  | nil => rfl
  | cons v t ih => simp [rowsOf, ih]

theorem rowsOf_select (vs : List V) : ∀ (cs : List (List ℚ)) (m : List Bool), (∀ c ∈ cs, c.length = vs.length) →
    m.length = vs.length → rowsOf (cs.map (select m)) (select m vs) = select m (rowsOf cs vs) := by
  induction vs with
  | nil => intro cs m _ _; simp [rowsOf]
  | cons v t ih =>
    intro cs m hc hm
    cases m with
    | nil => simp at hm
    | cons b s =>
      have htail : ∀ c ∈ cs.map List.tail, c.length = t.length := by
        intro c hc'
        obtain ⟨c0, h0, rfl⟩ := List.mem_map.1 hc'
        have := hc c0 h0
        simp at this ⊢; omega
      have key : ∀ c ∈ cs, ∃ x l, c = x :: l := by
        intro c hc'
        cases c with
        | nil => have := hc [] hc'; simp at this
        | cons x l => exact ⟨x, l, rfl⟩
      rw [rowsOf]
      cases b with
      | true =>
        simp only [select_cons, if_true, rowsOf]
        rw [← ih (cs.map List.tail) s htail (by simpa using hm)]
        have e1 : (cs.map (select (true :: s))).filterMap List.head? = cs.filterMap List.head? := by
          rw [List.filterMap_map]
          apply List.filterMap_congr
          intro c hc'
          obtain ⟨x, l, rfl⟩ := key c hc'
          simp
        have e2 : (cs.map (select (true :: s))).map List.tail = (cs.map List.tail).map (select s) := by
          rw [List.map_map, List.map_map]
          apply List.map_congr_left
          intro c hc'
          obtain ⟨x, l, rfl⟩ := key c hc'
          simp
        rw [e1, e2]
      | false =>
        simp only [select_cons, Bool.false_eq_true, if_false]
        rw [← ih (cs.map List.tail) s htail (by simpa using hm)]
        have e2 : cs.map (select (false :: s)) = (cs.map List.tail).map (select s) := by
          rw [List.map_map]
          apply List.map_congr_left
          intro c hc'
          obtain ⟨x, l, rfl⟩ := key c hc'
          simp
        rw [e2]

theorem heads_eq (cs : List (List ℚ)) (n : Nat) (h : ∀ c ∈ cs, c.length = n + 1) (k : Nat) :
    (cs.filterMap List.head?)[k]? = (cs[k]?).bind List.head? := by
  induction cs generalizing k with
  | nil => simp
  | cons c t ih =>
    cases c with
    | nil => have := h [] (by simp); simp at this
    | cons x l =>
      simp only [List.filterMap_cons, List.head?_cons]
      cases k with
      | zero => simp
      | succ k => simpa using ih (fun c hc => h c (by simp [hc])) k

/-- The points give back the coordinate arrays. -/
theorem rows_column (vs : List V) : ∀ (cs : List (List ℚ)), (∀ c ∈ cs, c.length = vs.length) → ∀ (k : Nat) (c : List ℚ),
    cs[k]? = some c → (rowsOf cs vs).map (fun r => r.1[k]?) = c.map some := by
  induction vs with
  | nil =>
    intro cs h k c hk
    have := h c (List.mem_of_getElem? hk)
    have : c = [] := by simpa using this
    subst this; simp [rowsOf]
  | cons v t ih =>
    intro cs h k c hk
    have hc := h c (List.mem_of_getElem? hk)
    cases c with
    | nil => simp at hc
    | cons x l =>
      rw [rowsOf, List.map_cons, List.map_cons]
      have e1 := heads_eq cs t.length (by simpa using h) k
      rw [hk] at e1
      rw [ih (cs.map List.tail) (by
        intro c' hc'
        obtain ⟨c0, h0, rfl⟩ := List.mem_map.1 hc'
        have := h c0 h0
        simp at this ⊢; omega) k l (by simp [hk])]
      simp only [List.cons.injEq, and_true]
      simpa using e1

theorem rows_value (vs : List V) : ∀ (cs : List (List ℚ)), (rowsOf cs vs).map Prod.snd = vs := by
  induction vs with
  | nil => intro cs; rfl
  | cons v t ih => intro cs; simp [rowsOf, ih]

theorem UData.rows_select (d : UData V) (m : List Bool) (h : d.WF) (hm : m.length = d.values.length) :
    (d.select m).rows = Cis.Subset.select m d.rows := rowsOf_select _ _ _ h hm

theorem UData.select_wf (d : UData V) (m : List Bool) (h : d.WF) (hm : m.length = d.values.length) : (d.select m).WF := by
  intro c hc
  obtain ⟨c0, h0, rfl⟩ := List.mem_map.1 hc
  simp only [UData.select]
  rw [select_length m c0 (by rw [h c0 h0, hm]), select_length m d.values hm.symm]

theorem limitMask_eq (d : UData V) (h : d.WF) (l : Limit) (hl : l.coord < d.coords.length) :
    limitMask d l = d.rows.map (Inside l) := by
  have hk : d.coords[l.coord]? = some d.coords[l.coord] := List.getElem?_eq_getElem hl
  have := rows_column d.values d.coords h l.coord _ hk
  unfold limitMask
  rw [List.getD_eq_getElem?_getD, hk, Option.getD_some]
  unfold UData.rows
  have e : (rowsOf d.coords d.values).map (Inside l) =
      ((rowsOf d.coords d.values).map (fun r => r.1[l.coord]?)).map (fun o => match o with
        | some x => decide (l.start ≤ x) && decide (x ≤ l.stop)
        | none => false) := by
    rw [List.map_map]; rfl
  rw [e, this, List.map_map]
  apply List.map_congr_left
  intro x _
  simp only [Function.comp]
  rw [Bool.and_comm]

theorem zipWith_and_map (l : List α) (p q : α → Bool) :
    List.zipWith (· && ·) (l.map p) (l.map q) = l.map (fun x => p x && q x) := by
  induction l with
  | nil => rfl
  | cons a t ih => simp [ih]

theorem combinedMask_eq (d : UData V) (h : d.WF) (limits : List Limit) (hl : ∀ l ∈ limits, l.coord < d.coords.length) :
    combinedMask limits d = d.rows.map (fun p => limits.all (fun l => Inside l p)) := by
  unfold combinedMask
  have hlen : d.rows.length = d.values.length := rowsOf_length _ _
  have gen : ∀ (ls : List Limit) (q : List ℚ × V → Bool), (∀ l ∈ ls, l.coord < d.coords.length) →
      ls.foldl (fun m l => List.zipWith (· && ·) m (limitMask d l)) (d.rows.map q) =
        d.rows.map (fun p => q p && ls.all (fun l => Inside l p)) := by
    intro ls
    induction ls with
    | nil => intro q _; simp
    | cons l t ih =>
      intro q hq
      rw [List.foldl_cons, limitMask_eq d h l (hq l (by simp)), zipWith_and_map, ih _ (fun l' hl' => hq l' (by simp [hl']))]
      apply List.map_congr_left
      intro p _
      simp [Bool.and_assoc]
  have h0 : List.replicate d.values.length true = d.rows.map (fun _ => true) := by
    rw [List.map_const', hlen]
  rw [h0, gen limits _ hl]
  simp

theorem combinedMask_length (d : UData V) (h : d.WF) (limits : List Limit) (hl : ∀ l ∈ limits, l.coord < d.coords.length) :
    (combinedMask limits d).length = d.values.length := by
  rw [combinedMask_eq d h limits hl, List.length_map]; exact rowsOf_length _ _

/-! conversion of the longitudes -/

/-- Pointwise conversion. -/
def convertFun (lons : List ℚ) (start stop : ℚ) : ℚ → ℚ :=
  match newRange lons start stop with
  | some s => fun x => pmod (x - s + 360 * 2) 360 + s
  | none => id

theorem convertLons_eq (lons : List ℚ) (a b : ℚ) : convertLons lons a b = lons.map (convertFun lons a b) := by
  unfold convertLons convertFun
  cases newRange lons a b with
  | none => simp
  | some s => rfl

theorem convertFun_same (lons : List ℚ) (a b x : ℚ) : Spec.Same (convertFun lons a b x) x := by
  unfold convertFun
  cases newRange lons a b with
  | none => exact ⟨0, by simp⟩
  | some s =>
    refine ⟨2 - ⌊(x - s + 360 * 2) / 360⌋, ?_⟩
    simp only [pmod]
    push_cast
    ring

theorem heads_modify (cs : List (List ℚ)) (k : Nat) (f : ℚ → ℚ) (n : Nat) (h : ∀ c ∈ cs, c.length = n + 1) :
    (cs.modify k (List.map f)).filterMap List.head? = (cs.filterMap List.head?).modify k f := by
  induction cs generalizing k with
  | nil => simp
  | cons c t ih =>
    cases c with
    | nil => have := h [] (by simp); simp at this
    | cons x l =>
      cases k with
      | zero => simp
      | succ k => simp [ih k (fun c hc => h c (by simp [hc]))]

theorem tails_modify (cs : List (List ℚ)) (k : Nat) (f : ℚ → ℚ) :
    (cs.modify k (List.map f)).map List.tail = (cs.map List.tail).modify k (List.map f) := by
  induction cs generalizing k with
  | nil => simp
  | cons c t ih =>
    cases k with
    | zero => simp
    | succ k => simp [ih k]

theorem rowsOf_modify (vs : List V) : ∀ (cs : List (List ℚ)) (k : Nat) (f : ℚ → ℚ), (∀ c ∈ cs, c.length = vs.length) →
    rowsOf (cs.modify k (List.map f)) vs = (rowsOf cs vs).map (convertPoint k f) := by
  induction vs with
  | nil => intro cs k f _; rfl
  | cons v t ih =>
    intro cs k f h
    rw [rowsOf, rowsOf, heads_modify cs k f t.length (by simpa using h), tails_modify, ih (cs.map List.tail) k f (by
      intro c hc
      obtain ⟨c0, h0, rfl⟩ := List.mem_map.1 hc
      have := h c0 h0
      simp at this ⊢; omega)]
    simp [convertPoint]

/-- With at most one longitude limit, the data are converted for that one. -/
theorem createData_eq (lon : Nat) (limits : List Limit) (hn : (limits.map Limit.coord).Nodup) (d : UData V) :
    createData (some lon) limits d =
      match limits.find? (fun l => l.coord = lon) with
      | none => d
      | some l => ⟨d.coords.modify lon (fun c => convertLons c l.start l.stop), d.values⟩ := by
  induction limits generalizing d with
  | nil => rfl
  | cons l t ih =>
    simp only [List.map_cons, List.nodup_cons] at hn
    rw [createData]
    by_cases h : l.coord = lon
    · subst h
      have hnone : t.find? (fun x => decide (x.coord = l.coord)) = none := by
        rw [List.find?_eq_none]
        intro x hx hxl
        exact hn.1 (List.mem_map.2 ⟨x, hx, by simpa using hxl⟩)
      rw [if_pos rfl, ih hn.2, hnone]
      simp
    · rw [if_neg (by simpa using h), ih hn.2, List.find?_cons_of_neg (by simpa using h)]

theorem modify_eq_of_getElem (cs : List (List ℚ)) (k : Nat) (f g : List ℚ → List ℚ)
    (h : ∀ c, cs[k]? = some c → f c = g c) : cs.modify k f = cs.modify k g := by
  apply List.ext_getElem?
  intro i
  rw [List.getElem?_modify, List.getElem?_modify]
  by_cases hi : k = i
  · subst hi
    cases hc : cs[k]? with
    | none => simp
    | some c => simp [h c hc]
  · simp [hi]

/-- The points after the conversion. -/
theorem createData_rows (lon : Nat) (limits : List Limit) (hn : (limits.map Limit.coord).Nodup) (d : UData V) (h : d.WF) :
    ∃ f : ℚ → ℚ, (∀ x, Spec.Same (f x) x) ∧
      (∀ l ∈ limits, l.coord = lon → f = convertFun (d.coords.getD lon []) l.start l.stop) ∧
      ((∀ l ∈ limits, l.coord ≠ lon) → f = id) ∧
      (createData (some lon) limits d).rows = d.rows.map (convertPoint lon f) ∧ (createData (some lon) limits d).WF ∧
      (createData (some lon) limits d).values = d.values ∧
      (createData (some lon) limits d).coords = d.coords.modify lon (List.map f) := by
  rw [createData_eq lon limits hn d]
  cases hf : limits.find? (fun l => decide (l.coord = lon)) with
  | none =>
    rw [List.find?_eq_none] at hf
    have hmod : d.coords.modify lon (List.map id) = d.coords := by
      rw [modify_eq_of_getElem d.coords lon (List.map id) id (by intros; simp)]
      exact List.modify_id ..
    refine ⟨id, fun x => ⟨0, by simp⟩, ?_, fun _ => rfl, ?_, h, rfl, hmod.symm⟩
    · intro l hl he
      exact absurd (by simpa using he) (hf l hl)
    · dsimp only
      have := rowsOf_modify d.values d.coords lon id h
      rw [hmod] at this
      exact this
  | some l =>
    have hl := List.mem_of_find?_eq_some hf
    have hlc : l.coord = lon := by simpa using List.find?_some hf
    have hmod : d.coords.modify lon (fun c => convertLons c l.start l.stop) =
        d.coords.modify lon (List.map (convertFun (d.coords.getD lon []) l.start l.stop)) := by
      apply modify_eq_of_getElem
      intro c hc
      rw [convertLons_eq, List.getD_eq_getElem?_getD, hc, Option.getD_some]
    refine ⟨convertFun (d.coords.getD lon []) l.start l.stop, convertFun_same _ _ _, ?_, ?_, ?_, ?_, rfl, hmod⟩
    · intro l' hl' he
      have : l' = l := by
        have := List.inj_on_of_nodup_map hn hl' hl (by rw [he, hlc])
        exact this
      rw [this]
    · intro hne
      exact absurd hlc (hne l hl)
    · dsimp only [UData.rows]
      rw [hmod]
      exact rowsOf_modify d.values d.coords lon _ h
    · intro c hc
      dsimp only at hc ⊢
      rw [hmod] at hc
      obtain ⟨i, hi⟩ := List.mem_iff_getElem?.1 hc
      rw [List.getElem?_modify] at hi
      cases hd : d.coords[i]? with
      | none => rw [hd] at hi; simp at hi
      | some c0 =>
        have h0 := h c0 (List.mem_of_getElem? hd)
        rw [hd] at hi
        by_cases hli : lon = i
        · simp [hli] at hi; rw [← hi]; simpa using h0
        · simp [hli] at hi; rw [← hi]; exact h0

/-- The whole constraint without a shape. -/
theorem constrain_rows (lon lat : Nat) (limits : List Limit) (hn : (limits.map Limit.coord).Nodup) (d : UData V) (h : d.WF)
    (hl : ∀ l ∈ limits, l.coord < d.coords.length) :
    let d1 := createData (some lon) limits d
    (d1.select (combinedMask limits d1)).rows = d1.rows.filter (fun p => limits.all (fun l => Inside l p)) ∧
      (d1.select (combinedMask limits d1)).WF := by
  obtain ⟨f, -, -, -, -, hwf, hv, hc⟩ := createData_rows lon limits hn d h
  have hl1 : ∀ l ∈ limits, l.coord < (createData (some lon) limits d).coords.length := by
    intro l hl'; rw [hc, List.length_modify]; exact hl l hl'
  refine ⟨?_, UData.select_wf _ _ hwf (combinedMask_length _ hwf _ hl1)⟩
  rw [UData.rows_select _ _ hwf (combinedMask_length _ hwf _ hl1), combinedMask_eq _ hwf _ hl1, select_map]

end Cis.Subset
