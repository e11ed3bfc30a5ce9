import Verif.Meta.Metadata
import Mathlib.Data.List.MinMax
set_option linter.unusedSectionVars false
set_option linter.unusedSimpArgs false
/-!
Property C137: the ranges that a summary shows. Model of `update_range` (cis/data_io/ungridded_data.py:386-409) with times, of the processing of
new data (464-500), of the operations that change values in place (`convert_units` 411-426, the setter of `data`, arithmetic in place,
`set_longitude_range` 746-754) and of `summary` (71-96, 711-731), as a state machine. Dates are an abstract type, `num2date` is a parameter.
-/
namespace Cis.Meta.Ranges
open Cis.Meta

/-- The range of metadata: absent, the empty tuple, two numbers (masked if all values are missing) or two dates. -/
inductive Range (D : Type)
  | absent
  | empty
  | numbers (lo hi : Option ℚ)
  | dates (lo hi : Option D)

/-- A coordinate or a variable: values (none where missing), whether its units are those of the standard time, the recorded range. -/
structure Var (D : Type) where
  values : List (Option ℚ)
  time : Bool
  range : Range D

/-- `update_range()` (ungridded_data.py:386-409). `min` of no values raises ValueError, and the range is then the empty tuple. -/
def updateRange {D : Type} (num2date : ℚ → D) (v : Var D) : Var D :=
  let present := v.values.filterMap id
  { v with range :=
      if v.values = [] then .empty
      else if v.time then .dates (present.min?.map num2date) (present.max?.map num2date)
      else .numbers present.min? present.max? }

/-- An object of ungridded data. -/
structure Obj (D : Type) where
  data : Var D
  coords : List (Var D)

/-- The places at which every coordinate has a value (ungridded_data.py:474-478). -/
def complete (coords : List (List (Option ℚ))) (i : Nat) : Bool := coords.all (fun c => (c.getD i none).isSome)

/-- The values at the places where every coordinate has one (ungridded_data.py:486-498). -/
def keep (coords : List (List (Option ℚ))) (v : List (Option ℚ)) : List (Option ℚ) :=
  ((List.range v.length).filter (complete coords)).map (fun i => v.getD i none)

/-- `_post_process` (ungridded_data.py:464-500) of new data: points without coordinates are taken out, all ranges are recorded. The lists are the
flattened arrays, with the information which are times. -/
def create {D : Type} (num2date : ℚ → D) (data : List (Option ℚ) × Bool) (coords : List (List (Option ℚ) × Bool)) : Obj D :=
  let cs := coords.map Prod.fst
  { data := updateRange num2date ⟨keep cs data.1, data.2, .absent⟩
    coords := coords.map (fun c => updateRange num2date ⟨keep cs c.1, c.2, .absent⟩) }

/-- What can be done with an object: its values, or those of a coordinate, are changed in place (`convert_units`, arithmetic in place, assignment to
`data`, `set_longitude_range`), with the units after that; or it is shown. -/
inductive Op
  | changeData (f : List (Option ℚ) → List (Option ℚ)) (time : Bool)
  | changeCoord (i : Nat) (f : List (Option ℚ) → List (Option ℚ)) (time : Bool)
  | show

/-- New values; the recorded range is not touched (ungridded_data.py:411-426: only `_data` and the units are set). -/
def change {D : Type} (f : List (Option ℚ) → List (Option ℚ)) (time : Bool) (v : Var D) : Var D := { v with values := f v.values, time := time }

/-- The effect of an operation. `summary` (ungridded_data.py:725-729) updates the ranges of the coordinates as it goes. -/
def step {D : Type} (num2date : ℚ → D) (o : Obj D) : Op → Obj D
  | .changeData f t => { o with data := change f t o.data }
  | .changeCoord i f t => { o with coords := o.coords.modify i (change f t) }
  | .show => { o with coords := o.coords.map (updateRange num2date) }

/-- A history. -/
def run {D : Type} (num2date : ℚ → D) (o : Obj D) (ops : List Op) : Obj D := ops.foldl (step num2date) o

/-- The two ends that a summary prints (ungridded_data.py:84-90): numbers or dates; `range[0]` fails for None and for the empty tuple. -/
inductive Shown (D : Type)
  | numbers (lo hi : Option ℚ)
  | dates (lo hi : Option D)
deriving DecidableEq

/-- The access to `range[0]` (ungridded_data.py:84-90). -/
def shown {D : Type} : Range D → Except Err (Shown D)
  | .absent => .error .type
  | .empty => .error .index
  | .numbers a b => .ok (.numbers a b)
  | .dates a b => .ok (.dates a b)

/-- `UngriddedData.summary` (ungridded_data.py:711-731): the ranges printed, first that of the data, then those of the coordinates, which are
updated just before. -/
def summary {D : Type} (num2date : ℚ → D) (o : Obj D) : Except Err (Shown D × List (Shown D)) :=
  match shown o.data.range with
  | .error e => .error e
  | .ok a =>
    match o.coords.mapM (fun c => shown (updateRange num2date c).range) with
    | .error e => .error e
    | .ok l => .ok (a, l)

/-! ### Specification -/

/-- What is printed are the least and the greatest of the values, as numbers or as dates, and nothing if all values are missing. -/
def Spec.Shows {D : Type} (num2date : ℚ → D) (values : List (Option ℚ)) (time : Bool) (s : Shown D) : Prop :=
  ∃ lo hi : Option ℚ,
    (∀ x, lo = some x ↔ some x ∈ values ∧ ∀ y, some y ∈ values → x ≤ y) ∧
    (∀ x, hi = some x ↔ some x ∈ values ∧ ∀ y, some y ∈ values → y ≤ x) ∧
    s = if time then .dates (lo.map num2date) (hi.map num2date) else .numbers lo hi

/-- The history leaves the values of the data alone (but not those of its coordinates). -/
def Spec.DataKept (ops : List Op) : Prop := ∀ op ∈ ops, ∀ (f : List (Option ℚ) → List (Option ℚ)) (t : Bool), op ≠ .changeData f t

/-- What a history makes of the values and kind of the `i`-th coordinate: only changes of that coordinate count, in their order. -/
def Spec.after (i : Nat) : List Op → List (Option ℚ) × Bool → List (Option ℚ) × Bool
  | [], v => v
  | .changeCoord j f t :: ops, v => Spec.after i ops (if j = i then (f v.1, t) else v)
  | _ :: ops, v => Spec.after i ops v

/-! ### Proofs -/

theorem minmax (values : List (Option ℚ)) :
    (∀ x, (values.filterMap id).min? = some x ↔ some x ∈ values ∧ ∀ y, some y ∈ values → x ≤ y) ∧
    (∀ x, (values.filterMap id).max? = some x ↔ some x ∈ values ∧ ∀ y, some y ∈ values → y ≤ x) := by
  have hm : ∀ x : ℚ, x ∈ values.filterMap id ↔ some x ∈ values := by simp
  constructor
  · intro x
    rw [List.min?_eq_some_iff]
    simp only [hm]
  · intro x
    rw [List.max?_eq_some_iff]
    simp only [hm]

theorem shown_update {D : Type} (num2date : ℚ → D) (v : Var D) (hv : v.values ≠ []) :
    ∃ s, shown (updateRange num2date v).range = .ok s ∧ Spec.Shows num2date v.values v.time s := by
  obtain ⟨h1, h2⟩ := minmax v.values
  unfold updateRange
  cases ht : v.time with
  | true =>
    refine ⟨.dates ((v.values.filterMap id).min?.map num2date) ((v.values.filterMap id).max?.map num2date), ?_, ?_⟩
    · simp [hv, ht, shown]
    · exact ⟨_, _, h1, h2, by simp⟩
  | false =>
    refine ⟨.numbers (v.values.filterMap id).min? (v.values.filterMap id).max?, ?_, ?_⟩
    · simp [hv, ht, shown]
    · exact ⟨_, _, h1, h2, by simp⟩

theorem mapM_shows {D : Type} (num2date : ℚ → D) (l : List (Var D)) (h : ∀ c ∈ l, c.values ≠ []) :
    ∃ r, l.mapM (fun c => shown (updateRange num2date c).range) = .ok r ∧
      List.Forall₂ (fun (c : Var D) s => Spec.Shows num2date c.values c.time s) l r := by
  induction l with
  | nil => exact ⟨[], rfl, .nil⟩
  | cons c t ih =>
    obtain ⟨r, hr, hf⟩ := ih (fun c hc => h c (by simp [hc]))
    obtain ⟨s, hs, hs'⟩ := shown_update num2date c (h c (by simp))
    refine ⟨s :: r, ?_, .cons hs' hf⟩
    rw [List.mapM_cons, hs]
    show (do let bs ← t.mapM (fun c => shown (updateRange num2date c).range); pure (s :: bs)) = _
    rw [hr]; rfl

theorem step_data_range {D : Type} (num2date : ℚ → D) (o : Obj D) (op : Op) : (step num2date o op).data.range = o.data.range := by
  cases op <;> rfl

theorem run_data_range {D : Type} (num2date : ℚ → D) (o : Obj D) (ops : List Op) : (run num2date o ops).data.range = o.data.range := by
  induction ops generalizing o with
  | nil => rfl
  | cons op t ih => exact (ih (step num2date o op)).trans (step_data_range num2date o op)

theorem run_data {D : Type} (num2date : ℚ → D) (o : Obj D) (ops : List Op) (h : Spec.DataKept ops) : (run num2date o ops).data = o.data := by
  induction ops generalizing o with
  | nil => rfl
  | cons op t ih =>
    have : (step num2date o op).data = o.data := by
      cases op with
      | changeData f tm => exact absurd rfl (h _ (by simp) f tm)
      | changeCoord i f tm => rfl
      | «show» => rfl
    exact (ih (step num2date o op) (fun x hx => h x (by simp [hx]))).trans this

theorem create_data {D : Type} (num2date : ℚ → D) (data : List (Option ℚ) × Bool) (coords : List (List (Option ℚ) × Bool)) :
    (create num2date data coords).data.range =
      (updateRange num2date ⟨(create num2date data coords).data.values, (create num2date data coords).data.time, .absent⟩).range := rfl

/-! ### Theorems -/

theorem run_coord {D : Type} (num2date : ℚ → D) (i : Nat) (ops : List Op) : ∀ o : Obj D,
    (run num2date o ops).coords[i]?.map (fun c => (c.values, c.time)) = o.coords[i]?.map (fun c => Spec.after i ops (c.values, c.time)) := by
  induction ops with
  | nil => intro o; rfl
  | cons op t ih =>
    intro o
    have e : run num2date o (op :: t) = run num2date (step num2date o op) t := rfl
    rw [e, ih]
    cases op with
    | changeData f tm => rfl
    | «show» =>
      show (o.coords.map (updateRange num2date))[i]?.map _ = _
      rw [List.getElem?_map, Option.map_map]
      rfl
    | changeCoord j f tm =>
      show (o.coords.modify j (change f tm))[i]?.map _ = _
      rw [List.getElem?_modify]
      by_cases h : j = i
      · subst h
        cases o.coords[j]? <;> simp [Spec.after, change]
      · cases o.coords[i]? <;> simp [Spec.after, h]

/-- **C137**: the `i`-th coordinate has, after any history, the values and the kind given by the changes of that coordinate, in their order: the
points that had all coordinates when the data were made, then changed. Changes of the data or of other coordinates, and showing, do not matter. -/
theorem c137_current {D : Type} (num2date : ℚ → D) (data : List (Option ℚ) × Bool) (coords : List (List (Option ℚ) × Bool)) (ops : List Op)
    (i : Nat) :
    (run num2date (create num2date data coords) ops).coords[i]?.map (fun c => (c.values, c.time)) =
      coords[i]?.map (fun c => Spec.after i ops
        (((List.range c.1.length).filter (fun p => coords.all (fun d => (d.1.getD p none).isSome))).map (fun p => c.1.getD p none), c.2)) := by
  rw [run_coord]
  show (coords.map (fun c => updateRange num2date ⟨keep (coords.map Prod.fst) c.1, c.2, .absent⟩))[i]?.map _ = _
  rw [List.getElem?_map, Option.map_map]
  have : ∀ p, complete (coords.map Prod.fst) p = coords.all (fun d => (d.1.getD p none).isSome) := by
    intro p; unfold complete; rw [List.all_map]; rfl
  unfold keep
  simp only [funext this]
  rfl

/-- C137: data that had no point when they were made cannot be shown: IndexError, whatever is done with them. -/
theorem c137_no_points {D : Type} (num2date : ℚ → D) (data : List (Option ℚ) × Bool) (coords : List (List (Option ℚ) × Bool)) (ops : List Op)
    (hd : (create num2date data coords).data.values = []) :
    summary num2date (run num2date (create num2date data coords) ops) = .error .index := by
  unfold summary
  rw [run_data_range, create_data, hd]
  rfl

example : (create (fun x : ℚ => x) ([some 5], false) [([none], false)]).data.values = [] := by decide +kernel

/-- **C137**, coordinates: after any history the summary shows the ranges of the values that the coordinates have now, in their units (times as dates),
if the data can be shown at all. -/
theorem c137_coords {D : Type} (num2date : ℚ → D) (data : List (Option ℚ) × Bool) (coords : List (List (Option ℚ) × Bool)) (ops : List Op)
    (hd : (create num2date data coords).data.values ≠ []) (hc : ∀ c ∈ (run num2date (create num2date data coords) ops).coords, c.values ≠ []) :
    ∃ a l, summary num2date (run num2date (create num2date data coords) ops) = .ok (a, l) ∧
      List.Forall₂ (fun (c : Var D) s => Spec.Shows num2date c.values c.time s) (run num2date (create num2date data coords) ops).coords l := by
  obtain ⟨l, hl, hf⟩ := mapM_shows num2date _ hc
  obtain ⟨s, hs, -⟩ := shown_update num2date ⟨(create num2date data coords).data.values, (create num2date data coords).data.time, .absent⟩ hd
  refine ⟨s, l, ?_, hf⟩
  unfold summary
  rw [run_data_range, create_data, hs, hl]

theorem summary_data {D : Type} (num2date : ℚ → D) (o : Obj D) (a : Shown D) (l : List (Shown D)) (h : summary num2date o = .ok (a, l)) :
    shown o.data.range = .ok a := by
  unfold summary at h
  split at h
  · exact absurd h (by simp)
  · rename_i b hb
    split at h
    · exact absurd h (by simp)
    · simp only [Except.ok.injEq, Prod.mk.injEq] at h
      rw [hb, h.1]

/-- C137, exactly: whatever is done, the range shown for the data is that of the values they were made with. -/
theorem c137_first {D : Type} (num2date : ℚ → D) (data : List (Option ℚ) × Bool) (coords : List (List (Option ℚ) × Bool)) (ops : List Op)
    (a : Shown D) (l : List (Shown D)) (h : summary num2date (run num2date (create num2date data coords) ops) = .ok (a, l)) :
    Spec.Shows num2date (create num2date data coords).data.values (create num2date data coords).data.time a := by
  have ha := summary_data num2date _ a l h
  rw [run_data_range, create_data] at ha
  by_cases hv : (create num2date data coords).data.values = []
  · simp [updateRange, hv, shown] at ha
  · obtain ⟨s, hs, hsh⟩ := shown_update num2date ⟨(create num2date data coords).data.values, (create num2date data coords).data.time, .absent⟩ hv
    rw [hs] at ha
    cases ha
    exact hsh

/-- **C137**, data: if the values of the data were not changed in place the summary shows their range. -/
theorem c137_data_partial {D : Type} (num2date : ℚ → D) (data : List (Option ℚ) × Bool) (coords : List (List (Option ℚ) × Bool)) (ops : List Op)
    (hk : Spec.DataKept ops) (a : Shown D) (l : List (Shown D))
    (h : summary num2date (run num2date (create num2date data coords) ops) = .ok (a, l)) :
    Spec.Shows num2date (run num2date (create num2date data coords) ops).data.values (run num2date (create num2date data coords) ops).data.time a := by
  have := c137_first num2date data coords ops a l h
  rw [run_data num2date _ ops hk]
  exact this

/-- **C137**, times: for an increasing `num2date` the dates shown are the earliest and the latest. -/
theorem c137_dates {D : Type} [LinearOrder D] (num2date : ℚ → D) (hm : StrictMono num2date) (values : List (Option ℚ)) (lo hi : D)
    (h : Spec.Shows num2date values true (.dates (some lo) (some hi))) :
    (∃ x, some x ∈ values ∧ num2date x = lo) ∧ (∃ x, some x ∈ values ∧ num2date x = hi) ∧
      ∀ x, some x ∈ values → lo ≤ num2date x ∧ num2date x ≤ hi := by
  obtain ⟨a, b, h1, h2, h3⟩ := h
  simp only [if_true, Shown.dates.injEq] at h3
  obtain ⟨e1, e2⟩ := h3
  cases a with
  | none => simp at e1
  | some a =>
    cases b with
    | none => simp at e2
    | some b =>
      simp only [Option.map_some, Option.some.injEq] at e1 e2
      obtain ⟨m1, l1⟩ := (h1 a).1 rfl
      obtain ⟨m2, l2⟩ := (h2 b).1 rfl
      exact ⟨⟨a, m1, e1.symm⟩, ⟨b, m2, e2.symm⟩, fun x hx => ⟨e1 ▸ hm.monotone (l1 x hx), e2 ▸ hm.monotone (l2 x hx)⟩⟩

/-- **C137** is violated by a change of the data in place: after heights of 1000 m and 2000 m have been made kilometres, the summary still shows 1000
and 2000 as their range. -/
theorem c137_violated : ∃ l, summary (fun x : ℚ => x)
      (run (fun x => x) (create (fun x => x) ([some 1000, some 2000], false) [([some 1, some 2], false)])
        [.changeData (List.map (Option.map (· / 1000))) false]) = .ok (.numbers (some 1000) (some 2000), l) ∧
    (run (fun x : ℚ => x) (create (fun x => x) ([some 1000, some 2000], false) [([some 1, some 2], false)])
        [.changeData (List.map (Option.map (· / 1000))) false]).data.values = [some 1, some 2] ∧
    ¬ Spec.Shows (fun x : ℚ => x) [some 1, some 2] false (.numbers (some 1000) (some 2000)) := by
  refine ⟨[.numbers (some 1) (some 2)], rfl, by decide +kernel, ?_⟩
  rintro ⟨lo, hi, h1, -, h3⟩
  simp only [Bool.false_eq_true, if_false, Shown.numbers.injEq] at h3
  have := ((h1 1000).1 h3.1.symm).1
  revert this
  decide +kernel

/-- The hypotheses of the theorems are met: data of three points, one without a coordinate, whose longitudes are put into another range. -/
example : (create (fun x : ℚ => x) ([some 5, none, some 7], false) [([some 350, some 10, none], false), ([some 1, some 2, some 3], true)]).data.values
      = [some 5, none] ∧
    Spec.DataKept [.changeCoord 0 (List.map (Option.map (fun x => if x ≥ 180 then x - 360 else x))) false, .show] ∧
    ∃ a l, summary (fun x : ℚ => x)
      (run (fun x => x) (create (fun x : ℚ => x) ([some 5, none, some 7], false) [([some 350, some 10, none], false), ([some 1, some 2, some 3], true)])
        [.changeCoord 0 (List.map (Option.map (fun x => if x ≥ 180 then x - 360 else x))) false, .show]) = .ok (a, l) ∧
      l = [.numbers (some (-10)) (some 10), .dates (some 1) (some 2)] := by
  refine ⟨by decide +kernel, ?_, .numbers (some 5) (some 5), _, ?_, rfl⟩
  · intro op hop f t
    simp only [List.mem_cons, List.not_mem_nil, or_false] at hop
    rcases hop with rfl | rfl <;> simp
  · decide +kernel

end Cis.Meta.Ranges
