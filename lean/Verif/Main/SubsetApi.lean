import Verif.Main.SubsetCommand
set_option linter.unusedSectionVars false
set_option linter.unusedSimpArgs false

/-!
# `data.subset(…)` from Python

The method as a Python program calls it, for one ungridded variable: keyword arguments that are slices, pairs, partial dates or lists with one
partial date. `UngriddedData.subset` (ungridded_data.py:755-779) and `CommonData.subset` (common_data.py:113-136) document it.
Shapes are left out (C36, C140). The arguments of one call are a list of name and argument, in the order of the call.
-/
namespace Cis.SubsetApi
open Cis.Str Cis.Time Cis.SubsetCmd

variable {V : Type}

/-- An entry of a sequence, or an end of a slice. -/
inductive Item
  | none
  | num (f : Limits.Fl)
  | date (t : DateTime)
  | period (p : Partial)  -- a `PartialDateTime`

/-- A keyword argument: a slice, a `PartialDateTime`, a sequence, or something without a length. -/
inductive Arg
  | slice (a b : Item)
  | period (p : Partial)
  | seq (l : List Item)
  | scalar

/-- What stops the call before the data are looked at, or after. -/
inductive Err
  | value            -- ValueError: a sequence of another length, or a period that has no end
  | type             -- TypeError: no length, or a `PartialDateTime` compared with numbers
  | notFound         -- CoordinateNotFoundError
  | run (e : SubsetCmd.Err)

/-- An end as the comparison takes it. A `PartialDateTime` as one of two ends is compared with the numbers of the coordinate, a TypeError
(subset.py:203-209); it is reported here at once. -/
def endOf : Item → Except Err (Limits.Val DateTime)
  | .none => .ok .none
  | .num f => .ok (.num f)
  | .date t => .ok (.date t)
  | .period _ => .error .type

/-- Two ends. -/
def endsOf (a b : Item) : Except Err (Limits.Val DateTime × Limits.Val DateTime) :=
  match endOf a, endOf b with
  | .ok x, .ok y => .ok (x, y)
  | .error e, _ => .error e
  | _, .error e => .error e

/-- `slice(limit.min(), limit.max())` (subset.py:52-55). -/
def periodOf (p : Partial) : Except Err (Limits.Val DateTime × Limits.Val DateTime) :=
  match p.range with
  | .ok (lo, hi) => .ok (.date lo, .date hi)
  | .error _ => .error .value

/-- The limits an argument stands for (subset.py:50-59). -/
def limitOf : Arg → Except Err (Limits.Val DateTime × Limits.Val DateTime)
  | .slice a b => endsOf a b
  | .period p => periodOf p
  | .seq [.period p] => periodOf p
  | .seq [a, b] => endsOf a b
  | .seq _ => .error .value
  | .scalar => .error .type

/-- The loop over the keyword arguments up to the limits (subset.py:29-59): the coordinate is looked for first. -/
def limits (cs : List Crd) : List (Str × Arg) → Except Err (List (Str × Limits.Lim DateTime))
  | [] => .ok []
  | (dim, a) :: t =>
    match Coords.lookupCoord standardAxes cs (String.ofList dim) with
    | none => .error .notFound
    | some _ =>
      match limitOf a with
      | .error e => .error e
      | .ok (x, y) =>
        match limits cs t with
        | .error e => .error e
        | .ok l => .ok ((dim, .pair x y) :: l)

/-- `UngriddedData.subset` (ungridded_data.py:778-779, subset.py:12-72). -/
def subset (d : Data V) (args : List (Str × Arg)) : Except Err (Data V) :=
  match limits d.coords args with
  | .error e => .error e
  | .ok l =>
    match call d l with
    | .error e => .error (.run e)
    | .ok r => .ok r

/-! ### Specification -/

/-- What an argument says of a number `x` of the coordinate: it is between two numbers (one of which, or both, may be `None`), it stands for an
instant between two instants, or for one in the period. -/
def Spec.Within (c : Column) : Arg → ℚ → Prop
  | .slice (.date s) (.date t), x | .seq [.date s, .date t], x =>
    ∃ f, c.dates = some f ∧ Time.Spec.instant s ≤ Time.Spec.instant (f x) ∧ Time.Spec.instant (f x) ≤ Time.Spec.instant t
  | .period p, x | .seq [.period p], x => ∃ f, c.dates = some f ∧ Time.Spec.Matches p (f x)
  | .slice a b, x | .seq [a, b], x => (∀ q, a = .num (.fin q) → q ≤ x) ∧ (∀ q, b = .num (.fin q) → x ≤ q)
  | _, _ => False

/-- An end that is a finite number or `None`. -/
def Spec.Number (a : Item) : Prop := a = .none ∨ ∃ q, a = .num (.fin q)

/-- An argument of one of the documented forms, for a coordinate: with two ends, given as a slice or as a sequence, that are numbers or `None`
(for longitudes: numbers), or dates; or a period. Dates need a coordinate that has dates, periods whole seconds. -/
def Spec.Proper (c : Crd) (a : Arg) : Prop :=
  (∃ s t, (a = .slice s t ∨ a = .seq [s, t]) ∧
    ((Spec.Number s ∧ Spec.Number t ∧ (c.stdName = some "longitude" → s ≠ .none ∧ t ≠ .none)) ∨
      (∃ s' t', s = .date s' ∧ t = .date t' ∧ Time.Spec.Real s' ∧ Time.Spec.Real t' ∧ c.stdName ≠ some "longitude" ∧
        ∃ f, c.payload.dates = some f ∧ ∀ x ∈ c.payload.points, Time.Spec.Real (f x)))) ∨
  (∃ p, (a = .period p ∨ a = .seq [.period p]) ∧ newPartial p = .ok p ∧
    ¬ (p.year = some 9999 ∧ p.day = none ∧ (p.month = none ∨ p.month = some 12)) ∧ c.stdName ≠ some "longitude" ∧
      ∃ f, c.payload.dates = some f ∧ ∀ x ∈ c.payload.points, Time.Spec.Real (f x) ∧ (f x).microsecond = 0)

/-- A keyword argument with the coordinate it is for. -/
structure Spec.Asked where
  dim : Str
  arg : Arg
  coord : Crd

/-! ### Proofs -/

/-- The range of an argument of two ends. -/
def numOf : Item → Option ℚ
  | .num (.fin q) => some q
  | _ => none

/-- A proper argument is understood as a range. -/
theorem proper_range (c : Crd) (a : Arg) (h : Spec.Proper c a) : ∃ (r : SubsetCmd.Spec.Range) (x y : Limits.Val DateTime),
    limitOf a = .ok (x, y) ∧ Fits r x y ∧
    (c.stdName = some "longitude" → ∃ lo hi, r = .num (some lo) (some hi) ∧
      (a = .slice (.num (.fin lo)) (.num (.fin hi)) ∨ a = .seq [.num (.fin lo), .num (.fin hi)])) ∧
    (∀ lo hi, r = .time lo hi → ∃ f, c.payload.dates = some f ∧ ∀ x ∈ c.payload.points, Time.Spec.Real (f x)) ∧
    ∀ v, (v ∈ c.payload.points ∨ ∃ lo hi, r = .num lo hi) → (SubsetCmd.Spec.In c.payload r v ↔ Spec.Within c.payload a v) := by
  rcases h with ⟨s, t, hst, h⟩ | ⟨p, hp, hnew, h9, hlon, f, hf, hx⟩
  · rcases h with ⟨hs, ht, hl⟩ | ⟨s', t', rfl, rfl, hs, ht, hl, f, hf, hx⟩
    · refine ⟨.num (numOf s) (numOf t), ?_⟩
      rcases hs with rfl | ⟨q, rfl⟩ <;> rcases ht with rfl | ⟨q', rfl⟩ <;> rcases hst with rfl | rfl <;>
        refine ⟨_, _, rfl, ?_, ?_, ?_, ?_⟩ <;>
        first
        | (intro v _; simp [SubsetCmd.Spec.In, Spec.Within, numOf]; done)
        | (simp [Fits, numOf]; done)
        | (intro hc; have := hl hc; simp [numOf] at this ⊢; done)
        | (intro lo hi hh; cases hh)
        | skip
    · refine ⟨.time s' t', ?_⟩
      rcases hst with rfl | rfl <;>
        refine ⟨_, _, rfl, ⟨rfl, rfl, hs, ht⟩, fun hc => absurd hc hl, fun _ _ _ => ⟨f, hf, hx⟩, fun v _ => ?_⟩ <;>
        simp [SubsetCmd.Spec.In, Spec.Within]
  · obtain ⟨lo, hi, hr⟩ := c24_range_defined p hnew h9
    obtain ⟨⟨h1, -⟩, ⟨h2, -⟩, -, h3⟩ := c24_range p hnew lo hi hr
    refine ⟨.time lo hi, .date lo, .date hi, ?_, ⟨rfl, rfl, h1, h2⟩, fun hc => absurd hc hlon, fun _ _ _ => ⟨f, hf, fun x h => (hx x h).1⟩, ?_⟩
    · rcases hp with rfl | rfl <;> simp [limitOf, periodOf, hr]
    · intro v hv
      have hv : v ∈ c.payload.points := by
        rcases hv with hv | ⟨_, _, h⟩
        · exact hv
        · cases h
      have : Spec.Within c.payload a v ↔ ∃ f, c.payload.dates = some f ∧ Time.Spec.Matches p (f v) := by
        rcases hp with rfl | rfl <;> simp [Spec.Within]
      rw [this]
      constructor
      · rintro ⟨g, hg, h4, h5⟩
        rw [hf] at hg; cases hg
        exact ⟨f, hf, c24_between p hnew lo hi hr (f v) (hx v hv).1 h4 h5⟩
      · rintro ⟨g, hg, hm⟩
        rw [hf] at hg; cases hg
        exact ⟨f, hf, h3 (f v) (hx v hv).1 (hx v hv).2 hm⟩

theorem limits_ok (cs : List Crd) : ∀ (L : List Read) (args : List (Str × Arg)),
    List.Forall₂ (fun r x => x.1 = r.1.dim ∧ limitOf x.2 = .ok (r.2.1, r.2.2) ∧
      Coords.lookupCoord standardAxes cs (String.ofList r.1.dim) = some r.1.coord) L args →
    limits cs args = .ok (L.map (fun r => (r.1.dim, .pair r.2.1 r.2.2)))
  | _, _, .nil => rfl
  | _, _, .cons (b := x) h t => by
    obtain ⟨dim, arg⟩ := x
    obtain ⟨rfl, h2, h3⟩ := h
    rw [limits, h3]
    dsimp only at h2 ⊢
    rw [h2, limits_ok cs _ _ t]
    rfl

open Classical in
/-- **C206.** A call `data.subset(name=…, …)` with any number of keyword arguments, for different coordinates, of the documented forms (slice or
pair of numbers or `None`, slice or pair of dates, a period alone or in a list; for longitudes two numbers): the result has exactly the points of
which all the arguments are true, in order, with all coordinates and the values at the same positions; without any such point there is no result.
Only longitudes that are limited are moved, by whole turns, as in C37. -/
theorem c206_subset (d : Data V) (hwf : d.WF) (asked : List Spec.Asked)
    (hfind : ∀ a ∈ asked, Coords.lookupCoord standardAxes d.coords (String.ofList a.dim) = some a.coord)
    (hdiff : (asked.map (fun a => key a.coord)).Nodup) (hprop : ∀ a ∈ asked, Spec.Proper a.coord a.arg) :
    ∃ shift : Nat → ℚ → ℚ, (∀ j x, Lon.Spec.Same (shift j x) x) ∧
      (∀ a ∈ asked, a.coord.stdName = some "longitude" → ∀ lo hi,
        (a.arg = .slice (.num (.fin lo)) (.num (.fin hi)) ∨ a.arg = .seq [.num (.fin lo), .num (.fin hi)]) →
          shift a.coord.payload.id = Subset.convertFun a.coord.payload.points lo hi) ∧
      (∀ c ∈ d.coords, c.stdName ≠ some "longitude" ∨ c ∉ asked.map Spec.Asked.coord → shift c.payload.id = id) ∧
      let keep := (List.range d.values.length).filter (fun i => decide (∀ a ∈ asked,
        Spec.Within a.coord.payload a.arg (shift a.coord.payload.id (a.coord.payload.points.getD i 0))))
      subset d (asked.map (fun a => (a.dim, a.arg))) =
        if keep = [] then .error (.run .noData)
        else .ok ⟨d.coords.map (fun c => setPoints c (keep.filterMap (fun i => (c.payload.points[i]?).map (shift c.payload.id)))),
          keep.filterMap (fun i => d.values[i]?)⟩ := by
  -- the ranges
  haveI : Nonempty SubsetCmd.Spec.Range := ⟨.num none none⟩
  haveI : Nonempty (Limits.Val DateTime) := ⟨.none⟩
  choose! R X Y hR using fun (a : Spec.Asked) (h : Spec.Proper a.coord a.arg) => proper_range a.coord a.arg h
  let old : Spec.Asked → SubsetCmd.Spec.Asked := fun a => ⟨a.dim, [], none, a.coord, R a⟩
  let L : List Read := asked.map (fun a => (old a, X a, Y a))
  have hL1 : L.map Prod.fst = asked.map old := by simp only [L, List.map_map]; rfl
  obtain ⟨shift, h1, h2, h3, h4⟩ := call_ok d hwf (asked.map old) L hL1
    (by
      intro r hr
      obtain ⟨a, ha, rfl⟩ := List.mem_map.1 hr
      exact (hR a (hprop a ha)).2.1)
    (by
      intro b hb
      obtain ⟨a, ha, rfl⟩ := List.mem_map.1 hb
      exact hfind a ha)
    (by rw [List.map_map]; exact hdiff)
    (by
      intro b hb hl
      obtain ⟨a, ha, rfl⟩ := List.mem_map.1 hb
      obtain ⟨lo, hi, h, -⟩ := (hR a (hprop a ha)).2.2.1 hl
      exact ⟨lo, hi, h⟩)
    (by
      intro b hb lo hi hr
      obtain ⟨a, ha, rfl⟩ := List.mem_map.1 hb
      exact (hR a (hprop a ha)).2.2.2.1 lo hi hr)
  have hcoords : (asked.map old).map SubsetCmd.Spec.Asked.coord = asked.map Spec.Asked.coord := by rw [List.map_map]; rfl
  rw [hcoords] at h3
  refine ⟨shift, h1, ?_, h3, ?_⟩
  · intro a ha hl lo hi harg
    obtain ⟨lo', hi', hr, harg'⟩ := (hR a (hprop a ha)).2.2.1 hl
    have : lo = lo' ∧ hi = hi' := by
      rcases harg with h | h <;> rcases harg' with h' | h' <;> rw [h] at h' <;> cases h' <;> exact ⟨rfl, rfl⟩
    obtain ⟨rfl, rfl⟩ := this
    exact h2 (old a) (List.mem_map.2 ⟨a, ha, rfl⟩) hl lo hi hr
  · have hmem : ∀ a ∈ asked, a.coord ∈ d.coords := fun a ha => lookup_mem _ _ _ _ (hfind a ha)
    have hlim : limits d.coords (asked.map (fun a => (a.dim, a.arg))) = .ok (L.map (fun r => (r.1.dim, .pair r.2.1 r.2.2))) := by
      apply limits_ok
      simp only [L]
      rw [List.forall₂_map_left_iff, List.forall₂_map_right_iff, List.forall₂_same]
      intro a ha
      exact ⟨rfl, (hR a (hprop a ha)).1, hfind a ha⟩
    have hkeep : (List.range d.values.length).filter (fun i => decide (∀ a ∈ asked.map old,
          SubsetCmd.Spec.In a.coord.payload a.range (shift a.coord.payload.id (a.coord.payload.points.getD i 0)))) =
        (List.range d.values.length).filter (fun i => decide (∀ a ∈ asked,
          Spec.Within a.coord.payload a.arg (shift a.coord.payload.id (a.coord.payload.points.getD i 0)))) := by
      apply List.filter_congr
      intro i hi
      have hi : i < d.values.length := by simpa using hi
      rw [decide_eq_decide, List.forall_mem_map]
      apply forall₂_congr
      intro a ha
      apply (hR a (hprop a ha)).2.2.2.2
      by_cases hl : a.coord.stdName = some "longitude"
      · obtain ⟨lo, hi, h, -⟩ := (hR a (hprop a ha)).2.2.1 hl
        exact .inr ⟨_, _, h⟩
      · left
        rw [h3 a.coord (hmem a ha) (.inl hl), id]
        have : i < a.coord.payload.points.length := by rw [hwf.1 _ (hmem a ha)]; exact hi
        rw [List.getD_eq_getElem?_getD, List.getElem?_eq_getElem this, Option.getD_some]
        exact List.getElem_mem this
    intro keep
    have hkeep' : (List.range d.values.length).filter (fun i => decide (∀ a ∈ asked.map old,
          SubsetCmd.Spec.In a.coord.payload a.range (shift a.coord.payload.id (a.coord.payload.points.getD i 0)))) = keep := hkeep
    rw [subset, hlim]
    dsimp only
    dsimp only at h4
    rw [h4, hkeep']
    by_cases hk : keep = []
    · rw [if_pos hk, if_pos hk]
    · rw [if_neg hk, if_neg hk]

/-- C206: a name that finds no coordinate is reported, if the arguments before it are of the documented forms. -/
theorem c206_unknown (d : Data V) (before after : List (Str × Arg)) (dim : Str) (a : Arg)
    (hb : ∀ x ∈ before, ∃ c, Coords.lookupCoord standardAxes d.coords (String.ofList x.1) = some c ∧ Spec.Proper c x.2)
    (h : Coords.lookupCoord standardAxes d.coords (String.ofList dim) = none) :
    subset d (before ++ (dim, a) :: after) = .error .notFound := by
  suffices hs : limits d.coords (before ++ (dim, a) :: after) = .error .notFound by rw [subset, hs]
  induction before with
  | nil => simp [limits, h]
  | cons x t ih =>
    obtain ⟨n, y⟩ := x
    obtain ⟨c, hc, hp⟩ := hb (n, y) (by simp)
    obtain ⟨r, v, w, hl, -⟩ := proper_range c y hp
    rw [List.cons_append, limits, hc]
    dsimp only
    rw [hl]
    dsimp only
    rw [ih (fun x hx => hb x (by simp [hx]))]

/-- C206: a sequence that has not two entries, nor is one period, is refused, and so is a number alone; nothing is read from it. A period as one of
two ends is refused, too: it does not leave that side open. -/
theorem c206_refused (d : Data V) (before after : List (Str × Arg)) (dim : Str) (c : Crd)
    (hb : ∀ x ∈ before, ∃ c, Coords.lookupCoord standardAxes d.coords (String.ofList x.1) = some c ∧ Spec.Proper c x.2)
    (hc : Coords.lookupCoord standardAxes d.coords (String.ofList dim) = some c) :
    (∀ l : List Item, l.length ≠ 2 → (∀ p, l ≠ [.period p]) → subset d (before ++ (dim, .seq l) :: after) = .error .value) ∧
    subset d (before ++ (dim, .scalar) :: after) = .error .type ∧
    ∀ (s t : Item) (p : Partial), s = .period p ∨ t = .period p →
      subset d (before ++ (dim, .slice s t) :: after) = .error .type ∧ subset d (before ++ (dim, .seq [s, t]) :: after) = .error .type := by
  have hgen : ∀ (a : Arg) (e : Err), limitOf a = .error e → subset d (before ++ (dim, a) :: after) = .error e := by
    intro a e ha
    suffices hs : limits d.coords (before ++ (dim, a) :: after) = .error e by rw [subset, hs]
    induction before with
    | nil =>
      rw [List.nil_append, limits, hc]
      dsimp only
      rw [ha]
    | cons x t ih =>
      obtain ⟨n, y⟩ := x
      obtain ⟨c', hc', hp'⟩ := hb (n, y) (by simp)
      obtain ⟨r, v, w, hl', -⟩ := proper_range c' y hp'
      rw [List.cons_append, limits, hc']
      dsimp only
      rw [hl']
      dsimp only
      rw [ih (fun x hx => hb x (by simp [hx]))]
  refine ⟨fun l hl hp => hgen _ _ ?_, hgen _ _ rfl, fun s t p h => ?_⟩
  · match l, hl, hp with
    | [], _, _ => rfl
    | [.period p], _, hp => exact absurd rfl (hp p)
    | [.none], _, _ => rfl
    | [.num _], _, _ => rfl
    | [.date _], _, _ => rfl
    | [_, _], hl, _ => exact absurd rfl hl
    | a :: _ :: _ :: _, _, _ => cases a <;> rfl
  · have he : endsOf s t = .error .type := by
      rcases h with rfl | rfl
      · cases t <;> rfl
      · cases s <;> rfl
    refine ⟨hgen _ _ he, hgen _ _ ?_⟩
    have : limitOf (.seq [s, t]) = endsOf s t := by cases s <;> rfl
    rw [this, he]

/-- C206: the command and the method agree: what `cis subset` reads from its argument is passed to the method as pairs. -/
theorem c206_command (e : Env) (d : Data V) (text : Str) (l : List (Str × Limits.Lim DateTime)) (args : List (Str × Arg))
    (hl : Limits.subsetLimits (conv e) text = .ok l)
    (hargs : List.Forall₂ (fun (x : Str × Limits.Lim DateTime) (y : Str × Arg) => y.1 = x.1 ∧ ∃ a b, x.2 = .pair a b ∧ limitOf y.2 = .ok (a, b)) l args)
    (hfind : ∀ x ∈ l, Coords.lookupCoord standardAxes d.coords (String.ofList x.1) ≠ none) (r : Data V) :
    subset d args = .ok r ↔ run e d text = .ok r := by
  have hlim : limits d.coords args = .ok l := by
    clear hl
    induction hargs with
    | nil => rfl
    | @cons x y l args h t ih =>
      obtain ⟨dim, lim⟩ := x
      obtain ⟨dim', arg⟩ := y
      obtain ⟨rfl, a, b, h1, h2⟩ := h
      dsimp only at h1 h2
      subst h1
      cases hc : Coords.lookupCoord standardAxes d.coords (String.ofList dim') with
      | none => exact absurd hc (hfind (dim', .pair a b) (by simp))
      | some c =>
        rw [limits, hc]
        dsimp only
        rw [h2]
        dsimp only
        rw [ih (fun x hx => hfind x (by simp [hx]))]
  rw [subset, hlim, run, hl]
  dsimp only
  cases call d l with
  | error x => simp
  | ok y => simp

/-! ### C207: the examples of the documentation -/

/-- August 1984: three times, as numbers and as dates. -/
def exDates (x : ℚ) : DateTime :=
  if x ≤ 28 then ⟨1984, 8, 28, 6, 0, 0, 0⟩ else if x ≤ 29 then ⟨1984, 8, 29, 0, 0, 0, 0⟩ else if x ≤ 30 then ⟨1984, 8, 29, 12, 0, 0, 0⟩
  else ⟨1984, 9, 3, 0, 0, 0, 0⟩

def exTime : Crd := ⟨some "time", none, some "time", "T", [], ⟨2, [28, 29, 30, 31], some exDates⟩⟩
def exAlt : Crd := ⟨some "altitude", none, some "alt", "Z", [], ⟨3, [50, 60, 70, 80], none⟩⟩

def exData : Data Nat := ⟨[exTime, exAlt], [1, 2, 3, 4]⟩

/-- The values a call keeps. -/
def kept (d : Data Nat) (args : List (String × Arg)) : Option (List Nat) :=
  match subset d (args.map (fun x => (x.1.toList, x.2))) with
  | .ok r => some r.values
  | .error _ => none

/-- C207 violated: `time=[datetime(1984, 8, 28), datetime(1984, 8, 29)]` is documented as "from the start of the 28th of August 1984, to the end
of the 29th", but the point at noon of the 29th is dropped. -/
theorem c207_end_of_day_violated :
    kept exData [("time", .seq [.date ⟨1984, 8, 28, 0, 0, 0, 0⟩, .date ⟨1984, 8, 29, 0, 0, 0, 0⟩]), ("altitude", .seq [.num (.fin 45), .num (.fin 75)])] =
      some [1, 2] ∧ exDates 30 = ⟨1984, 8, 29, 12, 0, 0, 0⟩ := by
  decide +kernel

/-- C207 violated, for every pair of dates: nothing after the instant of the second is kept, though it be of the same day. -/
theorem c207_second_date_violated (d : Data V) (hwf : d.WF) (dim : Str) (c : Crd) (f : ℚ → DateTime)
    (hc : Coords.lookupCoord standardAxes d.coords (String.ofList dim) = some c) (hl : c.stdName ≠ some "longitude")
    (hf : c.payload.dates = some f) (hreal : ∀ x ∈ c.payload.points, Time.Spec.Real (f x)) (s t : DateTime) (hs : Time.Spec.Real s)
    (ht : Time.Spec.Real t) (r : Data V) (h : subset d [(dim, .seq [.date s, .date t])] = .ok r) :
    ∀ c' ∈ r.coords, c'.payload.id = c.payload.id → ∀ x ∈ c'.payload.points, ¬ Time.Spec.instant t < Time.Spec.instant (f x) := by
  classical
  obtain ⟨shift, -, -, h3, h4⟩ := c206_subset d hwf [⟨dim, .seq [.date s, .date t], c⟩] (by simpa using hc) (by simp)
    (by
      intro a ha
      obtain rfl := List.mem_singleton.1 ha
      exact .inl ⟨_, _, .inr rfl, .inr ⟨s, t, rfl, rfl, hs, ht, hl, f, hf, hreal⟩⟩)
  have hmem : c ∈ d.coords := lookup_mem _ _ _ _ hc
  have hid : shift c.payload.id = id := h3 c hmem (.inl hl)
  dsimp only [List.map] at h4
  rw [h] at h4
  split at h4
  · cases h4
  · simp only [Except.ok.injEq] at h4
    subst h4
    intro c' hc' he x hx
    obtain ⟨c0, hc0, rfl⟩ := List.mem_map.1 hc'
    have : c0 = c := List.inj_on_of_nodup_map hwf.2.1 hc0 hmem he
    subst this
    obtain ⟨i, hi, hix⟩ := List.mem_filterMap.1 hx
    have hi2 := (List.mem_filter.1 hi).2
    rw [decide_eq_true_eq] at hi2
    have hw := hi2 _ (List.mem_singleton.2 rfl)
    rw [hid] at hix hw
    obtain ⟨v, hv, rfl⟩ := Option.map_eq_some_iff.1 hix
    dsimp only [id] at hw ⊢
    rw [List.getD_eq_getElem?_getD, hv, Option.getD_some] at hw
    obtain ⟨g, hg, -, h2⟩ := hw
    rw [hf] at hg; cases hg
    omega

/-- C207: the second example, `time=[PartialDateTime(1984, 9)]`, is all of September, and `None` is the open end of a range of numbers. -/
theorem c207_examples : kept exData [("time", .seq [.period ⟨some 1984, some 9, none, none, none, none⟩])] = some [4] ∧
    kept exData [("t", .period ⟨some 1984, some 8, none, none, none, none⟩)] = some [1, 2, 3] ∧
    kept exData [("z", .seq [.num (.fin 60), .none])] = some [2, 3, 4] ∧ kept exData [("alt", .slice .none (.num (.fin 60)))] = some [1, 2] := by
  decide +kernel

/-- C207 violated: "one of these can be None", but not if the other is a date: for every variable, coordinate and date that is an error. -/
theorem c207_open_date_violated (d : Data V) (dim : Str) (t : DateTime) (a : Arg)
    (ha : a ∈ [.seq [.date t, .none], .seq [.none, .date t], .slice (.date t) .none, .slice .none (.date t)]) :
    ∃ e, subset d [(dim, a)] = .error e := by
  cases h : subset d [(dim, a)] with
  | error e => exact ⟨e, rfl⟩
  | ok r =>
    exfalso
    rw [subset, limits] at h
    cases hc : Coords.lookupCoord standardAxes d.coords (String.ofList dim) with
    | none => rw [hc] at h; cases h
    | some c =>
      rw [hc] at h
      have key : ∀ x y : Limits.Val DateTime, (x = .date t ∧ y = .none ∨ x = .none ∧ y = .date t) → limitOf a = .ok (x, y) → False := by
        intro x y hxy hl
        dsimp only at h
        rw [hl] at h
        dsimp only [limits] at h
        have hcall : ∃ e, call d [(dim, .pair x y)] = .error e := by
          rw [call, keywords, hc]
          dsimp only [keywords]
          simp only [Limits.dictSet, List.any_nil, Bool.false_eq_true, if_false, List.nil_append]
          cases hcv : convert [(key c, fillStart c.payload x, fillStop c.payload y)] d.coords with
          | error e => exact ⟨e, rfl⟩
          | ok cs =>
            dsimp only
            rw [masks]
            cases hg : Coords.getCoord cs { sel := .byName (String.ofList (key c)) } with
            | error e => exact ⟨.notFound, rfl⟩
            | ok c' =>
              dsimp only
              have : limitMask c'.payload (fillStart c.payload x) (fillStop c.payload y) = .error .type := by
                rcases hxy with ⟨rfl, rfl⟩ | ⟨rfl, rfl⟩ <;> rfl
              rw [this]
              exact ⟨.type, rfl⟩
        obtain ⟨e, he⟩ := hcall
        rw [he] at h
        cases h
      simp only [List.mem_cons, List.not_mem_nil, or_false] at ha
      rcases ha with rfl | rfl | rfl | rfl
      · exact key _ _ (.inl ⟨rfl, rfl⟩) rfl
      · exact key _ _ (.inr ⟨rfl, rfl⟩) rfl
      · exact key _ _ (.inl ⟨rfl, rfl⟩) rfl
      · exact key _ _ (.inr ⟨rfl, rfl⟩) rfl

/-! ### Examples -/

/-- The hypotheses of `c206_subset` hold for `time=PartialDateTime(1984, 8), z=slice(None, 65)` on the example. -/
example : exData.WF ∧ ∀ a ∈ ([⟨"time".toList, .period ⟨some 1984, some 8, none, none, none, none⟩, exTime⟩,
      ⟨"z".toList, .slice .none (.num (.fin 65)), exAlt⟩] : List Spec.Asked),
    Coords.lookupCoord standardAxes exData.coords (String.ofList a.dim) = some a.coord ∧ Spec.Proper a.coord a.arg := by
  refine ⟨⟨?_, by decide, by decide +kernel⟩, ?_⟩
  · intro c hc
    simp only [exData, List.mem_cons, List.not_mem_nil, or_false] at hc
    rcases hc with rfl | rfl <;> rfl
  · intro a ha
    simp only [List.mem_cons, List.not_mem_nil, or_false] at ha
    rcases ha with rfl | rfl
    · refine ⟨by with_unfolding_all rfl, .inr ⟨_, .inl rfl, by decide +kernel, by decide, by decide, exDates, rfl, ?_⟩⟩
      intro x _
      unfold exDates
      split
      · unfold Time.Spec.Real; decide
      · split
        · unfold Time.Spec.Real; decide
        · split <;> (unfold Time.Spec.Real; decide)
    · exact ⟨by with_unfolding_all rfl, .inl ⟨_, _, .inl rfl, .inl ⟨.inl rfl, .inr ⟨65, rfl⟩, fun h => absurd h (by decide)⟩⟩⟩

example : Coords.lookupCoord standardAxes exData.coords "pressure" = none := by with_unfolding_all rfl

end Cis.SubsetApi
