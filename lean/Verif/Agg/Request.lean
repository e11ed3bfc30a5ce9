import Verif.Agg.Props
import Verif.Hyper.Props
set_option linter.unusedSectionVars false
set_option linter.unusedSimpArgs false
/-!
Model of `aggregate(how, **kwargs)` of ungridded data: `_aggregate_ungridded` (cis/data_io/ungridded_data.py:1258-1317),
`UngriddedAggregator` (cis/aggregation/ungridded_aggregator.py:7-140) and the longitude range used for it
(cis/collocation/col_implementations.py:1098-1120, cis/data_io/hyperpoint_view.py:151-165). Property C106.

The binning itself is `Cis.Agg.aggregate` (C40). Contract: `_get_coord` finds a coordinate or None (`lookup`, C66); dates are instants in
seconds and the units of a coordinate turn them into numbers; the coordinates are standard ones (others are dropped, C63), at most one of
them a longitude, none of their points missing. `iris` makes no coordinate without points (ValueError).
-/
namespace Cis.AggApi
open Cis.Agg

abbrev Text := List Char

/-- What may stand in a grid: None, a number, a date, a partial date (its first and last instant) or a timedelta in seconds. -/
inductive Item
  | none
  | num (q : ℚ)
  | date (t : ℚ)
  | period (lo hi : ℚ)
  | delta (seconds : ℚ)
deriving DecidableEq

/-- The value of a keyword: a slice, or a list or tuple. -/
inductive GridArg
  | slice (start stop step : Item)
  | items (l : List Item)

inductive Err
  | value
  | attribute
  | type
  | zeroDivision
  | notFound
  | index
deriving DecidableEq

/-- A coordinate of the data: its name, whether it is the longitude, its points, and its units. -/
structure Coord where
  name : Text
  isLon : Bool
  pts : List ℚ
  date2num : ℚ → ℚ

/-- The slice made of a grid (ungridded_data.py:1277-1284). -/
def asSlice : GridArg → Except Err (Item × Item × Item)
  | .slice a b s => .ok (a, b, s)
  | .items [.period lo hi, s] => .ok (.date lo, .date hi, s)
  | .items [a, b, s] => .ok (a, b, s)
  | .items _ => .error .value

/-- A limit (ungridded_data.py:1286-1293): `dflt` is the minimum or maximum of the points, a ValueError if there are none. What is neither
a number nor a date fails when the grid is made (TypeError); of several errors the first is not always the one given here. -/
def limit (c : Coord) (dflt : Option ℚ) : Item → Except Err ℚ
  | .none => match dflt with
    | some m => .ok m
    | none => .error .value
  | .num q => .ok q
  | .date t => .ok (c.date2num t)
  | .period _ _ => .error .type
  | .delta _ => .error .type

/-- The step (ungridded_data.py:1295-1302). -/
def gridStep : Item → Except Err ℚ
  | .none => .error .value
  | .num q => .ok q
  | .delta s => .ok (s / (24 * 60 * 60))
  | .date _ => .error .type
  | .period _ _ => .error .type

/-- The grid of a coordinate (ungridded_data.py:1277-1304). -/
def gridOf (c : Coord) (g : GridArg) : Except Err (ℚ × ℚ × ℚ) :=
  match asSlice g with
  | .error e => .error e
  | .ok (a, b, st) => match limit c c.pts.min? a with
    | .error e => .error e
    | .ok s => match limit c c.pts.max? b with
      | .error e => .error e
      | .ok e => match gridStep st with
        | .error x => .error x
        | .ok d => .ok (s, e, d)

/-- What happens when no coordinate was found (ungridded_data.py:1276-1304): an AttributeError of None, unless the grid is wrong. -/
def gridOfNone (g : GridArg) : Err :=
  let plain : Item → Bool := fun i => match i with
    | .none => false
    | .date _ => false
    | _ => true
  match asSlice g with
  | .error e => e
  | .ok (a, b, st) => if plain a ∧ plain b ∧ st = .none then .value else .attribute

abbrev Grids := List (Text × (ℚ × ℚ × ℚ))

/-- `grid_spec[name] = g`. -/
def setKey (spec : Grids) (name : Text) (g : ℚ × ℚ × ℚ) : Grids := spec.filter (fun x => x.1 ≠ name) ++ [(name, g)]

/-- The loop over the keywords (ungridded_data.py:1274-1304). -/
def gridSpec (lookup : Text → Option Nat) (coords : List Coord) : List (Text × GridArg) → Grids → Except Err Grids
  | [], spec => .ok spec
  | (k, g) :: t, spec => match (lookup k).bind (fun i => coords[i]?) with
    | none => .error (gridOfNone g)
    | some c => match gridOf c g with
      | .error e => .error e
      | .ok r => gridSpec lookup coords t (setKey spec c.name r)

/-- `self._grid.pop(coord.name(), None)` for each coordinate (ungridded_aggregator.py:23-31), with what is left over. -/
def requests : List Coord → Grids → List Req × Grids
  | [], spec => ([], spec)
  | c :: t, spec =>
    let rest := requests t (spec.filter (fun x => x.1 ≠ c.name))
    ((spec.find? (fun x => x.1 = c.name)).map Prod.snd :: rest.1, rest.2)

/-- `_get_coord_start_end_centre` (ungridded_aggregator.py:131-140). -/
def startEndCentre (c : Coord) : Except Err (ℚ × ℚ × ℚ) :=
  match c.pts.min?, c.pts.max? with
  | some a, some b => .ok (a, b, a + (b - a) / 2)
  | _, _ => .error .value

/-- A new coordinate with its points and its bounds in the end (ungridded_aggregator.py:82-129): those of a coordinate that was not asked
for are the limits of the data. -/
def newCoord (c : Coord) : Req → Except Err (List ℚ × List (ℚ × ℚ))
  | none => match startEndCentre c with
    | .error e => .error e
    | .ok (a, b, m) => .ok ([m], [(a, b)])
  | some (s, e, d) => if d = 0 then .error .zeroDivision
    else if gridArray s e d = [] then .error .value
    else .ok (gridArray s e d, partialBounds s e d)

def newCoords : List Coord → List Req → Except Err (List (List ℚ × List (ℚ × ℚ)))
  | c :: t, r :: u => match newCoord c r with
    | .error e => .error e
    | .ok x => match newCoords t u with
      | .error e => .error e
      | .ok l => .ok (x :: l)
  | _, _ => .ok []

/-- `_find_longitude_range` (col_implementations.py:1098-1110) for the points of the new longitude coordinate. -/
def rangeStart (points : List ℚ) : ℚ := if points.any (fun x => decide (x < 0)) then -180 else 0

/-- The coordinate of the data as it is binned: longitudes are brought into the range of the grid. -/
def column (c : Coord) (points : List ℚ) (r : Req) : Col :=
  ⟨r, points.headD 0, fun p => if c.isLon then Hyper.uShift (rangeStart points) (c.pts.getD p 0) else c.pts.getD p 0⟩

def columns : List Coord → List (List ℚ × List (ℚ × ℚ)) → List Req → List Col
  | c :: t, x :: u, r :: v => column c x.1 r :: columns t u v
  | _, _, _ => []

/-- The aggregated data: the value of each cell, the points and bounds of each coordinate. -/
structure Out (β : Type) where
  cell : List Nat → Option β
  coords : List (List ℚ × List (ℚ × ℚ))

/-- `aggregate(how, **kwargs)` (ungridded_data.py:1258-1317) for one variable. -/
def aggregateApi {β : Type} (kernel : List ℚ → Option β) (lookup : Text → Option Nat) (coords : List Coord)
    (kwargs : List (Text × GridArg)) (masked : Nat → Bool) (vals : Nat → ℚ) (sort : (Nat → Int) → List Nat) : Except Err (Out β) :=
  match gridSpec lookup coords kwargs [] with
  | .error e => .error e
  | .ok spec => match newCoords coords (requests coords spec).1 with
    | .error e => .error e
    | .ok new => if (requests coords spec).2 ≠ [] then .error .notFound
      else
        let cols := columns coords new (requests coords spec).1
        match Agg.aggregate kernel cols masked vals (sort (DataIndex.cellNumber (dims cols) masked)) with
        | none => .error .index
        | some out => .ok ⟨out, new⟩

/-- The names of the variables (ungridded_aggregator.py:46-53). -/
def outputNames (coordNames vars : List Text) : List Text :=
  vars.map (fun v => if v ∈ coordNames then "aggregated_".toList ++ v else v)

/-! ### Specification -/

def Spec.Least (l : List ℚ) (m : ℚ) : Prop := m ∈ l ∧ ∀ x ∈ l, m ≤ x
def Spec.Greatest (l : List ℚ) (m : ℚ) : Prop := m ∈ l ∧ ∀ x ∈ l, x ≤ m

/-- What a limit means: the number, the date in the units of the coordinate, or by default the end of the data. -/
inductive Spec.Limit (c : Coord) (dflt : ℚ → Prop) : Item → ℚ → Prop
  | number (q : ℚ) : Spec.Limit c dflt (.num q) q
  | date (t : ℚ) : Spec.Limit c dflt (.date t) (c.date2num t)
  | default (m : ℚ) : dflt m → Spec.Limit c dflt .none m

/-- What a step means: the number, or the days of a timedelta. -/
inductive Spec.Step : Item → ℚ → Prop
  | number (q : ℚ) : Spec.Step (.num q) q
  | days (s : ℚ) : Spec.Step (.delta s) (s / 86400)

/-- What a grid means: start, stop, step. -/
inductive Spec.Meant (c : Coord) : GridArg → ℚ × ℚ × ℚ → Prop
  | slice {a b st : Item} {s e d : ℚ} : Spec.Limit c (Spec.Least c.pts) a s → Spec.Limit c (Spec.Greatest c.pts) b e → Spec.Step st d →
      Spec.Meant c (.slice a b st) (s, e, d)
  | three {a b st : Item} {s e d : ℚ} : Spec.Limit c (Spec.Least c.pts) a s → Spec.Limit c (Spec.Greatest c.pts) b e → Spec.Step st d →
      Spec.Meant c (.items [a, b, st]) (s, e, d)
  | period {lo hi d : ℚ} {st : Item} : Spec.Step st d → Spec.Meant c (.items [.period lo hi, st]) (c.date2num lo, c.date2num hi, d)

/-- What is asked for coordinate `i`: the grid of the keyword that names it, or nothing. -/
def Spec.Asks (lookup : Text → Option Nat) (coords : List Coord) (kwargs : List (Text × GridArg)) (i : Nat) (r : Req) : Prop :=
  (∃ k g c t, (k, g) ∈ kwargs ∧ lookup k = some i ∧ coords[i]? = some c ∧ Spec.Meant c g t ∧ r = some t) ∨
  ((∀ k g, (k, g) ∈ kwargs → lookup k ≠ some i) ∧ r = none)

/-- Every keyword names a coordinate, no two of them the same one; coordinates have different names. -/
structure Spec.WellFormed (lookup : Text → Option Nat) (coords : List Coord) (kwargs : List (Text × GridArg)) : Prop where
  named : ∀ x ∈ kwargs, ∃ i, lookup x.1 = some i ∧ i < coords.length
  once : (kwargs.map (fun x => lookup x.1)).Nodup
  names : (coords.map Coord.name).Nodup

/-- A position lies in cell `i` along a coordinate; for longitudes, the position on the globe counts. -/
def Spec.InCoord (c : Coord) (r : Req) (i : Nat) (x : ℚ) : Prop :=
  if c.isLon then ∃ k : ℤ, Agg.Spec.inInterval r i (x + 360 * k) = true else Agg.Spec.inInterval r i x = true

def Spec.InCell : List Coord → List Req → List Nat → Nat → Prop
  | [], [], [], _ => True
  | c :: t, r :: u, i :: idx, p => Spec.InCoord c r i (c.pts.getD p 0) ∧ Spec.InCell t u idx p
  | _, _, _, _ => False

/-- A grid of longitudes follows one of the two conventions, 0 to 360 or -180 to 180 (the first cell mostly below zero), and the data are
within a turn of it. -/
def Spec.Convention (c : Coord) : Req → Prop
  | none => True
  | some (s, e, d) => c.isLon = true →
      (0 ≤ s ∧ (∀ i : Nat, s + (i : ℚ) * d < e → Agg.Spec.cellEnd s e d i ≤ 360) ∧ ∀ x ∈ c.pts, -360 ≤ x ∧ x < 720) ∨
      (-180 ≤ s ∧ s + d / 2 < 0 ∧ (∀ i : Nat, s + (i : ℚ) * d < e → Agg.Spec.cellEnd s e d i ≤ 180) ∧ ∀ x ∈ c.pts, -540 ≤ x ∧ x < 540)

open Classical in
/-- The points in a cell that are not missing. -/
noncomputable def Spec.points (coords : List Coord) (reqs : List Req) (masked : Nat → Bool) (n : Nat) (cell : List Nat) : List Nat :=
  (List.range n).filter (fun p => !masked p && decide (Spec.InCell coords reqs cell p))

/-! ### Proofs -/

theorem min_least (l : List ℚ) (m : ℚ) (h : Spec.Least l m) : l.min? = some m := by
  rw [List.min?_eq_some_iff]
  exact h

theorem max_greatest (l : List ℚ) (m : ℚ) (h : Spec.Greatest l m) : l.max? = some m := by
  rw [List.max?_eq_some_iff]
  exact h

theorem limit_ok (c : Coord) (dflt : Option ℚ) (P : ℚ → Prop) (hP : ∀ m, P m → dflt = some m) (a : Item) (s : ℚ)
    (h : Spec.Limit c P a s) : limit c dflt a = .ok s := by
  cases h with
  | number q => rfl
  | date t => rfl
  | default m hm => simp [limit, hP s hm]

theorem step_ok (a : Item) (d : ℚ) (h : Spec.Step a d) : gridStep a = .ok d := by
  cases h with
  | number q => rfl
  | days s =>
    unfold gridStep
    norm_num

theorem gridOf_ok (c : Coord) (g : GridArg) (t : ℚ × ℚ × ℚ) (h : Spec.Meant c g t) : gridOf c g = .ok t := by
  cases h with
  | slice h1 h2 h3 =>
    unfold gridOf asSlice
    simp only
    rw [limit_ok c _ _ (fun m hm => min_least _ m hm) _ _ h1]
    simp only
    rw [limit_ok c _ _ (fun m hm => max_greatest _ m hm) _ _ h2]
    simp only
    rw [step_ok _ _ h3]
  | three h1 h2 h3 =>
    unfold gridOf asSlice
    simp only
    rw [limit_ok c _ _ (fun m hm => min_least _ m hm) _ _ h1]
    simp only
    rw [limit_ok c _ _ (fun m hm => max_greatest _ m hm) _ _ h2]
    simp only
    rw [step_ok _ _ h3]
  | period h3 =>
    unfold gridOf asSlice limit
    simp only
    rw [step_ok _ _ h3]

/-- What the dictionary has for a name, while the keywords are read. -/
theorem find_setKey (spec : Grids) (name other : Text) (g : ℚ × ℚ × ℚ) :
    ((setKey spec name g).find? (fun x => x.1 = other)).map Prod.snd =
      if name = other then some g else (spec.find? (fun x => x.1 = other)).map Prod.snd := by
  unfold setKey
  rw [List.find?_append]
  by_cases h : name = other
  · subst h
    have : (spec.filter (fun x => x.1 ≠ name)).find? (fun x => x.1 = name) = none := by
      rw [List.find?_eq_none]
      intro x hx
      have := (List.mem_filter.1 hx).2
      simpa using this
    rw [this]
    simp
  · have e : (spec.filter (fun x => x.1 ≠ name)).find? (fun x => x.1 = other) = spec.find? (fun x => x.1 = other) := by
      rw [List.find?_filter]
      congr 1
      funext x
      by_cases hx : x.1 = other
      · simp [hx, Ne.symm h]
      · simp [hx]
    rw [e]
    simp [h]

def lookupGrid (spec : Grids) (name : Text) : Req := (spec.find? (fun x => x.1 = name)).map Prod.snd

theorem gridSpec_ok (lookup : Text → Option Nat) (coords : List Coord) (hn : (coords.map Coord.name).Nodup) :
    ∀ (kwargs : List (Text × GridArg)) (spec : Grids), (∀ x ∈ kwargs, ∃ i c t, lookup x.1 = some i ∧ coords[i]? = some c ∧ Spec.Meant c x.2 t) →
      (kwargs.map (fun x => lookup x.1)).Nodup → (∀ y ∈ spec, ∃ c ∈ coords, c.name = y.1) →
      ∃ out, gridSpec lookup coords kwargs spec = .ok out ∧ (∀ y ∈ out, ∃ c ∈ coords, c.name = y.1) ∧
        ∀ (i : Nat) (c : Coord), coords[i]? = some c →
          (∀ k g t, (k, g) ∈ kwargs → lookup k = some i → Spec.Meant c g t → lookupGrid out c.name = some t) ∧
          ((∀ k g, (k, g) ∈ kwargs → lookup k ≠ some i) → lookupGrid out c.name = lookupGrid spec c.name) := by
  intro kwargs
  induction kwargs with
  | nil =>
    intro spec _ _ hs
    exact ⟨spec, rfl, hs, fun i c _ => ⟨fun k g t h => by simp at h, fun _ => rfl⟩⟩
  | cons x l ih =>
    intro spec hx hnd hs
    obtain ⟨k, g⟩ := x
    obtain ⟨i, c, t, h1, h2, h3⟩ := hx (k, g) (by simp)
    rw [List.map_cons, List.nodup_cons] at hnd
    have hs' : ∀ y ∈ setKey spec c.name t, ∃ c ∈ coords, c.name = y.1 := by
      intro y hy
      unfold setKey at hy
      rcases List.mem_append.1 hy with hy | hy
      · exact hs y (List.mem_of_mem_filter hy)
      · simp only [List.mem_singleton] at hy
        subst hy
        exact ⟨c, List.mem_of_getElem? h2, rfl⟩
    obtain ⟨out, e1, e2, e3⟩ := ih (setKey spec c.name t) (fun y hy => hx y (by simp [hy])) hnd.2 hs'
    refine ⟨out, ?_, e2, ?_⟩
    · unfold gridSpec
      rw [h1]
      simp only [Option.bind_some]
      rw [h2]
      simp only
      rw [gridOf_ok c g t h3]
      exact e1
    · intro j d hd
      obtain ⟨f1, f2⟩ := e3 j d hd
      have hinj : j ≠ i → c.name ≠ d.name := by
        intro hji he
        apply hji
        have hj := (List.getElem?_eq_some_iff.1 hd)
        have hi := (List.getElem?_eq_some_iff.1 h2)
        obtain ⟨hj1, hj2⟩ := hj
        obtain ⟨hi1, hi2⟩ := hi
        exact (List.Nodup.getElem_inj_iff hn (i := j) (j := i) (hi := by simpa using hj1) (hj := by simpa using hi1)).1
          (by simp [hj2, hi2, he])
      constructor
      · intro k' g' t' hmem hl hm
        rcases List.mem_cons.1 hmem with he | hmem
        · cases he
          have hij : i = j := by rw [h1] at hl; exact Option.some.inj hl
          subst hij
          rw [h2] at hd
          cases hd
          have htt : t' = t := by
            have a := gridOf_ok c g t h3
            rw [gridOf_ok c g t' hm] at a
            exact Except.ok.inj a
          subst htt
          rw [f2 (fun k2 g2 hk2 hl2 => hnd.1 (List.mem_map.2 ⟨(k2, g2), hk2, by rw [hl2]; exact h1.symm⟩))]
          unfold lookupGrid
          rw [find_setKey, if_pos rfl]
        · exact f1 k' g' t' hmem hl hm
      · intro hno
        have hji : j ≠ i := fun e => hno k g (by simp) (by rw [h1, e])
        rw [f2 (fun k2 g2 hk2 => hno k2 g2 (by simp [hk2]))]
        unfold lookupGrid
        rw [find_setKey, if_neg (hinj hji)]

theorem lookup_filter (spec : Grids) (name other : Text) (h : name ≠ other) :
    lookupGrid (spec.filter (fun x => x.1 ≠ name)) other = lookupGrid spec other := by
  unfold lookupGrid
  rw [List.find?_filter]
  congr 2
  funext x
  by_cases hx : x.1 = other
  · simp [hx, Ne.symm h]
  · simp [hx]

theorem requests_eq : ∀ (coords : List Coord) (spec : Grids), (coords.map Coord.name).Nodup →
    (requests coords spec).1 = coords.map (fun c => lookupGrid spec c.name) ∧
    (requests coords spec).2 = spec.filter (fun x => decide (∀ c ∈ coords, x.1 ≠ c.name))
  | [], spec, _ => by simp [requests]
  | c :: t, spec, h => by
    rw [List.map_cons, List.nodup_cons] at h
    obtain ⟨h1, h2⟩ := requests_eq t (spec.filter (fun x => x.1 ≠ c.name)) h.2
    unfold requests
    simp only
    rw [h1, h2]
    refine ⟨?_, ?_⟩
    · rw [List.map_cons]
      congr 1
      apply List.map_congr_left
      intro d hd
      apply lookup_filter
      intro e
      exact h.1 (List.mem_map.2 ⟨d, hd, e.symm⟩)
    · rw [List.filter_filter]
      apply List.filter_congr
      intro x _
      simp only [List.mem_cons, forall_eq_or_imp, Bool.decide_and]
      rw [Bool.and_comm]

/-- The grids asked for are the grids made, coordinate by coordinate, and nothing is left over. -/
theorem requests_asked (lookup : Text → Option Nat) (coords : List Coord) (kwargs : List (Text × GridArg)) (reqs : List Req)
    (hw : Spec.WellFormed lookup coords kwargs) (hl : reqs.length = coords.length)
    (ha : ∀ i r, reqs[i]? = some r → Spec.Asks lookup coords kwargs i r) :
    ∃ spec, gridSpec lookup coords kwargs [] = .ok spec ∧ requests coords spec = (reqs, []) := by
  have hm : ∀ x ∈ kwargs, ∃ i c t, lookup x.1 = some i ∧ coords[i]? = some c ∧ Spec.Meant c x.2 t := by
    intro x hx
    obtain ⟨i, h1, h2⟩ := hw.named x hx
    have hi : i < reqs.length := by omega
    rcases ha i reqs[i] (List.getElem?_eq_getElem hi) with ⟨k, g, c, t, hk, hlk, hc, hmt, -⟩ | ⟨hno, -⟩
    · have : x = (k, g) := by
        have := List.inj_on_of_nodup_map hw.once hx hk (by rw [h1, hlk])
        exact this
      subst this
      exact ⟨i, c, t, h1, hc, hmt⟩
    · exact absurd h1 (hno x.1 x.2 hx)
  obtain ⟨spec, e1, e2, e3⟩ := gridSpec_ok lookup coords hw.names kwargs [] hm hw.once (by simp)
  refine ⟨spec, e1, ?_⟩
  obtain ⟨r1, r2⟩ := requests_eq coords spec hw.names
  have p1 : (requests coords spec).1 = reqs := by
    rw [r1]
    apply List.ext_getElem?
    intro i
    rw [List.getElem?_map]
    by_cases hi : i < coords.length
    · have hir : i < reqs.length := by omega
      rw [List.getElem?_eq_getElem hi, List.getElem?_eq_getElem hir, Option.map_some]
      obtain ⟨f1, f2⟩ := e3 i coords[i] (List.getElem?_eq_getElem hi)
      rcases ha i reqs[i] (List.getElem?_eq_getElem hir) with ⟨k, g, c, t, hk, hlk, hc, hmt, hr⟩ | ⟨hno, hr⟩
      · rw [List.getElem?_eq_getElem hi] at hc
        cases hc
        rw [f1 k g t hk hlk hmt, hr]
      · rw [f2 hno, hr]
        rfl
    · rw [List.getElem?_eq_none (by omega), List.getElem?_eq_none (by omega)]
      rfl
  have p2 : (requests coords spec).2 = [] := by
    rw [r2, List.filter_eq_nil_iff]
    intro y hy
    obtain ⟨c, hc, e⟩ := e2 y hy
    simp only [decide_eq_true_eq, not_forall]
    exact ⟨c, hc, fun h => h e.symm⟩
  exact Prod.ext p1 p2

/-- What the new coordinate along `c` is. -/
def Spec.NewCoord (c : Coord) (r : Req) (x : List ℚ × List (ℚ × ℚ)) : Prop :=
  match r with
  | none => ∃ a b, Spec.Least c.pts a ∧ Spec.Greatest c.pts b ∧ x = ([(a + b) / 2], [(a, b)])
  | some (s, e, d) => x.1.length = x.2.length ∧ Agg.Spec.IsCount (some (s, e, d)) x.1.length ∧
      ∀ i : Nat, i < x.1.length → x.1[i]? = some (s + ((i : ℚ) + 1 / 2) * d) ∧
        x.2[i]? = some (s + (i : ℚ) * d, Agg.Spec.cellEnd s e d i)

theorem least_exists (l : List ℚ) (h : l ≠ []) : ∃ m, Spec.Least l m := by
  cases hm : l.min? with
  | none => exact absurd (List.min?_eq_none_iff.1 hm) h
  | some m => exact ⟨m, List.min?_eq_some_iff.1 hm⟩

theorem greatest_exists (l : List ℚ) (h : l ≠ []) : ∃ m, Spec.Greatest l m := by
  cases hm : l.max? with
  | none => exact absurd (List.max?_eq_none_iff.1 hm) h
  | some m => exact ⟨m, List.max?_eq_some_iff.1 hm⟩

theorem newCoord_ok (c : Coord) (r : Req) (hp : c.pts ≠ []) (hok : Agg.Spec.Req.Ok r) :
    ∃ x, newCoord c r = .ok x ∧ Spec.NewCoord c r x ∧ ∀ s e d, r = some (s, e, d) → x.1 = gridArray s e d := by
  cases r with
  | none =>
    obtain ⟨a, ha⟩ := least_exists c.pts hp
    obtain ⟨b, hb⟩ := greatest_exists c.pts hp
    refine ⟨([a + (b - a) / 2], [(a, b)]), ?_, ⟨a, b, ha, hb, ?_⟩, by simp⟩
    · unfold newCoord startEndCentre
      rw [min_least _ _ ha, max_greatest _ _ hb]
    · congr 2
      ring
  | some t =>
    obtain ⟨s, e, d⟩ := t
    obtain ⟨hse, hd⟩ := hok
    have hc := count_pos s e d hse hd
    refine ⟨(gridArray s e d, partialBounds s e d), ?_, ?_, ?_⟩
    · unfold newCoord
      simp only
      rw [if_neg hd.ne', if_neg]
      intro h
      have := gridArray_length s e d
      rw [h] at this
      simp at this
      omega
    · obtain ⟨g1, g2, g3, g4, -⟩ := grid_tiles s e d hse hd
      have gl := gridArray_length s e d
      unfold Spec.NewCoord
      simp only
      refine ⟨?_, ⟨g1, g2, by linarith⟩, ?_⟩
      · rw [partialBounds_eq s e d hse hd]; simp [gl]
      · intro i hi
        refine ⟨?_, ?_⟩
        · rw [List.getElem?_eq_getElem hi, g4 i hi]
        · rw [partialBounds_eq s e d hse hd, List.getElem?_map, List.getElem?_range (by omega)]
          rfl
    · intro s' e' d' h
      cases h
      rfl

theorem newCoords_ok : ∀ (coords : List Coord) (reqs : List Req), reqs.length = coords.length → (∀ c ∈ coords, c.pts ≠ []) →
    (∀ r ∈ reqs, Agg.Spec.Req.Ok r) → ∃ new, newCoords coords reqs = .ok new ∧ new.length = coords.length ∧
      ∀ (i : Nat) (c : Coord) (r : Req) (x : List ℚ × List (ℚ × ℚ)), coords[i]? = some c → reqs[i]? = some r → new[i]? = some x →
        Spec.NewCoord c r x ∧ ∀ s e d, r = some (s, e, d) → x.1 = gridArray s e d
  | [], reqs, hl, _, _ => ⟨[], by cases reqs <;> rfl, rfl, fun i c r x h => by simp at h⟩
  | c :: t, [], hl, _, _ => by simp at hl
  | c :: t, r :: u, hl, hp, hok => by
    obtain ⟨x, e1, e2, e3⟩ := newCoord_ok c r (hp c (by simp)) (hok r (by simp))
    obtain ⟨new, f1, f2, f3⟩ := newCoords_ok t u (by simpa using hl) (fun c hc => hp c (by simp [hc])) (fun r hr => hok r (by simp [hr]))
    refine ⟨x :: new, ?_, by simp [f2], ?_⟩
    · unfold newCoords
      rw [e1]
      simp only
      rw [f1]
    · intro i c' r' x' h1 h2 h3
      cases i with
      | zero =>
        simp only [List.getElem?_cons_zero, Option.some.injEq] at h1 h2 h3
        subst h1 h2 h3
        exact ⟨e2, e3⟩
      | succ i =>
        simp only [List.getElem?_cons_succ] at h1 h2 h3
        exact f3 i c' r' x' h1 h2 h3

/-- Shifting a longitude into a range that has all cells finds the cell of its position on the globe. -/
theorem shift_cell (low s e d x : ℚ) (i : Nat) (hd : 0 < d) (h1 : low ≤ s)
    (h2 : ∀ i : Nat, s + (i : ℚ) * d < e → Agg.Spec.cellEnd s e d i ≤ low + 360)
    (hx1 : low - 360 ≤ x) (hx2 : x < low + 720) :
    Agg.Spec.inInterval (some (s, e, d)) i (Hyper.uShift low x) = true ↔
      ∃ k : ℤ, Agg.Spec.inInterval (some (s, e, d)) i (x + 360 * k) = true := by
  obtain ⟨⟨u1, u2, k0, hk0⟩, -⟩ := Hyper.c69_view_longitude low x hx1 hx2
  constructor
  · intro h
    exact ⟨k0, by rw [← hk0]; exact h⟩
  · rintro ⟨k, hk⟩
    have : x + 360 * (k : ℚ) = Hyper.uShift low x := by
      have hk' := hk
      simp only [Agg.Spec.inInterval, Bool.and_eq_true, decide_eq_true_eq] at hk'
      obtain ⟨⟨a1, a2⟩, a3⟩ := hk'
      have b := h2 i a1
      have hi : (0 : ℚ) ≤ (i : ℚ) * d := by positivity
      have c1 : low ≤ x + 360 * (k : ℚ) := by linarith
      have c2 : x + 360 * (k : ℚ) < low + 360 := by linarith
      have hkk : k = k0 := by
        have q1 : (k : ℚ) - k0 < 1 := by linarith
        have q2 : (-1 : ℚ) < (k : ℚ) - k0 := by linarith
        have q1' : k - k0 < 1 := by exact_mod_cast q1
        have q2' : -1 < k - k0 := by exact_mod_cast q2
        omega
      rw [hk0, hkk]
    rw [← this]
    exact hk

theorem rangeStart_zero (s e d : ℚ) (hd : 0 < d) (hs : 0 ≤ s) : rangeStart (gridArray s e d) = 0 := by
  unfold rangeStart
  rw [if_neg]
  rw [List.any_eq_true]
  rintro ⟨x, hx, hneg⟩
  rw [gridArray_eq] at hx
  obtain ⟨i, -, rfl⟩ := List.mem_map.1 hx
  have : (0 : ℚ) ≤ (i : ℚ) * d := by positivity
  simp only [decide_eq_true_eq] at hneg
  linarith

theorem rangeStart_neg (s e d : ℚ) (hse : s < e) (hd : 0 < d) (hs : s + d / 2 < 0) : rangeStart (gridArray s e d) = -180 := by
  unfold rangeStart
  rw [if_pos]
  rw [List.any_eq_true]
  refine ⟨s + d / 2, ?_, by simpa using hs⟩
  rw [gridArray_eq]
  exact List.mem_map.2 ⟨0, List.mem_range.2 (count_pos s e d hse hd), by simp⟩

theorem column_cell (c : Coord) (points : List ℚ) (r : Req) (hg : ∀ s e d, r = some (s, e, d) → points = gridArray s e d)
    (hok : Agg.Spec.Req.Ok r) (hc : Spec.Convention c r) (p i : Nat) (hp : p < c.pts.length) :
    Agg.Spec.inInterval (column c points r).req i ((column c points r).val p) = true ↔ Spec.InCoord c r i (c.pts.getD p 0) := by
  unfold column Spec.InCoord
  simp only
  by_cases hl : c.isLon = true
  · rw [if_pos hl, if_pos hl]
    cases r with
    | none => simp [Agg.Spec.inInterval]
    | some t =>
      obtain ⟨s, e, d⟩ := t
      rw [hg s e d rfl]
      obtain ⟨hse, hd⟩ := hok
      have hmem : c.pts.getD p 0 ∈ c.pts := by
        rw [List.getD_eq_getElem?_getD, List.getElem?_eq_getElem hp]
        exact List.getElem_mem hp
      rcases hc hl with ⟨h1, h2, h3⟩ | ⟨h1, h2, h3, h4⟩
      · rw [rangeStart_zero s e d hd h1]
        obtain ⟨x1, x2⟩ := h3 _ hmem
        exact shift_cell 0 s e d _ i hd h1 (by simpa using h2) (by linarith) (by linarith)
      · rw [rangeStart_neg s e d hse hd h2]
        obtain ⟨x1, x2⟩ := h4 _ hmem
        exact shift_cell (-180) s e d _ i hd h1 (fun i hi => by have := h3 i hi; linarith) (by linarith) (by linarith)
  · rw [if_neg hl, if_neg hl]

theorem columns_cell (n : Nat) : ∀ (coords : List Coord) (new : List (List ℚ × List (ℚ × ℚ))) (reqs : List Req),
    reqs.length = coords.length → new.length = coords.length → (∀ c ∈ coords, c.pts.length = n) → (∀ r ∈ reqs, Agg.Spec.Req.Ok r) →
    (∀ (i : Nat) (c : Coord) (r : Req), coords[i]? = some c → reqs[i]? = some r → Spec.Convention c r) →
    (∀ (i : Nat) (r : Req) (x : List ℚ × List (ℚ × ℚ)), reqs[i]? = some r → new[i]? = some x → ∀ s e d, r = some (s, e, d) → x.1 = gridArray s e d) →
    (∀ col ∈ columns coords new reqs, Agg.Spec.Req.Ok col.req) ∧ (coords ≠ [] → columns coords new reqs ≠ []) ∧
    ∀ (cell : List Nat) (p : Nat), p < n → (Agg.Spec.inCell (columns coords new reqs) cell p = true ↔ Spec.InCell coords reqs cell p)
  | [], new, reqs, hl, hn, _, _, _, _ => by
    have : reqs = [] := List.length_eq_zero_iff.1 hl
    subst this
    refine ⟨by cases new <;> simp [columns], fun h => absurd rfl h, ?_⟩
    intro cell p _
    cases new <;> cases cell <;> simp [columns, Agg.Spec.inCell, Spec.InCell]
  | c :: t, [], _, _, hn, _, _, _, _ => by simp at hn
  | c :: t, x :: u, [], hl, _, _, _, _, _ => by simp at hl
  | c :: t, x :: u, r :: v, hl, hn, hp, hok, hc, hg => by
    obtain ⟨i1, -, i3⟩ := columns_cell n t u v (by simpa using hl) (by simpa using hn) (fun c hc => hp c (by simp [hc]))
      (fun r hr => hok r (by simp [hr])) (fun i c r h1 h2 => hc (i + 1) c r (by simpa using h1) (by simpa using h2))
      (fun i r x h1 h2 => hg (i + 1) r x (by simpa using h1) (by simpa using h2))
    refine ⟨?_, fun _ => by simp [columns], ?_⟩
    · intro col hcol
      rw [columns] at hcol
      rcases List.mem_cons.1 hcol with rfl | hcol
      · exact hok r (by simp)
      · exact i1 col hcol
    · intro cell p hpn
      rw [columns]
      cases cell with
      | nil => simp [Agg.Spec.inCell, Spec.InCell]
      | cons i idx =>
        rw [Agg.Spec.inCell, Bool.and_eq_true, Spec.InCell, i3 idx p hpn]
        have := column_cell c x.1 r (fun s e d h => hg 0 r x (by simp) (by simp) s e d h) (hok r (by simp))
          (hc 0 c r (by simp) (by simp)) p i (by rw [hp c (by simp)]; exact hpn)
        rw [this]

/-- C106: if every keyword names a coordinate of its own and every longitude grid follows a convention, the aggregated data have the cells
asked for, numbered from the start with the given step, coordinates that were not asked for in one cell with the limits of the data; each
cell has the kernel's value for exactly the points in it that are not missing, longitudes by their position on the globe. -/
theorem c106_cells {β : Type} (k : List ℚ → Option β) (hk : Agg.Spec.Kernel k) (lookup : Text → Option Nat) (coords : List Coord)
    (kwargs : List (Text × GridArg)) (masked : Nat → Bool) (vals : Nat → ℚ) (sort : (Nat → Int) → List Nat) (n : Nat) (hn : 0 < n)
    (hsort : ∀ key, DataIndex.Spec.Sorts n key (sort key)) (hne : coords ≠ []) (hp : ∀ c ∈ coords, c.pts.length = n)
    (hw : Spec.WellFormed lookup coords kwargs) (reqs : List Req) (hl : reqs.length = coords.length)
    (ha : ∀ i r, reqs[i]? = some r → Spec.Asks lookup coords kwargs i r) (hok : ∀ r ∈ reqs, Agg.Spec.Req.Ok r)
    (hc : ∀ (i : Nat) (c : Coord) (r : Req), coords[i]? = some c → reqs[i]? = some r → Spec.Convention c r) :
    ∃ out, aggregateApi k lookup coords kwargs masked vals sort = .ok out ∧
      (∀ cell, out.cell cell = k ((Spec.points coords reqs masked n cell).map vals)) ∧
      out.coords.length = coords.length ∧
      ∀ (i : Nat) (c : Coord) (r : Req) (x : List ℚ × List (ℚ × ℚ)), coords[i]? = some c → reqs[i]? = some r → out.coords[i]? = some x → Spec.NewCoord c r x := by
  obtain ⟨spec, e1, e2⟩ := requests_asked lookup coords kwargs reqs hw hl ha
  obtain ⟨new, f1, f2, f3⟩ := newCoords_ok coords reqs hl
    (fun c hc => by intro h; have := hp c hc; rw [h] at this; simp at this; omega) hok
  have hg : ∀ (i : Nat) (r : Req) (x : List ℚ × List (ℚ × ℚ)), reqs[i]? = some r → new[i]? = some x →
      ∀ s e d, r = some (s, e, d) → x.1 = gridArray s e d := by
    intro i r x h1 h2
    have hi : i < coords.length := by rw [← hl]; exact (List.getElem?_eq_some_iff.1 h1).1
    exact (f3 i coords[i] r x (List.getElem?_eq_getElem hi) h1 h2).2
  obtain ⟨g1, g2, g3⟩ := columns_cell n coords new reqs hl f2 hp hok hc hg
  obtain ⟨out, o1, o2⟩ := aggregate_cells k hk (columns coords new reqs) (g2 hne) g1 masked vals n hn _ (hsort _)
  refine ⟨⟨out, new⟩, ?_, ?_, f2, fun i c r x h1 h2 h3 => (f3 i c r x h1 h2 h3).1⟩
  · unfold aggregateApi
    rw [e1]
    simp only
    rw [e2]
    simp only
    rw [f1]
    simp only [ne_eq, not_true_eq_false, if_false]
    rw [o1]
  · intro cell
    show out cell = _
    rw [o2 cell]
    congr 2
    unfold Agg.Spec.points Spec.points
    apply List.filter_congr
    intro p hpn
    have := g3 cell p (List.mem_range.1 hpn)
    congr 1
    by_cases h : Spec.InCell coords reqs cell p
    · simp [h, this.2 h]
    · have h' : ¬ (Agg.Spec.inCell (columns coords new reqs) cell p = true) := fun e => h (this.1 e)
      simp [h, h']

/-! ### Where the property fails -/

/-- The end of the range lies in no cell if it is the end of a cell. -/
theorem end_lost (s e d : ℚ) (hd : 0 < d) (h : e ≤ s + d ∨ ∃ m : ℕ, e = s + (m : ℚ) * d) (i : Nat) :
    Agg.Spec.inInterval (some (s, e, d)) i e = false := by
  rw [Bool.eq_false_iff]
  intro hi
  simp only [Agg.Spec.inInterval, Bool.and_eq_true, decide_eq_true_eq, Agg.Spec.cellEnd] at hi
  obtain ⟨⟨h1, h2⟩, h3⟩ := hi
  split at h3
  · simp at h3
  · rename_i hlt
    rw [decide_eq_true_eq] at h3
    rcases h with h | ⟨m, hm⟩
    · exact hlt h
    · have a1 : (i : ℚ) * d < (m : ℚ) * d := by linarith
      have a2 : (m : ℚ) * d < ((i : ℚ) + 1) * d := by linarith
      have b1 := lt_of_mul_lt_mul_right a1 hd.le
      have b2 := lt_of_mul_lt_mul_right a2 hd.le
      have c1 : i < m := by exact_mod_cast b1
      have c2 : m < i + 1 := by exact_mod_cast b2
      omega

theorem end_kept (s e d : ℚ) (hd : 0 < d) (h1 : s + d < e) (h2 : ∀ m : ℕ, e ≠ s + (m : ℚ) * d) (x : ℚ) (hx : s ≤ x) (hx' : x ≤ e) :
    ∃! i, Agg.Spec.inInterval (some (s, e, d)) i x = true := by
  have hne : ¬ e ≤ s + d := not_le.2 h1
  obtain ⟨m, hm⟩ : ∃ m : ℕ, (m : ℤ) = ⌊(x - s) / d⌋ := by
    have : 0 ≤ ⌊(x - s) / d⌋ := Int.floor_nonneg.2 (div_nonneg (by linarith) hd.le)
    exact ⟨⌊(x - s) / d⌋.toNat, Int.toNat_of_nonneg this⟩
  have hf1 : (m : ℚ) * d ≤ x - s := by
    have := Int.floor_le ((x - s) / d)
    rw [← hm, le_div_iff₀ hd] at this
    exact_mod_cast this
  have hf2 : x - s < ((m : ℚ) + 1) * d := by
    have := Int.lt_floor_add_one ((x - s) / d)
    rw [← hm, div_lt_iff₀ hd] at this
    exact_mod_cast this
  refine ⟨m, ?_, ?_⟩
  · simp only [Agg.Spec.inInterval, Bool.and_eq_true, decide_eq_true_eq, Agg.Spec.cellEnd, if_neg hne]
    refine ⟨⟨lt_of_le_of_ne (by linarith) ?_, by linarith⟩, by linarith⟩
    intro he
    exact h2 m he.symm
  · intro j hj
    simp only [Agg.Spec.inInterval, Bool.and_eq_true, decide_eq_true_eq, Agg.Spec.cellEnd, if_neg hne] at hj
    obtain ⟨⟨-, j2⟩, j3⟩ := hj
    have a1 : (j : ℚ) * d < ((m : ℚ) + 1) * d := by linarith
    have a2 : (m : ℚ) * d < ((j : ℚ) + 1) * d := by linarith
    have b1 := lt_of_mul_lt_mul_right a1 hd.le
    have b2 := lt_of_mul_lt_mul_right a2 hd.le
    have c1 : j < m + 1 := by exact_mod_cast b1
    have c2 : m < j + 1 := by exact_mod_cast b2
    omega

/-- C106 with the limits of the data as limits of the grid: every point lies in exactly one cell, if the range is more than one step and
no multiple of the step. -/
theorem c106_default (c : Coord) (hlon : c.isLon = false) (a b d : ℚ) (ha : Spec.Least c.pts a) (hb : Spec.Greatest c.pts b)
    (hd : 0 < d) (h1 : a + d < b) (h2 : ∀ m : ℕ, b ≠ a + (m : ℚ) * d) (x : ℚ) (hx : x ∈ c.pts) :
    gridOf c (.slice .none .none (.num d)) = .ok (a, b, d) ∧ ∃! i, Spec.InCoord c (some (a, b, d)) i x := by
  refine ⟨gridOf_ok _ _ _ (.slice (.default _ ha) (.default _ hb) (.number d)), ?_⟩
  simp only [Spec.InCoord, hlon, Bool.false_eq_true, if_false]
  exact end_kept a b d hd h1 h2 x (ha.2 x hx) (hb.2 x hx)

/-- C106 is violated otherwise: the greatest point is left out of every cell. -/
theorem c106_default_violated {β : Type} (k : List ℚ → Option β) (hk : Agg.Spec.Kernel k) (lookup : Text → Option Nat) (c : Coord)
    (hlon : c.isLon = false) (key : Text) (hkey : lookup key = some 0) (a b d : ℚ) (ha : Spec.Least c.pts a) (hb : Spec.Greatest c.pts b)
    (hab : a < b) (hd : 0 < d) (h : b ≤ a + d ∨ ∃ m : ℕ, b = a + (m : ℚ) * d) (masked : Nat → Bool) (vals : Nat → ℚ)
    (sort : (Nat → Int) → List Nat) (hsort : ∀ f, DataIndex.Spec.Sorts c.pts.length f (sort f)) :
    ∃ out, aggregateApi k lookup [c] [(key, .slice .none .none (.num d))] masked vals sort = .ok out ∧
      (∀ cell, out.cell cell = k ((Spec.points [c] [some (a, b, d)] masked c.pts.length cell).map vals)) ∧
      ∀ cell, ∀ p ∈ Spec.points [c] [some (a, b, d)] masked c.pts.length cell, c.pts[p]? ≠ some b := by
  have hmem := ha.1
  obtain ⟨out, h1, h2, -⟩ := c106_cells k hk lookup [c] [(key, .slice .none .none (.num d))] masked vals sort c.pts.length
    (List.length_pos_of_mem hmem) hsort (by simp) (by simp)
    ⟨by simp [hkey], by simp, by simp⟩ [some (a, b, d)] rfl
    (by
      intro i r hr
      cases i with
      | zero =>
        simp only [List.getElem?_cons_zero, Option.some.injEq] at hr
        subst hr
        exact .inl ⟨key, _, c, (a, b, d), List.mem_singleton.2 rfl, hkey, rfl, .slice (.default _ ha) (.default _ hb) (.number d), rfl⟩
      | succ i => simp at hr)
    (by
      intro r hr
      simp only [List.mem_singleton] at hr
      subst hr
      exact ⟨hab, hd⟩)
    (by
      intro i c' r hc' hr
      cases i with
      | zero =>
        simp only [List.getElem?_cons_zero, Option.some.injEq] at hr hc'
        subst hr hc'
        intro hl
        rw [hlon] at hl
        cases hl
      | succ i => simp at hr)
  refine ⟨out, h1, h2, ?_⟩
  intro cell p hp hpb
  have hin := (List.mem_filter.1 hp).2
  simp only [Bool.and_eq_true, decide_eq_true_eq] at hin
  cases cell with
  | nil => exact hin.2
  | cons i idx =>
    have := hin.2.1
    simp only [Spec.InCoord, hlon, Bool.false_eq_true, if_false] at this
    rw [List.getD_eq_getElem?_getD, hpb, Option.getD_some, end_lost a b d hd h i] at this
    cases this

/-- C106 is violated for a coordinate with a single value: with the default limits there is no cell, and an error. -/
theorem c106_constant_violated {β : Type} (k : List ℚ → Option β) (lookup : Text → Option Nat) (c : Coord) (key : Text)
    (hkey : lookup key = some 0) (q d : ℚ) (hq : Spec.Least c.pts q) (hq' : Spec.Greatest c.pts q) (hd : 0 < d) (masked : Nat → Bool)
    (vals : Nat → ℚ) (sort : (Nat → Int) → List Nat) :
    aggregateApi k lookup [c] [(key, .slice .none .none (.num d))] masked vals sort = .error .value := by
  unfold aggregateApi
  have h1 : gridSpec lookup [c] [(key, .slice .none .none (.num d))] [] = .ok [(c.name, (q, q, d))] := by
    unfold gridSpec
    rw [hkey]
    simp only [Option.bind_some, List.getElem?_cons_zero]
    rw [gridOf_ok c _ (q, q, d) (.slice (.default _ hq) (.default _ hq') (.number d))]
    rfl
  rw [h1]
  simp only
  have h2 : (requests [c] [(c.name, (q, q, d))]).1 = [some (q, q, d)] := by simp [requests]
  rw [h2]
  have h3 : gridArray q q d = [] := by
    have := gridArray_length q q d
    rw [← List.length_eq_zero_iff, this]
    unfold count
    simp
  have h4 : newCoords [c] [some (q, q, d)] = .error .value := by
    simp [newCoords, newCoord, hd.ne', h3]
  rw [h4]

/-- C106 is violated by a period aggregated in one step (a day by days): its last instant is left out. -/
theorem c106_period_violated (c : Coord) (lo hi d : ℚ) (st : Item) (hs : Spec.Step st d) (hd : 0 < d) (hlon : c.isLon = false)
    (h : c.date2num hi ≤ c.date2num lo + d) :
    ∃ r, gridOf c (.items [.period lo hi, st]) = .ok r ∧ ∀ i, ¬ Spec.InCoord c (some r) i (c.date2num hi) := by
  refine ⟨_, gridOf_ok _ _ _ (.period hs), ?_⟩
  intro i hi'
  simp only [Spec.InCoord, hlon, Bool.false_eq_true, if_false] at hi'
  rw [end_lost _ _ _ hd (.inl h)] at hi'
  cases hi'

/-- C106: there is no default for the step: a keyword whose grid has no step (with limits, in any way of writing it) is refused with an
error, whatever the other keywords are. -/
theorem c106_step_required {β : Type} (k : List ℚ → Option β) (lookup : Text → Option Nat) (coords : List Coord)
    (kwargs : List (Text × GridArg)) (masked : Nat → Bool) (vals : Nat → ℚ) (sort : (Nat → Int) → List Nat) (key : Text) (g : GridArg)
    (hk : (key, g) ∈ kwargs) (hg : (∃ a b, g = .slice a b .none) ∨ (∃ a b, g = .items [a, b, .none]) ∨ ∃ a, g = .items [a, .none]) :
    ∃ e, aggregateApi k lookup coords kwargs masked vals sort = .error e := by
  have hgrid : ∀ (c : Coord) (r : ℚ × ℚ × ℚ), gridOf c g ≠ .ok r := by
    have hs : ∀ (c : Coord) (a b : Item) (r : ℚ × ℚ × ℚ), (match limit c c.pts.min? a with
      | .error e => .error e
      | .ok s => match limit c c.pts.max? b with
        | .error e => .error e
        | .ok e => match gridStep .none with
          | .error x => .error x
          | .ok d => .ok (s, e, d)) ≠ (.ok r : Except Err (ℚ × ℚ × ℚ)) := by
      intro c a b r
      cases limit c c.pts.min? a with
      | error => simp
      | ok => cases limit c c.pts.max? b <;> simp [gridStep]
    intro c r
    rcases hg with ⟨a, b, rfl⟩ | ⟨a, b, rfl⟩ | ⟨a, rfl⟩
    · exact hs c a b r
    · unfold gridOf
      have : asSlice (.items [a, b, .none]) = .ok (a, b, .none) := by cases a <;> rfl
      rw [this]
      exact hs c a b r
    · unfold gridOf
      cases a with
      | period lo hi => exact hs c (.date lo) (.date hi) r
      | _ => simp [asSlice]
  have hspec : ∀ (kw : List (Text × GridArg)) (spec : Grids), (key, g) ∈ kw → ∃ e, gridSpec lookup coords kw spec = .error e := by
    intro kw
    induction kw with
    | nil => intro _ h; cases h
    | cons x kw ih =>
      intro spec h
      obtain ⟨k', g'⟩ := x
      unfold gridSpec
      cases hl : (lookup k').bind (fun i => coords[i]?) with
      | none => exact ⟨_, rfl⟩
      | some c =>
        cases hr : gridOf c g' with
        | error e => exact ⟨e, by simp only [hr]⟩
        | ok r =>
          simp only [hr]
          rcases List.mem_cons.1 h with h | h
          · cases h; exact absurd hr (hgrid c r)
          · exact ih _ h
  obtain ⟨e, he⟩ := hspec kwargs [] hk
  exact ⟨e, by unfold aggregateApi; rw [he]⟩

/-- C106 is violated by a name that no coordinate has: not a CoordinateNotFoundError but an AttributeError of None. -/
theorem c106_unknown_violated {β : Type} (k : List ℚ → Option β) (lookup : Text → Option Nat) (coords : List Coord) (key : Text)
    (h : lookup key = none) (a b d : ℚ) (masked : Nat → Bool) (vals : Nat → ℚ) (sort : (Nat → Int) → List Nat) :
    aggregateApi k lookup coords [(key, .slice (.num a) (.num b) (.num d))] masked vals sort = .error .attribute := by
  unfold aggregateApi gridSpec
  rw [h]
  rfl

/-- C106 is violated by two keywords for one coordinate: the first is ignored silently. -/
theorem c106_repeated_violated {β : Type} (k : List ℚ → Option β) (lookup : Text → Option Nat) (coords : List Coord) (k1 k2 : Text)
    (g1 g2 : GridArg) (i : Nat) (c : Coord) (t1 : ℚ × ℚ × ℚ) (h1 : lookup k1 = some i) (h2 : lookup k2 = some i) (hc : coords[i]? = some c)
    (m1 : Spec.Meant c g1 t1) (masked : Nat → Bool) (vals : Nat → ℚ) (sort : (Nat → Int) → List Nat) :
    aggregateApi k lookup coords [(k1, g1), (k2, g2)] masked vals sort = aggregateApi k lookup coords [(k2, g2)] masked vals sort := by
  have : gridSpec lookup coords [(k1, g1), (k2, g2)] [] = gridSpec lookup coords [(k2, g2)] [] := by
    simp only [gridSpec, h1, h2, Option.bind_some, hc, gridOf_ok c g1 t1 m1]
    cases gridOf c g2 with
    | error e => rfl
    | ok r => simp [setKey]
  unfold aggregateApi
  rw [this]

def countKernel (l : List ℚ) : Option Nat := if l = [] then none else some l.length

theorem countKernel_ok : Agg.Spec.Kernel countKernel := by
  refine ⟨?_, rfl⟩
  intro a b h
  unfold countKernel
  by_cases ha : a = []
  · subst ha
    rw [List.nil_perm.1 h]
  · have hb : b ≠ [] := by
      rintro rfl
      exact ha (List.perm_nil.1 h)
    rw [if_neg ha, if_neg hb, h.length_eq]

def oneLon (x : ℚ) : List Coord := [⟨"longitude".toList, true, [x], id⟩]

/-- C106 is violated by grids of longitudes that follow neither convention: from -10 to 350 the points beyond 180 are lost; -/
theorem c106_longitude_violated :
    Spec.InCell (oneLon 200) [some (-10, 350, 15)] [14] 0 ∧
    (aggregateApi countKernel (fun _ => some 0) (oneLon 200) [("x".toList, .slice (.num (-10)) (.num 350) (.num 15))] (fun _ => false)
      (fun _ => 1) (fun _ => [0])).map (fun o => (List.range 24).map (fun i => o.cell [i])) = .ok (List.replicate 24 none) := by
  refine ⟨⟨?_, trivial⟩, by decide +kernel⟩
  simp only [Spec.InCoord, oneLon, if_true]
  exact ⟨0, by decide +kernel⟩

/-- and from -5 to 355 those just below zero. -/
theorem c106_longitude_zero_violated :
    Spec.InCell (oneLon (-3)) [some (-5, 355, 15)] [0] 0 ∧
    (aggregateApi countKernel (fun _ => some 0) (oneLon (-3)) [("x".toList, .slice (.num (-5)) (.num 355) (.num 15))] (fun _ => false)
      (fun _ => 1) (fun _ => [0])).map (fun o => (List.range 24).map (fun i => o.cell [i])) = .ok (List.replicate 24 none) := by
  refine ⟨⟨?_, trivial⟩, by decide +kernel⟩
  simp only [Spec.InCoord, oneLon, if_true]
  exact ⟨0, by decide +kernel⟩

/-- C106: no variable is named like a coordinate, unless a coordinate is called aggregated_ itself. -/
theorem c106_names (coordNames vars : List Text) (h : ∀ c ∈ coordNames, ¬ "aggregated_".toList <+: c) :
    (outputNames coordNames vars).length = vars.length ∧ (∀ v ∈ outputNames coordNames vars, v ∉ coordNames) ∧
    ∀ (i : Nat) (v : Text), vars[i]? = some v → v ∉ coordNames → (outputNames coordNames vars)[i]? = some v := by
  have e : outputNames coordNames vars = vars.map (fun v => if v ∈ coordNames then "aggregated_".toList ++ v else v) := rfl
  rw [e]
  refine ⟨List.length_map _, ?_, ?_⟩
  · intro v hv
    obtain ⟨w, -, rfl⟩ := List.mem_map.1 hv
    split
    · intro hm
      exact h _ hm (List.prefix_append _ _)
    · assumption
  · intro i v hv hn
    rw [List.getElem?_map, hv, Option.map_some, if_neg hn]

/-! ### A concrete case -/

def exCoords : List Coord := [⟨"longitude".toList, true, [350, 10, 190, 100], id⟩, ⟨"time".toList, false, [1, 2, 3, 5], fun s => s / 86400⟩]

def exLookup (k : Text) : Option Nat := if k = "x".toList then some 0 else if k = "t".toList then some 1 else none

/-- The grid follows the convention -180 to 180, the data the other one; the coordinate of time is collapsed. -/
example : Spec.WellFormed exLookup exCoords [("x".toList, .items [.num (-180), .num 180, .num 90])] ∧
    Spec.Asks exLookup exCoords [("x".toList, .items [.num (-180), .num 180, .num 90])] 0 (some (-180, 180, 90)) ∧
    Spec.Asks exLookup exCoords [("x".toList, .items [.num (-180), .num 180, .num 90])] 1 none ∧
    (aggregateApi countKernel exLookup exCoords [("x".toList, .items [.num (-180), .num 180, .num 90])] (fun p => p == 3) (fun _ => 1)
      (fun key => (List.range 4).insertionSort (fun a b => key a ≤ key b))).map
      (fun o => ((List.range 4).map (fun i => o.cell [i, 0]), o.coords)) =
    .ok ([some 1, some 1, some 1, none], [([-135, -45, 45, 135], [(-180, -90), (-90, 0), (0, 90), (90, 180)]), ([3], [(1, 5)])]) := by
  refine ⟨⟨by decide, by decide, by decide⟩, .inl ⟨"x".toList, _, _, (-180, 180, 90), List.mem_singleton.2 rfl, rfl, rfl,
    .three (.number _) (.number _) (.number _), rfl⟩, .inr ⟨?_, rfl⟩, by decide +kernel⟩
  intro k g hk
  simp only [List.mem_singleton, Prod.mk.injEq] at hk
  rw [hk.1]
  decide

example : Spec.Convention ⟨"longitude".toList, true, [350, 10, 190, 100], id⟩ (some (-180, 180, 90)) := by
  intro _
  refine .inr ⟨by norm_num, by norm_num, ?_, by decide +kernel⟩
  intro i hi
  have : (i : ℚ) < 4 := by linarith
  have hi4 : i < 4 := by exact_mod_cast this
  interval_cases i <;> norm_num [Agg.Spec.cellEnd]

end Cis.AggApi
