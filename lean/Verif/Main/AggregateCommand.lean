import Verif.Main.SubsetCommand
import Verif.Agg.Request
import Mathlib.Data.List.Sort
set_option linter.unusedSectionVars false
set_option linter.unusedSimpArgs false

/-!
# `cis aggregate`: from the text of the grid to the cells

The command as a whole, for one ungridded variable: the grid argument is read (`get_aggregate_grid`, C82), each name is looked up among the
coordinates (C66), the cells are made and filled with the kernel's values (C106). `float()` is a parameter, `dateutil.parser.parse` is modelled as
in `Main/SubsetCommand.lean`, durations as in C26. The kernel is any function of the values that does not depend on their order (C15), the sort of
the points any sort. Gridded data are collapsed instead (C71).
-/
namespace Cis.AggCmd
open Cis.Str Cis.Time Cis.SubsetCmd

/-! ### Model -/

/-- What a text of a grid may become besides a number: a date, or a duration in seconds. -/
abbrev D := DateTime ⊕ Nat

/-- The conversions `get_aggregate_grid` uses (parse.py:470-472): `float`, `_parse_datetime` (parse_datetime.py:11-18) and
`_parse_datetime_delta` (parse_datetime.py:93-152). A duration of a billion days or more, an OverflowError there, is refused as well. -/
def conv (e : Env) : Limits.Conv D where
  flt := e.flt
  date := fun s => (parseDatetime e s).map .inl
  interval := fun _ => none
  delta := fun s => match parseDelta s with
    | .ok n => some (.inr n)
    | .error _ => none

/-- A coordinate's array, with `units.date2num`, as a function of the instant (microseconds), if its units have one; the identity of the object. -/
structure Column where
  id : Nat
  points : List ℚ
  num : Option (ℚ → ℚ)

abbrev Crd := Coords.Coord Column

/-- An ungridded variable; `none` is a missing value. -/
structure Data where
  coords : List Crd
  values : List (Option ℚ)

inductive Err
  | parse (e : Limits.Err)
  | api (e : AggApi.Err)

/-- `Coord.name()`, the key of `grid_spec` (ungridded_data.py:1303). -/
def key (c : Crd) : Str := ((Coords.name c).getD "").toList

/-- The coordinate as `_aggregate_ungridded` uses it (ungridded_data.py:1274-1303, ungridded_aggregator.py:22-31). -/
def coordOf (c : Crd) : AggApi.Coord := ⟨key c, decide (c.stdName = some "longitude"), c.payload.points, c.payload.num.getD id⟩

/-- `data._get_coord(dim_name)` (ungridded_data.py:1275), as the position of the object found. -/
def lookup (cs : List Crd) (k : Str) : Option Nat :=
  (Coords.lookupCoord standardAxes cs (String.ofList k)).bind (fun c => cs.findIdx? (fun x => x.payload.id = c.payload.id))

/-- A value read, as an argument of `aggregate`; of an infinity only that it is a number matters. -/
def item : Limits.Val D → AggApi.Item
  | .none => .none
  | .num (.fin q) => .num q
  | .num _ => .num 0
  | .date (.inl t) => .date (Time.Spec.instant t)
  | .date (.inr s) => .delta s

def isDate : Limits.Val D → Bool
  | .date (.inl _) => true
  | _ => false

def infinite : Limits.Val D → Bool
  | .num (.fin _) => false
  | .num _ => true
  | _ => false

/-- What becomes of one grid (ungridded_data.py:1276-1303): `len(None)` for a bare name is a TypeError, units without `date2num` an AttributeError;
`np.arange` fails for infinite and undefined limits and steps (ValueError, when the grid is made, so a later keyword's error may come first). -/
def toArg (c : Option Crd) : Limits.Grid D → Except AggApi.Err AggApi.GridArg
  | .collapse => .error .type
  | .slice a b d =>
    match c with
    | none => .ok (.slice (item a) (item b) (item d))
    | some c =>
      if (isDate a || isDate b) && c.payload.num.isNone then .error .attribute
      else if infinite a || infinite b || infinite d then .error .value
      else .ok (.slice (item a) (item b) (item d))

/-- The grids before the first that fails, and its error. -/
def toArgs (cs : List Crd) : List (Str × Limits.Grid D) → List (AggApi.Text × AggApi.GridArg) × Option AggApi.Err
  | [] => ([], none)
  | (k, g) :: t =>
    match toArg ((lookup cs k).bind (fun i => cs[i]?)) g with
    | .error e => ([], some e)
    | .ok a => ((k, a) :: (toArgs cs t).1, (toArgs cs t).2)

/-- The missing values. -/
def masked (d : Data) (p : Nat) : Bool := decide (d.values.getD p none = none)

/-- The values; that of a missing one does not matter. -/
def vals (d : Data) (p : Nat) : ℚ := (d.values.getD p none).getD 0

/-- `aggregate_cmd` (cis_main.py:124-148) up to the save, for one ungridded variable. -/
def run {β : Type} (k : List ℚ → Option β) (sort : (Nat → Int) → List Nat) (e : Env) (d : Data) (text : Str) : Except Err (AggApi.Out β) :=
  match Limits.aggregateGrid (conv e) text with
  | .error x => .error (.parse x)
  | .ok l =>
    match toArgs d.coords l with
    | (args, none) =>
      match AggApi.aggregateApi k (lookup d.coords) (d.coords.map coordOf) args (masked d) (vals d) sort with
      | .error x => .error (.api x)
      | .ok out => .ok out
    | (args, some x) =>
      match AggApi.gridSpec (lookup d.coords) (d.coords.map coordOf) args [] with
      | .error y => .error (.api y)
      | .ok _ => .error (.api x)

/-! ### Specification -/

/-- What a start or an end says: a number; a whole date, as the coordinate counts; or `None`, the extreme value of the coordinate. -/
inductive Spec.Says (e : Env) (c : Column) (extreme : ℚ → Prop) (s : Str) : ℚ → Prop
  | number (q : ℚ) : s ≠ "None".toList → e.flt s = some (.fin q) → Spec.Says e c extreme s q
  | date (t : DateTime) (f : ℚ → ℚ) : SubsetCmd.Spec.FullDate s t → e.flt s = none → c.num = some f → Spec.Says e c extreme s (f (Time.Spec.instant t))
  | default (m : ℚ) : s = "None".toList → extreme m → Spec.Says e c extreme s m

/-- A duration `P[nY][nM][nD][T[nH][nM][nS]]`, in seconds, with years of 365 days and months of 30 days (C26). -/
def Spec.Duration (s : Str) (total : Nat) : Prop :=
  ∃ (y m d : Option Str) (t : Option (Char × Option Str × Option Str × Option Str)),
    (∀ n, y = some n → IsNumeral n) ∧ (∀ n, m = some n → IsNumeral n) ∧ (∀ n, d = some n → IsNumeral n) ∧
    (∀ sep h mi sc, t = some (sep, h, mi, sc) → (sep = 'T' ∨ sep = ' ' ∨ sep = ':') ∧ (∀ n, h = some n → IsNumeral n) ∧
      (∀ n, mi = some n → IsNumeral n) ∧ (∀ n, sc = some n → IsNumeral n)) ∧
    s.map Char.toUpper = Time.Spec.duration y m d t ∧
    total = 86400 * (365 * Time.Spec.num y + 30 * Time.Spec.num m + Time.Spec.num d) +
      (match t with | some (_, h, mi, sc) => 3600 * Time.Spec.num h + 60 * Time.Spec.num mi + Time.Spec.num sc | none => 0) ∧
    total < 86400 * 1000000000

/-- What a step says: a number, or a duration as a number of days. -/
inductive Spec.StepSays (e : Env) (s : Str) : ℚ → Prop
  | number (q : ℚ) : e.flt s = some (.fin q) → Spec.StepSays e s q
  | duration (n : Nat) : e.flt s = none → Spec.Duration s n → Spec.StepSays e s ((n : ℚ) / 86400)

/-- One grid: as it is written, the coordinate it is for, and its start, end and step. -/
structure Spec.Asked where
  dim : Str
  first : Str
  last : Str
  step : Str
  coord : Crd
  grid : ℚ × ℚ × ℚ

/-- The text says the grid; a grid for `x` has numbers, in order, at most 360 apart. -/
def Spec.Denotes (e : Env) (a : Spec.Asked) : Prop :=
  Spec.Says e a.coord.payload (AggApi.Spec.Least a.coord.payload.points) a.first a.grid.1 ∧
  Spec.Says e a.coord.payload (AggApi.Spec.Greatest a.coord.payload.points) a.last a.grid.2.1 ∧
  Spec.StepSays e a.step a.grid.2.2 ∧
  (Limits.lower a.dim = "x".toList → (e.flt a.first).isSome ∧ (e.flt a.last).isSome ∧ a.first ≠ "None".toList ∧ a.last ≠ "None".toList ∧
    a.grid.1 ≤ a.grid.2.1 ∧ a.grid.2.1 ≤ a.grid.1 + 360)

/-- Arrays of one length, objects of their own, names that are different. -/
def Data.WF (d : Data) : Prop :=
  d.coords ≠ [] ∧ d.values ≠ [] ∧ (∀ c ∈ d.coords, c.payload.points.length = d.values.length) ∧
    (d.coords.map (fun c => c.payload.id)).Nodup ∧ (d.coords.map key).Nodup

/-- The grids of the coordinates: the one written, or none. -/
def Spec.Grids (d : Data) (asked : List Spec.Asked) (reqs : List Agg.Req) : Prop :=
  reqs.length = d.coords.length ∧
  (∀ a ∈ asked, ∀ i : Nat, d.coords[i]? = some a.coord → reqs[i]? = some (some a.grid)) ∧
  (∀ (i : Nat) (c : Crd), d.coords[i]? = some c → c ∉ asked.map Spec.Asked.coord → reqs[i]? = some none)

/-- A coordinate as the aggregation sees it: only one with the standard name `longitude` is an angle; dates become numbers in its units. -/
def Spec.column (c : Crd) : AggApi.Coord where
  name := ((Coords.name c).getD "").toList
  isLon := if c.stdName = some "longitude" then true else false
  pts := c.payload.points
  date2num := match c.payload.num with
    | some f => f
    | none => id

/-- The values, not missing, of the points in a cell. -/
noncomputable def Spec.valuesIn (d : Data) (reqs : List Agg.Req) (cell : List Nat) : List ℚ :=
  open Classical in
  ((List.range d.values.length).filter (fun p => decide (AggApi.Spec.InCell (d.coords.map Spec.column) reqs cell p))).filterMap
    (fun p => d.values.getD p none)

/-! ### Proofs -/

theorem column_eq : Spec.column = coordOf := by
  funext c
  obtain ⟨a, b, v, x, y, ⟨i, pts, num⟩⟩ := c
  cases num <;> simp [Spec.column, coordOf, key]

theorem says_value {e : Env} {c : Crd} {ext : ℚ → Prop} {s : Str} {q : ℚ} (h : Spec.Says e c.payload ext s q) :
    ∃ v, Limits.parseValue (conv e) (some s) = .ok v ∧ infinite v = false ∧ (isDate v = true → c.payload.num.isSome) ∧
      AggApi.Spec.Limit (coordOf c) ext (item v) q ∧ ((e.flt s).isSome → s ≠ "None".toList → v = .num (.fin q)) := by
  cases h with
  | number _ hn hf =>
    refine ⟨.num (.fin q), ?_, rfl, by simp [isDate], .number q, fun _ _ => rfl⟩
    rw [Limits.parseValue]
    rw [if_neg hn]
    show (match e.flt s with | some f => _ | none => _) = _
    rw [hf]
  | date t f ht hf hc =>
    obtain ⟨h1, h2⟩ := fullDate_parse (e := e) ht
    refine ⟨.date (.inl t), ?_, rfl, by simp [hc], ?_, by simp [hf]⟩
    · rw [Limits.parseValue]
      rw [if_neg h2]
      have e1 : (conv e).flt s = none := hf
      have e2 : (conv e).date s = some (.inl t) := by
        show (parseDatetime e s).map Sum.inl = _
        rw [h1]; rfl
      rw [e1, e2]
    · have : f (Time.Spec.instant t) = (coordOf c).date2num (Time.Spec.instant t) := by simp [coordOf, hc]
      rw [this]
      exact .date _
  | default _ hs hm =>
    refine ⟨.none, ?_, rfl, by simp [isDate], .default q hm, fun _ h => absurd hs h⟩
    rw [Limits.parseValue]
    rw [if_pos hs]

theorem step_value {e : Env} {s : Str} {q : ℚ} (h : Spec.StepSays e s q) :
    ∃ v, Limits.parseDelta (conv e) s = .ok v ∧ infinite v = false ∧ AggApi.Spec.Step (item v) q := by
  cases h with
  | number _ hf =>
    refine ⟨.num (.fin q), ?_, rfl, .number q⟩
    rw [Limits.parseDelta]
    show (match e.flt s with | some f => _ | none => _) = _
    rw [hf]
  | duration n hf hd =>
    obtain ⟨y, m, d, t, h1, h2, h3, h4, h5, h6, h7⟩ := hd
    have := (Time.c26_grammar y m d t s h1 h2 h3 h4 h5 n (by cases t <;> exact h6) h7).1
    refine ⟨.date (.inr n), ?_, rfl, .days _⟩
    rw [Limits.parseDelta]
    have e1 : (conv e).flt s = none := hf
    have e2 : (conv e).delta s = some (.inr n) := by
      show (match parseDelta s with | .ok n => some (Sum.inr n) | .error _ => none) = _
      rw [this]
    rw [e1, e2]

theorem lookup_ok {cs : List Crd} (hid : (cs.map (fun c => c.payload.id)).Nodup) {k : Str} {c : Crd}
    (h : Coords.lookupCoord standardAxes cs (String.ofList k) = some c) {i : Nat} (hi : cs[i]? = some c) : lookup cs k = some i := by
  rw [lookup, h, Option.bind_some, List.findIdx?_eq_some_iff_getElem]
  have hlt : i < cs.length := by
    rcases Nat.lt_or_ge i cs.length with h | h
    · exact h
    · rw [List.getElem?_eq_none h] at hi; cases hi
  rw [List.getElem?_eq_getElem hlt] at hi
  cases hi
  refine ⟨hlt, by simp, ?_⟩
  intro j hj
  simp only [decide_eq_true_eq]
  intro hc
  have := (List.nodup_iff_injective_get.1 hid) (a₁ := ⟨j, by rw [List.length_map]; omega⟩) (a₂ := ⟨i, by rw [List.length_map]; omega⟩) (by simpa using hc)
  simp at this
  omega

theorem lookup_mem {V : Type} (axes : String → Option String) (cs : List (Coords.Coord V)) (n : String) (c : Coords.Coord V)
    (h : Coords.lookupCoord axes cs n = some c) : c ∈ cs := by
  have ht : ∀ k : Coords.Criteria V, Coords.tryCoord cs k = some c → c ∈ cs := by
    intro k hk
    unfold Coords.tryCoord at hk
    split at hk
    · rename_i x hx
      obtain rfl : x = c := by simpa using hk
      rcases (Coords.c45_get_coord_exact cs k x).1 hx with h | ⟨-, ⟨-, h⟩ | ⟨n, -, h⟩⟩
      · have : x ∈ Coords.getCoords cs k := by rw [h]; simp
        rw [Coords.c45_get_coords] at this
        exact (List.mem_filter.1 this).1
      · rw [h]; simp
      · have : x ∈ cs.filter (fun y => y.stdName == some n) := by rw [h]; simp
        exact (List.mem_filter.1 this).1
    · cases hk
  unfold Coords.lookupCoord at h
  simp only [Option.orElse_eq_orElse, Option.orElse_eq_or, Option.or_eq_some_iff] at h
  rcases h with h | ⟨-, h⟩
  · exact ht _ h
  · rcases h with h | ⟨-, h⟩
    · exact ht _ h
    · rcases h with h | ⟨-, h⟩
      · exact ht _ h
      · rcases h with h | ⟨-, h⟩
        · exact ht _ h
        · exact ht _ h

/-- A piece of the argument, read. -/
theorem seg_ok {e : Env} {a : Spec.Asked} (w1 : Limits.Spec.Word ['=', ',', '[', '('] a.dim) (w2 : Limits.Spec.Word [']', ',', '[', '('] a.first)
    (w3 : Limits.Spec.Word [']', ',', '[', '('] a.last) (w4 : Limits.Spec.Word [']', ',', '[', '('] a.step) (h : Spec.Denotes e a) :
    ∃ va vb vc, Limits.gridSeg (conv e) (Limits.Spec.renderGrid a.dim a.first a.last a.step) = .ok (a.dim, .slice va vb vc) ∧
      toArg (some a.coord) (.slice va vb vc) = .ok (.slice (item va) (item vb) (item vc)) ∧
      AggApi.Spec.Meant (coordOf a.coord) (.slice (item va) (item vb) (item vc)) a.grid := by
  obtain ⟨h1, h2, h3, h4⟩ := h
  obtain ⟨va, pa, ia, da, la, na⟩ := says_value h1
  obtain ⟨vb, pb, ib, db, lb, nb⟩ := says_value h2
  obtain ⟨vc, pc, ic, lc⟩ := step_value h3
  have sub : ∀ {b b' : List Char} {s : Str}, b' ⊆ b → Limits.Spec.Word b s → Limits.Spec.Word b' s :=
    fun hb h => ⟨h.1, fun c hc hm => h.2 c hc (hb hm)⟩
  refine ⟨va, vb, vc, ?_, ?_, ?_⟩
  · refine (Limits.c82_grid (conv e) a.dim a.first a.last a.step va vb vc (sub (by simp) w1) (sub (by simp) w2) (sub (by simp) w3) (sub (by simp) w4) pa pb pc).1 ?_
    by_cases hx : Limits.lower a.dim = "x".toList
    · obtain ⟨f1, f2, f3, f4, f5, f6⟩ := h4 hx
      exact .inr ⟨_, _, na f1 f3, nb f2 f4, f5, f6⟩
    · exact .inl hx
  · rw [toArg, if_neg, if_neg]
    · simp [ia, ib, ic]
    · intro hc
      simp only [Bool.and_eq_true, Bool.or_eq_true] at hc
      obtain ⟨hc, hn⟩ := hc
      have : a.coord.payload.num.isSome := hc.elim da db
      cases hnum : a.coord.payload.num <;> simp_all
  · exact .slice la lb lc

theorem toArgs_ok (cs : List Crd) : ∀ (L : List (Str × Crd × Limits.Grid D × AggApi.GridArg)),
    (∀ r ∈ L, (lookup cs r.1).bind (fun i => cs[i]?) = some r.2.1 ∧ toArg (some r.2.1) r.2.2.1 = .ok r.2.2.2) →
    toArgs cs (L.map (fun r => (r.1, r.2.2.1))) = (L.map (fun r => (r.1, r.2.2.2)), none)
  | [], _ => rfl
  | r :: t, h => by
    obtain ⟨h1, h2⟩ := h r (by simp)
    rw [List.map_cons, toArgs, h1, h2]
    dsimp only
    rw [toArgs_ok cs t (fun r hr => h r (by simp [hr]))]
    rfl

open Classical in
/-- **C182.** A grid argument of `cis aggregate` made of grids `name=[start,end,step]`, in any number and order, where every name finds a coordinate,
different ones, every text says a grid that is not empty with a positive step, and longitudes follow a convention (C106): the output has, for each
coordinate that is written, the cells from the start by the step to the end, and one cell from the least to the greatest value for the others; the value
of each cell is the kernel's value for the values, not missing, of exactly the points that lie in it. -/
theorem c182_aggregate {β : Type} (k : List ℚ → Option β) (hk : Agg.Spec.Kernel k) (sort : (Nat → Int) → List Nat) (e : Env) (d : Data) (hwf : d.WF)
    (hsort : ∀ key, DataIndex.Spec.Sorts d.values.length key (sort key)) (asked : List Spec.Asked) (hne : asked ≠ [])
    (hword : ∀ a ∈ asked, Limits.Spec.Word ['=', ',', '[', '('] a.dim ∧ Limits.Spec.Word [']', ',', '[', '('] a.first ∧
      Limits.Spec.Word [']', ',', '[', '('] a.last ∧ Limits.Spec.Word [']', ',', '[', '('] a.step)
    (hsays : ∀ a ∈ asked, Spec.Denotes e a)
    (hfind : ∀ a ∈ asked, Coords.lookupCoord standardAxes d.coords (String.ofList a.dim) = some a.coord)
    (hdims : (asked.map Spec.Asked.dim).Nodup) (hdiff : (asked.map Spec.Asked.coord).Nodup)
    (hok : ∀ a ∈ asked, a.grid.1 < a.grid.2.1 ∧ 0 < a.grid.2.2)
    (hconv : ∀ a ∈ asked, AggApi.Spec.Convention (Spec.column a.coord) (some a.grid))
    (reqs : List Agg.Req) (hr : Spec.Grids d asked reqs) :
    ∃ out, run k sort e d (Parse.joinBy ',' (asked.map (fun a => Limits.Spec.renderGrid a.dim a.first a.last a.step))) = .ok out ∧
      (∀ cell, out.cell cell = k (Spec.valuesIn d reqs cell)) ∧
      out.coords.length = d.coords.length ∧
      ∀ (i : Nat) (c : Crd) (r : Agg.Req) (x : List ℚ × List (ℚ × ℚ)), d.coords[i]? = some c → reqs[i]? = some r → out.coords[i]? = some x →
        AggApi.Spec.NewCoord (Spec.column c) r x := by
  have hcol : Spec.column = coordOf := column_eq
  simp only [hcol] at hconv ⊢
  obtain ⟨hcne, hvne, hlen, hids, hkeys⟩ := hwf
  obtain ⟨hrl, hra, hrn⟩ := hr
  have hmem : ∀ a ∈ asked, a.coord ∈ d.coords := fun a ha => lookup_mem _ _ _ _ (hfind a ha)
  have hidx : ∀ a ∈ asked, ∃ i, d.coords[i]? = some a.coord ∧ lookup d.coords a.dim = some i := by
    intro a ha
    obtain ⟨i, hi⟩ := List.mem_iff_getElem?.1 (hmem a ha)
    exact ⟨i, hi, lookup_ok hids (hfind a ha) hi⟩
  obtain ⟨L, hL1, hL2⟩ : ∃ L : List (Spec.Asked × Limits.Grid D × AggApi.GridArg), L.map Prod.fst = asked ∧ ∀ r ∈ L,
      Limits.gridSeg (conv e) (Limits.Spec.renderGrid r.1.dim r.1.first r.1.last r.1.step) = .ok (r.1.dim, r.2.1) ∧
        toArg (some r.1.coord) r.2.1 = .ok r.2.2 ∧ AggApi.Spec.Meant (coordOf r.1.coord) r.2.2 r.1.grid := by
    clear hne hfind hdims hdiff hok hconv hra hrn hmem hidx
    induction asked with
    | nil => exact ⟨[], rfl, by simp⟩
    | cons a t ih =>
      obtain ⟨L, h1, h2⟩ := ih (fun b hb => hword b (by simp [hb])) (fun b hb => hsays b (by simp [hb]))
      obtain ⟨w1, w2, w3, w4⟩ := hword a (by simp)
      obtain ⟨va, vb, vc, s1, s2, s3⟩ := seg_ok w1 w2 w3 w4 (hsays a (by simp))
      refine ⟨(a, .slice va vb vc, .slice (item va) (item vb) (item vc)) :: L, by simp [h1], ?_⟩
      intro r hr
      rcases List.mem_cons.1 hr with rfl | hr
      · exact ⟨s1, s2, s3⟩
      · exact h2 r hr
  have hLm : ∀ r ∈ L, r.1 ∈ asked := fun r hr => by rw [← hL1]; exact List.mem_map.2 ⟨r, hr, rfl⟩
  have hparse : Limits.aggregateGrid (conv e) (Parse.joinBy ',' (asked.map (fun a => Limits.Spec.renderGrid a.dim a.first a.last a.step))) =
      .ok (L.map (fun r => (r.1.dim, r.2.1))) := by
    have h := (Limits.c82_argument (conv e) (asked.map (fun a => (a.dim, some (a.first, a.last, a.step)))) (by simpa using hne) (by
      intro x hx
      obtain ⟨a, ha, rfl⟩ := List.mem_map.1 hx
      obtain ⟨w1, w2, w3, w4⟩ := hword a ha
      refine ⟨w1, ?_⟩
      intro p q r hpqr
      cases hpqr
      exact ⟨w2, w3, w4⟩)).1 (L.map (fun r => (r.1.dim, r.2.1)))
    have hmm : asked.map (fun a => Limits.Spec.renderGrid a.dim a.first a.last a.step) =
        (asked.map (fun a => (a.dim, some (a.first, a.last, a.step)))).map Limits.Spec.gridText := by rw [List.map_map]; rfl
    rw [hmm]
    apply h
    · rw [List.map_map, List.map_map, ← hL1, List.map_map]
      apply List.map_congr_left
      intro r hr
      exact (hL2 r hr).1
    · rw [List.map_map]
      have : L.map (Prod.fst ∘ fun r : Spec.Asked × Limits.Grid D × AggApi.GridArg => (r.1.dim, r.2.1)) = (L.map Prod.fst).map Spec.Asked.dim := by
        rw [List.map_map]; rfl
      rw [this, hL1]; exact hdims
  have hargs : toArgs d.coords (L.map (fun r => (r.1.dim, r.2.1))) = (L.map (fun r => (r.1.dim, r.2.2)), none) := by
    have := toArgs_ok d.coords (L.map (fun r => (r.1.dim, r.1.coord, r.2.1, r.2.2))) (by
      intro x hx
      obtain ⟨r, hr, rfl⟩ := List.mem_map.1 hx
      obtain ⟨i, h1, h2⟩ := hidx r.1 (hLm r hr)
      refine ⟨?_, (hL2 r hr).2.1⟩
      show (lookup d.coords r.1.dim).bind (fun i => d.coords[i]?) = some r.1.coord
      rw [h2, Option.bind_some, h1])
    rw [List.map_map, List.map_map] at this
    exact this
  have hcoordinj : ∀ a ∈ asked, ∀ b ∈ asked, lookup d.coords a.dim = lookup d.coords b.dim → a = b := by
    intro a ha b hb h
    obtain ⟨i, h1, h2⟩ := hidx a ha
    obtain ⟨j, h3, h4⟩ := hidx b hb
    rw [h2, h4] at h
    cases h
    rw [h1] at h3
    exact List.inj_on_of_nodup_map hdiff ha hb (Option.some.inj h3)
  have hW : AggApi.Spec.WellFormed (lookup d.coords) (d.coords.map coordOf) (L.map (fun r => (r.1.dim, r.2.2))) := by
    refine ⟨?_, ?_, ?_⟩
    · intro x hx
      obtain ⟨r, hr, rfl⟩ := List.mem_map.1 hx
      obtain ⟨i, h1, h2⟩ := hidx r.1 (hLm r hr)
      refine ⟨i, h2, ?_⟩
      rw [List.length_map]
      rcases Nat.lt_or_ge i d.coords.length with h | h
      · exact h
      · rw [List.getElem?_eq_none h] at h1; cases h1
    · have : (L.map (fun r => (r.1.dim, r.2.2))).map (fun x => lookup d.coords x.1) = asked.map (fun a => lookup d.coords a.dim) := by
        rw [List.map_map, ← hL1, List.map_map]; rfl
      rw [this]
      exact List.Nodup.map_on (fun a ha b hb h => hcoordinj a ha b hb h) (hdiff.of_map _)
    · have : (d.coords.map coordOf).map AggApi.Coord.name = d.coords.map key := by rw [List.map_map]; rfl
      rw [this]; exact hkeys
  have hA : ∀ i r, reqs[i]? = some r → AggApi.Spec.Asks (lookup d.coords) (d.coords.map coordOf) (L.map (fun r => (r.1.dim, r.2.2))) i r := by
    intro i r hir
    have hi : i < d.coords.length := by
      rcases Nat.lt_or_ge i reqs.length with h | h
      · omega
      · rw [List.getElem?_eq_none h] at hir; cases hir
    by_cases hc : d.coords[i] ∈ asked.map Spec.Asked.coord
    · obtain ⟨a, ha, hac⟩ := List.mem_map.1 hc
      have hia : d.coords[i]? = some a.coord := by rw [List.getElem?_eq_getElem hi, hac]
      have h1 := hra a ha i hia
      rw [hir] at h1
      cases h1
      obtain ⟨x, hx, hxa⟩ : ∃ x ∈ L, x.1 = a := by
        rw [← hL1] at ha
        obtain ⟨x, hx, rfl⟩ := List.mem_map.1 ha
        exact ⟨x, hx, rfl⟩
      subst hxa
      refine .inl ⟨x.1.dim, x.2.2, coordOf x.1.coord, x.1.grid, List.mem_map.2 ⟨x, hx, rfl⟩, lookup_ok hids (hfind _ ha) hia, ?_, (hL2 x hx).2.2, rfl⟩
      rw [List.getElem?_map, hia]; rfl
    · have h1 := hrn i d.coords[i] (List.getElem?_eq_getElem hi) hc
      rw [hir] at h1
      cases h1
      refine .inr ⟨?_, rfl⟩
      intro k' g hkg hl
      obtain ⟨x, hx, hxe⟩ := List.mem_map.1 hkg
      cases hxe
      obtain ⟨j, h2, h3⟩ := hidx x.1 (hLm x hx)
      rw [h3] at hl
      cases hl
      rw [List.getElem?_eq_getElem hi] at h2
      exact hc (List.mem_map.2 ⟨x.1, hLm x hx, (Option.some.inj h2).symm⟩)
  have hreq : ∀ (i : Nat) (c : Crd) (r : Agg.Req), d.coords[i]? = some c → reqs[i]? = some r → r = none ∨ ∃ a ∈ asked, a.coord = c ∧ r = some a.grid := by
    intro i c r hc hir
    by_cases hm : c ∈ asked.map Spec.Asked.coord
    · obtain ⟨a, ha, rfl⟩ := List.mem_map.1 hm
      have := hra a ha i hc
      rw [hir] at this
      exact .inr ⟨a, ha, rfl, Option.some.inj this⟩
    · have := hrn i c hc hm
      rw [hir] at this
      exact .inl (Option.some.inj this)
  obtain ⟨out, ho1, ho2, ho3, ho4⟩ := AggApi.c106_cells k hk (lookup d.coords) (d.coords.map coordOf) (L.map (fun r => (r.1.dim, r.2.2))) (masked d) (vals d) sort
    d.values.length (List.length_pos_iff.2 hvne) hsort (by simpa using hcne) (by
      intro c hc
      obtain ⟨c', hc', rfl⟩ := List.mem_map.1 hc
      exact hlen c' hc') hW reqs (by rw [List.length_map, hrl]) hA (by
      intro r hr
      obtain ⟨i, hi⟩ := List.mem_iff_getElem?.1 hr
      have hlt : i < d.coords.length := by
        rcases Nat.lt_or_ge i reqs.length with h | h
        · omega
        · rw [List.getElem?_eq_none h] at hi; cases hi
      rcases hreq i _ r (List.getElem?_eq_getElem hlt) hi with rfl | ⟨a, ha, -, rfl⟩
      · trivial
      · exact hok a ha) (by
      intro i c r hc hir
      rw [List.getElem?_map, Option.map_eq_some_iff] at hc
      obtain ⟨c', hc', rfl⟩ := hc
      rcases hreq i c' r hc' hir with rfl | ⟨a, ha, rfl, rfl⟩
      · trivial
      · exact hconv a ha)
  refine ⟨out, ?_, ?_, ?_, ?_⟩
  · rw [run, hparse]
    dsimp only
    rw [hargs]
    dsimp only
    rw [ho1]
  · intro cell
    rw [ho2 cell]
    congr 1
    rw [Spec.valuesIn, AggApi.Spec.points, ← List.filterMap_eq_map, List.filterMap_filter, List.filterMap_filter]
    apply List.filterMap_congr
    intro p _
    rw [hcol]
    by_cases hc : AggApi.Spec.InCell (d.coords.map coordOf) reqs cell p
    · cases hv : d.values.getD p none with
      | none =>
        have hm : masked d p = true := by rw [masked, hv]; rfl
        rw [hm, decide_eq_true hc]; rfl
      | some v =>
        have hm : masked d p = false := by rw [masked, hv]; rfl
        have hv' : vals d p = v := by rw [vals, hv]; rfl
        rw [hm, decide_eq_true hc, ← hv']; rfl
    · simp [hc]
  · rw [ho3, List.length_map]
  · intro i c r x hc hir hx
    exact ho4 i (coordOf c) r x (by rw [List.getElem?_map, hc]; rfl) hir hx

/-! ### C183: what the documentation says and the command does not do -/

theorem gridSeg_dim (cv : Limits.Conv D) (seg : Str) (r : Str × Limits.Grid D) (h : Limits.gridSeg cv seg = .ok r) :
    r.1 = seg.takeWhile (· != '=') := by
  have hm : ∀ dim s e d, Limits.matchGrid seg = some (dim, s, e, d) → dim = seg.takeWhile (· != '=') := by
    intro dim s e d h
    unfold Limits.matchGrid at h
    dsimp only at h
    split at h
    · cases h
    · split at h
      · split at h <;> · cases h; rfl
      · cases h; rfl
  unfold Limits.gridSeg at h
  split at h
  · cases h
  · rename_i dim s e d hmg
    rw [← hm _ _ _ _ hmg]
    repeat' (split at h)
    all_goals first | (cases h; rfl) | cases h

theorem toArgs_collapse (cs : List Crd) : ∀ (l : List (Str × Limits.Grid D)), (∃ x ∈ l, x.2 = .collapse) → ∃ a x, toArgs cs l = (a, some x)
  | [], h => by obtain ⟨x, hx, -⟩ := h; cases hx
  | (k, g) :: t, h => by
    rw [toArgs]
    cases ha : toArg ((lookup cs k).bind (fun i => cs[i]?)) g with
    | error e => exact ⟨_, _, rfl⟩
    | ok a =>
      obtain ⟨x, hx, hc⟩ := h
      rcases List.mem_cons.1 hx with rfl | hx
      · simp only at hc
        rw [hc] at ha
        cases ha
      · obtain ⟨b, y, h⟩ := toArgs_collapse cs t ⟨x, hx, hc⟩
        dsimp only
        rw [h]
        exact ⟨_, _, rfl⟩

/-- An infinite or undefined number. -/
def Spec.NotFinite (v : Limits.Val D) : Prop := v = .num .pinf ∨ v = .num .ninf ∨ v = .num .nan

/-- C182: a grid with a start, end or step that is infinite or undefined, for a coordinate of the data, gives no output, whatever else is asked. -/
theorem c182_infinite {β : Type} (k : List ℚ → Option β) (sort : (Nat → Int) → List Nat) (e : Env) (d : Data) (hwf : d.WF) (text : Str)
    (l : List (Str × Limits.Grid D)) (hl : Limits.aggregateGrid (conv e) text = .ok l) (dim : Str) (c : Crd) (a b step : Limits.Val D)
    (hm : (dim, Limits.Grid.slice a b step) ∈ l) (hc : Coords.lookupCoord standardAxes d.coords (String.ofList dim) = some c)
    (hinf : Spec.NotFinite a ∨ Spec.NotFinite b ∨ Spec.NotFinite step) : ∃ x, run k sort e d text = .error x := by
  have hi : ∀ v, Spec.NotFinite v → infinite v = true := by rintro v (rfl | rfl | rfl) <;> rfl
  have hmem := lookup_mem standardAxes d.coords _ c hc
  obtain ⟨i, hilt, hic⟩ := List.mem_iff_getElem.1 hmem
  have hget : d.coords[i]? = some c := by rw [List.getElem?_eq_getElem hilt, hic]
  have hlook := lookup_ok hwf.2.2.2.1 hc hget
  have harg : ∃ x, toArg (some c) (.slice a b step) = .error x := by
    rw [toArg]
    split
    · exact ⟨_, rfl⟩
    · rw [if_pos]
      · exact ⟨_, rfl⟩
      · rcases hinf with h | h | h <;> simp [hi _ h]
  have hargs : ∀ l : List (Str × Limits.Grid D), (dim, Limits.Grid.slice a b step) ∈ l → ∃ g x, toArgs d.coords l = (g, some x) := by
    intro l
    induction l with
    | nil => intro h; cases h
    | cons y t ih =>
      obtain ⟨n, g⟩ := y
      intro h
      rw [toArgs]
      cases hg : toArg ((lookup d.coords n).bind (fun i => d.coords[i]?)) g with
      | error x => exact ⟨_, _, rfl⟩
      | ok v =>
        rcases List.mem_cons.1 h with h | h
        · cases h
          rw [hlook, Option.bind_some, hget] at hg
          obtain ⟨x, hx⟩ := harg
          rw [hx] at hg
          cases hg
        · obtain ⟨g', x, h'⟩ := ih h
          dsimp only
          rw [h']
          exact ⟨_, _, rfl⟩
  obtain ⟨g, x, hx⟩ := hargs l hm
  rw [run, hl]
  dsimp only
  rw [hx]
  dsimp only
  cases AggApi.gridSpec (lookup d.coords) (d.coords.map coordOf) g [] with
  | error y => exact ⟨_, rfl⟩
  | ok y => exact ⟨_, rfl⟩

/-- C183 violated, complete collapse: "simply provide the name of the coordinate(s)", "for ungridded data this will result in length one coordinates"; but
with a name alone in it, alone or among grids, the command fails whatever the data are (`len(None)`). -/
theorem c183_collapse_violated {β : Type} (k : List ℚ → Option β) (sort : (Nat → Int) → List Nat) (e : Env) (d : Data)
    (segs : List (Str × Option (Str × Str × Str)))
    (hw : ∀ x ∈ segs, Limits.Spec.Word ['=', ',', '[', '('] x.1 ∧ ∀ a b c, x.2 = some (a, b, c) →
      Limits.Spec.Word [']', ',', '[', '('] a ∧ Limits.Spec.Word [']', ',', '[', '('] b ∧ Limits.Spec.Word [']', ',', '[', '('] c)
    (hd : (segs.map Prod.fst).Nodup) (hbare : ∃ x ∈ segs, x.2 = none) :
    ∃ x, run k sort e d (Parse.joinBy ',' (segs.map Limits.Spec.gridText)) = .error x := by
  have hne : segs ≠ [] := by
    rintro rfl
    obtain ⟨x, hx, -⟩ := hbare
    cases hx
  obtain ⟨h1, h2⟩ := Limits.c82_argument (conv e) segs hne hw
  by_cases hex : ∃ x ∈ segs, ∃ y, Limits.gridSeg (conv e) (Limits.Spec.gridText x) = .error y
  · obtain ⟨y, hy⟩ := h2 hex
    exact ⟨.parse y, by rw [run, hy]⟩
  · have hall : ∀ x ∈ segs, ∃ r, Limits.gridSeg (conv e) (Limits.Spec.gridText x) = .ok r ∧ r.1 = x.1 ∧ (x.2 = none → r.2 = .collapse) := by
      intro x hx
      obtain ⟨dim, g⟩ := x
      cases hg : Limits.gridSeg (conv e) (Limits.Spec.gridText (dim, g)) with
      | error y => exact absurd ⟨_, hx, y, hg⟩ hex
      | ok r =>
        refine ⟨r, rfl, ?_, ?_⟩
        · have hw1 := (hw _ hx).1
          have hdim := gridSeg_dim (conv e) _ r hg
          rw [hdim]
          obtain ⟨hn, hc⟩ := hw1
          have h0 : ∀ c ∈ dim, (c != '=') = true := by
            intro c hc'
            have := hc c hc'
            simp only [List.mem_cons, not_or] at this
            simpa using this.1
          cases g with
          | none =>
            show dim.takeWhile (· != '=') = dim
            exact (Time.takeWhile_self h0).1
          | some g =>
            obtain ⟨a, b, c⟩ := g
            show (dim ++ "=[".toList ++ a ++ ",".toList ++ b ++ ",".toList ++ c ++ "]".toList).takeWhile (· != '=') = dim
            simp only [List.append_assoc]
            rw [List.takeWhile_append_of_pos h0]
            simp
        · rintro rfl
          have := Limits.c82_bare_name (conv e) dim ⟨(hw _ hx).1.1, fun c hc => by
            have := (hw _ hx).1.2 c hc
            simp only [List.mem_cons, not_or, List.not_mem_nil] at this ⊢
            exact ⟨this.1, fun h => h⟩⟩
          have hg' : Limits.gridSeg (conv e) dim = .ok r := hg
          rw [this] at hg'
          cases hg'
          rfl
    obtain ⟨R, hR1, hR2, hR3⟩ : ∃ R : List (Str × Limits.Grid D), segs.map (fun x => Limits.gridSeg (conv e) (Limits.Spec.gridText x)) = R.map .ok ∧
        R.map Prod.fst = segs.map Prod.fst ∧ ((∃ x ∈ segs, x.2 = none) → ∃ r ∈ R, r.2 = .collapse) := by
      clear hne h1 h2 hex hd hw hbare
      induction segs with
      | nil => exact ⟨[], rfl, rfl, by rintro ⟨x, hx, -⟩; cases hx⟩
      | cons x t ih =>
        obtain ⟨R, r1, r2, r3⟩ := ih (fun y hy => hall y (by simp [hy]))
        obtain ⟨r, q1, q2, q3⟩ := hall x (by simp)
        refine ⟨r :: R, by rw [List.map_cons, List.map_cons, q1, r1], by rw [List.map_cons, List.map_cons, q2, r2], ?_⟩
        rintro ⟨y, hy, hyn⟩
        rcases List.mem_cons.1 hy with rfl | hy
        · exact ⟨r, by simp, q3 hyn⟩
        · obtain ⟨z, hz, hzc⟩ := r3 ⟨y, hy, hyn⟩
          exact ⟨z, by simp [hz], hzc⟩
    have hp := h1 R hR1 (by rw [hR2]; exact hd)
    obtain ⟨a, x, ha⟩ := toArgs_collapse d.coords R (hR3 hbare)
    rw [run, hp]
    dsimp only
    rw [ha]
    dsimp only
    cases AggApi.gridSpec (lookup d.coords) (d.coords.map coordOf) a [] with
    | error y => exact ⟨_, rfl⟩
    | ok y => exact ⟨_, rfl⟩

/-- C183 violated, "the step may be missed out, in which case the bin will span the whole range given": it may not. -/
theorem c183_step_violated {β : Type} (k : List ℚ → Option β) (sort : (Nat → Int) → List Nat) (e : Env) (d : Data) (dim a b : Str)
    (hd : Limits.Spec.Word ['=', ',', '[', '('] dim) (ha : Limits.Spec.Word [']', ',', '[', '('] a) (hb : Limits.Spec.Word [']', ',', '[', '('] b) :
    run k sort e d (Limits.Spec.render dim a (some b)) = .error (.parse .parser) := by
  have hone := Parse.c30_join_roundtrip [','] Parse.defaultClose ',' (by simp) (by rfl) [Limits.Spec.render dim a (some b)] (by simp) (by
      intro h
      have h2 : Limits.Spec.render dim a (some b) = [] := by simpa using h
      have := congrArg List.length h2
      simp [Limits.Spec.render] at this) (by
      intro f hf
      obtain rfl : f = _ := by simpa using hf
      unfold Limits.Spec.render
      dsimp only
      rw [List.append_assoc (dim ++ "=[".toList) a]
      apply Parse.Piece.bracketed
      · intro x hx
        have := hd.2 x hx
        simp only [List.mem_cons, not_or, List.not_mem_nil] at this ⊢
        tauto
      · intro x hx
        rcases List.mem_append.1 hx with hx | hx
        · have := ha.2 x hx
          simp only [List.mem_cons, not_or, List.not_mem_nil] at this ⊢
          tauto
        · rcases List.mem_cons.1 hx with rfl | hx
          · decide
          · have := hb.2 x hx
            simp only [List.mem_cons, not_or, List.not_mem_nil] at this ⊢
            tauto)
  have hj : Parse.joinBy ',' [Limits.Spec.render dim a (some b)] = Limits.Spec.render dim a (some b) := rfl
  rw [hj] at hone
  have sub : ∀ {b b' : List Char} {s : Str}, b' ⊆ b → Limits.Spec.Word b s → Limits.Spec.Word b' s :=
    fun hb h => ⟨h.1, fun c hc hm => h.2 c hc (hb hm)⟩
  have hseg := Limits.c82_no_delta (conv e) dim a b (sub (by simp) hd) (sub (by simp) ha) (sub (by simp) hb)
  rw [run, Limits.aggregateGrid]
  simp only [hone]
  rw [if_neg (by simp), Limits.segLoop, hseg]

/-- C183 violated, `t=[2010,2011,P1M]`: years are dates "any trailing components" of which "may be omitted", but they are read as numbers of days. -/
theorem c183_year_violated (e : Env) (h1 : e.flt "2010".toList = some (.fin 2010)) (h2 : e.flt "2011".toList = some (.fin 2011))
    (h3 : e.flt "P1M".toList = none) :
    Limits.gridSeg (conv e) "t=[2010,2011,P1M]".toList =
      .ok ("t".toList, .slice (.num (.fin 2010)) (.num (.fin 2011)) (.date (.inr (30 * 86400)))) := by
  refine (Limits.c82_grid (conv e) "t".toList "2010".toList "2011".toList "P1M".toList _ _ _ ⟨by decide, by decide⟩ ⟨by decide, by decide⟩
    ⟨by decide, by decide⟩ ⟨by decide, by decide⟩ ?_ ?_ ?_).1 (.inl (by decide))
  · rw [Limits.parseValue, if_neg (by decide), show (conv e).flt _ = _ from h1]
  · rw [Limits.parseValue, if_neg (by decide), show (conv e).flt _ = _ from h2]
  · rw [Limits.parseDelta, show (conv e).flt _ = _ from h3]
    rfl

/-- C183 violated, dates as ends: "the earliest date/time compatible with the supplied components" as start and "the latest" as end; but the day is that
on which the command runs, at midnight, at both ends. -/
theorem c183_range_dates_violated (e : Env) (hd : 1 ≤ e.today.day) (h1 : e.flt "2011-11".toList = none) (h2 : e.flt "2013-01".toList = none)
    (h3 : e.flt "P1M".toList = none) :
    Limits.gridSeg (conv e) "t=[2011-11,2013-01,P1M]".toList =
      .ok ("t".toList, .slice (.date (.inl ⟨2011, 11, min e.today.day 30, 0, 0, 0, 0⟩)) (.date (.inl ⟨2013, 1, min e.today.day 31, 0, 0, 0, 0⟩))
        (.date (.inr (30 * 86400)))) := by
  have f1 : dateFields "2011-11".toList = some [2011, 11] := by decide +kernel
  have f2 : dateFields "2013-01".toList = some [2013, 1] := by decide +kernel
  have p1 : parseDatetime e "2011-11".toList = some ⟨2011, 11, min e.today.day 30, 0, 0, 0, 0⟩ := by
    rw [parseDatetime, f1]
    show complete e.today [2011, 11] = _
    rw [complete]
    have : daysInMonth 2011 11 = 30 := by decide
    simp only [List.getD_cons_zero, List.getD_cons_succ, List.getElem?_cons_succ, List.getElem?_nil, Option.getD_none, this, List.getD_nil]
    rw [if_pos]
    rw [validDT]
    simp [this]
    omega
  have p2 : parseDatetime e "2013-01".toList = some ⟨2013, 1, min e.today.day 31, 0, 0, 0, 0⟩ := by
    rw [parseDatetime, f2]
    show complete e.today [2013, 1] = _
    rw [complete]
    have : daysInMonth 2013 1 = 31 := by decide
    simp only [List.getD_cons_zero, List.getD_cons_succ, List.getElem?_cons_succ, List.getElem?_nil, Option.getD_none, this, List.getD_nil]
    rw [if_pos]
    rw [validDT]
    simp [this]
    omega
  refine (Limits.c82_grid (conv e) "t".toList "2011-11".toList "2013-01".toList "P1M".toList _ _ _ ⟨by decide, by decide⟩ ⟨by decide, by decide⟩
    ⟨by decide, by decide⟩ ⟨by decide, by decide⟩ ?_ ?_ ?_).1 (.inl (by decide))
  · rw [Limits.parseValue, if_neg (by decide), show (conv e).flt _ = _ from h1, show (conv e).date _ = (parseDatetime e _).map Sum.inl from rfl, p1]
    rfl
  · rw [Limits.parseValue, if_neg (by decide), show (conv e).flt _ = _ from h2, show (conv e).date _ = (parseDatetime e _).map Sum.inl from rfl, p2]
    rfl
  · rw [Limits.parseDelta, show (conv e).flt _ = _ from h3]
    rfl

/-- C183 violated, "years and months are treated as calendar years and months": the cells of the documented example
`t=[2011-11-03T12:00,…,P1M]` begin every 30 days, the third not on 3 January 2012, whatever the origin of a count of days. -/
theorem c183_calendar_violated (e : Env) (hf : e.flt "P1M".toList = none) (c : AggApi.Coord) (origin stop : ℚ) (f : ℚ → ℚ)
    (hday : ∀ i, f i = i / (86400 * 1000000) - origin) (x : List ℚ × List (ℚ × ℚ)) (h2 : 2 < x.1.length)
    (hx : AggApi.Spec.NewCoord c (some (f (Time.Spec.instant ⟨2011, 11, 3, 12, 0, 0, 0⟩), stop, 30)) x) :
    Spec.StepSays e "P1M".toList 30 ∧ x.2[2]?.map Prod.fst = some (f (Time.Spec.instant ⟨2012, 1, 2, 12, 0, 0, 0⟩)) ∧
      f (Time.Spec.instant ⟨2012, 1, 2, 12, 0, 0, 0⟩) ≠ f (Time.Spec.instant ⟨2012, 1, 3, 12, 0, 0, 0⟩) := by
  have i1 : Time.Spec.instant ⟨2011, 11, 3, 12, 0, 0, 0⟩ = 63455918400000000 := by decide +kernel
  have i2 : Time.Spec.instant ⟨2012, 1, 2, 12, 0, 0, 0⟩ = 63455918400000000 + 60 * 86400 * 1000000 := by decide +kernel
  have i3 : Time.Spec.instant ⟨2012, 1, 3, 12, 0, 0, 0⟩ = 63455918400000000 + 61 * 86400 * 1000000 := by decide +kernel
  refine ⟨?_, ?_, ?_⟩
  · have := Spec.StepSays.duration (e := e) (s := "P1M".toList) (30 * 86400) hf
      ⟨none, some "1".toList, none, none, by simp, by simp [IsNumeral], by simp, by simp, by decide, by decide, by decide⟩
    have h30 : ((30 * 86400 : Nat) : ℚ) / 86400 = 30 := by norm_num
    rwa [h30] at this
  · obtain ⟨-, -, h⟩ := hx
    rw [(h 2 h2).2, i1, i2, hday, hday]
    simp only [Option.map_some, Option.some.injEq]
    push_cast
    ring
  · rw [i2, i3, hday, hday]
    push_cast
    norm_num

/-! ### Non-vacuity -/

def exFloat (s : Str) : Option Limits.Fl :=
  if s = "0".toList then some (.fin 0) else if s = "90".toList then some (.fin 90) else if s = "30".toList then some (.fin 30) else none
def exEnv' : Env := ⟨exFloat, ⟨2020, 6, 15, 0, 0, 0, 0⟩, fun _ => none⟩
/-- Days since the beginning of 2008. -/
def exNum (i : ℚ) : ℚ := i / (86400 * 1000000) - 733041
def exLatitude : Crd := ⟨some "latitude", none, some "lat", "Y", [], ⟨0, [10, 40, 50, 80], none⟩⟩
def exTimes : Crd := ⟨some "time", none, some "time", "T", [], ⟨1, [1, 2, 3, 4], some exNum⟩⟩
def exAgg : Data := ⟨[exLatitude, exTimes], [some 1, some 2, none, some 4]⟩
def exAsked : List Spec.Asked :=
  [⟨"y".toList, "0".toList, "90".toList, "30".toList, exLatitude, (0, 90, 30)⟩,
   ⟨"t".toList, "2008-01-02".toList, "2008-01-06T00:00".toList, "P2D".toList, exTimes, (1, 5, 2)⟩]

example : exAgg.WF ∧ (∀ a ∈ exAsked, Limits.Spec.Word ['=', ',', '[', '('] a.dim ∧ Limits.Spec.Word [']', ',', '[', '('] a.first ∧
      Limits.Spec.Word [']', ',', '[', '('] a.last ∧ Limits.Spec.Word [']', ',', '[', '('] a.step) ∧
    (∀ a ∈ exAsked, Spec.Denotes exEnv' a) ∧
    (∀ a ∈ exAsked, Coords.lookupCoord standardAxes exAgg.coords (String.ofList a.dim) = some a.coord) ∧
    (exAsked.map Spec.Asked.dim).Nodup ∧ (exAsked.map Spec.Asked.coord).Nodup ∧
    (∀ a ∈ exAsked, a.grid.1 < a.grid.2.1 ∧ 0 < a.grid.2.2) ∧
    (∀ a ∈ exAsked, AggApi.Spec.Convention (coordOf a.coord) (some a.grid)) ∧
    Spec.Grids exAgg exAsked [some (0, 90, 30), some (1, 5, 2)] := by
  refine ⟨⟨by simp [exAgg], by simp [exAgg], ?_, by decide, by decide +kernel⟩, ?_, ?_, ?_, by decide, ?_, ?_, ?_, ?_⟩
  · intro c hc
    simp only [exAgg, List.mem_cons, List.not_mem_nil, or_false] at hc
    rcases hc with rfl | rfl <;> rfl
  · intro a ha
    simp only [exAsked, List.mem_cons, List.not_mem_nil, or_false] at ha
    rcases ha with rfl | rfl <;> exact ⟨⟨by decide, by decide⟩, ⟨by decide, by decide⟩, ⟨by decide, by decide⟩, ⟨by decide, by decide⟩⟩
  · intro a ha
    simp only [exAsked, List.mem_cons, List.not_mem_nil, or_false] at ha
    rcases ha with rfl | rfl
    · exact ⟨.number 0 (by decide) (by decide +kernel), .number 90 (by decide) (by decide +kernel), .number 30 (by decide +kernel), by decide⟩
    · have i1 : Time.Spec.instant ⟨2008, 1, 2, 0, 0, 0, 0⟩ = 733042 * 86400 * 1000000 := by decide +kernel
      have i2 : Time.Spec.instant ⟨2008, 1, 6, 0, 0, 0, 0⟩ = 733046 * 86400 * 1000000 := by decide +kernel
      refine ⟨?_, ?_, ?_, by decide⟩
      · have := Spec.Says.date (e := exEnv') (c := exTimes.payload) (extreme := AggApi.Spec.Least exTimes.payload.points) (s := "2008-01-02".toList)
          ⟨2008, 1, 2, 0, 0, 0, 0⟩ exNum ⟨by unfold Time.Spec.Real; decide, "2008".toList, "01".toList, "02".toList, 'T', [], by decide, rfl, by decide, by decide,
            by decide, .inl rfl, by decide, by decide⟩ (by decide +kernel) rfl
        rw [i1] at this
        have h : exNum ((733042 * 86400 * 1000000 : Nat) : ℚ) = 1 := by unfold exNum; norm_num
        rwa [h] at this
      · have := Spec.Says.date (e := exEnv') (c := exTimes.payload) (extreme := AggApi.Spec.Greatest exTimes.payload.points) (s := "2008-01-06T00:00".toList)
          ⟨2008, 1, 6, 0, 0, 0, 0⟩ exNum ⟨by unfold Time.Spec.Real; decide, "2008".toList, "01".toList, "06".toList, 'T', ["00".toList, "00".toList], by decide, rfl, by decide, by decide,
            by decide, .inl rfl, by decide, by decide⟩ (by decide +kernel) rfl
        rw [i2] at this
        have h : exNum ((733046 * 86400 * 1000000 : Nat) : ℚ) = 5 := by unfold exNum; norm_num
        rwa [h] at this
      · have := Spec.StepSays.duration (e := exEnv') (s := "P2D".toList) (2 * 86400) (by decide +kernel)
          ⟨none, none, some "2".toList, none, by simp, by simp, by simp [IsNumeral], by simp, by decide, by decide, by decide⟩
        have h : ((2 * 86400 : Nat) : ℚ) / 86400 = 2 := by norm_num
        rwa [h] at this
  · intro a ha
    simp only [exAsked, List.mem_cons, List.not_mem_nil, or_false] at ha
    rcases ha with rfl | rfl <;> with_unfolding_all rfl
  · simp [exAsked, exLatitude, exTimes]
  · intro a ha
    simp only [exAsked, List.mem_cons, List.not_mem_nil, or_false] at ha
    rcases ha with rfl | rfl <;> norm_num
  · intro a ha
    simp only [exAsked, List.mem_cons, List.not_mem_nil, or_false] at ha
    rcases ha with rfl | rfl <;> (intro h; simp [coordOf, exLatitude, exTimes] at h)
  · refine ⟨rfl, ?_, ?_⟩
    · intro a ha i hi
      simp only [exAsked, List.mem_cons, List.not_mem_nil, or_false] at ha
      match i with
      | 0 => rcases ha with rfl | rfl <;> simp [exAgg, exLatitude, exTimes] at hi ⊢
      | 1 => rcases ha with rfl | rfl <;> simp [exAgg, exLatitude, exTimes] at hi ⊢
      | n + 2 => simp [exAgg] at hi
    · intro i c hi hc
      match i with
      | 0 => exact absurd (by simp [exAgg] at hi; simp [exAsked, hi]) hc
      | 1 => exact absurd (by simp [exAgg] at hi; simp [exAsked, hi]) hc
      | n + 2 => simp [exAgg] at hi

def cellsOf (text : String) (cells : List (List Nat)) : Option (List (Option ℚ)) :=
  match run (fun l => if l = [] then none else some l.sum) (fun key => (List.range 4).insertionSort (fun a b => key a ≤ key b)) exEnv' exAgg text.toList with
  | .ok out => some (cells.map out.cell)
  | .error _ => none

/-- The same command run: sums of the values in some cells. -/
example : cellsOf "y=[0,90,30],t=[2008-01-02,2008-01-06T00:00,P2D]" [[0, 0], [1, 0], [1, 1], [2, 1]] = some [some 1, some 2, none, some 4] := by
  decide +kernel

example : cellsOf "t,y=[0,90,30]" [[0, 0]] = none ∧ cellsOf "y=[0,90]" [[0, 0]] = none := by decide +kernel
end Cis.AggCmd
