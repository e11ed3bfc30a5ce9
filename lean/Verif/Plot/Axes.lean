import Verif.Coords.Props
/-!
Model of the choice of the axes and of the type of a plot (`_try_coord`, `get_axis`, plotting/plot.py:70-115, and `basic_plot`,
plotting/plot.py:342-369). The payload of a coordinate is its shape.
-/
set_option linter.unusedSectionVars false
set_option linter.unusedSimpArgs false
namespace Cis.Plot
open Cis.Coords

/-- Gridded (a cube) or ungridded data. -/
inductive Kind where
  | gridded | ungridded
  deriving DecidableEq, Repr

abbrev SCoord := Coord (List ℕ)

/-- `data.coord(**coord_dict)`, `none` if not found: ungridded data by `CoordList.get_coord` (Coord.py:223-263), cubes by the
library, which wants exactly one match (`axis` is then the guessed axis). -/
def findCoord (k : Kind) (l : List SCoord) (c : Criteria (List ℕ)) : Option SCoord :=
  match k with
  | .ungridded => tryCoord l c
  | .gridded => match getCoords l c with
    | [x] => some x
    | _ => none

/-- `len(coord.points) > 1`. -/
def manyPoints (c : SCoord) : Bool := decide (1 < c.payload.headD 0)

/-- `_try_coord` (plot.py:70-89). -/
def tryPlotCoord (k : Kind) (l : List SCoord) (c : Criteria (List ℕ)) : Option SCoord :=
  (findCoord k l c).filter manyPoints

inductive AxisErr where
  | indexError | attributeError
  deriving DecidableEq, Repr

/-- The loop of `get_axis` (plot.py:104-112): the first coordinate of the same size as the data along the first (`x`) or second
dimension. -/
def axisLoop (x : Bool) (dshape : List ℕ) : List SCoord → Except AxisErr (Option SCoord)
  | [] => .ok none
  | c :: cs =>
      let i := if x || dshape.length == 1 then 0 else 1
      match c.payload[i]?, dshape[i]? with
      | some n, some m => if n = m then .ok (some c) else axisLoop x dshape cs
      | _, _ => .error .indexError

/-- The first part of `get_axis` (plot.py:100-101); the axis is X or Y. -/
def namedAxis (k : Kind) (l : List SCoord) (axis : String) (name : Option String) : Option SCoord :=
  (tryPlotCoord k l { sel := match name with | some n => .byName n | none => .none }).or
    ((tryPlotCoord k l { stdName := name }).or (tryPlotCoord k l { axis := some axis }))

/-- `get_axis` (plot.py:92-116). Scalar data cannot be plotted on a Y axis of a cube: `len(d.shape) > 1` does not hold and nothing
is found. -/
def getAxis (k : Kind) (l : List SCoord) (dshape : List ℕ) (x : Bool) (name : Option String) : Except AxisErr SCoord :=
  match namedAxis k l (if x then "X" else "Y") name with
  | some c => .ok c
  | none =>
      if !x && dshape.length == 0 then .error .attributeError
      else match axisLoop x dshape l with
        | .error e => .error e
        | .ok none => .error .attributeError
        | .ok (some c) => .ok c

/-- The default type of plot (gridded_data.py:399-405, ungridded_data.py:833-837); `none` is a `ValueError`. -/
def defaultType (k : Kind) (ndim : ℕ) (latlon : Bool) : Option String :=
  match k with
  | .gridded => if ndim = 1 then some "line" else if ndim = 2 then some "heatmap" else none
  | .ungridded => if latlon then some "scatter2d" else some "line"

/-- plot.py:346-369, the type of plot for data on coordinate axes. `xdata`: the x axis is a data object. -/
def plotType (k : Kind) (ndim : ℕ) (how : Option String) (xdata latlon : Bool) : Option String :=
  if xdata then
    match how with
    | none => some "comparativescatter"
    | some h => if h = "comparativescatter" ∨ h = "histogram2d" then some h else none
  else match how with
    | some h => some h
    | none => defaultType k ndim latlon

/-! ### Properties -/

theorem findCoord_exact (k : Kind) (l : List SCoord) (c : Criteria (List ℕ)) (x : SCoord) (h : getCoords l c = [x]) :
    findCoord k l c = some x := by
  cases k with
  | gridded => simp [findCoord, h]
  | ungridded =>
    have : getCoord l c = .ok x := by rw [c45_get_coord_exact]; exact .inl h
    simp [findCoord, tryCoord, this]

theorem getCoords_name (l : List SCoord) (n : String) :
    getCoords l { sel := .byName n } = l.filter (fun y => name y == some n) := by
  simp [getCoords, filterBy, Sel.name?, Sel.coord?]

theorem getCoords_axis (l : List SCoord) (a : String) :
    getCoords l { axis := some a } = l.filter (fun y => y.axis == a.toUpper) := by
  simp [getCoords, filterBy, Sel.name?, Sel.coord?]

theorem tryCoord_matches (l : List SCoord) (c : Criteria (List ℕ)) (hs : Safe l c) (x : SCoord)
    (h : tryCoord l c = some x) : x ∈ l ∧ Spec.Matches c x := by
  have h2 : getCoord l c = .ok x := by
    unfold tryCoord at h
    cases hg : getCoord l c with
    | ok y => rw [hg] at h; cases h; rfl
    | error e => rw [hg] at h; cases h
  have h3 := ((c45_get_coord l c hs).1 x).1 h2
  rw [c45_get_coords] at h3
  have : x ∈ l.filter (fun y => @decide (Spec.Matches c y) (Classical.propDecidable _)) := by rw [h3]; simp
  simpa using this

theorem findCoord_matches (k : Kind) (l : List SCoord) (c : Criteria (List ℕ)) (hs : Safe l c) (x : SCoord)
    (h : findCoord k l c = some x) : x ∈ l ∧ Spec.Matches c x := by
  cases k with
  | ungridded => exact tryCoord_matches l c hs x h
  | gridded =>
    have h3 : getCoords l c = [x] := by
      unfold findCoord at h
      dsimp only at h
      split at h
      · rename_i y hy; cases h; exact hy
      · cases h
    rw [c45_get_coords] at h3
    have : x ∈ l.filter (fun y => @decide (Spec.Matches c y) (Classical.propDecidable _)) := by rw [h3]; simp
    simpa using this

/-- **C89.** A coordinate named by the user, the only one of this name and with more than one point, is the one used. -/
theorem c89_named (k : Kind) (l : List SCoord) (dshape : List ℕ) (x : Bool) (n : String) (c : SCoord)
    (h : l.filter (fun y => name y == some n) = [c]) (hp : 1 < c.payload.headD 0) :
    getAxis k l dshape x (some n) = .ok c := by
  have h1 : tryPlotCoord k l { sel := .byName n } = some c := by
    rw [tryPlotCoord, findCoord_exact k l _ c (by rw [getCoords_name, h])]
    simp only [Option.filter, manyPoints, decide_eq_true hp, if_true]
  have h2 : namedAxis k l (if x then "X" else "Y") (some n) = some c := by
    unfold namedAxis
    dsimp only
    rw [h1]
    rfl
  rw [getAxis, h2]

theorem toUpper_XY (x : Bool) : (if x then "X" else "Y" : String).toUpper = if x then "X" else "Y" := by
  cases x <;> decide +kernel

/-- The search by name finds nothing when no name is given and there is not just one coordinate. -/
theorem tryPlotCoord_none (k : Kind) (l : List SCoord) (hl : l.length ≠ 1) : tryPlotCoord k l {} = none := by
  unfold tryPlotCoord
  have : findCoord k l {} = none := by
    cases hf : findCoord k l {} with
    | none => rfl
    | some y =>
      exfalso
      cases k with
      | ungridded =>
        unfold findCoord tryCoord at hf
        dsimp only at hf
        cases hg : getCoord l {} with
        | ok z =>
          have := ((c45_get_coord l {} (.inl ⟨rfl, hl⟩)).1 z).1 hg
          rw [getCoords_none] at this
          exact hl (by rw [this]; rfl)
        | error e => rw [hg] at hf; cases hf
      | gridded =>
        unfold findCoord at hf
        dsimp only at hf
        rw [getCoords_none] at hf
        split at hf
        · exact hl rfl
        · cases hf
  rw [this]; rfl

/-- **C89.** Without a name, the coordinate marked as belonging to the axis is used, if it is the only one and has more than one
point. -/
theorem c89_axis (k : Kind) (l : List SCoord) (dshape : List ℕ) (x : Bool) (c : SCoord) (hl : l.length ≠ 1)
    (h : l.filter (fun y => y.axis == if x then "X" else "Y") = [c]) (hp : 1 < c.payload.headD 0) :
    getAxis k l dshape x none = .ok c := by
  have h1 : tryPlotCoord k l { axis := some (if x then "X" else "Y") } = some c := by
    rw [tryPlotCoord, findCoord_exact k l _ c (by rw [getCoords_axis, toUpper_XY, h])]
    simp only [Option.filter, manyPoints, decide_eq_true hp, if_true]
  have h0 : tryPlotCoord k l { sel := .none } = none := tryPlotCoord_none k l hl
  have h2 : namedAxis k l (if x then "X" else "Y") none = some c := by
    unfold namedAxis
    dsimp only
    rw [h0, h1]
    rfl
  rw [getAxis, h2]

theorem axisLoop_ok (x : Bool) (dshape : List ℕ) :
    ∀ (l : List SCoord) (c : SCoord), axisLoop x dshape l = .ok (some c) → c ∈ l ∧
      ∃ n, c.payload[if x || dshape.length == 1 then 0 else 1]? = some n ∧
        dshape[if x || dshape.length == 1 then 0 else 1]? = some n := by
  intro l
  induction l with
  | nil => intro c h; simp [axisLoop] at h
  | cons a t ih =>
    intro c h
    simp only [axisLoop] at h
    split at h
    · rename_i n m hn hm
      split at h
      · rename_i hnm
        simp only [Except.ok.injEq, Option.some.injEq] at h
        subst h
        exact ⟨List.mem_cons_self, n, hn, by rw [hm, hnm]⟩
      · obtain ⟨h1, h2⟩ := ih c h
        exact ⟨List.mem_cons_of_mem _ h1, h2⟩
    · cases h

/-- **C89.** The coordinate chosen is one of the data, and it was chosen because it has the name asked for, or is marked for
the axis (with more than one point in both cases), or is as long as the data along the dimension of the axis. -/
theorem c89_sound (k : Kind) (l : List SCoord) (dshape : List ℕ) (x : Bool) (nm : Option String) (c : SCoord)
    (hl : l.length ≠ 1) (hn : nm ≠ some "") (h : getAxis k l dshape x nm = .ok c) :
    c ∈ l ∧
    ((1 < c.payload.headD 0 ∧ ((∃ n, nm = some n ∧ (name c = some n ∨ c.stdName = some n)) ∨ c.axis = if x then "X" else "Y")) ∨
      ∃ n, c.payload[if x || dshape.length == 1 then 0 else 1]? = some n ∧
        dshape[if x || dshape.length == 1 then 0 else 1]? = some n) := by
  have htry : ∀ cr : Criteria (List ℕ), Safe l cr → tryPlotCoord k l cr = some c →
      c ∈ l ∧ 1 < c.payload.headD 0 ∧ Spec.Matches cr c := by
    intro cr hs ht
    unfold tryPlotCoord at ht
    rw [Option.filter_eq_some_iff] at ht
    obtain ⟨h1, h2⟩ := findCoord_matches k l cr hs c ht.1
    exact ⟨h1, by simpa [manyPoints] using ht.2, h2⟩
  unfold getAxis at h
  cases hna : namedAxis k l (if x then "X" else "Y") nm with
  | some c' =>
    rw [hna] at h
    simp only [Except.ok.injEq] at h
    subst h
    have hax : tryPlotCoord k l { axis := some (if x then "X" else "Y") } = some c' → c' ∈ l ∧
        1 < c'.payload.headD 0 ∧ c'.axis = if x then "X" else "Y" := by
      intro ht
      obtain ⟨h1, h2, h3⟩ := htry _ (.inl ⟨rfl, hl⟩) ht
      have h4 := h3.axis _ rfl
      rw [toUpper_XY] at h4
      exact ⟨h1, h2, h4⟩
    cases nm with
    | none =>
      unfold namedAxis at hna
      dsimp only at hna
      rw [show tryPlotCoord k l { sel := .none } = none from tryPlotCoord_none k l hl] at hna
      obtain ⟨h1, h2, h3⟩ := hax hna
      exact ⟨h1, .inl ⟨h2, .inr h3⟩⟩
    | some n =>
      unfold namedAxis at hna
      dsimp only at hna
      rw [Option.or_eq_some_iff, Option.or_eq_some_iff] at hna
      have hn' : n ≠ "" := fun e => hn (by rw [e])
      rcases hna with hna | ⟨-, hna | ⟨-, hna⟩⟩
      · obtain ⟨h1, h2, h3⟩ := htry _ (.inr ⟨n, hn', rfl⟩) hna
        exact ⟨h1, .inl ⟨h2, .inl ⟨n, rfl, .inl (h3.name n rfl)⟩⟩⟩
      · obtain ⟨h1, h2, h3⟩ := htry _ (.inl ⟨rfl, hl⟩) hna
        exact ⟨h1, .inl ⟨h2, .inl ⟨n, rfl, .inr (h3.std n rfl)⟩⟩⟩
      · obtain ⟨h1, h2, h3⟩ := hax hna
        exact ⟨h1, .inl ⟨h2, .inr h3⟩⟩
  | none =>
    rw [hna] at h
    dsimp only at h
    split at h
    · cases h
    · cases hloop : axisLoop x dshape l with
      | error e => rw [hloop] at h; cases h
      | ok o =>
        rw [hloop] at h
        cases o with
        | none => cases h
        | some c' =>
          simp only [Except.ok.injEq] at h
          subst h
          obtain ⟨h1, h2⟩ := axisLoop_ok x dshape l c' hloop
          exact ⟨h1, .inr h2⟩

/-- **C89** is violated: a name no coordinate has is not reported; another coordinate is used. -/
theorem c89_unknown_name_violated :
    ∃ (l : List SCoord) (c : SCoord), (∀ y ∈ l, name y ≠ some "altitud" ∧ y.stdName ≠ some "altitud") ∧
      getAxis .ungridded l [5] false (some "altitud") = .ok c ∧ c.stdName = some "latitude" := by
  refine ⟨[⟨some "longitude", none, none, "X", [], [5]⟩, ⟨some "latitude", none, none, "Y", [], [5]⟩,
    ⟨some "altitude", none, none, "Z", [], [5]⟩], ⟨some "latitude", none, none, "Y", [], [5]⟩, ?_, ?_, rfl⟩
  · decide +kernel
  · decide +kernel

/-- **C89** is violated: for a two-dimensional cube without a coordinate for the Y axis (e.g. time against altitude), the search
by size fails with an index error, although the second dimension has a coordinate (plot.py:110 asks a one-dimensional coordinate
for its second dimension). -/
theorem c89_two_dim_violated :
    ∃ (l : List SCoord), (∃ c ∈ l, c.payload = [4]) ∧ getAxis .gridded l [3, 4] false none = .error .indexError := by
  refine ⟨[⟨some "time", none, none, "T", [], [3]⟩, ⟨some "altitude", none, none, "Z", [], [4]⟩], ?_, ?_⟩
  · exact ⟨⟨some "altitude", none, none, "Z", [], [4]⟩, by decide +kernel, rfl⟩
  · decide +kernel

/-- **C89**, the search by size for the X axis of data in which every coordinate has at least one dimension: the first
coordinate as long as the first dimension; there is an error only if there is none. -/
theorem c89_first_dim (l : List SCoord) (n : ℕ) (rest : List ℕ) (hd : ∀ c ∈ l, c.payload ≠ []) :
    axisLoop true (n :: rest) l = .ok (l.find? (fun c => c.payload.head? == some n)) := by
  induction l with
  | nil => rfl
  | cons a t ih =>
    have ha := hd a List.mem_cons_self
    have iht := ih (fun c hc => hd c (List.mem_cons_of_mem _ hc))
    cases hp : a.payload with
    | nil => exact absurd hp ha
    | cons m ms =>
      simp only [axisLoop, Bool.true_or, if_true, hp, List.getElem?_cons_zero]
      by_cases hmn : m = n
      · subst hmn
        simp [List.find?, hp]
      · rw [if_neg hmn, iht, List.find?_cons, hp]
        have : (m == n) = false := by simpa using hmn
        simp [this]

/-- **C89**, the type: given by the user if any, else by the kind of data and axes; a data object on the x axis is for
comparative plots only. -/
theorem c89_type (k : Kind) (ndim : ℕ) (how : Option String) (xdata latlon : Bool) (t : String)
    (h : plotType k ndim how xdata latlon = some t) :
    (∀ w, how = some w → t = w) ∧
    (xdata = true → t = "comparativescatter" ∨ t = "histogram2d") ∧
    (how = none → xdata = false → (k = .gridded → (ndim = 1 ∧ t = "line") ∨ (ndim = 2 ∧ t = "heatmap")) ∧
      (k = .ungridded → (latlon = true ∧ t = "scatter2d") ∨ (latlon = false ∧ t = "line"))) := by
  unfold plotType defaultType at h
  cases how <;> cases xdata <;> cases k <;> cases latlon <;> simp_all
  all_goals grind

/-! ### Examples -/

example : ∃ c, getAxis .ungridded [(⟨some "longitude", none, none, "X", [], [5]⟩ : SCoord),
    ⟨some "latitude", none, none, "Y", [], [5]⟩] [5] true none = .ok c ∧ c.stdName = some "longitude" :=
  ⟨⟨some "longitude", none, none, "X", [], [5]⟩, by decide +kernel, rfl⟩

example : getAxis .gridded [(⟨some "time", none, none, "T", [], [3]⟩ : SCoord)] [3] true (some "time") =
    .ok ⟨some "time", none, none, "T", [], [3]⟩ := c89_named _ _ _ _ _ _ (by decide +kernel) (by decide)

/-- **C89**: of the plot types of two data objects exactly `comparativescatter` (also the default) and `histogram2d` are accepted. -/
theorem c89_comparative_type (k : Kind) (ndim : ℕ) (how : Option String) (latlon : Bool) (t : String) :
    plotType k ndim how true latlon = some t ↔
      (t = "comparativescatter" ∧ (how = none ∨ how = some t)) ∨ (t = "histogram2d" ∧ how = some t) := by
  unfold plotType
  cases how with
  | none => simp [eq_comm]
  | some h =>
    by_cases h1 : h = "comparativescatter"
    · subst h1; simp; constructor
      · rintro rfl; simp
      · rintro (⟨rfl, _⟩ | ⟨rfl, h⟩) <;> simp_all
    · by_cases h2 : h = "histogram2d"
      · subst h2; simp; constructor
        · rintro rfl; simp
        · rintro (⟨rfl, h⟩ | ⟨rfl, h⟩) <;> simp_all
      · simp only [if_true, h1, h2, or_self, if_false]
        constructor
        · intro h; cases h
        · rintro (⟨rfl, h | h⟩ | ⟨rfl, h⟩) <;> simp_all

end Cis.Plot
