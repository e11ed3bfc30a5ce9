import Mathlib.Data.List.Basic
import Mathlib.Tactic.Common
/-!
Model of the assembly of a plot from its layers: `plot_cmd` (cis_main.py:28-50), `Plotter.__init__`
(plotting/formatted_plot.py:167-186), `multilayer_plot` (plotting/plot.py:397-441) and the collection of options in
`taylor_plot` (plotting/plot.py:464-488). What is drawn is the list of calls of `basic_plot`, resp. the one call of `Taylor`.
Option dictionaries are functions from keys to values (strings); axes and data objects are opaque.
-/
set_option linter.unusedSectionVars false
set_option linter.unusedSimpArgs false
namespace Cis.Plot

/-- A dictionary of keyword options: the value under a key, if any. -/
abbrev Opts := String → Option String

/-- `dict(list(kwargs.items()) + list(opts.items()))` (plot.py:423, 433): later items win. -/
def mergeOpts (kwargs opts : Opts) : Opts := fun k => (opts k).or (kwargs k)

/-- `d.pop(key, None)`, what is left in the dictionary (library). -/
def removeKey (key : String) (d : Opts) : Opts := fun k => if k = key then none else d k

inductive PlotErr where
  | layerCount | notTwo | duplicateKeyword | noAxes | someMissing
  deriving DecidableEq, Repr

/-- One call of `basic_plot` (plot.py:314). `ax = none` asks for new axes. `xdata` is a data object given as `xaxis`. -/
structure Call (D A : Type) where
  data : D
  how : Option String
  ax : Option A
  xdata : Option D
  yaxis : Option String
  label : Option String
  opts : Opts

/-- The call of `Taylor` (plot.py:488). -/
structure TaylorCall (D A : Type) where
  data : List D
  ax : Option A
  labels : List (Option String)
  colors : Option (List (Option String))
  markers : Option (List (Option String))
  itemwidth : Option String
  opts : Opts

inductive Drawn (D A : Type) where
  | calls (l : List (Call D A))
  | taylor (t : TaylorCall D A)

variable {D A : Type}

/-- The loop over layers, plot.py:432-436. `how` and `ax` are the loop variables; `basic_plot` returns the axes it was given, or
new ones (`fresh`, plot.py:380-381). `name` is `get_label(d, units=False)`. -/
def layerLoop (fresh : A) (name : D → String) (kwargs : Opts) :
    Option String → Option A → List (D × Option String × Opts) → List (Call D A)
  | _, _, [] => []
  | how, ax, (d, y, o) :: t =>
      let lk := mergeOpts kwargs o
      let how' := (lk "type").or how
      let label := (lk "label").getD (name d)
      ⟨d, how', ax, none, y, some label, removeKey "label" (removeKey "type" lk)⟩ ::
        layerLoop fresh name kwargs how' (some (ax.getD fresh)) t

/-- `taylor_plot`, plot.py:464-488: all markers or none, all colours or none. `TaylorCall.opts` are the general options without
the central longitude (line 464) and with the item width of the first layer (line 487). -/
def taylorPlot (data : List D) (ax : Option A) (layerOpts : List Opts) (kwargs : Opts) : Except PlotErr (TaylorCall D A) :=
  let markers := layerOpts.map (fun o => o "itemstyle")
  let colors := layerOpts.map (fun o => o "color")
  if !markers.all (·.isNone) && markers.any (·.isNone) then .error .someMissing
  else if !colors.all (·.isNone) && colors.any (·.isNone) then .error .someMissing
  else .ok ⟨data, ax, layerOpts.map (fun o => o "label"),
    if colors.all (·.isNone) then none else some colors,
    if markers.all (·.isNone) then none else some markers,
    (layerOpts.head?.bind (fun o => o "itemwidth")), removeKey "central_longitude" kwargs⟩

/-- `multilayer_plot`, plot.py:397-441. The y axes are one name for all or a list of names. -/
def multilayer (fresh : A) (name : D → String) (data : List D) (how : Option String) (ax : Option A)
    (yaxis : Option String ⊕ List (Option String)) (layerOpts : Option (List Opts)) (kwargs : Opts) :
    Except PlotErr (Drawn D A) :=
  let lo := layerOpts.getD (data.map (fun _ => fun _ => none))
  if lo.length ≠ data.length then .error .layerCount
  else if how = some "comparativescatter" ∨ how = some "histogram2d" then
    match data, lo with
    | [d0, d1], o0 :: _ =>
        let lk := mergeOpts kwargs o0
        if (lk "xaxis").isSome then .error .duplicateKeyword
        else .ok (.calls [⟨d1, how, ax, some d0, lk "yaxis", lk "label", removeKey "label" (removeKey "yaxis" lk)⟩])
    | _, _ => .error .notTwo
  else if how = some "taylor" then (taylorPlot data ax lo kwargs).map .taylor
  else
    let ys := match yaxis with
      | .inl y => data.map (fun _ => y)
      | .inr l => l
    match layerLoop fresh name kwargs how ax (data.zip (ys.zip lo)) with
    | [] => if ax.isSome then .ok (.calls []) else .error .noAxes
    | c :: cs => .ok (.calls (c :: cs))

/-- What the command line draws: cis_main.py:38-50 and formatted_plot.py:167-186. A datagroup has the data objects read for its
variables and its options (without variables, filenames and product). `how` is `--type`, `kwargs` the remaining options (the y
axis included). A single data object is drawn by `basic_plot` with the options of the first datagroup added to the general
ones (formatted_plot.py:184-186); the type among them stays an ordinary option. -/
def plotCmd (fresh : A) (name : D → String) (groups : List (List D × Opts)) (how : Option String) (kwargs : Opts) :
    Except PlotErr (Drawn D A) :=
  let data := (groups.map Prod.fst).flatten
  match data, groups with
  | [d], g :: _ =>
      let lk := mergeOpts kwargs g.2
      .ok (.calls [⟨d, how, none, none, lk "yaxis", lk "label", removeKey "label" (removeKey "yaxis" lk)⟩])
  | _, _ => multilayer fresh name data how none (.inl (kwargs "yaxis")) (some (groups.map Prod.snd)) (removeKey "yaxis" kwargs)

/-! ### Specification -/

/-- The value an option has for a layer: the layer's own, or else the general one. -/
def HasOption (kwargs own : Opts) (k : String) (v : Option String) : Prop :=
  (∀ x, own k = some x → v = some x) ∧ (own k = none → v = kwargs k)

/-- `t` is the last type given by one of the layers in `l`, or the general one `how` if none gives one. -/
def LastType (how : Option String) (l : List Opts) (t : Option String) : Prop :=
  (∃ (i : ℕ) (o : Opts) (x : String), l[i]? = some o ∧ o "type" = some x ∧ t = some x ∧
      ∀ (j : ℕ) (o' : Opts), i < j → l[j]? = some o' → o' "type" = none) ∨
    ((∀ o ∈ l, o "type" = none) ∧ t = how)

/-! ### Facts about the loop -/

theorem hasOption_merge (kwargs own : Opts) (k : String) : HasOption kwargs own k (mergeOpts kwargs own k) := by
  constructor
  · intro x hx; simp [mergeOpts, hx]
  · intro hx; simp [mergeOpts, hx]

theorem loop_length (fresh : A) (name : D → String) (kw : Opts) :
    ∀ (l : List (D × Option String × Opts)) (how : Option String) (ax : Option A),
      (layerLoop fresh name kw how ax l).length = l.length := by
  intro l
  induction l with
  | nil => intros; rfl
  | cons h t ih => intro how ax; obtain ⟨d, y, o⟩ := h; simp [layerLoop, ih]

theorem loop_type (fresh : A) (name : D → String) (kw : Opts) (hk : kw "type" = none) :
    ∀ (l : List (D × Option String × Opts)) (how : Option String) (ax : Option A) (i : ℕ) (c : Call D A),
      (layerLoop fresh name kw how ax l)[i]? = some c →
      LastType how ((l.take (i + 1)).map (fun p => p.2.2)) c.how := by
  intro l
  induction l with
  | nil => intro how ax i c h; simp [layerLoop] at h
  | cons h t ih =>
    intro how ax i c hc
    obtain ⟨d, y, o⟩ := h
    cases i with
    | zero =>
      simp only [layerLoop, List.getElem?_cons_zero, Option.some.injEq] at hc
      subst hc
      simp only [mergeOpts, hk, List.take_succ_cons, List.take_zero, List.map_cons, List.map_nil]
      cases ho : o "type" with
      | none => right; simp [ho]
      | some x =>
        left
        refine ⟨0, o, x, rfl, ho, by simp, ?_⟩
        intro j o' hj hj'
        cases j with
        | zero => omega
        | succ j => simp at hj'
    | succ i =>
      simp only [layerLoop, List.getElem?_cons_succ] at hc
      have hrec := ih _ _ i c hc
      simp only [List.take_succ_cons, List.map_cons]
      rcases hrec with ⟨j, o', x, hj, hx, ht, hlast⟩ | ⟨hnone, ht⟩
      · left
        refine ⟨j + 1, o', x, by simpa using hj, hx, ht, ?_⟩
        intro j' o'' hlt hj'
        cases j' with
        | zero => omega
        | succ j' => exact hlast j' o'' (by omega) (by simpa using hj')
      · cases ho : o "type" with
        | none =>
          right
          refine ⟨?_, ?_⟩
          · intro p hp
            rcases List.mem_cons.1 hp with rfl | hp
            · exact ho
            · exact hnone p hp
          · simpa [mergeOpts, ho, hk] using ht
        | some x =>
          left
          refine ⟨0, o, x, rfl, ho, by simpa [mergeOpts, ho] using ht, ?_⟩
          intro j' o'' hlt hj'
          cases j' with
          | zero => omega
          | succ j' => exact hnone o'' (List.mem_of_getElem? (by simpa using hj'))

theorem loop_get (fresh : A) (name : D → String) (kw : Opts) :
    ∀ (l : List (D × Option String × Opts)) (how : Option String) (ax : Option A) (i : ℕ) (c : Call D A)
      (d : D) (y : Option String) (o : Opts),
      (layerLoop fresh name kw how ax l)[i]? = some c → l[i]? = some (d, y, o) →
      c.data = d ∧ c.yaxis = y ∧ c.xdata = none ∧ c.label = some ((mergeOpts kw o "label").getD (name d)) ∧
      c.opts = removeKey "label" (removeKey "type" (mergeOpts kw o)) ∧
      c.ax = if i = 0 then ax else some (ax.getD fresh) := by
  intro l
  induction l with
  | nil => intro how ax i c d y o h; simp [layerLoop] at h
  | cons h t ih =>
    intro how ax i c d y o hc hl
    obtain ⟨d', y', o'⟩ := h
    cases i with
    | zero =>
      simp only [layerLoop, List.getElem?_cons_zero, Option.some.injEq] at hc
      simp only [List.getElem?_cons_zero, Option.some.injEq, Prod.mk.injEq] at hl
      obtain ⟨rfl, rfl, rfl⟩ := hl
      subst hc
      simp
    | succ i =>
      simp only [layerLoop, List.getElem?_cons_succ] at hc
      simp only [List.getElem?_cons_succ] at hl
      obtain ⟨h1, h2, h3, h4, h5, h6⟩ := ih _ _ i c d y o hc hl
      refine ⟨h1, h2, h3, h4, h5, ?_⟩
      rw [h6]
      by_cases hi : i = 0 <;> simp [hi]

/-! ### Properties -/

/-- The plot types drawn layer by layer. -/
def Layered (how : Option String) : Prop :=
  how ≠ some "comparativescatter" ∧ how ≠ some "histogram2d" ∧ how ≠ some "taylor"

/-- **C88.** With one dictionary of options for each data object, a layered plot of at least one data object draws every data
object exactly once, in the order given, in one and the same axes (those given, if any), each with the y axis asked for and with
every general option replaced by the layer's own where it has one; the label is the layer's, or the general one, or the name of
the data. Missing: the type of plot, see `c88_type` and `c88_type_violated`. -/
theorem c88_layers (fresh : A) (name : D → String) (data : List D) (how : Option String) (ax : Option A)
    (y : Option String) (lo : List Opts) (kw : Opts) (hlen : lo.length = data.length) (hne : data ≠ [])
    (hl : Layered how) :
    ∃ calls : List (Call D A), multilayer fresh name data how ax (.inl y) (some lo) kw = .ok (.calls calls) ∧
      calls.map (·.data) = data ∧
      (∀ (i : ℕ) (c : Call D A), calls[i]? = some c → c.ax = if i = 0 then ax else some (ax.getD fresh)) ∧
      ∀ (i : ℕ) (c : Call D A) (o : Opts), calls[i]? = some c → lo[i]? = some o →
        c.yaxis = y ∧ c.xdata = none ∧
        (∀ k, k ≠ "type" → k ≠ "label" → HasOption kw o k (c.opts k)) ∧
        c.opts "type" = none ∧ c.opts "label" = none ∧
        ∃ lab, HasOption kw o "label" lab ∧ c.label = some (lab.getD (name c.data)) := by
  have hz : ∀ (i : ℕ) (d : D) (o : Opts), data[i]? = some d → lo[i]? = some o →
      (data.zip ((data.map (fun _ => y)).zip lo))[i]? = some (d, y, o) := by
    intro i d o h1 h2
    rw [List.getElem?_zip_eq_some]
    refine ⟨h1, ?_⟩
    rw [List.getElem?_zip_eq_some]
    exact ⟨by rw [List.getElem?_map, h1]; rfl, h2⟩
  set z := data.zip ((data.map (fun _ => y)).zip lo) with hzdef
  have hzl : z.length = data.length := by simp [hzdef, hlen]
  refine ⟨layerLoop fresh name kw how ax z, ?_, ?_, ?_, ?_⟩
  · unfold multilayer
    simp only [Option.getD_some, hlen, ne_eq, not_true_eq_false, if_false]
    rw [if_neg (by rintro (h | h); exact hl.1 h; exact hl.2.1 h), if_neg hl.2.2]
    rw [← hzdef]
    cases hloop : layerLoop fresh name kw how ax z with
    | nil =>
      have := loop_length fresh name kw z how ax
      rw [hloop, hzl] at this
      exact absurd (List.length_eq_zero_iff.1 this.symm) hne
    | cons c cs => rfl
  · apply List.ext_getElem?
    intro i
    rw [List.getElem?_map]
    rcases Nat.lt_or_ge i data.length with hi | hi
    · have h1 : data[i]? = some data[i] := List.getElem?_eq_getElem hi
      have h2 : lo[i]? = some (lo[i]'(by omega)) := List.getElem?_eq_getElem (by omega)
      have hi' : i < (layerLoop fresh name kw how ax z).length := by rw [loop_length, hzl]; exact hi
      have h3 := List.getElem?_eq_getElem hi'
      rw [h3, h1]
      simp only [Option.map_some, Option.some.injEq]
      exact (loop_get fresh name kw z how ax i _ _ _ _ h3 (hz i _ _ h1 h2)).1
    · rw [List.getElem?_eq_none (by rw [loop_length, hzl]; exact hi), List.getElem?_eq_none hi]; rfl
  · intro i c hc
    have hi := (List.getElem?_eq_some_iff.1 hc).1
    rw [loop_length, hzl] at hi
    have h1 : data[i]? = some data[i] := List.getElem?_eq_getElem hi
    have h2 : lo[i]? = some (lo[i]'(by omega)) := List.getElem?_eq_getElem (by omega)
    exact (loop_get fresh name kw z how ax i _ _ _ _ hc (hz i _ _ h1 h2)).2.2.2.2.2
  · intro i c o hc ho
    have hi := (List.getElem?_eq_some_iff.1 hc).1
    rw [loop_length, hzl] at hi
    have h1 : data[i]? = some data[i] := List.getElem?_eq_getElem hi
    obtain ⟨g1, g2, g3, g4, g5, _⟩ := loop_get fresh name kw z how ax i _ _ _ _ hc (hz i _ _ h1 ho)
    refine ⟨g2, g3, ?_, ?_, ?_, ?_⟩
    · intro k hk1 hk2
      rw [g5]
      simpa [removeKey, hk1, hk2] using hasOption_merge kw o k
    · rw [g5]; simp [removeKey]
    · rw [g5]; simp [removeKey]
    · exact ⟨_, hasOption_merge kw o "label", by rw [g4, g1]⟩

/-- **C88**, the type of plot. Each layer is drawn with its own type if every layer has one or if it is the first; a layer
without a type is drawn with the type of the last layer before it that had one. -/
theorem c88_type (fresh : A) (name : D → String) (data : List D) (how : Option String) (ax : Option A)
    (y : Option String) (lo : List Opts) (kw : Opts) (hlen : lo.length = data.length) (hl : Layered how)
    (hk : kw "type" = none) (calls : List (Call D A))
    (hc : multilayer fresh name data how ax (.inl y) (some lo) kw = .ok (.calls calls)) :
    ∀ (i : ℕ) (c : Call D A), calls[i]? = some c →
      LastType how (lo.take (i + 1)) c.how ∧
      (∀ (o : Opts) (t : String), lo[i]? = some o → o "type" = some t → c.how = some t) ∧
      ((∀ o ∈ lo, o "type" = none) → c.how = how) := by
  intro i c hci
  have hcalls : calls = layerLoop fresh name kw how ax (data.zip ((data.map (fun _ => y)).zip lo)) := by
    unfold multilayer at hc
    simp only [Option.getD_some, hlen, ne_eq, not_true_eq_false, if_false] at hc
    rw [if_neg (by rintro (h | h); exact hl.1 h; exact hl.2.1 h), if_neg hl.2.2] at hc
    cases hloop : layerLoop fresh name kw how ax (data.zip ((data.map (fun _ => y)).zip lo)) with
    | nil =>
      rw [hloop] at hc
      cases ax <;> simp at hc
      exact hc
    | cons c cs =>
      rw [hloop] at hc
      simp only [Except.ok.injEq, Drawn.calls.injEq] at hc
      exact hc.symm
  rw [hcalls] at hci
  have hmap : ((data.zip ((data.map (fun _ => y)).zip lo)).take (i + 1)).map (fun p => p.2.2) = lo.take (i + 1) := by
    rw [List.map_take]
    congr 1
    have h1 : (data.zip ((data.map (fun _ => y)).zip lo)).map (fun p => p.2.2)
        = ((data.zip ((data.map (fun _ => y)).zip lo)).map Prod.snd).map Prod.snd := by simp
    rw [h1, List.map_snd_zip (by simp [hlen]), List.map_snd_zip (by simp [hlen])]
  have key := loop_type fresh name kw hk _ how ax i c hci
  rw [hmap] at key
  refine ⟨key, ?_, ?_⟩
  · intro o t ho ht
    have hoi : (lo.take (i + 1))[i]? = some o := by rw [List.getElem?_take]; simpa using ho
    rcases key with ⟨j, o', x, hj, hx, hcx, hlast⟩ | ⟨hnone, _⟩
    · rcases Nat.lt_trichotomy j i with hji | hji | hji
      · have := hlast i o hji hoi; rw [ht] at this; cases this
      · subst hji; rw [hoi] at hj; cases hj; rw [ht] at hx; cases hx; exact hcx
      · rw [List.getElem?_take, if_neg (by omega)] at hj; cases hj
    · have := hnone o (List.mem_of_getElem? hoi); rw [ht] at this; cases this
  · intro hall
    rcases key with ⟨j, o', x, hj, hx, _, _⟩ | ⟨_, h⟩
    · have := hall o' (List.mem_of_mem_take (List.mem_of_getElem? hj)); rw [hx] at this; cases this
    · exact h

/-- **C88** is violated for the type: with the general type `line`, a layer of type `scatter` changes the type of the next
layer, which has no type of its own (plot.py:434 assigns the loop's `how`). -/
theorem c88_type_violated :
    ∃ (lo : List Opts) (calls : List (Call ℕ Unit)),
      multilayer () (fun _ => "x") [0, 1] (some "line") none (.inl none) (some lo) (fun _ => none) = .ok (.calls calls) ∧
      (∃ o, lo[1]? = some o ∧ o "type" = none) ∧
      ∃ c, calls[1]? = some c ∧ c.how = some "scatter" := by
  refine ⟨[fun k => if k = "type" then some "scatter" else none, fun _ => none], _, rfl, ⟨_, rfl, rfl⟩, ?_⟩
  exact ⟨_, rfl, rfl⟩

/-- **C88** is violated for a single data object on the command line: its type is not used as type of the plot but passed on as
an ordinary option (formatted_plot.py:184-186). -/
theorem c88_single_violated :
    ∃ (o : Opts) (c : Call ℕ Unit), o "type" = some "scatter" ∧
      plotCmd () (fun _ => "x") [([0], o)] none (fun _ => none) = .ok (.calls [c]) ∧
      c.how = none ∧ c.opts "type" = some "scatter" :=
  ⟨fun k => if k = "type" then some "scatter" else none, _, rfl, rfl, rfl, rfl⟩

/-- **C88**: the number of option dictionaries must be that of the data objects. -/
theorem c88_count (fresh : A) (name : D → String) (data : List D) (how : Option String) (ax : Option A)
    (y : Option String ⊕ List (Option String)) (lo : List Opts) (kw : Opts) (h : lo.length ≠ data.length) :
    multilayer fresh name data how ax y (some lo) kw = .error .layerCount := by
  simp [multilayer, h]

/-- **C88** on the command line: with one variable in each of at least two datagroups, the layers are those of the datagroups
with the datagroups' options. -/
theorem c88_command (fresh : A) (name : D → String) (gs : List (D × Opts)) (h2 : 2 ≤ gs.length)
    (how : Option String) (hl : Layered how) (kw : Opts) (hk : kw "type" = none) :
    ∃ calls : List (Call D A),
      plotCmd fresh name (gs.map (fun g => ([g.1], g.2))) how kw = .ok (.calls calls) ∧
      calls.map (·.data) = gs.map Prod.fst ∧
      ∀ (i : ℕ) (c : Call D A) (g : D × Opts), calls[i]? = some c → gs[i]? = some g →
        c.yaxis = kw "yaxis" ∧ LastType how ((gs.take (i + 1)).map Prod.snd) c.how ∧
        ∀ k, k ≠ "type" → k ≠ "label" → k ≠ "yaxis" → HasOption kw g.2 k (c.opts k) := by
  have hdata : ((gs.map (fun g => ([g.1], g.2))).map Prod.fst).flatten = gs.map Prod.fst := by
    clear h2
    induction gs with
    | nil => rfl
    | cons g t ih => simpa using ih
  have hopts : (gs.map (fun g => (([g.1] : List D), g.2))).map Prod.snd = gs.map Prod.snd := by simp
  have hne : gs.map Prod.fst ≠ [] := by
    intro h
    rw [List.map_eq_nil_iff] at h
    subst h
    simp at h2
  obtain ⟨calls, hcalls, hd, _, hall⟩ := c88_layers fresh name (gs.map Prod.fst) how none (kw "yaxis")
    (gs.map Prod.snd) (removeKey "yaxis" kw) (by simp) hne hl
  refine ⟨calls, ?_, hd, ?_⟩
  · unfold plotCmd
    simp only [hdata, hopts]
    rw [← hcalls]
    match gs, h2 with
    | [], h2 => simp at h2
    | [_], h2 => simp at h2
    | _ :: _ :: _, _ => rfl
  · intro i c g hc hg
    have ho : (gs.map Prod.snd)[i]? = some g.2 := by simp [hg]
    obtain ⟨h1, _, h3, _⟩ := hall i c g.2 hc ho
    have ht := (c88_type fresh name (gs.map Prod.fst) how none (kw "yaxis") (gs.map Prod.snd)
      (removeKey "yaxis" kw) (by simp) hl (by simpa [removeKey] using hk) calls hcalls i c hc).1
    rw [← List.map_take] at ht
    refine ⟨h1, ht, ?_⟩
    intro k k1 k2 k3
    have := h3 k k1 k2
    simpa [HasOption, removeKey, k3] using this

/-- **C88** is violated on the command line for a datagroup with two variables: nothing is drawn. -/
theorem c88_variables_violated (fresh : A) (name : D → String) (d0 d1 : D) (o : Opts) (how : Option String) (kw : Opts) :
    plotCmd fresh name [([d0, d1], o)] how kw = .error .layerCount := rfl

/-- **C88**, comparative plots: of exactly two data objects the first is on the x axis and the second on the y axis, with the
general options replaced by those of the first. Missing: the options of the second, see `c88_comparative_violated`. -/
theorem c88_comparative (fresh : A) (name : D → String) (d0 d1 : D) (o0 o1 : Opts) (how : Option String)
    (hh : how = some "comparativescatter" ∨ how = some "histogram2d") (ax : Option A)
    (y : Option String ⊕ List (Option String)) (kw : Opts) (hx : kw "xaxis" = none) (hx0 : o0 "xaxis" = none) :
    ∃ c : Call D A, multilayer fresh name [d0, d1] how ax y (some [o0, o1]) kw = .ok (.calls [c]) ∧
      c.data = d1 ∧ c.xdata = some d0 ∧ c.how = how ∧ c.ax = ax ∧ HasOption kw o0 "label" c.label ∧
      ∀ k, k ≠ "label" → k ≠ "yaxis" → HasOption kw o0 k (c.opts k) := by
  refine ⟨⟨d1, how, ax, some d0, mergeOpts kw o0 "yaxis", mergeOpts kw o0 "label",
    removeKey "label" (removeKey "yaxis" (mergeOpts kw o0))⟩, ?_, rfl, rfl, rfl, rfl, hasOption_merge kw o0 "label", ?_⟩
  · simp only [multilayer, Option.getD_some, List.length_cons, List.length_nil, ne_eq, not_true_eq_false, if_false]
    rw [if_pos hh]
    simp [mergeOpts, hx, hx0]
  · intro k k1 k2
    simpa [removeKey, k1, k2] using hasOption_merge kw o0 k

/-- **C88**: comparative plots of any other number of data objects are refused. -/
theorem c88_comparative_two (fresh : A) (name : D → String) (data : List D) (how : Option String)
    (hh : how = some "comparativescatter" ∨ how = some "histogram2d") (ax : Option A)
    (y : Option String ⊕ List (Option String)) (lo : List Opts) (hlen : lo.length = data.length) (kw : Opts)
    (h2 : data.length ≠ 2) : multilayer fresh name data how ax y (some lo) kw = .error .notTwo := by
  simp only [multilayer, Option.getD_some, hlen, ne_eq, not_true_eq_false, if_false]
  rw [if_pos hh]
  split
  · simp at h2
  · rfl

/-- **C88** is violated for comparative plots: the options of the second data object have no effect. -/
theorem c88_comparative_violated (fresh : A) (name : D → String) (d0 d1 : D) (o0 o1 o1' : Opts) (ax : Option A)
    (y : Option String ⊕ List (Option String)) (kw : Opts) :
    multilayer fresh name [d0, d1] (some "histogram2d") ax y (some [o0, o1]) kw =
    multilayer fresh name [d0, d1] (some "histogram2d") ax y (some [o0, o1']) kw := rfl

/-- **C88** is violated for a list of y axes shorter than the list of data objects: the other layers are not drawn, without an
error (`zip`, plot.py:432). -/
theorem c88_yaxis_violated :
    ∃ calls : List (Call ℕ Unit),
      multilayer () (fun _ => "x") [0, 1] (some "line") none (.inr [none]) none (fun _ => none) = .ok (.calls calls) ∧
      calls.map (·.data) = [0] := ⟨_, rfl, rfl⟩

/-- **C88**, Taylor diagrams: markers and colours are taken from the layers, for all layers or for none; labels layer by layer; the size of the
markers is that of the first layer, and all options for the whole plot are kept except the central longitude. -/
theorem c88_taylor (data : List D) (ax : Option A) (lo : List Opts) (kw : Opts) :
    ((∃ t, taylorPlot data ax lo kw = .ok t) ↔
      ∀ k, k = "itemstyle" ∨ k = "color" → (∀ o ∈ lo, o k = none) ∨ (∀ o ∈ lo, o k ≠ none)) ∧
    ∀ t, taylorPlot data ax lo kw = .ok t → t.data = data ∧ t.ax = ax ∧ t.labels = lo.map (fun o => o "label") ∧
      (((∀ o ∈ lo, o "itemstyle" = none) ∧ t.markers = none) ∨ t.markers = some (lo.map (fun o => o "itemstyle"))) ∧
      (((∀ o ∈ lo, o "color" = none) ∧ t.colors = none) ∨ t.colors = some (lo.map (fun o => o "color"))) ∧
      (∀ o rest, lo = o :: rest → t.itemwidth = o "itemwidth") ∧ t.opts "central_longitude" = none ∧
      ∀ k, k ≠ "central_longitude" → t.opts k = kw k := by
  have hall : ∀ k : String, (lo.map (fun o => o k)).all (·.isNone) = true ↔ ∀ o ∈ lo, o k = none := by
    intro k; simp [List.all_eq_true]
  have hany : ∀ k : String, (lo.map (fun o => o k)).any (·.isNone) = true ↔ ∃ o ∈ lo, o k = none := by
    intro k; simp [List.any_eq_true]
  have hbad : ∀ k : String, (!(lo.map (fun o => o k)).all (·.isNone) && (lo.map (fun o => o k)).any (·.isNone)) = true ↔
      ¬ ((∀ o ∈ lo, o k = none) ∨ (∀ o ∈ lo, o k ≠ none)) := by
    intro k
    rw [Bool.and_eq_true, hany, Bool.not_eq_true', ← Bool.not_eq_true, hall, not_or]
    push Not
    rfl
  constructor
  · constructor
    · rintro ⟨t, ht⟩ k hk
      by_contra hcon
      have hb := (hbad k).2 hcon
      unfold taylorPlot at ht
      rcases hk with rfl | rfl
      · simp only [hb, if_true] at ht; cases ht
      · simp only [hb, if_true] at ht
        split at ht <;> cases ht
    · intro h
      have h1 := mt (hbad "itemstyle").1 (not_not.2 (h "itemstyle" (.inl rfl)))
      have h2 := mt (hbad "color").1 (not_not.2 (h "color" (.inr rfl)))
      unfold taylorPlot
      simp only [h1, h2, if_false]
      exact ⟨_, rfl⟩
  · intro t ht
    unfold taylorPlot at ht
    dsimp only at ht
    split at ht
    · cases ht
    · split at ht
      · cases ht
      · simp only [Except.ok.injEq] at ht
        subst ht
        refine ⟨rfl, rfl, rfl, ?_, ?_, ?_, by simp [removeKey], fun k hk => by simp [removeKey, hk]⟩
        · by_cases h : ∀ o ∈ lo, o "itemstyle" = none
          · exact .inl ⟨h, if_pos ((hall _).2 h)⟩
          · exact .inr (if_neg (mt (hall _).1 h))
        · by_cases h : ∀ o ∈ lo, o "color" = none
          · exact .inl ⟨h, if_pos ((hall _).2 h)⟩
          · exact .inr (if_neg (mt (hall _).1 h))
        · rintro o rest rfl
          rfl

/-! ### Examples -/

/-- Three layers, the second with its own label and colour. -/
example : ∃ calls : List (Call ℕ Unit),
    multilayer () (fun n => "v" ++ toString n) [5, 6, 7] none none (.inl none)
      (some [fun _ => none, fun k => if k = "label" then some "mine" else if k = "color" then some "red" else none, fun _ => none])
      (fun k => if k = "color" then some "blue" else none) = .ok (.calls calls) ∧
    calls.map (·.label) = [some "v5", some "mine", some "v7"] ∧
    calls.map (fun c => c.opts "color") = [some "blue", some "red", some "blue"] ∧
    calls.map (·.ax) = [none, some (), some ()] := ⟨_, rfl, by decide +kernel, rfl, rfl⟩

/-- A Taylor diagram with one marker missing is refused; with all markers it is drawn. -/
example : (∃ t, taylorPlot [0, 1] (none : Option Unit) [fun _ => some "o", fun _ => some "x"] (fun _ => none) = .ok t) ∧
    taylorPlot [0, 1] (none : Option Unit) [fun _ => some "o", fun _ => none] (fun _ => none) = .error .someMissing :=
  ⟨⟨_, rfl⟩, rfl⟩

/-- **C88** on the command line: a single variable is drawn once, with its own y axis, label and options in place of the general
ones; its plot type is the general one (see `c88_single_violated`). -/
theorem c88_single (fresh : A) (name : D → String) (d : D) (o : Opts) (how : Option String) (kw : Opts) :
    ∃ c : Call D A, plotCmd fresh name [([d], o)] how kw = .ok (.calls [c]) ∧ c.data = d ∧ c.how = how ∧
      HasOption kw o "yaxis" c.yaxis ∧ HasOption kw o "label" c.label ∧
      ∀ k, k ≠ "label" → k ≠ "yaxis" → HasOption kw o k (c.opts k) := by
  refine ⟨_, rfl, rfl, rfl, hasOption_merge kw o "yaxis", hasOption_merge kw o "label", ?_⟩
  intro k h1 h2
  have : removeKey "label" (removeKey "yaxis" (mergeOpts kw o)) k = mergeOpts kw o k := by simp [removeKey, h1, h2]
  simp only [this]
  exact hasOption_merge kw o k

end Cis.Plot
