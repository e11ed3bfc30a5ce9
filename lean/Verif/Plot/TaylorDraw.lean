import Verif.Plot.Taylor
/-!
Property C126: how the points of a Taylor diagram are drawn. Model of the second half of `Taylor.__init__`
(cis/plotting/taylor.py:122-175) and of the positions, labels, markers and sizes given to matplotlib by `Taylor.__call__`
(taylor.py:198-230); the statistics themselves are in `Taylor.lean`. A masked or NaN number is `none`. Colours and the decoration
of the axes are not modelled.
-/
set_option linter.unusedSectionVars false
set_option linter.unusedSimpArgs false
namespace Cis.Plot.TaylorDraw
open Cis.Plot Cis.Masks

/-- The ways to show the bias (taylor.py:96-104). -/
inductive How
  | colour | size | flag
  deriving DecidableEq

/-- The options of the diagram (taylor.py:56-58); an option that was not given is `none`. -/
structure Opts where
  extend : ℝ
  fold : Bool
  gammamax : Option ℝ
  stdbiasmax : Option ℝ
  bias : Option How
  itemwidth : Option ℝ
  markers : Option (List String)
  solid : Bool

/-- Ways to fail. -/
inductive Err
  | noOther    -- ValueError: the minimum of no values
  | marker     -- IndexError, or TypeError for a masked bias
  deriving DecidableEq

/-- A number is taken as given only if it is not zero (Python's truth value). -/
noncomputable def truthy (o : Option ℝ) : Option ℝ :=
  match o with
  | some x => if x = 0 then none else some x
  | none => none

/-- A dataset before drawing: its label (taylor.py:82) and its point. -/
structure Item where
  label : String
  p : Point

/-- `x > m` for masked numbers: falsy when masked. -/
noncomputable def gt (x m : Option ℝ) : Bool :=
  match x, m with
  | some x, some m => decide (m < x)
  | _, _ => false

/-- `mask` (taylor.py:136-142): the datasets not considered for the automatic limits. -/
noncomputable def excluded (o : Opts) (p : Point) : Bool :=
  p.gamma.isNone || (!o.fold && gt p.gamma (truthy o.gammamax)) ||
    (o.bias.isSome && (p.bias.isNone || gt (p.bias.map abs) (truthy o.stdbiasmax)))

/-- `np.ma.amax` of the valid numbers. -/
noncomputable def amax : List ℝ → Option ℝ
  | [] => none
  | x :: t => some (t.foldl max x)

/-- `np.ma.amin` of the valid numbers. -/
noncomputable def amin : List ℝ → Option ℝ
  | [] => none
  | x :: t => some (t.foldl min x)

/-- `self.gammamax` (taylor.py:144). -/
noncomputable def radius (o : Opts) (ps : List Point) : Option ℝ :=
  match truthy o.gammamax with
  | some m => some m
  | none => amax ((ps.filter (fun p => !excluded o p)).filterMap Point.gamma)

/-- `self.maxstdbias` (taylor.py:146). -/
noncomputable def maxBias (o : Opts) (ps : List Point) : Option ℝ :=
  match truthy o.stdbiasmax with
  | some m => some m
  | none => amax ((ps.filter (fun p => !excluded o p)).filterMap (fun p => p.bias.map abs))

/-- `self.minstdbias` (taylor.py:147): Python's `min` keeps its first argument when a comparison is masked. The minimum over no
other dataset is an error. -/
noncomputable def minBias (o : Opts) (ps : List Point) : Except Err (Option ℝ) :=
  if ps.tail.isEmpty then .error .noOther
  else match amin ((ps.tail.filter (fun p => !excluded o p)).filterMap (fun p => p.bias.map abs)), maxBias o ps with
    | some m, some M => .ok (some (min m (M / 8)))
    | some m, none => .ok (some m)
    | none, _ => .ok none

/-- `l + s if c else l`. -/
def suffix (c : Bool) (s l : String) : String := if c then l ++ s else l

/-- The label drawn (taylor.py:153-169). `r` is `self.gammamax`. -/
noncomputable def label (o : Opts) (r : Option ℝ) (it : Item) : String :=
  let l1 := if o.extend > -1 then suffix (gt (some o.extend) it.p.corr) " $-$" it.label else it.label
  let l2 := suffix (gt it.p.gamma (truthy r)) " $>$" l1
  if o.bias.isSome then
    let l3 := suffix (gt ((truthy o.stdbiasmax).map (fun m => -m)) it.p.bias) " B-" l2
    suffix (gt it.p.bias (truthy o.stdbiasmax)) " B+" l3
  else l2

/-- The correlation drawn (taylor.py:155-159). -/
noncomputable def drawnCorr (o : Opts) (c : Option ℝ) : Option ℝ :=
  if o.extend > -1 ∧ o.fold = true then
    if o.extend = 0 then c.map abs else c.map (fun c => max c o.extend)
  else c

/-- The gamma drawn (taylor.py:160-163). -/
noncomputable def drawnGamma (o : Opts) (r : Option ℝ) (g : Option ℝ) : Option ℝ :=
  match truthy r with
  | some m => if o.fold then g.map (fun g => min g m) else g
  | none => g

/-- The bias drawn (taylor.py:164-170). -/
noncomputable def drawnBias (o : Opts) (b : Option ℝ) : Option ℝ :=
  match truthy o.stdbiasmax with
  | some m => if o.bias.isSome ∧ o.fold = true then b.map (fun b => max (min b m) (-m)) else b
  | none => b

/-- `self.markers` (taylor.py:122-132). -/
def markers (o : Opts) : List String :=
  match o.markers with
  | some ms => ms
  | none =>
    if o.bias = some .size then ["v", "s", "^"]
    else if o.solid then ["o", "v", "^", "<", ">", "s", "p", "h", "D", "*"]
    else ["x", "+", "o", "v", "^", "<", ">", "s", "p", "h", "D", "*"]

/-- `self.itemwidth` (taylor.py:94). -/
noncomputable def width (o : Opts) : ℝ := (truthy o.itemwidth).getD 6

/-- The size of a marker that shows the bias (taylor.py:206-207): NaN for a range of zero. -/
noncomputable def biasSize (w : ℝ) (mn range b : Option ℝ) : Option ℝ :=
  match mn, range, b with
  | some mn, some range, some b =>
    if range = 0 then none else some (w * (1 / 4 + 7 / 4 * min (max ((|b| - mn) / range) 0) 1))
  | _, _, _ => none

/-- `((stdbias > 0.) - (stdbias < 0.)) + 1` (taylor.py:205). -/
noncomputable def signIndex (b : ℝ) : Nat := if b > 0 then 2 else if b < 0 then 0 else 1

/-- What is given to matplotlib for a dataset. -/
structure Drawn where
  label : String
  corr : Option ℝ
  gamma : Option ℝ
  bias : Option ℝ
  marker : String
  size : Option ℝ

/-- One turn of the loop (taylor.py:199-207): dataset number `i`. -/
noncomputable def drawOne (o : Opts) (r mn range : Option ℝ) (i : Nat) (it : Item) : Except Err Drawn :=
  let b := drawnBias o it.p.bias
  let d : Drawn := ⟨label o r it, drawnCorr o it.p.corr, drawnGamma o r it.p.gamma, b, ((markers o)[i % (markers o).length]?).getD "", some (width o)⟩
  if o.bias = some .size then
    match b with
    | none => .error .marker
    | some x => match (markers o)[signIndex x]? with
      | none => .error .marker
      | some m => .ok { d with marker := m, size := biasSize (width o) mn range b }
  else .ok d

/-- The loop. -/
noncomputable def drawAll (o : Opts) (r mn range : Option ℝ) : Nat → List Item → Except Err (List Drawn)
  | _, [] => .ok []
  | i, it :: rest => do
    let d ← drawOne o r mn range i it
    let ds ← drawAll o r mn range (i + 1) rest
    pure (d :: ds)

/-- Difference of numbers that may be masked. -/
noncomputable def msub (a b : Option ℝ) : Option ℝ :=
  match a, b with
  | some a, some b => some (a - b)
  | _, _ => none

/-- `Taylor.__init__` from line 122 on and the loop of `Taylor.__call__`: the radius of the diagram and what is drawn. -/
noncomputable def draw (o : Opts) (items : List Item) : Except Err (Option ℝ × List Drawn) := do
  let ps := items.map Item.p
  let r := radius o ps
  let mn ← if o.bias.isSome then minBias o ps else pure none
  let mx := if o.bias.isSome then maxBias o ps else none
  let range := msub mx mn
  let ds ← drawAll o r mn range 0 items
  pure (r, ds)

/-! ### Specification -/

namespace Spec

/-- The correlation is less than what the diagram shows (which starts at `extend`). -/
def LowCorr (o : Opts) (p : Point) : Prop := -1 < o.extend ∧ ∃ c, p.corr = some c ∧ c < o.extend

/-- The standard deviation is beyond the radius of the diagram. -/
def FarOut (r : Option ℝ) (p : Point) : Prop := ∃ g m, p.gamma = some g ∧ r = some m ∧ m ≠ 0 ∧ m < g

/-- The bias is shown and below the greatest one to show. -/
def LowBias (o : Opts) (p : Point) : Prop :=
  o.bias ≠ none ∧ ∃ b m, p.bias = some b ∧ o.stdbiasmax = some m ∧ m ≠ 0 ∧ b < -m

/-- The bias is shown and above the greatest one to show. -/
def HighBias (o : Opts) (p : Point) : Prop :=
  o.bias ≠ none ∧ ∃ b m, p.bias = some b ∧ o.stdbiasmax = some m ∧ m ≠ 0 ∧ m < b

open Classical in
/-- What is added to the label of a dataset. -/
noncomputable def marks (o : Opts) (r : Option ℝ) (p : Point) : String :=
  (if LowCorr o p then " $-$" else "") ++ (if FarOut r p then " $>$" else "") ++
    (if LowBias o p then " B-" else "") ++ (if HighBias o p then " B+" else "")

end Spec

/-! ### Lemmas -/

theorem truthy_some {o : Option ℝ} {m : ℝ} : truthy o = some m ↔ o = some m ∧ m ≠ 0 := by
  unfold truthy
  cases o with
  | none => simp
  | some x =>
    simp only [Option.some.injEq]
    split
    · rename_i h; subst h; simp; intro h; exact h.symm
    · rename_i h; simp; intro e; rw [← e]; exact h

theorem truthy_none {o : Option ℝ} : truthy o = none ↔ o = none ∨ o = some 0 := by
  unfold truthy
  cases o with
  | none => simp
  | some x => simp only [Option.some.injEq, reduceCtorEq, false_or]; split <;> simp_all

theorem gt_iff {x m : Option ℝ} : gt x m = true ↔ ∃ a b, x = some a ∧ m = some b ∧ b < a := by
  unfold gt
  cases x <;> cases m <;> simp

theorem suffix_eq (c : Bool) (s l : String) : suffix c s l = l ++ (if c then s else "") := by
  unfold suffix; cases c <;> simp

open Classical in
theorem marks_eq (o : Opts) (r : Option ℝ) (it : Item) : label o r it = it.label ++ Spec.marks o r it.p := by
  have h1 : (if o.extend > -1 then suffix (gt (some o.extend) it.p.corr) " $-$" it.label else it.label) =
      it.label ++ (if Spec.LowCorr o it.p then " $-$" else "") := by
    unfold Spec.LowCorr
    split
    · rename_i h
      rw [suffix_eq]
      congr 1
      have : gt (some o.extend) it.p.corr = true ↔ ∃ c, it.p.corr = some c ∧ c < o.extend := by
        rw [gt_iff]
        constructor
        · rintro ⟨a, b, e, e2, hl⟩; cases e; exact ⟨b, e2, hl⟩
        · rintro ⟨c, e, hl⟩; exact ⟨_, c, rfl, e, hl⟩
      simp only [this, gt_iff_lt.1 h, true_and]
    · rename_i h
      rw [if_neg (fun hc => h hc.1)]; simp
  have h2 : gt it.p.gamma (truthy r) = true ↔ Spec.FarOut r it.p := by
    rw [gt_iff]; unfold Spec.FarOut
    constructor
    · rintro ⟨a, b, e, e2, hl⟩; rw [truthy_some] at e2; exact ⟨a, b, e, e2.1, e2.2, hl⟩
    · rintro ⟨a, b, e, e2, e3, hl⟩; exact ⟨a, b, e, truthy_some.2 ⟨e2, e3⟩, hl⟩
  have h3 : gt it.p.bias (truthy o.stdbiasmax) = true ↔
      ∃ b m, it.p.bias = some b ∧ o.stdbiasmax = some m ∧ m ≠ 0 ∧ m < b := by
    rw [gt_iff]
    constructor
    · rintro ⟨a, b, e, e2, hl⟩; rw [truthy_some] at e2; exact ⟨a, b, e, e2.1, e2.2, hl⟩
    · rintro ⟨a, b, e, e2, e3, hl⟩; exact ⟨a, b, e, truthy_some.2 ⟨e2, e3⟩, hl⟩
  have h4 : gt ((truthy o.stdbiasmax).map (fun m => -m)) it.p.bias = true ↔
      ∃ b m, it.p.bias = some b ∧ o.stdbiasmax = some m ∧ m ≠ 0 ∧ b < -m := by
    rw [gt_iff]
    constructor
    · rintro ⟨a, b, e, e2, hl⟩
      rw [Option.map_eq_some_iff] at e
      obtain ⟨m, em, rfl⟩ := e
      rw [truthy_some] at em; exact ⟨b, m, e2, em.1, em.2, hl⟩
    · rintro ⟨b, m, e, e2, e3, hl⟩
      exact ⟨-m, b, by rw [truthy_some.2 ⟨e2, e3⟩]; rfl, e, hl⟩
  unfold label
  simp only
  rw [h1]
  simp only [suffix_eq, h2, h3, h4]
  unfold Spec.marks Spec.LowBias Spec.HighBias
  by_cases hb : o.bias = none
  · simp [hb, String.append_assoc]
  · rw [if_pos (Option.isSome_iff_ne_none.2 hb)]
    simp only [hb, ne_eq, not_false_eq_true, true_and, String.append_assoc]

theorem drawAll_get {o : Opts} {r mn range : Option ℝ} : ∀ (items : List Item) (i : Nat) (ds : List Drawn),
    drawAll o r mn range i items = .ok ds → ds.length = items.length ∧
      ∀ (k : Nat) (it : Item), items[k]? = some it → ∃ d, ds[k]? = some d ∧ drawOne o r mn range (i + k) it = .ok d
  | [], i, ds, h => by
    simp only [drawAll, Except.ok.injEq] at h
    subst h; simp
  | it :: rest, i, ds, h => by
    unfold drawAll at h
    cases h1 : drawOne o r mn range i it with
    | error e => rw [h1] at h; cases h
    | ok d =>
      rw [h1] at h
      cases h2 : drawAll o r mn range (i + 1) rest with
      | error e => rw [h2] at h; cases h
      | ok ds' =>
        rw [h2] at h
        have e : d :: ds' = ds := by simpa [bind, Except.bind, pure, Except.pure] using h
        subst e
        obtain ⟨hl, hg⟩ := drawAll_get rest (i + 1) ds' h2
        refine ⟨by simp [hl], fun k it' hk => ?_⟩
        cases k with
        | zero =>
          simp only [List.getElem?_cons_zero, Option.some.injEq] at hk
          subst hk
          exact ⟨d, by simp, h1⟩
        | succ k =>
          simp only [List.getElem?_cons_succ] at hk
          obtain ⟨d', e1, e2⟩ := hg k it' hk
          exact ⟨d', by simpa using e1, by rw [← e2]; congr 1; omega⟩

/-- The limits used by a successful call. -/
theorem draw_cases {o : Opts} {items : List Item} {r : Option ℝ} {ds : List Drawn} (h : draw o items = .ok (r, ds)) :
    r = radius o (items.map Item.p) ∧ ∃ mn range : Option ℝ,
      (o.bias ≠ none → minBias o (items.map Item.p) = .ok mn ∧
        range = msub (maxBias o (items.map Item.p)) mn) ∧
      drawAll o r mn range 0 items = .ok ds := by
  unfold draw at h
  simp only at h
  by_cases hb : o.bias = none
  · rw [if_neg (by simp [hb]), if_neg (by simp [hb])] at h
    simp only [pure, Except.pure, bind, Except.bind] at h
    cases h2 : drawAll o (radius o (items.map Item.p)) none (msub none none) 0 items with
    | error e => rw [h2] at h; cases h
    | ok ds' =>
      rw [h2] at h
      simp only [Except.ok.injEq, Prod.mk.injEq] at h
      obtain ⟨rfl, rfl⟩ := h
      exact ⟨rfl, none, _, fun hc => absurd hb hc, h2⟩
  · rw [if_pos (Option.isSome_iff_ne_none.2 hb), if_pos (Option.isSome_iff_ne_none.2 hb)] at h
    cases h1 : minBias o (items.map Item.p) with
    | error e => rw [h1] at h; cases h
    | ok mn =>
      rw [h1] at h
      simp only [pure, Except.pure, bind, Except.bind] at h
      cases h2 : drawAll o (radius o (items.map Item.p)) mn (msub (maxBias o (items.map Item.p)) mn) 0 items with
      | error e => rw [h2] at h; cases h
      | ok ds' =>
        rw [h2] at h
        simp only [Except.ok.injEq, Prod.mk.injEq] at h
        obtain ⟨rfl, rfl⟩ := h
        exact ⟨rfl, mn, _, fun _ => ⟨rfl, rfl⟩, h2⟩

theorem drawOne_fields {o : Opts} {r mn range : Option ℝ} {i : Nat} {it : Item} {d : Drawn}
    (h : drawOne o r mn range i it = .ok d) : d.label = label o r it ∧ d.corr = drawnCorr o it.p.corr ∧
      d.gamma = drawnGamma o r it.p.gamma ∧ d.bias = drawnBias o it.p.bias ∧
      (o.bias = some .size → (∃ x, d.bias = some x ∧ (markers o)[signIndex x]? = some d.marker) ∧
        d.size = biasSize (width o) mn range d.bias) ∧
      (o.bias ≠ some .size → d.size = some (width o) ∧ d.marker = ((markers o)[i % (markers o).length]?).getD "") := by
  unfold drawOne at h
  simp only at h
  split at h
  · rename_i hb
    cases e : drawnBias o it.p.bias with
    | none => rw [e] at h; cases h
    | some x =>
      rw [e] at h
      simp only at h
      cases em : (markers o)[signIndex x]? with
      | none => rw [em] at h; cases h
      | some m =>
        rw [em] at h
        simp only [Except.ok.injEq] at h
        subst h
        exact ⟨rfl, rfl, rfl, rfl, fun _ => ⟨⟨x, rfl, em⟩, rfl⟩, fun hc => absurd hb hc⟩
  · rename_i hb
    simp only [Except.ok.injEq] at h
    subst h
    exact ⟨rfl, rfl, rfl, rfl, fun hc => absurd hc hb, fun _ => ⟨rfl, rfl⟩⟩

/-! ### Theorems -/

/-- C126, labels: every dataset is drawn once, in order, with its label followed by exactly the marks of the ranges that its
point is beyond. -/
theorem c126_labels (o : Opts) (items : List Item) (r : Option ℝ) (ds : List Drawn) (h : draw o items = .ok (r, ds)) :
    ds.length = items.length ∧ ∀ (i : Nat) (it : Item), items[i]? = some it →
      ∃ d, ds[i]? = some d ∧ d.label = it.label ++ Spec.marks o r it.p := by
  obtain ⟨-, mn, range, -, h2⟩ := draw_cases h
  obtain ⟨hl, hg⟩ := drawAll_get items 0 ds h2
  refine ⟨hl, fun i it hi => ?_⟩
  obtain ⟨d, e1, e2⟩ := hg i it hi
  exact ⟨d, e1, by rw [(drawOne_fields e2).1, marks_eq]⟩

/-- C126: a label is unchanged exactly for the datasets within all ranges. -/
theorem c126_unmarked (o : Opts) (items : List Item) (r : Option ℝ) (ds : List Drawn) (h : draw o items = .ok (r, ds))
    (i : Nat) (it : Item) (d : Drawn) (hi : items[i]? = some it) (hd : ds[i]? = some d) :
    d.label = it.label ↔ ¬ Spec.LowCorr o it.p ∧ ¬ Spec.FarOut r it.p ∧ ¬ Spec.LowBias o it.p ∧ ¬ Spec.HighBias o it.p := by
  obtain ⟨d', e1, e2⟩ := (c126_labels o items r ds h).2 i it hi
  rw [hd] at e1; cases e1
  rw [e2]
  have hs : ∀ s t : String, s ++ t = s ↔ t = "" := by
    intro s t
    constructor
    · intro e
      have := congrArg String.length e
      rw [String.length_append] at this
      exact String.length_eq_zero_iff.1 (by omega)
    · rintro rfl; simp
  rw [hs]
  unfold Spec.marks
  by_cases a : Spec.LowCorr o it.p <;> by_cases b : Spec.FarOut r it.p <;> by_cases c : Spec.LowBias o it.p <;>
    by_cases e : Spec.HighBias o it.p <;> simp [a, b, c, e]

/-- C126, positions: without folding every point is drawn at its statistics; with folding those within the range are. -/
theorem c126_position (o : Opts) (items : List Item) (r : Option ℝ) (ds : List Drawn) (h : draw o items = .ok (r, ds))
    (i : Nat) (it : Item) (d : Drawn) (hi : items[i]? = some it) (hd : ds[i]? = some d) :
    (¬ Spec.LowCorr o it.p ∨ o.fold = false → d.corr = it.p.corr) ∧
    (¬ Spec.FarOut r it.p ∨ o.fold = false → d.gamma = it.p.gamma) ∧
    (¬ Spec.LowBias o it.p ∧ ¬ Spec.HighBias o it.p ∨ o.fold = false → d.bias = it.p.bias) := by
  obtain ⟨-, mn, range, -, h2⟩ := draw_cases h
  obtain ⟨d', e1, e2⟩ := (drawAll_get items 0 ds h2).2 i it hi
  rw [hd] at e1; cases e1
  obtain ⟨-, f1, f2, f3, -⟩ := drawOne_fields e2
  rw [f1, f2, f3]
  refine ⟨?_, ?_, ?_⟩
  · intro hc
    unfold drawnCorr
    split
    · rename_i hf
      have hn := hc.resolve_right (by rw [hf.2]; simp)
      cases ec : it.p.corr with
      | none => simp
      | some c =>
        have : o.extend ≤ c := by
          by_contra hlt
          exact hn ⟨hf.1, c, ec, not_le.1 hlt⟩
        split
        · rename_i h0; rw [h0] at this; simp [abs_of_nonneg this]
        · simp [this]
    · rfl
  · intro hc
    unfold drawnGamma
    cases et : truthy r with
    | none => rfl
    | some m =>
      simp only
      split
      · rename_i hf
        have hn := hc.resolve_right (by rw [hf]; simp)
        cases eg : it.p.gamma with
        | none => rfl
        | some g =>
          have : g ≤ m := by
            by_contra hlt
            rw [truthy_some] at et
            exact hn ⟨g, m, eg, et.1, et.2, not_le.1 hlt⟩
          simp [this]
      · rfl
  · intro hc
    unfold drawnBias
    cases et : truthy o.stdbiasmax with
    | none => rfl
    | some m =>
      simp only
      split
      · rename_i hf
        have hn := hc.resolve_right (by rw [hf.2]; simp)
        rw [truthy_some] at et
        cases eb : it.p.bias with
        | none => rfl
        | some b =>
          have hb := Option.isSome_iff_ne_none.1 hf.1
          have k1 : b ≤ m := by
            by_contra hlt
            exact hn.2 ⟨hb, b, m, eb, et.1, et.2, not_le.1 hlt⟩
          have k2 : -m ≤ b := by
            by_contra hlt
            exact hn.1 ⟨hb, b, m, eb, et.1, et.2, not_le.1 hlt⟩
          simp [k1, k2]
      · rfl

/-- C126, folding: with folding every point is drawn within the ranges. -/
theorem c126_folded (o : Opts) (items : List Item) (r : Option ℝ) (ds : List Drawn) (h : draw o items = .ok (r, ds))
    (hf : o.fold = true) (i : Nat) (it : Item) (d : Drawn) (hi : items[i]? = some it) (hd : ds[i]? = some d) :
    (∀ c c', it.p.corr = some c → d.corr = some c' → |c| ≤ 1 → o.extend ≤ 1 → o.extend ≤ c' ∧ c' ≤ 1 ∨ o.extend ≤ -1) ∧
    (∀ g m, d.gamma = some g → r = some m → m ≠ 0 → g ≤ m) ∧
    (∀ b m, d.bias = some b → o.bias ≠ none → o.stdbiasmax = some m → 0 < m → |b| ≤ m) := by
  obtain ⟨-, mn, range, -, h2⟩ := draw_cases h
  obtain ⟨d', e1, e2⟩ := (drawAll_get items 0 ds h2).2 i it hi
  rw [hd] at e1; cases e1
  obtain ⟨-, f1, f2, f3, -⟩ := drawOne_fields e2
  rw [f1, f2, f3]
  refine ⟨?_, ?_, ?_⟩
  · intro c c' ec ec' hc he
    unfold drawnCorr at ec'
    by_cases hx : o.extend > -1
    · left
      rw [if_pos ⟨hx, hf⟩, ec] at ec'
      have h1 := abs_le.1 hc
      split at ec'
      · rename_i h0
        simp only [Option.map_some, Option.some.injEq] at ec'
        subst ec'; rw [h0]; exact ⟨abs_nonneg _, hc⟩
      · simp only [Option.map_some, Option.some.injEq] at ec'
        subst ec'; exact ⟨le_max_right _ _, max_le h1.2 he⟩
    · exact Or.inr (not_lt.1 hx)
  · intro g m eg er hm
    unfold drawnGamma at eg
    rw [truthy_some.2 ⟨er, hm⟩] at eg
    simp only [hf, if_true] at eg
    rw [Option.map_eq_some_iff] at eg
    obtain ⟨a, -, rfl⟩ := eg
    exact min_le_right _ _
  · intro b m eb hb em hm
    unfold drawnBias at eb
    rw [truthy_some.2 ⟨em, hm.ne'⟩] at eb
    simp only at eb
    rw [if_pos ⟨Option.isSome_iff_ne_none.2 hb, hf⟩, Option.map_eq_some_iff] at eb
    obtain ⟨a, -, rfl⟩ := eb
    rw [abs_le]
    exact ⟨le_max_right _ _, max_le (min_le_right _ _) (by linarith)⟩

theorem foldl_max_ge (t : List ℝ) : ∀ x : ℝ, x ≤ t.foldl max x ∧ ∀ y ∈ t, y ≤ t.foldl max x := by
  induction t with
  | nil => simp
  | cons a t ih =>
    intro x
    obtain ⟨h1, h2⟩ := ih (max x a)
    simp only [List.foldl_cons, List.mem_cons]
    refine ⟨le_trans (le_max_left _ _) h1, ?_⟩
    rintro y (rfl | hy)
    · exact le_trans (le_max_right _ _) h1
    · exact h2 y hy

theorem amax_ge {l : List ℝ} {m : ℝ} (h : amax l = some m) : ∀ y ∈ l, y ≤ m := by
  cases l with
  | nil => cases h
  | cons x t =>
    simp only [amax, Option.some.injEq] at h
    subst h
    intro y hy
    rcases List.mem_cons.1 hy with rfl | hy
    · exact (foldl_max_ge t y).1
    · exact (foldl_max_ge t x).2 y hy

/-- The statistics of datasets: correlations are within [-1, 1], and a dataset with a standard deviation has a bias. -/
theorem points_wf (logv : Bool) (dss : List (List (MArr ℝ))) (p : Point) (hp : p ∈ points logv dss) :
    (∀ c, p.corr = some c → |c| ≤ 1) ∧ (p.gamma.isSome → p.bias.isSome) := by
  unfold points at hp
  simp only at hp
  generalize (if logv = true then dss.map logData else dss) = data at hp
  cases data with
  | nil => simp at hp
  | cons ref t =>
    simp only [List.mem_map] at hp
    obtain ⟨d, -, rfl⟩ := hp
    constructor
    · intro c hc
      simp only [point, Option.map_eq_some_iff] at hc
      obtain ⟨a, -, rfl⟩ := hc
      unfold clip
      rw [abs_le]
      exact ⟨le_min (le_max_right _ _) (by norm_num), min_le_right _ _⟩
    · intro hg
      have key : ∀ x : List (MArr ℝ), (sigma x).isSome → (maMean x.flatten).isSome := by
        intro x hx
        unfold sigma at hx
        rw [Option.isSome_map] at hx
        unfold maVar at hx
        unfold maMean
        split at hx
        · cases hx
        · split
          · rename_i h1 h2; simp_all
          · rfl
      simp only [point] at hg ⊢
      cases e1 : sigma d with
      | none => rw [e1] at hg; simp [mdiv] at hg
      | some a =>
        cases e2 : sigma ref with
        | none => rw [e1, e2] at hg; simp [mdiv] at hg
        | some b =>
          rw [e1, e2] at hg
          obtain ⟨m1, k1⟩ := Option.isSome_iff_exists.1 (key d (by rw [e1]; rfl))
          obtain ⟨m2, k2⟩ := Option.isSome_iff_exists.1 (key ref (by rw [e2]; rfl))
          rw [k1, k2]
          simp only [mdiv] at hg ⊢
          split at hg
          · cases hg
          · rename_i h0; rw [if_neg h0]; rfl

/-- C126, automatic radius: if neither the radius nor a greatest bias is given, every dataset is within the diagram. -/
theorem c126_radius_cond (o : Opts) (items : List Item) (r : Option ℝ) (ds : List Drawn) (h : draw o items = .ok (r, ds))
    (hg : o.gammamax = none) (hb : o.bias = none ∨ o.stdbiasmax = none)
    (hwf : ∀ it ∈ items, it.p.gamma.isSome → it.p.bias.isSome) (it : Item) (hi : it ∈ items) : ¬ Spec.FarOut r it.p := by
  obtain ⟨hr, -⟩ := draw_cases h
  rintro ⟨g, m, eg, em, -, hlt⟩
  have ht : truthy o.gammamax = none := by rw [hg]; rfl
  unfold radius at hr
  rw [ht] at hr
  simp only at hr
  rw [em] at hr
  have := amax_ge hr.symm g (by
    rw [List.mem_filterMap]
    refine ⟨it.p, ?_, eg⟩
    rw [List.mem_filter]
    refine ⟨List.mem_map_of_mem hi, ?_⟩
    have h1 : gt it.p.gamma (truthy o.gammamax) = false := by rw [ht]; unfold gt; cases it.p.gamma <;> rfl
    obtain ⟨b, e⟩ := Option.isSome_iff_exists.1 (hwf it hi (by rw [eg]; rfl))
    unfold excluded
    rw [h1, eg, e]
    rcases hb with hb | hb
    · simp [hb]
    · simp [hb, truthy, gt])
  linarith

theorem width_pos (o : Opts) (h : ∀ w, o.itemwidth = some w → 0 < w) : 0 < width o := by
  unfold width
  cases e : truthy o.itemwidth with
  | none => norm_num
  | some w => exact h w (truthy_some.1 e).1

theorem biasSize_mono {w range mn b b' s s' : ℝ} (hw : 0 < w) (hr : 0 < range)
    (e : biasSize w (some mn) (some range) (some b) = some s) (e' : biasSize w (some mn) (some range) (some b') = some s')
    (h : |b| ≤ |b'|) : s ≤ s' := by
  unfold biasSize at e e'
  simp only [hr.ne', if_false, Option.some.injEq] at e e'
  subst e e'
  apply mul_le_mul_of_nonneg_left _ hw.le
  have : (|b| - mn) / range ≤ (|b'| - mn) / range := by
    apply div_le_div_of_nonneg_right _ hr.le; linarith
  have : min (max ((|b| - mn) / range) 0) 1 ≤ min (max ((|b'| - mn) / range) 0) 1 :=
    min_le_min (max_le_max this le_rfl) le_rfl
  linarith

/-- The range of biases is positive when the greatest is. -/
theorem range_pos {o : Opts} {ps : List Point} {mn : Option ℝ} {M x : ℝ} (h1 : minBias o ps = .ok mn)
    (hM : maxBias o ps = some M) (hpos : 0 < M) (hx : msub (maxBias o ps) mn = some x) : 0 < x ∧ ∃ m, mn = some m ∧ x = M - m ∧ m ≤ M / 8 := by
  unfold minBias at h1
  split at h1
  · cases h1
  · rw [hM] at h1 hx
    cases e : amin ((ps.tail.filter (fun p => !excluded o p)).filterMap (fun p => p.bias.map abs)) with
    | none =>
      rw [e] at h1
      simp only [Except.ok.injEq] at h1
      subst h1; cases hx
    | some m =>
      rw [e] at h1
      simp only [Except.ok.injEq] at h1
      subst h1
      simp only [msub, Option.some.injEq] at hx
      have := min_le_right m (M / 8)
      exact ⟨by rw [← hx]; linarith, _, rfl, hx.symm, this⟩

/-- C126, sizes: when biases are shown as sizes and the greatest is not zero, every marker that has a size has one between a quarter and
twice the width of the items, larger biases have markers that are not smaller, biases at or beyond the greatest one have
markers of twice the width; and the marker tells the sign. -/
theorem c126_size_cond (o : Opts) (items : List Item) (r : Option ℝ) (ds : List Drawn) (h : draw o items = .ok (r, ds))
    (hs : o.bias = some .size) (hw : ∀ w, o.itemwidth = some w → 0 < w) (M : ℝ) (hM : maxBias o (items.map Item.p) = some M)
    (hpos : 0 < M) :
    (∀ d ∈ ds, ∃ b, d.bias = some b ∧ (o.markers = none → (d.marker = "^" ↔ 0 < b) ∧ (d.marker = "v" ↔ b < 0) ∧ (d.marker = "s" ↔ b = 0)) ∧
      ∀ s, d.size = some s → width o / 4 ≤ s ∧ s ≤ 2 * width o ∧ (M ≤ |b| → s = 2 * width o)) ∧
    ∀ d ∈ ds, ∀ d' ∈ ds, ∀ b b' s s', d.bias = some b → d'.bias = some b' → d.size = some s → d'.size = some s' →
      |b| ≤ |b'| → s ≤ s' := by
  obtain ⟨-, mn, range, hlim, h2⟩ := draw_cases h
  obtain ⟨hl, hg⟩ := drawAll_get items 0 ds h2
  obtain ⟨hmn, hrange⟩ := hlim (by rw [hs]; simp)
  have hwp := width_pos o hw
  have key : ∀ d ∈ ds, (∃ x, d.bias = some x ∧ (markers o)[signIndex x]? = some d.marker) ∧
      d.size = biasSize (width o) mn range d.bias := by
    intro d hd
    obtain ⟨k, hk⟩ := List.getElem?_of_mem hd
    have hk' : k < items.length := by rw [← hl]; exact (List.getElem?_eq_some_iff.1 hk).1
    obtain ⟨d', e1, e2⟩ := hg k _ (List.getElem?_eq_getElem hk')
    rw [hk] at e1; cases e1
    exact (drawOne_fields e2).2.2.2.2.1 hs
  constructor
  · intro d hd
    obtain ⟨⟨x, ex, em⟩, esz⟩ := key d hd
    refine ⟨x, ex, ?_, ?_⟩
    · intro hm
      unfold markers at em
      rw [hm, hs] at em
      simp only [if_true] at em
      unfold signIndex at em
      rcases lt_trichotomy x 0 with hx | hx | hx
      · rw [if_neg (by linarith), if_pos hx] at em
        simp only [List.getElem?_cons_zero, Option.some.injEq] at em
        rw [← em]
        refine ⟨?_, ?_, ?_⟩
        · constructor
          · intro hc; exact absurd hc (by decide)
          · intro hc; linarith
        · simp [hx]
        · constructor
          · intro hc; exact absurd hc (by decide)
          · intro hc; linarith
      · rw [if_neg (by linarith), if_neg (by linarith)] at em
        simp only [List.getElem?_cons_succ, List.getElem?_cons_zero, Option.some.injEq] at em
        rw [← em]
        refine ⟨?_, ?_, ?_⟩
        · constructor
          · intro hc; exact absurd hc (by decide)
          · intro hc; linarith
        · constructor
          · intro hc; exact absurd hc (by decide)
          · intro hc; linarith
        · simp [hx]
      · rw [if_pos hx] at em
        simp only [List.getElem?_cons_succ, List.getElem?_cons_zero, Option.some.injEq] at em
        rw [← em]
        refine ⟨?_, ?_, ?_⟩
        · simp [hx]
        · constructor
          · intro hc; exact absurd hc (by decide)
          · intro hc; linarith
        · constructor
          · intro hc; exact absurd hc (by decide)
          · intro hc; linarith
    · intro s hsz
      rw [esz, ex] at hsz
      cases em : mn with
      | none => rw [em] at hsz; cases hsz
      | some m =>
        cases er : range with
        | none => rw [em, er] at hsz; cases hsz
        | some y =>
          obtain ⟨hy, m', e1, e2, e3⟩ := range_pos hmn hM hpos (by rw [← hrange]; exact er)
          rw [em] at e1; cases e1
          rw [em, er] at hsz
          unfold biasSize at hsz
          simp only [hy.ne', if_false, Option.some.injEq] at hsz
          have b1 : 0 ≤ min (max ((|x| - m) / y) 0) 1 := le_min (le_max_right _ _) (by norm_num)
          have b2 : min (max ((|x| - m) / y) 0) 1 ≤ 1 := min_le_right _ _
          refine ⟨by nlinarith, by nlinarith, ?_⟩
          intro hMb
          have : 1 ≤ (|x| - m) / y := by rw [le_div_iff₀ hy]; linarith
          have : min (max ((|x| - m) / y) 0) 1 = 1 := min_eq_right (le_trans this (le_max_left _ _))
          rw [this] at hsz; linarith
  · intro d hd d' hd' b b' s s' eb eb' es es' hle
    have k1 := (key d hd).2
    have k2 := (key d' hd').2
    rw [eb, es] at k1
    rw [eb', es'] at k2
    cases em : mn with
    | none => rw [em] at k1; cases k1
    | some m =>
      cases er : range with
      | none => rw [em, er] at k1; cases k1
      | some y =>
        obtain ⟨hy, -⟩ := range_pos hmn hM hpos (by rw [← hrange]; exact er)
        rw [em, er] at k1 k2
        exact biasSize_mono hwp hy k1.symm k2.symm hle

/-- C126: the diagram is drawn when the bias is not asked for; or there are two datasets, and, for biases shown as sizes, every
dataset has a bias and the markers were not chosen or there are at least three. -/
theorem c126_draws (o : Opts) (items : List Item) (h : o.bias = none ∨ 2 ≤ items.length)
    (hs : o.bias = some .size → (∀ it ∈ items, it.p.bias.isSome) ∧ (o.markers = none ∨ ∃ ms, o.markers = some ms ∧ 3 ≤ ms.length)) :
    ∃ ds, draw o items = .ok (radius o (items.map Item.p), ds) := by
  have hone : ∀ (r mn range : Option ℝ) (i : Nat) (it : Item), it ∈ items → ∃ d, drawOne o r mn range i it = .ok d := by
    intro r mn range i it hit
    unfold drawOne
    simp only
    split
    · rename_i hb
      obtain ⟨h1, h2⟩ := hs hb
      obtain ⟨b, eb⟩ := Option.isSome_iff_exists.1 (h1 it hit)
      have : ∃ x, drawnBias o it.p.bias = some x := by
        unfold drawnBias
        rw [eb]
        cases truthy o.stdbiasmax with
        | none => exact ⟨b, rfl⟩
        | some m => simp only; split <;> exact ⟨_, rfl⟩
      obtain ⟨x, ex⟩ := this
      rw [ex]
      simp only
      have hlen : signIndex x < (markers o).length := by
        have : signIndex x ≤ 2 := by unfold signIndex; split <;> [skip; split] <;> omega
        unfold markers
        rcases h2 with h2 | ⟨ms, h2, h3⟩
        · rw [h2, hb]; simp; omega
        · rw [h2]; simp only; omega
      rw [List.getElem?_eq_getElem hlen]
      exact ⟨_, rfl⟩
    · exact ⟨_, rfl⟩
  have hall : ∀ (r mn range : Option ℝ) (l : List Item) (i : Nat), (∀ it ∈ l, it ∈ items) → ∃ ds, drawAll o r mn range i l = .ok ds := by
    intro r mn range l
    induction l with
    | nil => intro i _; exact ⟨[], rfl⟩
    | cons it t ih =>
      intro i hsub
      obtain ⟨d, hd⟩ := hone r mn range i it (hsub it (by simp))
      obtain ⟨ds, hds⟩ := ih (i + 1) (fun x hx => hsub x (by simp [hx]))
      exact ⟨d :: ds, by unfold drawAll; rw [hd, hds]; rfl⟩
  unfold draw
  simp only
  by_cases hb : o.bias = none
  · rw [if_neg (by simp [hb]), if_neg (by simp [hb])]
    simp only [pure, Except.pure, bind, Except.bind]
    obtain ⟨ds, hds⟩ := hall (radius o (items.map Item.p)) none (msub none none) items 0 (fun _ h => h)
    rw [hds]; exact ⟨ds, rfl⟩
  · rw [if_pos (Option.isSome_iff_ne_none.2 hb), if_pos (Option.isSome_iff_ne_none.2 hb)]
    have h2 := h.resolve_left hb
    have : ∃ mn, minBias o (items.map Item.p) = .ok mn := by
      unfold minBias
      rw [if_neg]
      · split <;> exact ⟨_, rfl⟩
      · rw [List.isEmpty_iff]
        intro hc
        have := congrArg List.length hc
        rw [List.length_tail, List.length_map] at this
        simp at this; omega
    obtain ⟨mn, hmn⟩ := this
    rw [hmn]
    simp only [pure, Except.pure, bind, Except.bind]
    obtain ⟨ds, hds⟩ := hall (radius o (items.map Item.p)) mn (msub (maxBias o (items.map Item.p)) mn) items 0 (fun _ h => h)
    rw [hds]; exact ⟨ds, rfl⟩

/-! ### Violations -/

/-- An item with these statistics. -/
def mkItem (l : String) (c g b : ℝ) : Item := ⟨l, ⟨some c, some g, some b⟩⟩

/-- C126 violated, radius: no radius was asked for, but a dataset whose bias is beyond the greatest one to show is left out of
the automatic radius, so that its point is off the diagram; with folding it is drawn at another standard deviation. -/
theorem c126_radius_violated (fold : Bool) : ∃ (o : Opts) (items : List Item) (it : Item) (ds : List Drawn) (d : Drawn),
    o.gammamax = none ∧ o.fold = fold ∧ items[1]? = some it ∧ it.p.gamma = some 3 ∧
    draw o items = .ok (some 1, ds) ∧ ds[1]? = some d ∧ Spec.FarOut (some 1) it.p ∧ d.label = "b $>$ B+" ∧
    d.gamma = some (if fold then 1 else 3) := by
  have hm : radius ⟨0, fold, none, some 1, some .flag, none, none, false⟩
      [⟨some 1, some 1, some 0⟩, ⟨some (1/2), some 3, some 2⟩] = some 1 := by
    unfold radius
    simp [truthy, excluded, gt, amax]
  obtain ⟨ds, hd⟩ := c126_draws ⟨0, fold, none, some 1, some .flag, none, none, false⟩
    [mkItem "a" 1 1 0, mkItem "b" (1/2) 3 2] (by simp) (by simp)
  simp only [List.map_cons, List.map_nil, mkItem, hm] at hd
  obtain ⟨-, mn, range, -, h2⟩ := draw_cases hd
  obtain ⟨d, e1, e2⟩ := (drawAll_get _ 0 ds h2).2 1 _ rfl
  obtain ⟨f1, -, f3, -⟩ := drawOne_fields e2
  refine ⟨_, _, _, ds, d, rfl, rfl, rfl, rfl, hd, e1, ⟨3, 1, rfl, rfl, by norm_num, by norm_num⟩, ?_, ?_⟩
  · rw [f1]
    have : ¬ (0 : ℝ) > 1 / 2 := by norm_num
    simp [label, suffix, gt, truthy]
    norm_num
    rfl
  · rw [f3]
    cases fold <;> simp [drawnGamma, truthy]

/-- C126 violated, sizes: if no dataset has a bias the markers have no size (0/0). -/
theorem c126_size_zero_violated : ∃ (o : Opts) (items : List Item) (ds : List Drawn) (r : Option ℝ), o.bias = some .size ∧
    (∀ it ∈ items, it.p.bias = some 0) ∧ draw o items = .ok (r, ds) ∧ ds.length = 2 ∧ ∀ d ∈ ds, d.size = none := by
  obtain ⟨ds, hd⟩ := c126_draws ⟨0, false, none, none, some .size, none, none, false⟩
    [mkItem "a" 1 1 0, mkItem "b" (1/2) 3 0] (by simp) (by
      intro _; refine ⟨?_, Or.inl rfl⟩
      intro it hi; simp [mkItem] at hi; rcases hi with rfl | rfl <;> rfl)
  obtain ⟨-, mn, range, hlim, h2⟩ := draw_cases hd
  obtain ⟨hl, hg⟩ := drawAll_get _ 0 ds h2
  refine ⟨_, _, ds, _, rfl, ?_, hd, hl, ?_⟩
  · intro it hi; simp [mkItem] at hi; rcases hi with rfl | rfl <;> rfl
  · intro d hdm
    obtain ⟨k, hk⟩ := List.getElem?_of_mem hdm
    have hk' := (List.getElem?_eq_some_iff.1 hk).1
    rw [hl] at hk'
    obtain ⟨d', e1, e2⟩ := hg k _ (List.getElem?_eq_getElem hk')
    rw [hk] at e1; cases e1
    rw [((drawOne_fields e2).2.2.2.2.1 rfl).2]
    obtain ⟨k1, k2⟩ := hlim (by simp)
    have k3 : maxBias ⟨0, false, none, none, some .size, none, none, false⟩
        [⟨some 1, some 1, some 0⟩, ⟨some (1/2), some 3, some 0⟩] = some 0 := by
      unfold maxBias; simp [truthy, excluded, gt, amax]
    have k4 : minBias ⟨0, false, none, none, some .size, none, none, false⟩
        [⟨some 1, some 1, some 0⟩, ⟨some (1/2), some 3, some 0⟩] = .ok (some 0) := by
      unfold minBias; rw [k3]; simp [truthy, excluded, gt, amin]
    simp only [List.map_cons, List.map_nil, mkItem] at k1 k2
    rw [k4] at k1
    simp only [Except.ok.injEq] at k1
    rw [k3, ← k1] at k2
    rw [k2, ← k1]
    unfold biasSize msub
    cases d.bias <;> simp

/-- C126 violated: a single dataset cannot be shown with its bias. -/
theorem c126_single_violated (o : Opts) (hb : o.bias ≠ none) (it : Item) : draw o [it] = .error .noOther := by
  unfold draw
  simp only
  rw [if_pos (Option.isSome_iff_ne_none.2 hb)]
  rfl

/-- C126 violated, markers: with biases shown as sizes, the markers chosen for the datasets are used for the signs of the biases
instead; with two datasets there is no marker for a positive bias and the diagram fails. -/
theorem c126_markers_violated (o : Opts) (hb : o.bias = some .size) (ms : List String) (hm : o.markers = some ms)
    (items : List Item) (hl : items.length = 2) (hms : ms.length = 2) (i : Nat) (it : Item) (hi : items[i]? = some it) (b : ℝ)
    (hbias : drawnBias o it.p.bias = some b) (hpos : 0 < b) : ∃ e, draw o items = .error e := by
  cases h : draw o items with
  | error e => exact ⟨e, rfl⟩
  | ok p =>
    exfalso
    obtain ⟨r, ds⟩ := p
    obtain ⟨-, mn, range, -, h2⟩ := draw_cases h
    obtain ⟨d, e1, e2⟩ := (drawAll_get _ 0 ds h2).2 i it hi
    obtain ⟨-, -, -, f4, f5, -⟩ := drawOne_fields e2
    obtain ⟨⟨x, ex, em⟩, -⟩ := f5 hb
    rw [f4, hbias] at ex
    cases ex
    unfold markers at em
    rw [hm] at em
    simp only [signIndex, if_pos hpos] at em
    have := (List.getElem?_eq_some_iff.1 em).1
    omega

/-! ### Examples -/

/-- Two datasets, the second beyond the radius and with a negative correlation; the diagram is folded. -/
example : ∃ r ds, draw ⟨0, true, some 2, some 1, some .size, none, none, false⟩
    [mkItem "a" 1 1 0, mkItem "b" (-1/2) 3 (1/2)] = .ok (r, ds) ∧ maxBias ⟨0, true, some 2, some 1, some .size, none, none, false⟩
      ([mkItem "a" 1 1 0, mkItem "b" (-1/2) 3 (1/2)].map Item.p) = some 1 := by
  obtain ⟨ds, hd⟩ := c126_draws ⟨0, true, some 2, some 1, some .size, none, none, false⟩
    [mkItem "a" 1 1 0, mkItem "b" (-1/2) 3 (1/2)] (by simp) (by
      intro _; refine ⟨?_, Or.inl rfl⟩
      intro it hi; simp [mkItem] at hi; rcases hi with rfl | rfl <;> rfl)
  exact ⟨_, ds, hd, by unfold maxBias; simp [truthy]⟩

/-- The statistics of two datasets meet the hypotheses on items. -/
example : ∀ p ∈ points false [[[(0, false), (1, false)]], [[(1, false), (3, false)]]],
    (∀ c, p.corr = some c → |c| ≤ 1) ∧ (p.gamma.isSome → p.bias.isSome) := points_wf _ _

end Cis.Plot.TaylorDraw
