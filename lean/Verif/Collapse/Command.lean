import Verif.Collapse.Props
import Verif.Parse.Props
import Verif.Parse.Args
set_option linter.unusedSectionVars false
set_option linter.unusedSimpArgs false

/-!
# `cis collapse`: from the command line to the values that are saved (C187)

The names of the dimensions are found among the coordinates of each variable, the kernel is looked up, and each variable is collapsed (C102).
-/
namespace Cis.CollapseCmd
open Cis.Collapse (Coordinate Cube Out Meta Kernel How)
open Cis.Parse (OS)

abbrev Str := List Char

/-! ### Model -/

/-- A coordinate of gridded data: names, the axis (`guess_coord_axis` of Iris), its dimensions, whether it is a dimension coordinate, whether it has
bounds. -/
structure Crd where
  standard : Option String
  long : Option String
  var : Option String
  axis : Option String
  dims : List Nat
  isDim : Bool
  bounds : Bool
deriving DecidableEq

/-- `Coord.name()` of Iris. -/
def Crd.name (c : Crd) : String := (c.standard <|> c.long <|> c.var).getD "unknown"

/-- A variable. -/
structure Var where
  md : Meta
  shape : List Nat
  value : List Nat → Option ℚ
  area : List Nat → ℚ
  crds : List Crd

/-- What collapsing sees of a coordinate (gridded_collapsor.py:68-97). -/
def Crd.plain (c : Crd) : Coordinate := ⟨c.name, c.standard, c.dims, c.isDim, c.bounds⟩

def Var.cube (v : Var) : Cube := ⟨v.md, v.shape, v.value, v.crds.map Crd.plain, v.area⟩

/-- `Cube.coord`: the coordinate if exactly one fits (Iris). -/
def one (l : List Crd) (p : Crd → Bool) : Option Crd :=
  match l.filter p with
  | [x] => some x
  | _ => none

/-- `standard_axes.get` (utils.py:568). -/
def standardAxes : String → Option String
  | "X" => some "longitude"
  | "Y" => some "latitude"
  | "Z" => some "altitude"
  | "T" => some "time"
  | "P" => some "air_pressure"
  | _ => none

/-- `_get_coord` (common_data.py:207-222) on gridded data. Without a standard axis of this name Iris is asked without any condition, which every
coordinate fits. -/
def getCoord (l : List Crd) (n : String) : Option Crd :=
  one l (fun c => c.name == n) <|> one l (fun c => c.standard == some n) <|>
    one l (fun c => match standardAxes n.toUpper with | some s => c.standard == some s | none => true) <|>
    one l (fun c => c.var == some n) <|> one l (fun c => c.axis == some n.toUpper)

inductive Err
  | parser
  | stopped
  | read
  | collapse (e : Collapse.Err)

/-- `_collapse_gridded` (gridded_data.py:614-652) of one variable: the coordinates are looked up, then the kernel, then every coordinate that was not
found makes the collapse fail (gridded_collapsor.py:74-75). -/
def collapseOne (iris : String → List ℚ → Option ℚ) (names : List String) (how : How) (v : Var) : Except Collapse.Err (List Out) :=
  match Collapse.resolve how with
  | .error e => .error e
  | .ok ks =>
    match names.mapM (getCoord v.crds) with
    | none => .error .attribute
    | some cs => Collapse.eachKernel iris (Collapse.guessBounds v.cube) (cs.map Crd.plain) ks

/-- `GriddedDataList.collapsed` (gridded_data.py:508-520). -/
def collapseAll (iris : String → List ℚ → Option ℚ) (names : List String) (how : How) : List Var → Except Collapse.Err (List Out)
  | [] => .ok []
  | v :: t =>
    match collapseOne iris names how v with
    | .error e => .error e
    | .ok a =>
      match collapseAll iris names how t with
      | .error e => .error e
      | .ok b => .ok (a ++ b)

/-- The command line (parse.py:231-240): the dimensions as given, the kernel of the datagroup if there is one, the files read, the output. -/
structure Line where
  dims : List Str
  kernel : Option String
  files : List Str
  output : Str
  force : Bool
  env : Str
  answers : List Str

/-- `validate_collapse_args` (parse.py:926-932) and `collapse_cmd` (cis_main.py:151-172) with one datagroup of gridded data. -/
def run (iris : String → List ℚ → Option ℚ) (plugins : List String) (os : OS) (read : Option (List Var)) (l : Line) : Except Err (Str × List Out) :=
  if (l.kernel.map (Args.kernelAccepted plugins)).getD true = false then .error .parser
  else
    match Parse.validateOutput os ".nc".toList l.output l.force l.env l.answers l.files with
    | .error => .error .parser
    | .noOperation => .error .stopped
    | .waiting => .error .stopped
    | .proceed file _ =>
      match read with
      | none => .error .read
      | some vs =>
        match collapseAll iris ((Args.dimensions l.dims).map String.ofList) (.name (l.kernel.getD "")) vs with
        | .error e => .error (.collapse e)
        | .ok outs => .ok (file, outs)

/-! ### Specification -/

/-- The letters for the usual coordinates. -/
def Spec.letters : List (String × String) :=
  [("x", "longitude"), ("X", "longitude"), ("y", "latitude"), ("Y", "latitude"), ("z", "altitude"), ("Z", "altitude"), ("t", "time"), ("T", "time"),
   ("p", "air_pressure"), ("P", "air_pressure")]

/-- The coordinate that a name stands for: the only one of this name; or, for a letter that is the name of none, the only one with the standard name
that belongs to the letter; or, if it is the name or standard name of none, and not a single character, the only one of several coordinates with this variable name. -/
inductive Spec.Means (l : List Crd) (n : String) (c : Crd) : Prop
  | name : c ∈ l → c.name = n → (∀ d ∈ l, d.name = n → d = c) → l.Nodup → Spec.Means l n c
  | letter (s : String) : (n, s) ∈ Spec.letters → c ∈ l → c.standard = some s → (∀ d ∈ l, d.standard = some s → d = c) → l.Nodup →
      (∀ d ∈ l, d.name ≠ n) → Spec.Means l n c
  | varName : (∀ d ∈ l, d.name ≠ n) → n.length ≠ 1 → 2 ≤ l.length → c ∈ l → c.var = some n → (∀ d ∈ l, d.var = some n → d = c) →
      l.Nodup → Spec.Means l n c

/-- Mean with weights, of pairs of weight and value; none without values. -/
def Spec.mean (l : List (ℚ × ℚ)) : Option ℚ :=
  if l.length = 0 then none else some ((l.map (fun p => p.1 * p.2)).sum / (l.map (fun p => p.1)).sum)

/-- Square of the corrected standard deviation; none for fewer than two values. -/
def Spec.variance (l : List (ℚ × ℚ)) : Option ℚ :=
  if l.length ≤ 1 then none
  else some ((l.map (fun p => (p.2 - (l.map (fun q => q.2)).sum / l.length) ^ 2)).sum / ((l.length : ℚ) - 1))

/-- The number of values. -/
def Spec.number (l : List (ℚ × ℚ)) : Option ℚ := some l.length

/-- The sum of the values; none without values. -/
def Spec.total (l : List (ℚ × ℚ)) : Option ℚ := if l.length = 0 then none else some (l.map (fun p => p.2)).sum

/-- The least value. -/
def Spec.least (l : List (ℚ × ℚ)) : Option ℚ := (l.map (fun p => p.2)).min?

/-- The greatest value. -/
def Spec.greatest (l : List (ℚ × ℚ)) : Option ℚ := (l.map (fun p => p.2)).max?

/-- What each kernel asks for: what is added to the name of the variable, and the statistic. -/
inductive Spec.Asks : Option String → List (String × (List (ℚ × ℚ) → Option ℚ)) → Prop
  | default : Spec.Asks none [("", Spec.mean), ("_std_dev", Spec.variance), ("_num_points", Spec.number)]
  | moments : Spec.Asks (some "moments") [("", Spec.mean), ("_std_dev", Spec.variance), ("_num_points", Spec.number)]
  | mean : Spec.Asks (some "mean") [("", Spec.mean)]
  | min : Spec.Asks (some "min") [("", Spec.least)]
  | max : Spec.Asks (some "max") [("", Spec.greatest)]
  | sum : Spec.Asks (some "sum") [("", Spec.total)]

/-- All indices of an array of a shape. -/
def Spec.indices : List Nat → List (List Nat)
  | [] => [[]]
  | n :: t => (List.range n).flatMap (fun i => (Spec.indices t).map (fun r => i :: r))

/-- The cells, with a value, that are in the same place as cell `j` in every dimension that is not collapsed. -/
def Spec.cells (v : Var) (cs : List Crd) (j : List Nat) : List (List Nat) :=
  (Spec.indices v.shape).filter (fun i =>
    decide (∀ a < v.shape.length, (∀ c ∈ cs, a ∉ c.dims) → i.getD a 0 = j.getD a 0) && (v.value i).isSome)

/-- What `j` is in the dimensions that are left. -/
def Spec.left (v : Var) (cs : List Crd) (j : List Nat) : List Nat :=
  ((List.range v.shape.length).filter (fun a => decide (∀ c ∈ cs, a ∉ c.dims))).map (fun a => j.getD a 0)

/-- There is one coordinate of this standard name; it has bounds, or they can be guessed because it is a dimension with more than one point. -/
def Spec.Bounded (v : Var) (s : String) : Prop :=
  ∃ c ∈ v.crds, c.standard = some s ∧ (∀ d ∈ v.crds, d.standard = some s → d = c) ∧
    (c.bounds = true ∨ c.isDim = true ∧ ∀ d ∈ c.dims, 1 < v.shape.getD d 0)

/-- The weights of the cells: their areas if latitude is collapsed, which have to be known, else all the same. -/
def Spec.Weighs (v : Var) (cs : List Crd) (w : List Nat → ℚ) : Prop :=
  ((∃ c ∈ cs, c.standard = some "latitude") ∧ Spec.Bounded v "latitude" ∧ Spec.Bounded v "longitude" ∧ w = v.area) ∨
  ((∀ c ∈ cs, c.standard ≠ some "latitude") ∧ w = fun _ => 1)

/-! ### Proofs -/

theorem indices_eq (s : List Nat) : Spec.indices s = Agg.allIdx s := by
  induction s with
  | nil => rfl
  | cons n t ih => simp only [Spec.indices, Agg.allIdx, ih]

theorem one_of_only (l : List Crd) (p : Crd → Bool) (c : Crd) (hc : c ∈ l) (hp : p c = true) (ho : ∀ d ∈ l, p d = true → d = c) (hn : l.Nodup) :
    one l p = some c := by
  have : l.filter p = [c] := by
    have h1 : (l.filter p).Nodup := hn.filter _
    have h2 : ∀ d, d ∈ l.filter p ↔ d = c := by
      intro d
      rw [List.mem_filter]
      constructor
      · rintro ⟨a, b⟩; exact ho d a b
      · rintro rfl; exact ⟨hc, hp⟩
    have h3 : (l.filter p).Perm [c] := by
      rw [List.perm_ext_iff_of_nodup h1 (by simp)]
      simpa using h2
    simpa using h3
  unfold one
  rw [this]

theorem one_none (l : List Crd) (p : Crd → Bool) (h : ∀ d ∈ l, p d = false) : one l p = none := by
  have : l.filter p = [] := by
    rw [List.filter_eq_nil_iff]
    intro d hd
    rw [h d hd]; simp
  unfold one
  rw [this]

theorem standard_name (c : Crd) (s : String) (h : c.standard = some s) : c.name = s := by
  unfold Crd.name
  rw [h]; rfl

theorem letters_axes (n s : String) (h : (n, s) ∈ Spec.letters) : standardAxes n.toUpper = some s := by
  unfold Spec.letters at h
  simp only [List.mem_cons, Prod.mk.injEq, List.not_mem_nil, or_false] at h
  rcases h with ⟨rfl, rfl⟩ | ⟨rfl, rfl⟩ | ⟨rfl, rfl⟩ | ⟨rfl, rfl⟩ | ⟨rfl, rfl⟩ | ⟨rfl, rfl⟩ | ⟨rfl, rfl⟩ | ⟨rfl, rfl⟩ | ⟨rfl, rfl⟩ | ⟨rfl, rfl⟩ <;>
    with_unfolding_all rfl

theorem axes_long (n : String) (h : n.length ≠ 1) : standardAxes n.toUpper = none := by
  have hl : n.toUpper.length = n.length := by
    simp [String.toUpper]
  unfold standardAxes
  split <;> rename_i e <;> first | rfl | (exfalso; apply h; rw [← hl, e]; rfl)

theorem getCoord_means (l : List Crd) (n : String) (c : Crd) (h : Spec.Means l n c) : getCoord l n = some c := by
  unfold getCoord
  cases h with
  | name h1 h2 h3 h4 =>
    rw [one_of_only l (fun c => c.name == n) c h1 (by simpa using h2) (fun d hd hp => h3 d hd (by simpa using hp)) h4]
    rfl
  | letter s h0 h1 h2 h3 h4 h5 =>
    rw [one_none l (fun c => c.name == n) (fun d hd => by simpa using h5 d hd),
      one_none l (fun c => c.standard == some n) (fun d hd => by
        rw [beq_eq_false_iff_ne]
        intro e
        exact h5 d hd (standard_name d n e)),
      letters_axes n s h0, one_of_only l (fun c => c.standard == some s) c h1 (by simpa using h2) (fun d hd hp => h3 d hd (by simpa using hp)) h4]
    rfl
  | varName h0 h1 h2 h3 h4 h5 h6 =>
    rw [one_none l (fun c => c.name == n) (fun d hd => by simpa using h0 d hd),
      one_none l (fun c => c.standard == some n) (fun d hd => by
        rw [beq_eq_false_iff_ne]
        intro e
        exact h0 d hd (standard_name d n e)),
      axes_long n h1]
    have : one l (fun _ => true) = none := by
      unfold one
      rw [List.filter_true]
      match l, h2 with
      | _ :: _ :: _, _ => rfl
    dsimp only
    rw [this, one_of_only l (fun c => c.var == some n) c h3 (by simpa using h4) (fun d hd hp => h5 d hd (by simpa using hp)) h6]
    rfl

theorem find_standard (v : Var) (s : String) (c : Crd) (hc : c ∈ v.crds) (hs : c.standard = some s) (ho : ∀ d ∈ v.crds, d.standard = some s → d = c) :
    v.cube.coords.find? (fun x => x.standardName == some s) = some c.plain := by
  unfold Var.cube
  dsimp only
  rw [List.find?_map]
  have : (v.crds.find? ((fun x : Coordinate => x.standardName == some s) ∘ Crd.plain)) = some c := by
    generalize v.crds = l at hc ho
    induction l with
    | nil => cases hc
    | cons d t ih =>
      rw [List.find?_cons]
      by_cases hd : d.standard = some s
      · have := ho d List.mem_cons_self hd
        subst this
        simp [Crd.plain, hs]
      · have hne : c ≠ d := fun e => hd (e ▸ hs)
        have hct : c ∈ t := by
          rcases List.mem_cons.1 hc with e | e
          · exact absurd e hne
          · exact e
        simp only [Function.comp_apply, Crd.plain]
        have : (d.standard == some s) = false := by simpa using hd
        rw [this]
        exact ih hct (fun d hd => ho d (List.mem_cons_of_mem _ hd))
  rw [this]; rfl

theorem canWeigh (v : Var) (h1 : Spec.Bounded v "latitude") (h2 : Spec.Bounded v "longitude") : Collapse.Spec.CanWeigh v.cube := by
  obtain ⟨a, a1, a2, a3, a4⟩ := h1
  obtain ⟨b, b1, b2, b3, b4⟩ := h2
  exact ⟨a.plain, b.plain, find_standard v _ a a1 a2 a3, find_standard v _ b b1 b2 b3, a4, b4⟩

theorem eachKernel_ok (iris : String → List ℚ → Option ℚ) (v : Var) (cs : List Crd) (w : List Nat → ℚ) (hw : Spec.Weighs v cs w) : ∀ ks : List Kernel,
    Collapse.eachKernel iris (Collapse.guessBounds v.cube) (cs.map Crd.plain) ks =
      .ok (ks.map (fun k => Collapse.outOf iris v.cube (cs.flatMap Crd.dims) (if Collapse.weighted k then w else fun _ => 1) k))
  | [] => rfl
  | k :: t => by
    have hd : (cs.map Crd.plain).flatMap (fun x => x.dims) = cs.flatMap Crd.dims := by
      rw [List.flatMap_map]; rfl
    have hlat : (cs.map Crd.plain).any (fun x => x.standardName == some "latitude") = true ↔ ∃ c ∈ cs, c.standard = some "latitude" := by
      simp [List.any_eq_true, Crd.plain]
    have h1 : Collapse.fullCollapse iris (Collapse.guessBounds v.cube) (cs.map Crd.plain) k =
        .ok (Collapse.outOf iris v.cube (cs.flatMap Crd.dims) (if Collapse.weighted k then w else fun _ => 1) k) := by
      unfold Collapse.fullCollapse
      simp only [hd]
      rcases hw with ⟨h1, h2, h3, rfl⟩ | ⟨h1, rfl⟩
      · by_cases hk : Collapse.weighted k = true
        · rw [if_pos ⟨hk, hlat.2 h1⟩, Collapse.areaWeights_ok _ (canWeigh v h2 h3)]
          simp only [hk, if_true]
          rfl
        · rw [if_neg (fun hc => hk hc.1)]
          simp only [hk]
          rfl
      · rw [if_neg (fun hc => by obtain ⟨c, hc1, hc2⟩ := hlat.1 hc.2; exact h1 c hc1 hc2)]
        simp only [ite_self]
        rfl
    unfold Collapse.eachKernel
    rw [h1]
    simp only
    rw [eachKernel_ok iris v cs w hw t]
    rfl

theorem valid_cells (v : Var) (cs : List Crd) (j : List Nat) : Collapse.Spec.valid v.cube (cs.flatMap Crd.dims) j = Spec.cells v cs j := by
  unfold Collapse.Spec.valid Spec.cells
  rw [indices_eq]
  apply List.filter_congr
  intro i _
  congr 1
  rw [decide_eq_decide]
  unfold Collapse.Spec.SameCell
  constructor
  · intro h a ha hc
    exact h a ha (fun hm => by obtain ⟨c, hc1, hc2⟩ := List.mem_flatMap.1 hm; exact hc c hc1 hc2)
  · intro h a ha hc
    exact h a ha (fun c hc1 hc2 => hc (List.mem_flatMap.2 ⟨c, hc1, hc2⟩))

theorem left_rest (v : Var) (cs : List Crd) (j : List Nat) : Collapse.Spec.rest v.cube (cs.flatMap Crd.dims) j = Spec.left v cs j := by
  unfold Collapse.Spec.rest Spec.left
  congr 1
  apply List.filter_congr
  intro a _
  rw [decide_eq_decide]
  simp

/-- A kernel and the statistic it computes. -/
inductive Computes (lat : Prop) : Kernel → String × (List (ℚ × ℚ) → Option ℚ) → Prop
  | mean : Computes lat .mean ("", Spec.mean)
  | std : Computes lat .std ("_std_dev", Spec.variance)
  | count : Computes lat .count ("_num_points", Spec.number)
  | min : Computes lat .min ("", Spec.least)
  | max : Computes lat .max ("", Spec.greatest)
  | sum : ¬ lat → Computes lat .sum ("", Spec.total)

theorem computes_value (iris : String → List ℚ → Option ℚ) (v : Var) (cs : List Crd) (w : List Nat → ℚ) (hw : Spec.Weighs v cs w) (k : Kernel)
    (st : String × (List (ℚ × ℚ) → Option ℚ)) (h : Computes (∃ c ∈ cs, c.standard = some "latitude") k st) (j : List Nat) :
    (Collapse.outOf iris v.cube (cs.flatMap Crd.dims) (if Collapse.weighted k then w else fun _ => 1) k).value (Spec.left v cs j) =
      st.2 ((Spec.cells v cs j).map (fun i => (w i, (v.value i).getD 0))) := by
  have h0 := Collapse.outOf_at iris v.cube (cs.flatMap Crd.dims) (if Collapse.weighted k then w else fun _ => 1) k j
  rw [valid_cells] at h0
  unfold Collapse.Spec.at' at h0
  rw [left_rest] at h0
  rw [h0]
  have hval : ∀ i, Collapse.Spec.val v.cube i = (v.value i).getD 0 := fun i => rfl
  simp only [hval]
  generalize Spec.cells v cs j = l
  cases h with
  | mean =>
    have e : (if Collapse.weighted .mean = true then w else fun _ => 1) = w := rfl
    rw [e]
    simp only [Collapse.apply, Spec.mean, List.length_eq_zero_iff]
  | std =>
    simp only [Collapse.apply, Collapse.weighted, Spec.variance, List.length_map, List.map_map]
    by_cases hl : l.length < 2
    · rw [if_pos hl, if_pos (by omega)]
    · rw [if_neg hl, if_neg (by omega)]
      simp only [Function.comp_def, pow_two]
  | count => simp [Collapse.apply, Spec.number]
  | min => simp [Collapse.apply, Collapse.weighted, Spec.least, Function.comp_def]
  | max => simp [Collapse.apply, Collapse.weighted, Spec.greatest, Function.comp_def]
  | sum hl =>
    rcases hw with ⟨h1, -⟩ | ⟨-, rfl⟩
    · exact absurd h1 hl
    · simp [Collapse.apply, Collapse.weighted, Spec.total, Function.comp_def]

theorem asks_kernels (k : Option String) (sts : List (String × (List (ℚ × ℚ) → Option ℚ))) (h : Spec.Asks k sts) (lat : Prop) (hs : k = some "sum" → ¬ lat) :
    ∃ ks, Collapse.resolve (.name (k.getD "")) = .ok ks ∧ List.Forall₂ (Computes lat) ks sts := by
  cases h with
  | default => exact ⟨[.mean, .std, .count], by decide, .cons .mean (.cons .std (.cons .count .nil))⟩
  | moments => exact ⟨[.mean, .std, .count], by decide, .cons .mean (.cons .std (.cons .count .nil))⟩
  | mean => exact ⟨[.mean], by decide, .cons .mean .nil⟩
  | min => exact ⟨[.min], by decide, .cons .min .nil⟩
  | max => exact ⟨[.max], by decide, .cons .max .nil⟩
  | sum => exact ⟨[.sum], by decide, .cons (.sum (hs rfl)) .nil⟩

/-- What the collapse of one variable is. -/
def Spec.Collapsed (v : Var) (cs : List Crd) (w : List Nat → ℚ) (sts : List (String × (List (ℚ × ℚ) → Option ℚ))) (outs : List Out) : Prop :=
  List.Forall₂ (fun st o => o.md.varName = v.md.varName ++ st.1 ∧ o.shape = Spec.left v cs v.shape ∧
    ∀ j, o.value (Spec.left v cs j) = st.2 ((Spec.cells v cs j).map (fun i => (w i, (v.value i).getD 0)))) sts outs

theorem mapM_forall₂ {α β : Type} (f : α → Option β) (l : List α) (r : List β) (h : List.Forall₂ (fun a b => f a = some b) l r) : l.mapM f = some r := by
  induction h with
  | nil => rfl
  | cons h1 _ ih => rw [List.mapM_cons, h1, ih]; rfl

theorem collapseOne_ok (iris : String → List ℚ → Option ℚ) (v : Var) (names : List String) (k : Option String) (cs : List Crd) (w : List Nat → ℚ)
    (sts : List (String × (List (ℚ × ℚ) → Option ℚ))) (hm : List.Forall₂ (Spec.Means v.crds) names cs) (hw : Spec.Weighs v cs w)
    (hk : Spec.Asks k sts) (hs : k = some "sum" → ∀ c ∈ cs, c.standard ≠ some "latitude") :
    ∃ outs, collapseOne iris names (.name (k.getD "")) v = .ok outs ∧ Spec.Collapsed v cs w sts outs := by
  obtain ⟨ks, h1, h2⟩ := asks_kernels k sts hk (∃ c ∈ cs, c.standard = some "latitude") (fun e => by
    rintro ⟨c, hc, hl⟩; exact hs e c hc hl)
  refine ⟨ks.map (fun k => Collapse.outOf iris v.cube (cs.flatMap Crd.dims) (if Collapse.weighted k then w else fun _ => 1) k), ?_, ?_⟩
  · unfold collapseOne
    rw [h1]
    dsimp only
    rw [mapM_forall₂ _ names cs (hm.imp (fun n c h => getCoord_means _ n c h))]
    exact eachKernel_ok iris v cs w hw ks
  · unfold Spec.Collapsed
    rw [List.forall₂_map_right_iff]
    refine List.Forall₂.flip ?_
    refine h2.imp ?_
    intro k st hc
    refine ⟨?_, ?_, computes_value iris v cs w hw k st hc⟩
    · cases hc <;> simp [Collapse.outOf, Collapse.metadata, Var.cube]
    · show Agg.along (Agg.keptAxes v.cube.shape.length _) v.cube.shape = _
      rw [Collapse.shape_eq, left_rest]
      rfl

/-- **C187.** `cis collapse` of one datagroup of gridded variables, with the dimensions named one by one or in one text with commas, each name meaning a
coordinate of every variable (by its name, by a letter x, y, z, t, p, or by its variable name), with the kernel mean, min, max, moments, none, or, if
latitude is not collapsed, sum; and an output that may be written and is none of the inputs. Then the file, with the extension `.nc` unless it has
one, is written with, for each variable in order, the statistics asked for, in order, named after the variable: on the dimensions that are left, and
each value that of exactly the cells that have a value and differ in the collapsed dimensions only; means weighted by the areas of the cells if
latitude is collapsed. -/
theorem c187_collapse (iris : String → List ℚ → Option ℚ) (plugins : List String) (os : OS) (vs : List Var) (names : List Str) (hne : names ≠ [])
    (hcomma : ∀ n ∈ names, ',' ∉ n) (args : List Str) (hargs : args = names ∨ args = [Str.join ',' names])
    (kernel : Option String) (sts : List (String × (List (ℚ × ℚ) → Option ℚ))) (hk : Spec.Asks kernel sts)
    (meant : Var → List Crd) (weight : Var → List Nat → ℚ)
    (hm : ∀ v ∈ vs, List.Forall₂ (Spec.Means v.crds) (names.map String.ofList) (meant v)) (hw : ∀ v ∈ vs, Spec.Weighs v (meant v) (weight v))
    (hs : kernel = some "sum" → ∀ v ∈ vs, ∀ c ∈ meant v, c.standard ≠ some "latitude")
    (files : List Str) (output file : Str) (hcol : ':' ∉ output) (hf : file = if os.ext output = [] then output ++ ".nc".toList else output)
    (force : Bool) (env : Str) (answers : List Str) (hcons : Parse.Consent os file force env answers)
    (hin : ∀ i ∈ files, ¬(os.pathExists file = true ∧ os.samefile file i = true)) :
    ∃ parts : List (List Out), run iris plugins os (some vs) ⟨args, kernel, files, output, force, env, answers⟩ = .ok (file, parts.flatten) ∧
      List.Forall₂ (fun v outs => Spec.Collapsed v (meant v) (weight v) sts outs) vs parts := by
  have hdims : (Args.dimensions args).map String.ofList = names.map String.ofList := by
    obtain ⟨h1, h2⟩ := Args.c111_dimensions names hne hcomma
    rcases hargs with rfl | rfl
    · rw [h1]
    · rw [h2]
  have hall : ∃ parts : List (List Out), collapseAll iris (names.map String.ofList) (.name (kernel.getD "")) vs = .ok parts.flatten ∧
      List.Forall₂ (fun v outs => Spec.Collapsed v (meant v) (weight v) sts outs) vs parts := by
    clear hin
    induction vs with
    | nil => exact ⟨[], rfl, .nil⟩
    | cons v t ih =>
      obtain ⟨outs, h1, h2⟩ := collapseOne_ok iris v (names.map String.ofList) kernel (meant v) (weight v) sts (hm v List.mem_cons_self)
        (hw v List.mem_cons_self) hk (fun e => hs e v List.mem_cons_self)
      obtain ⟨parts, h3, h4⟩ := ih (fun v hv => hm v (List.mem_cons_of_mem _ hv)) (fun v hv => hw v (List.mem_cons_of_mem _ hv))
        (fun e v hv => hs e v (List.mem_cons_of_mem _ hv))
      refine ⟨outs :: parts, ?_, .cons h2 h4⟩
      unfold collapseAll
      rw [h1]
      dsimp only
      rw [h3]
      rfl
  obtain ⟨parts, h1, h2⟩ := hall
  refine ⟨parts, ?_, h2⟩
  have hker : (kernel.map (Args.kernelAccepted plugins)).getD true = true := by
    cases hk <;> simp [Args.kernelAccepted, Args.collapseKernels]
  have hout : Parse.validateOutput os ".nc".toList output force env answers files = .proceed file none := by
    rw [Parse.output_validation]
    refine ⟨?_, hcons, hin⟩
    unfold Parse.outputFile
    rw [(Parse.splitOutput_spec output none output).2 (Or.inl ⟨rfl, rfl, hcol⟩), Option.map_some]
    unfold Parse.withExt
    dsimp only
    rw [← hf]
  unfold run
  dsimp only
  rw [hker]
  simp only [Bool.true_eq_false, if_false]
  rw [hout]
  dsimp only
  rw [hdims, h1]

/-- C187: a name that fits no coordinate of one of the variables, among other than one coordinate, makes the command fail, and nothing is written. -/
theorem c187_unknown (iris : String → List ℚ → Option ℚ) (plugins : List String) (os : OS) (vs : List Var) (l : Line) (v : Var) (hv : v ∈ vs)
    (n : Str) (hn : n ∈ Args.dimensions l.dims) (h2 : v.crds.length ≠ 1)
    (hno : ∀ c ∈ v.crds, c.name ≠ String.ofList n ∧ c.var ≠ some (String.ofList n) ∧ c.axis ≠ some (String.ofList n).toUpper ∧
      ∀ s, c.standard = some s → standardAxes (String.ofList n).toUpper ≠ some s) :
    ∃ e, run iris plugins os (some vs) l = .error e := by
  have hg : getCoord v.crds (String.ofList n) = none := by
    unfold getCoord
    rw [one_none _ (fun c => c.name == String.ofList n) (fun d hd => by simpa using (hno d hd).1),
      one_none _ (fun c => c.standard == some (String.ofList n)) (fun d hd => by
        rw [beq_eq_false_iff_ne]
        intro e
        exact (hno d hd).1 (standard_name d _ e)),
      one_none _ (fun c => c.var == some (String.ofList n)) (fun d hd => by simpa using (hno d hd).2.1),
      one_none _ (fun c => c.axis == some (String.ofList n).toUpper) (fun d hd => by simpa using (hno d hd).2.2.1)]
    have : one v.crds (fun c => match standardAxes (String.ofList n).toUpper with | some s => c.standard == some s | none => true) = none := by
      cases hs : standardAxes (String.ofList n).toUpper with
      | some s =>
        apply one_none
        intro d hd
        rw [beq_eq_false_iff_ne]
        intro e
        exact (hno d hd).2.2.2 s e hs
      | none =>
        unfold one
        dsimp only
        rw [List.filter_true]
        generalize v.crds = cs at h2
        match cs, h2 with
        | [], _ => rfl
        | _ :: _ :: _, _ => rfl
    rw [this]
    rfl
  have hone : ∃ e, collapseOne iris ((Args.dimensions l.dims).map String.ofList) (.name (l.kernel.getD "")) v = .error e := by
    unfold collapseOne
    cases Collapse.resolve (.name (l.kernel.getD "")) with
    | error e => exact ⟨e, rfl⟩
    | ok ks =>
      dsimp only
      have hm : ((Args.dimensions l.dims).map String.ofList).mapM (getCoord v.crds) = none := by
        have hmem : String.ofList n ∈ (Args.dimensions l.dims).map String.ofList := List.mem_map.2 ⟨n, hn, rfl⟩
        generalize (Args.dimensions l.dims).map String.ofList = ns at hmem
        induction ns with
        | nil => cases hmem
        | cons m t ih =>
          rw [List.mapM_cons]
          rcases List.mem_cons.1 hmem with e | e
          · rw [← e, hg]; rfl
          · rw [ih e]
            cases getCoord v.crds m <;> rfl
      rw [hm]
      exact ⟨_, rfl⟩
  have hall : ∃ e, collapseAll iris ((Args.dimensions l.dims).map String.ofList) (.name (l.kernel.getD "")) vs = .error e := by
    induction vs with
    | nil => cases hv
    | cons u t ih =>
      unfold collapseAll
      rcases List.mem_cons.1 hv with e | e
      · obtain ⟨x, hx⟩ := hone
        rw [← e, hx]
        exact ⟨_, rfl⟩
      · cases collapseOne iris ((Args.dimensions l.dims).map String.ofList) (.name (l.kernel.getD "")) u with
        | error x => exact ⟨x, rfl⟩
        | ok a =>
          obtain ⟨x, hx⟩ := ih e
          dsimp only
          rw [hx]
          exact ⟨_, rfl⟩
  unfold run
  split
  · exact ⟨_, rfl⟩
  · split
    · exact ⟨_, rfl⟩
    · exact ⟨_, rfl⟩
    · exact ⟨_, rfl⟩
    · obtain ⟨x, hx⟩ := hall
      dsimp only
      rw [hx]
      exact ⟨_, rfl⟩

/-- C160: data with a single coordinate are collapsed over it whatever the name given. -/
theorem c187_single_violated (c : Crd) (n : String) (h1 : c.name ≠ n) (h2 : c.standard ≠ some n) (h3 : standardAxes n.toUpper = none) :
    getCoord [c] n = some c := by
  unfold getCoord
  rw [one_none [c] (fun c => c.name == n) (by simpa using h1), one_none [c] (fun c => c.standard == some n) (by simpa using h2), h3]
  rfl

/-! ### Not vacuous -/

def exLat : Crd := ⟨some "latitude", none, some "lat", some "Y", [0], true, false⟩
def exLon : Crd := ⟨some "longitude", none, some "lon", some "X", [1], true, false⟩
def exTime : Crd := ⟨some "time", none, some "tm", some "T", [2], true, false⟩

def exVar : Var := ⟨⟨"rain", none, none, none⟩, [2, 2, 1], fun i => if i = [0, 1, 0] then none else some (i.getD 0 0 * 10 + i.getD 1 0), fun i => i.getD 0 0 + 1,
  [exLat, exLon, exTime]⟩

example : List.Forall₂ (Spec.Means exVar.crds) ["x", "latitude", "tm"] [exLon, exLat, exTime] := by
  refine .cons (.letter "longitude" (by decide) (by decide) rfl (by decide) (by decide) (by decide))
    (.cons (.name (by decide) rfl (by decide) (by decide)) (.cons (.varName (by decide) (by decide) (by decide) (by decide) rfl (by decide) (by decide)) .nil))

example : Spec.Weighs exVar [exLon, exLat] exVar.area := by
  refine Or.inl ⟨⟨exLat, by decide, rfl⟩, ⟨exLat, by decide, rfl, by decide, Or.inr ⟨rfl, by decide⟩⟩, ⟨exLon, by decide, rfl, by decide, Or.inr ⟨rfl, by decide⟩⟩, rfl⟩

def shown : Except Err (Str × List Out) → Option (List (String × List Nat × Option ℚ))
  | .ok (_, os) => some (os.map (fun o => (o.md.varName, o.shape, o.value [0])))
  | .error _ => none

/-- `cis collapse rain:f.nc x,latitude -o new`: the values are 0, 10 and 11 with areas 1, 2 and 2. -/
example : (shown (run (fun _ _ => none) [] Parse.exampleOS (some [exVar]) ⟨["x,latitude".toList], none, [], "new".toList, false, [], []⟩)) =
    some [("rain", [1], some (42 / 5)), ("rain_std_dev", [1], some 37), ("rain_num_points", [1], some 3)] := by
  decide +kernel

end Cis.CollapseCmd
