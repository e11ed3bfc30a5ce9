import Verif.Collapse.Model
set_option linter.unusedSectionVars false
set_option linter.unusedSimpArgs false
/-!
Collapsing gridded data: theorems for property C102.
-/
namespace Cis.Collapse
open Cis.Agg

/-- Latitude and longitude are there, each with bounds or as a dimension with more than one point. -/
def Spec.CanWeigh (c : Cube) : Prop :=
  ∃ lat lon, c.coords.find? (fun x => x.standardName == some "latitude") = some lat ∧
    c.coords.find? (fun x => x.standardName == some "longitude") = some lon ∧
    (lat.bounds = true ∨ lat.isDim = true ∧ ∀ d ∈ lat.dims, 1 < c.shape.getD d 0) ∧
    (lon.bounds = true ∨ lon.isDim = true ∧ ∀ d ∈ lon.dims, 1 < c.shape.getD d 0)

/-- The weights of the cells: their areas when latitude is collapsed, otherwise all the same. -/
def Spec.Weights (c : Cube) (names : List String) (w : List Nat → ℚ) : Prop :=
  (Spec.overLatitude c names ∧ Spec.CanWeigh c ∧ w = c.area) ∨ (¬ Spec.overLatitude c names ∧ w = fun _ => 1)

/-! ### Lemmas -/

def gb (shape : List Nat) (x : Coordinate) : Coordinate :=
  if x.isDim ∧ (along x.dims shape).all (fun n => decide (1 < n)) then { x with bounds := true } else x

theorem gb_name (s : List Nat) (x : Coordinate) : (gb s x).name = x.name := by unfold gb; split <;> rfl
theorem gb_std (s : List Nat) (x : Coordinate) : (gb s x).standardName = x.standardName := by unfold gb; split <;> rfl
theorem gb_dims (s : List Nat) (x : Coordinate) : (gb s x).dims = x.dims := by unfold gb; split <;> rfl
theorem gb_bounds (s : List Nat) (x : Coordinate) :
    (gb s x).bounds = true ↔ x.bounds = true ∨ x.isDim = true ∧ ∀ d ∈ x.dims, 1 < s.getD d 0 := by
  have : ((along x.dims s).all (fun n => decide (1 < n)) = true) ↔ ∀ d ∈ x.dims, 1 < s.getD d 0 := by
    simp [along, List.all_eq_true]
  unfold gb
  split
  · rename_i h
    simp only [true_iff]
    exact Or.inr ⟨h.1, this.1 h.2⟩
  · rename_i h
    rw [not_and, this] at h
    constructor
    · exact Or.inl
    · rintro (h' | h')
      · exact h'
      · exact absurd h'.2 (h h'.1)

theorem guess_coords (c : Cube) : (guessBounds c).coords = c.coords.map (gb c.shape) := rfl

theorem guess_find (c : Cube) (p : Coordinate → Bool) (hp : ∀ x, p (gb c.shape x) = p x) :
    (guessBounds c).coords.find? p = (c.coords.find? p).map (gb c.shape) := by
  rw [guess_coords, List.find?_map]
  have : p ∘ gb c.shape = p := funext hp
  rw [this]

theorem guess_named (c : Cube) (n : String) :
    (guessBounds c).coords.find? (fun x => x.name == n || x.standardName == some n) =
      (c.coords.find? (fun x => x.name == n || x.standardName == some n)).map (gb c.shape) :=
  guess_find c _ (fun x => by simp only [gb_name, gb_std])

theorem lookup_found (c : Cube) : ∀ (names : List String), Spec.Found c names →
    ∃ crds, lookup (guessBounds c) names = some crds ∧ crds.flatMap (fun x => x.dims) = Spec.dims c names ∧
      (crds.any (fun x => x.standardName == some "latitude") = true ↔ Spec.overLatitude c names)
  | [], _ => ⟨[], rfl, rfl, by simp [Spec.overLatitude]⟩
  | n :: t, h => by
    obtain ⟨crds, e, hd, hl⟩ := lookup_found c t (fun m hm => h m (by simp [hm]))
    obtain ⟨x, hx⟩ := Option.isSome_iff_exists.1 (h n (by simp))
    refine ⟨gb c.shape x :: crds, ?_, ?_, ?_⟩
    · unfold lookup at e ⊢
      rw [List.mapM_cons, guess_named, hx, Option.map_some, e]
      rfl
    · rw [List.flatMap_cons, hd, gb_dims]
      simp [Spec.dims, hx]
    · rw [List.any_cons, Bool.or_eq_true, hl, gb_std]
      constructor
      · rintro (h' | ⟨m, hm, y, hy, e'⟩)
        · exact ⟨n, by simp, x, hx, by simpa using h'⟩
        · exact ⟨m, by simp [hm], y, hy, e'⟩
      · rintro ⟨m, hm, y, hy, e'⟩
        rcases List.mem_cons.1 hm with rfl | hm
        · rw [hx] at hy; cases hy; exact Or.inl (by simp [e'])
        · exact Or.inr ⟨m, hm, y, hy, e'⟩

theorem lookup_not_found (c : Cube) : ∀ (names : List String), ¬ Spec.Found c names → lookup (guessBounds c) names = none
  | [], h => by simp [Spec.Found] at h
  | n :: t, h => by
    unfold lookup
    rw [List.mapM_cons, guess_named]
    cases hx : c.coords.find? (fun x => x.name == n || x.standardName == some n) with
    | none => rfl
    | some x =>
      have := lookup_not_found c t (fun hf => h (by
        intro m hm
        rcases List.mem_cons.1 hm with rfl | hm
        · rw [hx]; rfl
        · exact hf m hm))
      unfold lookup at this
      rw [this]
      rfl

theorem areaWeights_ok (c : Cube) (h : Spec.CanWeigh c) : areaWeights (guessBounds c) = .ok c.area := by
  obtain ⟨lat, lon, h1, h2, h3, h4⟩ := h
  unfold areaWeights
  rw [guess_find c _ (fun x => by simp only [gb_std]), guess_find c _ (fun x => by simp only [gb_std]), h1, h2]
  simp only [Option.map_some]
  rw [if_pos ⟨(gb_bounds _ _).2 h3, (gb_bounds _ _).2 h4⟩]
  rfl

theorem areaWeights_error (c : Cube) (h : ¬ Spec.CanWeigh c) : areaWeights (guessBounds c) = .error .value := by
  unfold areaWeights
  rw [guess_find c _ (fun x => by simp only [gb_std]), guess_find c _ (fun x => by simp only [gb_std])]
  cases h1 : c.coords.find? (fun x => x.standardName == some "latitude") with
  | none => rfl
  | some lat =>
    cases h2 : c.coords.find? (fun x => x.standardName == some "longitude") with
    | none => rfl
    | some lon =>
      simp only [Option.map_some]
      rw [if_neg]
      rintro ⟨h3, h4⟩
      exact h ⟨lat, lon, h1, h2, (gb_bounds _ _).1 h3, (gb_bounds _ _).1 h4⟩

theorem rest_eq (c : Cube) (dims j : List Nat) : Spec.rest c dims j = along (keptAxes c.shape.length dims) j := by
  unfold Spec.rest along keptAxes
  congr 1
  apply List.filter_congr
  intro a _
  simp

theorem same_iff (n : Nat) (dims i j : List Nat) :
    along (keptAxes n dims) i = along (keptAxes n dims) j ↔ Spec.SameCell n dims i j := by
  unfold along keptAxes Spec.SameCell
  rw [List.map_inj_left]
  simp

theorem group_valid (c : Cube) (dims j : List Nat) (w : List Nat → ℚ) :
    (group c dims (Spec.rest c dims j)).filterMap (fun i => (c.value i).map (fun x => (w i, x))) =
      (Spec.valid c dims j).map (fun i => (w i, Spec.val c i)) := by
  unfold group Spec.valid
  rw [rest_eq]
  induction allIdx c.shape with
  | nil => rfl
  | cons i t ih =>
    by_cases hs : along (keptAxes c.shape.length dims) i = along (keptAxes c.shape.length dims) j
    · rw [List.filter_cons_of_pos (by simpa using hs), List.filterMap_cons]
      cases hv : c.value i with
      | none =>
        rw [List.filter_cons_of_neg (by simp [hv])]
        simpa using ih
      | some x =>
        rw [List.filter_cons_of_pos (by simp [hv, (same_iff _ _ _ _).1 hs])]
        simp only [Option.map_some, List.map_cons]
        rw [ih]
        simp [Spec.val, hv]
    · rw [List.filter_cons_of_neg (by simpa using hs), List.filter_cons_of_neg (by simp [← same_iff, hs])]
      exact ih

/-- What one kernel gives. -/
def outOf (iris : String → List ℚ → Option ℚ) (c : Cube) (dims : List Nat) (w : List Nat → ℚ) (k : Kernel) : Out :=
  ⟨metadata k c.md, along (keptAxes c.shape.length dims) c.shape,
    fun r => apply iris k ((group c dims r).filterMap (fun i => (c.value i).map (fun x => (w i, x))))⟩

theorem outOf_at (iris : String → List ℚ → Option ℚ) (c : Cube) (dims : List Nat) (w : List Nat → ℚ) (k : Kernel) (j : List Nat) :
    Spec.at' c dims (outOf iris c dims w k) j = apply iris k ((Spec.valid c dims j).map (fun i => (w i, Spec.val c i))) := by
  show apply iris k _ = _
  rw [group_valid]

theorem fullCollapse_ok (iris : String → List ℚ → Option ℚ) (c : Cube) (names : List String) (crds : List Coordinate) (k : Kernel)
    (w : List Nat → ℚ) (hw : Spec.Weights c names w) (hd : crds.flatMap (fun x => x.dims) = Spec.dims c names)
    (hl : crds.any (fun x => x.standardName == some "latitude") = true ↔ Spec.overLatitude c names) :
    fullCollapse iris (guessBounds c) crds k = .ok (outOf iris c (Spec.dims c names) (if weighted k then w else fun _ => 1) k) := by
  unfold fullCollapse
  simp only [hd]
  rcases hw with ⟨h1, h2, rfl⟩ | ⟨h1, rfl⟩
  · by_cases hk : weighted k = true
    · rw [if_pos ⟨hk, hl.2 h1⟩, areaWeights_ok c h2]
      simp only [hk, if_true]
      rfl
    · rw [if_neg (fun hc => hk hc.1)]
      simp only [hk]
      rfl
  · rw [if_neg (fun hc => h1 (hl.1 hc.2))]
    simp only [ite_self]
    rfl

theorem eachKernel_ok (iris : String → List ℚ → Option ℚ) (c : Cube) (names : List String) (crds : List Coordinate)
    (w : List Nat → ℚ) (hw : Spec.Weights c names w) (hd : crds.flatMap (fun x => x.dims) = Spec.dims c names)
    (hl : crds.any (fun x => x.standardName == some "latitude") = true ↔ Spec.overLatitude c names) : ∀ ks : List Kernel,
    eachKernel iris (guessBounds c) crds ks =
      .ok (ks.map (fun k => outOf iris c (Spec.dims c names) (if weighted k then w else fun _ => 1) k))
  | [] => rfl
  | k :: t => by
    unfold eachKernel
    rw [fullCollapse_ok iris c names crds k w hw hd hl]
    simp only
    rw [eachKernel_ok iris c names crds w hw hd hl t]
    rfl

theorem collapsed_ok (iris : String → List ℚ → Option ℚ) (c : Cube) (names : List String) (w : List Nat → ℚ) (hf : Spec.Found c names)
    (hw : Spec.Weights c names w) (how : How) (ks : List Kernel) (hr : resolve how = .ok ks) :
    (collapsed iris c names how).1 =
      .ok (ks.map (fun k => outOf iris c (Spec.dims c names) (if weighted k then w else fun _ => 1) k)) := by
  obtain ⟨crds, e, hd, hl⟩ := lookup_found c names hf
  unfold collapsed
  rw [hr]
  simp only [e]
  exact eachKernel_ok iris c names crds w hw hd hl ks

theorem shape_eq (c : Cube) (dims : List Nat) : along (keptAxes c.shape.length dims) c.shape = Spec.rest c dims c.shape := (rest_eq c dims _).symm

/-! ### Theorems -/

/-- C102: collapsing with `mean` gives one variable, named like the data, on the dimensions that are left; each of its values is the mean
of the values that are collapsed into it, weighted by the areas of their cells exactly when latitude is collapsed, and it is missing
exactly when all of these are. -/
theorem c102_mean (iris : String → List ℚ → Option ℚ) (c : Cube) (names : List String) (w : List Nat → ℚ) (hf : Spec.Found c names)
    (hw : Spec.Weights c names w) :
    ∃ o, (collapsed iris c names (.name "mean")).1 = .ok [o] ∧ o.md = c.md ∧ o.shape = Spec.rest c (Spec.dims c names) c.shape ∧
      ∀ j, Spec.at' c (Spec.dims c names) o j =
        if Spec.valid c (Spec.dims c names) j = [] then none
        else some (((Spec.valid c (Spec.dims c names) j).map (fun i => w i * Spec.val c i)).sum /
          ((Spec.valid c (Spec.dims c names) j).map w).sum) := by
  refine ⟨_, collapsed_ok iris c names w hf hw (.name "mean") [.mean] (by decide), rfl, shape_eq _ _, ?_⟩
  intro j
  rw [outOf_at]
  simp only [apply, weighted, if_true, List.map_eq_nil_iff, List.map_map]
  rfl

/-- C102: unless latitude is collapsed, `sum` gives the sums of the values that are collapsed into one, missing exactly when all of these
are, and `RMS` the square root of the mean of their squares. -/
theorem c102_sum (iris : String → List ℚ → Option ℚ) (c : Cube) (names : List String) (hf : Spec.Found c names)
    (hl : ¬ Spec.overLatitude c names) :
    ∃ o p, (collapsed iris c names (.name "sum")).1 = .ok [o] ∧ (collapsed iris c names (.name "RMS")).1 = .ok [p] ∧ o.md = c.md ∧
      p.md = c.md ∧
      (∀ j, Spec.at' c (Spec.dims c names) o j =
        if Spec.valid c (Spec.dims c names) j = [] then none else some ((Spec.valid c (Spec.dims c names) j).map (Spec.val c)).sum) ∧
      (∀ j, Spec.at' c (Spec.dims c names) p j =
        if Spec.valid c (Spec.dims c names) j = [] then none
        else some (((Spec.valid c (Spec.dims c names) j).map (fun i => Spec.val c i ^ 2)).sum /
          (Spec.valid c (Spec.dims c names) j).length)) := by
  have hw : Spec.Weights c names (fun _ => 1) := Or.inr ⟨hl, rfl⟩
  refine ⟨_, _, collapsed_ok iris c names _ hf hw (.name "sum") [.sum] (by decide),
    collapsed_ok iris c names _ hf hw (.name "RMS") [.rms] (by decide), rfl, rfl, ?_, ?_⟩
  · intro j
    rw [outOf_at]
    simp only [apply, weighted, if_true, List.map_eq_nil_iff, List.map_map]
    congr 3
    apply List.map_congr_left
    intro i _
    simp
  · intro j
    rw [outOf_at]
    simp only [apply, weighted, if_true, List.map_eq_nil_iff, List.map_map]
    congr 3
    · congr 1
      apply List.map_congr_left
      intro i _
      simp [pow_two]
    · have h1 : ∀ l : List (List Nat), (l.map (fun _ => (1 : ℚ))).sum = l.length := by intro l; simp
      exact h1 _

/-- C102: with positive areas the mean lies between the least and the greatest of the values collapsed into it. -/
theorem c102_mean_between (iris : String → List ℚ → Option ℚ) (c : Cube) (names : List String) (w : List Nat → ℚ) (hf : Spec.Found c names)
    (hw : Spec.Weights c names w) (hpos : ∀ i, 0 < c.area i) (o : Out) (ho : (collapsed iris c names (.name "mean")).1 = .ok [o])
    (j : List Nat) (x lo hi : ℚ) (hx : Spec.at' c (Spec.dims c names) o j = some x)
    (hlo : ∀ i ∈ Spec.valid c (Spec.dims c names) j, lo ≤ Spec.val c i)
    (hhi : ∀ i ∈ Spec.valid c (Spec.dims c names) j, Spec.val c i ≤ hi) : lo ≤ x ∧ x ≤ hi := by
  obtain ⟨o', e, -, -, h⟩ := c102_mean iris c names w hf hw
  rw [ho] at e
  cases e
  rw [h j] at hx
  have hp : ∀ i, 0 < w i := by
    rcases hw with ⟨-, -, rfl⟩ | ⟨-, rfl⟩
    · exact hpos
    · intro i; norm_num
  generalize Spec.valid c (Spec.dims c names) j = l at hx hlo hhi
  split at hx
  · cases hx
  · rename_i hne
    simp only [Option.some.injEq] at hx
    have hs : ∀ l : List (List Nat), l ≠ [] → 0 < (l.map w).sum := by
      intro l hl
      induction l with
      | nil => exact absurd rfl hl
      | cons a t ih =>
        rw [List.map_cons, List.sum_cons]
        by_cases ht : t = []
        · rw [ht]; simpa using hp a
        · have := ih ht; have := hp a; linarith
    have h1 : ∀ l : List (List Nat), (∀ i ∈ l, lo ≤ Spec.val c i) → lo * (l.map w).sum ≤ (l.map (fun i => w i * Spec.val c i)).sum := by
      intro l
      induction l with
      | nil => simp
      | cons a t ih =>
        intro hl
        rw [List.map_cons, List.sum_cons, List.map_cons, List.sum_cons]
        have e1 := ih (fun i hi => hl i (by simp [hi]))
        have e2 := mul_le_mul_of_nonneg_left (hl a (by simp)) (hp a).le
        linarith
    have h2 : ∀ l : List (List Nat), (∀ i ∈ l, Spec.val c i ≤ hi) → (l.map (fun i => w i * Spec.val c i)).sum ≤ hi * (l.map w).sum := by
      intro l
      induction l with
      | nil => simp
      | cons a t ih =>
        intro hl
        rw [List.map_cons, List.sum_cons, List.map_cons, List.sum_cons]
        have e1 := ih (fun i hi => hl i (by simp [hi]))
        have e2 := mul_le_mul_of_nonneg_left (hl a (by simp)) (hp a).le
        linarith
    rw [← hx]
    exact ⟨(le_div_iff₀ (hs l hne)).2 (h1 l hlo), (div_le_iff₀ (hs l hne)).2 (h2 l hhi)⟩

/-- C102: `min` and `max` give the least and the greatest of the values collapsed into one; missing exactly when all of these are. -/
theorem c102_min_max (iris : String → List ℚ → Option ℚ) (c : Cube) (names : List String) (hf : Spec.Found c names)
    (hw : ∃ w, Spec.Weights c names w) :
    ∃ o p, (collapsed iris c names (.name "min")).1 = .ok [o] ∧ (collapsed iris c names (.name "max")).1 = .ok [p] ∧
      o.md = c.md ∧ p.md = c.md ∧
      (∀ j x, Spec.at' c (Spec.dims c names) o j = some x ↔
        (∃ i ∈ Spec.valid c (Spec.dims c names) j, Spec.val c i = x) ∧ ∀ i ∈ Spec.valid c (Spec.dims c names) j, x ≤ Spec.val c i) ∧
      (∀ j x, Spec.at' c (Spec.dims c names) p j = some x ↔
        (∃ i ∈ Spec.valid c (Spec.dims c names) j, Spec.val c i = x) ∧ ∀ i ∈ Spec.valid c (Spec.dims c names) j, Spec.val c i ≤ x) := by
  obtain ⟨w, hw⟩ := hw
  refine ⟨_, _, collapsed_ok iris c names w hf hw (.name "min") [.min] (by decide),
    collapsed_ok iris c names w hf hw (.name "max") [.max] (by decide), rfl, rfl, ?_, ?_⟩
  · intro j x
    rw [outOf_at]
    simp only [apply, List.map_map]
    rw [List.min?_eq_some_iff]
    simp
  · intro j x
    rw [outOf_at]
    simp only [apply, List.map_map]
    rw [List.max?_eq_some_iff]
    simp

/-- C102: `moments`, the default, gives three variables: the mean, as with `mean`; the square root of the sum of the squares of the
differences from the plain mean over the number less one, missing for fewer than two values; and the number of values, never missing. -/
theorem c102_moments (iris : String → List ℚ → Option ℚ) (c : Cube) (names : List String) (w : List Nat → ℚ) (hf : Spec.Found c names)
    (hw : Spec.Weights c names w) (how : How) (hh : how = .absent ∨ how = .name "" ∨ how = .name "moments") :
    ∃ m s n, (collapsed iris c names how).1 = .ok [m, s, n] ∧ (collapsed iris c names (.name "mean")).1 = .ok [m] ∧
      s.md.varName = c.md.varName ++ "_std_dev" ∧ n.md.varName = c.md.varName ++ "_num_points" ∧
      s.md.units = c.md.units ∧ n.md.units = none ∧ s.md.standardName = none ∧ n.md.standardName = none ∧
      s.shape = m.shape ∧ n.shape = m.shape ∧
      (∀ j, Spec.at' c (Spec.dims c names) n j = some ((Spec.valid c (Spec.dims c names) j).length : ℚ)) ∧
      (∀ j, Spec.at' c (Spec.dims c names) s j =
        if (Spec.valid c (Spec.dims c names) j).length < 2 then none
        else some (((Spec.valid c (Spec.dims c names) j).map (fun i => (Spec.val c i -
          ((Spec.valid c (Spec.dims c names) j).map (Spec.val c)).sum / (Spec.valid c (Spec.dims c names) j).length) ^ 2)).sum /
          (((Spec.valid c (Spec.dims c names) j).length : ℚ) - 1))) := by
  have hr : resolve how = .ok [.mean, .std, .count] := by
    rcases hh with rfl | rfl | rfl <;> decide
  refine ⟨_, _, _, collapsed_ok iris c names w hf hw how _ hr, collapsed_ok iris c names w hf hw (.name "mean") [.mean] (by decide),
    rfl, rfl, rfl, rfl, rfl, rfl, rfl, rfl, ?_, ?_⟩
  · intro j
    rw [outOf_at]
    simp [apply]
  · intro j
    rw [outOf_at]
    simp only [apply, weighted, List.length_map, List.map_map]
    split
    · rfl
    · congr 3
      apply List.map_congr_left
      intro i _
      simp only [Function.comp]
      rw [pow_two]
      rfl

theorem rest_mem (c : Cube) (dims i : List Nat) (hi : i ∈ allIdx c.shape) : Spec.rest c dims i ∈ allIdx (Spec.rest c dims c.shape) := by
  rw [mem_allIdx] at hi ⊢
  unfold Spec.rest
  generalize hL : (List.range c.shape.length).filter (fun a => decide (a ∉ dims)) = L
  have hb : ∀ a ∈ L, a < c.shape.length := by
    intro a ha
    rw [← hL] at ha
    exact List.mem_range.1 (List.mem_filter.1 ha).1
  have hlen := hi.length_eq
  clear hL
  induction L with
  | nil => exact List.Forall₂.nil
  | cons a t ih =>
    refine List.Forall₂.cons ?_ (ih (fun b hb' => hb b (by simp [hb'])))
    have ha := hb a (by simp)
    have := List.Forall₂.get hi (i := a) (by omega) ha
    have hai : a < i.length := by omega
    simp only [List.getD_eq_getElem?_getD, List.getElem?_eq_getElem hai, List.getElem?_eq_getElem ha, Option.getD_some]
    simpa using this

/-- C102: every value of the data is counted in exactly one cell: the numbers over all cells add up to the number of values. -/
theorem c102_count_total (iris : String → List ℚ → Option ℚ) (c : Cube) (names : List String) (w : List Nat → ℚ) (hf : Spec.Found c names)
    (hw : Spec.Weights c names w) (m s n : Out) (h : (collapsed iris c names .absent).1 = .ok [m, s, n]) :
    ((allIdx n.shape).map (fun r => (n.value r).getD 0)).sum = (((allIdx c.shape).filter (fun i => (c.value i).isSome)).length : ℚ) := by
  rw [collapsed_ok iris c names w hf hw .absent [.mean, .std, .count] (by decide)] at h
  simp only [List.map_cons, List.map_nil, Except.ok.injEq, List.cons.injEq, and_true] at h
  obtain ⟨-, -, rfl⟩ := h
  set dims := Spec.dims c names with hdims
  have hval : ∀ r, ((outOf iris c dims (if weighted .count = true then w else fun _ => 1) .count).value r).getD 0 =
      ((((allIdx c.shape).filter (fun i => (c.value i).isSome)).filter (fun i => decide (Spec.rest c dims i = r))).length : ℚ) := by
    intro r
    show (apply iris .count _).getD 0 = _
    simp only [apply, Option.getD_some, Nat.cast_inj]
    unfold group
    induction allIdx c.shape with
    | nil => rfl
    | cons i t ih =>
      by_cases hs : Spec.rest c dims i = r
      · have hs' := hs
        rw [rest_eq] at hs'
        rw [List.filter_cons_of_pos (by simpa using hs'), List.filterMap_cons]
        cases hv : c.value i with
        | none => rw [List.filter_cons_of_neg (by simp [hv])]; simpa using ih
        | some x => rw [List.filter_cons_of_pos (by simp [hv]), List.filter_cons_of_pos (by simpa using hs)]; simpa using ih
      · have hs' := hs
        rw [rest_eq] at hs'
        rw [List.filter_cons_of_neg (by simpa using hs')]
        cases hv : c.value i with
        | none => rw [List.filter_cons_of_neg (by simp [hv])]; exact ih
        | some x => rw [List.filter_cons_of_pos (by simp [hv]), List.filter_cons_of_neg (by simpa using hs)]; exact ih
  simp only [hval]
  show ((allIdx (along (keptAxes c.shape.length dims) c.shape)).map _).sum = _
  rw [shape_eq]
  have key : ∀ (R : List (List Nat)), R.Nodup → ∀ L : List (List Nat), (∀ i ∈ L, Spec.rest c dims i ∈ R) →
      (R.map (fun r => ((L.filter (fun i => decide (Spec.rest c dims i = r))).length : ℚ))).sum = (L.length : ℚ) := by
    intro R hR L
    induction L with
    | nil => intro _; simp
    | cons i t ih =>
      intro hL
      have hsplit : ∀ r, (((i :: t).filter (fun i => decide (Spec.rest c dims i = r))).length : ℚ) =
          (if Spec.rest c dims i = r then 1 else 0) + ((t.filter (fun i => decide (Spec.rest c dims i = r))).length : ℚ) := by
        intro r
        by_cases hs : Spec.rest c dims i = r
        · rw [List.filter_cons_of_pos (by simpa using hs), if_pos hs]; push_cast [List.length_cons]; ring
        · rw [List.filter_cons_of_neg (by simpa using hs), if_neg hs]; ring
      simp only [hsplit]
      rw [List.sum_map_add, ih (fun x hx => hL x (by simp [hx]))]
      have hone : ∀ R : List (List Nat), R.Nodup → Spec.rest c dims i ∈ R →
          (R.map (fun r => if Spec.rest c dims i = r then (1 : ℚ) else 0)).sum = 1 := by
        intro R hR hm
        induction R with
        | nil => cases hm
        | cons a u ihR =>
          rw [List.map_cons, List.sum_cons]
          rw [List.nodup_cons] at hR
          rcases List.mem_cons.1 hm with rfl | hm
          · rw [if_pos rfl]
            have : (u.map (fun r => if Spec.rest c dims i = r then (1 : ℚ) else 0)).sum = 0 := by
              apply List.sum_eq_zero
              intro x hx
              obtain ⟨r, hr, rfl⟩ := List.mem_map.1 hx
              exact if_neg (fun (e : Spec.rest c dims i = r) => hR.1 (by rw [e]; exact hr))
            rw [this, add_zero]
          · rw [if_neg (fun (e : Spec.rest c dims i = a) => hR.1 (by rw [← e]; exact hm)), zero_add, ihR hR.2 hm]
      rw [hone R hR (hL i (by simp))]
      push_cast [List.length_cons]
      ring
  exact key _ (nodup_allIdx _) _ (fun i hi => rest_mem c dims i (List.mem_filter.1 hi).1)

/-- C102: a list of variables is collapsed variable by variable, in order; it fails when one fails. -/
theorem c102_list (iris : String → List ℚ → Option ℚ) (names : List String) (how : How) (l : List Cube) (outs : List Out) :
    collapsedList iris names how l = .ok outs ↔
      ∃ parts : List (List Out), List.Forall₂ (fun c p => (collapsed iris c names how).1 = .ok p) l parts ∧ outs = parts.flatten := by
  induction l generalizing outs with
  | nil =>
    constructor
    · intro h; cases h; exact ⟨[], .nil, rfl⟩
    · rintro ⟨parts, h, rfl⟩; cases h; rfl
  | cons c t ih =>
    unfold collapsedList
    constructor
    · intro h
      split at h
      · cases h
      · rename_i a ha
        split at h
        · cases h
        · rename_i b hb
          cases h
          obtain ⟨parts, hp, rfl⟩ := (ih b).1 hb
          exact ⟨a :: parts, .cons ha hp, by simp⟩
    · rintro ⟨parts, h, rfl⟩
      cases h with
      | cons ha hp =>
        rw [ha]
        simp only
        rw [(ih _).2 ⟨_, hp, rfl⟩]
        simp

/-- C102: the data given keep their values, their metadata, and their coordinates up to the presence of bounds. -/
theorem c102_input (iris : String → List ℚ → Option ℚ) (c : Cube) (names : List String) (how : How) :
    (collapsed iris c names how).2.value = c.value ∧ (collapsed iris c names how).2.shape = c.shape ∧
      (collapsed iris c names how).2.md = c.md ∧
      (collapsed iris c names how).2.coords.map (fun x => (x.name, x.standardName, x.dims, x.isDim)) =
        c.coords.map (fun x => (x.name, x.standardName, x.dims, x.isDim)) := by
  have hg : (guessBounds c).coords.map (fun x => (x.name, x.standardName, x.dims, x.isDim)) =
      c.coords.map (fun x => (x.name, x.standardName, x.dims, x.isDim)) := by
    rw [guess_coords, List.map_map]
    apply List.map_congr_left
    intro x _
    simp only [Function.comp, gb]
    split <;> rfl
  unfold collapsed
  split
  · exact ⟨rfl, rfl, rfl, rfl⟩
  · simp only
    split
    · exact ⟨rfl, rfl, rfl, hg⟩
    · exact ⟨rfl, rfl, rfl, hg⟩

/-- C102: what is refused: kernels of unknown names, and names of coordinates that the data have not. -/
theorem c102_refused (iris : String → List ℚ → Option ℚ) (c : Cube) (names : List String) :
    (∀ s, s ≠ "" → s ∉ kernels.map Prod.fst → (collapsed iris c names (.name s)).1 = .error .key) ∧
    (∀ how ks, resolve how = .ok ks → ¬ Spec.Found c names → (collapsed iris c names how).1 = .error .attribute) := by
  constructor
  · intro s hs h
    unfold collapsed resolve
    simp only [if_neg hs]
    have : kernels.find? (fun p => p.1 == s) = none := by
      rw [List.find?_eq_none]
      intro p hp e
      apply h
      rw [List.mem_map]
      exact ⟨p, hp, by simpa using e⟩
    rw [this]
  · intro how ks hr hf
    unfold collapsed
    rw [hr]
    simp only
    rw [lookup_not_found c names hf]

/-! ### A concrete case, and where the property fails -/

def lat : Coordinate := ⟨"latitude", some "latitude", [0], true, false⟩
def lon : Coordinate := ⟨"longitude", some "longitude", [1], true, false⟩

/-- Two latitudes and three longitudes; the cells of the second latitude are half as large, one of them is missing. -/
def exCube : Cube :=
  ⟨⟨"rain", some "rainfall_rate", none, some "mm"⟩, [2, 3], fun i => if i = [1, 2] then none else some (i.getD 0 0 * 10 + i.getD 1 0 : ℕ),
    [lat, lon], fun i => if i.getD 0 0 = 0 then 2 else 1⟩

def noIris : String → List ℚ → Option ℚ := fun _ _ => none

example : Spec.Found exCube ["latitude"] ∧ Spec.overLatitude exCube ["latitude"] ∧ Spec.CanWeigh exCube ∧
    Spec.Weights exCube ["latitude"] exCube.area ∧ Spec.Weights exCube ["longitude"] (fun _ => 1) := by
  have h1 : Spec.overLatitude exCube ["latitude"] := ⟨"latitude", by simp, lat, by decide, rfl⟩
  have h2 : Spec.CanWeigh exCube := ⟨lat, lon, by decide, by decide, Or.inr ⟨rfl, by decide⟩, Or.inr ⟨rfl, by decide⟩⟩
  refine ⟨by intro n hn; simp at hn; subst hn; decide, h1, h2, Or.inl ⟨h1, h2, rfl⟩, Or.inr ⟨?_, rfl⟩⟩
  rintro ⟨n, hn, x, hx, hs⟩
  simp at hn
  subst hn
  have : (exCube.coords.find? (fun x => x.name == "longitude" || x.standardName == some "longitude")) = some lon := by decide
  rw [this] at hx
  cases hx
  exact absurd hs (by decide)

def shown (r : Except Err (List Out)) : Option (List (List Nat × List (Option ℚ))) :=
  match r with
  | .ok l => some (l.map (fun o => (o.shape, (allIdx o.shape).map o.value)))
  | .error _ => none

example : shown (collapsed noIris exCube ["latitude"] (.name "mean")).1 = some [([3], [some (10 / 3), some (13 / 3), some 2])] := by
  decide +kernel

example : shown (collapsed noIris exCube ["longitude"] .absent).1 =
    some [([2], [some 1, some (21 / 2)]), ([2], [some 1, some (1 / 2)]), ([2], [some 3, some 2])] := by
  decide +kernel

/-- C102 is violated by `sum` over latitudes: documented as the sum of the values, it is their sum weighted by the areas of the cells (over
longitudes it is the plain sum). -/
theorem c102_sum_violated : shown (collapsed noIris exCube ["latitude"] (.name "sum")).1 = some [([3], [some 10, some 13, some 4])] ∧
    shown (collapsed noIris exCube ["longitude"] (.name "sum")).1 = some [([2], [some 3, some 21])] ∧
    (exCube.value [0, 0]).getD 0 + (exCube.value [1, 0]).getD 0 = 10 ∧ (exCube.value [0, 1]).getD 0 + (exCube.value [1, 1]).getD 0 = 12 := by
  decide +kernel

/-- C102 is violated when the areas cannot be found (no longitudes, or only one without bounds): latitude cannot be collapsed with the
default kernel at all. -/
theorem c102_unweighable_violated (iris : String → List ℚ → Option ℚ) (c : Cube) (names : List String) (hf : Spec.Found c names)
    (hl : Spec.overLatitude c names) (hw : ¬ Spec.CanWeigh c) : (collapsed iris c names .absent).1 = .error .value ∧
    (collapsed iris c names (.name "mean")).1 = .error .value := by
  obtain ⟨crds, e, hd, hl'⟩ := lookup_found c names hf
  have hk : fullCollapse iris (guessBounds c) crds .mean = .error .value := by
    unfold fullCollapse
    simp only
    rw [if_pos ⟨rfl, hl'.2 hl⟩, areaWeights_error c hw]
  constructor
  · unfold collapsed
    simp only [resolve, e]
    unfold eachKernel
    rw [hk]
  · unfold collapsed
    have : resolve (.name "mean") = .ok [.mean] := by decide
    rw [this]
    simp only [e]
    unfold eachKernel
    rw [hk]

example : ¬ Spec.CanWeigh ⟨⟨"t", none, none, none⟩, [2], fun _ => some 1, [lat], fun _ => 1⟩ := by
  rintro ⟨a, b, -, h, -⟩
  revert h
  simp [lat]

/-- C102 is violated for the data given: they get bounds they had not. -/
theorem c102_input_violated : exCube.coords.map Coordinate.bounds = [false, false] ∧
    (collapsed noIris exCube ["longitude"] .absent).2.coords.map Coordinate.bounds = [true, true] := by decide +kernel

/-- C102 is violated by the names: without a long name the results are described as those of None. -/
theorem c102_name_violated : (match (collapsed noIris exCube ["longitude"] .absent).1 with
    | .ok l => l.map (fun o => o.md.longName)
    | .error _ => []) = [none, some "Corrected sample standard deviation of None",
      some "Number of points used to calculate the mean of None"] := by decide +kernel

/-- C102 is violated for kernels of unknown names: a KeyError, and not the error for invalid kernels. -/
theorem c102_kernel_violated : (collapsed noIris exCube ["longitude"] (.name "average")).1 = .error .key ∧
    (collapsed noIris exCube ["longitude"] .other).1 = .error .value := ⟨rfl, rfl⟩

end Cis.Collapse
