import Verif.Coords.Spec
set_option linter.unusedSectionVars false
set_option linter.unusedSimpArgs false
/-! Property C45 (coordinate lists), C65 (copying them), C66 (looking coordinates up by keyword). -/
namespace Cis.Coords
variable {V : Type}

/-! ### Lemmas -/

theorem mem_filterBy {β : Type} (x : Option β) (p : β → Coord V → Bool) (l : List (Coord V)) (y : Coord V) :
    y ∈ filterBy x p l ↔ y ∈ l ∧ ∀ b, x = some b → p b y = true := by
  cases x <;> simp [filterBy]

theorem filterBy_eq {β : Type} (x : Option β) (p : β → Coord V → Bool) (l : List (Coord V)) :
    filterBy x p l = l.filter (fun y => match x with | none => true | some b => p b y) := by
  cases x <;> simp [filterBy]

theorem coordEq_iff (a b : Coord V) : coordEq a b = true ↔ a.stdName = b.stdName ∧ a.stdName ≠ some "" := by
  unfold coordEq
  rw [Bool.and_eq_true, beq_iff_eq, bne_iff_ne, eq_comm]

open Classical in
/-- C45. `get_coords` returns exactly the coordinates meeting all given criteria, in order. -/
theorem c45_get_coords (l : List (Coord V)) (c : Criteria V) :
    getCoords l c = l.filter (fun x => decide (Spec.Matches c x)) := by
  unfold getCoords
  simp only [filterBy_eq, List.filter_filter]
  apply List.filter_congr
  intro x _
  rw [Bool.eq_iff_iff, decide_eq_true_iff]
  obtain ⟨sel, sn, ln, at', ax, vn⟩ := c
  constructor
  · intro h
    cases sel <;> cases sn <;> cases ln <;> cases at' <;> cases ax <;> cases vn <;>
      simp_all [Sel.name?, Sel.coord?, coordEq_iff] <;> constructor <;> simp_all <;> grind
  · rintro ⟨h1, h2, h3, h4, h5, h6, h7⟩
    cases sel <;> cases sn <;> cases ln <;> cases at' <;> cases ax <;> cases vn <;>
      simp_all [Sel.name?, Sel.coord?, coordEq_iff] <;> grind

theorem getCoords_none (l : List (Coord V)) : getCoords l {} = l := by
  simp [getCoords, filterBy, Sel.name?, Sel.coord?]

theorem getCoords_std (l : List (Coord V)) (n : String) :
    getCoords l { stdName := some n } = l.filter (fun x => x.stdName == some n) := by
  simp [getCoords, filterBy, Sel.name?, Sel.coord?]

theorem exactlyOne_ok (m : List (Coord V)) (x : Coord V) : exactlyOne m = .ok x ↔ m = [x] := by
  match m with
  | [] => simp [exactlyOne]
  | [y] => simp [exactlyOne]
  | y :: z :: t => simp [exactlyOne]

theorem exactlyOne_error (m : List (Coord V)) (e : Err) : exactlyOne m = .error e ↔ e = .notFound ∧ ∀ x, m ≠ [x] := by
  match m with
  | [] => simp [exactlyOne, eq_comm]
  | [y] => simp [exactlyOne]
  | y :: z :: t => simp [exactlyOne, eq_comm]

theorem getCoord_nil {l : List (Coord V)} {c : Criteria V} (h : getCoords l c = []) :
    getCoord l c = (match fallback l c.sel with | .ok m => exactlyOne m | .error e => .error e) := by
  rw [getCoord, h]
  rfl

theorem getCoord_ne {l : List (Coord V)} {c : Criteria V} (h : getCoords l c ≠ []) :
    getCoord l c = exactlyOne (getCoords l c) := by
  rw [getCoord]
  split
  · contradiction
  · rfl

/-- C45. Exactly what `get_coord` returns: the only coordinate meeting the criteria or, if there is none at all, the only one
whose standard name is the given name — or the only coordinate there is if no name was given. -/
theorem c45_get_coord_exact (l : List (Coord V)) (c : Criteria V) (x : Coord V) :
    getCoord l c = .ok x ↔ getCoords l c = [x] ∨
      (getCoords l c = [] ∧
        ((c.sel = .none ∧ l = [x]) ∨ ∃ n, c.sel = .byName n ∧ l.filter (fun y => y.stdName == some n) = [x])) := by
  by_cases h : getCoords l c = []
  · rw [getCoord_nil h]
    cases hs : c.sel with
    | none => simp [fallback, exactlyOne_ok, h]
    | byName n => simp [fallback, exactlyOne_ok, h, getCoords_std]
    | byCoord o =>
      simp only [fallback]
      split <;> rename_i h2
      · split at h2
        · cases h2; simp [exactlyOne, h]
        · cases h2
      · simp [h]
  · rw [getCoord_ne h, exactlyOne_ok]; simp [h]

/-- C45 is violated: the only coordinate of a list is returned whatever is asked for. -/
theorem c45_get_coord_single_violated :
    ∃ (l : List (Coord Unit)) (c : Criteria Unit) (x : Coord Unit), getCoord l c = .ok x ∧ ¬ Spec.Matches c x := by
  refine ⟨[⟨some "time", none, none, "T", [], ()⟩], { stdName := some "latitude" },
    ⟨some "time", none, none, "T", [], ()⟩, ?_, ?_⟩
  · rw [c45_get_coord_exact]; right
    refine ⟨?_, Or.inl ⟨rfl, rfl⟩⟩
    rw [getCoords_std]; decide
  · intro h
    have := h.std "latitude" rfl
    exact absurd this (by decide)

/-- C45 is violated: a coordinate is returned although it is not on the axis asked for. -/
theorem c45_get_coord_criteria_violated :
    ∃ (l : List (Coord Unit)) (c : Criteria Unit) (x : Coord Unit),
      l.length = 2 ∧ getCoord l c = .ok x ∧ ¬ Spec.Matches c x := by
  refine ⟨[⟨some "time", none, none, "T", [], ()⟩, ⟨some "latitude", none, none, "Y", [], ()⟩],
    { sel := .byName "latitude", longName := some "height" }, ⟨some "latitude", none, none, "Y", [], ()⟩, rfl, ?_, ?_⟩
  · rw [c45_get_coord_exact]; right
    refine ⟨?_, Or.inr ⟨"latitude", rfl, by decide⟩⟩
    decide
  · intro h
    have := h.long "height" rfl
    exact absurd this (by decide)

/-- C45 is violated: a coordinate that is not in the list makes `get_coord` raise AttributeError. -/
theorem c45_get_coord_attribute_error_violated :
    ∃ (l : List (Coord Unit)) (c : Criteria Unit), getCoord l c = .error .attributeError := by
  refine ⟨[⟨some "time", none, none, "T", [], ()⟩], { sel := .byCoord ⟨some "latitude", none, none, "Y", [], ()⟩ }, ?_⟩
  rw [getCoord_nil (by decide)]; rfl

/-- A search in which the second attempt of `get_coord` does no harm: by a non-empty name and nothing else, or without a name in
a list of other than one coordinate. -/
def Safe (l : List (Coord V)) (c : Criteria V) : Prop :=
  (c.sel = .none ∧ l.length ≠ 1) ∨ ∃ n, n ≠ "" ∧ c = { sel := .byName n }

theorem filter_std_of_name {l : List (Coord V)} {n : String} (hn : n ≠ "")
    (h : getCoords l { sel := .byName n } = []) : l.filter (fun y => y.stdName == some n) = [] := by
  simp [getCoords, filterBy, Sel.name?, Sel.coord?, List.filter_eq_nil_iff] at h ⊢
  intro x hx h2
  apply h x hx
  simp [name, orElse, truthy, h2, hn]

/-- C45. For safe searches `get_coord` returns `x` iff `x` is the only coordinate meeting the criteria, and otherwise raises
CoordinateNotFoundError. Missing: the other searches, for which this is false. -/
theorem c45_get_coord (l : List (Coord V)) (c : Criteria V) (hs : Safe l c) :
    (∀ x, getCoord l c = .ok x ↔ getCoords l c = [x]) ∧
    ((∀ x, getCoords l c ≠ [x]) → getCoord l c = .error .notFound) := by
  have key : ∀ x, getCoord l c = .ok x ↔ getCoords l c = [x] := by
    intro x
    rw [c45_get_coord_exact]
    constructor
    · rintro (h | ⟨h, h2 | ⟨n, hn, h2⟩⟩)
      · exact h
      · obtain ⟨h3, h4⟩ := h2
        rcases hs with ⟨-, hs⟩ | ⟨n, -, hs⟩
        · simp [h4] at hs
        · rw [hs] at h3; cases h3
      · rcases hs with ⟨hs, -⟩ | ⟨m, hm, hs⟩
        · rw [hs] at hn; cases hn
        · subst hs; cases hn
          rw [filter_std_of_name hm h] at h2; cases h2
    · exact Or.inl
  refine ⟨key, fun h => ?_⟩
  cases hg : getCoord l c with
  | ok x => exact absurd ((key x).1 hg) (h x)
  | error e =>
    by_cases h0 : getCoords l c = []
    · rw [getCoord_nil h0] at hg
      rcases hs with ⟨hs, -⟩ | ⟨m, hm, hs⟩
      · rw [hs] at hg; simp only [fallback, exactlyOne_error] at hg; rw [hg.1]
      · subst hs; simp only [fallback, exactlyOne_error] at hg; rw [hg.1]
    · rw [getCoord_ne h0, exactlyOne_error] at hg; rw [hg.1]

example : Safe [(⟨some "time", none, none, "T", [], ()⟩ : Coord Unit), ⟨some "latitude", none, none, "Y", [], ()⟩]
    { axis := some "y" } := Or.inl ⟨rfl, by decide⟩
example : Safe [(⟨some "time", none, none, "T", [], ()⟩ : Coord Unit)] { sel := .byName "time" } :=
  Or.inr ⟨"time", by decide, rfl⟩

/-! ### Standard coordinates -/

/-- C45. In a list of other than one coordinate, the standard coordinates found are, name by name in the fixed order, the only
coordinate with this standard name, and nothing if there is none or more than one. -/
theorem c45_find_standard_coords (l : List (Coord V)) (hl : l.length ≠ 1) (i : Nat) (x : Coord V) :
    (findStandardCoords l)[i]? = some (some x) ↔
      ∃ n, ["latitude", "longitude", "altitude", "air_pressure", "time"][i]? = some n ∧
        l.filter (fun y => y.stdName == some n) = [x] := by
  have key : ∀ n, tryStandard l n = some x ↔ l.filter (fun y => y.stdName == some n) = [x] := by
    intro n
    have h := (c45_get_coord l { stdName := some n } (Or.inl ⟨rfl, hl⟩)).1 x
    rw [getCoords_std] at h
    rw [← h, tryStandard]
    cases getCoord l { stdName := some n } <;> simp
  rw [findStandardCoords, List.getElem?_map, Option.map_eq_some_iff]
  simp only [key]
  rfl

/-- C45 is violated: a list with a time coordinate only is said to have all five standard coordinates. -/
theorem c45_find_standard_coords_violated :
    ∃ (l : List (Coord Unit)) (x : Coord Unit), l = [x] ∧ x.stdName = some "time" ∧
      findStandardCoords l = [some x, some x, some x, some x, some x] := by
  refine ⟨[⟨some "time", none, none, "T", [], ()⟩], ⟨some "time", none, none, "T", [], ()⟩, rfl, rfl, ?_⟩
  have key : ∀ n, tryStandard [(⟨some "time", none, none, "T", [], ()⟩ : Coord Unit)] n
      = some ⟨some "time", none, none, "T", [], ()⟩ := by
    intro n
    have : getCoord [(⟨some "time", none, none, "T", [], ()⟩ : Coord Unit)] { stdName := some n }
        = .ok ⟨some "time", none, none, "T", [], ()⟩ := by
      rw [c45_get_coord_exact]
      by_cases hn : n = "time"
      · left; subst hn; rw [getCoords_std]; decide
      · right
        refine ⟨?_, Or.inl ⟨rfl, rfl⟩⟩
        rw [getCoords_std]
        have : ("time" == n) = false := by simp [Ne.symm hn]
        simp [this, Ne.symm hn]
    rw [tryStandard, this]
  simp only [findStandardCoords, standardNames, List.map_cons, List.map_nil, key]

/-! ### Appending -/

/-- C45. Whatever is appended, in whatever order, no two coordinates of the list share a proper standard name. -/
theorem c45_append_unique (cs : List (Coord V)) : Spec.Unique (appends [] cs) := by
  have step : ∀ (l : List (Coord V)) (c : Coord V) (l' : List (Coord V)),
      Spec.Unique l → append l c = .ok l' → Spec.Unique l' := by
    intro l c l' hl h
    unfold append at h
    split at h
    · cases h
    · rename_i hn
      cases h
      unfold Spec.Unique at hl ⊢
      rw [List.pairwise_append]
      refine ⟨hl, List.pairwise_singleton _ _, ?_⟩
      intro a ha b hb
      simp only [List.mem_singleton] at hb
      subst hb
      rintro ⟨n, ⟨h1, h2⟩, ⟨h3, -⟩⟩
      apply hn
      rw [List.any_eq_true]
      refine ⟨a, ha, ?_⟩
      rw [coordEq_iff]
      refine ⟨by rw [h1, h3], by rw [h3]; simpa using h2⟩
  have : ∀ (cs l : List (Coord V)), Spec.Unique l → Spec.Unique (appends l cs) := by
    intro cs
    induction cs with
    | nil => intro l h; exact h
    | cons c cs ih =>
      intro l h
      rw [appends]
      cases ha : append l c with
      | ok l' => exact ih l' (step l c l' h ha)
      | error e => exact ih l h
  exact this cs [] List.Pairwise.nil

open Classical in
/-- C45. Appending a coordinate with a standard name (possibly empty) succeeds iff no coordinate of the list has the same proper
standard name; the list is then extended at the end, otherwise DuplicateCoordinateError is raised. -/
theorem c45_append (l : List (Coord V)) (c : Coord V) (hc : c.stdName ≠ none) :
    append l c = if (∃ a ∈ l, ∃ n, Spec.HasStd a n ∧ Spec.HasStd c n) then .error .duplicate else .ok (l ++ [c]) := by
  unfold append
  have : (l.any (fun item => coordEq c item) = true) ↔ ∃ a ∈ l, ∃ n, Spec.HasStd a n ∧ Spec.HasStd c n := by
    rw [List.any_eq_true]
    constructor
    · rintro ⟨a, ha, h⟩
      rw [coordEq_iff] at h
      obtain ⟨n, hn⟩ := Option.ne_none_iff_exists'.1 hc
      refine ⟨a, ha, n, ⟨by rw [← h.1, hn], ?_⟩, hn, ?_⟩ <;>
      · rintro rfl; exact h.2 hn
    · rintro ⟨a, ha, n, ⟨h1, h2⟩, h3, -⟩
      refine ⟨a, ha, ?_⟩
      rw [coordEq_iff]
      exact ⟨by rw [h1, h3], by rw [h3]; simpa using h2⟩
  by_cases h : ∃ a ∈ l, ∃ n, Spec.HasStd a n ∧ Spec.HasStd c n
  · rw [if_pos h, if_pos (this.2 h)]
  · rw [if_neg h, if_neg (fun h' => h (this.1 h'))]

/-- C45 is violated: two coordinates without a standard name cannot be in one list built by `append`, although neither has a
standard name and they differ in their variable name. -/
theorem c45_append_unnamed_violated :
    ∃ (l : List (Coord Unit)) (c : Coord Unit), (∀ n, ¬ Spec.HasStd c n) ∧ (∀ a ∈ l, a.varName ≠ c.varName) ∧
      append l c = .error .duplicate := by
  refine ⟨[⟨none, none, some "theta", "", [], ()⟩], ⟨none, none, some "sigma", "", [], ()⟩, ?_, ?_, ?_⟩
  · rintro n ⟨h, -⟩; cases h
  · decide
  · rfl

example : append [(⟨some "time", none, none, "T", [], ()⟩ : Coord Unit)] ⟨some "latitude", none, none, "Y", [], ()⟩
    = .ok [⟨some "time", none, none, "T", [], ()⟩, ⟨some "latitude", none, none, "Y", [], ()⟩] := by
  rw [c45_append _ _ (by decide), if_neg]
  · rfl
  · rintro ⟨a, ha, n, ⟨h1, -⟩, h2, -⟩
    simp at ha; subst ha; simp at h1 h2; rw [← h1] at h2; exact absurd h2 (by decide)

/-! ### Copying -/

theorem copyLoop_eq (cs acc : List (Coord V)) (h : (acc ++ cs).Pairwise (fun a b => ¬ coordEq b a = true)) :
    copyLoop acc cs = .ok (acc ++ cs) := by
  induction cs generalizing acc with
  | nil => simp [copyLoop]
  | cons c cs ih =>
    rw [copyLoop]
    have ha : append acc c = .ok (acc ++ [c]) := by
      rw [append, if_neg]
      intro hany
      rw [List.any_eq_true] at hany
      obtain ⟨a, ha, he⟩ := hany
      rw [List.pairwise_append] at h
      exact h.2.2 a ha c (by simp) he
    rw [ha]
    simp only
    rw [ih (acc ++ [c]) (by simpa using h)]
    simp

/-- C65. A list of coordinates that all have a standard name, no two the same proper one, is copied completely and in order. -/
theorem c65_copy (l : List (Coord V)) (h0 : ∀ c ∈ l, c.stdName ≠ none) (h : Spec.Unique l) : copy l = .ok l := by
  rw [copy, copyLoop_eq]
  · simp
  · rw [List.nil_append]
    refine List.Pairwise.imp_of_mem ?_ h
    intro a b ha hb hab he
    rw [coordEq_iff] at he
    obtain ⟨n, hn⟩ := Option.ne_none_iff_exists'.1 (h0 b hb)
    apply hab
    refine ⟨n, ⟨by rw [← he.1, hn], ?_⟩, hn, ?_⟩ <;>
    · rintro rfl; exact he.2 hn

theorem copyLoop_ok {cs acc l' : List (Coord V)} (h : copyLoop acc cs = .ok l') : l' = acc ++ cs := by
  induction cs generalizing acc with
  | nil => rw [copyLoop] at h; cases h; simp
  | cons c cs ih =>
    rw [copyLoop] at h
    cases ha : append acc c with
    | error e => rw [ha] at h; cases h
    | ok a =>
      rw [ha] at h
      have := ih h
      unfold append at ha
      split at ha
      · cases ha
      · cases ha; simpa using this

/-- C65. A copy, if it is made at all, has the same coordinates in the same order. -/
theorem c65_copy_same (l l' : List (Coord V)) (h : copy l = .ok l') : l' = l := by
  simpa using copyLoop_ok h

/-- C65 is violated: a coordinate list with two coordinates without standard name (which the constructor accepts) cannot be
copied. -/
theorem c65_copy_violated :
    ∃ (l : List (Coord Unit)), Spec.Unique l ∧ copy l = .error .duplicate := by
  refine ⟨[⟨none, none, some "theta", "", [], ()⟩, ⟨none, none, some "sigma", "", [], ()⟩], ?_, rfl⟩
  simp [Spec.Unique, Spec.HasStd]

example : Spec.Unique [(⟨some "time", none, none, "T", [], ()⟩ : Coord Unit), ⟨some "latitude", none, none, "Y", [], ()⟩] := by
  simp only [Spec.Unique, Spec.HasStd, List.pairwise_cons]
  refine ⟨?_, by simp⟩
  intro b hb
  simp at hb; subst hb
  rintro ⟨n, ⟨h1, -⟩, h2, -⟩
  simp at h1 h2; rw [← h1] at h2; exact absurd h2 (by decide)

/-! ### Looking up by keyword -/

/-- C66. In a list of two or more coordinates, a coordinate found for a (non-empty) keyword matches it: by its name, by its standard name, as
the standard coordinate of this axis, by its variable name or by its axis. -/
theorem c66_lookup_matches (axes : String → Option String) (l : List (Coord V)) (n : String) (x : Coord V)
    (hl : l.length ≠ 1) (hn : n ≠ "") (h : lookupCoord axes l n = some x) :
    x ∈ l ∧ (name x = some n ∨ x.stdName = some n ∨ (∃ s, axes n.toUpper = some s ∧ x.stdName = some s) ∨
      x.varName = some n ∨ x.axis = n.toUpper) := by
  have mem : ∀ c, Safe l c → tryCoord l c = some x → x ∈ l ∧ Spec.Matches c x := by
    intro c hs h
    have h2 : getCoord l c = .ok x := by
      unfold tryCoord at h
      cases hg : getCoord l c with
      | ok y => rw [hg] at h; cases h; rfl
      | error e => rw [hg] at h; cases h
    have h3 := ((c45_get_coord l c hs).1 x).1 h2
    rw [c45_get_coords] at h3
    have : x ∈ l.filter (fun y => @decide (Spec.Matches c y) (Classical.propDecidable _)) := by rw [h3]; simp
    simpa using this
  have hsafe : ∀ c : Criteria V, c.sel = .none → Safe l c := fun c h => Or.inl ⟨h, hl⟩
  unfold lookupCoord at h
  simp only [Option.orElse_eq_orElse, ← Option.or_eq_orElse, Option.or_eq_some_iff] at h
  rcases h with h | ⟨-, h | ⟨-, h | ⟨-, h | ⟨-, h⟩⟩⟩⟩
  · obtain ⟨h1, h2⟩ := mem _ (Or.inr ⟨n, hn, rfl⟩) h
    exact ⟨h1, Or.inl (h2.name n rfl)⟩
  · obtain ⟨h1, h2⟩ := mem _ (hsafe _ rfl) h
    exact ⟨h1, Or.inr (Or.inl (h2.std n rfl))⟩
  · cases hax : axes n.toUpper with
    | none =>
      rw [hax] at h
      exfalso
      unfold tryCoord at h
      have := (c45_get_coord l {} (hsafe _ rfl)).1
      cases hg : getCoord l {} with
      | ok y =>
        have h3 := (this y).1 hg
        rw [getCoords_none] at h3
        exact hl (by rw [h3]; rfl)
      | error e => 
        rw [show ({ stdName := none } : Criteria V) = {} from rfl, hg] at h
        simp at h
    | some s =>
      rw [hax] at h
      obtain ⟨h1, h2⟩ := mem _ (hsafe _ rfl) h
      exact ⟨h1, Or.inr (Or.inr (Or.inl ⟨s, rfl, h2.std s rfl⟩))⟩
  · obtain ⟨h1, h2⟩ := mem _ (hsafe _ rfl) h
    exact ⟨h1, Or.inr (Or.inr (Or.inr (Or.inl (h2.var n rfl))))⟩
  · obtain ⟨h1, h2⟩ := mem _ (hsafe _ rfl) h
    exact ⟨h1, Or.inr (Or.inr (Or.inr (Or.inr (h2.axis n rfl))))⟩

/-- C66. A name that exactly one coordinate has always finds this coordinate, whatever other coordinate has it as variable name or axis. -/
theorem c66_lookup_by_name (axes : String → Option String) (l : List (Coord V)) (n : String) (x : Coord V)
    (h : l.filter (fun y => name y == some n) = [x]) : lookupCoord axes l n = some x := by
  have : tryCoord l { sel := .byName n } = some x := by
    have h2 : getCoord l { sel := .byName n } = .ok x := by
      rw [c45_get_coord_exact]; left
      simpa [getCoords, filterBy, Sel.name?, Sel.coord?] using h
    rw [tryCoord, h2]
  simp [lookupCoord, this]

/-- C66 is violated: in a list of one coordinate any keyword finds it. -/
theorem c66_lookup_single_violated :
    ∃ (axes : String → Option String) (l : List (Coord Unit)) (n : String) (x : Coord Unit), lookupCoord axes l n = some x ∧
      ¬ (name x = some n ∨ x.stdName = some n ∨ (∃ s, axes n.toUpper = some s ∧ x.stdName = some s) ∨
        x.varName = some n ∨ x.axis = n.toUpper) := by
  refine ⟨fun _ => none, [⟨some "time", none, none, "T", [], ()⟩], "altitude", ⟨some "time", none, none, "T", [], ()⟩, ?_, ?_⟩
  · decide +kernel
  · decide +kernel

example : lookupCoord (fun _ => none) [(⟨some "time", none, none, "T", [], ()⟩ : Coord Unit),
    ⟨some "latitude", none, none, "Y", [], ()⟩] "time" = some ⟨some "time", none, none, "T", [], ()⟩ :=
  c66_lookup_by_name _ _ _ _ (by decide)

end Cis.Coords
