import Verif.Hyper.Views
set_option linter.unusedSectionVars false
set_option linter.unusedSimpArgs false
/-!
Property C116: assigning points through views. Model of `__setitem__` of both views (cis/data_io/hyperpoint_view.py:137-150, 301-333), and of
which array a view writes into (`data_flattened`, cis/data_io/ungridded_data.py:336-343, `get_all_points`, 646-651).

Simplified: the value hidden under a mask is not modelled; assigning a masked value replaces the element.
-/
namespace Cis.Hyper.Assign
open Cis.Hyper
variable {K V : Type}

/-- Errors of an assignment. -/
inductive AErr where
  | index
  | type
  | value
deriving DecidableEq

/-- `coord[key] = val`: None in an array of floats is NaN. -/
def setAt (nan : K) (c : Option (List K)) (i : Nat) (x : Option K) : Option (List K) := c.map (fun l => l.set i (x.getD nan))

/-- The loop over the coordinates (hyperpoint_view.py:142-146), for arrays of at least `i + 1` values. -/
def setCoords (nan : K) (v : UView K V) (i : Nat) (p : HP K (V × Bool)) : UView K V :=
  ⟨setAt nan v.lat i p.lat, setAt nan v.lon i p.lon, setAt nan v.alt i p.alt, setAt nan v.pres i p.pres, setAt nan v.time i p.time, v.data⟩

/-- `view[key] = point` for ungridded data (hyperpoint_view.py:137-147); `n` is the length. The value of the point is read first (IndexError),
then data that are None are a TypeError; the coordinates have been set before. -/
def assign (nan : K) (v : UView K V) (n : Nat) (key : Int) (p : HP K (V × Bool)) : UView K V × Option AErr :=
  if key < 0 ∨ (n : Int) ≤ key then (v, some .index)
  else
    let w := setCoords nan v key.toNat p
    match p.val with
    | [] => (w, some .index)
    | x :: _ => match v.data with
      | none => (w, some .type)
      | some d => (⟨w.lat, w.lon, w.alt, w.pres, w.time, some (d.set key.toNat x)⟩, none)

/-- `view[key] = value` (hyperpoint_view.py:148-149). -/
def assignValue (v : UView K V) (n : Nat) (key : Int) (x : V × Bool) : UView K V × Option AErr :=
  if key < 0 ∨ (n : Int) ≤ key then (v, some .index)
  else match v.data with
    | none => (v, some .type)
    | some d => (⟨v.lat, v.lon, v.alt, v.pres, v.time, some (d.set key.toNat x)⟩, none)

/-- A history of assignments; the first error ends it. -/
def assignAll (nan : K) (n : Nat) : UView K V → List (Nat × HP K (V × Bool)) → UView K V × Option AErr
  | v, [] => (v, none)
  | v, (i, p) :: t => match assign nan v n i p with
    | (w, none) => assignAll nan n w t
    | (w, some e) => (w, some e)

/-- Indices within the shape of the data (NumPy's check; negative indices, which NumPy counts from the end, are not modelled). -/
def inside : List Nat → List Nat → Bool
  | [], [] => true
  | n :: s, i :: idx => decide (i < n) && inside s idx
  | _, _ => false

/-- `view[indices] = point` for gridded data with a complete tuple of indices (hyperpoint_view.py:301-330): `_verify_no_coord_change_on_setting`
is always False, so that only the value is used. -/
def gassign (v : GView K V) (idx : List Nat) (p : HP K V) : GView K V × Option AErr :=
  match p.val with
  | [] => (v, some .index)
  | x :: _ => if inside v.shape idx then (⟨v.shape, v.coords, fun j => if j = idx then x else v.data j⟩, none) else (v, some .index)

/-- `view[key] = point` with an integer; a key that is too large is a ValueError of `unravel_index`. -/
def gassignFlat (v : GView K V) (key : Nat) (p : HP K V) : GView K V × Option AErr :=
  match unravel v.shape key with
  | none => (v, some .value)
  | some idx => gassign v idx p

/-- The array of a variable: whether it is contiguous, its elements in C order, and the copy that `data_flattened` has made. -/
structure Src (A : Type) where
  contiguous : Bool
  data : List A
  flat : Option (List A)

/-- `data_flattened` (ungridded_data.py:336-343): `ravel` gives the array itself if it is contiguous and a copy, which is kept, if not. -/
def Src.read {A : Type} (s : Src A) : List A × Src A :=
  if s.contiguous then (s.data, s)
  else match s.flat with
    | some l => (l, s)
    | none => (s.data, ⟨s.contiguous, s.data, some s.data⟩)

/-- Writing into the array that `data_flattened` has given. -/
def Src.write {A : Type} (s : Src A) (i : Nat) (x : A) : Src A :=
  if s.contiguous then ⟨s.contiguous, s.data.set i x, s.flat⟩ else ⟨s.contiguous, s.data, s.flat.map (fun l => l.set i x)⟩

/-- Getting a view and assigning values, any number of times. -/
def Src.assignments {A : Type} (s : Src A) : List (Nat × A) → Src A
  | [] => s
  | (i, x) :: t => (s.read.2.write i x).assignments t

/-! ## Specification -/

/-- What a view can show of a point: the coordinates that the view has, and the first value. -/
def Spec.shown (nan : K) (v : UView K V) (p : HP K (V × Bool)) : HP K (V × Bool) :=
  ⟨v.lat.map (fun _ => p.lat.getD nan), v.lon.map (fun _ => p.lon.getD nan), v.alt.map (fun _ => p.alt.getD nan),
    v.pres.map (fun _ => p.pres.getD nan), v.time.map (fun _ => p.time.getD nan), p.val.take 1⟩

/-- A point that has the coordinates of the view, no others, and one value. -/
def Spec.Fits (v : UView K V) (p : HP K (V × Bool)) : Prop :=
  (p.lat.isSome = v.lat.isSome) ∧ (p.lon.isSome = v.lon.isSome) ∧ (p.alt.isSome = v.alt.isSome) ∧ (p.pres.isSome = v.pres.isSome) ∧
    (p.time.isSome = v.time.isSome) ∧ p.val.length = 1

/-! ## Proofs: ungridded -/

theorem setAt_length (nan : K) (c : Option (List K)) (i : Nat) (x : Option K) (n : Nat) (h : ∀ l, c = some l → l.length = n) :
    ∀ l, setAt nan c i x = some l → l.length = n := by
  intro l hl
  cases c with
  | none => cases hl
  | some m =>
    cases hl
    rw [List.length_set]
    exact h m rfl

theorem setAt_get (nan : K) (c : Option (List K)) (i j : Nat) (x : Option K) (n : Nat) (h : ∀ l, c = some l → l.length = n) (hi : i < n) :
    (setAt nan c i x).bind (·[j]?) = if i = j then c.map (fun _ => x.getD nan) else c.bind (·[j]?) := by
  cases c with
  | none => simp [setAt]
  | some l =>
    have := h l rfl
    simp only [setAt, Option.map_some, Option.bind_some, List.getElem?_set]
    split
    · rename_i e; subst e; rw [if_pos (by omega)]
    · rfl

theorem setAt_shown (nan : K) (c : Option (List K)) (i : Nat) (x y : Option K) :
    (setAt nan c i x).map (fun _ => y.getD nan) = c.map (fun _ => y.getD nan) := by
  cases c <;> rfl

theorem assign_ok (nan : K) (v : UView K V) (n i : Nat) (p : HP K (V × Bool)) (d : List (V × Bool)) (x : V × Bool) (t : List (V × Bool))
    (hi : i < n) (hd : v.data = some d) (hx : p.val = x :: t) :
    assign nan v n i p = (⟨setAt nan v.lat i p.lat, setAt nan v.lon i p.lon, setAt nan v.alt i p.alt, setAt nan v.pres i p.pres,
      setAt nan v.time i p.time, some (d.set i x)⟩, none) := by
  unfold assign
  rw [if_neg (by omega)]
  simp only [hx, hd, Int.toNat_natCast, setCoords]

/-- C116: assigning a point puts it at its position, as far as the view has its coordinates, and changes no other point; the view keeps its
length and its coordinates. -/
theorem c116_assign (nan : K) (v : UView K V) (n i : Nat) (p : HP K (V × Bool)) (h : Spec.Aligned v n) (hi : i < n)
    (hd : v.data ≠ none) (hp : p.val ≠ []) :
    ∃ w, assign nan v n i p = (w, none) ∧ Spec.Aligned w n ∧ w.iterAll n = (v.iterAll n).set i (some (Spec.shown nan v p)) ∧
      w.data ≠ none ∧ ∀ q, Spec.shown nan w q = Spec.shown nan v q := by
  obtain ⟨d, hd⟩ := Option.ne_none_iff_exists'.1 hd
  obtain ⟨x, t, hx⟩ := List.exists_cons_of_ne_nil hp
  refine ⟨_, assign_ok nan v n i p d x t hi hd hx, ?_, ?_, by simp, ?_⟩
  · refine ⟨setAt_length nan _ _ _ n h.lat, setAt_length nan _ _ _ n h.lon, setAt_length nan _ _ _ n h.alt, setAt_length nan _ _ _ n h.pres,
      setAt_length nan _ _ _ n h.time, ?_⟩
    intro l hl
    cases hl
    rw [List.length_set]
    exact h.data d hd
  · have hdl := h.data d hd
    apply List.ext_getElem?
    intro j
    rw [List.getElem?_set]
    have hlen : (v.iterAll n).length = n := by simp [UView.iterAll]
    rw [hlen]
    by_cases hj : j < n
    · have e1 : ∀ u : UView K V, (u.iterAll n)[j]? = some (u.get n j) := by
        intro u; simp [UView.iterAll, hj]
      rw [e1, e1, c53_ungridded_item v n h j, if_pos hj, c53_ungridded_item _ n ⟨setAt_length nan _ _ _ n h.lat, setAt_length nan _ _ _ n h.lon,
        setAt_length nan _ _ _ n h.alt, setAt_length nan _ _ _ n h.pres, setAt_length nan _ _ _ n h.time, by
          intro l hl; cases hl; rw [List.length_set]; exact hdl⟩ j, if_pos hj]
      simp only [setAt_get nan _ i j _ n h.lat hi, setAt_get nan _ i j _ n h.lon hi, setAt_get nan _ i j _ n h.alt hi,
        setAt_get nan _ i j _ n h.pres hi, setAt_get nan _ i j _ n h.time hi, hd, Option.bind_some, List.getElem?_set]
      by_cases hij : i = j
      · subst hij
        simp only [if_true]
        rw [if_pos (by omega), if_pos hi]
        simp [Spec.shown, hx]
      · simp only [if_neg hij]
    · have e1 : ∀ u : UView K V, (u.iterAll n)[j]? = none := by
        intro u; simp [UView.iterAll, hj]
      rw [e1, e1, if_neg (by omega)]
  · intro q
    simp only [Spec.shown, setAt_shown]

/-- C116, histories: any number of assignments to positions of the view act as assignments to the list of its points. -/
theorem c116_history (nan : K) (v : UView K V) (n : Nat) (h : Spec.Aligned v n) (hd : v.data ≠ none) (l : List (Nat × HP K (V × Bool)))
    (hl : ∀ x ∈ l, x.1 < n ∧ x.2.val ≠ []) :
    ∃ w, assignAll nan n v l = (w, none) ∧ Spec.Aligned w n ∧
      w.iterAll n = l.foldl (fun pts x => pts.set x.1 (some (Spec.shown nan v x.2))) (v.iterAll n) := by
  have key : ∀ (l : List (Nat × HP K (V × Bool))) (u : UView K V), (∀ x ∈ l, x.1 < n ∧ x.2.val ≠ []) → Spec.Aligned u n → u.data ≠ none →
      (∀ q, Spec.shown nan u q = Spec.shown nan v q) → ∃ w, assignAll nan n u l = (w, none) ∧ Spec.Aligned w n ∧
        w.iterAll n = l.foldl (fun pts x => pts.set x.1 (some (Spec.shown nan v x.2))) (u.iterAll n) := by
    intro l
    induction l with
    | nil => intro u _ hu _ _; exact ⟨u, rfl, hu, rfl⟩
    | cons x l ih =>
      intro u hl hu hdu hs
      obtain ⟨i, p⟩ := x
      obtain ⟨w, h1, h2, h3, h4, h5⟩ := c116_assign nan u n i p hu (hl _ List.mem_cons_self).1 hdu (hl _ List.mem_cons_self).2
      obtain ⟨w', g1, g2, g3⟩ := ih w (fun y hy => hl y (List.mem_cons_of_mem _ hy)) h2 h4 (fun q => (h5 q).trans (hs q))
      refine ⟨w', ?_, g2, ?_⟩
      · unfold assignAll
        rw [h1]
        exact g1
      · rw [g3, List.foldl_cons, h3, hs]
  exact key l v hl h hd (fun _ => rfl)

/-- C116: a point that has the coordinates of the view is read back as it was assigned. -/
theorem c116_read_back (nan : K) (v : UView K V) (n i : Nat) (p : HP K (V × Bool)) (h : Spec.Aligned v n) (hi : i < n)
    (hd : v.data ≠ none) (hf : Spec.Fits v p) : ∃ w, assign nan v n i p = (w, none) ∧ w.get n i = some p := by
  obtain ⟨f1, f2, f3, f4, f5, f6⟩ := hf
  obtain ⟨w, h1, h2, h3, -, -⟩ := c116_assign nan v n i p h hi hd (by rintro e; rw [e] at f6; simp at f6)
  refine ⟨w, h1, ?_⟩
  have e : (w.iterAll n)[i]? = some (w.get n i) := by simp [UView.iterAll, hi]
  rw [h3, List.getElem?_set, if_pos rfl, if_pos (by simp [UView.iterAll, hi])] at e
  rw [← Option.some.inj e]
  congr 1
  have hc : ∀ (c : Option (List K)) (x : Option K), x.isSome = c.isSome → c.map (fun _ => x.getD nan) = x := by
    intro c x hx
    cases c <;> cases x <;> simp_all
  obtain ⟨la, lo, al, pr, ti, val⟩ := p
  simp only [Spec.shown, hc v.lat _ f1, hc v.lon _ f2, hc v.alt _ f3, hc v.pres _ f4, hc v.time _ f5]
  congr 1
  rw [List.take_of_length_le (by rw [f6])]

/-- C116: a value alone replaces the value of its point only. -/
theorem c116_value (v : UView K V) (n i : Nat) (x : V × Bool) (d : List (V × Bool)) (hd : v.data = some d) (hi : i < n) :
    assignValue v n i x = (⟨v.lat, v.lon, v.alt, v.pres, v.time, some (d.set i x)⟩, none) := by
  unfold assignValue
  rw [if_neg (by omega), hd]
  simp only [Int.toNat_natCast]

/-- C116: positions outside of the view, also negative ones, are an IndexError, and nothing is changed. -/
theorem c116_outside (nan : K) (v : UView K V) (n : Nat) (i : Int) (p : HP K (V × Bool)) (x : V × Bool) (h : i < 0 ∨ (n : Int) ≤ i) :
    assign nan v n i p = (v, some .index) ∧ assignValue v n i x = (v, some .index) := by
  unfold assign assignValue
  rw [if_pos h, if_pos h]
  exact ⟨rfl, rfl⟩

/-- C116 violated: an assignment that fails may have changed the coordinates: for a point without value, and in a view without data. -/
theorem c116_failed_violated (nan : K) (v : UView K V) (n i : Nat) (p : HP K (V × Bool)) (hi : i < n)
    (h : p.val = [] ∨ v.data = none) :
    ∃ w e, assign nan v n i p = (w, some e) ∧ w.lat = v.lat.map (fun l => l.set i (p.lat.getD nan)) ∧ w.data = v.data := by
  unfold assign
  rw [if_neg (by omega)]
  simp only [Int.toNat_natCast]
  cases hp : p.val with
  | nil => exact ⟨_, _, rfl, rfl, rfl⟩
  | cons x t =>
    rcases h with h | h
    · rw [hp] at h; cases h
    · simp only [h]
      exact ⟨_, _, rfl, rfl, h.symm ▸ rfl⟩

/-- C116 violated: a coordinate that the point does not have is read back as NaN. -/
theorem c116_missing_violated (nan : K) (v : UView K V) (n i : Nat) (p : HP K (V × Bool)) (h : Spec.Aligned v n) (hi : i < n)
    (hd : v.data ≠ none) (hp : p.val ≠ []) (hl : v.lon ≠ none) (hn : p.lon = none) :
    ∃ w q, assign nan v n i p = (w, none) ∧ w.get n i = some q ∧ q.lon = some nan := by
  obtain ⟨w, h1, h2, h3, -, -⟩ := c116_assign nan v n i p h hi hd hp
  refine ⟨w, Spec.shown nan v p, h1, ?_, ?_⟩
  · have e : (w.iterAll n)[i]? = some (w.get n i) := by simp [UView.iterAll, hi]
    rw [h3, List.getElem?_set, if_pos rfl, if_pos (by simp [UView.iterAll, hi])] at e
    exact (Option.some.inj e).symm
  · obtain ⟨l, hl⟩ := Option.ne_none_iff_exists'.1 hl
    simp [Spec.shown, hl, hn]

/-! ## Proofs: gridded -/

theorem inside_iff (s idx : List Nat) : inside s idx = true ↔ IndexIter.Spec.Valid s idx := by
  induction s generalizing idx with
  | nil => cases idx <;> simp [inside, IndexIter.Spec.Valid]
  | cons n s ih => cases idx <;> simp [inside, IndexIter.Spec.Valid, ih]

/-- C116 (gridded): assigning a point changes the value of its cell only: all other points, and all coordinates, are as before. -/
theorem c116_gridded (v : GView K V) (idx : List Nat) (p : HP K V) (x : V) (t : List V) (hx : p.val = x :: t)
    (hv : IndexIter.Spec.Valid v.shape idx) (q : HP K V) (hq : v.get idx = some q) :
    ∃ w, gassign v idx p = (w, none) ∧ w.shape = v.shape ∧ w.get idx = some ⟨q.lat, q.lon, q.alt, q.pres, q.time, [x]⟩ ∧
      ∀ j, j ≠ idx → w.get j = v.get j := by
  refine ⟨⟨v.shape, v.coords, fun j => if j = idx then x else v.data j⟩, ?_, rfl, ?_, ?_⟩
  · unfold gassign
    simp only [hx]
    rw [if_pos ((inside_iff _ _).2 hv)]
  · unfold GView.get at hq ⊢
    simp only
    split at hq
    · rename_i la lo al pr ti e
      cases hq
      simp
    · cases hq
  · intro j hj
    unfold GView.get
    simp only [if_neg hj]

/-- C116 (gridded): a position in the flat order means the cell at this position. -/
theorem c116_gridded_flat (v : GView K V) (idx : List Nat) (p : HP K V) (hv : IndexIter.Spec.Valid v.shape idx) :
    gassignFlat v (IndexIter.Spec.position v.shape idx) p = gassign v idx p := by
  have := (IndexIter.c03_index_iterator_position v.shape _ idx).2 ⟨hv, rfl⟩
  simp only [gassignFlat, unravel, this]

/-- C116 (gridded): outside of the grid, and for a point without value, there is an error and nothing is changed. -/
theorem c116_gridded_outside (v : GView K V) (idx : List Nat) (key : Nat) (p : HP K V) :
    (¬ IndexIter.Spec.Valid v.shape idx ∨ p.val = [] → gassign v idx p = (v, some .index)) ∧
      (IndexIter.Spec.cells v.shape ≤ key → gassignFlat v key p = (v, some .value)) := by
  constructor
  · intro h
    unfold gassign
    cases hp : p.val with
    | nil => rfl
    | cons x t =>
      rcases h with h | h
      · simp only
        rw [if_neg (fun e => h ((inside_iff _ _).1 e))]
      · rw [hp] at h; cases h
  · intro h
    have : (IndexIter.indexIterator v.shape)[key]? = none :=
      List.getElem?_eq_none (by rw [IndexIter.length_indexIterator]; exact h)
    simp only [gassignFlat, unravel, this]

/-- C116 violated (gridded): the coordinates of the point are not looked at: any point can be assigned to any cell, and is not read back. -/
theorem c116_gridded_coordinates_violated (v : GView K V) (idx : List Nat) (p q : HP K V) (h : p.val = q.val) :
    gassign v idx p = gassign v idx q := by
  unfold gassign
  rw [h]

/-! ## Proofs: arrays -/

theorem read_write {A : Type} (s : Src A) (i : Nat) (x : A) : (s.read.2.write i x).read.1 = s.read.1.set i x := by
  obtain ⟨c, d, f⟩ := s
  cases c <;> cases f <;> rfl

/-- C116: what was assigned through one view is seen in every later view. -/
theorem c116_views {A : Type} (s : Src A) (l : List (Nat × A)) :
    (s.assignments l).read.1 = l.foldl (fun a x => a.set x.1 x.2) s.read.1 := by
  induction l generalizing s with
  | nil => rfl
  | cons x l ih =>
    obtain ⟨i, x⟩ := x
    rw [Src.assignments, ih, read_write]
    rfl

/-- C116, for contiguous arrays: the data are changed as the points are. -/
theorem c116_data {A : Type} (s : Src A) (l : List (Nat × A)) (h : s.contiguous = true) :
    (s.assignments l).data = l.foldl (fun a x => a.set x.1 x.2) s.data := by
  have key : ∀ (l : List (Nat × A)) (s : Src A), s.contiguous = true → (s.assignments l).contiguous = true := by
    intro l
    induction l with
    | nil => intro s h; exact h
    | cons x l ih =>
      intro s h
      rw [Src.assignments]
      exact ih _ (by simp [Src.read, Src.write, h])
  have h1 := c116_views s l
  simp only [Src.read, key l s h, h, if_true] at h1
  exact h1

/-- C116 violated: of other arrays (a transposed one, a slice) the points change but the data do not. -/
theorem c116_data_violated {A : Type} (s : Src A) (l : List (Nat × A)) (h : s.contiguous = false) :
    (s.assignments l).data = s.data := by
  induction l generalizing s with
  | nil => rfl
  | cons x l ih =>
    rw [Src.assignments, ih]
    · cases hf : s.flat <;> simp [Src.read, Src.write, h, hf]
    · cases hf : s.flat <;> simp [Src.read, Src.write, h, hf]

/-! ## Examples -/

/-- A view of two points with latitude and longitude. -/
def exView : UView ℚ ℚ := ⟨some [1, 2], some [3, 4], none, none, none, some [(5, false), (6, true)]⟩

example : Spec.Aligned exView 2 ∧ exView.data ≠ none ∧ Spec.Fits exView ⟨some 7, some 8, none, none, none, [(9, false)]⟩ := by
  refine ⟨⟨?_, ?_, ?_, ?_, ?_, ?_⟩, by simp [exView], rfl, rfl, rfl, rfl, rfl, rfl⟩ <;> intro l hl <;> cases hl <;> rfl

example : (assignAll 0 2 exView [(1, ⟨some 7, some 8, none, none, none, [(9, false)]⟩), (0, ⟨some 1, none, some 3, none, none, [(2, true)]⟩)]).1 =
    ⟨some [1, 7], some [0, 8], none, none, none, some [(2, true), (9, false)]⟩ := by decide +kernel

example : (gassign (⟨[2, 2], [some ([10, 20], 0), some ([30, 40], 1)], fun i => (i.sum : ℚ)⟩ : GView ℚ ℚ) [1, 0] ⟨none, none, none, none, none, [9]⟩).1.get [1, 0] =
    some ⟨some 20, some 30, none, none, none, [9]⟩ := by decide +kernel

example : ((⟨false, [1, 2], none⟩ : Src Nat).assignments [(0, 5)]).read.1 = [5, 2] ∧ ((⟨false, [1, 2], none⟩ : Src Nat).assignments [(0, 5)]).data = [1, 2] :=
  ⟨rfl, rfl⟩

end Cis.Hyper.Assign
