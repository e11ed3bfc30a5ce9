import Verif.Lon.Sharing
set_option linter.unusedSectionVars false
set_option linter.unusedSimpArgs false
/-!
What a collocation does to the objects it is given. Model of the collocators as programs on shared objects: the sample and the data are
brought into one range of longitudes in place (`_fix_longitude_range`, cis/collocation/col_implementations.py:1113-1121, called at 51-54,
155-158, 614 and 826; `UngriddedData.set_longitude_range`, cis/data_io/ungridded_data.py:746-754), the output of
`GeneralUngriddedCollocator` is made on the coordinate objects of the sample (col_implementations.py:103-109),
`GeneralGriddedCollocator` guesses the bounds of the sample's coordinates (col_implementations.py:817-822), and `DummyCollocator` makes its
output with the metadata object of the data (col_implementations.py:199-202), to which `collocate` (col.py:38-46) then adds a history
(ungridded_data.py:345-356). Property C113.

Ungridded objects refer to their longitude coordinate by address, `rest` is everything else (the other coordinates, the values, the
metadata). What a collocator computes from sample and data once the longitudes are set is a function `f` that reads them only.
-/
namespace Cis.Inputs
open Cis.Lon Spec
variable {K : Type} [Field K] [LinearOrder K] [IsStrictOrderedRing K] [FloorRing K] {V O E : Type}

/-- An ungridded object. -/
structure Obj (V : Type) where
  lon : Option Nat
  rest : V

/-- The objects of a program; objects from `next` on do not exist yet. -/
structure St (K V : Type) where
  heap : Nat → List K
  objs : Nat → Obj V
  next : Nat

/-- Errors of the preparation, and of what follows. -/
inductive Err (E : Type) where
  | empty -- `min()` of an empty array (ValueError)
  | noLongitude -- CoordinateNotFoundError
  | failed (e : E)

/-- What can be read of an object. -/
def St.view (σ : St K V) (x : Nat) : Option (List K) × V := ((σ.objs x).lon.map σ.heap, (σ.objs x).rest)

/-- `_fix_longitude_range(points.coords(), x)` (col_implementations.py:1098-1121). -/
def fixRange (σ : St K V) (s x : Nat) : Except (Err E) (St K V) :=
  match (σ.objs s).lon with
  | none => .ok σ
  | some a =>
    if σ.heap a = [] then .error .empty
    else match (σ.objs x).lon with
      | none => .error .noLongitude
      | some b => .ok { σ with heap := Function.update σ.heap b (fixLongitudeRange (σ.heap b) (findLongitudeRange (σ.heap a))) }

/-- `GeneralUngriddedCollocator.collocate` for one variable `d` (col_implementations.py:51-109); with a list it is called for each. -/
def collocate (f : Option (List K) × V → Option (List K) × V → Except E O) (mk : O → V) (σ : St K V) (s d : Nat) :
    St K V × Except (Err E) O :=
  match fixRange σ s s with
  | .error e => (σ, .error e)
  | .ok σ1 => match fixRange σ1 s d with
    | .error e => (σ1, .error e)
    | .ok σ2 => match f (σ2.view s) (σ2.view d) with
      | .error e => (σ2, .error (.failed e))
      | .ok o => ({ σ2 with objs := Function.update σ2.objs σ2.next ⟨(σ2.objs s).lon, mk o⟩, next := σ2.next + 1 }, .ok o)

/-- A history of collocations: pairs of sample and data. -/
def run (f : Option (List K) × V → Option (List K) × V → Except E O) (mk : O → V) (σ : St K V) (h : List (Nat × Nat)) : St K V :=
  h.foldl (fun σ p => (collocate f mk σ p.1 p.2).1) σ

/-- A coordinate of a gridded sample; `ndim` is its number of dimensions. -/
structure GCoord (K : Type) where
  ndim : Nat
  points : List K
  bounds : Option (List (K × K))

/-- The loop over the coordinates of the sample that the data have too (col_implementations.py:810-824), in the order `is`; `guess` is
`guess_bounds` of Iris; `false`: NotImplementedError. -/
def ensureBounds (guess : List K → List (K × K)) : List Nat → (Nat → GCoord K) → (Nat → GCoord K) × Bool
  | [], c => (c, true)
  | i :: t, c =>
    if (c i).ndim > 1 then (c, false)
    else ensureBounds guess t (match (c i).bounds with
      | some _ => c
      | none => Function.update c i { c i with bounds := some (guess (c i).points) })

/-- `collocate` with `DummyCollocator` (col_implementations.py:199-202, col.py:38-46): every output has the metadata object of its variable,
`meta v` is its address, and gets the new history. The state are the histories of the metadata objects, one list of entries each. -/
def dummy {H : Type} (entry : H) (addr : Nat → Nat) (vars : List Nat) (hist : Nat → List H) : Nat → List H :=
  vars.foldl (fun h v => Function.update h (addr v) (h (addr v) ++ [entry])) hist

/-! ## Specification -/

/-- The same longitudes up to whole turns, element by element. -/
def Spec.SameLons : Option (List K) → Option (List K) → Prop
  | none, none => True
  | some l, some m => List.Forall₂ Same l m
  | _, _ => False

/-- A computation that does not distinguish longitudes by whole turns. -/
def Spec.Periodic (f : Option (List K) × V → Option (List K) × V → Except E O) : Prop :=
  ∀ l l' m m' v w, Spec.SameLons l l' → Spec.SameLons m m' → f (l, v) (m, w) = f (l', v) (m', w)

/-! ## Proofs -/

theorem forall₂_same_refl (l : List K) : List.Forall₂ Same l l := List.forall₂_same.2 (fun a _ => same_refl a)

theorem forall₂_same_trans {l m n : List K} (h1 : List.Forall₂ Same l m) (h2 : List.Forall₂ Same m n) : List.Forall₂ Same l n := by
  induction h1 generalizing n with
  | nil => cases h2; exact List.Forall₂.nil
  | cons h _ ih =>
    cases h2 with
    | cons h' t => exact List.Forall₂.cons (h.trans h') (ih t)

theorem fix_same (l : List K) (s : K) : List.Forall₂ Same (fixLongitudeRange l s) l :=
  ((c21_fix_longitude_range l s).imp (fun a b hab => hab.2.1)).flip

theorem fix_range (l : List K) (s : K) : ∀ x ∈ fixLongitudeRange l s, InRange s x := by
  intro x hx
  obtain ⟨a, _, h⟩ := mem_right (c21_fix_longitude_range l s) hx
  exact h.1

theorem fix_ne (l : List K) (s : K) : fixLongitudeRange l s = [] ↔ l = [] := by
  unfold fixLongitudeRange wrapLons
  simp

/-- Setting a range depends only on the meridians. -/
theorem fix_congr {l m : List K} (h : List.Forall₂ Same l m) (s : K) : fixLongitudeRange l s = fixLongitudeRange m s := by
  have h1 := fix_same l s
  have h2 := fix_same m s
  have r1 := fix_range l s
  have r2 := fix_range m s
  have h3 : List.Forall₂ Same (fixLongitudeRange l s) (fixLongitudeRange m s) :=
    forall₂_same_trans (forall₂_same_trans h1 h) ((h2.imp (fun _ _ x => x.symm)).flip)
  generalize fixLongitudeRange l s = x at h3 r1
  generalize fixLongitudeRange m s = y at h3 r2
  induction h3 with
  | nil => rfl
  | cons hab _ ih =>
    rw [inRange_unique (r1 _ List.mem_cons_self) (r2 _ List.mem_cons_self) hab]
    rw [ih (fun x hx => r1 x (List.mem_cons_of_mem _ hx)) (fun x hx => r2 x (List.mem_cons_of_mem _ hx))]

theorem fix_fix (l : List K) (s t : K) : fixLongitudeRange (fixLongitudeRange l s) t = fixLongitudeRange l t := fix_congr (fix_same l s) t

theorem find_eq (l : List K) : findLongitudeRange l = -180 ∨ findLongitudeRange l = 0 := by
  unfold findLongitudeRange; split <;> simp

/-- The range found for longitudes that have been set to their own range does not change them. -/
theorem fix_again (l : List K) : fixLongitudeRange (fixLongitudeRange l (findLongitudeRange l)) (findLongitudeRange (fixLongitudeRange l (findLongitudeRange l))) =
    fixLongitudeRange l (findLongitudeRange l) := by
  obtain ⟨w, hw, h1, -⟩ := c21_common_window l ([] : List K)
  unfold fixSampleAndData at h1
  simp only at h1
  set x := fixLongitudeRange l (findLongitudeRange l) with hx
  apply (c21_fix_longitude_range_idempotent x _).1
  intro y hy
  have hr := fix_range l (findLongitudeRange l)
  rw [← hx] at hr
  unfold findLongitudeRange
  split
  · rename_i hany
    rcases find_eq l with h | h
    · rw [h] at hr; exact hr y hy
    · exfalso
      rw [h] at hr
      obtain ⟨z, hz, hneg⟩ := List.any_eq_true.1 hany
      exact absurd (of_decide_eq_true hneg) (not_lt.2 (hr z hz).1)
  · rename_i hany
    have hpos : 0 ≤ y := by
      by_contra hc
      exact hany (List.any_eq_true.2 ⟨y, hy, by simpa using hc⟩)
    rcases find_eq l with h | h
    · rw [h] at hr; obtain ⟨a, b⟩ := hr y hy; exact ⟨hpos, by linarith⟩
    · rw [h] at hr; exact hr y hy

/-- The relation between states of a program: the objects that existed are the same, with longitudes up to whole turns. -/
def Keep (σ τ : St K V) : Prop := σ.next ≤ τ.next ∧ (∀ x < σ.next, τ.objs x = σ.objs x) ∧ ∀ a, List.Forall₂ Same (τ.heap a) (σ.heap a)

theorem Keep.refl (σ : St K V) : Keep σ σ := ⟨le_rfl, fun _ _ => rfl, fun _ => forall₂_same_refl _⟩
theorem Keep.trans {σ τ υ : St K V} (h1 : Keep σ τ) (h2 : Keep τ υ) : Keep σ υ :=
  ⟨h1.1.trans h2.1, fun x hx => (h2.2.1 x (lt_of_lt_of_le hx h1.1)).trans (h1.2.1 x hx), fun a => forall₂_same_trans (h2.2.2 a) (h1.2.2 a)⟩

theorem fixRange_keep {σ τ : St K V} {s x : Nat} (h : fixRange (E := E) σ s x = .ok τ) : Keep σ τ ∧ τ.objs = σ.objs ∧ τ.next = σ.next := by
  unfold fixRange at h
  split at h
  · cases h; exact ⟨Keep.refl _, rfl, rfl⟩
  · split at h
    · cases h
    · split at h
      · cases h
      · cases h
        refine ⟨⟨le_rfl, fun _ _ => rfl, ?_⟩, rfl, rfl⟩
        intro c
        simp only [Function.update_apply]
        split
        · rename_i e; rw [e]; exact fix_same _ _
        · exact forall₂_same_refl _

theorem collocate_keep (f : Option (List K) × V → Option (List K) × V → Except E O) (mk : O → V) (σ : St K V) (s d : Nat) :
    Keep σ (collocate f mk σ s d).1 := by
  unfold collocate
  split
  · exact Keep.refl _
  · rename_i σ1 h1
    split
    · exact (fixRange_keep h1).1
    · rename_i σ2 h2
      have h12 := (fixRange_keep h1).1.trans (fixRange_keep h2).1
      split
      · exact h12
      · refine h12.trans ⟨Nat.le_succ _, ?_, fun _ => forall₂_same_refl _⟩
        intro x hx
        simp only [Function.update_apply]
        rw [if_neg (by omega)]

/-- C113: whatever collocations are made with some objects, failing ones included, these keep everything but their longitudes, and the
longitudes stay the same up to whole turns. -/
theorem c113_kept (f : Option (List K) × V → Option (List K) × V → Except E O) (mk : O → V) (σ : St K V) (h : List (Nat × Nat)) (x : Nat)
    (hx : x < σ.next) :
    ((run f mk σ h).view x).2 = (σ.view x).2 ∧ Spec.SameLons ((run f mk σ h).view x).1 (σ.view x).1 := by
  have hk : Keep σ (run f mk σ h) := by
    unfold run
    induction h generalizing σ with
    | nil => exact Keep.refl _
    | cons p t ih =>
      rw [List.foldl_cons]
      have hp := collocate_keep f mk σ p.1 p.2
      exact hp.trans (ih _ (lt_of_lt_of_le hx hp.1))
  unfold St.view
  rw [hk.2.1 x hx]
  refine ⟨rfl, ?_⟩
  cases (σ.objs x).lon with
  | none => trivial
  | some a => exact hk.2.2 a

theorem view_same {σ τ : St K V} (h : Keep σ τ) {x : Nat} (hx : x < σ.next) : (τ.view x).2 = (σ.view x).2 ∧ Spec.SameLons (τ.view x).1 (σ.view x).1 := by
  unfold St.view
  rw [h.2.1 x hx]
  refine ⟨rfl, ?_⟩
  cases (σ.objs x).lon with
  | none => trivial
  | some a => exact h.2.2 a

theorem sameLons_symm {l m : Option (List K)} (h : Spec.SameLons l m) : Spec.SameLons m l := by
  cases l <;> cases m <;> simp only [Spec.SameLons] at h ⊢
  exact (h.imp (fun _ _ x => x.symm)).flip

theorem sameLons_trans {l m n : Option (List K)} (h : Spec.SameLons l m) (h' : Spec.SameLons m n) : Spec.SameLons l n := by
  cases l <;> cases m <;> cases n <;> simp only [Spec.SameLons] at h h' ⊢
  exact forall₂_same_trans h h'

/-- The preparation, on the addresses. -/
def prep (heap : Nat → List K) (la lb : Option Nat) : (Nat → List K) × Option (Err E) :=
  match la with
  | none => (heap, none)
  | some a =>
    if heap a = [] then (heap, some .empty)
    else
      let X := fixLongitudeRange (heap a) (findLongitudeRange (heap a))
      let h1 := Function.update heap a X
      match lb with
      | none => (h1, some .noLongitude)
      | some b => (Function.update h1 b (fixLongitudeRange (h1 b) (findLongitudeRange X)), none)

theorem collocate_prep (f : Option (List K) × V → Option (List K) × V → Except E O) (mk : O → V) (σ : St K V) (s d : Nat) :
    (collocate f mk σ s d).1.heap = (prep (E := E) σ.heap (σ.objs s).lon (σ.objs d).lon).1 ∧
    (collocate f mk σ s d).2 = match (prep (E := E) σ.heap (σ.objs s).lon (σ.objs d).lon).2 with
      | some e => .error e
      | none => match f ((σ.objs s).lon.map (prep (E := E) σ.heap (σ.objs s).lon (σ.objs d).lon).1, (σ.objs s).rest)
          ((σ.objs d).lon.map (prep (E := E) σ.heap (σ.objs s).lon (σ.objs d).lon).1, (σ.objs d).rest) with
        | .error e => .error (.failed e)
        | .ok o => .ok o := by
  cases hs : (σ.objs s).lon with
  | none =>
    have e : ∀ x, fixRange (E := E) σ s x = .ok σ := by intro x; unfold fixRange; rw [hs]
    unfold collocate prep
    rw [e s]
    simp only
    rw [e d]
    simp only [St.view, hs]
    constructor
    · split <;> rfl
    · split <;> simp_all
  | some a =>
    by_cases he : σ.heap a = []
    · have e : ∀ x, fixRange (E := E) σ s x = .error .empty := by intro x; unfold fixRange; rw [hs]; simp [he]
      unfold collocate prep
      rw [e s]
      simp [he]
    · have e1 : fixRange (E := E) σ s s = .ok { σ with heap := Function.update σ.heap a (fixLongitudeRange (σ.heap a) (findLongitudeRange (σ.heap a))) } := by
        unfold fixRange; rw [hs]; simp only [if_neg he]
      unfold collocate prep
      rw [e1]
      simp only [if_neg he]
      have hne : ¬ fixLongitudeRange (σ.heap a) (findLongitudeRange (σ.heap a)) = [] := fun h => he ((fix_ne _ _).1 h)
      cases hd : (σ.objs d).lon with
      | none =>
        have e2 : fixRange (E := E) { σ with heap := Function.update σ.heap a (fixLongitudeRange (σ.heap a) (findLongitudeRange (σ.heap a))) } s d = .error .noLongitude := by
          unfold fixRange; simp only [hs, hd, Function.update_self, if_neg hne]
        rw [e2]
        exact ⟨rfl, rfl⟩
      | some b =>
        have e2 : fixRange (E := E) { σ with heap := Function.update σ.heap a (fixLongitudeRange (σ.heap a) (findLongitudeRange (σ.heap a))) } s d =
            .ok ⟨Function.update (Function.update σ.heap a (fixLongitudeRange (σ.heap a) (findLongitudeRange (σ.heap a)))) b
              (fixLongitudeRange (Function.update σ.heap a (fixLongitudeRange (σ.heap a) (findLongitudeRange (σ.heap a))) b)
                (findLongitudeRange (fixLongitudeRange (σ.heap a) (findLongitudeRange (σ.heap a))))), σ.objs, σ.next⟩ := by
          unfold fixRange; simp only [hs, hd, Function.update_self, if_neg hne]
        rw [e2]
        simp only [St.view, hs, hd]
        constructor
        · split <;> rfl
        · split <;> simp_all

theorem prep_twice (heap : Nat → List K) (la lb lc : Option Nat) :
    (prep (E := E) (prep (E := E) heap la lb).1 la lc).2 = (prep (E := E) heap la lc).2 ∧
    (∀ a, la = some a → (prep (E := E) (prep (E := E) heap la lb).1 la lc).1 a = (prep (E := E) heap la lc).1 a) ∧
    (∀ c, lc = some c → (prep (E := E) (prep (E := E) heap la lb).1 la lc).1 c = (prep (E := E) heap la lc).1 c) ∧
    (prep (E := E) (prep (E := E) heap la lb).1 la lb).1 = (prep (E := E) heap la lb).1 := by
  cases la with
  | none => exact ⟨rfl, fun _ _ => rfl, fun _ _ => rfl, rfl⟩
  | some a =>
    by_cases he : heap a = []
    · have e : ∀ l, prep (E := E) heap (some a) l = (heap, some .empty) := by
        intro l; unfold prep; simp [he]
      rw [e lb]
      exact ⟨rfl, fun _ _ => rfl, fun _ _ => rfl, by rw [e lb]⟩
    · set X := fixLongitudeRange (heap a) (findLongitudeRange (heap a)) with hX
      have hXne : X ≠ [] := by rw [hX]; intro h; exact he ((fix_ne _ _).1 h)
      have hXX : fixLongitudeRange X (findLongitudeRange X) = X := by rw [hX]; exact fix_again _
      -- the heap after the first preparation
      have key : ∀ g : Nat → List K, g a = X → ∀ l : Option Nat, prep (E := E) g (some a) l =
          (match l with
            | none => (g, some .noLongitude)
            | some b => (Function.update g b (fixLongitudeRange (g b) (findLongitudeRange X)), none)) := by
        intro g hg l
        unfold prep
        simp only [hg, if_neg hXne, hXX]
        have : Function.update g a X = g := by rw [← hg]; exact Function.update_eq_self a g
        rw [this]
      have first : ∀ l : Option Nat, prep (E := E) heap (some a) l =
          (match l with
            | none => (Function.update heap a X, some .noLongitude)
            | some b => (Function.update (Function.update heap a X) b (fixLongitudeRange (Function.update heap a X b) (findLongitudeRange X)), none)) := by
        intro l
        unfold prep
        simp only [if_neg he, ← hX]
      have hfa : (prep (E := E) heap (some a) lb).1 a = X := by
        rw [first]
        cases lb with
        | none => simp
        | some b =>
          by_cases hb : b = a
          · subst hb; simp [hXX]
          · simp [Function.update_apply, hb, Ne.symm hb, show ¬ a = b from fun e => hb e.symm]
      set g := (prep (E := E) heap (some a) lb).1 with hg
      have hgc : ∀ c, fixLongitudeRange (g c) (findLongitudeRange X) = fixLongitudeRange (Function.update heap a X c) (findLongitudeRange X) := by
        intro c
        by_cases hc : c = a
        · subst hc; rw [hfa]; simp
        · rw [hg, first]
          cases lb with
          | none => rfl
          | some b =>
            by_cases hb : c = b
            · subst hb; simp only [Function.update_self]; rw [fix_fix]
            · simp only [Function.update_of_ne hb]
      rw [key g hfa lc, key g hfa lb, first lc]
      refine ⟨?_, ?_, ?_, ?_⟩
      · cases lc <;> rfl
      · intro a' ha'
        cases ha'
        cases lc with
        | none => simp [hfa]
        | some c =>
          by_cases hc : a = c
          · subst hc; simp [hfa]
          · simp [Function.update_of_ne hc, hfa]
      · intro c hc
        subst hc
        simp only [Function.update_self]
        exact hgc c
      · cases hlb : lb with
        | none => rfl
        | some b =>
          simp only
          rw [hgc b]
          have : g b = fixLongitudeRange (Function.update heap a X b) (findLongitudeRange X) := by
            rw [hg, hlb, first]; simp
          rw [← this]
          exact Function.update_eq_self b g

/-- C113: what a collocation gives does not depend on other data having been collocated onto the same sample before. -/
theorem c113_independent (f : Option (List K) × V → Option (List K) × V → Except E O) (mk : O → V) (σ : St K V) (s d d' : Nat)
    (hs : s < σ.next) (hd' : d' < σ.next) :
    (collocate f mk (collocate f mk σ s d).1 s d').2 = (collocate f mk σ s d').2 := by
  have hk := collocate_keep f mk σ s d
  obtain ⟨h1, -⟩ := collocate_prep f mk σ s d
  obtain ⟨-, e1⟩ := collocate_prep f mk (collocate f mk σ s d).1 s d'
  obtain ⟨-, e2⟩ := collocate_prep f mk σ s d'
  rw [e1, e2, hk.2.1 s hs, hk.2.1 d' hd', h1]
  obtain ⟨p1, p2, p3, -⟩ := prep_twice (E := E) σ.heap (σ.objs s).lon (σ.objs d).lon (σ.objs d').lon
  rw [p1]
  have m1 : (σ.objs s).lon.map (prep (E := E) (prep (E := E) σ.heap (σ.objs s).lon (σ.objs d).lon).1 (σ.objs s).lon (σ.objs d').lon).1 =
      (σ.objs s).lon.map (prep (E := E) σ.heap (σ.objs s).lon (σ.objs d').lon).1 := by
    cases h : (σ.objs s).lon with
    | none => rfl
    | some a => rw [h] at p2; simp [p2 a rfl]
  have m2 : (σ.objs d').lon.map (prep (E := E) (prep (E := E) σ.heap (σ.objs s).lon (σ.objs d).lon).1 (σ.objs s).lon (σ.objs d').lon).1 =
      (σ.objs d').lon.map (prep (E := E) σ.heap (σ.objs s).lon (σ.objs d').lon).1 := by
    cases h : (σ.objs d').lon with
    | none => rfl
    | some a => rw [h] at p3; simp [p3 a rfl]
  rw [m1, m2]

/-- C113: a collocation made again gives the same, and changes no longitude any more. -/
theorem c113_repeat (f : Option (List K) × V → Option (List K) × V → Except E O) (mk : O → V) (σ : St K V) (s d : Nat)
    (hs : s < σ.next) (hd : d < σ.next) :
    (collocate f mk (collocate f mk σ s d).1 s d).2 = (collocate f mk σ s d).2 ∧
      (collocate f mk (collocate f mk σ s d).1 s d).1.heap = (collocate f mk σ s d).1.heap := by
  refine ⟨c113_independent f mk σ s d d hs hd, ?_⟩
  have hk := collocate_keep f mk σ s d
  rw [(collocate_prep f mk (collocate f mk σ s d).1 s d).1, (collocate_prep f mk σ s d).1, hk.2.1 s hs, hk.2.1 d hd]
  exact (prep_twice (E := E) σ.heap (σ.objs s).lon (σ.objs d).lon (σ.objs d).lon).2.2.2

theorem run_keep (f : Option (List K) × V → Option (List K) × V → Except E O) (mk : O → V) (h : List (Nat × Nat)) : ∀ σ : St K V, Keep σ (run f mk σ h) := by
  induction h with
  | nil => intro σ; exact Keep.refl _
  | cons p t ih => intro σ; exact (collocate_keep f mk σ p.1 p.2).trans (ih _)

theorem prep_err {heap heap' : Nat → List K} (h : ∀ a, List.Forall₂ Same (heap' a) (heap a)) (la lb : Option Nat) :
    (prep (E := E) heap' la lb).2 = (prep (E := E) heap la lb).2 := by
  unfold prep
  cases la with
  | none => rfl
  | some a =>
    have : heap' a = [] ↔ heap a = [] := by
      have := (h a).length_eq
      rw [← List.length_eq_zero_iff, ← List.length_eq_zero_iff, this]
    by_cases he : heap a = []
    · simp [he, this.2 he]
    · have he' : ¬ heap' a = [] := fun e => he (this.1 e)
      simp only [if_neg he, if_neg he']
      cases lb <;> rfl

theorem prep_same (heap : Nat → List K) (la lb : Option Nat) (c : Nat) : List.Forall₂ Same ((prep (E := E) heap la lb).1 c) (heap c) := by
  unfold prep
  cases la with
  | none => exact forall₂_same_refl _
  | some a =>
    by_cases he : heap a = []
    · simp only [he, if_true]; exact forall₂_same_refl (heap c)
    · simp only [if_neg he]
      have h1 : ∀ c, List.Forall₂ Same (Function.update heap a (fixLongitudeRange (heap a) (findLongitudeRange (heap a))) c) (heap c) := by
        intro c
        by_cases hc : c = a
        · subst hc; simp only [Function.update_self]; exact fix_same _ _
        · rw [Function.update_of_ne hc]; exact forall₂_same_refl _
      cases lb with
      | none => exact h1 c
      | some b =>
        by_cases hc : c = b
        · subst hc; simp only [Function.update_self]; exact forall₂_same_trans (fix_same _ _) (h1 c)
        · simp only [Function.update_of_ne hc]; exact h1 c

/-- C113, for collocations that do not distinguish longitudes by whole turns: whatever collocations were made before, a collocation of the same
objects gives the same (or the same error). -/
theorem c113_history (f : Option (List K) × V → Option (List K) × V → Except E O) (mk : O → V) (hf : Spec.Periodic f) (σ : St K V)
    (h : List (Nat × Nat)) (s d : Nat) (hs : s < σ.next) (hd : d < σ.next) :
    (collocate f mk (run f mk σ h) s d).2 = (collocate f mk σ s d).2 := by
  have hk := run_keep f mk h σ
  rw [(collocate_prep f mk (run f mk σ h) s d).2, (collocate_prep f mk σ s d).2, hk.2.1 s hs, hk.2.1 d hd, prep_err hk.2.2]
  have hl : ∀ l : Option Nat, Spec.SameLons (l.map (prep (E := E) (run f mk σ h).heap (σ.objs s).lon (σ.objs d).lon).1)
      (l.map (prep (E := E) σ.heap (σ.objs s).lon (σ.objs d).lon).1) := by
    intro l
    cases l with
    | none => trivial
    | some a =>
      refine sameLons_trans (m := some ((run f mk σ h).heap a)) (prep_same _ _ _ a) ?_
      exact sameLons_trans (m := some (σ.heap a)) (hk.2.2 a) (sameLons_symm (l := some ((prep (E := E) σ.heap (σ.objs s).lon (σ.objs d).lon).1 a)) (m := some (σ.heap a)) (prep_same σ.heap _ _ a))
  rw [hf _ _ _ _ _ _ (hl _) (hl _)]

/-- C113 violated: the longitudes of the sample that was given are changed, exactly if one of them is outside the range that begins at 0, or at
-180 if there is a negative one. -/
theorem c113_sample_changed_violated (f : Option (List K) × V → Option (List K) × V → Except E O) (mk : O → V) (σ : St K V) (s d a : Nat)
    (ha : (σ.objs s).lon = some a) :
    (collocate f mk σ s d).1.heap a ≠ σ.heap a ↔ ∃ l ∈ σ.heap a, ¬ InRange (findLongitudeRange (σ.heap a)) l := by
  have hcalc : (collocate f mk σ s d).1.heap a = fixLongitudeRange (σ.heap a) (findLongitudeRange (σ.heap a)) := by
    rw [(collocate_prep f mk σ s d).1, ha]
    unfold prep
    by_cases he : σ.heap a = []
    · simp [he, fixLongitudeRange, wrapLons]
    · simp only [if_neg he]
      cases (σ.objs d).lon with
      | none => simp
      | some b =>
        by_cases hb : a = b
        · subst hb; simp only [Function.update_self]; exact fix_again _
        · simp [Function.update_of_ne hb]
  rw [hcalc]
  constructor
  · intro hne
    by_contra hc
    push Not at hc
    exact hne ((c21_fix_longitude_range_idempotent _ _).1 hc)
  · rintro ⟨l, hl, hr⟩ heq
    apply hr
    have := fix_range (σ.heap a) (findLongitudeRange (σ.heap a)) l
    rw [heq] at this
    exact this hl

/-- C113 violated: the longitudes of the result depend on what was collocated before. Data at -10 degrees are collocated onto a sample at 10
degrees; used as a sample afterwards they are at 350 degrees. -/
theorem c113_result_violated : ∃ (σ : St ℚ Unit) (s t d : Nat), s < σ.next ∧ t < σ.next ∧ d < σ.next ∧
    ∃ f : Option (List ℚ) × Unit → Option (List ℚ) × Unit → Except Unit (Option (List ℚ)), f = (fun p _ => .ok p.1) ∧
      (collocate f (fun _ => ()) σ s d).2.toOption = some (some [-10]) ∧
      (collocate f (fun _ => ()) (collocate f (fun _ => ()) σ t s).1 s d).2.toOption = some (some [350]) := by
  refine ⟨⟨fun a => if a = 0 then [-10] else [10], fun x => ⟨some x, ()⟩, 3⟩, 0, 1, 2, by decide, by decide, by decide, _, rfl, ?_, ?_⟩
  · decide +kernel
  · decide +kernel

/-- A sample on which the conditions of the theorems hold and longitudes change. -/
example : ∃ (σ : St ℚ Unit), 1 < σ.next ∧ (collocate (fun _ _ => (.ok () : Except Unit Unit)) id σ 0 1).1.heap 0 = [-10, -160] ∧ σ.heap 0 = [-10, 200] := by
  refine ⟨⟨fun _ => [-10, 200], fun x => ⟨some x, ()⟩, 2⟩, by decide, ?_, rfl⟩
  decide +kernel

/-- Distances along the circle are an example of a periodic computation. -/
example : Spec.Periodic (K := ℚ) (V := Unit) (E := Unit) (fun l m => .ok (l.1.map (fun x => fixLongitudeRange x 0), m.1.map (fun x => fixLongitudeRange x 0))) := by
  intro l l' m m' v w h1 h2
  cases l <;> cases l' <;> cases m <;> cases m' <;> simp only [Spec.SameLons] at h1 h2
  · rfl
  · simp [fix_congr h2]
  · simp [fix_congr h1]
  · simp [fix_congr h1, fix_congr h2]

theorem ensureBounds_points (guess : List K → List (K × K)) : ∀ (is : List Nat) (c : Nat → GCoord K) (i : Nat),
    ((ensureBounds guess is c).1 i).points = (c i).points ∧ ((ensureBounds guess is c).1 i).ndim = (c i).ndim ∧
      ∀ b, (c i).bounds = some b → ((ensureBounds guess is c).1 i).bounds = some b := by
  intro is
  induction is with
  | nil => intro c i; exact ⟨rfl, rfl, fun _ h => h⟩
  | cons j t ih =>
    intro c i
    unfold ensureBounds
    split
    · exact ⟨rfl, rfl, fun _ h => h⟩
    · cases hb : (c j).bounds with
      | some b0 => exact ih c i
      | none =>
        obtain ⟨h1, h2, h3⟩ := ih (Function.update c j { c j with bounds := some (guess (c j).points) }) i
        rw [h1, h2]
        by_cases hij : i = j
        · subst hij
          refine ⟨by simp, by simp, ?_⟩
          intro b hb'; rw [hb] at hb'; cases hb'
        · rw [Function.update_of_ne hij] at h3 ⊢
          exact ⟨rfl, rfl, h3⟩

/-- C113, gridded samples: the points of the coordinates, and bounds that were given, stay. -/
theorem c113_bounds (guess : List K → List (K × K)) (is : List Nat) (c : Nat → GCoord K) (i : Nat) :
    ((ensureBounds guess is c).1 i).points = (c i).points ∧
      ((c i).bounds ≠ none → ((ensureBounds guess is c).1 i).bounds = (c i).bounds) := by
  obtain ⟨h1, -, h3⟩ := ensureBounds_points guess is c i
  refine ⟨h1, ?_⟩
  cases h : (c i).bounds with
  | none => intro hn; exact absurd rfl hn
  | some b => intro _; exact h3 b h

/-- C113 violated: a coordinate of the sample without bounds has got bounds when the collocation has been made. -/
theorem c113_bounds_violated (guess : List K → List (K × K)) (is : List Nat) (c : Nat → GCoord K) (i : Nat) (hi : i ∈ is)
    (hok : (ensureBounds guess is c).2 = true) (hb : (c i).bounds = none) :
    ((ensureBounds guess is c).1 i).bounds = some (guess (c i).points) := by
  induction is generalizing c with
  | nil => cases hi
  | cons j t ih =>
    unfold ensureBounds at hok ⊢
    split at hok
    · cases hok
    · rename_i hn
      rw [if_neg hn]
      by_cases hij : i = j
      · subst hij
        rw [hb]
        simp only
        exact (ensureBounds_points guess t _ i).2.2 _ (by simp)
      · have hit : i ∈ t := by
          rcases List.mem_cons.1 hi with h | h
          · exact absurd h hij
          · exact h
        cases hbj : (c j).bounds with
        | some b0 =>
          rw [hbj] at hok
          exact ih c hit hok hb
        | none =>
          rw [hbj] at hok
          simp only at hok ⊢
          have := ih (Function.update c j { c j with bounds := some (guess (c j).points) }) hit hok (by rw [Function.update_of_ne hij]; exact hb)
          rw [Function.update_of_ne hij] at this
          exact this

example : (ensureBounds (fun p => p.map (fun x => (x - 1 / 2, x + 1 / 2))) [0] (fun _ => ⟨1, [(1 : ℚ), 2], none⟩)).2 = true := by decide

/-- C113 violated, `dummy`: the history of the data that were given grows by one entry for each variable with the same metadata. -/
theorem c113_dummy_violated {H : Type} (entry : H) (addr : Nat → Nat) (vars : List Nat) (hist : Nat → List H) (a : Nat) :
    dummy entry addr vars hist a = hist a ++ List.replicate (vars.countP (fun v => addr v == a)) entry := by
  unfold dummy
  induction vars generalizing hist with
  | nil => simp
  | cons v t ih =>
    rw [List.foldl_cons, ih, List.countP_cons]
    by_cases h : addr v = a
    · subst h
      simp [List.replicate_succ', ← List.replicate_succ]
    · have h' : ¬ a = addr v := fun e => h e.symm
      simp [Function.update_apply, h, h']

end Cis.Inputs
