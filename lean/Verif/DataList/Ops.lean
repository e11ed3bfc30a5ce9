import Mathlib.Data.List.Basic
import Mathlib.Logic.Function.Basic
import Mathlib.Data.List.Count
import Mathlib.Logic.Function.Iterate
set_option linter.unusedSectionVars false
set_option linter.unusedSimpArgs false
/-!
Operations on lists of gridded variables. Model of `GriddedDataList.add_aux_coord`, `remove_coord`, `add_dim_coord`, `transpose`
(cis/data_io/gridded_data.py:455-463, 475-493, 576-583), which change each variable in place; `interpolate`, `regrid`, `aggregated_by`
(495-506, 522-544), which make new ones; `intersection` and `extract` (546-574); `coord`, `coord_dims`, `dim_coords`, `ndim`
(445-453, 465-473, 585-607), which ask the first variable. Property C112.

A list holds references to objects; what an operation of Iris does to one cube is a function `op` that may fail.
-/
namespace Cis.ListOps
variable {C D E : Type}

/-- `for var in self: var.op(...)` (gridded_data.py:462-463, 482-483, 492-493, 582-583): the objects afterwards, and the error that ended it.
An operation on one cube that fails leaves the cube. -/
def inPlace (op : C → Except E C) : List Nat → (Nat → C) → (Nat → C) × Option E
  | [], σ => (σ, none)
  | v :: t, σ =>
    match op (σ v) with
    | .error e => (σ, some e)
    | .ok c => inPlace op t (Function.update σ v c)

/-- `interpolate`, `regrid`, `aggregated_by` (gridded_data.py:495-506, 522-544). -/
def newList (op : C → Except E D) (σ : Nat → C) : List Nat → Except E (List D)
  | [] => .ok []
  | v :: t =>
    match op (σ v) with
    | .error e => .error e
    | .ok d => match newList op σ t with
      | .error e => .error e
      | .ok r => .ok (d :: r)

/-- `intersection`, `extract` (gridded_data.py:546-574): evaluated twice for each variable; the inner `none` is `None`. -/
def extract (op : C → Except E (Option D)) (σ : Nat → C) : List Nat → Except E (Option (List D))
  | [] => .ok (some [])
  | v :: t =>
    match op (σ v) with
    | .error e => .error e
    | .ok none => .ok none
    | .ok (some _) => match op (σ v) with
      | .error e => .error e
      | .ok none => .ok none
      | .ok (some d) => match extract op σ t with
        | .error e => .error e
        | .ok none => .ok none
        | .ok (some r) => .ok (some (d :: r))

/-- `coord`, `coord_dims`, `dim_coords`, `aux_coords`, `ndim` (gridded_data.py:445-453, 465-473, 585-607); `none`: IndexError. -/
def askFirst {A : Type} (ask : C → A) (σ : Nat → C) (l : List Nat) : Option A := l.head?.map (fun v => ask (σ v))

/-! ## Specification -/

/-- `op` made to every variable of the list, and to nothing else. -/
def Spec.AllOnce (op : C → Except E C) (l : List Nat) (σ τ : Nat → C) : Prop :=
  (∀ v ∈ l, op (σ v) = .ok (τ v)) ∧ ∀ v, v ∉ l → τ v = σ v

/-! ## Proofs -/

theorem inPlace_other (op : C → Except E C) : ∀ (l : List Nat) (σ : Nat → C) (v : Nat), v ∉ l → (inPlace op l σ).1 v = σ v := by
  intro l
  induction l with
  | nil => intro σ v _; rfl
  | cons w t ih =>
    intro σ v hv
    rw [List.mem_cons, not_or] at hv
    unfold inPlace
    split
    · rfl
    · rw [ih _ _ hv.2, Function.update_of_ne hv.1]

/-- C112, for different objects: the operation ends without error exactly if it can be made to every variable, and then it was made to every
one, once. -/
theorem c112_in_place (op : C → Except E C) (l : List Nat) (hn : l.Nodup) (σ : Nat → C) :
    ((inPlace op l σ).2 = none ↔ ∀ v ∈ l, ∃ c, op (σ v) = .ok c) ∧
      ((inPlace op l σ).2 = none → Spec.AllOnce op l σ (inPlace op l σ).1) := by
  induction l generalizing σ with
  | nil => exact ⟨by simp [inPlace], fun _ => ⟨by simp, fun _ _ => rfl⟩⟩
  | cons v t ih =>
    obtain ⟨hv, ht⟩ := List.nodup_cons.1 hn
    unfold inPlace
    cases h : op (σ v) with
    | error e =>
      simp only
      refine ⟨⟨(by intro h'; cases h'), fun h' => ?_⟩, (by intro h'; cases h')⟩
      obtain ⟨c, hc⟩ := h' v List.mem_cons_self
      rw [h] at hc; cases hc
    | ok c =>
      simp only
      obtain ⟨h1, h2⟩ := ih ht (Function.update σ v c)
      have hσ : ∀ w ∈ t, Function.update σ v c w = σ w := fun w hw => Function.update_of_ne (fun e : w = v => hv (e ▸ hw)) _ _
      constructor
      · rw [h1]
        constructor
        · intro ha w hw
          rcases List.mem_cons.1 hw with rfl | hw
          · exact ⟨c, h⟩
          · have := ha w hw; rwa [hσ w hw] at this
        · intro ha w hw
          rw [hσ w hw]
          exact ha w (List.mem_cons_of_mem _ hw)
      · intro hno
        obtain ⟨ha, hb⟩ := h2 hno
        refine ⟨?_, ?_⟩
        · intro w hw
          rcases List.mem_cons.1 hw with rfl | hw
          · rw [inPlace_other op t _ _ hv, Function.update_self]; exact h
          · rw [← ha w hw, hσ w hw]
        · intro w hw
          rw [List.mem_cons, not_or] at hw
          rw [hb w hw.2, Function.update_of_ne hw.1]

/-- C112 violated: if the operation fails for a variable, those before it in the list are changed and those after it are not. -/
theorem c112_partly_violated (op : C → Except E C) (pre post : List Nat) (v : Nat) (hn : (pre ++ v :: post).Nodup) (σ : Nat → C) (e : E)
    (hpre : ∀ w ∈ pre, ∃ c, op (σ w) = .ok c) (he : op (σ v) = .error e) :
    (inPlace op (pre ++ v :: post) σ).2 = some e ∧ Spec.AllOnce op pre σ (inPlace op (pre ++ v :: post) σ).1 := by
  induction pre generalizing σ with
  | nil =>
    simp only [List.nil_append, inPlace, he]
    exact ⟨trivial, by simp, fun _ _ => rfl⟩
  | cons w t ih =>
    rw [List.cons_append] at hn ⊢
    obtain ⟨hw, ht⟩ := List.nodup_cons.1 hn
    obtain ⟨c, hc⟩ := hpre w List.mem_cons_self
    unfold inPlace
    rw [hc]
    simp only
    have hσ : ∀ x, x ≠ w → Function.update σ w c x = σ x := fun x hx => Function.update_of_ne hx _ _
    have hvw : v ≠ w := fun e => hw (by rw [← e]; simp)
    obtain ⟨h1, h2, h3⟩ := ih ht (Function.update σ w c)
      (by
        intro x hx
        rw [hσ x (fun e => hw (by rw [← e]; simp [hx]))]
        exact hpre x (List.mem_cons_of_mem _ hx))
      (by rw [hσ v hvw]; exact he)
    refine ⟨h1, ?_, ?_⟩
    · intro x hx
      rcases List.mem_cons.1 hx with rfl | hx
      · rw [h3 x (fun h => hw (by simp [h])), Function.update_self]; exact hc
      · rw [← h2 x hx, hσ x (fun e => hw (by rw [← e]; simp [hx]))]
    · intro x hx
      rw [List.mem_cons, not_or] at hx
      rw [h3 x hx.2, hσ x hx.1]

theorem inPlace_total (g : C → C) : ∀ (l : List Nat) (σ : Nat → C) (v : Nat),
    (inPlace (E := E) (fun c => .ok (g c)) l σ).1 v = g^[l.count v] (σ v) := by
  intro l
  induction l with
  | nil => intro σ v; rfl
  | cons w t ih =>
    intro σ v
    unfold inPlace
    simp only
    rw [ih, List.count_cons]
    by_cases h : w = v
    · subst h; simp
    · have h' : v ≠ w := fun e => h e.symm
      rw [Function.update_of_ne h']
      simp [h]

/-- C112 violated: to a variable that is in the list several times the operation is made as many times. -/
theorem c112_repeated_violated (g : C → C) (l : List Nat) (σ : Nat → C) (v : Nat) :
    (inPlace (E := E) (fun c => .ok (g c)) l σ).1 v = g^[l.count v] (σ v) := inPlace_total g l σ v

/-- Transposing a list in which a variable is twice leaves it as it was. -/
example : (inPlace (E := Unit) (fun c : List Nat => .ok c.reverse) [0, 0] (fun _ => [2, 3])).1 0 = [2, 3] := by decide

/-- C112: the operations that make new variables give one for each variable, in order, exactly if they can be made for all. -/
theorem c112_new (op : C → Except E D) (σ : Nat → C) (l : List Nat) (r : List D) :
    newList op σ l = .ok r ↔ List.Forall₂ (fun v d => op (σ v) = .ok d) l r := by
  induction l generalizing r with
  | nil =>
    constructor
    · intro h; cases h; exact List.Forall₂.nil
    · intro h; cases h; rfl
  | cons v t ih =>
    unfold newList
    constructor
    · intro h
      cases hv : op (σ v) with
      | error e => rw [hv] at h; cases h
      | ok d =>
        rw [hv] at h
        simp only at h
        cases ht : newList op σ t with
        | error e => rw [ht] at h; cases h
        | ok r' => rw [ht] at h; cases h; exact List.Forall₂.cons hv ((ih r').1 ht)
    · intro h
      cases h with
      | cons hv ht => rw [hv]; simp only; rw [(ih _).2 ht]

/-- C112, extract and intersection: the result has the part of every variable, in order. -/
theorem c112_extract (op : C → Except E (Option D)) (σ : Nat → C) (l : List Nat) (r : List D) :
    extract op σ l = .ok (some r) ↔ List.Forall₂ (fun v d => op (σ v) = .ok (some d)) l r := by
  induction l generalizing r with
  | nil =>
    constructor
    · intro h; cases h; exact List.Forall₂.nil
    · intro h; cases h; rfl
  | cons v t ih =>
    unfold extract
    constructor
    · intro h
      cases hv : op (σ v) with
      | error e => rw [hv] at h; cases h
      | ok o =>
        cases o with
        | none => rw [hv] at h; cases h
        | some d =>
          rw [hv] at h
          simp only at h
          cases ht : extract op σ t with
          | error e => rw [ht] at h; cases h
          | ok o' =>
            cases o' with
            | none => rw [ht] at h; cases h
            | some r' => rw [ht] at h; cases h; exact List.Forall₂.cons hv ((ih r').1 ht)
    · intro h
      cases h with
      | cons hv ht => rw [hv]; simp only; rw [(ih _).2 ht]

/-- C112, extract and intersection without errors, for variables on the same grid: `None` exactly if nothing is left of any. -/
theorem c112_extract_none (op : C → Option D) (σ : Nat → C) (l : List Nat)
    (hsame : ∀ v ∈ l, ∀ w ∈ l, (op (σ v) = none ↔ op (σ w) = none)) :
    extract (E := E) (fun c => .ok (op c)) σ l = .ok none ↔ l ≠ [] ∧ ∀ v ∈ l, op (σ v) = none := by
  have key : ∀ l : List Nat, extract (E := E) (fun c => .ok (op c)) σ l = .ok none ↔ ∃ v ∈ l, op (σ v) = none := by
    intro l
    induction l with
    | nil =>
      constructor
      · intro h; cases h
      · rintro ⟨v, hv, -⟩; cases hv
    | cons v t ih =>
      unfold extract
      simp only [List.mem_cons, exists_eq_or_imp]
      cases hv : op (σ v) with
      | none => simp
      | some d =>
        simp only
        rw [← ih]
        cases ht : extract (E := E) (fun c => .ok (op c)) σ t with
        | error e => simp
        | ok o => cases o <;> simp
  rw [key]
  constructor
  · rintro ⟨v, hv, h⟩
    exact ⟨List.ne_nil_of_mem hv, fun w hw => (hsame v hv w hw).1 h⟩
  · rintro ⟨hne, h⟩
    obtain ⟨v, hv⟩ := List.exists_mem_of_ne_nil l hne
    exact ⟨v, hv, h v hv⟩

/-- C112 violated: in general `None` is returned as soon as nothing is left of one variable; what is left of the others is dropped. -/
theorem c112_extract_none_violated (op : C → Option D) (σ : Nat → C) (pre post : List Nat) (v : Nat) (h : op (σ v) = none) :
    extract (E := E) (fun c => .ok (op c)) σ (pre ++ v :: post) = .ok none := by
  induction pre with
  | nil => simp [extract, h]
  | cons w t ih =>
    rw [List.cons_append]
    unfold extract
    cases op (σ w) with
    | none => rfl
    | some d => simp only; rw [ih]

example : extract (E := Unit) (fun c : List Nat => .ok (if c.filter (· > 1) = [] then none else some (c.filter (· > 1)))) (fun v => if v = 0 then [1, 2, 3] else [0, 1]) [0, 1] = .ok none := rfl

/-- C112: what is asked of a list is the same for all its variables if they are on the same coordinates. -/
theorem c112_first {A : Type} (ask : C → A) (σ : Nat → C) (l : List Nat) (hsame : ∀ v ∈ l, ∀ w ∈ l, ask (σ v) = ask (σ w)) (hne : l ≠ []) :
    ∃ a, askFirst ask σ l = some a ∧ ∀ v ∈ l, ask (σ v) = a := by
  cases l with
  | nil => exact absurd rfl hne
  | cons v t => exact ⟨_, rfl, fun w hw => hsame w hw v List.mem_cons_self⟩

end Cis.ListOps
