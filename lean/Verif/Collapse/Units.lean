import Verif.Collapse.Model
import Mathlib.Algebra.Order.Field.Basic
import Mathlib.Algebra.Order.Field.Rat
import Mathlib.Tactic.FieldSimp
import Mathlib.Tactic.Linarith
import Mathlib.Tactic.Positivity
set_option linter.unusedSectionVars false
set_option linter.unusedSimpArgs false
/-!
Property C202 for the aggregation of gridded data (`collapsed`): a change of units of the data before has the same effect as
after. The model is that of `Collapse/Model.lean` (gridded_data.py:307-316, 508-520, 614-652; gridded_collapsor.py:68-141; collapse_kernels.py:8-87).
-/
namespace Cis.Collapse
open Cis.Agg (allIdx along keptAxes)

/-- The cube with its values in other units. -/
def Spec.change (a b : ℚ) (c : Cube) : Cube := { c with value := fun i => (c.value i).map (fun x => a * x + b) }

/-- The value of a kernel in other units (the squares of standard deviation and root mean square are modelled). -/
def Spec.converted (k : Kernel) (a b : ℚ) (v : Option ℚ) : Option ℚ :=
  match k with
  | .std => v.map (fun x => a ^ 2 * x)
  | .rms => v.map (fun x => a ^ 2 * x)
  | .sum => v.map (fun x => a * x)
  | .count => v
  | _ => v.map (fun x => a * x + b)

/-- The kernels for which the change is meaningful: those of Iris that are not modelled are left out, and for a sum and a root
mean square the change must be a scaling. -/
def Spec.Fits (k : Kernel) (b : ℚ) : Prop :=
  match k with
  | .other _ => False
  | .sum => b = 0
  | .rms => b = 0
  | _ => True

variable (a b : ℚ)

/-- A weighted value in other units. -/
def cv (p : ℚ × ℚ) : ℚ × ℚ := (p.1, a * p.2 + b)

theorem sum_cv (l : List (ℚ × ℚ)) : ((l.map (cv a b)).map (fun p => p.1 * p.2)).sum =
    a * (l.map (fun p => p.1 * p.2)).sum + b * (l.map Prod.fst).sum := by
  induction l with
  | nil => simp
  | cons p t ih => simp only [List.map_cons, List.sum_cons, ih]; simp only [cv]; ring

theorem sq_cv (l : List (ℚ × ℚ)) : ((l.map (cv a 0)).map (fun p => p.1 * (p.2 * p.2))).sum =
    a ^ 2 * (l.map (fun p => p.1 * (p.2 * p.2))).sum := by
  induction l with
  | nil => simp
  | cons p t ih => simp only [List.map_cons, List.sum_cons, ih]; simp only [cv]; ring

theorem fst_cv (l : List (ℚ × ℚ)) : (l.map (cv a b)).map Prod.fst = l.map Prod.fst := by
  rw [List.map_map]; rfl

theorem snd_cv (l : List (ℚ × ℚ)) : (l.map (cv a b)).map Prod.snd = (l.map Prod.snd).map (fun x => a * x + b) := by
  rw [List.map_map, List.map_map]; rfl

theorem sum_affine (l : List ℚ) : (l.map (fun x => a * x + b)).sum = a * l.sum + l.length * b := by
  induction l with
  | nil => simp
  | cons x t ih => simp only [List.map_cons, List.sum_cons, ih, List.length_cons]; push_cast; ring

theorem min_foldl (ha : 0 ≤ a) (t : List ℚ) : ∀ x : ℚ, (t.map (fun x => a * x + b)).foldl min (a * x + b) = a * t.foldl min x + b := by
  induction t with
  | nil => intro x; rfl
  | cons y t ih =>
    intro x
    rw [List.map_cons, List.foldl_cons, min_add_add_right, ← mul_min_of_nonneg _ _ ha, ih]; rfl

theorem max_foldl (ha : 0 ≤ a) (t : List ℚ) : ∀ x : ℚ, (t.map (fun x => a * x + b)).foldl max (a * x + b) = a * t.foldl max x + b := by
  induction t with
  | nil => intro x; rfl
  | cons y t ih =>
    intro x
    rw [List.map_cons, List.foldl_cons, max_add_add_right, ← mul_max_of_nonneg _ _ ha, ih]; rfl

theorem apply_cv (ha : 0 < a) (iris : String → List ℚ → Option ℚ) (k : Kernel) (hk : Spec.Fits k b) (l : List (ℚ × ℚ))
    (hw : ∀ p ∈ l, 0 < p.1) : apply iris k (l.map (cv a b)) = Spec.converted k a b (apply iris k l) := by
  have hnil : l.map (cv a b) = [] ↔ l = [] := by simp
  have hpos : l ≠ [] → 0 < (l.map Prod.fst).sum := by
    intro h
    apply List.sum_pos
    · intro x hx; obtain ⟨p, hp, rfl⟩ := List.mem_map.1 hx; exact hw p hp
    · simpa using h
  by_cases hl : l = []
  · subst hl
    cases k <;> first | rfl | exact hk.elim
  · cases k with
    | sum =>
      have hb : b = 0 := hk
      subst hb
      simp only [apply, if_neg hl, if_neg (mt hnil.1 hl), Spec.converted, Option.map_some, sum_cv, zero_mul, add_zero]
    | mean =>
      have := hpos hl
      simp only [apply, if_neg hl, if_neg (mt hnil.1 hl), Spec.converted, Option.map_some, sum_cv, fst_cv, Option.some.injEq]
      field_simp
    | rms =>
      have hb : b = 0 := hk
      subst hb
      simp only [apply, if_neg hl, if_neg (mt hnil.1 hl), Spec.converted, Option.map_some, sq_cv, fst_cv, Option.some.injEq]
      rw [mul_div_assoc]
    | min =>
      simp only [apply, snd_cv, Spec.converted]
      cases l.map Prod.snd with
      | nil => rfl
      | cons x t => rw [List.map_cons, List.min?_cons', List.min?_cons', min_foldl a b ha.le]; rfl
    | max =>
      simp only [apply, snd_cv, Spec.converted]
      cases l.map Prod.snd with
      | nil => rfl
      | cons x t => rw [List.map_cons, List.max?_cons', List.max?_cons', max_foldl a b ha.le]; rfl
    | std =>
      simp only [apply, List.length_map, Spec.converted]
      split
      · rfl
      · simp only [Option.map_some, Option.some.injEq, snd_cv, sum_affine, List.length_map]
        have hn : (l.length : ℚ) ≠ 0 := by
          have := List.length_pos_iff.2 hl
          positivity
        have hm : (a * (l.map Prod.snd).sum + l.length * b) / l.length = a * ((l.map Prod.snd).sum / l.length) + b := by field_simp
        rw [hm, List.map_map]
        have : (fun p : ℚ × ℚ => (p.2 - (a * ((l.map Prod.snd).sum / l.length) + b)) * (p.2 - (a * ((l.map Prod.snd).sum / l.length) + b))) ∘ cv a b
            = fun p => a ^ 2 * ((p.2 - (l.map Prod.snd).sum / l.length) * (p.2 - (l.map Prod.snd).sum / l.length)) := by
          funext p; simp only [Function.comp, cv]; ring
        rw [this, List.sum_map_mul_left, mul_div_assoc]
    | count => simp only [apply, List.length_map, Spec.converted]
    | other n => exact hk.elim

/-- The output of one kernel in other units. -/
def conv (k : Kernel) (o : Out) : Out := ⟨o.md, o.shape, fun r => Spec.converted k a b (o.value r)⟩

theorem fullCollapse_change (ha : 0 < a) (iris : String → List ℚ → Option ℚ) (c : Cube) (hc : ∀ i, 0 < c.area i) (crds : List Coordinate)
    (k : Kernel) (hk : Spec.Fits k b) :
    fullCollapse iris (Spec.change a b c) crds k = (fullCollapse iris c crds k).map (conv a b k) := by
  have key : ∀ w : List Nat → ℚ, (∀ i, 0 < w i) → ∀ g : List (List Nat),
      apply iris k (g.filterMap (fun i => ((c.value i).map (fun x => a * x + b)).map (fun x => (w i, x)))) =
        Spec.converted k a b (apply iris k (g.filterMap (fun i => (c.value i).map (fun x => (w i, x))))) := by
    intro w hw g
    rw [← apply_cv a b ha iris k hk _ (by
      intro p hp
      obtain ⟨i, -, e⟩ := List.mem_filterMap.1 hp
      rw [Option.map_eq_some_iff] at e
      obtain ⟨x, -, rfl⟩ := e
      exact hw i), List.map_filterMap]
    congr 1
    congr 1
    funext i
    cases c.value i <;> rfl
  unfold fullCollapse
  by_cases hlat : weighted k = true ∧ (crds.any (fun x => x.standardName == some "latitude")) = true
  · rw [if_pos hlat, if_pos hlat]
    show (match areaWeights c with | .error e => _ | .ok w => _) = Except.map _ (match areaWeights c with | .error e => _ | .ok w => _)
    cases h : areaWeights c with
    | error e => rfl
    | ok w =>
      have hw : w = c.area := by
        unfold areaWeights at h
        split at h
        · split at h
          · simp only [Except.ok.injEq] at h; exact h.symm
          · simp at h
        · simp at h
      subst hw
      simp only [Except.map]
      congr 1
      simp only [conv, Out.mk.injEq]
      exact ⟨rfl, rfl, funext fun r => key _ hc _⟩
  · rw [if_neg hlat, if_neg hlat]
    simp only [Except.map]
    congr 1
    simp only [conv, Out.mk.injEq]
    exact ⟨rfl, rfl, funext fun r => key (fun _ => 1) (fun _ => one_pos) _⟩

theorem eachKernel_change (ha : 0 < a) (iris : String → List ℚ → Option ℚ) (c : Cube) (hc : ∀ i, 0 < c.area i) (crds : List Coordinate)
    (ks : List Kernel) (hk : ∀ k ∈ ks, Spec.Fits k b) :
    (∀ e, eachKernel iris c crds ks = .error e → eachKernel iris (Spec.change a b c) crds ks = .error e) ∧
    ∀ outs, eachKernel iris c crds ks = .ok outs → outs.length = ks.length ∧
      eachKernel iris (Spec.change a b c) crds ks = .ok (List.zipWith (conv a b) ks outs) := by
  induction ks with
  | nil =>
    refine ⟨fun e h => by simp [eachKernel] at h, fun outs h => ?_⟩
    simp only [eachKernel, Except.ok.injEq] at h; subst h; exact ⟨rfl, rfl⟩
  | cons k t ih =>
    obtain ⟨ih1, ih2⟩ := ih (fun x hx => hk x (by simp [hx]))
    simp only [eachKernel]
    rw [fullCollapse_change a b ha iris c hc crds k (hk k (by simp))]
    cases fullCollapse iris c crds k with
    | error e => exact ⟨fun e h => h, fun outs h => by simp at h⟩
    | ok o =>
      simp only [Except.map]
      cases h1 : eachKernel iris c crds t with
      | error e =>
        rw [ih1 e h1]
        exact ⟨fun e h => h, fun outs h => by simp at h⟩
      | ok l =>
        rw [(ih2 l h1).2]
        refine ⟨fun e h => by simp at h, fun outs h => ?_⟩
        simp only [Except.ok.injEq] at h
        subst h
        exact ⟨by simp [(ih2 l h1).1], rfl⟩

/-- **C202**. Collapsing gridded data in changed units gives, for each kernel, the values in the changed units, with the same
metadata, coordinates and missing values; if one collapse fails so does the other. -/
theorem c202_collapse (ha : 0 < a) (iris : String → List ℚ → Option ℚ) (c : Cube) (hc : ∀ i, 0 < c.area i) (names : List String) (how : How)
    (ks : List Kernel) (hr : resolve how = .ok ks) (hk : ∀ k ∈ ks, Spec.Fits k b) :
    (∀ e, (collapsed iris c names how).1 = .error e → (collapsed iris (Spec.change a b c) names how).1 = .error e) ∧
    ∀ outs, (collapsed iris c names how).1 = .ok outs → ∃ outs', (collapsed iris (Spec.change a b c) names how).1 = .ok outs' ∧
      outs'.length = outs.length ∧
      ∀ (n : Nat) (k : Kernel) (o : Out), ks[n]? = some k → outs[n]? = some o →
        ∃ o', outs'[n]? = some o' ∧ o'.md = o.md ∧ o'.shape = o.shape ∧ ∀ r, o'.value r = Spec.converted k a b (o.value r) := by
  unfold collapsed
  rw [hr]
  simp only
  have hg : guessBounds (Spec.change a b c) = Spec.change a b (guessBounds c) := rfl
  have hl : lookup (Spec.change a b (guessBounds c)) names = lookup (guessBounds c) names := rfl
  rw [hg, hl]
  cases lookup (guessBounds c) names with
  | none => exact ⟨fun e h => h, fun outs h => by simp at h⟩
  | some crds =>
    simp only
    obtain ⟨h1, h2⟩ := eachKernel_change a b ha iris (guessBounds c) hc crds ks hk
    refine ⟨h1, fun outs h => ⟨_, (h2 outs h).2, by simp [(h2 outs h).1], ?_⟩⟩
    intro n k o e1 e2
    refine ⟨conv a b k o, ?_, rfl, rfl, fun r => rfl⟩
    rw [List.getElem?_zipWith, e1, e2]

/-- Mean, standard deviation and number of points, as well as extremes, of a scaled and shifted series: all fit. -/
example : ∃ ks, resolve .absent = .ok ks ∧ ks.length = 3 ∧ ∀ k ∈ ks, Spec.Fits k 32 :=
  ⟨_, rfl, rfl, by simp [Spec.Fits]⟩

/-- The mean of 1 and 3 with weights 1 and 3. -/
example : apply (fun _ _ => none) .mean ([(1, 1), (3, 3)].map (cv 2 1)) = some 6 ∧
    Spec.converted .mean 2 1 (apply (fun _ _ => none) .mean [(1, 1), (3, 3)]) = some 6 := by
  constructor <;> decide +kernel

end Cis.Collapse
