import Verif.Agg.BinCommand
import Verif.Colloc.Units
set_option linter.unusedSectionVars false
set_option linter.unusedSimpArgs false
/-!
Property C202 for aggregation and for collocation onto a grid with `bin`: a change of units of the data before has the same effect
as after. The models are those of `Agg/Model.lean` (ungridded_aggregator.py:11-55, col_implementations.py:774-900) with the kernels of
`Colloc/Model.lean` (col_implementations.py:365-462).
-/
namespace Cis.Agg
open DataIndex

/-- The value of a cell in the changed units: `none` is a cell without value. -/
noncomputable def Spec.converted (k : Colloc.Kernel) (a b : ℚ) (cell : Option (List (Option ℝ))) : Option (List (Option ℝ)) :=
  cell.map (Colloc.Spec.converted k a b)

theorem stat_affine (a b : ℚ) (ha : 0 < a) (k : Colloc.Kernel) (hs : k = .sum → b = 0) (l : List ℚ) :
    BinCmd.stat k (l.map (fun x => a * x + b)) = Spec.converted k a b (BinCmd.stat k l) := by
  unfold BinCmd.stat Spec.converted
  rw [← Colloc.getValue_affine (a : ℝ) (b : ℝ) (by exact_mod_cast ha.le) k (fun h => by rw [hs h]; simp), List.map_map, List.map_map]
  congr 1
  apply List.map_congr_left
  intro x _
  simp [Colloc.chg]

theorem setCell_affine {β : Type} (kernel : List ℚ → Option β) (g : ℚ → ℚ) (h : β → β) (hk : ∀ l, kernel (l.map g) = (kernel l).map h)
    (vals : Nat → ℚ) (slices : List (List Int × List Nat)) (c : List Nat) :
    slices.foldl (setCell kernel (fun p => g (vals p))) (fun _ => none) c = (slices.foldl (setCell kernel vals) (fun _ => none) c).map h := by
  have : ∀ acc acc' : List Nat → Option β, (∀ c, acc' c = (acc c).map h) →
      slices.foldl (setCell kernel (fun p => g (vals p))) acc' c = (slices.foldl (setCell kernel vals) acc c).map h := by
    induction slices with
    | nil => intro acc acc' e; exact e c
    | cons s t ih =>
      intro acc acc' e
      rw [List.foldl_cons, List.foldl_cons]
      refine ih _ _ (fun c => ?_)
      unfold setCell
      have e1 : s.2.map (fun p => g (vals p)) = (s.2.map vals).map g := by rw [List.map_map]; rfl
      rw [e1, hk]
      cases kernel (s.2.map vals) with
      | none => exact e c
      | some v =>
        simp only [Option.map_some]
        split
        · rfl
        · exact e c
  exact this _ _ (fun _ => rfl)

/-- **C202**. Aggregating data in changed units gives every cell in the changed units. -/
theorem c202_aggregate (a b : ℚ) (ha : 0 < a) (k : Colloc.Kernel) (hs : k = .sum → b = 0) (cols : List Col) (masked : Nat → Bool)
    (vals : Nat → ℚ) (order : List Nat) :
    aggregate (BinCmd.stat k) cols masked (fun p => a * vals p + b) order =
      (aggregate (BinCmd.stat k) cols masked vals order).map (fun out cell => Spec.converted k a b (out cell)) := by
  unfold aggregate
  rw [Option.map_map]
  congr 1
  funext slices
  funext c
  exact setCell_affine (BinCmd.stat k) (fun x => a * x + b) _ (stat_affine a b ha k hs) vals slices c

/-- **C202**. Collocating data in changed units onto a grid with `bin` gives every cell in the changed units. -/
theorem c202_bin {K : Type} [LinearOrder K] (a b : ℚ) (ha : 0 < a) (k : Colloc.Kernel) (hs : k = .sum → b = 0) (ds : List (Dim K))
    (masked : Nat → Bool) (vals : Nat → ℚ) (order : List Nat) (sampleMissing : List Nat → Bool) :
    binOnto (BinCmd.stat k) ds masked (fun p => a * vals p + b) order sampleMissing =
      (binOnto (BinCmd.stat k) ds masked vals order sampleMissing).map (fun out cell => Spec.converted k a b (out cell)) := by
  unfold binOnto
  rw [Option.map_map]
  congr 1
  funext slices
  funext c
  exact setCell_affine (BinCmd.stat k) (fun x => a * x + b) _ (stat_affine a b ha k hs) vals _ c

/-- Temperatures from Celsius to Fahrenheit: the cell of the two values 10 and 20 has the maximum 68. -/
example : BinCmd.stat .max ([10, 20].map (fun x : ℚ => 9 / 5 * x + 32)) = some [some 68] ∧
    Spec.converted .max (9 / 5) 32 (BinCmd.stat .max [10, 20]) = some [some 68] := by
  rw [← stat_affine (9 / 5) 32 (by norm_num) .max (by simp)]
  constructor <;> · simp [BinCmd.stat, Colloc.getValue, Colloc.npMax]; norm_num

end Cis.Agg
