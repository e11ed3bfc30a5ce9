import Verif.Agg.Model
/-! Specification of aggregation. -/
namespace Cis.Agg.Spec
open Cis.Agg

/-- The upper end of cell `i` of a grid: the cells have width `d`, except that a single cell ends at `e`. -/
def cellEnd (s e d : ℚ) (i : Nat) : ℚ := if e ≤ s + d then e else s + ((i : ℚ) + 1) * d

/-- A coordinate value lies in cell `i`: the cell begins before the end of the requested range; lower end inclusive, upper
end exclusive. Without a grid there is one cell for all values. -/
def inInterval (r : Req) (i : Nat) (x : ℚ) : Bool :=
  match r with
  | none => decide (i = 0)
  | some (s, e, d) => decide (s + (i : ℚ) * d < e) && decide (s + (i : ℚ) * d ≤ x) && decide (x < cellEnd s e d i)

/-- Point `p` lies in the cell. -/
def inCell : List Col → List Nat → Nat → Bool
  | [], [], _ => true
  | c :: t, i :: idx, p => inInterval c.req i (c.val p) && inCell t idx p
  | _, _, _ => false

/-- The request makes sense. -/
def Req.Ok : Req → Prop
  | none => True
  | some (s, e, d) => s < e ∧ 0 < d

/-- The number of cells along a coordinate: the smallest number of steps that reach the end. -/
def IsCount (r : Req) (n : Nat) : Prop :=
  match r with
  | none => n = 1
  | some (s, e, d) => 0 < n ∧ e ≤ s + (n : ℚ) * d ∧ s + ((n : ℚ) - 1) * d < e

/-- The point lies in the grid. -/
def inGrid (cols : List Col) (p : Nat) : Prop := ∃ cell, inCell cols cell p = true

/-- All unmasked points in the cell, in order. -/
def points (cols : List Col) (masked : Nat → Bool) (n : Nat) (cell : List Nat) : List Nat :=
  (List.range n).filter (fun p => !masked p && inCell cols cell p)

/-- Kernels do not depend on the order and refuse no values. -/
structure Kernel {β : Type} (k : List ℚ → Option β) : Prop where
  perm : ∀ a b, a.Perm b → k a = k b
  empty : k [] = none

end Cis.Agg.Spec
