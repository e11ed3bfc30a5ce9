import Verif.Ungridded.Model
/-! Which points are to remain. -/
namespace Cis.Ungridded.Spec
open Cis.Coords
variable {K V : Type}

/-- The value of the coordinate at point `i` is a number (or, in an `object` array, a NaN, which the code cannot test). -/
def ValidAt (c : Coord (Vals K)) (i : Nat) : Prop :=
  ∃ x, c.payload.cells[i]? = some x ∧ x ≠ .masked ∧ (x = .nan → c.payload.object = true)

open Classical in
/-- The indices of the points all of whose coordinates are valid, in order. -/
noncomputable def kept (n : Nat) (coords : List (Coord (Vals K))) : List Nat :=
  (List.range n).filter (fun i => decide (∀ c ∈ coords, ValidAt c i))

/-- The values at given indices. -/
def select {β : Type} (idx : List Nat) (x : List β) : List β := idx.filterMap (x[·]?)

end Cis.Ungridded.Spec
