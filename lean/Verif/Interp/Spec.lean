import Mathlib.Algebra.Order.Field.Basic
import Mathlib.Algebra.Order.Group.Abs
import Verif.Interp.Model
/-! Specification of interpolation on a rectilinear grid. A node of an axis is a coordinate with the index of the data. -/
namespace Cis.Interp.Spec
variable {K : Type} [Field K] [LinearOrder K]

/-- Multilinear combination: in each dimension two data indices and the weight of the second. -/
def multilinear : List (Nat × Nat × K) → (List Nat → K) → K
  | [], f => f []
  | (k0, k1, y) :: t, f =>
    (1 - y) * multilinear t (fun idx => f (k0 :: idx)) + y * multilinear t (fun idx => f (k1 :: idx))

/-- `a` is a node with no node strictly between it and the point. -/
def Adjacent (nodes : List (K × Nat)) (x : K) (a : K × Nat) : Prop :=
  a ∈ nodes ∧ ∀ b ∈ nodes, ¬ (a.1 < b.1 ∧ b.1 < x) ∧ ¬ (x < b.1 ∧ b.1 < a.1)

/-- `a` is a node nearest to the point, the one with the lesser coordinate if there are two. -/
def Nearest (nodes : List (K × Nat)) (x : K) (a : K × Nat) : Prop :=
  a ∈ nodes ∧ ∀ b ∈ nodes, |x - a.1| ≤ |x - b.1| ∧ (|x - b.1| = |x - a.1| → a.1 ≤ b.1)

/-- The point lies between the least and the greatest node. -/
def InRange (nodes : List (K × Nat)) (x : K) : Prop := (∃ a ∈ nodes, a.1 ≤ x) ∧ ∃ b ∈ nodes, x ≤ b.1

/-- The nodes of an axis: its points with their indices; a circular axis has its first point once more, one period later. -/
def nodes (a : Axis K) : List (K × Nat) :=
  a.points.zipIdx ++ match a.circular, a.points with
    | some m, p :: _ => [(p + m, 0)]
    | _, _ => []

/-- An ascending axis (for a circular one: including the repeated first point). -/
def Ascending (a : Axis K) : Prop := ((nodes a).map Prod.fst).Pairwise (· < ·)

end Cis.Interp.Spec
