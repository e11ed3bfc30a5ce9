import Verif.DataIndex.Model
/-! Specification of binning by grid cell (C04, C05). -/
namespace Cis.DataIndex.Spec
variable {K : Type} [LinearOrder K]

/-- `v` lies in cell `i` of the coordinate: lower bound inclusive, upper bound exclusive. -/
def InInterval (c : Coord K) (i : Nat) (v : K) : Prop :=
  ∃ b, c.bounds[i]? = some b ∧ min b.1 b.2 ≤ v ∧ v < max b.1 b.2

/-- Point `p` lies in the cell with index vector `idx`. -/
def InCell (dims : List (Dim K)) (idx : List Nat) (p : Nat) : Prop :=
  List.Forall₂ (fun d i => InInterval d.1 i (d.2 p)) dims idx

/-- A monotonic coordinate with non-empty cells that do not overlap; cells run in the direction of the points. -/
structure Monotonic (c : Coord K) : Prop where
  size : c.points.length = c.bounds.length
  pos : 0 < c.bounds.length
  inc : c.decreasing = false → (∀ b ∈ c.bounds, b.1 < b.2) ∧ c.bounds.Pairwise (fun a b => a.2 ≤ b.1)
  dec : c.decreasing = true → (∀ b ∈ c.bounds, b.2 < b.1) ∧ c.bounds.Pairwise (fun a b => b.1 ≤ a.2)

/-- Each cell begins where the previous one ends. -/
def Contiguous (c : Coord K) : Prop := ∀ i a b, c.bounds[i]? = some a → c.bounds[i + 1]? = some b → a.2 = b.1

/-- The order returned by a sort: a permutation of the point numbers along which the key does not decrease. -/
def Sorts (n : Nat) (key : Nat → Int) (order : List Nat) : Prop :=
  order.Perm (List.range n) ∧ (order.map key).Pairwise (· ≤ ·)

/-- Correct partition into slices: each slice holds, without repetition, exactly the unmasked points of the cell whose index
it carries, is not empty, no index occurs twice, and each cell holding an unmasked point has a slice. -/
structure Partition (n : Nat) (masked : Nat → Bool) (inCell : List Nat → Nat → Prop)
    (slices : List (List Int × List Nat)) : Prop where
  sound : ∀ s ∈ slices, ∃ idx : List Nat, s.1 = idx.map Int.ofNat ∧ s.2 ≠ [] ∧ s.2.Nodup ∧
    ∀ p, p ∈ s.2 ↔ p < n ∧ masked p = false ∧ inCell idx p
  distinct : (slices.map Prod.fst).Nodup
  complete : ∀ p < n, masked p = false → ∀ idx, inCell idx p → ∃ s ∈ slices, s.1 = idx.map Int.ofNat

end Cis.DataIndex.Spec
