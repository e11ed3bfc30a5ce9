import Mathlib.Data.List.Forall2
/- Specification for C03 and users: valid multi-indices of a shape and their row-major position. -/
namespace Cis.IndexIter.Spec

/-- One index per dimension, each within its length. -/
def Valid (shape idx : List Nat) : Prop := List.Forall₂ (fun i d => i < d) idx shape

/-- Number of cells of a grid. -/
def cells (shape : List Nat) : Nat := shape.prod

/-- Row-major (C order) position: the first index is the most significant. -/
def position : List Nat → List Nat → Nat
  | _ :: ds, i :: is => i * cells ds + position ds is
  | _, _ => 0

end Cis.IndexIter.Spec
