import Verif.OrderedSet.Model
/-
Specification of an insertion-ordered set: a plain list without duplicates, oldest insertion first.
Independent of the linked-list representation; shares only the operation and output types with the model.
-/
namespace Cis.OrderedSet.Spec
variable {α : Type} [DecidableEq α]

/-- One operation on the abstract ordered set. -/
def step (l : List α) : Op α → List α × Out α
  | .add k => (if k ∈ l then l else l ++ [k], .none)
  | .discard k => (l.erase k, .none)
  | .pop true =>
    match l.getLast? with
    | none => (l, .keyError)
    | some k => (l.dropLast, .key k)
  | .pop false =>
    match l with
    | [] => ([], .keyError)
    | k :: t => (t, .key k)

/-- A history of operations on the abstract ordered set. -/
def run (l : List α) : List (Op α) → List α × List (Out α)
  | [] => (l, [])
  | op :: ops =>
    let (l1, o) := step l op
    let (l2, os) := run l1 ops
    (l2, o :: os)

end Cis.OrderedSet.Spec
