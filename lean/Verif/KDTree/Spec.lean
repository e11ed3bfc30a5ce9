import Verif.KDTree.Model
import Mathlib.Analysis.SpecialFunctions.Pow.Real
/-!
Specification for the k-d tree properties (C06-C12): textbook notions only.
-/
namespace Cis.KDTree.Spec

/-- A Minkowski exponent. -/
inductive Exponent where
  | infinity
  | finite (p : ℝ)

/-- The exponents the API permits ("Only p-norms with 1<=p<=infinity permitted"). -/
def Exponent.Ok : Exponent → Prop
  | .infinity => True
  | .finite p => 1 ≤ p

/-- The Minkowski distance. -/
noncomputable def dist {m : Nat} (e : Exponent) (x y : Fin m → ℝ) : ℝ :=
  match e with
  | .infinity => ⨆ i, |x i - y i|
  | .finite p => (∑ i, |x i - y i| ^ p) ^ (1 / p)

/-- Every leaf reached from a node whose box is `[lo, hi]` holds only points of its own box, the box being cut at each
split on the way down. -/
def InCells {K : Type} [LE K] {m : Nat} (data : Nat → Fin m → K) :
    Tree m K → (lo hi : Fin m → K) → Prop
  | .leaf idx, lo, hi => ∀ i ∈ idx, ∀ d, lo d ≤ data i d ∧ data i d ≤ hi d
  | .inner d s l g, lo, hi => InCells data l lo (Function.update hi d s) ∧ InCells data g (Function.update lo d s) hi

/-- `s` is a node of `t`. -/
inductive IsNode {K : Type} {m : Nat} (s : Tree m K) : Tree m K → Prop
  | here : IsNode s s
  | less {d c l g} : IsNode s l → IsNode s (.inner d c l g)
  | greater {d c l g} : IsNode s g → IsNode s (.inner d c l g)

/-- Number of indices in the leaves below a node. -/
def leafTotal {K : Type} {m : Nat} : Tree m K → Nat
  | .leaf idx => idx.length
  | .inner _ _ l g => leafTotal l + leafTotal g

end Cis.KDTree.Spec
