import Verif.Coords.Model
/-! What is asked of coordinate lists. -/
namespace Cis.Coords.Spec
variable {V : Type}

/-- A proper standard name: there is one and it is not empty. -/
def HasStd (c : Coord V) (n : String) : Prop := c.stdName = some n ∧ n ≠ ""

/-- The coordinate meets all criteria given. -/
structure Matches (c : Criteria V) (x : Coord V) : Prop where
  name : ∀ n, c.sel = .byName n → name x = some n
  coord : ∀ o, c.sel = .byCoord o → x.stdName = o.stdName ∧ x.stdName ≠ some ""
  std : ∀ n, c.stdName = some n → x.stdName = some n
  long : ∀ n, c.longName = some n → x.longName = some n
  axis : ∀ a, c.axis = some a → x.axis = a.toUpper
  var : ∀ n, c.varName = some n → x.varName = some n
  attrs : ∀ a, c.attributes = some a → ∀ kv ∈ a, kv ∈ x.attrs

/-- No two coordinates share a proper standard name. -/
def Unique (l : List (Coord V)) : Prop :=
  l.Pairwise (fun a b => ¬ ∃ n, HasStd a n ∧ HasStd b n)

end Cis.Coords.Spec
