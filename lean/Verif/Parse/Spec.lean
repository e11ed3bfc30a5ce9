import Verif.Parse.Model
/-!
Specification vocabulary for the command line parsing (C29–C33), independent of the parsing functions.
-/
namespace Cis.Parse
open Cis.Str

/-- A field written with its colons escaped by a backslash. -/
def escape (f : Str) : Str := f.flatMap (fun c => if c = ':' then ['\\', ':'] else [c])

/-- The closing brackets still expected after reading a string, innermost first: an opening bracket adds its closing bracket,
the innermost expected closing bracket removes itself, every other character is plain. -/
def expected (close : Char → Option Char) (s : Str) : List Char :=
  s.foldl (fun st c => match close c with
    | some b => b :: st
    | none => if st.head? = some c then st.tail else st) []

/-- The character at position `i` is a separator outside of all brackets. -/
def OutsideSep (seps : List Char) (close : Char → Option Char) (s : Str) (i : Nat) : Prop :=
  ∃ c, s[i]? = some c ∧ c ∈ seps ∧ close c = none ∧ expected close (s.take i) = []

/-- Glue pieces with the separators between them. -/
def weave : List Str → List Char → Str
  | [], _ => []
  | f :: fs, [] => f ++ weave fs []
  | f :: fs, c :: cs => f ++ c :: weave fs cs

/-- The positions of the separators in the string glued from the pieces. -/
def cutPositions : List Str → List Nat
  | [] => []
  | [_] => []
  | f :: g :: fs => f.length :: (cutPositions (g :: fs)).map (· + (f.length + 1))

/-- Without the last piece if that is empty. -/
def dropEmptyLast (l : List Str) : List Str := if l.getLast? = some [] then l.dropLast else l

/-- An entry `name` or `name=alias`, both not empty and without '='; the variable and the alias it denotes. -/
inductive Entry : Str → Str → Str → Prop
  | plain (v : Str) : v ≠ [] → '=' ∉ v → Entry v v v
  | aliased (v a : Str) : v ≠ [] → '=' ∉ v → a ≠ [] → '=' ∉ a → Entry (v ++ '=' :: a) v a

end Cis.Parse
