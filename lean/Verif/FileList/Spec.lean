import Verif.FileList.Model
/- Specification for C02. -/
namespace Cis.FileList.Spec
open Cis.FileList

/-- The four characters that make an element a pattern. -/
def IsPattern (e : Str) : Prop := '*' ∈ e ∨ '?' ∈ e ∨ ']' ∈ e ∨ '}' ∈ e

/-- `xs` is the sorted arrangement of `ys`. -/
def SortedOf (xs ys : List Str) : Prop := xs.Pairwise (· ≤ ·) ∧ xs.Perm ys

/-- `xs` is the list of files that element `e` stands for. -/
inductive Expands (fs : FS) (e : Str) : List Str → Prop
  | pattern (xs) : IsPattern e → SortedOf xs (fs.glob e) → Expands fs e xs
  | dir (ns) : ¬ IsPattern e → fs.isdir e = true → SortedOf ns (fs.listdir e) →
      Expands fs e ((ns.map (fs.join e)).filter (fs.isfile ·))
  | file : ¬ IsPattern e → fs.isdir e = false → fs.isfile e = true → Expands fs e [e]

/-- An element that stands for nothing: not a pattern, a directory or a file. -/
def Invalid (fs : FS) (e : Str) : Prop := ¬ IsPattern e ∧ fs.isdir e = false ∧ fs.isfile e = false

/-- `l` lists the distinct elements of `all` in order of first occurrence. -/
def FirstOccurrences (l all : List Str) : Prop :=
  l.Nodup ∧ (∀ x, x ∈ l ↔ x ∈ all) ∧ l.Pairwise (fun a b => all.idxOf a < all.idxOf b)

/-- The elements of an argument: a list as given; a string cut at its commas. -/
def Elements : Arg → List Str → Prop
  | .list l, es => es = l
  | .str s, es => es ≠ [] ∧ (∀ e ∈ es, ',' ∉ e) ∧ List.intercalate [','] es = s

end Cis.FileList.Spec
