import Mathlib.Data.List.Basic
import Mathlib.Tactic.Basic
/-!
Model of lists of data objects (`CommonDataList`, data_io/common_data.py:226-330) and of the history attribute.
-/
namespace Cis.DataList

/-- A coordinate: the shape and the values of its points. -/
structure Crd (K : Type) where
  shape : List Nat
  points : List K
  deriving DecidableEq

/-- What may be appended: `gridded` is its attribute `is_gridded` (`none` if it has none). -/
structure Obj (K : Type) where
  gridded : Option Bool
  coords : List (Crd K)
  deriving DecidableEq

inductive Err
  | typeError
  | valueError
  deriving DecidableEq

variable {K : Type}

/-- `any([(a != b) for a, b in zip(s, t)])` (common_data.py:291). -/
def shapesClash (s t : List Nat) : Bool := (s.zip t).any (fun ab => ab.1 != ab.2)

/-- `CommonDataList.append` (common_data.py:268-298) on a list whose `is_gridded` is `kind`. -/
def append (kind : Bool) (l : List (Obj K)) (x : Obj K) : Except Err (List (Obj K)) :=
  if x.gridded ≠ some kind then .error .typeError
  else match l with
    | [] => .ok [x]
    | y :: _ =>
      if y.coords.length ≠ x.coords.length then .error .valueError
      else if (y.coords.zip x.coords).any (fun c => shapesClash c.1.shape c.2.shape) then .error .valueError
      else .ok (l ++ [x])

/-- `extend` (common_data.py:300-303): the list as it is afterwards, and the error raised, if any. -/
def extend (kind : Bool) (l : List (Obj K)) : List (Obj K) → List (Obj K) × Option Err
  | [] => (l, none)
  | x :: xs => match append kind l x with
    | .ok l' => extend kind l' xs
    | .error e => (l, some e)

/-- An operation: `append` of an object, or `extend` by several (`append_or_extend`, common_data.py:305-313). -/
inductive Op (K : Type)
  | append (x : Obj K)
  | extend (xs : List (Obj K))

/-- The list after an operation, which may have failed. -/
def step (kind : Bool) (l : List (Obj K)) : Op K → List (Obj K)
  | .append x => match append kind l x with
    | .ok l' => l'
    | .error _ => l
  | .extend xs => (extend kind l xs).1

/-- The list after a history of operations, starting empty (`__init__`, common_data.py:234-236, is an `extend`). -/
def run (kind : Bool) (ops : List (Op K)) : List (Obj K) := ops.foldl (step kind) []

/-! ### History -/

/-- `LazyData.add_history` (ungridded_data.py:345-356); `none`: no attribute `history`. `stamp` is the time stamp. -/
def addHistoryU (h : Option (List Char)) (stamp new : List Char) : Option (List Char) :=
  match h with
  | none => some (stamp ++ new)
  | some h => if 0 < h.length then some (h ++ '\n' :: (stamp ++ new)) else some (stamp ++ new)

/-- `GriddedData.add_history` (gridded_data.py:170-180). -/
def addHistoryG (h : Option (List Char)) (stamp new : List Char) : Option (List Char) :=
  match h with
  | none => some (stamp ++ new)
  | some h => some (h ++ '\n' :: (stamp ++ new))

/-- `CommonDataList.add_history` (common_data.py:349-356): every object of the list (no two sharing their metadata). -/
def addHistoryL (hs : List (Option (List Char))) (stamp new : List Char) : List (Option (List Char)) :=
  hs.map (fun h => addHistoryU h stamp new)

end Cis.DataList
