/-
Model of cis.utils.OrderedSet (cis/utils.py:322-381): a set backed by a cyclic doubly linked list with a
sentinel, plus a dictionary from key to list node.

Python lists used as nodes `[key, prev, next]` are mutable, aliased objects, so the model has an explicit heap:
addresses are natural numbers, address 0 is the sentinel `self.end`, `fresh` is the next unused address.
Simplification: Python's `dict` is an association list with unique keys (hash order is irrelevant, `dict` is
used only through `in`, `[]=`, `pop` and `len`); keys have decidable equality.
-/
namespace Cis.OrderedSet

/-- A linked-list cell `[key, prev, next]` (utils.py:329,344). The sentinel's key is `None`. -/
structure Node (α : Type) where
  key : Option α
  prev : Nat
  next : Nat

/-- The heap of cells. -/
abbrev Heap (α : Type) := Nat → Node α

/-- State of an `OrderedSet` object: `self.end` is address 0 and `self.map` is `map` (utils.py:327-330). -/
structure St (α : Type) where
  heap : Heap α
  fresh : Nat
  map : List (α × Nat)

variable {α : Type} [DecidableEq α]

/-- `curr[2] = v` : assign the `next` slot of the cell at `a`. -/
def setNext (h : Heap α) (a v : Nat) : Heap α :=
  fun x => if x = a then { h x with next := v } else h x

/-- `curr[1] = v` : assign the `prev` slot of the cell at `a`. -/
def setPrev (h : Heap α) (a v : Nat) : Heap α :=
  fun x => if x = a then { h x with prev := v } else h x

/-- Allocation of a new cell. -/
def alloc (h : Heap α) (a : Nat) (n : Node α) : Heap α :=
  fun x => if x = a then n else h x

/-- `OrderedSet()` (utils.py:327-332, without `iterable`; `self |= iterable` is a sequence of `add`s). -/
def init : St α :=
  { heap := fun _ => { key := none, prev := 0, next := 0 }, fresh := 1, map := [] }

/-- `self.map.get(key)`. -/
def lookup (m : List (α × Nat)) (k : α) : Option Nat :=
  match m with
  | [] => none
  | (k', a) :: t => if k' = k then some a else lookup t k

/-- `__contains__` (utils.py:337-338). -/
def contains (s : St α) (k : α) : Bool := (lookup s.map k).isSome

/-- `__len__` (utils.py:334-335). -/
def len (s : St α) : Nat := s.map.length

/-- `add` (utils.py:340-344). The chained assignment creates the new cell and then assigns, left to right,
`curr[2]`, `end[1]` and `self.map[key]`. -/
def add (s : St α) (k : α) : St α :=
  if contains s k then s
  else
    let curr := (s.heap 0).prev
    let new := s.fresh
    let h0 := alloc s.heap new { key := some k, prev := curr, next := 0 }
    let h1 := setNext h0 curr new
    let h2 := setPrev h1 0 new
    { heap := h2, fresh := s.fresh + 1, map := s.map ++ [(k, new)] }

/-- `discard` (utils.py:346-350). -/
def discard (s : St α) (k : α) : St α :=
  match lookup s.map k with
  | none => s
  | some a =>
    let prev := (s.heap a).prev
    let next := (s.heap a).next
    let h1 := setNext s.heap prev next
    let h2 := setPrev h1 next prev
    { heap := h2, fresh := s.fresh, map := s.map.filter (fun p => p.1 ≠ k) }

/-- The loop of `__iter__` (utils.py:352-357): walk `next` links until back at the sentinel.
`none` means that the fuel ran out (the loop would still be running) or that a keyless cell was reached. -/
def walkNext (h : Heap α) : Nat → Nat → Option (List α)
  | 0, _ => none
  | fuel + 1, curr =>
    if curr = 0 then some []
    else match (h curr).key with
      | none => none
      | some k => (walkNext h fuel (h curr).next).map (k :: ·)

/-- The loop of `__reversed__` (utils.py:359-364). -/
def walkPrev (h : Heap α) : Nat → Nat → Option (List α)
  | 0, _ => none
  | fuel + 1, curr =>
    if curr = 0 then some []
    else match (h curr).key with
      | none => none
      | some k => (walkPrev h fuel (h curr).prev).map (k :: ·)

/-- `__iter__` (utils.py:352-357). Fuel: one step per allocated cell. -/
def iter (s : St α) : Option (List α) := walkNext s.heap s.fresh (s.heap 0).next

/-- `__reversed__` (utils.py:359-364). -/
def reversed (s : St α) : Option (List α) := walkPrev s.heap s.fresh (s.heap 0).prev

/-- Result of an operation as seen by the caller. -/
inductive Out (α : Type) where
  | none
  | key (k : α)
  | keyError
  | noneKey        -- `pop` would return the sentinel's `None` key
deriving DecidableEq

/-- `pop` (utils.py:366-371). `not self` uses `__len__`. -/
def pop (s : St α) (last : Bool) : St α × Out α :=
  if len s = 0 then (s, .keyError)
  else
    let a := if last then (s.heap 0).prev else (s.heap 0).next
    match (s.heap a).key with
    | none => (s, .noneKey)
    | some k => (discard s k, .key k)

/-- The mutating operations offered to a caller. -/
inductive Op (α : Type) where
  | add (k : α)
  | discard (k : α)
  | pop (last : Bool)

/-- One operation. -/
def step (s : St α) : Op α → St α × Out α
  | .add k => (add s k, .none)
  | .discard k => (discard s k, .none)
  | .pop last => pop s last

/-- A history of operations, collecting outputs. -/
def run (s : St α) : List (Op α) → St α × List (Out α)
  | [] => (s, [])
  | op :: ops =>
    let (s1, o) := step s op
    let (s2, os) := run s1 ops
    (s2, o :: os)

/-- `__eq__` against another `OrderedSet` (utils.py:378-380): same length and same iteration order. -/
def eqOrdered (s t : St α) : Option Bool :=
  if len s = len t then
    match iter s, iter t with
    | some a, some b => some (decide (a = b))
    | _, _ => none
  else some false

/-- `__eq__` against any other iterable (utils.py:381): `set(self) == set(other)`. -/
def eqOther (s : St α) (other : List α) : Option Bool :=
  match iter s with
  | some a => some (a.all (fun x => decide (x ∈ other)) && other.all (fun x => decide (x ∈ a)))
  | none => none

end Cis.OrderedSet
