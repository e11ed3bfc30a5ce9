import Verif.KDTree.PNorm
import Mathlib.Order.WithBot
import Mathlib.Data.List.Sort
set_option linter.unusedSectionVars false
set_option linter.unusedSimpArgs false
/-
Model of the nearest neighbour search (kdtree.py:570-646, 691-787), for eps = 0 (so `epsfac == 1`).
-/
namespace Cis.KDTree
variable {K : Type} [Field K] [LinearOrder K] [IsStrictOrderedRing K] {m : Nat}

/-- An entry of the queue of cells: minimum distance, distances along the sides, node (kdtree.py:585-587). -/
structure Entry (m : Nat) (K : Type) where
  md : K
  sd : Pt m K
  node : Tree m K

/-- `heappop(q)`: the queue is a multiset of entries. Tuples with equal `min_distance` are ordered by the remaining
components, which is left open. `none` means the queue is empty. -/
abbrev Pop (m : Nat) (K : Type) := List (Entry m K) → Option (Entry m K × List (Entry m K))

/-- What heapq guarantees: an entry whose first component is minimal is removed. -/
def PopOK (pop : Pop m K) : Prop :=
  pop [] = none ∧ ∀ q, q ≠ [] → ∃ e rest, pop q = some (e, rest) ∧ q.Perm (e :: rest) ∧ ∀ e' ∈ rest, e.md ≤ e'.md

/-- Order of the tuples `(-distance**p, i)` of the heap of neighbours. -/
def lexLE (a b : K × Nat) : Prop := a.1 < b.1 ∨ (a.1 = b.1 ∧ a.2 ≤ b.2)

instance (a b : K × Nat) : Decidable (lexLE a b) := by unfold lexLE; infer_instance

/-- Neighbours found so far and the current `distance_upper_bound`. The heap of tuples `(-d, i)` is kept as the sorted
list of its elements: `heap[0]` is the head, `heappop` drops the head, `heappush` inserts. -/
structure QState (K : Type) where
  nbrs : List (K × Nat)
  ub : WithTop K

/-- Body of the loop over the points of a leaf (kdtree.py:610-616). -/
def offer (k : Option Nat) (st : QState K) (d : K) (i : Nat) : QState K :=
  if (d : WithTop K) < st.ub then
    let nb := if some st.nbrs.length = k then st.nbrs.tail else st.nbrs
    let nb' := nb.orderedInsert lexLE (-d, i)
    if some nb'.length = k then
      match nb' with
      | [] => { nbrs := nb', ub := st.ub }     -- impossible: an element was just inserted
      | h :: _ => { nbrs := nb', ub := ((-h.1 : K) : WithTop K) }
    else { nbrs := nb', ub := st.ub }
  else st

/-- The entry of the far child (kdtree.py:633-641). -/
def farEntry (P : PNorm K) (x : Pt m K) (e : Entry m K) (d : Fin m) (s : K) (far : Tree m K) : Entry m K :=
  match P with
  | .inf => { md := max e.md |s - x d|, sd := e.sd, node := far }
  | .fin pow _ => { md := e.md - e.sd d + pow |s - x d|, sd := Function.update e.sd d (pow |s - x d|), node := far }

/-- The main loop (kdtree.py:603-644); the first argument is a bound on the number of iterations. -/
def queryLoop (P : PNorm K) (data : Nat → Pt m K) (x : Pt m K) (k : Option Nat) (pop : Pop m K) :
    Nat → List (Entry m K) → QState K → Option (QState K)
  | 0, _, _ => none
  | fuel + 1, q, st =>
    match pop q with
    | none => some st
    | some (e, rest) =>
      match e.node with
      | .leaf idx =>
        queryLoop P data x k pop fuel rest (idx.foldl (fun st i => offer k st (P.distP (data i) x) i) st)
      | .inner d s l g =>
        if st.ub < (e.md : WithTop K) then some st
        else
          let near := if x d < s then l else g
          let far := if x d < s then g else l
          let q1 := { md := e.md, sd := e.sd, node := near } :: rest
          let fe := farEntry P x e d s far
          queryLoop P data x k pop fuel (if (fe.md : WithTop K) ≤ st.ub then fe :: q1 else q1) st

/-- `side_distances` and `min_distance` of the root (kdtree.py:572-577). -/
def rootEntry (T : KD m K) (P : PNorm K) (x : Pt m K) : Entry m K :=
  let side : Pt m K := fun i => max 0 (max (x i - T.maxes i) (T.mins i - x i))
  match P with
  | .inf => { md := (List.finRange m).foldl (fun a i => max a (side i)) 0, sd := side, node := T.tree }
  | .fin pow _ => { md := ∑ i, pow (side i), sd := fun i => pow (side i), node := T.tree }

/-- Number of nodes. -/
def Tree.size : Tree m K → Nat
  | .leaf _ => 1
  | .inner _ _ l g => 1 + l.size + g.size

/-- `distance_upper_bound ** p` unless infinite (kdtree.py:600-601). -/
def powBound (P : PNorm K) (b : WithTop K) : WithTop K :=
  match P with
  | .inf => b
  | .fin pow _ => b.map pow

/-- `_query` (kdtree.py:570-646). `none` would mean that the loop did not end within `fuel` iterations. -/
def KD.query' (T : KD m K) (P : PNorm K) (pop : Pop m K) (x : Pt m K) (k : Option Nat) (bound : WithTop K)
    (fuel : Nat) : Option (List (K × Nat)) :=
  match queryLoop P T.data x k pop fuel [rootEntry T P x] { nbrs := [], ub := powBound P bound } with
  | none => none
  | some st => some ((st.nbrs.map (fun e => (P.root (-e.1), e.2))).insertionSort lexLE)

/-- `query` for one point and `k ≥ 1` (kdtree.py:769-785): the arrays padded with infinity and `n`
(for `k == 1` the code returns the only element of these arrays). -/
def KD.query (T : KD m K) (P : PNorm K) (pop : Pop m K) (x : Pt m K) (k : Nat) (bound : WithTop K)
    (fuel : Nat) : Option (List (WithTop K) × List Nat) :=
  match T.query' P pop x (some k) bound fuel with
  | none => none
  | some hits =>
    some ((List.range k).map (fun j => match hits[j]? with | some h => (h.1 : WithTop K) | none => ⊤),
          (List.range k).map (fun j => match hits[j]? with | some h => h.2 | none => T.n))

/-- `distance_matrix` (kdtree.py:1349-1394) for `M` rows `x` and `N` rows `y`: the whole table at once, or row by row, or
column by column, into a buffer initially filled with `junk` (`np.empty`). -/
def distanceMatrix (P : PNorm K) (M N : Nat) (x y : Nat → Pt m K) (threshold : Nat) (junk : Nat → Nat → K) : Nat → Nat → K :=
  if M * N * m ≤ threshold then fun i j => P.dist (x i) (y j)
  else if M < N then
    (List.range M).foldl (fun res i => fun a b => if a = i then P.dist (x i) (y b) else res a b) junk
  else
    (List.range N).foldl (fun res j => fun a b => if b = j then P.dist (x a) (y j) else res a b) junk

end Cis.KDTree
