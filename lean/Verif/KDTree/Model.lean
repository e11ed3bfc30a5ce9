import Mathlib.Algebra.Order.Field.Basic
import Mathlib.Algebra.Order.Group.Abs
import Mathlib.Data.List.FinRange
import Mathlib.Data.Fin.Basic
/-
Model of the Euclidean k-d tree of cis/collocation/kdtree.py (lines 179-276, 423-1152).

Simplifications: coordinates are elements of an ordered field `K` (exact arithmetic; integer dtype truncation of
`lessmaxes[d] = split` is not modelled - these arrays only steer the choice of splits); a point is a function
`Fin m → K`; the data array is the function `data` restricted to indices `< n`; numpy index arrays are lists of naturals;
exceptions are `Except` values; the Minkowski norm is a parameter `Metric` (instances for every `p` are in Minkowski.lean).
-/
namespace Cis.KDTree

variable {K : Type} [Field K] [LinearOrder K] [IsStrictOrderedRing K] {m : Nat}

/-- A point of the `m`-dimensional space. -/
abbrev Pt (m : Nat) (K : Type) := Fin m → K

/-- `minkowski_distance(0, v, p)` as a function of `v ≥ 0` for a fixed `p` (kdtree.py:25-80); the only property used is
that it is monotone in each component. -/
structure Metric (m : Nat) (K : Type) [Field K] [LinearOrder K] where
  norm : Pt m K → K
  mono : ∀ u v : Pt m K, (∀ i, 0 ≤ u i) → (∀ i, u i ≤ v i) → norm u ≤ norm v

/-- `minkowski_distance(x, y, p)` (kdtree.py:57-80): it depends on `np.abs(y - x)` only (kdtree.py:49-54). -/
def Metric.dist (N : Metric m K) (x y : Pt m K) : K := N.norm (fun i => |y i - x i|)

/-- Hyperrectangle (kdtree.py:179-189). -/
structure Rect (m : Nat) (K : Type) where
  maxes : Pt m K
  mins : Pt m K

/-- `RectangleBase.__init__` (kdtree.py:185-189): the arguments are put in order. -/
def Rect.mk' (maxes mins : Pt m K) : Rect m K :=
  { maxes := fun i => max (maxes i) (mins i), mins := fun i => min (maxes i) (mins i) }

/-- `RectangleBase.split` (kdtree.py:198-218): first component `less`, second `greater`. -/
def Rect.split (R : Rect m K) (d : Fin m) (s : K) : Rect m K × Rect m K :=
  let midLess : Pt m K := Function.update R.maxes d s
  let less := Rect.mk' R.mins midLess
  let midGreater : Pt m K := Function.update R.mins d s
  let greater := Rect.mk' midGreater R.maxes
  (less, greater)

/-- `Rectangle.min_distance_point` (kdtree.py:225-239). -/
def minDistPoint (N : Metric m K) (R : Rect m K) (x : Pt m K) : K :=
  N.dist 0 (fun i => max 0 (max (R.mins i - x i) (x i - R.maxes i)))

/-- `Rectangle.max_distance_point` (kdtree.py:241-251). -/
def maxDistPoint (N : Metric m K) (R : Rect m K) (x : Pt m K) : K :=
  N.dist 0 (fun i => max (R.maxes i - x i) (x i - R.mins i))

/-- `Rectangle.min_distance_rectangle` (kdtree.py:253-263). -/
def minDistRect (N : Metric m K) (R S : Rect m K) : K :=
  N.dist 0 (fun i => max 0 (max (R.mins i - S.maxes i) (S.mins i - R.maxes i)))

/-- `Rectangle.max_distance_rectangle` (kdtree.py:265-275). -/
def maxDistRect (N : Metric m K) (R S : Rect m K) : K :=
  N.dist 0 (fun i => max (R.maxes i - S.mins i) (S.maxes i - R.mins i))

/-- Tree nodes (kdtree.py:498-509). -/
inductive Tree (m : Nat) (K : Type) where
  | leaf (idx : List Nat)
  | inner (d : Fin m) (split : K) (less greater : Tree m K)

/-- The `children` attribute (kdtree.py:501,509). -/
def Tree.children : Tree m K → Nat
  | .leaf idx => idx.length
  | .inner _ _ l g => l.children + g.children

/-- All indices stored below a node, leaves from left to right. Not a function of the code: used to state properties. -/
def Tree.indices : Tree m K → List Nat
  | .leaf idx => idx
  | .inner _ _ l g => l.indices ++ g.indices

/-- `np.argmax` over the components: first index attaining the maximum; `none` (ValueError) if there are no components. -/
def argmax (v : Pt m K) : Option (Fin m) :=
  match List.finRange m with
  | [] => none
  | i :: t => some (t.foldl (fun best j => if v best < v j then j else best) i)

/-- `np.amin` of a non-empty array, `none` (ValueError) if empty. -/
def amin : List K → Option K
  | [] => none
  | x :: t => some (t.foldl min x)

/-- `np.amax`. -/
def amax : List K → Option K
  | [] => none
  | x :: t => some (t.foldl max x)

/-- Errors raised by the constructor. -/
inductive Err where
  | leafsize      -- "leafsize must be at least 1" (kdtree.py:480)
  | zeroSize      -- numpy reduction of an empty array
  | troublesome   -- "Troublesome data array" (kdtree.py:556)
deriving DecidableEq

/-- The sliding midpoint rule (kdtree.py:542-552): returns the split value and the two index lists
(`idx[less_idx]`, `idx[greater_idx]`). -/
def slide (data : Nat → Pt m K) (d : Fin m) (idx : List Nat) (mid : K) : Option (K × List Nat × List Nat) :=
  let vals := idx.map (fun i => data i d)
  let less0 := idx.filter (fun i => decide (data i d ≤ mid))
  let greater0 := idx.filter (fun i => decide (mid < data i d))
  let step1 : Option (K × List Nat × List Nat) :=
    if less0.length = 0 then
      match amin vals with
      | none => none
      | some s => some (s, idx.filter (fun i => decide (data i d ≤ s)), idx.filter (fun i => decide (s < data i d)))
    else some (mid, less0, greater0)
  match step1 with
  | none => none
  | some (s1, less1, greater1) =>
    if greater1.length = 0 then
      match amax vals with
      | none => none
      | some s => some (s, idx.filter (fun i => decide (data i d < s)), idx.filter (fun i => decide (s ≤ data i d)))
    else some (s1, less1, greater1)

/-- Every value equals the first one: `np.all(data == data[0])` (kdtree.py:555). -/
def allEqualFirst (vals : List K) : Bool :=
  match vals with
  | [] => true
  | v :: t => t.all (fun w => decide (w = v))

theorem foldl_max_mem (x : K) (l : List K) : l.foldl max x ∈ x :: l := by
  induction l generalizing x with
  | nil => simp
  | cons y t ih =>
    simp only [List.foldl_cons]
    rcases List.mem_cons.1 (ih (max x y)) with h | h
    · rcases max_choice x y with h' | h'
      · rw [h, h']; simp
      · rw [h, h']; simp
    · simp [h]

theorem foldl_min_mem (x : K) (l : List K) : l.foldl min x ∈ x :: l := by
  induction l generalizing x with
  | nil => simp
  | cons y t ih =>
    simp only [List.foldl_cons]
    rcases List.mem_cons.1 (ih (min x y)) with h | h
    · rcases min_choice x y with h' | h'
      · rw [h, h']; simp
      · rw [h, h']; simp
    · simp [h]

theorem amax_mem {l : List K} {s : K} (h : amax l = some s) : s ∈ l := by
  cases l with
  | nil => simp [amax] at h
  | cons x t => simp only [amax, Option.some.injEq] at h; rw [← h]; exact foldl_max_mem x t

theorem amin_mem {l : List K} {s : K} (h : amin l = some s) : s ∈ l := by
  cases l with
  | nil => simp [amin] at h
  | cons x t => simp only [amin, Option.some.injEq] at h; rw [← h]; exact foldl_min_mem x t

theorem perm_filter_not (p q : Nat → Bool) (l : List Nat) (h : ∀ i ∈ l, q i = !p i) :
    (l.filter p ++ l.filter q).Perm l := by
  have : l.filter q = l.filter (fun i => !p i) := List.filter_congr h
  rw [this]; exact List.filter_append_perm p l

/-- What the sliding midpoint rule guarantees. -/
theorem slide_spec {data : Nat → Pt m K} {d : Fin m} {idx : List Nat} {mid s : K} {less greater : List Nat}
    (h : slide data d idx mid = some (s, less, greater)) :
    (less ++ greater).Perm idx ∧ (∀ i ∈ less, data i d ≤ s) ∧ (∀ i ∈ greater, s ≤ data i d) ∧ greater ≠ [] := by
  unfold slide at h
  simp only at h
  split at h
  · simp at h
  rename_i s1 less1 greater1 hstep
  split at h
  · split at h
    · simp at h
    · rename_i heq
      simp only [Option.some.injEq, Prod.mk.injEq] at h
      obtain ⟨rfl, rfl, rfl⟩ := h
      refine ⟨?_, ?_, ?_, ?_⟩
      · apply perm_filter_not; intro i _; simp [← decide_not]
      · intro i hi; simp at hi; exact le_of_lt hi.2
      · intro i hi; simp at hi; exact hi.2
      · have := amax_mem heq
        rw [List.mem_map] at this
        obtain ⟨i, hi, he⟩ := this
        apply List.ne_nil_of_mem (a := i)
        simp [hi, he]
  · rename_i hne
    simp only [Option.some.injEq, Prod.mk.injEq] at h
    obtain ⟨rfl, rfl, rfl⟩ := h
    have hne' : greater1 ≠ [] := fun h => hne (by simp [h])
    split at hstep
    · split at hstep
      · simp at hstep
      · simp only [Option.some.injEq, Prod.mk.injEq] at hstep
        obtain ⟨rfl, rfl, rfl⟩ := hstep
        refine ⟨?_, ?_, ?_, hne'⟩
        · apply perm_filter_not; intro i _; simp [← decide_not]
        · intro i hi; simp at hi; exact hi.2
        · intro i hi; simp at hi; exact le_of_lt hi.2
    · simp only [Option.some.injEq, Prod.mk.injEq] at hstep
      obtain ⟨rfl, rfl, rfl⟩ := hstep
      refine ⟨?_, ?_, ?_, hne'⟩
      · apply perm_filter_not; intro i _; simp [← decide_not]
      · intro i hi; simp at hi; exact hi.2
      · intro i hi; simp at hi; exact le_of_lt hi.2

/-- `KDTree._build` (kdtree.py:511-568). Terminates because both index lists passed down are strictly shorter. -/
def build (data : Nat → Pt m K) (leafsize : Nat) (idx : List Nat) (maxes mins : Pt m K) : Except Err (Tree m K) :=
  if idx.length ≤ leafsize then .ok (.leaf idx)
  else
    match argmax (fun i => maxes i - mins i) with
    | none => .error .zeroSize
    | some d =>
      if maxes d = mins d then .ok (.leaf idx)
      else
        match h : slide data d idx ((maxes d + mins d) / 2) with
        | none => .error .zeroSize
        | some (s, less, greater) =>
          if hl : less.length = 0 then
            if allEqualFirst (idx.map (fun i => data i d)) then .ok (.leaf idx) else .error .troublesome
          else
            have h1 : less.length < idx.length := by
              have hs := slide_spec h
              have := hs.1.length_eq
              have h2 : 0 < greater.length := List.length_pos_iff.2 hs.2.2.2
              simp at this; omega
            have h2 : greater.length < idx.length := by
              have hs := slide_spec h
              have := hs.1.length_eq
              simp at this; omega
            match build data leafsize less (Function.update maxes d s) mins,
                  build data leafsize greater maxes (Function.update mins d s) with
            | .ok l, .ok g => .ok (.inner d s l g)
            | .error e, _ => .error e
            | _, .error e => .error e
termination_by idx.length

/-- A `KDTree` object (kdtree.py:475-485). -/
structure KD (m : Nat) (K : Type) where
  n : Nat
  data : Nat → Pt m K
  leafsize : Nat
  maxes : Pt m K
  mins : Pt m K
  tree : Tree m K

/-- `np.amax(self.data, axis=0)` / `np.amin` for `n ≥ 1` rows. -/
def colMax (n : Nat) (data : Nat → Pt m K) : Pt m K :=
  fun d => (List.range n).foldl (fun a i => max a (data i d)) (data 0 d)
/-- See `colMax`. -/
def colMin (n : Nat) (data : Nat → Pt m K) : Pt m K :=
  fun d => (List.range n).foldl (fun a i => min a (data i d)) (data 0 d)

/-- `KDTree.__init__` (kdtree.py:475-485); `np.amax` of zero rows raises ValueError. -/
def mkTree (n : Nat) (data : Nat → Pt m K) (leafsize : Nat) : Except Err (KD m K) :=
  if leafsize < 1 then .error .leafsize
  else if n = 0 then .error .zeroSize
  else
    let maxes := colMax n data
    let mins := colMin n data
    match build data leafsize (List.range n) maxes mins with
    | .ok t => .ok { n := n, data := data, leafsize := leafsize, maxes := maxes, mins := mins, tree := t }
    | .error e => .error e

/-- `traverse_no_checking` of `_query_ball_point` (kdtree.py:804-809). -/
def collect : Tree m K → List Nat
  | .leaf idx => idx
  | .inner _ _ l g => collect l ++ collect g

/-- `traverse_checking` of `_query_ball_point` (kdtree.py:792-802). -/
def ballPoint (N : Metric m K) (data : Nat → Pt m K) (x : Pt m K) (r eps : K) : Tree m K → Rect m K → List Nat
  | t, R =>
    if minDistPoint N R x > r / (1 + eps) then []
    else if maxDistPoint N R x < r * (1 + eps) then collect t
    else match t with
      | .leaf idx => idx.filter (fun i => decide (N.dist (data i) x ≤ r))
      | .inner d s l g =>
        ballPoint N data x r eps l (R.split d s).1 ++ ballPoint N data x r eps g (R.split d s).2
termination_by structural t => t

/-- `query_ball_point` for one point (kdtree.py:789-811; the dimension check of line 849 is by typing). -/
def KD.queryBallPoint (T : KD m K) (N : Metric m K) (x : Pt m K) (r eps : K) : List Nat :=
  ballPoint N T.data x r eps T.tree (Rect.mk' T.maxes T.mins)

/-- The list of result lists, `results[i]` as a function of `i`. -/
abbrev Results := Nat → List Nat

/-- `results[i] += js`. -/
def Results.extend (res : Results) (i : Nat) (js : List Nat) : Results :=
  fun k => if k = i then res k ++ js else res k

/-- `traverse_no_checking` of `query_ball_tree` (kdtree.py:911-921). -/
def noCheckTree : Tree m K → Tree m K → Results → Results
  | .leaf i1, .leaf i2, res => i1.foldl (fun r i => r.extend i i2) res
  | .leaf i1, .inner _ _ l g, res => noCheckTree (.leaf i1) g (noCheckTree (.leaf i1) l res)
  | .inner _ _ l g, t2, res => noCheckTree g t2 (noCheckTree l t2 res)
termination_by t1 t2 => (sizeOf t1, sizeOf t2)

/-- `traverse_checking` of `query_ball_tree` (kdtree.py:885-909). -/
def checkTree (N : Metric m K) (data1 data2 : Nat → Pt m K) (r eps : K) :
    Tree m K → Rect m K → Tree m K → Rect m K → Results → Results
  | t1, R1, t2, R2, res =>
    if minDistRect N R1 R2 > r / (1 + eps) then res
    else if maxDistRect N R1 R2 < r * (1 + eps) then noCheckTree t1 t2 res
    else match t1, t2 with
      | .leaf i1, .leaf i2 =>
        i1.foldl (fun rs i => rs.extend i (i2.filter (fun j => decide (N.dist (data2 j) (data1 i) ≤ r)))) res
      | .leaf i1, .inner d s l g =>
        checkTree N data1 data2 r eps (.leaf i1) R1 g (R2.split d s).2
          (checkTree N data1 data2 r eps (.leaf i1) R1 l (R2.split d s).1 res)
      | .inner d s l g, .leaf i2 =>
        checkTree N data1 data2 r eps g (R1.split d s).2 (.leaf i2) R2
          (checkTree N data1 data2 r eps l (R1.split d s).1 (.leaf i2) R2 res)
      | .inner d1 s1 l1 g1, .inner d2 s2 l2 g2 =>
        checkTree N data1 data2 r eps g1 (R1.split d1 s1).2 g2 (R2.split d2 s2).2
          (checkTree N data1 data2 r eps g1 (R1.split d1 s1).2 l2 (R2.split d2 s2).1
            (checkTree N data1 data2 r eps l1 (R1.split d1 s1).1 g2 (R2.split d2 s2).2
              (checkTree N data1 data2 r eps l1 (R1.split d1 s1).1 l2 (R2.split d2 s2).1 res)))
termination_by t1 _ t2 => (sizeOf t1, sizeOf t2)

/-- `query_ball_tree` (kdtree.py:862-925). -/
def KD.queryBallTree (T O : KD m K) (N : Metric m K) (r eps : K) : Results :=
  checkTree N T.data O.data r eps T.tree (Rect.mk' T.maxes T.mins) O.tree (Rect.mk' O.maxes O.mins) (fun _ => [])

/-- A set of pairs, as the list of insertions (`results.add`). -/
abbrev Pairs := List (Nat × Nat)

/-- The four insertion loops of `query_pairs` for two leaves (kdtree.py:956-974, 998-1012): `same` is
`id(node1) == id(node2)`, `sel i` are the `j` of the second leaf considered for `i`. -/
def leafPairs (same : Bool) (i1 : List Nat) (sel : Nat → List Nat) (res : Pairs) : Pairs :=
  i1.foldl (fun res i => (sel i).foldl (fun res j =>
    if i < j then (i, j) :: res
    else if !same && decide (j < i) then (j, i) :: res
    else res) res) res

/-- `traverse_no_checking` of `query_pairs` (kdtree.py:994-1024). A node's identity is its path from the root, so
`id(node1) == id(node2)` is equality of the paths `a1`, `a2`. -/
def noCheckPairs : List Bool → Tree m K → List Bool → Tree m K → Pairs → Pairs
  | a1, .leaf i1, a2, .leaf i2, res => leafPairs (a1 == a2) i1 (fun _ => i2) res
  | a1, .leaf i1, a2, .inner _ _ l g, res =>
    noCheckPairs a1 (.leaf i1) (true :: a2) g (noCheckPairs a1 (.leaf i1) (false :: a2) l res)
  | a1, .inner d s l g, a2, t2, res =>
    if a1 = a2 then
      match t2 with
      | .inner _ _ l2 g2 =>
        noCheckPairs (true :: a1) g (true :: a2) g2
          (noCheckPairs (false :: a1) l (true :: a2) g2
            (noCheckPairs (false :: a1) l (false :: a2) l2 res))
      | .leaf _ => res   -- impossible: the same node is not both inner and leaf (AttributeError in Python)
    else
      noCheckPairs (true :: a1) g a2 t2 (noCheckPairs (false :: a1) l a2 t2 res)
termination_by _ t1 _ t2 => (sizeOf t1, sizeOf t2)

/-- `traverse_checking` of `query_pairs` (kdtree.py:949-992). -/
def checkPairs (N : Metric m K) (data : Nat → Pt m K) (r eps : K) :
    List Bool → Tree m K → Rect m K → List Bool → Tree m K → Rect m K → Pairs → Pairs
  | a1, t1, R1, a2, t2, R2, res =>
    if minDistRect N R1 R2 > r / (1 + eps) then res
    else if maxDistRect N R1 R2 < r * (1 + eps) then noCheckPairs a1 t1 a2 t2 res
    else match t1, t2 with
      | .leaf i1, .leaf i2 =>
        leafPairs (a1 == a2) i1 (fun i => i2.filter (fun j => decide (N.dist (data j) (data i) ≤ r))) res
      | .leaf i1, .inner d s l g =>
        checkPairs N data r eps a1 (.leaf i1) R1 (true :: a2) g (R2.split d s).2
          (checkPairs N data r eps a1 (.leaf i1) R1 (false :: a2) l (R2.split d s).1 res)
      | .inner d s l g, .leaf i2 =>
        checkPairs N data r eps (true :: a1) g (R1.split d s).2 a2 (.leaf i2) R2
          (checkPairs N data r eps (false :: a1) l (R1.split d s).1 a2 (.leaf i2) R2 res)
      | .inner d1 s1 l1 g1, .inner d2 s2 l2 g2 =>
        if a1 ≠ a2 then
          checkPairs N data r eps (true :: a1) g1 (R1.split d1 s1).2 (true :: a2) g2 (R2.split d2 s2).2
            (checkPairs N data r eps (true :: a1) g1 (R1.split d1 s1).2 (false :: a2) l2 (R2.split d2 s2).1
              (checkPairs N data r eps (false :: a1) l1 (R1.split d1 s1).1 (true :: a2) g2 (R2.split d2 s2).2
                (checkPairs N data r eps (false :: a1) l1 (R1.split d1 s1).1 (false :: a2) l2 (R2.split d2 s2).1 res)))
        else
          checkPairs N data r eps (true :: a1) g1 (R1.split d1 s1).2 (true :: a2) g2 (R2.split d2 s2).2
            (checkPairs N data r eps (false :: a1) l1 (R1.split d1 s1).1 (true :: a2) g2 (R2.split d2 s2).2
              (checkPairs N data r eps (false :: a1) l1 (R1.split d1 s1).1 (false :: a2) l2 (R2.split d2 s2).1 res))
termination_by _ t1 _ _ t2 => (sizeOf t1, sizeOf t2)

/-- `query_pairs` (kdtree.py:927-1028), as the list of `results.add` calls. -/
def KD.queryPairs (T : KD m K) (N : Metric m K) (r eps : K) : Pairs :=
  checkPairs N T.data r eps [] T.tree (Rect.mk' T.maxes T.mins) [] T.tree (Rect.mk' T.maxes T.mins) []

/-- `np.searchsorted(sorted, v, side='right')`: number of leading elements `≤ v`. -/
def searchsortedRight (sorted : List K) (v : K) : Nat := (sorted.takeWhile (fun d => decide (d ≤ v))).length

/-- `result[idx[r[idx] > max_r]] += node1.children * node2.children` (kdtree.py:1058-1059). -/
def countBulk (r : Nat → K) (maxR : K) (prod : Nat) (idx : List Nat) (res : Nat → Nat) : Nat → Nat :=
  fun k => if k ∈ idx.filter (fun k => decide (r k > maxR)) then res k + prod else res k

/-- `idx[(min_r <= r[idx]) & (r[idx] <= max_r)]` (kdtree.py:1060). -/
def countKeep (r : Nat → K) (minR maxR : K) (idx : List Nat) : List Nat :=
  idx.filter (fun k => decide (minR ≤ r k) && decide (r k ≤ maxR))

/-- `ds` of two leaves, sorted (kdtree.py:1066-1069). -/
def leafDistances (N : Metric m K) (data1 data2 : Nat → Pt m K) (i1 i2 : List Nat) : List K :=
  (i1.flatMap (fun i => i2.map (fun j => N.dist (data1 i) (data2 j)))).mergeSort (fun a b => decide (a ≤ b))

/-- `traverse` of `count_neighbors` (kdtree.py:1055-1089); `res k` is `result[k]`. -/
def countTraverse (N : Metric m K) (data1 data2 : Nat → Pt m K) (r : Nat → K) :
    Tree m K → Rect m K → Tree m K → Rect m K → List Nat → (Nat → Nat) → (Nat → Nat)
  | t1, R1, t2, R2, idx, res =>
    if (countKeep r (minDistRect N R1 R2) (maxDistRect N R1 R2) idx).length = 0 then
      countBulk r (maxDistRect N R1 R2) (t1.children * t2.children) idx res
    else match t1, t2 with
      | .leaf i1, .leaf i2 =>
        fun k =>
          if k ∈ countKeep r (minDistRect N R1 R2) (maxDistRect N R1 R2) idx then
            countBulk r (maxDistRect N R1 R2) (i1.length * i2.length) idx res k
              + searchsortedRight (leafDistances N data1 data2 i1 i2) (r k)
          else countBulk r (maxDistRect N R1 R2) (i1.length * i2.length) idx res k
      | .leaf i1, .inner d s l g =>
        countTraverse N data1 data2 r (.leaf i1) R1 g (R2.split d s).2
          (countKeep r (minDistRect N R1 R2) (maxDistRect N R1 R2) idx)
          (countTraverse N data1 data2 r (.leaf i1) R1 l (R2.split d s).1
            (countKeep r (minDistRect N R1 R2) (maxDistRect N R1 R2) idx)
            (countBulk r (maxDistRect N R1 R2) (i1.length * (l.children + g.children)) idx res))
      | .inner d s l g, .leaf i2 =>
        countTraverse N data1 data2 r g (R1.split d s).2 (.leaf i2) R2
          (countKeep r (minDistRect N R1 R2) (maxDistRect N R1 R2) idx)
          (countTraverse N data1 data2 r l (R1.split d s).1 (.leaf i2) R2
            (countKeep r (minDistRect N R1 R2) (maxDistRect N R1 R2) idx)
            (countBulk r (maxDistRect N R1 R2) ((l.children + g.children) * i2.length) idx res))
      | .inner d1 s1 l1 g1, .inner d2 s2 l2 g2 =>
        countTraverse N data1 data2 r g1 (R1.split d1 s1).2 g2 (R2.split d2 s2).2
          (countKeep r (minDistRect N R1 R2) (maxDistRect N R1 R2) idx)
          (countTraverse N data1 data2 r g1 (R1.split d1 s1).2 l2 (R2.split d2 s2).1
            (countKeep r (minDistRect N R1 R2) (maxDistRect N R1 R2) idx)
            (countTraverse N data1 data2 r l1 (R1.split d1 s1).1 g2 (R2.split d2 s2).2
              (countKeep r (minDistRect N R1 R2) (maxDistRect N R1 R2) idx)
              (countTraverse N data1 data2 r l1 (R1.split d1 s1).1 l2 (R2.split d2 s2).1
                (countKeep r (minDistRect N R1 R2) (maxDistRect N R1 R2) idx)
                (countBulk r (maxDistRect N R1 R2) ((l1.children + g1.children) * (l2.children + g2.children)) idx res))))
termination_by t1 _ t2 => (sizeOf t1, sizeOf t2)

/-- `count_neighbors` (kdtree.py:1030-1102) for a list of radii; a scalar radius is a list of length one. -/
def KD.countNeighbors (T O : KD m K) (N : Metric m K) (radii : List K) : List Nat :=
  let res := countTraverse N T.data O.data (fun k => radii.getD k 0) T.tree (Rect.mk' T.maxes T.mins)
    O.tree (Rect.mk' O.maxes O.mins) (List.range radii.length) (fun _ => 0)
  (List.range radii.length).map res

/-- `scipy.sparse.dok_matrix` by its value: an entry that was never stored reads as zero. -/
abbrev Sparse (K : Type) := Nat → Nat → K

/-- `traverse` of `sparse_distance_matrix` (kdtree.py:1123-1146). -/
def sparseTraverse (N : Metric m K) (data1 data2 : Nat → Pt m K) (maxd : K) :
    Tree m K → Rect m K → Tree m K → Rect m K → Sparse K → Sparse K
  | t1, R1, t2, R2, res =>
    if minDistRect N R1 R2 > maxd then res
    else match t1, t2 with
      | .leaf i1, .leaf i2 =>
        i1.foldl (fun res i => i2.foldl (fun res j =>
          let d := N.dist (data1 i) (data2 j)
          if d ≤ maxd then (fun a b => if a = i ∧ b = j then d else res a b) else res) res) res
      | .leaf i1, .inner d s l g =>
        sparseTraverse N data1 data2 maxd (.leaf i1) R1 g (R2.split d s).2
          (sparseTraverse N data1 data2 maxd (.leaf i1) R1 l (R2.split d s).1 res)
      | .inner d s l g, .leaf i2 =>
        sparseTraverse N data1 data2 maxd g (R1.split d s).2 (.leaf i2) R2
          (sparseTraverse N data1 data2 maxd l (R1.split d s).1 (.leaf i2) R2 res)
      | .inner d1 s1 l1 g1, .inner d2 s2 l2 g2 =>
        sparseTraverse N data1 data2 maxd g1 (R1.split d1 s1).2 g2 (R2.split d2 s2).2
          (sparseTraverse N data1 data2 maxd g1 (R1.split d1 s1).2 l2 (R2.split d2 s2).1
            (sparseTraverse N data1 data2 maxd l1 (R1.split d1 s1).1 g2 (R2.split d2 s2).2
              (sparseTraverse N data1 data2 maxd l1 (R1.split d1 s1).1 l2 (R2.split d2 s2).1 res)))
termination_by t1 _ t2 => (sizeOf t1, sizeOf t2)

/-- `sparse_distance_matrix` (kdtree.py:1104-1152). -/
def KD.sparseDistanceMatrix (T O : KD m K) (N : Metric m K) (maxd : K) : Sparse K :=
  sparseTraverse N T.data O.data maxd T.tree (Rect.mk' T.maxes T.mins) O.tree (Rect.mk' O.maxes O.mins)
    (fun _ _ => 0)

end Cis.KDTree
