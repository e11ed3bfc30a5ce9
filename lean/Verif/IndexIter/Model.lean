/-
Model of the index iterators of cis/utils.py:402-483.
-/
namespace Cis.IndexIter

/-- The inner `for j in range(dim - 1, -1, -1)` loop (utils.py:445-449); first argument: number of dimensions still to be
visited, i.e. the loop variable is `j`. `idx[j] += 1; if idx[j] < shape[j]: break; idx[j] = 0`. -/
def bump (shape : List Nat) : Nat → List Nat → List Nat
  | 0, idx => idx
  | j + 1, idx =>
    let idx1 := idx.set j (idx.getD j 0 + 1)
    if idx1.getD j 0 < shape.getD j 0 then idx1
    else bump shape j (idx1.set j 0)

/-- `num_iterations` (utils.py:439-441). -/
def numIterations (shape : List Nat) : Nat := shape.foldl (· * ·) 1

/-- The outer loop (utils.py:443-449). -/
def loop (shape : List Nat) : Nat → List Nat → List (List Nat)
  | 0, _ => []
  | n + 1, idx => idx :: loop shape n (bump shape shape.length idx)

/-- `index_iterator(shape)` (utils.py:430-449), as the list of the tuples yielded. -/
def indexIterator (shape : List Nat) : List (List Nat) :=
  loop shape (numIterations shape) (List.replicate shape.length 0)

/-- `index_iterator_for_non_masked_data(shape, points)` (utils.py:452-483): `np.nditer(points.data, flags=['multi_index'])`
is taken by its documented contract to visit the multi-indices of `points.data` (whose shape is `shape`) in C order, i.e. as
`indexIterator` does; `itemIsMasked idx` is the value of `it[0] is np.ma.masked` at that index. -/
def nonMaskedIterator (shape : List Nat) (itemIsMasked : List Nat → Bool) : List (List Nat) :=
  (indexIterator shape).filter (fun idx => !itemIsMasked idx)

/-- numpy contract: `it[0]` of an `nditer` is always a fresh zero-dimensional `ndarray` viewing the data buffer, so
`it[0] is np.ma.masked` (identity with the constant) is `False` whatever the mask is. -/
def nditerItemIsMasked (_mask : List Nat → Bool) : List Nat → Bool := fun _ => false

/-- What `index_iterator_for_non_masked_data` yields for a masked array with the given mask. -/
def indexIteratorForNonMaskedData (shape : List Nat) (mask : List Nat → Bool) : List (List Nat) :=
  nonMaskedIterator shape (nditerItemIsMasked mask)

end Cis.IndexIter
