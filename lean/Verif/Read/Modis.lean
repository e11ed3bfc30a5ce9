import Mathlib.Tactic
set_option linter.unusedSectionVars false
set_option linter.unusedSimpArgs false
/-!
Model of `MODIS_L2.create_data_object` for variables with more than two dimensions (cis/data_io/products/MODIS.py:298-335) together
with the lazy handle `HDF_SDS` (cis/data_io/hdf_sd.py:36-96). Property C78.

The handles of the files are mutable objects; they are given by their numbers, and a store gives the current `_start` of each. All
entries of the result refer to the same list of handles. `slab m start` is the array in file `m` at the given start.
-/
namespace Cis.Modis

variable {A : Type}

/-- `itertools.product(range(n) for n in dims)`: the last index varies fastest. -/
def indexProduct : List Nat → List (List Nat)
  | [] => [[]]
  | n :: t => (List.range n).flatMap (fun i => (indexProduct t).map (i :: ·))

/-- The `_start` attributes of the handles. -/
abbrev Store := Nat → Option (List Nat)

/-- An entry of the result: a lazy object keeping a reference to the list of handles (ungridded_data.py:203-206: `listify` of a list
is the same list) and its data once they have been read. -/
structure Entry (A : Type) where
  managers : List Nat
  loaded : Option (List A)
deriving DecidableEq

/-- `for manager in var: manager._start = list(indices) + [0, 0]` (MODIS.py:330-332). -/
def setStart (managers : List Nat) (start : List Nat) (s : Store) : Store :=
  managers.foldl (fun s m => fun m' => if m' = m then some start else s m') s

/-- The getter of `data` (ungridded_data.py:266-289, hdf_sd.py:75-96): data not read before are read, from each handle the slab at its
current start (the whole array if there is none). -/
def load (slab : Nat → Option (List Nat) → List A) (s : Store) (e : Entry A) : Entry A :=
  match e.loaded with
  | some _ => e
  | none => { e with loaded := some ((e.managers.map (fun m => slab m (s m))).flatten) }

/-- `result.append` (common_data.py:275-305): if there are entries, `coords()` of the first and of the new one is called, which
reads their data (ungridded_data.py:624-630, 358-363). Their shapes are taken to be compatible. -/
def appendEntry (slab : Nat → Option (List Nat) → List A) (s : Store) (es : List (Entry A)) (e : Entry A) : List (Entry A) :=
  match es with
  | [] => [e]
  | e0 :: t => load slab s e0 :: (t ++ [load slab s e])

/-- The loop (MODIS.py:329-334) over the indices. -/
def sliceLoop (slab : Nat → Option (List Nat) → List A) (managers : List Nat) : List (List Nat) → Store → List (Entry A) →
    Store × List (Entry A)
  | [], s, es => (s, es)
  | idx :: t, s, es =>
    let s' := setStart managers (idx ++ [0, 0]) s
    sliceLoop slab managers t s' (appendEntry slab s' es ⟨managers, none⟩)

/-- `create_data_object` for more than two dimensions: `files` handles, `dims` the sizes of all but the last two dimensions. -/
def createSlices (slab : Nat → Option (List Nat) → List A) (files : Nat) (dims : List Nat) : Store × List (Entry A) :=
  sliceLoop slab (List.range files) (indexProduct dims) (fun _ => none) []

/-- What the user gets: the data of all entries, read after the object has been made. -/
def readSlices (slab : Nat → Option (List Nat) → List A) (files : Nat) (dims : List Nat) : List (List A) :=
  let c := createSlices slab files dims
  c.2.map (fun e => (load slab c.1 e).loaded.getD [])

/-! ### Specification -/

/-- The data the entry for an index should have: the slab at this index from every file. -/
def Spec.slice (slab : Nat → Option (List Nat) → List A) (files : Nat) (idx : List Nat) : List A :=
  ((List.range files).map (fun m => slab m (some (idx ++ [0, 0])))).flatten

/-- The indices below the sizes. -/
def Spec.InBounds : List Nat → List Nat → Prop
  | [], [] => True
  | i :: is, n :: ns => i < n ∧ Spec.InBounds is ns
  | _, _ => False

/-! ### Proofs -/

theorem mem_indexProduct (dims : List Nat) : ∀ idx, idx ∈ indexProduct dims ↔ Spec.InBounds idx dims := by
  induction dims with
  | nil => intro idx; cases idx <;> simp [indexProduct, Spec.InBounds]
  | cons n t ih =>
    intro idx
    cases idx with
    | nil => simp [indexProduct, Spec.InBounds]
    | cons i is => simp [indexProduct, Spec.InBounds, ih]

theorem nodup_indexProduct (dims : List Nat) : (indexProduct dims).Pairwise (· < ·) := by
  induction dims with
  | nil => simp [indexProduct]
  | cons n t ih =>
    rw [indexProduct, List.pairwise_flatMap]
    constructor
    · intro i _
      rw [List.pairwise_map]
      exact ih.imp (fun h => List.Lex.cons h)
    · refine List.pairwise_lt_range.imp ?_
      intro a b hab x hx y hy
      obtain ⟨x', -, rfl⟩ := List.mem_map.1 hx
      obtain ⟨y', -, rfl⟩ := List.mem_map.1 hy
      exact List.Lex.rel hab

theorem length_indexProduct (dims : List Nat) : (indexProduct dims).length = dims.prod := by
  induction dims with
  | nil => rfl
  | cons n t ih => simp [indexProduct, List.length_flatMap, ih]

theorem setStart_apply (managers : List Nat) (start : List Nat) : ∀ (s : Store) (m : Nat),
    setStart managers start s m = if m ∈ managers then some start else s m := by
  induction managers with
  | nil => intro s m; simp [setStart]
  | cons a t ih =>
    intro s m
    have : setStart (a :: t) start s = setStart t start (fun m' => if m' = a then some start else s m') := rfl
    rw [this, ih]
    by_cases h : m ∈ t
    · simp [h]
    · by_cases h' : m = a
      · simp [h']
      · simp [h, h']

/-- The slab of every handle at an index. -/
theorem load_fresh (slab : Nat → Option (List Nat) → List A) (files : Nat) (idx : List Nat) (s : Store) :
    load slab (setStart (List.range files) (idx ++ [0, 0]) s) ⟨List.range files, none⟩ =
      ⟨List.range files, some (Spec.slice slab files idx)⟩ := by
  unfold load Spec.slice
  simp only
  congr 3
  apply List.map_congr_left
  intro m hm
  rw [setStart_apply, if_pos hm]

theorem sliceLoop_tail (slab : Nat → Option (List Nat) → List A) (files : Nat) (l : List (List Nat)) :
    ∀ (s : Store) (e0 : Entry A) (es : List (Entry A)), e0.loaded.isSome →
      (sliceLoop slab (List.range files) l s (e0 :: es)).2 =
        e0 :: (es ++ l.map (fun i => ⟨List.range files, some (Spec.slice slab files i)⟩)) := by
  induction l with
  | nil => intro s e0 es _; simp [sliceLoop]
  | cons i t ih =>
    intro s e0 es h
    rw [sliceLoop]
    simp only [appendEntry]
    have h0 : ∀ s, load slab s e0 = e0 := by
      intro s
      unfold load
      split
      · rfl
      · rename_i h'; rw [h'] at h; simp at h
    rw [h0, load_fresh, ih _ _ _ h]
    simp

/-- The entries show the slabs of these indices. -/
theorem readSlices_eq (slab : Nat → Option (List Nat) → List A) (files : Nat) (dims : List Nat) :
    readSlices slab files dims = (match indexProduct dims with
      | _ :: j :: t => j :: j :: t
      | l => l).map (Spec.slice slab files) := by
  unfold readSlices createSlices
  match h : indexProduct dims with
  | [] => rfl
  | [i] =>
    simp only [sliceLoop, appendEntry, List.map_cons, List.map_nil]
    rw [load_fresh]
    rfl
  | i :: j :: t =>
    simp only
    have h1 : sliceLoop slab (List.range files) (i :: j :: t) (fun _ => none) [] =
        sliceLoop slab (List.range files) t (setStart (List.range files) (j ++ [0, 0]) (setStart (List.range files) (i ++ [0, 0]) (fun _ => none)))
          (load slab (setStart (List.range files) (j ++ [0, 0]) (setStart (List.range files) (i ++ [0, 0]) (fun _ => none))) ⟨List.range files, none⟩ ::
            ([] ++ [load slab (setStart (List.range files) (j ++ [0, 0]) (setStart (List.range files) (i ++ [0, 0]) (fun _ => none))) ⟨List.range files, none⟩])) := rfl
    rw [h1, load_fresh]
    generalize setStart _ _ _ = s
    have h2 := sliceLoop_tail slab files t s ⟨List.range files, some (Spec.slice slab files j)⟩
      ([] ++ [⟨List.range files, some (Spec.slice slab files j)⟩]) rfl
    generalize sliceLoop slab (List.range files) t s _ = c at *
    rw [h2]
    simp [load, Function.comp_def]

/-- C78: there is one entry for every index of the leading dimensions, in the order of the indices. -/
theorem c78_entries (slab : Nat → Option (List Nat) → List A) (files : Nat) (dims : List Nat) :
    (readSlices slab files dims).length = dims.prod ∧ (indexProduct dims).length = dims.prod ∧
      (∀ idx, idx ∈ indexProduct dims ↔ Spec.InBounds idx dims) ∧ (indexProduct dims).Pairwise (· < ·) := by
  refine ⟨?_, length_indexProduct dims, mem_indexProduct dims, nodup_indexProduct dims⟩
  rw [readSlices_eq, List.length_map, ← length_indexProduct]
  split
  · rename_i h; rw [h]; rfl
  · rfl

/-- C78 for all entries but the first: the entry has the data of its index from every file. -/
theorem c78_slices_partial (slab : Nat → Option (List Nat) → List A) (files : Nat) (dims : List Nat) (k : Nat) (idx : List Nat)
    (hk : (indexProduct dims)[k]? = some idx) (h0 : k ≠ 0 ∨ dims.prod = 1) :
    (readSlices slab files dims)[k]? = some (Spec.slice slab files idx) := by
  rw [readSlices_eq, List.getElem?_map]
  have hl := length_indexProduct dims
  match h : indexProduct dims with
  | [] => rw [h] at hk; simp at hk
  | [i] => rw [h] at hk; simp only [hk]; rfl
  | i :: j :: t =>
    rw [h] at hk hl
    simp only [List.length_cons] at hl
    have hk0 : k ≠ 0 := by
      rcases h0 with h0 | h0
      · exact h0
      · omega
    obtain ⟨k, rfl⟩ := Nat.exists_eq_succ_of_ne_zero hk0
    simp only [Nat.succ_eq_add_one, List.getElem?_cons_succ] at hk ⊢
    rw [hk]; rfl

/-- C78 is violated by the first entry: with more than one index it always has the data of the second index, because the handles are
shared and it is only read when the second entry is appended. -/
theorem c78_first_entry_violated (slab : Nat → Option (List Nat) → List A) (files : Nat) (dims i1 : List Nat)
    (h : (indexProduct dims)[1]? = some i1) : (readSlices slab files dims)[0]? = some (Spec.slice slab files i1) := by
  rw [readSlices_eq, List.getElem?_map]
  match hi : indexProduct dims with
  | [] => rw [hi] at h; simp at h
  | [i] => rw [hi] at h; simp at h
  | i :: j :: t =>
    rw [hi] at h
    simp only [List.getElem?_cons_succ, List.getElem?_cons_zero, Option.some.injEq] at h
    subst h
    rfl

/-- For example, with two layers both entries have the data of the second. -/
theorem c78_two_layers_violated : ∃ slab : Nat → Option (List Nat) → List Nat,
    readSlices slab 1 [2] = [[1], [1]] ∧ (indexProduct [2]).map (Spec.slice slab 1) = [[0], [1]] :=
  ⟨fun _ s => match s with | some (i :: _) => [i] | _ => [], by decide +kernel, by decide +kernel⟩

example : indexProduct [2, 3] = [[0, 0], [0, 1], [0, 2], [1, 0], [1, 1], [1, 2]] := by decide +kernel

example : readSlices (fun m s => match s with | some (i :: _) => [10 * m + i] | _ => []) 2 [3] = [[1, 11], [1, 11], [2, 12]] := by decide +kernel

end Cis.Modis
