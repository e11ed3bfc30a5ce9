import Verif.Interp.Hybrid
set_option linter.unusedSectionVars false
set_option linter.unusedSimpArgs false
/-!
# The vertical dimension may be any of the dimensions (C224)

Gridded data with a hybrid height or pressure are interpolated with their vertical dimension moved to the end (gridded_interpolation.py:66-80, 152-173).
The interpolation itself is that of `Interp/Model.lean`. Axes are ascending and not circular (otherwise see `Interp/Model.lean`).
-/
namespace Cis.Interp.Vertical
open Cis.Interp
variable {K : Type} [Field K] [LinearOrder K] [IsStrictOrderedRing K]

/-! ### Model -/

/-- `move_item_to_end` (utils.py:685-696): ValueError if the item is not there. -/
def moveItemToEnd (l : List Nat) (a : Nat) : Option (List Nat) :=
  if a ∈ l then some (l.eraseIdx (l.idxOf a) ++ [a]) else none

/-- A dimension with its dimension coordinate. -/
structure Dim (K : Type) where
  name : String
  points : List K

/-- Gridded data with one hybrid coordinate: the dimensions, which of them is the vertical (`coord_dims(aux_factories[0].sigma)[0]`), the values,
the dimensions of the hybrid coordinate in ascending order (`AuxCoordFactory.derived_dims` of Iris) and its values. -/
structure Cube (K : Type) where
  dims : List (Dim K)
  vertical : Nat
  value : List Nat → Val K
  hybridDims : List Nat
  hybrid : List Nat → Val K

/-- `numpy.transpose`: dimension `k` of the result is dimension `order[k]` of the array. -/
def transposed (order : List Nat) (f : List Nat → Val K) (idx : List Nat) : Val K :=
  f ((List.range order.length).map (fun d => idx.getD (order.idxOf d) 0))

/-- The dimensions of the hybrid coordinate after `data.transpose(order)`: derived again by Iris, in ascending order. -/
def hybridDimsT (order : List Nat) (c : Cube K) : List Nat := (c.hybridDims.map order.idxOf).mergeSort

/-- Its values after `data.transpose(order)`. -/
def hybridT (order : List Nat) (c : Cube K) (idx : List Nat) : Val K :=
  c.hybrid (c.hybridDims.map (fun d => idx.getD ((hybridDimsT order c).idxOf (order.idxOf d)) 0))

/-- `GriddedUngriddedInterpolator` (gridded_interpolation.py:50-132, 152-184) of data with a hybrid coordinate at a point with the coordinates `sample` and
the vertical coordinate `z`: the vertical dimension is moved to the end, the dimension coordinates the sample has become the grid; ValueError unless
that are all dimensions but one. -/
def interpolate (m : Method) (ext : Bool) (sample : String → Option K) (z : K) (c : Cube K) : Option (Val K) :=
  match moveItemToEnd (List.range c.dims.length) c.vertical with
  | none => none
  | some order =>
    let dims := order.filterMap (fun d => c.dims[d]?)
    let coords := dims.filter (fun d => (sample d.name).isSome)
    if coords.length + 1 ≠ c.dims.length then none
    else
      let hd := hybridDimsT order c
      some (hybridGrid m (coords.map Dim.points) (coords.filterMap (fun d => sample d.name)) z (dims.map (fun d => d.points.length))
        (transposed order c.value) (hd.dropLast.map (fun d => (dims[d]?.map (fun x => x.points.length)).getD 0)) (hybridT order c)
        hd.dropLast (((dims.getLast?).map (fun x => x.points.length)).getD 0) ext)

/-! ### Specification -/

/-- Data whose vertical dimension comes between the dimensions `A` and the dimensions `B`: at each horizontal position and level they have the value
`field`; the hybrid coordinate depends on the level and on the horizontal dimensions `HA`, before the vertical, and `HB`, after it, where `hyb` is its
value. Horizontal dimensions are counted without the vertical. -/
def Spec.between (A B : List (Dim K)) (v : Dim K) (field : List Nat → Nat → Val K) (HA HB : List Nat) (hyb : List Nat → Nat → Val K) : Cube K where
  dims := A ++ v :: B
  vertical := A.length
  value := fun i => field (i.eraseIdx A.length) (i.getD A.length 0)
  hybridDims := HA ++ A.length :: HB.map (· + 1)
  hybrid := fun i => hyb (i.eraseIdx HA.length) (i.getD HA.length 0)

/-- An array with the level last. -/
def Spec.last (n : Nat) (f : List Nat → Nat → Val K) (i : List Nat) : Val K := f ((List.range n).map (fun k => i.getD k 0)) (i.getD n 0)

/-! ### Proofs -/

def up (p k : Nat) : Nat := if k < p then k else k + 1

theorem eraseIdx_range (n p : Nat) (hp : p ≤ n) : (List.range (n + 1)).eraseIdx p = (List.range n).map (up p) := by
  apply List.ext_getElem
  · simp [List.length_eraseIdx, show p < n + 1 by omega]
  · intro k h1 h2
    simp [List.getElem_eraseIdx, up]

theorem idxOf_range (n p : Nat) (hp : p < n) : (List.range n).idxOf p = p := by
  have h : (List.range n)[p]'(by simpa using hp) = p := by simp
  conv_lhs => rw [← h]
  have := List.nodup_range (n := n)
  rw [List.Nodup.idxOf_getElem this]

theorem move_range (n p : Nat) (hp : p ≤ n) : moveItemToEnd (List.range (n + 1)) p = some ((List.range n).map (up p) ++ [p]) := by
  unfold moveItemToEnd
  rw [if_pos (by simp; omega), idxOf_range _ _ (by omega), eraseIdx_range n p hp]

theorem order_nodup (n p : Nat) : ((List.range n).map (up p) ++ [p]).Nodup := by
  rw [List.nodup_append]
  refine ⟨List.pairwise_map.2 (List.nodup_range.imp (fun {a b} hn h => hn (by unfold up at h; split at h <;> split at h <;> omega))), by simp, ?_⟩
  intro a ha b hb
  simp only [List.mem_map, List.mem_range] at ha
  obtain ⟨k, _, rfl⟩ := ha
  simp only [List.mem_singleton] at hb
  subst hb
  unfold up
  split <;> omega

theorem idx_up (n p k : Nat) (hk : k < n) : ((List.range n).map (up p) ++ [p]).idxOf (up p k) = k := by
  have h : ((List.range n).map (up p) ++ [p])[k]'(by simp; omega) = up p k := by
    rw [List.getElem_append_left (by simpa using hk)]; simp
  conv_lhs => rw [← h]
  rw [List.Nodup.idxOf_getElem (order_nodup n p)]

theorem idx_p (n p : Nat) : ((List.range n).map (up p) ++ [p]).idxOf p = n := by
  have h : ((List.range n).map (up p) ++ [p])[n]'(by simp) = p := by
    rw [List.getElem_append_right (by simp)]; simp
  have := List.Nodup.idxOf_getElem (order_nodup n p) n (by simp)
  rwa [h] at this

theorem transposed_between (n p : Nat) (hp : p ≤ n) (f : List Nat → Nat → Val K) :
    transposed ((List.range n).map (up p) ++ [p]) (fun i => f (i.eraseIdx p) (i.getD p 0)) = Spec.last n f := by
  funext idx
  unfold transposed Spec.last
  simp only [List.length_append, List.length_map, List.length_range, List.length_singleton]
  congr 1
  · rw [List.eraseIdx_map, eraseIdx_range n p hp, List.map_map]
    apply List.map_congr_left
    intro k hk
    simp only [Function.comp, idx_up n p k (List.mem_range.1 hk)]
  · rw [List.getD_eq_getElem?_getD, List.getElem?_map, List.getElem?_range (by omega)]
    simp only [Option.map_some, Option.getD_some, idx_p]

theorem dims_moved {α : Type} (A B : List α) (v : α) :
    ((List.range (A.length + B.length)).map (up A.length) ++ [A.length]).filterMap (fun d => (A ++ v :: B)[d]?) = A ++ B ++ [v] := by
  have h : ∀ l : List α, (List.range l.length).filterMap (fun d => l[d]?) = l := by
    intro l
    induction l with
    | nil => rfl
    | cons a t ih =>
      rw [List.length_cons, List.range_succ_eq_map, List.filterMap_cons]
      simp only [List.getElem?_cons_zero]
      rw [List.filterMap_map]
      congr 1
  rw [List.filterMap_append, List.filterMap_map]
  congr 1
  · conv_rhs => rw [← h (A ++ B)]
    rw [List.length_append]
    apply List.filterMap_congr
    intro k hk
    simp only [Function.comp, up]
    split
    · rename_i hlt
      rw [List.getElem?_append_left hlt, List.getElem?_append_left hlt]
    · rename_i hge
      rw [List.getElem?_append_right (by omega), List.getElem?_append_right (by omega),
        show k + 1 - A.length = (k - A.length) + 1 by omega, List.getElem?_cons_succ]
  · simp

theorem hybridDims_moved (n p : Nat) (HA HB : List Nat) (hA : ∀ d ∈ HA, d < p) (hB : ∀ d ∈ HB, p ≤ d ∧ d < n) (hp : p ≤ n)
    (hs : (HA ++ HB).Pairwise (· < ·)) :
    (HA ++ p :: HB.map (· + 1)).map ((List.range n).map (up p) ++ [p]).idxOf = HA ++ n :: HB ∧
    ((HA ++ p :: HB.map (· + 1)).map ((List.range n).map (up p) ++ [p]).idxOf).mergeSort = HA ++ HB ++ [n] := by
  have e : (HA ++ p :: HB.map (· + 1)).map ((List.range n).map (up p) ++ [p]).idxOf = HA ++ n :: HB := by
    rw [List.map_append, List.map_cons, idx_p, List.map_map]
    congr 1
    · conv_rhs => rw [← List.map_id HA]
      apply List.map_congr_left
      intro d hd
      have := idx_up n p d (by have := hA d hd; omega)
      rwa [up, if_pos (hA d hd)] at this
    · congr 1
      conv_rhs => rw [← List.map_id HB]
      apply List.map_congr_left
      intro d hd
      have := idx_up n p d (hB d hd).2
      rwa [up, if_neg (by have := (hB d hd).1; omega)] at this
  refine ⟨e, ?_⟩
  rw [e]
  have hperm : (HA ++ n :: HB).Perm (HA ++ HB ++ [n]) := by
    rw [List.append_assoc]
    exact List.Perm.append_left _ (List.perm_append_singleton n HB).symm
  have hsort : (HA ++ HB ++ [n]).Pairwise (fun a b => decide (a ≤ b) = true) := by
    rw [List.pairwise_append]
    refine ⟨hs.imp (fun h => by simp; omega), by simp, ?_⟩
    intro a ha b hb
    simp only [List.mem_singleton] at hb
    subst hb
    simp only [decide_eq_true_eq]
    rcases List.mem_append.1 ha with h | h
    · have := hA a h; omega
    · have := (hB a h).2; omega
  have h1 := List.pairwise_mergeSort (le := fun a b : Nat => decide (a ≤ b)) (by intro a b c; simp; omega) (by intro a b; simp; omega) (HA ++ n :: HB)
  refine List.Perm.eq_of_pairwise ?_ h1 hsort ((List.mergeSort_perm _ _).trans hperm)
  intro a b _ _ h h'
  simp at h h'
  omega

theorem hybrid_moved (n p : Nat) (HA HB : List Nat) (hA : ∀ d ∈ HA, d < p) (hB : ∀ d ∈ HB, p ≤ d ∧ d < n) (hp : p ≤ n)
    (hs : (HA ++ HB).Pairwise (· < ·)) (hyb : List Nat → Nat → Val K) (c : Cube K) (hd : c.hybridDims = HA ++ p :: HB.map (· + 1))
    (hc : c.hybrid = fun i => hyb (i.eraseIdx HA.length) (i.getD HA.length 0)) :
    hybridT ((List.range n).map (up p) ++ [p]) c = Spec.last (HA ++ HB).length hyb := by
  obtain ⟨e1, e2⟩ := hybridDims_moved n p HA HB hA hB hp hs
  have hnd : (HA ++ HB ++ [n]).Nodup := by
    rw [List.nodup_append]
    refine ⟨hs.imp (fun h => by omega), by simp, ?_⟩
    intro a ha b hb
    simp only [List.mem_singleton] at hb
    subst hb
    rcases List.mem_append.1 ha with h | h
    · have := hA a h; omega
    · have := (hB a h).2; omega
  funext idx
  unfold hybridT Spec.last hybridDimsT
  rw [hd, e2, hc]
  have e3 : (HA ++ p :: HB.map (· + 1)).map (fun d => idx.getD ((HA ++ HB ++ [n]).idxOf (((List.range n).map (up p) ++ [p]).idxOf d)) 0) =
      (HA ++ n :: HB).map (fun d => idx.getD ((HA ++ HB ++ [n]).idxOf d) 0) := by
    rw [← e1, List.map_map]
    rfl
  rw [e3]
  have pos : ∀ k (hk : k < (HA ++ HB ++ [n]).length), (HA ++ HB ++ [n]).idxOf ((HA ++ HB ++ [n])[k]) = k := fun k hk => by
    rw [List.Nodup.idxOf_getElem hnd]
  dsimp only
  congr 1
  · rw [List.eraseIdx_map, List.eraseIdx_append_of_length_le (by simp)]
    simp only [Nat.sub_self, List.eraseIdx_cons_zero]
    apply List.ext_getElem
    · simp
    · intro k h1 h2
      simp only [List.getElem_map, List.getElem_range]
      have hk : k < (HA ++ HB).length := by simpa using h1
      have := pos k (by simp at hk ⊢; omega)
      rw [List.getElem_append_left hk] at this
      rw [this]
  · rw [List.getD_eq_getElem?_getD, List.getElem?_map, List.getElem?_append_right (by simp)]
    simp only [Nat.sub_self, List.getElem?_cons_zero, Option.map_some, Option.getD_some]
    have := pos (HA ++ HB).length (by simp)
    simp only [List.getElem_append_right (Nat.le_refl _), Nat.sub_self, List.getElem_singleton] at this
    rw [this]

/-- **C224.** Data with a hybrid vertical coordinate, the vertical dimension being any of the dimensions, interpolated at a point that has a coordinate for
every other dimension, and none for the vertical one. The result is that of the same data with the horizontal dimensions in their order and the
vertical dimension last: every value is used at its own horizontal position and level, and so is the hybrid coordinate, whichever of the horizontal dimensions
it depends on. -/
theorem c224_vertical_anywhere (m : Method) (ext : Bool) (sample : String → Option K) (z : K) (A B : List (Dim K)) (v : Dim K)
    (field : List Nat → Nat → Val K) (HA HB : List Nat) (hyb : List Nat → Nat → Val K)
    (hA : ∀ d ∈ HA, d < A.length) (hB : ∀ d ∈ HB, A.length ≤ d ∧ d < A.length + B.length) (hs : (HA ++ HB).Pairwise (· < ·))
    (at_ : Dim K → K) (hx : ∀ d ∈ A ++ B, sample d.name = some (at_ d)) (hv : sample v.name = none) :
    interpolate m ext sample z (Spec.between A B v field HA HB hyb) =
      some (hybridGrid m ((A ++ B).map Dim.points) ((A ++ B).map at_) z ((A ++ B ++ [v]).map (fun d => d.points.length))
        (Spec.last (A ++ B).length field) ((HA ++ HB).map (fun k => (((A ++ B)[k]?).map (fun d => d.points.length)).getD 0))
        (Spec.last (HA ++ HB).length hyb) (HA ++ HB) v.points.length ext) := by
  have hn : (A ++ v :: B).length = (A.length + B.length) + 1 := by simp; omega
  have hlen : (A ++ B).length = A.length + B.length := by simp
  unfold interpolate
  have e0 : (Spec.between A B v field HA HB hyb).dims = A ++ v :: B := rfl
  have e1 : (Spec.between A B v field HA HB hyb).vertical = A.length := rfl
  have e2 : (Spec.between A B v field HA HB hyb).value = fun i => field (i.eraseIdx A.length) (i.getD A.length 0) := rfl
  rw [e0, e1, hn, move_range _ _ (by omega)]
  dsimp only
  rw [dims_moved A B v]
  have e3 : (A ++ B ++ [v]).filter (fun d => (sample d.name).isSome) = A ++ B := by
    rw [List.filter_append, List.filter_eq_self.2 (fun d hd => by rw [hx d hd]; rfl)]
    simp [hv]
  have e4 : (A ++ B).filterMap (fun d => sample d.name) = (A ++ B).map at_ := by
    rw [← List.filterMap_eq_map]
    exact List.filterMap_congr (fun d hd => hx d hd)
  have e5 := (hybridDims_moved (A.length + B.length) A.length HA HB hA hB (by omega) hs).2
  have e6 : hybridDimsT ((List.range (A.length + B.length)).map (up A.length) ++ [A.length]) (Spec.between A B v field HA HB hyb) =
      HA ++ HB ++ [A.length + B.length] := e5
  have e7 := hybrid_moved (A.length + B.length) A.length HA HB hA hB (by omega) hs hyb (Spec.between A B v field HA HB hyb) rfl rfl
  rw [e3, e4, e6, e7, e2, transposed_between _ _ (by omega), if_neg (by rw [hlen]; simp)]
  congr 2
  · simp
  · rw [List.dropLast_concat]
    apply List.map_congr_left
    intro k hk
    have : k < (A ++ B).length := by
      rw [hlen]
      rcases List.mem_append.1 hk with h | h
      · have := hA k h; omega
      · exact (hB k h).2
    rw [List.getElem?_append_left this]
  · simp
  · simp

/-- **C224**, put differently: moving the vertical dimension of the data to another place changes nothing. -/
theorem c224_place (m : Method) (ext : Bool) (sample : String → Option K) (z : K) (A B A' B' : List (Dim K)) (v : Dim K) (hAB : A ++ B = A' ++ B')
    (field : List Nat → Nat → Val K) (HA HB HA' HB' : List Nat) (hH : HA ++ HB = HA' ++ HB') (hyb : List Nat → Nat → Val K)
    (hA : ∀ d ∈ HA, d < A.length) (hB : ∀ d ∈ HB, A.length ≤ d ∧ d < A.length + B.length)
    (hA' : ∀ d ∈ HA', d < A'.length) (hB' : ∀ d ∈ HB', A'.length ≤ d ∧ d < A'.length + B'.length) (hs : (HA ++ HB).Pairwise (· < ·))
    (hx : ∀ d ∈ A ++ B, (sample d.name).isSome) (hv : sample v.name = none) :
    interpolate m ext sample z (Spec.between A B v field HA HB hyb) = interpolate m ext sample z (Spec.between A' B' v field HA' HB' hyb) := by
  have hx1 : ∀ d ∈ A ++ B, sample d.name = some ((sample d.name).getD 0) := by
    intro d hd
    obtain ⟨y, hy⟩ := Option.isSome_iff_exists.1 (hx d hd)
    rw [hy]; rfl
  rw [c224_vertical_anywhere m ext sample z A B v field HA HB hyb hA hB hs (fun d => (sample d.name).getD 0) hx1 hv,
    c224_vertical_anywhere m ext sample z A' B' v field HA' HB' hyb hA' hB' (hH ▸ hs) (fun d => (sample d.name).getD 0) (hAB ▸ hx1) hv, hAB, hH]

/-- C224 with C60: if the hybrid coordinate depends on the leading horizontal dimensions `H`, all before the vertical, and is affine in their coordinates at
each level, then the data are interpolated as on a rectilinear grid whose vertical axis is the hybrid coordinate at the position of the point. -/
theorem c224_column (ext : Bool) (sample : String → Option K) (z : K) (H rest B : List (Dim K)) (v : Dim K) (field : List Nat → Nat → Val K)
    (α : Nat → K) (β : Nat → List K) (hβ : ∀ l, (β l).length = H.length) (hasc : ∀ d ∈ H, Spec.Ascending (⟨d.points, none⟩ : Axis K))
    (h2 : ∀ d ∈ H, 2 ≤ d.points.length) (at_ : Dim K → K) (hx : ∀ d ∈ H ++ rest ++ B, sample d.name = some (at_ d)) (hv : sample v.name = none) :
    interpolate .lin ext sample z (Spec.between (H ++ rest) B v field (List.range H.length) []
        (fun h l => .num (α l + (List.zipWith (fun (ab : Dim K × K) k => ab.2 * ab.1.points[k]?.getD 0) (H.zip (β l)) h).sum))) =
      some (regularGrid .lin ((H ++ rest ++ B).map Dim.points ++
          [(List.range v.points.length).map (fun l => α l + (List.zipWith (fun b x => b * x) (β l) (H.map at_)).sum)])
        ((H ++ rest ++ B).map at_ ++ [z]) ((H ++ rest ++ B ++ [v]).map (fun d => d.points.length)) (Spec.last (H ++ rest ++ B).length field) ext) := by
  rw [c224_vertical_anywhere .lin ext sample z (H ++ rest) B v field (List.range H.length) [] _
    (by intro d hd; have := List.mem_range.1 hd; simp; omega) (by simp) (by simpa using List.pairwise_lt_range) at_ hx hv]
  have key := c60_column (H.map (fun d => (⟨d.points, none⟩ : Axis K))) ((rest ++ B).map (fun d => (⟨d.points, none⟩ : Axis K)))
    (by simpa using hasc) (by simpa using h2) (by simp) (H.map at_) ((rest ++ B).map at_) (by simp) (by simp) v.points.length α β
    (by simpa using hβ)
    (Spec.last H.length (fun h l => .num (α l + (List.zipWith (fun (ab : Dim K × K) k => ab.2 * ab.1.points[k]?.getD 0) (H.zip (β l)) h).sum)))
    (by
      intro l _ idx hi
      have hl : idx.length = H.length := by simpa using hi.length_eq.symm
      unfold Spec.last
      have e1 : (List.range H.length).map (fun k => (idx ++ [l]).getD k 0) = idx := by
        apply List.ext_getElem
        · simp [hl]
        · intro k h1 h2
          simp [List.getD_eq_getElem?_getD, List.getElem?_append_left h2, h2]
      have e2 : (idx ++ [l]).getD H.length 0 = l := by simp [← hl]
      rw [e1, e2, List.zip_map_left, List.zipWith_map_left]
      rfl)
    z ((H ++ rest ++ B ++ [v]).map (fun d => d.points.length)) (Spec.last (H ++ rest ++ B).length field) ext
  simp only [List.map_map, List.map_append, List.append_assoc, List.length_map, List.append_nil, List.length_range] at key ⊢
  have e : (List.range H.length).map (fun k => (((H ++ (rest ++ B))[k]?).map (fun d => d.points.length)).getD 0) =
      H.map ((fun x : Axis K => x.points.length) ∘ fun d => (⟨d.points, none⟩ : Axis K)) := by
    apply List.ext_getElem
    · simp
    · intro k h1 h2
      have hk : k < H.length := by simpa using h1
      simp [List.getElem?_append_left hk, hk]
  rw [e]
  exact congrArg some key

/-- C224: if the sample lacks the coordinate of a horizontal dimension, or has one for the vertical dimension too, the interpolation is refused. -/
theorem c224_refused (m : Method) (ext : Bool) (sample : String → Option K) (z : K) (A B : List (Dim K)) (v : Dim K)
    (field : List Nat → Nat → Val K) (HA HB : List Nat) (hyb : List Nat → Nat → Val K)
    (h : (∃ d ∈ A ++ B, sample d.name = none) ∧ sample v.name = none ∨ (∀ d ∈ A ++ B, (sample d.name).isSome) ∧ (sample v.name).isSome) :
    interpolate m ext sample z (Spec.between A B v field HA HB hyb) = none := by
  have hn : (A ++ v :: B).length = (A.length + B.length) + 1 := by simp; omega
  unfold interpolate
  have e0 : (Spec.between A B v field HA HB hyb).dims = A ++ v :: B := rfl
  have e1 : (Spec.between A B v field HA HB hyb).vertical = A.length := rfl
  rw [e0, e1, hn, move_range _ _ (by omega)]
  dsimp only
  rw [dims_moved A B v, if_pos]
  rcases h with ⟨⟨d, hd, h1⟩, h2⟩ | ⟨h1, h2⟩
  · rw [List.filter_append]
    have hlt : ((A ++ B).filter (fun d => (sample d.name).isSome)).length < (A ++ B).length := by
      refine Nat.lt_of_le_of_ne (List.length_filter_le _ _) (fun e => ?_)
      have := List.length_filter_eq_length_iff.1 e d hd
      simp [h1] at this
    have : ([v].filter (fun d => (sample d.name).isSome)).length = 0 := by simp [h2]
    rw [List.length_append, this]
    have : (A ++ B).length = A.length + B.length := by simp
    omega
  · rw [List.filter_eq_self.2]
    · simp
    · intro d hd
      rcases List.mem_append.1 hd with h | h
      · exact h1 d h
      · rw [List.mem_singleton.1 h]; exact h2

/-- Levels between latitude and longitude; the hybrid height depends on level and longitude. -/
example : interpolate .lin false (fun s => if s = "lat" then some (1 / 2 : ℚ) else if s = "lon" then some 5 else none) 3
    (Spec.between [⟨"lat", [0, 1]⟩] [⟨"lon", [0, 10]⟩] ⟨"level", [0, 1, 2]⟩ (fun h l => .num (h.getD 0 0 + 10 * h.getD 1 0 + 100 * l)) [] [1]
      (fun h l => .num (2 * l + h.getD 0 0))) = some (.num (261 / 2)) := by
  rw [c224_vertical_anywhere (K := ℚ) .lin false _ 3 [⟨"lat", [0, 1]⟩] [⟨"lon", [0, 10]⟩] ⟨"level", [0, 1, 2]⟩ _ [] [1] _ (by simp) (by simp) (by simp)
    (fun d => if d.name = "lat" then 1 / 2 else 5) (by simp) (by decide)]
  decide +kernel

/-- Height affine in latitude, before the vertical dimension; longitude after it. -/
example : interpolate .lin false (fun s => if s = "lat" then some (1 / 2 : ℚ) else if s = "lon" then some 5 else none) 3
    (Spec.between [⟨"lat", [0, 1]⟩] [⟨"lon", [0, 10]⟩] ⟨"level", [0, 1, 2]⟩ (fun h l => .num (h.getD 0 0 + 10 * h.getD 1 0 + 100 * l)) [0] []
      (fun h l => .num (2 * (l : ℚ) + (List.zipWith (fun (ab : Dim ℚ × ℚ) k => ab.2 * ab.1.points[k]?.getD 0) ([⟨"lat", [0, 1]⟩].zip [1]) h).sum))) =
    some (.num (261 / 2)) := by
  have := c224_column (K := ℚ) false (fun s => if s = "lat" then some (1 / 2 : ℚ) else if s = "lon" then some 5 else none) 3 [⟨"lat", [0, 1]⟩] []
    [⟨"lon", [0, 10]⟩] ⟨"level", [0, 1, 2]⟩ (fun h l => .num (h.getD 0 0 + 10 * h.getD 1 0 + 100 * l)) (fun l => 2 * (l : ℚ)) (fun _ => [1]) (by simp)
    (by simp [Spec.Ascending, Spec.nodes]) (by simp) (fun d => if d.name = "lat" then 1 / 2 else 5) (by simp) (by decide)
  refine Eq.trans this ?_
  decide +kernel

/-- C224: a sample without longitude is refused. -/
example (field hyb : List Nat → Nat → Val ℚ) : interpolate .nn true (fun s => if s = "lat" then some (1 : ℚ) else none) 3
    (Spec.between [⟨"lat", [0, 1]⟩] [⟨"lon", [0, 10]⟩] ⟨"level", [0, 1, 2]⟩ field [] [] hyb) = none :=
  c224_refused .nn true _ 3 _ _ _ _ _ _ _ (Or.inl ⟨⟨⟨"lon", [0, 10]⟩, by simp, by decide⟩, by decide⟩)

end Cis.Interp.Vertical
