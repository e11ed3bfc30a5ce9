import Mathlib.Data.List.Basic
import Mathlib.Data.List.Infix
import Mathlib.Tactic
set_option linter.unusedSectionVars false
set_option linter.unusedSimpArgs false
/-!
Model of the EarthCARE product (cis/data_io/products/EarthCARE.py): the names of variables with an index, the coordinates and the
data. Property C93.

An array is its shape and a function of the list of indices. Masks, attributes and standard names are not modelled, nor are times
(see C27) beyond the values they are computed from. `int` is modelled for the digits 0 to 9. Unknown exceptions while reading are not
modelled.
-/
namespace Cis.EarthCare

/-- A numpy array. -/
structure Arr (V : Type) where
  shape : List Nat
  get : List Nat → V

/-- A variable of a file: the names of its dimensions and its values. -/
structure Var (V : Type) where
  dims : List String
  arr : Arr V

/-- A file: its variables by their names. -/
abbrev File (V : Type) := List Char → Option (Var V)

/-- Exceptions: InvalidVariableError, ValueError, IndexError, UnboundLocalError, NotImplementedError. -/
inductive Err
  | invalidVariable
  | value
  | index
  | unbound
  | notImplemented
deriving DecidableEq, Repr

variable {V : Type}

/-- `m_listOfKnownDims` (EarthCARE.py:75-77): name of the dimension, text in the name of the variable, expected position. -/
def knownDims : List (String × List Char × Nat) :=
  [("class", "_CLASSNUM_".toList, 2), ("aerosol_components", "_AEROSOL_COMPONENTSNUM_".toList, 2), ("band", "_BANDNUM_".toList, 0),
    ("VNS_band", "_BANDNUM_".toList, 0), ("background", "_BACKGROUNDNUM_".toList, 1)]

/-- `m in s` for strings. -/
def hasInfix (m : List Char) : List Char → Bool
  | [] => m.isEmpty
  | c :: t => m.isPrefixOf (c :: t) || hasInfix m t

/-- `int(c)` of one character. -/
def digit (c : Char) : Option Nat := if '0' ≤ c ∧ c ≤ '9' then some (c.toNat - 48) else none

/-- The name and the index in the name given by the user (EarthCARE.py:325-339). -/
def parseName (v : List Char) : Except Err (List Char × Option Nat) :=
  match knownDims.find? (fun k => hasInfix k.2.1 v) with
  | none => .ok (v, none)
  | some k => match v.getLast?.bind digit with
    | none => .error .value
    | some n => .ok (v.take (v.length - (k.2.1.length + 1)), some n)

/-- `read_many_files_individually` for one variable (netcdf.py:135-159): the variable of each file. -/
def readMany (files : List (File V)) (name : List Char) : Except Err (List (Var V)) :=
  match files with
  | [] => .ok []
  | f :: t => match f name with
    | none => .error .invalidVariable
    | some v => match readMany t name with
      | .error e => .error e
      | .ok r => .ok (v :: r)

/-- The loop that deletes the known dimensions from the shape (EarthCARE.py:165-180); `del` raises IndexError. -/
def deleteDims (dims : List String) : List (String × List Char × Nat) → List Nat → Except Err (List Nat)
  | [], s => .ok s
  | k :: t, s =>
    if dims[k.2.2]? = some k.1 then
      if k.2.2 < s.length then deleteDims dims t (s.eraseIdx k.2.2) else .error .index
    else deleteDims dims t s

def requiredShape (v : Var V) : Except Err (List Nat) := deleteDims v.dims knownDims v.arr.shape

/-- `foundKnownDim` (EarthCARE.py:154-180). -/
def foundKnownDim (v : Var V) : Bool := knownDims.any (fun k => v.dims[k.2.2]? == some k.1)

/-- The indices of the n-th element in C order. -/
def unravel : List Nat → Nat → List Nat
  | [], _ => []
  | _ :: t, n => (n / t.prod) :: unravel t (n % t.prod)

/-- `expand_1d_to_2d_array(a, m, axis=1)` (utils.py:94-135): one row for each element. -/
def expandRows (a : Arr V) (m : Nat) : Arr V :=
  ⟨[a.shape.prod, m], fun idx => a.get (unravel a.shape (idx.headD 0))⟩

/-- `expand_1d_to_2d_array(a, m, axis=0)`: `m` copies of the array. -/
def expandCols (a : Arr V) (m : Nat) : Arr V :=
  ⟨[m, a.shape.prod], fun idx => a.get (unravel a.shape (idx.tail.headD 0))⟩

/-- Longitude or latitude for the required shape (EarthCARE.py:183-213). -/
def geoCoord (a : Arr V) (req : List Nat) : Except Err (Option (Arr V)) :=
  if a.shape.length > req.length then .ok none
  else if a.shape.length < req.length then
    match req[1]? with
    | none => .error .index
    | some m => .ok (some (expandRows a m))
  else .ok (some a)

/-- The time for the required shape (EarthCARE.py:215-231). -/
def timeCoord (a : Arr V) (req : List Nat) : Except Err (Option (Arr V)) :=
  if a.shape.length < req.length then
    match req[1]? with
    | none => .error .index
    | some m => .ok (some (expandRows a m))
  else if a.shape = req then .ok (some a)
  else .ok none

/-- The coordinates of a variable; `z` is the height, or the index of the second dimension. -/
structure Coords (V : Type) where
  x : Option (Arr V)
  y : Option (Arr V)
  t : Option (Arr V)
  z : Option (Arr V)

/-- The first of the two names of longitude, latitude and time that all files have (EarthCARE.py:110-145); none: no coordinates. -/
def readGeo (files : List (File V)) : Option (List (Var V) × List (Var V) × List (Var V)) :=
  let r := fun (lon lat : List Char) =>
    match readMany files lon, readMany files lat, readMany files "ScienceData/time".toList with
    | .ok a, .ok b, .ok c => some (a, b, c)
    | _, _, _ => none
  match r "ScienceData/longitude".toList "ScienceData/latitude".toList with
  | some x => some x
  | none => r "ScienceData/ellipsoid_longitude".toList "ScienceData/ellipsoid_latitude".toList

/-- The heights (EarthCARE.py:233-256). -/
def readHeight (files : List (File V)) : Option (List (Var V)) :=
  match readMany files "ScienceData/height".toList with
  | .ok a => some a
  | .error _ => match readMany files "ScienceData/sample_altitude".toList with
    | .ok a => some a
    | .error _ => none

/-- The vertical coordinate (EarthCARE.py:258-290); `ofNat` makes an index a value. -/
def zCoord (ofNat : Nat → V) (height : Option (List (Var V))) (lonDim : Nat) (req : List Nat) (known : Bool) :
    Except Err (Option (Arr V)) :=
  match height with
  | some (h :: _) => .ok (if h.arr.shape = req then some h.arr else none)
  | some [] => .error .index
  | none =>
    if lonDim + 1 = req.length ∧ known = false then
      match req with
      | r0 :: r1 :: _ => .ok (some (expandCols ⟨[r1], fun idx => ofNat (idx.headD 0)⟩ r0))
      | _ => .error .index
    else .ok none

/-- `_create_coord_list` for a variable (EarthCARE.py:94-308). -/
def createCoords (ofNat : Nat → V) (files : List (File V)) (name : List Char) : Except Err (Coords V) :=
  match readGeo files with
  | none => .ok ⟨none, none, none, none⟩
  | some (lon, lat, time) =>
    match readMany files name with
    | .error e => .error e
    | .ok vs => match vs, lon, lat, time with
      | v :: _, lon :: _, lat :: _, time :: _ =>
        match requiredShape v with
        | .error e => .error e
        | .ok req =>
          match geoCoord lon.arr req, geoCoord lat.arr req, timeCoord time.arr req,
              zCoord ofNat (readHeight files) lon.arr.shape.length req (foundKnownDim v) with
          | .ok x, .ok y, .ok t, .ok z =>
            if x.isNone ∧ y.isNone ∧ t.isNone ∧ z.isNone ∧ req.length = 1 then
              .ok ⟨some ⟨req, fun idx => ofNat (idx.headD 0)⟩, none, none, none⟩
            else .ok ⟨x, y, t, z⟩
          | .error e, _, _, _ => .error e
          | _, .error e, _, _ => .error e
          | _, _, .error e, _ => .error e
          | _, _, _, .error e => .error e
      | _, _, _, _ => .error .index

/-- `a[..., n, ...]` with the index at the position; IndexError. -/
def sliceAt (a : Arr V) (pos n : Nat) : Except Err (Arr V) :=
  match a.shape[pos]? with
  | none => .error .index
  | some l => if n < l then .ok ⟨a.shape.eraseIdx pos, fun idx => a.get (idx.insertIdx pos n)⟩ else .error .index

/-- The data of a variable (EarthCARE.py:357-411), after its name and index are known. -/
def dataOf (v : Var V) (n : Option Nat) : Except Err (Arr V) :=
  if v.dims.length > 3 then .error .notImplemented
  else match knownDims.find? (fun k => v.dims.contains k.1) with
    | some k =>
      let i := n.getD 0
      if v.dims.length = 3 then sliceAt v.arr k.2.2 i
      else if v.dims.length = 2 then (if k.2.2 = 2 then .error .unbound else sliceAt v.arr k.2.2 i)
      else .error .unbound
    | none => if v.dims.length = 3 then .error .notImplemented else .ok v.arr

/-- `create_data_object` (EarthCARE.py:310-411): data and coordinates. -/
def createData (ofNat : Nat → V) (files : List (File V)) (name : List Char) : Except Err (Arr V × Coords V) :=
  match parseName name with
  | .error e => .error e
  | .ok (nm, n) => match createCoords ofNat files nm with
    | .error e => .error e
    | .ok cs => match readMany files nm with
      | .error e => .error e
      | .ok [] => .error .index
      | .ok (v :: _) => match dataOf v n with
        | .error e => .error e
        | .ok d => .ok (d, cs)

/-! ### Specification -/

/-- Indices within a shape. -/
def Spec.Within (shape idx : List Nat) : Prop := List.Forall₂ (· < ·) idx shape

/-- `a` is the part of `v` with index `n` of the dimension `name`: the other dimensions in order, and the same values. -/
def Spec.IsSlice (v : Var V) (name : String) (n : Nat) (a : Arr V) : Prop :=
  ∃ pre post, v.dims = pre ++ name :: post ∧
    ∃ s1 l s2, v.arr.shape = s1 ++ l :: s2 ∧ s1.length = pre.length ∧ n < l ∧ a.shape = s1 ++ s2 ∧
      ∀ i j, Spec.Within s1 i → Spec.Within s2 j → a.get (i ++ j) = v.arr.get (i ++ n :: j)

/-! ### Proofs -/

theorem hasInfix_iff (m s : List Char) : hasInfix m s = true ↔ m <:+: s := by
  induction s with
  | nil => simp [hasInfix]
  | cons c t ih =>
    rw [hasInfix, Bool.or_eq_true, ih, List.isPrefixOf_iff_prefix, List.infix_cons_iff]

/-- C93: a name without any of the texts is the name of the variable. -/
theorem c93_plain_name (v : List Char) (h : ∀ k ∈ knownDims, ¬ k.2.1 <:+: v) : parseName v = .ok (v, none) := by
  unfold parseName
  have : knownDims.find? (fun k => hasInfix k.2.1 v) = none := by
    rw [List.find?_eq_none]
    intro k hk hc
    exact h k hk ((hasInfix_iff _ _).1 hc)
  rw [this]

/-- C93: the name, the text of a dimension and one digit: the name and the index, if the name does not itself contain the text of
another dimension. -/
theorem c93_indexed_name (nm : List Char) (k : String × List Char × Nat) (hk : k ∈ knownDims) (c : Char) (n : Nat)
    (hc : digit c = some n)
    (h : ∀ k' ∈ knownDims, k'.2.1 ≠ k.2.1 → ¬ k'.2.1 <:+: nm ++ k.2.1 ++ [c]) :
    parseName (nm ++ k.2.1 ++ [c]) = .ok (nm, some n) := by
  unfold parseName
  have hin : hasInfix k.2.1 (nm ++ k.2.1 ++ [c]) = true := (hasInfix_iff _ _).2 ⟨nm, [c], rfl⟩
  cases hf : knownDims.find? (fun q => hasInfix q.2.1 (nm ++ k.2.1 ++ [c])) with
  | none =>
    rw [List.find?_eq_none] at hf
    exact absurd hin (hf k hk)
  | some k' =>
    have h1 := List.find?_some hf
    have h2 := List.mem_of_find?_eq_some hf
    have h3 : k'.2.1 = k.2.1 := by
      by_contra hne
      exact h k' h2 hne ((hasInfix_iff _ _).1 h1)
    simp only
    rw [h3]
    simp only [List.getLast?_append, List.getLast?_singleton, Option.some_or, Option.bind_some, hc]
    congr 2
    have : (nm ++ k.2.1 ++ [c]).length - (k.2.1.length + 1) = nm.length := by simp
    rw [this, List.append_assoc, List.take_left]

/-- Cutting out one index, as seen from the shape. -/
theorem sliceAt_spec (a : Arr V) (pos n : Nat) (r : Arr V) (h : sliceAt a pos n = .ok r) :
    ∃ s1 l s2, a.shape = s1 ++ l :: s2 ∧ s1.length = pos ∧ n < l ∧ r.shape = s1 ++ s2 ∧
      ∀ i j, Spec.Within s1 i → Spec.Within s2 j → r.get (i ++ j) = a.get (i ++ n :: j) := by
  unfold sliceAt at h
  split at h
  · cases h
  · rename_i l hl
    obtain ⟨hlt, hle⟩ := List.getElem?_eq_some_iff.1 hl
    split at h
    · rename_i hn
      cases h
      refine ⟨a.shape.take pos, l, a.shape.drop (pos + 1), ?_, by simp; omega, hn, ?_, ?_⟩
      · rw [← hle, ← List.drop_eq_getElem_cons hlt, List.take_append_drop]
      · simp [List.eraseIdx_eq_take_drop_succ]
      · intro i j hi hj
        simp only
        have hlen : i.length = pos := by
          have := List.Forall₂.length_eq hi
          simp at this
          omega
        subst hlen
        congr 1
        clear hi hl hlt hle hj
        induction i with
        | nil => simp
        | cons x i ih => simpa using ih
    · cases h

/-- The dimension found first by the loop. -/
def Spec.FirstKnown (v : Var V) (k : String × List Char × Nat) : Prop :=
  ∃ a b, knownDims = a ++ k :: b ∧ k.1 ∈ v.dims ∧ ∀ k' ∈ a, k'.1 ∉ v.dims

theorem find_known (v : Var V) (k : String × List Char × Nat) (h : Spec.FirstKnown v k) :
    knownDims.find? (fun k => v.dims.contains k.1) = some k := by
  obtain ⟨a, b, h1, h2, h3⟩ := h
  rw [h1, List.find?_append, List.find?_cons]
  have : a.find? (fun k => v.dims.contains k.1) = none := by
    rw [List.find?_eq_none]
    intro x hx hc
    exact h3 x hx (by simpa using hc)
  rw [this]
  simp [h2]

/-- C93 for the data: with a known dimension at its expected position (and no other), the result is the part with the index asked for
(0 if none was). -/
theorem c93_slice (v : Var V) (k : String × List Char × Nat) (n : Option Nat) (d : Arr V) (hw : v.dims.length = v.arr.shape.length)
    (hk : Spec.FirstKnown v k) (hpos : v.dims[k.2.2]? = some k.1) (h : dataOf v n = .ok d) : Spec.IsSlice v k.1 (n.getD 0) d := by
  have hs : sliceAt v.arr k.2.2 (n.getD 0) = .ok d := by
    unfold dataOf at h
    split at h
    · cases h
    · rw [find_known v k hk] at h
      simp only at h
      split at h
      · exact h
      · split at h
        · split at h
          · cases h
          · exact h
        · cases h
  obtain ⟨s1, l, s2, e1, e2, e3, e4, e5⟩ := sliceAt_spec v.arr k.2.2 (n.getD 0) d hs
  obtain ⟨hlt, hle⟩ := List.getElem?_eq_some_iff.1 hpos
  refine ⟨v.dims.take k.2.2, v.dims.drop (k.2.2 + 1), ?_, s1, l, s2, e1, ?_, e3, e4, e5⟩
  · rw [← hle, ← List.drop_eq_getElem_cons hlt, List.take_append_drop]
  · rw [e2]; simp; omega

/-- C93 for the data: such a variable of two (not `class` or `aerosol_components`) or three dimensions is read whenever the index is within it. -/
theorem c93_slice_defined (v : Var V) (k : String × List Char × Nat) (n : Option Nat) (hw : v.dims.length = v.arr.shape.length)
    (hk : Spec.FirstKnown v k) (hd : v.dims.length = 3 ∨ v.dims.length = 2) (hpos : v.dims[k.2.2]? = some k.1)
    (l : Nat) (hl : v.arr.shape[k.2.2]? = some l) : (∃ d, dataOf v n = .ok d) ↔ n.getD 0 < l := by
  have hs : dataOf v n = sliceAt v.arr k.2.2 (n.getD 0) := by
    unfold dataOf
    rw [if_neg (by omega), find_known v k hk]
    simp only
    have := (List.getElem?_eq_some_iff.1 hpos).1
    rcases hd with hd | hd
    · rw [if_pos hd]
    · rw [if_neg (by omega), if_pos hd, if_neg (by omega)]
  rw [hs]
  unfold sliceAt
  simp only [hl]
  constructor
  · rintro ⟨d, h⟩
    split at h
    · assumption
    · cases h
  · intro h
    rw [if_pos h]
    exact ⟨_, rfl⟩

/-- C93: a variable of at most two dimensions, none of them known, is read as it is. -/
theorem c93_whole (v : Var V) (n : Option Nat) (hk : ∀ k ∈ knownDims, k.1 ∉ v.dims) (hd : v.dims.length ≤ 2) : dataOf v n = .ok v.arr := by
  unfold dataOf
  have : knownDims.find? (fun k => v.dims.contains k.1) = none := by
    rw [List.find?_eq_none]
    intro k hk' hc
    exact hk k hk' (by simpa using hc)
  rw [if_neg (by omega), this]
  simp only
  rw [if_neg (by omega)]

/-- C93 for the coordinates: a coordinate along the track has, for data of shape (track, m), the shape of the data and at each
element the value of its position along the track. -/
theorem c93_track_coord (a : Arr V) (n m : Nat) (ha : a.shape = [n]) :
    ∃ c, geoCoord a [n, m] = .ok (some c) ∧ timeCoord a [n, m] = .ok (some c) ∧ c.shape = [n, m] ∧
      ∀ i j, Spec.Within [n, m] [i, j] → c.get [i, j] = a.get [i] := by
  refine ⟨expandRows a m, ?_, ?_, ?_, ?_⟩
  · simp [geoCoord, ha]
  · simp [timeCoord, ha]
  · simp [expandRows, ha]
  · intro i j _
    simp [expandRows, ha, unravel]

/-- C93 for the coordinates: a coordinate of the shape of the data is used as it is. -/
theorem c93_same_shape (a : Arr V) : geoCoord a a.shape = .ok (some a) ∧ timeCoord a a.shape = .ok (some a) := by
  constructor
  · simp [geoCoord]
  · simp [timeCoord]

/-- C93 for the coordinates: without heights in the files, data of shape (n, m) without known dimension get the index of the second
dimension as vertical coordinate. -/
theorem c93_index_z (ofNat : Nat → V) (n m : Nat) :
    ∃ c, zCoord ofNat none 1 [n, m] false = .ok (some c) ∧ c.shape = [n, m] ∧
      ∀ i j, Spec.Within [n, m] [i, j] → c.get [i, j] = ofNat j := by
  refine ⟨expandCols ⟨[m], fun idx => ofNat (idx.headD 0)⟩ n, by simp [zCoord], by simp [expandCols], ?_⟩
  intro i j _
  simp [expandCols, unravel]

/-- C93 for the coordinates: heights of the shape of the data are its vertical coordinate, whichever of the two names they have. -/
theorem c93_height (ofNat : Nat → V) (f : File V) (lonDim : Nat) (known : Bool) (h : Var V)
    (hh : f "ScienceData/height".toList = some h ∨
      (f "ScienceData/height".toList = none ∧ f "ScienceData/sample_altitude".toList = some h)) :
    zCoord ofNat (readHeight [f]) lonDim h.arr.shape known = .ok (some h.arr) := by
  have : readHeight [f] = some [h] := by
    rcases hh with hh | ⟨h1, h2⟩
    · simp only [readHeight, readMany, hh]
    · simp only [readHeight, readMany, h1, h2]
  simp [this, zCoord]

/-- C93 for the coordinates: a variable of one dimension that fits none of the coordinates gets its index as coordinate. -/
theorem c93_index_x (ofNat : Nat → V) (f : File V) (name : List Char) (v lon lat time h : Var V) (n : Nat)
    (hlon : f "ScienceData/longitude".toList = some lon) (hlat : f "ScienceData/latitude".toList = some lat)
    (ht : f "ScienceData/time".toList = some time) (hh : f "ScienceData/height".toList = some h) (hv : f name = some v)
    (hr : requiredShape v = .ok [n]) (d1 : 1 < lon.arr.shape.length) (d2 : 1 < lat.arr.shape.length)
    (d3 : 1 ≤ time.arr.shape.length ∧ time.arr.shape ≠ [n]) (d4 : h.arr.shape ≠ [n]) :
    ∃ x, createCoords ofNat [f] name = .ok ⟨some x, none, none, none⟩ ∧ x.shape = [n] ∧ ∀ i, i < n → x.get [i] = ofNat i := by
  have h1 : readHeight [f] = some [h] := by simp only [readHeight, readMany, hh]
  have h2 : readGeo [f] = some ([lon], [lat], [time]) := by simp only [readGeo, readMany, hlon, hlat, ht]
  refine ⟨⟨[n], fun idx => ofNat (idx.headD 0)⟩, ?_, rfl, fun i _ => rfl⟩
  unfold createCoords
  simp only [h1, h2, readMany, hv, hr]
  have e1 : geoCoord lon.arr [n] = .ok none := by simp [geoCoord, d1]
  have e2 : geoCoord lat.arr [n] = .ok none := by simp [geoCoord, d2]
  have e3 : timeCoord time.arr [n] = .ok none := by
    unfold timeCoord
    rw [if_neg (by rw [List.length_singleton]; omega), if_neg d3.2]
  have e4 : zCoord ofNat (some [h]) lon.arr.shape.length [n] (foundKnownDim v) = .ok none := by simp [zCoord, d4]
  simp only [e1, e2, e3, e4]
  simp

example : ∃ (f : File Nat) (v lon lat time h : Var Nat), f "ScienceData/longitude".toList = some lon ∧
    f "ScienceData/latitude".toList = some lat ∧ f "ScienceData/time".toList = some time ∧ f "ScienceData/height".toList = some h ∧
    f "q".toList = some v ∧ requiredShape v = .ok [4] ∧ 1 < lon.arr.shape.length ∧ 1 < lat.arr.shape.length ∧
    (1 ≤ time.arr.shape.length ∧ time.arr.shape ≠ [4]) ∧ h.arr.shape ≠ [4] :=
  ⟨fun n => if n = "q".toList then some ⟨["level"], ⟨[4], fun _ => 0⟩⟩ else some ⟨["a", "b"], ⟨[2, 3], fun _ => 0⟩⟩,
    ⟨["level"], ⟨[4], fun _ => 0⟩⟩, ⟨["a", "b"], ⟨[2, 3], fun _ => 0⟩⟩, ⟨["a", "b"], ⟨[2, 3], fun _ => 0⟩⟩,
    ⟨["a", "b"], ⟨[2, 3], fun _ => 0⟩⟩, ⟨["a", "b"], ⟨[2, 3], fun _ => 0⟩⟩,
    rfl, rfl, rfl, rfl, rfl, rfl, by decide, by decide, by decide, by decide⟩

/-- C93 for the coordinates: those that fit the variable are given to it, also if the others do not fit. -/
theorem c93_coords_kept (ofNat : Nat → V) (f : File V) (name : List Char) (v lon lat time : Var V) (req : List Nat) (x y t z : Option (Arr V))
    (hlon : f "ScienceData/longitude".toList = some lon) (hlat : f "ScienceData/latitude".toList = some lat)
    (ht : f "ScienceData/time".toList = some time) (hv : f name = some v) (hr : requiredShape v = .ok req)
    (hx : geoCoord lon.arr req = .ok x) (hy : geoCoord lat.arr req = .ok y) (htt : timeCoord time.arr req = .ok t)
    (hz : zCoord ofNat (readHeight [f]) lon.arr.shape.length req (foundKnownDim v) = .ok z)
    (hsome : x.isSome ∨ y.isSome ∨ t.isSome ∨ z.isSome ∨ req.length ≠ 1) : createCoords ofNat [f] name = .ok ⟨x, y, t, z⟩ := by
  have h2 : readGeo [f] = some ([lon], [lat], [time]) := by simp only [readGeo, readMany, hlon, hlat, ht]
  unfold createCoords
  simp only [h2, readMany, hv, hr, hx, hy, htt, hz]
  rw [if_neg]
  rintro ⟨a, b, c, d, e⟩
  rcases hsome with h | h | h | h | h
  · rw [Option.isNone_iff_eq_none] at a; simp [a] at h
  · rw [Option.isNone_iff_eq_none] at b; simp [b] at h
  · rw [Option.isNone_iff_eq_none] at c; simp [c] at h
  · rw [Option.isNone_iff_eq_none] at d; simp [d] at h
  · exact h e

example : ∃ (f : File Nat) (v lon : Var Nat) (x : Arr Nat), f "ScienceData/longitude".toList = some lon ∧ f "ScienceData/latitude".toList = some lon ∧
    f "ScienceData/time".toList = some lon ∧ f "q".toList = some v ∧ requiredShape v = .ok [3] ∧ geoCoord lon.arr [3] = .ok (some x) ∧
    timeCoord lon.arr [3] = .ok (some x) ∧ zCoord id (readHeight [f]) lon.arr.shape.length [3] (foundKnownDim v) = .ok none := by
  have h := c93_same_shape (⟨[3], fun _ => 7⟩ : Arr Nat)
  refine ⟨fun n => if n = "ScienceData/height".toList then some ⟨["h"], ⟨[5], fun _ => 0⟩⟩ else some ⟨["a"], ⟨[3], fun _ => 7⟩⟩,
    ⟨["a"], ⟨[3], fun _ => 7⟩⟩, ⟨["a"], ⟨[3], fun _ => 7⟩⟩, ⟨[3], fun _ => 7⟩, rfl, rfl, rfl, rfl, rfl, h.1, h.2, ?_⟩
  rfl

/-- C93 for the shape: one known dimension, at its expected position, is taken off the shape. -/
theorem c93_required_shape (v : Var V) (k : String × List Char × Nat) (hw : v.dims.length = v.arr.shape.length)
    (hk : k ∈ knownDims) (hpos : v.dims[k.2.2]? = some k.1) (hone : ∀ k' ∈ knownDims, k'.1 ∈ v.dims → k'.1 = k.1) :
    requiredShape v = .ok (v.arr.shape.eraseIdx k.2.2) := by
  have hlt : k.2.2 < v.arr.shape.length := by
    rw [← hw]
    exact (List.getElem?_eq_some_iff.1 hpos).1
  have hno : ∀ k' ∈ knownDims, k'.1 ≠ k.1 → v.dims[k'.2.2]? ≠ some k'.1 := by
    intro k' hk' hne hc
    exact hne (hone k' hk' (List.mem_of_getElem? hc))
  unfold requiredShape
  simp only [knownDims, List.mem_cons, List.not_mem_nil, or_false] at hk
  have n1 := hno ("class", "_CLASSNUM_".toList, 2) (by simp [knownDims])
  have n2 := hno ("aerosol_components", "_AEROSOL_COMPONENTSNUM_".toList, 2) (by simp [knownDims])
  have n3 := hno ("band", "_BANDNUM_".toList, 0) (by simp [knownDims])
  have n4 := hno ("VNS_band", "_BANDNUM_".toList, 0) (by simp [knownDims])
  have n5 := hno ("background", "_BACKGROUNDNUM_".toList, 1) (by simp [knownDims])
  simp only at n1 n2 n3 n4 n5
  rcases hk with rfl | rfl | rfl | rfl | rfl
  · simp only [knownDims, deleteDims]
    rw [if_pos hpos, if_pos hlt, if_neg (n2 (by decide)), if_neg (n3 (by decide)), if_neg (n4 (by decide)), if_neg (n5 (by decide))]
  · simp only [knownDims, deleteDims]
    rw [if_neg (n1 (by decide)), if_pos hpos, if_pos hlt, if_neg (n3 (by decide)), if_neg (n4 (by decide)), if_neg (n5 (by decide))]
  · simp only [knownDims, deleteDims]
    rw [if_neg (n1 (by decide)), if_neg (n2 (by decide)), if_pos hpos, if_pos hlt, if_neg (n4 (by decide)), if_neg (n5 (by decide))]
  · simp only [knownDims, deleteDims]
    rw [if_neg (n1 (by decide)), if_neg (n2 (by decide)), if_neg (n3 (by decide)), if_pos hpos, if_pos hlt, if_neg (n5 (by decide))]
  · simp only [knownDims, deleteDims]
    rw [if_neg (n1 (by decide)), if_neg (n2 (by decide)), if_neg (n3 (by decide)), if_neg (n4 (by decide)), if_pos hpos, if_pos hlt]

/-- C93 for the shape: without known dimensions it is that of the variable. -/
theorem c93_required_shape_plain (v : Var V) (h : ∀ k ∈ knownDims, k.1 ∉ v.dims) : requiredShape v = .ok v.arr.shape := by
  have hno : ∀ k ∈ knownDims, v.dims[k.2.2]? ≠ some k.1 := fun k hk hc => h k hk (List.mem_of_getElem? hc)
  have : ∀ l : List (String × List Char × Nat), (∀ k ∈ l, v.dims[k.2.2]? ≠ some k.1) → deleteDims v.dims l v.arr.shape = .ok v.arr.shape := by
    intro l
    induction l with
    | nil => intro _; rfl
    | cons k t ih =>
      intro h
      rw [deleteDims, if_neg (h k (by simp)), ih (fun x hx => h x (by simp [hx]))]
  exact this _ hno

/-- C93: data and coordinates together. A variable whose dimensions are the track, another one and perhaps one known dimension at its
expected position; longitude, latitude and time along the track. What is read has the part asked for, and each of its elements the
longitude, latitude and time of its position along the track. -/
theorem c93_aligned (ofNat : Nat → V) (f : File V) (name nm : List Char) (idx : Option Nat) (v lon lat time : Var V) (n m : Nat)
    (hp : parseName name = .ok (nm, idx)) (hv : f nm = some v) (h1 : f "ScienceData/longitude".toList = some lon)
    (h2 : f "ScienceData/latitude".toList = some lat) (h3 : f "ScienceData/time".toList = some time)
    (hl : lon.arr.shape = [n]) (hl2 : lat.arr.shape = [n]) (hl3 : time.arr.shape = [n])
    (hreq : requiredShape v = .ok [n, m]) (d : Arr V) (cs : Coords V) (h : createData ofNat [f] name = .ok (d, cs)) :
    dataOf v idx = .ok d ∧ ∃ x y t, cs.x = some x ∧ cs.y = some y ∧ cs.t = some t ∧ x.shape = [n, m] ∧ y.shape = [n, m] ∧
      t.shape = [n, m] ∧ ∀ i j, Spec.Within [n, m] [i, j] → x.get [i, j] = lon.arr.get [i] ∧ y.get [i, j] = lat.arr.get [i] ∧
        t.get [i, j] = time.arr.get [i] := by
  unfold createData at h
  rw [hp] at h
  simp only [readMany, hv] at h
  have hgeo : readGeo [f] = some ([lon], [lat], [time]) := by
    unfold readGeo
    simp only [readMany, h1, h2, h3]
  cases hc : createCoords ofNat [f] nm with
  | error e => rw [hc] at h; cases h
  | ok cs' =>
    rw [hc] at h
    simp only at h
    cases hd : dataOf v idx with
    | error e => rw [hd] at h; cases h
    | ok d' =>
      rw [hd] at h
      cases h
      refine ⟨rfl, ?_⟩
      unfold createCoords at hc
      rw [hgeo] at hc
      simp only [readMany, hv, hreq] at hc
      obtain ⟨x, x1, -, x3, x4⟩ := c93_track_coord lon.arr n m hl
      obtain ⟨y, y1, -, y3, y4⟩ := c93_track_coord lat.arr n m hl2
      obtain ⟨t, -, t2, t3, t4⟩ := c93_track_coord time.arr n m hl3
      rw [x1, y1, t2] at hc
      cases hz : zCoord ofNat (readHeight [f]) lon.arr.shape.length [n, m] (foundKnownDim v) with
      | error e => rw [hz] at hc; cases hc
      | ok z =>
        rw [hz] at hc
        simp only [Option.isNone_some, Bool.false_eq_true, false_and, if_false] at hc
        cases hc
        exact ⟨x, y, t, rfl, rfl, rfl, x3, y3, t3, fun i j hij => ⟨x4 i j hij, y4 i j hij, t4 i j hij⟩⟩

/-- C93 is violated by an index of two digits: it is read as its last digit, and the name is wrong. -/
theorem c93_two_digits_violated : parseName "pixel_values_BANDNUM_12".toList = .ok ("pixel_values_".toList, some 2) := by
  rw [parseName]
  decide +kernel

/-- C93 is violated by a known dimension at another position: the data are cut along another dimension, with no error. Here the third
of the dimensions (track, height, band) is to be fixed, but the first is. -/
theorem c93_other_position_violated : ∃ (v : Var (List Nat)) (d : Arr (List Nat)), v.dims = ["along_track", "height", "band"] ∧
    v.dims.length = v.arr.shape.length ∧ dataOf v (some 1) = .ok d ∧ ¬ Spec.IsSlice v "band" 1 d ∧ Spec.IsSlice v "along_track" 1 d := by
  refine ⟨⟨["along_track", "height", "band"], ⟨[2, 3, 4], id⟩⟩, ⟨[3, 4], fun idx => idx.insertIdx 0 1⟩, rfl, rfl, rfl, ?_, ?_⟩
  · rintro ⟨pre, post, h1, s1, l, s2, h2, h3, h4, h5, -⟩
    have hpre : pre.length = 2 := by
      match pre, h1 with
      | [], h1 => simp at h1
      | [_], h1 => simp at h1
      | [_, _], _ => rfl
      | _ :: _ :: _ :: _, h1 => simp at h1
    match s1, h3.trans hpre, h2, h5 with
    | [a, b], _, h2, h5 =>
      simp only [List.cons_append, List.nil_append, List.cons.injEq] at h2 h5
      obtain ⟨rfl, rfl, -⟩ := h2
      exact absurd h5.1 (by decide)
  · refine ⟨[], ["height", "band"], rfl, [], 2, [3, 4], rfl, rfl, by decide, rfl, ?_⟩
    intro i j hi hj
    cases hi
    rfl

/-- C93 is violated by `class` in a variable of two dimensions, for every such variable: UnboundLocalError. -/
theorem c93_two_dimensions_violated (v : Var V) (n : Option Nat) (h : v.dims = ["along_track", "class"]) : dataOf v n = .error .unbound := by
  unfold dataOf
  have : knownDims.find? (fun k => v.dims.contains k.1) = some ("class", "_CLASSNUM_".toList, 2) := by rw [h]; rfl
  rw [this, h]
  rfl

/-- C93 is violated by several files: only the first is used, the others must only have the variables. -/
theorem c93_other_files_violated (ofNat : Nat → V) (f : File V) (fs : List (File V)) (name : List Char)
    (h : ∀ g ∈ fs, ∀ nm, (g nm).isSome = (f nm).isSome) : createData ofNat (f :: fs) name = createData ofNat [f] name := by
  have hread : ∀ nm v, f nm = some v → ∃ r, readMany (f :: fs) nm = .ok (v :: r) := by
    intro nm v hv
    have : ∀ l : List (File V), (∀ g ∈ l, (g nm).isSome = true) → ∃ r, readMany l nm = .ok r := by
      intro l
      induction l with
      | nil => intro _; exact ⟨[], rfl⟩
      | cons g t ih =>
        intro hl
        obtain ⟨r, hr⟩ := ih (fun x hx => hl x (by simp [hx]))
        obtain ⟨w, hw⟩ := Option.isSome_iff_exists.1 (hl g (by simp))
        exact ⟨w :: r, by simp [readMany, hw, hr]⟩
    obtain ⟨r, hr⟩ := this fs (fun g hg => by rw [h g hg nm, hv]; rfl)
    exact ⟨r, by simp [readMany, hv, hr]⟩
  have hnone : ∀ nm, f nm = none → readMany (f :: fs) nm = .error .invalidVariable ∧ readMany [f] nm = .error .invalidVariable := by
    intro nm hn
    simp [readMany, hn]
  have hgeo : ∀ (a b c : List Char), (∃ x y z r1 r2 r3, readMany (f :: fs) a = .ok (x :: r1) ∧ readMany (f :: fs) b = .ok (y :: r2) ∧
      readMany (f :: fs) c = .ok (z :: r3) ∧ readMany [f] a = .ok [x] ∧ readMany [f] b = .ok [y] ∧ readMany [f] c = .ok [z]) ∨
      ((match readMany (f :: fs) a, readMany (f :: fs) b, readMany (f :: fs) c with
        | .ok a, .ok b, .ok c => some (a, b, c)
        | _, _, _ => none) = none ∧ (match readMany [f] a, readMany [f] b, readMany [f] c with
        | .ok a, .ok b, .ok c => some (a, b, c)
        | _, _, _ => none) = none) := by
    intro a b c
    have one : ∀ nm, (∃ x r, readMany (f :: fs) nm = .ok (x :: r) ∧ readMany [f] nm = .ok [x]) ∨
        (readMany (f :: fs) nm = .error .invalidVariable ∧ readMany [f] nm = .error .invalidVariable) := by
      intro nm
      cases hf : f nm with
      | none => exact Or.inr (hnone nm hf)
      | some v =>
        obtain ⟨r, hr⟩ := hread nm v hf
        exact Or.inl ⟨v, r, hr, by simp [readMany, hf]⟩
    rcases one a with ⟨x, r1, a1, a2⟩ | ⟨a1, a2⟩
    · rcases one b with ⟨y, r2, b1, b2⟩ | ⟨b1, b2⟩
      · rcases one c with ⟨z, r3, c1, c2⟩ | ⟨c1, c2⟩
        · exact Or.inl ⟨x, y, z, r1, r2, r3, a1, b1, c1, a2, b2, c2⟩
        · right; rw [a1, b1, c1, a2, b2, c2]; exact ⟨rfl, rfl⟩
      · right; rw [a1, b1, a2, b2]; exact ⟨rfl, rfl⟩
    · right; rw [a1, a2]; exact ⟨rfl, rfl⟩
  have hheight : (∃ x r, readHeight (f :: fs) = some (x :: r) ∧ readHeight [f] = some [x]) ∨
      (readHeight (f :: fs) = none ∧ readHeight [f] = none) := by
    unfold readHeight
    cases hf : f "ScienceData/height".toList with
    | some v =>
      obtain ⟨r, hr⟩ := hread _ v hf
      have hr' : readMany [f] "ScienceData/height".toList = .ok [v] := by simp only [readMany, hf]
      rw [hr, hr']
      exact Or.inl ⟨v, r, rfl, rfl⟩
    | none =>
      obtain ⟨e1, e2⟩ := hnone _ hf
      rw [e1, e2]
      simp only
      cases hf : f "ScienceData/sample_altitude".toList with
      | some v =>
        obtain ⟨r, hr⟩ := hread _ v hf
        have hr' : readMany [f] "ScienceData/sample_altitude".toList = .ok [v] := by simp only [readMany, hf]
        rw [hr, hr']
        exact Or.inl ⟨v, r, rfl, rfl⟩
      | none =>
        obtain ⟨e1, e2⟩ := hnone _ hf
        rw [e1, e2]
        exact Or.inr ⟨rfl, rfl⟩
  have hz : ∀ d req kn, zCoord ofNat (readHeight (f :: fs)) d req kn = zCoord ofNat (readHeight [f]) d req kn := by
    intro d req kn
    rcases hheight with ⟨x, r, e1, e2⟩ | ⟨e1, e2⟩ <;> rw [e1, e2]
    rfl
  have hgeo' : (∃ x y z r1 r2 r3, readGeo (f :: fs) = some (x :: r1, y :: r2, z :: r3) ∧ readGeo [f] = some ([x], [y], [z])) ∨
      (readGeo (f :: fs) = none ∧ readGeo [f] = none) := by
    unfold readGeo
    simp only
    rcases hgeo "ScienceData/longitude".toList "ScienceData/latitude".toList "ScienceData/time".toList with
      ⟨x, y, z, r1, r2, r3, a1, a2, a3, b1, b2, b3⟩ | ⟨a1, a2⟩
    · rw [a1, a2, a3, b1, b2, b3]
      exact Or.inl ⟨x, y, z, r1, r2, r3, rfl, rfl⟩
    · rw [a1, a2]
      simp only
      rcases hgeo "ScienceData/ellipsoid_longitude".toList "ScienceData/ellipsoid_latitude".toList "ScienceData/time".toList with
        ⟨x, y, z, r1, r2, r3, a1, a2, a3, b1, b2, b3⟩ | ⟨a1, a2⟩
      · rw [a1, a2, a3, b1, b2, b3]
        exact Or.inl ⟨x, y, z, r1, r2, r3, rfl, rfl⟩
      · rw [a1, a2]
        exact Or.inr ⟨rfl, rfl⟩
  have hcoords : ∀ nm, createCoords ofNat (f :: fs) nm = createCoords ofNat [f] nm := by
    intro nm
    unfold createCoords
    rcases hgeo' with ⟨x, y, z, r1, r2, r3, e1, e2⟩ | ⟨e1, e2⟩
    · rw [e1, e2]
      simp only
      cases hf : f nm with
      | none =>
        obtain ⟨e3, e4⟩ := hnone nm hf
        rw [e3, e4]
      | some v =>
        obtain ⟨r, hr⟩ := hread nm v hf
        have hr' : readMany [f] nm = .ok [v] := by simp [readMany, hf]
        rw [hr, hr']
        simp only [hz]
    · rw [e1, e2]
  unfold createData
  cases hp : parseName name with
  | error e => rfl
  | ok p =>
    obtain ⟨nm, n⟩ := p
    simp only [hcoords]
    cases hf : f nm with
    | none =>
      obtain ⟨e3, e4⟩ := hnone nm hf
      rw [e3, e4]
    | some v =>
      obtain ⟨r, hr⟩ := hread nm v hf
      have hr' : readMany [f] nm = .ok [v] := by simp [readMany, hf]
      rw [hr, hr']

/-- C93 is violated by data that do not have the track first: the coordinates are spread along the wrong dimension, with no error.
For data of dimensions (height, track), both of length n, the longitude of element (i, j) is that of position i of the track. -/
theorem c93_track_second_violated (a : Arr V) (n : Nat) (ha : a.shape = [n]) :
    ∃ c, geoCoord a [n, n] = .ok (some c) ∧ ∀ i j, i < n → j < n → c.get [i, j] = a.get [i] := by
  obtain ⟨c, h1, -, -, h4⟩ := c93_track_coord a n n ha
  exact ⟨c, h1, fun i j hi hj => h4 i j (.cons hi (.cons hj .nil))⟩

/-- C93 is violated by data of dimensions (height, track) with different lengths: the coordinates have another shape than the data. -/
theorem c93_track_second_shape_violated (a : Arr V) (n m : Nat) (ha : a.shape = [n]) :
    ∃ c, geoCoord a [m, n] = .ok (some c) ∧ c.shape = [n, n] := by
  refine ⟨expandRows a n, by simp [geoCoord, ha], by simp [expandRows, ha]⟩

/-- A file for the examples: two positions along the track, three heights, two bands. -/
def exFile : File Nat := fun nm =>
  if nm = "v".toList then some ⟨["band", "along_track", "height"], ⟨[2, 2, 3], fun i => 100 * i.headD 0 + 10 * i.tail.headD 0 + i.tail.tail.headD 0⟩⟩
  else if nm = "ScienceData/longitude".toList then some ⟨["along_track"], ⟨[2], fun i => 500 + i.headD 0⟩⟩
  else if nm = "ScienceData/latitude".toList then some ⟨["along_track"], ⟨[2], fun i => 600 + i.headD 0⟩⟩
  else if nm = "ScienceData/time".toList then some ⟨["along_track"], ⟨[2], fun i => 700 + i.headD 0⟩⟩
  else none

example : parseName "v_BANDNUM_1".toList = .ok ("v".toList, some 1) := by decide +kernel

example : (match createData id [exFile] "v_BANDNUM_1".toList with
    | .ok (d, cs) => (d.shape, d.get [1, 2], cs.x.map (·.shape), cs.x.map (·.get [1, 2]), cs.z.isNone)
    | .error _ => ([], 0, none, none, false)) = ([2, 3], 112, some [2, 3], some 501, true) := by decide +kernel

example : ∃ v, exFile "v".toList = some v ∧ requiredShape v = .ok [2, 3] ∧
    Spec.FirstKnown v ("band", "_BANDNUM_".toList, 0) := by
  refine ⟨_, rfl, rfl, [("class", "_CLASSNUM_".toList, 2), ("aerosol_components", "_AEROSOL_COMPONENTSNUM_".toList, 2)],
    [("VNS_band", "_BANDNUM_".toList, 0), ("background", "_BACKGROUNDNUM_".toList, 1)], rfl, by simp, by simp⟩

end Cis.EarthCare
