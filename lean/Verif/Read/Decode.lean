import Mathlib.Data.Rat.Floor
import Mathlib.Tactic
set_option linter.unusedSectionVars false
set_option linter.unusedSimpArgs false
/-!
Model of the decoding of stored values: `netcdf.get_data`, `apply_offset_and_scaling` (cis/data_io/netcdf.py:253-319),
`hdf_sd.get_data` (cis/data_io/hdf_sd.py:165-198), `_get_MODIS_SDS_data` (products/MODIS.py:8-62) and `_get_calipso_data`
(products/caliop.py:154-231). Property C75.

Arrays are lists of elements, `none` being a masked element; numbers are rational (no rounding or overflow). The files are
parameters: what is stored and the attributes.
-/
namespace Cis.Read

/-- Masked array. -/
abbrev MA := List (Option ℚ)

/-- A numeric attribute and whether its type is an integer type. -/
structure Num where
  val : ℚ
  isInt : Bool

/-- Ways to fail. -/
inductive Err
  | type   -- TypeError
  | value  -- ValueError
deriving DecidableEq

/-- `np.ma.masked_where(cond(x), x)`: masked elements stay masked. -/
def maskWhere (cond : ℚ → Bool) (a : MA) : MA := a.map (fun x => x.bind (fun v => if cond v then none else some v))

/-- `np.ma.masked_greater`. -/
def maskedGreater (a : MA) (v : ℚ) : MA := maskWhere (fun x => decide (x > v)) a

/-- `np.ma.masked_less`. -/
def maskedLess (a : MA) (v : ℚ) : MA := maskWhere (fun x => decide (x < v)) a

/-- `np.ma.masked_outside`: the limits are exchanged if given the wrong way round. -/
def maskedOutside (a : MA) (v1 v2 : ℚ) : MA :=
  if v2 < v1 then maskWhere (fun x => decide (x < v2) || decide (x > v1)) a
  else maskWhere (fun x => decide (x < v1) || decide (x > v2)) a

/-- Arithmetic on unmasked elements. -/
def arith (f : ℚ → ℚ) (a : MA) : MA := a.map (Option.map f)

/-- `np.array(value, dtype)`: truncation towards zero for integer types. -/
def cast (isInt : Bool) (v : ℚ) : ℚ := if isInt then (if 0 ≤ v then (⌊v⌋ : ℚ) else (⌈v⌉ : ℚ)) else v

/-- `apply_offset_and_scaling` (netcdf.py:296-319); `isInt` says that the data have an integer type, for which the
operations in place with a non-integer number raise TypeError (numpy's casting rule). -/
def applyOffsetAndScaling (isInt : Bool) (a : MA) (offset scale : Option Num) : Except Err MA :=
  let second (_ : Unit) : Except Err MA :=
    match offset with
    | some o =>
      if o.val ≠ 0 then
        if isInt && !o.isInt then .error .type else .ok (arith (fun x => x + o.val) a)
      else .ok a
    | none => .ok a
  let first (_ : Unit) : Except Err MA :=
    match scale with
    | some s =>
      if s.val ≠ 1 then
        if isInt && !s.isInt then .error .type else .ok (arith (fun x => x * s.val) a)
      else second ()
    | none => second ()
  match scale, offset with
  | some s, some o => if o.val ≠ 0 ∨ s.val ≠ 1 then .ok (arith (fun x => x * s.val + o.val) a) else first ()
  | _, _ => first ()

/-- A NetCDF variable: type, stored values, the missing value, and attributes. `valid_max` and `valid_min` are absent, or
numbers, or (`some none`) not convertible to the type of the data; `valid_range` is absent, a pair, or not a pair of numbers. -/
structure NcVar where
  isInt : Bool
  stored : List ℚ
  missing : Option ℚ
  validMax : Option (Option ℚ)
  validMin : Option (Option ℚ)
  validRange : Option (Option (ℚ × ℚ))
  addOffset : Option Num
  scaleFactor : Option Num

/-- `var[:]` after `set_auto_maskandscale(False)` (netcdf.py:262-265). `auto`: the netCDF4 library nevertheless masks missing
values, as the comment in the code says. -/
def rawData (auto : Bool) (v : NcVar) : MA :=
  v.stored.map (fun x => if auto ∧ v.missing = some x then none else some x)

/-- Lines 267-275. -/
def maskMax (v : NcVar) (a : MA) : MA :=
  match v.validMax with
  | some (some m) => maskedGreater a (cast v.isInt m)
  | _ => a

/-- Lines 277-285. -/
def maskMin (v : NcVar) (a : MA) : MA :=
  match v.validMin with
  | some (some m) => maskedLess a (cast v.isInt m)
  | _ => a

/-- Lines 287-292. -/
def maskRange (v : NcVar) (a : MA) : MA :=
  match v.validRange with
  | some (some r) => maskedOutside a r.1 r.2
  | _ => a

/-- `netcdf.get_data` (netcdf.py:253-293). -/
def ncGetData (auto : Bool) (v : NcVar) : Except Err MA :=
  applyOffsetAndScaling v.isInt (maskRange v (maskMin v (maskMax v (rawData auto v)))) v.addOffset v.scaleFactor

/-- An HDF4 scientific data set: type, stored values and attributes. -/
structure Sds where
  isInt : Bool
  stored : List ℚ
  fillValue : Option ℚ
  validRange : Option (ℚ × ℚ)
  addOffset : Option Num
  scaleFactor : Option Num

/-- `create_masked_array_for_missing_data` (utils.py:138-140) where a missing value is given. -/
def maskFill (fill : Option ℚ) (l : List ℚ) : MA := l.map (fun x => if fill = some x then none else some x)

/-- The valid range of HDF4 data (hdf_sd.py:189-192, MODIS.py:30-34). -/
def maskRangeSd (r : Option (ℚ × ℚ)) (a : MA) : MA :=
  match r with
  | some r => maskedOutside a r.1 r.2
  | none => a

/-- `hdf_sd.get_data` (hdf_sd.py:165-198): the defaults are 0.0 and 1.0. -/
def sdGetData (d : Sds) : Except Err MA :=
  applyOffsetAndScaling d.isInt (maskRangeSd d.validRange (maskFill d.fillValue d.stored))
    (some (d.addOffset.getD ⟨0, false⟩)) (some (d.scaleFactor.getD ⟨1, false⟩))

/-- `_get_MODIS_SDS_data` (MODIS.py:8-62). -/
def modisGetData (d : Sds) : MA :=
  arith (fun x => (x - (d.addOffset.map Num.val).getD 0) * (d.scaleFactor.map Num.val).getD 1)
    (maskRangeSd d.validRange (maskFill d.fillValue d.stored))

/-- A CALIOP data set: `fillvalue`, `format` (as the fill value of the table, if it is there) and `_FillValue`; the numbers
of `valid_range.split("...")` if they can be converted (`some none` if not). -/
structure CalSds where
  stored : List ℚ
  fillvalue : Option ℚ
  formatFill : Option ℚ
  fillValue : Option ℚ
  validRange : Option (Option (List ℚ))
  addOffset : Option ℚ
  scaleFactor : Option ℚ

/-- Which missing value is used (caliop.py:180-189). -/
def calFill (d : CalSds) : Option ℚ :=
  match d.fillvalue with
  | some f => some f
  | none =>
    match d.formatFill with
    | some f => some f
    | none => d.fillValue

/-- `_get_calipso_data` (caliop.py:154-231); division by a scale factor of zero is not described. -/
def calGetData (d : CalSds) : Except Err MA :=
  let a := maskFill (calFill d) d.stored
  let scaled (a : MA) : Except Err MA := .ok (arith (fun x => x / d.scaleFactor.getD 1 + d.addOffset.getD 0) a)
  match d.validRange with
  | none => scaled a
  | some none => .error .value
  | some (some [lo, hi]) => scaled (maskedOutside a lo hi)
  | some (some _) => scaled a

/-! ### Specification -/
namespace Spec

/-- Decoding of one stored value: `bad` values are missing, the others are transformed. -/
def decode (bad : ℚ → Prop) [DecidablePred bad] (f : ℚ → ℚ) (x : ℚ) : Option ℚ := if bad x then none else some (f x)

/-- Values that the attributes of a NetCDF variable declare invalid. -/
def NcBad (v : NcVar) (x : ℚ) : Prop :=
  v.missing = some x ∨ (∃ m, v.validMax = some (some m) ∧ m < x) ∨ (∃ m, v.validMin = some (some m) ∧ x < m) ∨
    ∃ lo hi, v.validRange = some (some (lo, hi)) ∧ (x < lo ∨ hi < x)

/-- Values that the attributes of a data set declare invalid. -/
def SdBad (fill : Option ℚ) (range : Option (ℚ × ℚ)) (x : ℚ) : Prop :=
  fill = some x ∨ ∃ lo hi, range = some (lo, hi) ∧ (x < lo ∨ hi < x)

/-- The value of an attribute or its default. -/
def attr (d : ℚ) (n : Option Num) : ℚ := (n.map Num.val).getD d

end Spec

/-! ### Proofs -/

theorem applyOffsetAndScaling_ok (isInt : Bool) (a : MA) (offset scale : Option Num) (r : MA)
    (h : applyOffsetAndScaling isInt a offset scale = .ok r) : r = arith (fun x => x * Spec.attr 1 scale + Spec.attr 0 offset) a := by
  have hid : arith (fun x => x * 1 + 0) a = a := by
    unfold arith
    conv_rhs => rw [← List.map_id a]
    apply List.map_congr_left
    intro x _
    cases x <;> simp
  unfold applyOffsetAndScaling at h
  cases scale with
  | none =>
    cases offset with
    | none => simp at h; rw [← h]; simpa [Spec.attr] using hid.symm
    | some o =>
      simp only at h
      split at h
      · split at h
        · cases h
        · cases h; simp [Spec.attr]
      · rename_i ho
        cases h
        rw [not_ne_iff] at ho
        simpa [Spec.attr, ho] using hid.symm
  | some s =>
    cases offset with
    | none =>
      simp only at h
      split at h
      · split at h
        · cases h
        · cases h; simp [Spec.attr]
      · rename_i hs
        cases h
        rw [not_ne_iff] at hs
        simpa [Spec.attr, hs] using hid.symm
    | some o =>
      simp only at h
      split at h
      · cases h; simp [Spec.attr]
      · rename_i hn
        rw [not_or, not_ne_iff, not_ne_iff] at hn
        rw [if_neg (by simp [hn.2]), if_neg (by simp [hn.1])] at h
        cases h
        simpa [Spec.attr, hn.1, hn.2] using hid.symm

/-- Scaling fails exactly for integer data with one non-integer attribute that matters. -/
theorem applyOffsetAndScaling_error (isInt : Bool) (a : MA) (offset scale : Option Num) (e : Err) :
    applyOffsetAndScaling isInt a offset scale = .error e ↔ e = .type ∧ isInt = true ∧
      ((offset = none ∧ ∃ s, scale = some s ∧ s.val ≠ 1 ∧ s.isInt = false) ∨
       (scale = none ∧ ∃ o, offset = some o ∧ o.val ≠ 0 ∧ o.isInt = false)) := by
  unfold applyOffsetAndScaling
  cases scale with
  | none =>
    cases offset with
    | none => simp
    | some o =>
      simp only
      by_cases h : o.val = 0
      · simp [h]
      · rw [if_pos h]
        cases isInt <;> cases ho : o.isInt <;> cases e <;> simp [h, ho]
  | some s =>
    cases offset with
    | none =>
      simp only
      by_cases h : s.val = 1
      · simp [h]
      · rw [if_pos h]
        cases isInt <;> cases ho : s.isInt <;> cases e <;> simp [h, ho]
    | some o =>
      simp only
      by_cases h : o.val = 0
      · by_cases h' : s.val = 1
        · simp [h, h']
        · simp [h, h']
      · simp [h]

theorem maskedOutside_le (a : MA) {lo hi : ℚ} (h : lo ≤ hi) :
    maskedOutside a lo hi = maskWhere (fun x => decide (x < lo) || decide (x > hi)) a := by
  unfold maskedOutside
  rw [if_neg (not_lt.2 h)]

open Classical in
/-- C75 for NetCDF: if the call succeeds, every stored value is either masked, when the attributes declare it invalid, or
scaled exactly once. Needed: the library masks missing values, limits are numbers of the type of the data, and the range is
given in order. -/
theorem c75_netcdf (v : NcVar) (hmax : ∀ m, v.validMax = some (some m) → cast v.isInt m = m)
    (hmin : ∀ m, v.validMin = some (some m) → cast v.isInt m = m) (hr : ∀ lo hi, v.validRange = some (some (lo, hi)) → lo ≤ hi)
    (r : MA) (h : ncGetData true v = .ok r) :
    r = v.stored.map (Spec.decode (Spec.NcBad v) (fun x => x * Spec.attr 1 v.scaleFactor + Spec.attr 0 v.addOffset)) := by
  rw [applyOffsetAndScaling_ok _ _ _ _ _ h]
  have hm : maskRange v (maskMin v (maskMax v (rawData true v))) =
      v.stored.map (fun x => if Spec.NcBad v x then none else some x) := by
    have h0 : rawData true v = v.stored.map (fun x => if v.missing = some x then none else some x) := by
      unfold rawData; simp
    have h1 : ∀ l : List (ℚ × Bool), maskMax v (l.map (fun p => if p.2 then none else some p.1)) =
        l.map (fun p => if p.2 || decide (∃ m, v.validMax = some (some m) ∧ m < p.1) then none else some p.1) := by
      intro l
      unfold maskMax
      split
      · rename_i m hm
        rw [hmax m hm, maskedGreater, maskWhere, List.map_map]
        apply List.map_congr_left
        intro p _
        cases hp : p.2 <;> simp [hp, hm]
      · rename_i hn
        apply List.map_congr_left
        intro p _
        have : ¬ ∃ m, v.validMax = some (some m) ∧ m < p.1 := fun ⟨m, hm, _⟩ => hn m hm
        simp [this]
    have h2 : ∀ l : List (ℚ × Bool), maskMin v (l.map (fun p => if p.2 then none else some p.1)) =
        l.map (fun p => if p.2 || decide (∃ m, v.validMin = some (some m) ∧ p.1 < m) then none else some p.1) := by
      intro l
      unfold maskMin
      split
      · rename_i m hm
        rw [hmin m hm, maskedLess, maskWhere, List.map_map]
        apply List.map_congr_left
        intro p _
        cases hp : p.2 <;> simp [hp, hm]
      · rename_i hn
        apply List.map_congr_left
        intro p _
        have : ¬ ∃ m, v.validMin = some (some m) ∧ p.1 < m := fun ⟨m, hm, _⟩ => hn m hm
        simp [this]
    have h3 : ∀ l : List (ℚ × Bool), maskRange v (l.map (fun p => if p.2 then none else some p.1)) =
        l.map (fun p => if p.2 || decide (∃ lo hi, v.validRange = some (some (lo, hi)) ∧ (p.1 < lo ∨ hi < p.1)) then none else some p.1) := by
      intro l
      unfold maskRange
      split
      · rename_i m hm
        obtain ⟨lo, hi⟩ := m
        rw [maskedOutside_le _ (hr lo hi hm), maskWhere, List.map_map]
        apply List.map_congr_left
        intro p _
        cases hp : p.2
        · by_cases h1 : p.1 < lo
          · simp [hp, hm, h1]
          · by_cases h2 : hi < p.1
            · simp [hp, hm, h2]
            · have : ¬ ∃ a b, (lo = a ∧ hi = b) ∧ (p.1 < a ∨ b < p.1) := by
                rintro ⟨a, b, ⟨rfl, rfl⟩, h | h⟩
                · exact h1 h
                · exact h2 h
              simp [hp, hm, h1, h2, this]
        · simp [hp]
      · rename_i hn
        apply List.map_congr_left
        intro p _
        have : ¬ ∃ lo hi, v.validRange = some (some (lo, hi)) ∧ (p.1 < lo ∨ hi < p.1) := fun ⟨lo, hi, hm, _⟩ => hn (lo, hi) hm
        simp [this]
    have e0 : rawData true v = (v.stored.map (fun x => (x, decide (v.missing = some x)))).map
        (fun p => if p.2 then none else some p.1) := by
      rw [h0, List.map_map]
      apply List.map_congr_left
      intro x _
      simp
    have step : ∀ (l : List (ℚ × Bool)) (P : ℚ → Prop), l.map (fun p => if p.2 || decide (P p.1) then none else some p.1) =
        (l.map (fun p => (p.1, p.2 || decide (P p.1)))).map (fun p => if p.2 then none else some p.1) := by
      intro l P
      rw [List.map_map]; rfl
    rw [e0, h1, step _ (fun x => ∃ m, v.validMax = some (some m) ∧ m < x), h2,
      step _ (fun x => ∃ m, v.validMin = some (some m) ∧ x < m), h3, List.map_map, List.map_map, List.map_map]
    apply List.map_congr_left
    intro x _
    simp only [Function.comp, Spec.NcBad]
    congr 1
    simp only [Bool.or_eq_true, decide_eq_true_eq, or_assoc]
  rw [hm, arith, List.map_map]
  apply List.map_congr_left
  intro x _
  unfold Spec.decode
  simp only [Function.comp]
  split <;> simp

open Classical in
/-- C75 for HDF4 data sets: always succeeds, and every value is masked or scaled exactly once. -/
theorem c75_hdf_sd (d : Sds) (hr : ∀ lo hi, d.validRange = some (lo, hi) → lo ≤ hi) :
    sdGetData d = .ok (d.stored.map (Spec.decode (Spec.SdBad d.fillValue d.validRange)
      (fun x => x * Spec.attr 1 d.scaleFactor + Spec.attr 0 d.addOffset))) ∧
    modisGetData d = d.stored.map (Spec.decode (Spec.SdBad d.fillValue d.validRange)
      (fun x => (x - Spec.attr 0 d.addOffset) * Spec.attr 1 d.scaleFactor)) := by
  have hm : maskRangeSd d.validRange (maskFill d.fillValue d.stored) =
      d.stored.map (fun x => if Spec.SdBad d.fillValue d.validRange x then none else some x) := by
    unfold maskRangeSd maskFill
    cases hv : d.validRange with
    | none =>
      simp only
      apply List.map_congr_left
      intro x _
      simp [Spec.SdBad]
    | some r =>
      obtain ⟨lo, hi⟩ := r
      simp only
      rw [maskedOutside_le _ (hr lo hi hv), maskWhere, List.map_map]
      apply List.map_congr_left
      intro x _
      simp only [Function.comp]
      by_cases hf : d.fillValue = some x
      · simp [hf, Spec.SdBad]
      · by_cases h1 : x < lo
        · have : Spec.SdBad d.fillValue (some (lo, hi)) x := Or.inr ⟨lo, hi, rfl, Or.inl h1⟩
          simp [hf, h1, this]
        · by_cases h2 : hi < x
          · have : Spec.SdBad d.fillValue (some (lo, hi)) x := Or.inr ⟨lo, hi, rfl, Or.inr h2⟩
            simp [hf, h2, this]
          · have : ¬ Spec.SdBad d.fillValue (some (lo, hi)) x := by
              rintro (h | ⟨a, b, he, h⟩)
              · exact hf h
              · cases he; tauto
            simp [hf, h1, h2, this]
  constructor
  · unfold sdGetData
    rcases hres : applyOffsetAndScaling d.isInt (maskRangeSd d.validRange (maskFill d.fillValue d.stored))
      (some (d.addOffset.getD ⟨0, false⟩)) (some (d.scaleFactor.getD ⟨1, false⟩)) with e | r
    · have := (applyOffsetAndScaling_error _ _ _ _ e).1 hres
      simp at this
    · rw [applyOffsetAndScaling_ok _ _ _ _ _ hres, hm, arith, List.map_map]
      congr 1
      apply List.map_congr_left
      intro x _
      simp only [Function.comp, Spec.decode]
      have e1 : Spec.attr 1 (some (d.scaleFactor.getD ⟨1, false⟩)) = Spec.attr 1 d.scaleFactor := by
        cases d.scaleFactor <;> simp [Spec.attr]
      have e2 : Spec.attr 0 (some (d.addOffset.getD ⟨0, false⟩)) = Spec.attr 0 d.addOffset := by
        cases d.addOffset <;> simp [Spec.attr]
      rw [e1, e2]
      split <;> simp
  · unfold modisGetData
    rw [hm, arith, List.map_map]
    apply List.map_congr_left
    intro x _
    simp only [Function.comp, Spec.decode, Spec.attr]
    split <;> simp

open Classical in
/-- C75 for CALIOP: with a valid range that is absent or an ordered pair, every value is masked or scaled exactly once, the
missing value being the first one given of `fillvalue`, the one of the format, and `_FillValue`. -/
theorem c75_caliop (d : CalSds) (range : Option (ℚ × ℚ)) (hv : d.validRange = range.map (fun r => some [r.1, r.2]))
    (hr : ∀ lo hi, range = some (lo, hi) → lo ≤ hi) :
    calGetData d = .ok (d.stored.map (Spec.decode (Spec.SdBad (d.fillvalue.or (d.formatFill.or d.fillValue)) range)
      (fun x => x / d.scaleFactor.getD 1 + d.addOffset.getD 0))) := by
  have hf : calFill d = d.fillvalue.or (d.formatFill.or d.fillValue) := by
    unfold calFill
    cases d.fillvalue <;> cases d.formatFill <;> simp
  have h := (c75_hdf_sd ⟨false, d.stored, calFill d, range, none, none⟩ (by simpa using hr)).2
  unfold modisGetData at h
  simp only [Option.map_none, Option.getD_none, sub_zero, mul_one, Spec.attr] at h
  have h2 : maskRangeSd range (maskFill (calFill d) d.stored) =
      d.stored.map (fun x => if Spec.SdBad (calFill d) range x then none else some x) := by
    have : ∀ a : MA, arith (fun x => x) a = a := by
      intro a
      unfold arith
      conv_rhs => rw [← List.map_id a]
      apply List.map_congr_left
      intro x _
      cases x <;> simp
    rw [this] at h
    exact h
  have h3 : calGetData d = .ok (arith (fun x => x / d.scaleFactor.getD 1 + d.addOffset.getD 0)
      (maskRangeSd range (maskFill (calFill d) d.stored))) := by
    unfold calGetData
    rw [hv]
    cases range <;> rfl
  rw [h3, h2, arith, List.map_map, hf]
  congr 1
  apply List.map_congr_left
  intro x _
  simp only [Function.comp, Spec.decode]
  split <;> simp

/-- C75 is violated by integer NetCDF data with a scale factor but no offset (or the other way round): TypeError. -/
theorem c75_packed_integers_violated : ∃ v : NcVar, v.isInt = true ∧ v.addOffset = none ∧ v.scaleFactor = some ⟨1 / 10, false⟩ ∧
    (∀ auto, ncGetData auto v = .error .type) ∧ (∀ auto, ncGetData auto { v with addOffset := some ⟨0, false⟩ } = .ok [some (1 / 2)]) := by
  refine ⟨⟨true, [5], none, none, none, none, none, some ⟨1 / 10, false⟩⟩, rfl, rfl, rfl, ?_, ?_⟩
  · intro auto; cases auto <;> decide +kernel
  · intro auto; cases auto <;> decide +kernel

/-- C75 is violated by limits that are not numbers of the type of the data: they are rounded towards zero, so the value 1 is
kept though the valid minimum is 3/2, and -1 though the valid maximum is -3/2. -/
theorem c75_rounded_limits_violated : ncGetData true ⟨true, [1, 2], none, none, some (some (3 / 2)), none, none, none⟩ = .ok [some 1, some 2] ∧
    ncGetData true ⟨true, [-1, -2], none, some (some (-3 / 2)), none, none, none, none⟩ = .ok [some (-1), some (-2)] := by
  constructor <;> decide +kernel

/-- C75 is violated if the netCDF4 library, told not to mask, does not mask: missing values are returned as data, and scaled. -/
theorem c75_missing_not_masked_violated : ncGetData false ⟨false, [-999, 1], some (-999), none, none, none, none, some ⟨2, false⟩⟩ =
    .ok [some (-1998), some 2] := by decide +kernel

/-- The hypotheses are met by packed integers with limits. -/
example : ncGetData true ⟨true, [-999, 5, 20, 7], some (-999), some (some 10), some (some 6), some (some (0, 100)), some ⟨3, false⟩, some ⟨1 / 10, false⟩⟩
    = .ok [none, none, none, some (37 / 10)] ∧ cast true 10 = 10 ∧ cast true 6 = 6 := by
  refine ⟨by decide +kernel, by decide +kernel, by decide +kernel⟩

example : calGetData ⟨[-9999, 1, 7], none, some (-9999), some 7, some (some [0, 6]), some 1, some 2⟩ = .ok [none, some (3 / 2), none] := by
  decide +kernel

end Cis.Read
