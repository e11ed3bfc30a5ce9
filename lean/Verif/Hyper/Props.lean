import Verif.Hyper.Spec
import Verif.Geo.Spec
import Verif.Geo.Props
import Mathlib.Algebra.Order.AbsoluteValue.Basic
import Mathlib.Tactic.Linarith
import Mathlib.Tactic.NormNum
set_option linter.unusedSectionVars false
set_option linter.unusedSimpArgs false
/-! Property C42: points. -/
namespace Cis.Hyper

section
variable {K : Type} [Field K] [LinearOrder K] [IsStrictOrderedRing K]

/-- C42. Time and altitude separations are symmetric, not negative, and zero only for equal values. -/
theorem c42_abs_sep (a b : K) : absSep a b = absSep b a ∧ 0 ≤ absSep a b ∧ (absSep a b = 0 ↔ a = b) := by
  refine ⟨abs_sub_comm a b, abs_nonneg _, ?_⟩
  rw [absSep, abs_eq_zero, sub_eq_zero]

/-- C42. The pressure separation of positive pressures is symmetric, at least 1, and 1 only for equal pressures. -/
theorem c42_pres_sep (a b : K) (ha : 0 < a) (hb : 0 < b) :
    presSep a b = presSep b a ∧ 1 ≤ presSep a b ∧ (presSep a b = 1 ↔ a = b) := by
  unfold presSep
  rcases lt_trichotomy a b with h | h | h
  · rw [if_neg (not_lt.2 h.le), if_pos h]
    refine ⟨rfl, (one_le_div₀ ha).2 h.le, ?_⟩
    rw [div_eq_one_iff_eq ha.ne']
    exact eq_comm
  · subst h; simp [ha.ne']
  · rw [if_pos h, if_neg (not_lt.2 h.le)]
    refine ⟨rfl, (one_le_div₀ hb).2 h.le, ?_⟩
    rw [div_eq_one_iff_eq hb.ne']

/-- C42. `comptime` and `compalt` are true exactly if the second candidate is strictly nearer. -/
theorem c42_comp_abs (self p1 p2 : K) : compAbs self p1 p2 = true ↔ |self - p2| < |self - p1| := by
  simp [compAbs, absSep]

end

/-- C42. `comppres` is true exactly if the second candidate is strictly nearer on a logarithmic scale. -/
theorem c42_comp_pres (self p1 p2 : ℝ) (h : 0 < self) (h1 : 0 < p1) (h2 : 0 < p2) :
    compPres self p1 p2 = true ↔ Spec.logDist self p2 < Spec.logDist self p1 := by
  have key : ∀ p, 0 < p → Real.log (presSep self p) = Spec.logDist self p := by
    intro p hp
    unfold presSep Spec.logDist
    split
    · rename_i hlt
      rw [Real.log_div h.ne' hp.ne', abs_of_nonneg]
      have := Real.log_le_log hp (le_of_lt hlt)
      linarith
    · rename_i hlt
      rw [Real.log_div hp.ne' h.ne', abs_of_nonpos, neg_sub]
      have := Real.log_le_log h (not_lt.1 hlt)
      linarith
  have pos : ∀ p, 0 < p → 0 < presSep self p := fun p hp => lt_of_lt_of_le one_pos (c42_pres_sep self p h hp).2.1
  rw [← key p1 h1, ← key p2 h2, Real.log_lt_log_iff (pos p2 h2) (pos p1 h1)]
  simp [compPres]

/-- C42. `compdist` is true exactly if the second candidate is strictly nearer along the great circle. -/
theorem c42_comp_dist (self p1 p2 : ℝ × ℝ) :
    compDist self p1 p2 = true ↔
      Geo.Spec.greatCircle Geo.radiusEarth self.1 self.2 p2.1 p2.2 < Geo.Spec.greatCircle Geo.radiusEarth self.1 self.2 p1.1 p1.2 := by
  have h := fun a b c d => (Geo.c58_haversine_great_circle a b c d).1
  simp only [compDist, decide_eq_true_eq, h]
  exact Iff.rfl

example : compAbs (5 : ℚ) 9 4 = true := by rw [c42_comp_abs]; norm_num [abs_lt]

section
variable {D K V : Type}

/-- C42. `modified` replaces the latitude, longitude, altitude and pressure that are given and the time if it is given as a datetime,
and keeps the others; a single value replaces the values. Missing: times given as numbers and lists of values, for which it is
false. -/
theorem c42_modified (conv : D → K) (p : HP K (Item V)) (lat lon alt pres : Option K) (t : Option D) (v : Option V) :
    modified conv p lat lon alt pres (t.map .datetime) (match v with | none => .none | some v => .scalar v) =
      ⟨lat.or p.lat, lon.or p.lon, alt.or p.alt, pres.or p.pres, (t.map conv).or p.time,
        (v.map (fun v => [Item.atom v])).getD p.val⟩ := by
  cases lat <;> cases lon <;> cases alt <;> cases pres <;> cases t <;> cases v <;> rfl

/-- C42 is violated: a time given as a number is ignored. -/
theorem c42_modified_time_violated (conv : D → K) (p : HP K (Item V)) (t : K) :
    modified conv p none none none none (some (.num t)) .none = p := rfl

/-- C42 is violated: values given as a list are put into a list once more, unlike what the constructor does. -/
theorem c42_modified_val_violated (conv : D → K) (p : HP K (Item V)) (v : V) :
    (modified conv p none none none none none (.seq [v])).val = [.nested [v]] ∧
    (make conv none none none none none (.seq [v])).val = [.atom v] := ⟨rfl, rfl⟩

/-- C42. Two points are the same in space and time iff all five coordinates agree. -/
theorem c42_same_point [DecidableEq K] (p q : HP K V) :
    samePoint p q = true ↔ ∀ n ∈ Spec.names, Spec.component p n = Spec.component q n := by
  simp only [samePoint, samePointInSpace, samePointInTime, Bool.and_eq_true, beq_iff_eq, Spec.names, List.forall_mem_cons,
    List.not_mem_nil, false_imp_iff, implies_true, and_true]
  simp [Spec.component]
  tauto

/-- C42. The coordinate tuple lists exactly the coordinates that are there, in alphabetical order (so altitude before latitude and
longitude). -/
theorem c42_coord_tuple (p : HP K V) :
    coordTuple p = ["air_pressure", "altitude", "latitude", "longitude", "time"].filterMap
      (fun n => (Spec.component p n).map (fun y => (n, y))) := by
  have h1 : ("latitude" ≤ "longitude") = True := by decide
  have h2 : ("latitude" ≤ "altitude") = False := by decide
  have h3 : ("latitude" ≤ "air_pressure") = False := by decide
  have h4 : ("latitude" ≤ "time") = True := by decide
  have h5 : ("longitude" ≤ "altitude") = False := by decide
  have h6 : ("longitude" ≤ "air_pressure") = False := by decide
  have h7 : ("longitude" ≤ "time") = True := by decide
  have h8 : ("altitude" ≤ "air_pressure") = False := by decide
  have h9 : ("altitude" ≤ "time") = True := by decide
  have h10 : ("air_pressure" ≤ "time") = True := by decide
  obtain ⟨la, lo, al, pr, ti, v⟩ := p
  cases la <;> cases lo <;> cases al <;> cases pr <;> cases ti <;>
    simp [coordTuple, Spec.component, List.insertionSort, List.orderedInsert, h1, h2, h3, h4, h5, h6, h7, h8, h9, h10]

end

/-! ### `hyper_point` -/

section
variable {K V : Type}

/-- C67. Exactly what `hyper_point` gives: pressure and time are exchanged. -/
theorem c67_hyper_point_exact (latitude longitude altitude airPressure time : K) (val : ValArg V) :
    let p := hyperPoint latitude longitude altitude airPressure time val
    p.lat = some latitude ∧ p.lon = some longitude ∧ p.alt = some altitude ∧ p.pres = some time ∧ p.time = some airPressure :=
  ⟨rfl, rfl, rfl, rfl, rfl⟩

/-- C67 is violated: whenever pressure and time differ, both are wrong in the point. -/
theorem c67_hyper_point_violated (latitude longitude altitude airPressure time : K) (val : ValArg V) (h : airPressure ≠ time) :
    (hyperPoint latitude longitude altitude airPressure time val).pres ≠ some airPressure ∧
    (hyperPoint latitude longitude altitude airPressure time val).time ≠ some time := by
  refine ⟨?_, ?_⟩ <;> simp [hyperPoint, make, TimeArg.std, h, Ne.symm h]

/-- C67. Latitude, longitude, altitude and value are in their places. Missing: pressure and time. -/
theorem c67_hyper_point_partial (latitude longitude altitude airPressure time : K) (v : V) :
    let p := hyperPoint latitude longitude altitude airPressure time (.scalar v)
    Spec.component p "latitude" = some latitude ∧ Spec.component p "longitude" = some longitude ∧
      Spec.component p "altitude" = some altitude ∧ p.val = [.atom v] := by
  refine ⟨?_, ?_, ?_, rfl⟩ <;> simp [Spec.component, hyperPoint, make]

end

/-! ### Longitude range of views -/

section
variable {K : Type} [Field K] [LinearOrder K] [IsStrictOrderedRing K]

/-- C69. On longitudes from 360 degrees below the start to 720 above, both views give a longitude in the range asked for, the same
modulo 360. -/
theorem c69_view_longitude (start l : K) (h1 : start - 360 ≤ l) (h2 : l < start + 720) :
    (start ≤ uShift start l ∧ uShift start l < start + 360 ∧ ∃ k : ℤ, uShift start l = l + 360 * k) ∧
    gShift start l = uShift start l := by
  unfold uShift gShift
  simp only
  split
  · rename_i h
    rw [if_neg (by linarith)]
    refine ⟨⟨by linarith, by linarith, 1, by simp⟩, rfl⟩
  · rename_i h
    rw [not_lt] at h
    split
    · rename_i h'
      refine ⟨⟨by linarith, by linarith, -1, by push_cast; ring⟩, rfl⟩
    · rename_i h'
      rw [ge_iff_le, not_le] at h'
      exact ⟨⟨h, h', 0, by simp⟩, rfl⟩

/-- C69 is violated: a longitude further away is not brought into the range. -/
theorem c69_view_longitude_violated : ∃ start l : ℚ, ¬ (uShift start l < start + 360) ∧ ¬ (gShift start l < start + 360) :=
  ⟨-180, 540, by norm_num [uShift], by norm_num [gShift]⟩

example : uShift (-180 : ℚ) 350 = -10 := by norm_num [uShift]

end

end Cis.Hyper
