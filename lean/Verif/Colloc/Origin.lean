import Verif.Colloc.Units
set_option linter.unusedSectionVars false
set_option linter.unusedSimpArgs false
/-!
Property C205 for ungridded collocation: the result depends only on differences of altitude and time and on ratios of pressure, so
that the origin and the units of those coordinates do not matter, provided separations are given in the same units. The model is that
of `Model.lean` (col_implementations.py:19-112, 211-361, 365-556).
-/
namespace Cis.Colloc
open Cis.Geo Cis.KDTree Real

/-- A change of origin and units of altitude (`x ↦ altScale x + altShift`), pressure (`x ↦ presScale x`) and time. -/
structure Spec.Change where
  altScale : ℝ
  altShift : ℝ
  presScale : ℝ
  timeScale : ℝ
  timeShift : ℝ

/-- Units are positive. -/
def Spec.Change.Valid (c : Spec.Change) : Prop := 0 < c.altScale ∧ 0 < c.presScale ∧ 0 < c.timeScale

/-- A place and time in the changed coordinates. -/
noncomputable def Spec.Change.place (c : Spec.Change) (p : Loc) : Loc :=
  ⟨p.lat, p.lon, c.altScale * p.alt + c.altShift, c.presScale * p.pres, c.timeScale * p.time + c.timeShift⟩

/-- Points in the changed coordinates. -/
noncomputable def Spec.Change.points (c : Spec.Change) (rows : List Row) : List Row := rows.map (fun r => ⟨c.place r.loc, r.val⟩)

/-- The separations in the changed units; a pressure separation is a ratio and has none. -/
noncomputable def Spec.Change.seps (c : Spec.Change) (s : Seps) : Seps :=
  ⟨s.h, s.a.map (fun a => c.altScale * a), s.p, s.t.map (fun t => c.timeScale * t)⟩

variable (c : Spec.Change)

/-- A data row in the changed coordinates. -/
noncomputable def mv (r : DRow) : DRow := ⟨c.place r.loc, r.val⟩

theorem dropna_mv (data : List Row) : dropna (c.points data) = (dropna data).map (mv c) := by
  unfold dropna Spec.Change.points
  rw [List.filterMap_map, List.map_filterMap]
  congr 1
  funext r
  simp only [Function.comp]
  cases r.val <;> rfl

theorem points_lons (data : List Row) : (c.points data).map (fun r => r.loc.lon) = data.map (fun r => r.loc.lon) := by
  unfold Spec.Change.points; rw [List.map_map]; rfl

theorem setLongitudeRange_mv (data : List Row) (w : ℝ) :
    setLongitudeRange (c.points data) w = c.points (setLongitudeRange data w) := by
  unfold setLongitudeRange
  rw [points_lons]
  unfold Spec.Change.points
  rw [List.zipWith_map_left, List.map_zipWith]
  rfl

theorem latLon_mv (d : List DRow) : latLon (d.map (mv c)) = latLon d := by
  funext i
  unfold latLon
  rw [List.getElem?_map]
  cases d[i]? <;> rfl

theorem sampleLatLon_mv (s : List Row) : sampleLatLon (c.points s) = sampleLatLon s := by
  funext i
  unfold sampleLatLon Spec.Change.points
  rw [List.getElem?_map]
  cases s[i]? <;> rfl

theorem treeSearch_mv (T : KD 2 ℝ) (s : List Row) : treeSearch T (c.points s) = treeSearch T s := by
  funext h i
  unfold treeSearch
  rw [sampleLatLon_mv]
  have : (c.points s).length = s.length := by unfold Spec.Change.points; simp
  rw [this]

theorem treeOf_mv (d : List DRow) : treeOf (d.map (mv c)) = treeOf d := by
  unfold treeOf; rw [latLon_mv, List.length_map]

theorem iloc_mv (f : List DRow) (idx : List Nat) : iloc (f.map (mv c)) idx = (iloc f idx).map (List.map (mv c)) := by
  unfold iloc
  induction idx with
  | nil => rfl
  | cons i t ih =>
    rw [List.mapM_cons, List.mapM_cons, ih, List.getElem?_map]
    cases f[i]? with
    | none => rfl
    | some r => cases List.mapM (fun i => f[i]?) t <;> rfl

theorem nonzero_mv (f : List DRow) (t t' : Loc → Bool) (h : ∀ p, t' (c.place p) = t p) : nonzero (f.map (mv c)) t' = nonzero f t := by
  unfold nonzero
  rw [List.length_map]
  congr 1
  funext i
  unfold entry
  rw [List.getElem?_map]
  cases f[i]? with
  | none => rfl
  | some r => simp [mv, h]

theorem near_iff (k A a x y : ℝ) (hk : 0 < k) : |(k * x + A) - (k * y + A)| < k * a ↔ |x - y| < a := by
  have : (k * x + A) - (k * y + A) = k * (x - y) := by ring
  rw [this, abs_mul, abs_of_pos hk, mul_lt_mul_iff_right₀ hk]

/-- The checks of the two problems, in the same order, select the same positions. -/
theorem kdChecks_mv (hc : c.Valid) (s : Seps) (ref : Loc) :
    List.Forall₂ (fun c1 c2 : List DRow → Loc → List Nat => ∀ f : List DRow, c1 (f.map (mv c)) (c.place ref) = c2 f ref)
      (kdChecks (c.seps s)) (kdChecks s) := by
  obtain ⟨h1, h2, h3⟩ := hc
  have hA : ∀ a : ℝ, ∀ f : List DRow, altCheck (c.altScale * a) (f.map (mv c)) (c.place ref) = altCheck a f ref := by
    intro a f
    refine nonzero_mv c f _ _ (fun p => decide_eq_decide.2 ?_)
    exact near_iff _ _ _ _ _ h1
  have hT : ∀ t : ℝ, ∀ f : List DRow, timeCheck (c.timeScale * t) (f.map (mv c)) (c.place ref) = timeCheck t f ref := by
    intro a f
    refine nonzero_mv c f _ _ (fun p => decide_eq_decide.2 ?_)
    exact near_iff _ _ _ _ _ h3
  have hP : ∀ q : ℝ, ∀ f : List DRow, presCheck q (f.map (mv c)) (c.place ref) = presCheck q f ref := by
    intro q f
    unfold presCheck
    rw [nonzero_mv c f (fun p => decide (ref.pres / p.pres < q) && decide (p.pres ≤ ref.pres)),
      nonzero_mv c f (fun p => decide (p.pres / ref.pres < q) && decide (p.pres > ref.pres))]
    · intro p
      have e : (c.place p).pres / (c.place ref).pres = p.pres / ref.pres := mul_div_mul_left _ _ h2.ne'
      exact congrArg₂ _ (by rw [e]) (decide_eq_decide.2 (mul_lt_mul_iff_right₀ h2))
    · intro p
      have e : (c.place ref).pres / (c.place p).pres = ref.pres / p.pres := mul_div_mul_left _ _ h2.ne'
      exact congrArg₂ _ (by rw [e]) (decide_eq_decide.2 (mul_le_mul_iff_right₀ h2))
  unfold kdChecks Spec.Change.seps
  refine List.rel_append (List.rel_append ?_ ?_) ?_
  · cases s.a with
    | none => exact .nil
    | some a => exact .cons (hA a) .nil
  · cases s.p with
    | none => exact .nil
    | some q => exact .cons (hP q) .nil
  · cases s.t with
    | none => exact .nil
    | some t => exact .cons (hT t) .nil

theorem applyChecks_mv (hc : c.Valid) (s : Seps) (ref : Loc) (f : List DRow) :
    applyChecks (kdChecks (c.seps s)) (c.place ref) (f.map (mv c)) = (applyChecks (kdChecks s) ref f).map (List.map (mv c)) := by
  have h := kdChecks_mv c hc s ref
  unfold applyChecks
  generalize kdChecks (c.seps s) = l1 at h
  generalize kdChecks s = l2 at h
  induction h generalizing f with
  | nil => rfl
  | cons h1 _ ih =>
    rw [List.foldlM_cons, List.foldlM_cons, h1, iloc_mv]
    cases iloc f _ with
    | none => rfl
    | some x => exact ih x

/-- An item in the changed coordinates. -/
noncomputable def mvItem (it : Nat × Loc × List DRow) : Nat × Loc × List DRow := (it.1, c.place it.2.1, it.2.2.map (mv c))

theorem horizontal_mv (s : Seps) : horizontal (c.seps s) = horizontal s := rfl

theorem kdConstrain_mv (hc : c.Valid) (s : Seps) (search search' : Loc → ℝ → List Nat) (ref : Loc) (hs : ∀ h, search' (c.place ref) h = search ref h)
    (d : List DRow) :
    kdConstrain (c.seps s) search' (c.place ref) (d.map (mv c)) = (kdConstrain s search ref d).map (List.map (mv c)) := by
  unfold kdConstrain
  rw [horizontal_mv]
  cases horizontal s with
  | none => exact applyChecks_mv c hc s ref d
  | some h =>
    simp only
    rw [hs, iloc_mv]
    cases iloc d (search ref h) with
    | none => rfl
    | some x => exact applyChecks_mv c hc s ref x

/-- A sample row in the changed coordinates, with its position. -/
noncomputable def mvRow (ri : Row × Nat) : Row × Nat := (⟨c.place ri.1.loc, ri.1.val⟩, ri.2)

theorem itemOf_mv (hc : c.Valid) (s : Seps) (search : ℝ → Nat → List Nat) (d : List DRow) (ri : Row × Nat) :
    itemOf (c.seps s) search (d.map (mv c)) (mvRow c ri) = (itemOf s search d ri).map (mvItem c) := by
  unfold itemOf mvRow
  simp only
  rw [kdConstrain_mv c hc s (fun _ h => search h ri.2) _ _ (fun _ => rfl), Option.map_map, Option.map_map]
  rfl

theorem kdIterator_mv (hc : c.Valid) (s : Seps) (search : ℝ → Nat → List Nat) (missing hasVals : Bool) (d : List DRow) (sample : List Row) :
    kdIterator (c.seps s) search missing hasVals (d.map (mv c)) (c.points sample) =
      (kdIterator s search missing hasVals d sample).map (List.map (mvItem c)) := by
  rw [kdIterator_eq, kdIterator_eq]
  have hz : (c.points sample).zipIdx = sample.zipIdx.map (mvRow c) := by
    unfold Spec.Change.points
    rw [List.zipIdx_map]; rfl
  rw [hz, List.filter_map]
  have hf : (kept missing hasVals) ∘ mvRow c = kept missing hasVals := rfl
  rw [hf]
  generalize sample.zipIdx.filter (kept missing hasVals) = l
  induction l with
  | nil => rfl
  | cons x t ih =>
    rw [List.map_cons, List.mapM_cons, List.mapM_cons, ih, itemOf_mv c hc]
    cases itemOf s search d x with
    | none => rfl
    | some v => cases List.mapM (itemOf s search d) t <;> rfl

theorem nnLoop_mv (sep sep' : Loc → ℝ) (h : ∀ p q, sep' (c.place p) > sep' (c.place q) ↔ sep p > sep q) (d : List DRow) :
    nnLoop sep' (d.map (mv c)) = (nnLoop sep d).map (mv c) := by
  cases d with
  | nil => rfl
  | cons x t =>
    simp only [List.map_cons, nnLoop, Option.map_some, Option.some.injEq]
    induction t generalizing x with
    | nil => rfl
    | cons y t ih =>
      simp only [List.map_cons, List.foldl_cons]
      have : (if sep' (mv c x).loc > sep' (mv c y).loc then mv c y else mv c x) = mv c (if sep x.loc > sep y.loc then y else x) := by
        show (if sep' (c.place x.loc) > sep' (c.place y.loc) then mv c y else mv c x) = _
        simp only [h]
        split <;> rfl
      rw [this, ih]

/-- The columns in which the haversine nearest neighbour looks for the position are latitude and longitude. -/
def Spec.horizontalFirst (cols : List Col) : Prop := ∀ x ∈ cols.take 2, x = .lat ∨ x = .lon

theorem get_place (x : Col) (h : x = .lat ∨ x = .lon) (p : Loc) : (c.place p).get x = p.get x := by
  rcases h with rfl | rfl <;> rfl

theorem rowHaversine_mv (cx cy : List Col) (hx : Spec.horizontalFirst cx) (hy : Spec.horizontalFirst cy) (p q : Loc) :
    rowHaversine cx cy (c.place p) (c.place q) = rowHaversine cx cy p q := by
  unfold rowHaversine
  match cx, cy, hx, hy with
  | c0 :: c1 :: _, d0 :: d1 :: _, hx, hy =>
    simp only
    rw [get_place c c0 (hx c0 (by simp)), get_place c c1 (hx c1 (by simp)), get_place c d0 (hy d0 (by simp)), get_place c d1 (hy d1 (by simp))]
  | [], _, _, _ => rfl
  | [_], _, _, _ => rfl
  | _ :: _ :: _, [], _, _ => rfl
  | _ :: _ :: _, [_], _, _ => rfl

theorem dist_lt (k A x y z : ℝ) (hk : 0 < k) :
    |(k * x + A) - (k * y + A)| > |(k * x + A) - (k * z + A)| ↔ |x - y| > |x - z| := by
  have h1 : (k * x + A) - (k * y + A) = k * (x - y) := by ring
  have h2 : (k * x + A) - (k * z + A) = k * (x - z) := by ring
  rw [h1, h2, abs_mul, abs_mul, abs_of_pos hk, gt_iff_lt, mul_lt_mul_iff_right₀ hk]

theorem getValue_mv (hc : c.Valid) (k : Kernel) (cx cy : List Col)
    (hh : k = .nnHorizontal → Spec.horizontalFirst cx ∧ Spec.horizontalFirst cy) (ref : Loc) (d : List DRow) :
    getValue k cx cy (c.place ref) (d.map (mv c)) = getValue k cx cy ref d := by
  obtain ⟨h1, h2, h3⟩ := hc
  have hv : (d.map (mv c)).map DRow.val = d.map DRow.val := by rw [List.map_map]; rfl
  have nn : ∀ sep sep' : Loc → ℝ, (∀ p q, sep' (c.place p) > sep' (c.place q) ↔ sep p > sep q) →
      (nnLoop sep' (d.map (mv c))).map (fun r => [some r.val]) = (nnLoop sep d).map (fun r => [some r.val]) := by
    intro sep sep' h
    rw [nnLoop_mv c sep sep' h, Option.map_map]; rfl
  unfold getValue
  rw [hv]
  cases k with
  | nnHorizontal =>
    refine nn _ _ (fun p q => ?_)
    rw [rowHaversine_mv c cx cy (hh rfl).1 (hh rfl).2, rowHaversine_mv c cx cy (hh rfl).1 (hh rfl).2]
  | nnAltitude => exact nn _ _ (fun p q => dist_lt _ _ _ _ _ h1)
  | nnTime => exact nn _ _ (fun p q => dist_lt _ _ _ _ _ h3)
  | nnPressure =>
    have : ∀ p, nnPresSep (c.place ref) (c.place p) = nnPresSep ref p := by
      intro p
      unfold nnPresSep Spec.Change.place
      simp only [gt_iff_lt]
      simp only [mul_lt_mul_iff_right₀ h2, mul_div_mul_left _ _ h2.ne']
    refine nn _ _ (fun p q => ?_)
    simp only [this]
  | _ => rfl

theorem fillValues_mv (hc : c.Valid) (k : Kernel) (cx cy : List Col)
    (hh : k = .nnHorizontal → Spec.horizontalFirst cx ∧ Spec.horizontalFirst cy) (items : List (Nat × Loc × List DRow)) :
    fillValues k cx cy (items.map (mvItem c)) = fillValues k cx cy items := by
  unfold fillValues
  rw [List.foldl_map]
  congr 1
  funext acc it
  unfold fillStep mvItem
  simp only
  rw [getValue_mv c hc k cx cy hh]

/-- **C205**. Changing the origin and the units of altitude and time, and the units of pressure, of both the sample and the data, and
giving the separations in the new units, changes nothing in the result of a collocation. -/
theorem c205_collocate (hc : c.Valid) (s : Seps) (k : Kernel) (missing hasVals : Bool) (cx cy : List Col)
    (hh : k = .nnHorizontal → Spec.horizontalFirst cx ∧ Spec.horizontalFirst cy) (sample data : List Row) :
    collocate (c.seps s) k missing hasVals cx cy (c.points sample) (c.points data) =
      collocate s k missing hasVals cx cy sample data := by
  unfold collocate collocateWith
  simp only
  rw [points_lons, setLongitudeRange_mv c sample, points_lons, setLongitudeRange_mv c data, dropna_mv, treeOf_mv]
  generalize setLongitudeRange sample (Lon.findLongitudeRange (sample.map (fun r => r.loc.lon))) = s1
  generalize dropna (setLongitudeRange data (Lon.findLongitudeRange (s1.map (fun r => r.loc.lon)))) = d1
  cases treeOf d1 with
  | error e => rfl
  | ok T =>
    simp only
    rw [treeSearch_mv, kdIterator_mv c hc]
    cases kdIterator s (treeSearch T s1) missing hasVals d1 s1 with
    | none => rfl
    | some items =>
      simp only [Option.map_some]
      rw [fillValues_mv c hc k cx cy hh]
      have : (c.points sample).length = sample.length := by unfold Spec.Change.points; simp
      rw [this]

theorem plainChecks_mv (hc : c.Valid) (s : Seps) (p ref : Loc) :
    (plainChecks (c.seps s)).map (fun check => check (c.place p) (c.place ref)) = (plainChecks s).map (fun check => check p ref) := by
  obtain ⟨h1, h2, h3⟩ := hc
  unfold plainChecks Spec.Change.seps
  simp only [List.map_append]
  congr 1; congr 1; congr 1
  · cases s.h <;> rfl
  · cases s.a with
    | none => rfl
    | some a => exact congrArg (fun b : Bool => [b]) (decide_eq_decide.2 (near_iff _ _ _ _ _ h1))
  · cases s.p with
    | none => rfl
    | some q =>
      simp only [List.map_cons, List.map_nil, List.cons.injEq, and_true]
      congr 2
      unfold presSep Spec.Change.place
      simp only [gt_iff_lt]
      simp only [mul_lt_mul_iff_right₀ h2, mul_div_mul_left _ _ h2.ne']
  · cases s.t with
    | none => rfl
    | some a => exact congrArg (fun b : Bool => [b]) (decide_eq_decide.2 (near_iff _ _ _ _ _ h3))

/-- **C205**. Of the points tried against a sample point by the constraint without an index, the same ones are kept. -/
theorem c205_constrain (hc : c.Valid) (s : Seps) (ref : Loc) (data : List DRow) :
    plainConstrain (c.seps s) (c.place ref) (data.map (fun r => ⟨c.place r.loc, r.val⟩)) =
      (plainConstrain s ref data).map (fun r => ⟨c.place r.loc, r.val⟩) := by
  have hall : ∀ p : Loc, (plainChecks (c.seps s)).all (fun check => check (c.place p) (c.place ref)) =
      (plainChecks s).all (fun check => check p ref) := by
    intro p
    have e : ∀ (l : List (Loc → Loc → Bool)) (x y : Loc), l.all (fun check => check x y) = (l.map (fun check => check x y)).all id := by
      intro l x y; rw [List.all_map]; rfl
    rw [e, e, plainChecks_mv c hc]
  unfold plainConstrain
  rw [List.foldl_map]
  simp only [hall]
  have : ∀ acc : List DRow, data.foldl (fun con p => if (plainChecks s).all (fun check => check p.loc ref) then con ++ [(⟨c.place p.loc, p.val⟩ : DRow)] else con)
      (acc.map (fun r => ⟨c.place r.loc, r.val⟩)) = (data.foldl (fun con p => if (plainChecks s).all (fun check => check p.loc ref) then con ++ [p] else con) acc).map
        (fun r => ⟨c.place r.loc, r.val⟩) := by
    induction data with
    | nil => intro acc; rfl
    | cons x t ih =>
      intro acc
      rw [List.foldl_cons, List.foldl_cons]
      split
      · have e := ih (acc ++ [x])
        rw [List.map_append] at e
        exact e
      · exact ih acc
  exact this []

/-- From metres to kilometres, from hPa to Pa, from days to hours after another day: the change is one the theorem speaks of, and a
collocation that finds a value is carried over. -/
example : (⟨1 / 1000, 0, 100, 24, -24⟩ : Spec.Change).Valid ∧
    collocate ((⟨1 / 1000, 0, 100, 24, -24⟩ : Spec.Change).seps sep45) .max false true [.lat, .lon] [.lat, .lon]
      ((⟨1 / 1000, 0, 100, 24, -24⟩ : Spec.Change).points [⟨eq 0, some 1⟩])
      ((⟨1 / 1000, 0, 100, 24, -24⟩ : Spec.Change).points [⟨eq 330, some 7⟩]) = .ok [[some 7]] := by
  have hv : (⟨1 / 1000, 0, 100, 24, -24⟩ : Spec.Change).Valid := by unfold Spec.Change.Valid; norm_num
  exact ⟨hv, by rw [c205_collocate _ hv _ _ _ _ _ _ (by simp)]; exact near_alone⟩

end Cis.Colloc
