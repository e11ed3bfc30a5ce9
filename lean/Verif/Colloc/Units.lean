import Verif.Colloc.Wider
set_option linter.unusedSectionVars false
set_option linter.unusedSimpArgs false
/-!
Property C202 for ungridded collocation: a change of units of the data, `x ↦ a x + b` with `a > 0`, before the collocation has the
same effect as after it. The model is that of `Model.lean` (col_implementations.py:19-112, 211-361, 365-556).
-/
namespace Cis.Colloc
open Cis.Geo Cis.KDTree Real

/-- The rows with their values changed. -/
def Spec.change (g : ℝ → ℝ) (data : List Row) : List Row := data.map (fun r => ⟨r.loc, r.val.map g⟩)

/-- What a change of units does to the output variables of a kernel. -/
noncomputable def Spec.converted (k : Kernel) (a b : ℝ) (column : List (Option ℝ)) : List (Option ℝ) :=
  match k, column with
  | .stddev, [sd] => [sd.map (fun x => a * x)]
  | .moments, [m, sd, n] => [m.map (fun x => a * x + b), sd.map (fun x => a * x), n]
  | .sum, [s] => [s.map (fun x => a * x)]
  | _, c => c.map (Option.map (fun x => a * x + b))

/-- The data rows with their values changed. -/
def chg (g : ℝ → ℝ) (r : DRow) : DRow := ⟨r.loc, g r.val⟩

theorem dropna_change (g : ℝ → ℝ) (data : List Row) : dropna (Spec.change g data) = (dropna data).map (chg g) := by
  unfold dropna Spec.change
  rw [List.filterMap_map, List.map_filterMap]
  congr 1
  funext r
  simp only [Function.comp]
  cases r.val <;> rfl

theorem change_lons (g : ℝ → ℝ) (data : List Row) : (Spec.change g data).map (fun r => r.loc.lon) = data.map (fun r => r.loc.lon) := by
  unfold Spec.change; rw [List.map_map]; rfl

theorem setLongitudeRange_change (g : ℝ → ℝ) (data : List Row) (w : ℝ) :
    setLongitudeRange (Spec.change g data) w = Spec.change g (setLongitudeRange data w) := by
  unfold setLongitudeRange
  rw [change_lons]
  unfold Spec.change
  rw [List.zipWith_map_left, List.map_zipWith]

theorem latLon_chg (g : ℝ → ℝ) (d : List DRow) : latLon (d.map (chg g)) = latLon d := by
  funext i
  unfold latLon
  rw [List.getElem?_map]
  cases d[i]? <;> rfl

theorem treeOf_chg (g : ℝ → ℝ) (d : List DRow) : treeOf (d.map (chg g)) = treeOf d := by
  unfold treeOf; rw [latLon_chg, List.length_map]

theorem iloc_chg (g : ℝ → ℝ) (f : List DRow) (idx : List Nat) : iloc (f.map (chg g)) idx = (iloc f idx).map (List.map (chg g)) := by
  unfold iloc
  induction idx with
  | nil => rfl
  | cons i t ih =>
    rw [List.mapM_cons, List.mapM_cons, ih, List.getElem?_map]
    cases f[i]? with
    | none => rfl
    | some r => cases List.mapM (fun i => f[i]?) t <;> rfl

theorem nonzero_chg (g : ℝ → ℝ) (f : List DRow) (c : Loc → Bool) : nonzero (f.map (chg g)) c = nonzero f c := by
  unfold nonzero
  rw [List.length_map]
  congr 1
  funext i
  unfold entry
  rw [List.getElem?_map]
  cases f[i]? <;> rfl

theorem applyChecks_chg (g : ℝ → ℝ) (s : Seps) (ref : Loc) (f : List DRow) :
    applyChecks (kdChecks s) ref (f.map (chg g)) = (applyChecks (kdChecks s) ref f).map (List.map (chg g)) := by
  have hc : ∀ c ∈ kdChecks s, ∀ f : List DRow, c (f.map (chg g)) ref = c f ref := by
    intro c hc f
    unfold kdChecks at hc
    simp only [List.mem_append] at hc
    rcases hc with (hc | hc) | hc
    · cases h : s.a with
      | none => simp [h] at hc
      | some a => simp [h] at hc; subst hc; exact nonzero_chg g f _
    · cases h : s.p with
      | none => simp [h] at hc
      | some q => simp [h] at hc; subst hc; unfold presCheck; rw [nonzero_chg, nonzero_chg]
    · cases h : s.t with
      | none => simp [h] at hc
      | some t => simp [h] at hc; subst hc; exact nonzero_chg g f _
  unfold applyChecks
  generalize kdChecks s = cs at hc
  induction cs generalizing f with
  | nil => rfl
  | cons c t ih =>
    rw [List.foldlM_cons, List.foldlM_cons, hc c (by simp), iloc_chg]
    cases iloc f (c f ref) with
    | none => rfl
    | some x => exact ih x (fun c hc' => hc c (by simp [hc']))

theorem kdConstrain_chg (g : ℝ → ℝ) (s : Seps) (search : Loc → ℝ → List Nat) (ref : Loc) (d : List DRow) :
    kdConstrain s search ref (d.map (chg g)) = (kdConstrain s search ref d).map (List.map (chg g)) := by
  unfold kdConstrain
  cases horizontal s with
  | none => exact applyChecks_chg g s ref d
  | some h =>
    simp only
    rw [iloc_chg]
    cases iloc d (search ref h) with
    | none => rfl
    | some x => exact applyChecks_chg g s ref x

/-- An item with the values changed. -/
def chgItem (g : ℝ → ℝ) (it : Nat × Loc × List DRow) : Nat × Loc × List DRow := (it.1, it.2.1, it.2.2.map (chg g))

theorem itemOf_chg (g : ℝ → ℝ) (s : Seps) (search : ℝ → Nat → List Nat) (d : List DRow) (ri : Row × Nat) :
    itemOf s search (d.map (chg g)) ri = (itemOf s search d ri).map (chgItem g) := by
  unfold itemOf
  rw [kdConstrain_chg, Option.map_map, Option.map_map]
  rfl

theorem kdIterator_chg (g : ℝ → ℝ) (s : Seps) (search : ℝ → Nat → List Nat) (missing hasVals : Bool) (d : List DRow) (sample : List Row) :
    kdIterator s search missing hasVals (d.map (chg g)) sample = (kdIterator s search missing hasVals d sample).map (List.map (chgItem g)) := by
  rw [kdIterator_eq, kdIterator_eq]
  generalize sample.zipIdx.filter (kept missing hasVals) = l
  induction l with
  | nil => rfl
  | cons a t ih =>
    rw [List.mapM_cons, List.mapM_cons, ih, itemOf_chg]
    cases itemOf s search d a with
    | none => rfl
    | some x => cases List.mapM (itemOf s search d) t <;> rfl

theorem nnLoop_chg (g : ℝ → ℝ) (sep : Loc → ℝ) (d : List DRow) : nnLoop sep (d.map (chg g)) = (nnLoop sep d).map (chg g) := by
  cases d with
  | nil => rfl
  | cons x t =>
    simp only [List.map_cons, nnLoop, Option.map_some, Option.some.injEq]
    induction t generalizing x with
    | nil => rfl
    | cons y t ih =>
      simp only [List.map_cons, List.foldl_cons]
      have : (if sep (chg g x).loc > sep (chg g y).loc then chg g y else chg g x) = chg g (if sep x.loc > sep y.loc then y else x) := by
        show (if sep x.loc > sep y.loc then chg g y else chg g x) = _
        split <;> rfl
      rw [this, ih]

variable (a b : ℝ)

theorem sum_affine (l : List ℝ) : (l.map (fun x => a * x + b)).sum = a * l.sum + l.length * b := by
  induction l with
  | nil => simp
  | cons x t ih => simp only [List.map_cons, List.sum_cons, ih, List.length_cons]; push_cast; ring

theorem npMean_affine (l : List ℝ) (h : l ≠ []) : npMean (l.map (fun x => a * x + b)) = a * npMean l + b := by
  unfold npMean
  rw [sum_affine, List.length_map]
  have : (l.length : ℝ) ≠ 0 := by
    have := List.length_pos_iff.2 h
    positivity
  field_simp

theorem npStd_affine (ha : 0 ≤ a) (l : List ℝ) (h : l ≠ []) : npStd (l.map (fun x => a * x + b)) = (npStd l).map (fun x => a * x) := by
  unfold npStd
  rw [List.length_map]
  split
  · rfl
  · rw [npMean_affine a b l h, List.map_map, Option.map_some, Option.some.injEq]
    have : (fun x => (x - (a * npMean l + b)) ^ 2) ∘ (fun x => a * x + b) = fun x => a ^ 2 * (x - npMean l) ^ 2 := by
      funext x; simp only [Function.comp]; ring
    rw [this, List.sum_map_mul_left, mul_div_assoc, Real.sqrt_mul (by positivity), Real.sqrt_sq ha]

theorem foldl_minmax (op : ℝ → ℝ → ℝ) (hop : ∀ x y, op (a * x + b) (a * y + b) = a * op x y + b) (t : List ℝ) :
    ∀ x : ℝ, (t.map (fun x => a * x + b)).foldl op (a * x + b) = a * t.foldl op x + b := by
  induction t with
  | nil => intro x; rfl
  | cons y t ih => intro x; rw [List.map_cons, List.foldl_cons, hop, ih]; rfl

theorem min_affine (ha : 0 ≤ a) (x y : ℝ) : min (a * x + b) (a * y + b) = a * min x y + b := by
  rw [min_add_add_right, mul_min_of_nonneg _ _ ha]

theorem max_affine (ha : 0 ≤ a) (x y : ℝ) : max (a * x + b) (a * y + b) = a * max x y + b := by
  rw [max_add_add_right, mul_max_of_nonneg _ _ ha]

theorem getValue_affine (ha : 0 ≤ a) (k : Kernel) (hs : k = .sum → b = 0) (cx cy : List Col) (ref : Loc) (d : List DRow) :
    getValue k cx cy ref (d.map (chg (fun x => a * x + b))) = (getValue k cx cy ref d).map (Spec.converted k a b) := by
  have hv : (d.map (chg (fun x => a * x + b))).map DRow.val = (d.map DRow.val).map (fun x => a * x + b) := by
    rw [List.map_map, List.map_map]; rfl
  have nn : ∀ sep : Loc → ℝ, (nnLoop sep (d.map (chg (fun x => a * x + b)))).map (fun r => [some r.val]) =
      ((nnLoop sep d).map (fun r => [some r.val])).map (List.map (Option.map (fun x => a * x + b))) := by
    intro sep
    rw [nnLoop_chg, Option.map_map, Option.map_map]; rfl
  by_cases hd : d = []
  · subst hd; cases k <;> rfl
  · have hl : d.map DRow.val ≠ [] := by simpa using hd
    have hlen : ¬ (d.map DRow.val).length = 0 := by simpa using hd
    have hlen' : ¬ ((d.map DRow.val).map (fun x => a * x + b)).length = 0 := by simpa using hd
    cases k <;> simp only [getValue, hv, if_neg hlen, if_neg hlen', Option.map_some, Option.some.injEq]
    · rw [npMean_affine a b _ hl]; rfl
    · rw [npStd_affine a b ha _ hl]; rfl
    · cases e : d.map DRow.val with
      | nil => exact absurd e hl
      | cons x t => simp only [List.map_cons, npMin]; rw [foldl_minmax a b min (min_affine a b ha)]; rfl
    · cases e : d.map DRow.val with
      | nil => exact absurd e hl
      | cons x t => simp only [List.map_cons, npMax]; rw [foldl_minmax a b max (max_affine a b ha)]; rfl
    · rw [sum_affine, hs rfl, mul_zero, add_zero]; rfl
    · rw [npMean_affine a b _ hl, npStd_affine a b ha _ hl, List.length_map]; rfl
    · exact nn _
    · exact nn _
    · exact nn _
    · exact nn _

theorem converted_none (k : Kernel) : Spec.converted k a b (List.replicate k.size none) = List.replicate k.size none := by
  cases k <;> rfl

theorem fillValues_affine (ha : 0 ≤ a) (k : Kernel) (hs : k = .sum → b = 0) (cx cy : List Col) (items : List (Nat × Loc × List DRow)) (i : Nat) :
    fillValues k cx cy (items.map (chgItem (fun x => a * x + b))) i = Spec.converted k a b (fillValues k cx cy items i) := by
  unfold fillValues
  have : ∀ (acc acc' : Nat → List (Option ℝ)), (∀ j, acc' j = Spec.converted k a b (acc j)) →
      (items.map (chgItem (fun x => a * x + b))).foldl (fillStep k cx cy) acc' i = Spec.converted k a b (items.foldl (fillStep k cx cy) acc i) := by
    induction items with
    | nil => intro acc acc' h; exact h i
    | cons x t ih =>
      intro acc acc' h
      rw [List.map_cons, List.foldl_cons, List.foldl_cons]
      refine ih _ _ (fun j => ?_)
      unfold fillStep chgItem
      simp only
      rw [getValue_affine a b ha k hs]
      cases getValue k cx cy x.2.1 x.2.2 with
      | none => exact h j
      | some v =>
        simp only [Option.map_some]
        by_cases hj : j = x.1
        · subst hj; simp
        · rw [Function.update_of_ne hj, Function.update_of_ne hj]; exact h j
  exact this _ _ (fun j => (converted_none a b k).symm)

theorem fillValues_length (k : Kernel) (cx cy : List Col) (items : List (Nat × Loc × List DRow)) (i : Nat) :
    (fillValues k cx cy items i).length = k.size := by
  unfold fillValues
  have : ∀ acc : Nat → List (Option ℝ), (∀ j, (acc j).length = k.size) → (items.foldl (fillStep k cx cy) acc i).length = k.size := by
    induction items with
    | nil => intro acc h; exact h i
    | cons x t ih =>
      intro acc h
      rw [List.foldl_cons]
      refine ih _ (fun j => ?_)
      unfold fillStep
      cases hv : getValue k cx cy x.2.1 x.2.2 with
      | none => exact h j
      | some v =>
        simp only
        by_cases hj : j = x.1
        · subst hj; rw [Function.update_self]; exact getValue_length k cx cy _ _ v hv
        · rw [Function.update_of_ne hj]; exact h j
  exact this _ (fun j => by simp)

/-- **C202**. Changing the units of the data and collocating gives, for every kernel and at every sample point, the collocated
values in the changed units (standard deviations and sums scaled, counts as they were), wherever sample and data are; if one
collocation fails so does the other. For a sum the change must be a scaling. -/
theorem c202_collocate (ha : 0 < a) (s : Seps) (k : Kernel) (hs : k = .sum → b = 0) (missing hasVals : Bool) (cx cy : List Col)
    (sample data : List Row) :
    (∀ e, collocate s k missing hasVals cx cy sample data = .error e →
      collocate s k missing hasVals cx cy sample (Spec.change (fun x => a * x + b) data) = .error e) ∧
    ∀ out, collocate s k missing hasVals cx cy sample data = .ok out →
      ∃ out', collocate s k missing hasVals cx cy sample (Spec.change (fun x => a * x + b) data) = .ok out' ∧
        out'.length = out.length ∧ (∀ v ∈ out', v.length = sample.length) ∧
        ∀ i < sample.length, column out' i = Spec.converted k a b (column out i) := by
  unfold collocate collocateWith
  simp only
  rw [setLongitudeRange_change, dropna_change, treeOf_chg]
  generalize setLongitudeRange sample (Lon.findLongitudeRange (sample.map (fun r => r.loc.lon))) = s1
  generalize dropna (setLongitudeRange data (Lon.findLongitudeRange (s1.map (fun r => r.loc.lon)))) = d1
  cases treeOf d1 with
  | error e => exact ⟨fun e h => h, fun out h => by simp at h⟩
  | ok T =>
    simp only
    rw [kdIterator_chg]
    cases kdIterator s (treeSearch T s1) missing hasVals d1 s1 with
    | none => exact ⟨fun e h => h, fun out h => by simp at h⟩
    | some items =>
      refine ⟨fun e h => by simp at h, fun out h => ?_⟩
      simp only [Except.ok.injEq] at h
      subst h
      have hcol : ∀ (its : List (Nat × Loc × List DRow)) (i : Nat), i < sample.length →
          column ((List.range k.size).map (fun v => (List.range sample.length).map (fun i =>
            ((fillValues k cx cy its i)[v]?).join))) i = fillValues k cx cy its i := by
        intro its i hi
        unfold column
        rw [List.map_map]
        apply List.ext_getElem
        · simp [fillValues_length]
        · intro n h1 h2
          simp [List.getElem?_range hi, List.getElem?_eq_getElem h2]
      refine ⟨_, rfl, by simp, ?_, fun i hi => ?_⟩
      · intro v hv; obtain ⟨_, -, rfl⟩ := List.mem_map.1 hv; simp
      · rw [hcol _ i hi, hcol _ i hi, fillValues_affine a b ha.le k hs]

/-- A value is converted. -/
example : ∃ out x, collocate sep45 .max false true [.lat, .lon] [.lat, .lon] [⟨eq 0, some 1⟩] [⟨eq 330, some 7⟩] = .ok out ∧
    column out 0 = [some x] ∧ Spec.converted .max 2 1 (column out 0) = [some (2 * 7 + 1)] := ⟨_, 7, near_alone, rfl, rfl⟩

end Cis.Colloc
