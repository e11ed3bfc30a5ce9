import Verif.Write.EvalStep
import Verif.Colloc.Command
import Verif.Colloc.Inputs
set_option linter.unusedSectionVars false
set_option linter.unusedSimpArgs false

/-!
# `cis col` of points onto points: the file that is written

The collocation of `Colloc/Command.lean` between reading and saving: the longitudes of the sample and of the data are brought into one range, the
data frames are made of coordinates and values, and the results are saved with the coordinates of the sample.
-/
namespace Cis.RoundTrip
open Cis.Str Cis.ColOpts
open Cis.Lon (fixLongitudeRange findLongitudeRange)

/-! ### Model -/

/-- The values of a coordinate. -/
def pointsIn (c : Obj) : List ℚ := c.values.filterMap id

/-- `_find_longitude_range` (col_implementations.py:1098-1110). -/
def rangeOf (coords : List Obj) : Option ℚ := (coords.find? (fun c => c.info.std == "longitude")).map (fun c => findLongitudeRange (pointsIn c))

/-- `set_longitude_range` (ungridded_data.py:746-754, 985-994), if the sample has longitudes (col_implementations.py:1113-1121). -/
def setRange (start : Option ℚ) (coords : List Obj) : List Obj :=
  match start with
  | none => coords
  | some s => coords.map (fun c => if c.info.std = "longitude" then { c with values := (fixLongitudeRange (pointsIn c) s).map some } else c)

/-- An entry of a data frame (`_coords_as_data_frame`, `as_data_frame`, ungridded_data.py:608-622); a column that is not there counts as 0 and is
not used (`hasColumns`). -/
def coordAt (coords : List Obj) (s : String) (i : Nat) : ℝ :=
  ((((coords.find? (fun c => c.info.std == s)).bind (fun c => c.values[i]?)).join.getD 0 : ℚ) : ℝ)

/-- The data frame (ungridded_data.py:608-622). -/
def rowsOf (coords : List Obj) (n : Nat) (vals : Nat → Option ℚ) : List Colloc.Row :=
  (List.range n).map (fun i => ⟨⟨coordAt coords "latitude" i, coordAt coords "longitude" i, coordAt coords "altitude" i, coordAt coords "air_pressure" i,
    coordAt coords "time" i⟩, (vals i).map (fun x => ((x : ℚ) : ℝ))⟩)

/-- The columns of the data frame. -/
def colsOf (coords : List Obj) : List Colloc.Col :=
  coords.filterMap (fun c => if c.info.std = "latitude" then some .lat else if c.info.std = "longitude" then some .lon
    else if c.info.std = "altitude" then some .alt else if c.info.std = "air_pressure" then some .pres else if c.info.std = "time" then some .time else none)

/-- The columns that the separations given refer to (col_implementations.py:206-364): without them the comparison fails (`AttributeError`, turned into
CoordinateNotFoundError at col.py:34-36). -/
def needed : List (Str × String) := [(kH, "latitude"), (kH, "longitude"), (kA, "altitude"), (kP, "air_pressure"), (kT, "time")]

def hasColumns (o : Opts) (sample data : List Obj) : Bool :=
  needed.all (fun k => (o.lookup k.1).join.isNone || (sample.any (fun c => c.info.std == k.2) && data.any (fun c => c.info.std == k.2)))

/-- Names of a variable (col_implementations.py:66-69). -/
def namesOf (o : Obj) : Names :=
  ⟨o.info.name.toList, some o.info.long.toList, if o.info.std = "" then none else some o.info.std.toList, some o.info.units.toList⟩

/-- A result (col_implementations.py:98-108): floating point, with the fill value as missing value, a standard name if it is valid
(`set_standard_name_if_valid`) and the history that `collocate` adds (col.py:40-47). `store` rounds a number to floating point. A fill value that
is not a number is not modelled: the library writes and masks it. -/
def outObj {α : Type} (valid : String → Bool) (store : α → ℚ) (history : String) (o : Out × List (Option α)) : Obj :=
  let std := (o.1.names.standard.map String.ofList).getD ""
  ⟨⟨String.ofList o.1.names.name, if valid std then std else "", (o.1.names.long.map String.ofList).getD "",
    (o.1.names.units.map String.ofList).getD "", history⟩, false, true, o.2.map (Option.map store), o.1.missing.join, noPacking⟩

/-- `col_cmd` (cis_main.py:65-99) for one datagroup of points and a sample of points, between reading and saving: coordinates of the sample, its values
if a sample variable is given, and the data. For a list of variables the longitudes are set anew for each, which changes nothing (C113). -/
noncomputable def colStep (valid : String → Bool) (store : ℝ → ℚ) (history : String) (num : Str → Option ℚ) (kernels : List Str)
    (col kern : Option (Str × Opts)) (sample : List Obj × Option (List (Option ℚ))) (data : List Obj × List Obj) : Option (List Obj × List Obj) :=
  let sc := setRange (rangeOf sample.1) sample.1
  let dc := setRange (rangeOf sc) data.1
  if (rangeOf sample.1).isSome ∧ (rangeOf data.1).isNone then none
  else if sample.1.any (fun c => c.info.std == "longitude" && c.values.isEmpty) then none
  else if hasColumns ((col.map Prod.snd).getD []) sample.1 data.1 = false then none
  else match Cis.ColCmd.run num kernels sample.2.isSome col kern (colsOf sc)
      (rowsOf sc ((sample.1.head?.map (fun c => c.values.length)).getD 0) (fun i => (sample.2.bind (fun v => v[i]?)).join))
      (data.2.map (fun o => ⟨namesOf o, colsOf dc, rowsOf dc o.values.length (fun i => (o.values[i]?).join)⟩)) with
    | .error _ => none
    | .ok r => some (sc, r.map (outObj valid store history))

/-! ### Specification -/

/-- Where the range of longitudes starts: at -180 if some longitude is negative, else at 0; `none` without longitudes. -/
def Spec.Start (coords : List Obj) (start : Option ℚ) : Prop :=
  (∀ c ∈ coords, c.info.std = "longitude" →
    ((∃ x, some x ∈ c.values ∧ x < 0) → start = some (-180)) ∧ ((∀ x, some x ∈ c.values → 0 ≤ x) → start = some 0)) ∧
  ((∀ c ∈ coords, c.info.std ≠ "longitude") → start = none)

/-- Coordinates that differ at most in the longitudes, which are those of the same meridians between `start` and `start + 360`. -/
def Spec.InOneRange (start : Option ℚ) (coords moved : List Obj) : Prop :=
  List.Forall₂ (fun c m => m.info = c.info ∧ m.isInt = c.isInt ∧ m.known = c.known ∧ m.missing = c.missing ∧ m.packing = c.packing ∧
    (start = none ∨ c.info.std ≠ "longitude" → m.values = c.values) ∧
    ∀ s, start = some s → c.info.std = "longitude" →
      List.Forall₂ (fun x y => ∃ a b : ℚ, x = some a ∧ y = some b ∧ (s ≤ b ∧ b < s + 360) ∧ ∃ k : ℤ, b = a + 360 * k) c.values m.values) coords moved

/-- Coordinates of a sample with `n` points, which can be saved: as in C96; longitudes have no limits and their missing value is not one of theirs. -/
structure Spec.GoodCoords (valid : String → Bool) (dflt : Bool → ℚ) (coords : List Obj) (n : Nat) : Prop where
  some : coords ≠ [] ∧ 0 < n
  each : ∀ c ∈ coords, c.values.length = n ∧ c.known = true ∧ Spec.Faithful dflt c
  std : ∀ c ∈ coords, c.info.std ∈ Spec.coordNames ∧ valid c.info.std = true ∧ none ∉ c.values
  different : (coords.map (fun c => c.info.std)).Nodup
  longitudes : ∀ c ∈ coords, c.info.std = "longitude" → c.packing = noPacking ∧ ∀ y : ℚ, -180 ≤ y → y < 360 → c.missing.getD (dflt c.isInt) ≠ y

/-- The `n` points with the coordinates `coords` and values `vals`; a coordinate that is not there is 0. -/
noncomputable def Spec.points (coords : List Obj) (n : Nat) (vals : List (Option ℚ)) : List Colloc.Row :=
  let get (s : String) (i : Nat) : ℝ := ((((Spec.coordinate coords s)[i]?).getD none).getD 0 : ℚ)
  (List.range n).map (fun i =>
    { loc := { time := get "time" i, pres := get "air_pressure" i, alt := get "altitude" i, lon := get "longitude" i, lat := get "latitude" i }
      val := ((vals[i]?).getD none).map (fun x => ((x : ℚ) : ℝ)) })

/-- A variable to be collocated, on its points. -/
noncomputable def Spec.varOn (dc : List Obj) (o : Obj) : Cis.ColCmd.Var :=
  { names := { name := o.info.name.toList, long := none, standard := none, units := none }, cols := [], rows := Spec.points dc o.values.length o.values }

/-- The points of the sample: without a sample variable they have no values. -/
noncomputable def Spec.samplePoints (sc : List Obj) (n : Nat) (vals : Option (List (Option ℚ))) : List Colloc.Row := Spec.points sc n (vals.getD [])

/-- The names of the results for a variable. -/
def Spec.resultNames (kern : Str) (o : Obj) : List String := (ColOpts.Spec.names (if kern = [] then moments else kern) o.info.name.toList).map String.ofList

/-! ### Proofs -/

theorem start_eq {coords : List Obj} {start : Option ℚ} (h : Spec.Start coords start) : rangeOf coords = start := by
  unfold rangeOf
  cases hf : coords.find? (fun c => c.info.std == "longitude") with
  | none =>
    have := List.find?_eq_none.1 hf
    rw [h.2 (fun c hc => by simpa using this c hc)]
    rfl
  | some c =>
    have hc := List.mem_of_find?_eq_some hf
    have hl : c.info.std = "longitude" := by simpa using List.find?_some hf
    obtain ⟨h1, h2⟩ := h.1 c hc hl
    simp only [Option.map_some]
    unfold findLongitudeRange pointsIn
    by_cases hx : ∃ x, some x ∈ c.values ∧ x < 0
    · rw [if_pos, h1 hx]
      obtain ⟨x, hx, h0⟩ := hx
      rw [List.any_eq_true]
      exact ⟨x, List.mem_filterMap.2 ⟨some x, hx, rfl⟩, by simpa using h0⟩
    · have hx' : ∀ x, some x ∈ c.values → 0 ≤ x := fun x hm => by
        by_contra h0; exact hx ⟨x, hm, not_le.1 h0⟩
      rw [if_neg, h2 hx']
      rw [List.any_eq_true]
      rintro ⟨x, hm, h0⟩
      obtain ⟨y, hy, e⟩ := List.mem_filterMap.1 hm
      simp only [id] at e
      subst e
      exact absurd (hx' x hy) (not_le.2 (by simpa using h0))

theorem fix_eq (s : ℚ) (l m : List (Option ℚ))
    (h : List.Forall₂ (fun x y => ∃ a b : ℚ, x = some a ∧ y = some b ∧ (s ≤ b ∧ b < s + 360) ∧ ∃ k : ℤ, b = a + 360 * k) l m) :
    m = (fixLongitudeRange (l.filterMap id) s).map some := by
  induction h with
  | nil => rfl
  | @cons x y l m hxy _ ih =>
    obtain ⟨a, b, rfl, rfl, hr, k, hk⟩ := hxy
    have hc := Cis.Lon.c21_fix_longitude_range [a] s
    have he : fixLongitudeRange [a] s = [b] := by
      unfold fixLongitudeRange Cis.Lon.wrapLons at hc ⊢
      simp only [List.map_cons, List.map_nil, List.forall₂_cons, List.Forall₂.nil, and_true] at hc ⊢
      rw [hc.2.2 b hr ⟨k, hk⟩]
    rw [List.filterMap_cons_some (show id (some a) = some a from rfl), ih]
    have hcons : ∀ t : List ℚ, fixLongitudeRange (a :: t) s = fixLongitudeRange [a] s ++ fixLongitudeRange t s := fun t => by
      unfold fixLongitudeRange Cis.Lon.wrapLons; simp
    rw [hcons, he]
    rfl

theorem inOneRange_eq {start : Option ℚ} {coords moved : List Obj} (h : Spec.InOneRange start coords moved) : moved = setRange start coords := by
  unfold setRange
  cases start with
  | none =>
    dsimp only
    unfold Spec.InOneRange at h
    induction h with
    | nil => rfl
    | @cons c m _ _ hcm _ ih =>
      obtain ⟨h1, h2, h3, h4, h5, h6, -⟩ := hcm
      rw [ih]
      congr 1
      have h6 := h6 (.inl rfl)
      cases c; cases m; simp_all
  | some s =>
    dsimp only
    unfold Spec.InOneRange at h
    induction h with
    | nil => rfl
    | @cons c m _ _ hcm _ ih =>
      obtain ⟨h1, h2, h3, h4, h5, h6, h7⟩ := hcm
      rw [List.map_cons, ← ih]
      congr 1
      by_cases hl : c.info.std = "longitude"
      · rw [if_pos hl]
        have := fix_eq s _ _ (h7 s rfl hl)
        cases c; cases m; simp_all [pointsIn]
      · rw [if_neg hl]
        have h6 := h6 (.inr hl)
        cases c; cases m; simp_all

/-- After the longitudes are set the coordinates can still be saved. -/
theorem moved_good {valid : String → Bool} {dflt : Bool → ℚ} {coords moved : List Obj} {n : Nat} {start : Option ℚ} (hs : Spec.Start coords start)
    (hg : Spec.GoodCoords valid dflt coords n) (h : Spec.InOneRange start coords moved) :
    (∀ c ∈ moved, c.values.length = n ∧ c.known = true ∧ Spec.Faithful dflt c) ∧
    (∀ c ∈ moved, c.info.std ∈ Spec.coordNames ∧ valid c.info.std = true ∧ none ∉ c.values) ∧
    (moved.map (fun c => c.info.std)) = coords.map (fun c => c.info.std) := by
  have hinfo : (moved.map (fun c => c.info.std)) = coords.map (fun c => c.info.std) := by
    clear hs hg
    unfold Spec.InOneRange at h
    induction h with
    | nil => rfl
    | cons hcm _ ih => simp only [List.map_cons, hcm.1, ih]
  have hst : ∀ c ∈ coords, c.info.std = "longitude" → start = some (-180) ∨ start = some 0 := by
    intro c hc hl
    obtain ⟨h1, h2⟩ := hs.1 c hc hl
    by_cases hx : ∃ x, some x ∈ c.values ∧ x < 0
    · exact .inl (h1 hx)
    · exact .inr (h2 (fun x hm => by by_contra h0; exact hx ⟨x, hm, not_le.1 h0⟩))
  have key : ∀ m ∈ moved, (m.values.length = n ∧ m.known = true ∧ Spec.Faithful dflt m) ∧
      (m.info.std ∈ Spec.coordNames ∧ valid m.info.std = true ∧ none ∉ m.values) := by
    intro m hm
    obtain ⟨c, hc, h1, h2, h3, h4, h5, h6, h7⟩ := Cis.Lon.mem_right h hm
    obtain ⟨e1, e2, e3⟩ := hg.each c hc
    obtain ⟨s1, s2, s3⟩ := hg.std c hc
    by_cases hl : c.info.std = "longitude"
    · obtain ⟨hp, hmiss⟩ := hg.longitudes c hc hl
      have hst := hst c hc hl
      obtain ⟨s, hss⟩ : ∃ s, start = some s := by rcases hst with h | h <;> exact ⟨_, h⟩
      have hv := h7 s hss hl
      refine ⟨⟨by rw [← hv.length_eq, e1], by rw [h3, e2], ?_⟩, by rw [h1]; exact s1, by rw [h1]; exact s2, ?_⟩
      · refine ⟨by simp [h5, hp, noPacking, Cis.Read.Spec.attr], by simp [h5, hp, noPacking], ?_, by simp [h5, hp, noPacking], by simp [h5, hp, noPacking],
          by simp [h5, hp, noPacking]⟩
        intro y hy
        obtain ⟨x, -, a, b, -, e, hr, -⟩ := Cis.Lon.mem_right hv hy
        injection e with e
        subst e
        have hb : -180 ≤ y ∧ y < 360 := by
          rcases hst with h | h
          · rw [hss] at h; injection h with h; subst h; exact ⟨hr.1, by linarith [hr.2]⟩
          · rw [hss] at h; injection h with h; subst h; exact ⟨by linarith [hr.1], by linarith [hr.2]⟩
        rw [h4, h2]
        simpa [Spec.stored, h5, hp, noPacking, Cis.Read.Spec.attr] using (hmiss y hb.1 hb.2).symm
      · intro hn
        obtain ⟨x, -, a, b, -, e, -⟩ := Cis.Lon.mem_right hv hn
        cases e
    · have hm' : m = c := by
        have h6 := h6 (.inr hl)
        cases c; cases m; simp_all
      subst hm'
      exact ⟨⟨e1, e2, e3⟩, s1, s2, s3⟩
  exact ⟨fun c hc => (key c hc).1, fun c hc => (key c hc).2, hinfo⟩

theorem hasColumns_of (l : Opts) (sample data : List Obj)
    (h : ∀ k ∈ needed, (∃ v, (k.1, some v) ∈ l) → (∃ c ∈ sample, c.info.std = k.2) ∧ ∃ c ∈ data, c.info.std = k.2) : hasColumns l sample data = true := by
  unfold hasColumns
  rw [List.all_eq_true]
  intro k hk
  cases hl : l.lookup k.1 with
  | none => simp
  | some v =>
    cases v with
    | none => simp
    | some v =>
      obtain ⟨⟨c, hc, h1⟩, d, hd, h2⟩ := h k hk ⟨v, by
        obtain ⟨a, b, e, -⟩ := List.lookup_eq_some_iff.1 hl
        rw [e]; simp⟩
      simp only [Option.join_some, Option.isNone_some, Bool.false_or, Bool.and_eq_true, List.any_eq_true]
      exact ⟨⟨c, hc, by simpa using h1⟩, d, hd, by simpa using h2⟩

theorem forall₂_left {A B : Type} {R : A → B → Prop} {l : List A} {m : List B} (h : List.Forall₂ R l m) {a : A} (ha : a ∈ l) : ∃ b ∈ m, R a b := by
  induction h with
  | nil => cases ha
  | cons hab _ ih =>
    rcases List.mem_cons.1 ha with rfl | ha
    · exact ⟨_, List.mem_cons_self, hab⟩
    · obtain ⟨b, hb, r⟩ := ih ha
      exact ⟨b, List.mem_cons_of_mem _ hb, r⟩

theorem ite_iff {c A B : Prop} [Decidable c] : (if c then A else B) ↔ (c → A) ∧ (¬ c → B) := by
  by_cases h : c <;> simp [h]

theorem resultNames_ne (kern : Str) (o : Obj) : Spec.resultNames kern o ≠ [] := by
  unfold Spec.resultNames ColOpts.Spec.names
  generalize (if kern = [] then moments else kern) = k
  by_cases h : k = moments
  · rw [if_pos h]; exact fun h => by cases h
  · rw [if_neg h]; exact fun h => by cases h

theorem joined (store : ℝ → ℚ) (i : Nat) {r : List (Out × List (Option ℝ))} {ds : List Data}
    (h : List.Forall₂ (fun out d => d.values = out.2.map (Option.map store)) r ds) :
    ds.map (fun d => (d.values[i]?).join) = (r.map (fun o => (o.2[i]?).join)).map (Option.map store) := by
  induction h with
  | nil => rfl
  | @cons out d _ _ h _ ih =>
    rw [List.map_cons, List.map_cons, List.map_cons, ih]
    congr 1
    rw [h, List.getElem?_map]
    rcases out.2[i]? with _ | (_ | x) <;> rfl

/-- A variable of the model. -/
noncomputable def mVar (dc : List Obj) (o : Obj) : Cis.ColCmd.Var := ⟨namesOf o, colsOf dc, rowsOf dc o.values.length (fun i => (o.values[i]?).join)⟩

/-- The sample of the model. -/
noncomputable def mPoints (sc : List Obj) (n : Nat) (vals : Option (List (Option ℚ))) : List Colloc.Row :=
  rowsOf sc n (fun i => (vals.bind (fun v => v[i]?)).join)

theorem coordAt_eq (coords : List Obj) (s : String) (i : Nat) :
    coordAt coords s i = (((((Spec.coordinate coords s)[i]?).getD none).getD 0 : ℚ) : ℝ) := by
  unfold coordAt Spec.coordinate
  cases coords.find? (fun c => c.info.std == s) with
  | none => rfl
  | some c =>
    simp only [Option.bind_some, Option.map_some, Option.getD_some]
    cases c.values[i]? <;> rfl

theorem mVar_rows (dc : List Obj) (o : Obj) : (mVar dc o).rows = (Spec.varOn dc o).rows := by
  simp only [mVar, Spec.varOn, rowsOf, Spec.points, coordAt_eq]
  refine List.map_congr_left fun i _ => ?_
  cases o.values[i]? <;> rfl

theorem mPoints_eq : mPoints = Spec.samplePoints := by
  funext sc n vals
  simp only [mPoints, Spec.samplePoints, rowsOf, Spec.points, coordAt_eq]
  refine List.map_congr_left fun i _ => ?_
  cases vals with
  | none => rfl
  | some v =>
    simp only [Option.bind_some, Option.getD_some]
    cases v[i]? <;> rfl

theorem mVar_near (s : ColOpts.Seps) (dc : List Obj) (o : Obj) (p : Colloc.Row) :
    ColCmd.Spec.near s (mVar dc o) p = ColCmd.Spec.near s (Spec.varOn dc o) p := by
  unfold ColCmd.Spec.near
  rw [mVar_rows]

set_option maxHeartbeats 1000000 in
theorem col_file_aux (valid : String → Bool) (dflt : Bool → ℚ) (store : ℝ → ℚ) (history : String) (num : Str → Option ℚ) (kernels : List Str)
    (l : Opts) (kern : Str) (sample : List Obj × Option (List (Option ℚ))) (data : List Obj × List Obj) (n : Nat)
    (hl : Method.Spec.Plain "box".toList l) (hkeys : ∀ kv ∈ l, kv.1 ∈ ColOpts.Spec.keys)
    (hH : ∀ v, (kH, some v) ∈ l → ∃ x, ColOpts.Spec.Km num v x) (hA : ∀ v, (kA, some v) ∈ l → ∃ x, ColOpts.Spec.Metre num v x)
    (hP : ∀ v, (kP, some v) ∈ l → ∃ x, num v = some x) (hT : ∀ v, (kT, some v) ∈ l → ∃ x, ColOpts.Spec.Days v x)
    (fv : Str) (fill : ℚ) (hF : (kFill, some fv) ∈ l ∧ num fv = some fill)
    (hk : kern = [] ∨ kern ∈ kernels) (hstat : kern ∈ ColCmd.Spec.statistics)
    (start dstart : Option ℚ) (sc dc : List Obj) (hstart : Spec.Start sample.1 start) (hsc : Spec.InOneRange start sample.1 sc)
    (hdstart : Spec.Start sc dstart) (hdc : Spec.InOneRange dstart data.1 dc)
    (hcols : ∀ k ∈ needed, (∃ v, (k.1, some v) ∈ l) → (∃ c ∈ sample.1, c.info.std = k.2) ∧ ∃ c ∈ data.1, c.info.std = k.2)
    (hlon : (∃ c ∈ sample.1, c.info.std = "longitude") → ∃ c ∈ data.1, c.info.std = "longitude")
    (hgc : Spec.GoodCoords valid dflt sample.1 n) (hdata : data.2 ≠ [])
    (hnames : ∀ o ∈ data.2, ∀ m ∈ Spec.resultNames kern o, m ≠ "" ∧ m ∉ Spec.coordNames) (hown : (data.2.flatMap (Spec.resultNames kern)).Nodup)
    (hgood : ∀ s, ColCmd.Spec.Written num l s → ∀ o ∈ data.2,
      Colloc.Spec.Good (ColCmd.Spec.real s) (mPoints sc n sample.2) (mVar dc o).rows)
    (hfill : ∀ s, ColCmd.Spec.Written num l s → ∀ o ∈ data.2, ∀ p ∈ mPoints sc n sample.2, ∀ r x,
      ColCmd.Spec.Result kern (ColCmd.Spec.near s (mVar dc o) p) r → some x ∈ r → store x ≠ fill) :
    ∃ s y f, ColCmd.Spec.Written num l s ∧
      colStep valid store history num kernels (some (Method.methodArgs (Method.Spec.method "box".toList l))) (some (kern, [])) sample data = some y ∧
      save dflt y.1 y.2 = .ok f ∧
      ∀ o ∈ data.2, ∃ ds : List Data, (Spec.resultNames kern o).map (fun m => createData valid true [f] m) = ds.map .ok ∧
        ds.map (fun d => d.info.name) = Spec.resultNames kern o ∧
        (∀ d ∈ ds, d.values.length = n ∧ d.coords.map (fun c => (c.2.info.std, c.2.values)) = sc.map (fun c => (c.info.std, c.values))) ∧
        ∀ (i : Nat) (p : Colloc.Row), (mPoints sc n sample.2)[i]? = some p →
          if ((match l.lookup kMissing with | none => sample.2.isSome | some v => checkBoolean v) = true ∧ sample.2.isSome = true ∧ p.val = none) ∨
            ColCmd.Spec.near s (mVar dc o) p = []
          then ∀ d ∈ ds, d.values[i]? = some none
          else ∃ r, ColCmd.Spec.Result kern (ColCmd.Spec.near s (mVar dc o) p) r ∧ ds.map (fun d => (d.values[i]?).join) = r.map (Option.map store) := by
  obtain ⟨m1, m2, m3⟩ := moved_good hstart hgc hsc
  have e1 := start_eq hstart
  have e2 := start_eq hdstart
  have e3 := inOneRange_eq hsc
  have e4 := inOneRange_eq hdc
  have hFx : ∀ v, (kFill, some v) ∈ l → v = fv := by
    intro v hv
    have h1 := List.inj_on_of_nodup_map hl.different hv hF.1 rfl
    injection h1 with _ h; injection h
  obtain ⟨s, fill', res, hw, hsf, hrun, hres⟩ := ColCmd.c184_collocate num kernels sample.2.isSome l kern (colsOf sc) (mPoints sc n sample.2)
    (data.2.map (mVar dc)) hl hkeys hH hA hP hT (fun v hv => ⟨fill, by rw [hFx v hv]; exact hF.2⟩) hk hstat
    (by
      intro s hs v hv
      obtain ⟨o, ho, rfl⟩ := List.mem_map.1 hv
      exact hgood s hs o ho)
  have hfl : fill' = some fill := by
    rcases hsf with ⟨v, x, hv, hx, e⟩ | ⟨h, -⟩
    · rw [hFx v hv, hF.2] at hx
      rw [e, ← hx]
    · exact absurd hF.1 (h fv)
  rw [List.forall₂_map_left_iff] at hres
  have hn0 : ((sample.1.head?.map (fun c => c.values.length)).getD 0) = n := by
    cases hs0 : sample.1 with
    | nil => exact absurd hs0 hgc.some.1
    | cons c t => simpa using (hgc.each c (by rw [hs0]; simp)).1
  have hstep : colStep valid store history num kernels (some (Method.methodArgs (Method.Spec.method "box".toList l))) (some (kern, [])) sample data =
      some (sc, res.flatten.map (outObj valid store history)) := by
    unfold colStep
    simp only [Option.map_some, Option.getD_some]
    rw [e1, ← e3, e2, ← e4, hn0]
    rw [if_neg, if_neg, if_neg]
    · have h' := hrun
      unfold mPoints mVar at h'
      rw [h']
    · rw [Method.c85_method _ _ hl, hasColumns_of l _ _ hcols]; decide
    · rw [List.any_eq_true]
      rintro ⟨c, hc, h⟩
      have h0 := (hgc.each c hc).1
      have hp := hgc.some.2
      simp only [Bool.and_eq_true, List.isEmpty_iff] at h
      rw [h.2] at h0
      simp at h0
      omega
    · rintro ⟨h1, h2⟩
      rw [← e1] at h1
      unfold rangeOf at h1 h2
      rw [Option.isSome_map] at h1
      rw [Option.isNone_map, Option.isNone_iff_eq_none] at h2
      obtain ⟨c, hc⟩ := Option.isSome_iff_exists.1 h1
      obtain ⟨d, hd, hds⟩ := hlon ⟨c, List.mem_of_find?_eq_some hc, by simpa using List.find?_some hc⟩
      have := List.find?_eq_none.1 h2 d hd
      simp [hds] at this
  have hlenS : (mPoints sc n sample.2).length = n := by unfold mPoints rowsOf; simp
  set y2 := res.flatten.map (outObj valid store history) with hy2
  have hrnames : ∀ o ∈ data.2, ∀ r : List (Out × List (Option ℝ)),
      r.map (fun o => o.1.names.name) = ColOpts.Spec.names (if kern = [] then moments else kern) (mVar dc o).names.name →
      (r.map (outObj valid store history)).map (fun o => o.info.name) = Spec.resultNames kern o := by
    intro o _ r h
    unfold Spec.resultNames
    have h2 : (mVar dc o).names.name = o.info.name.toList := rfl
    rw [← h2, ← h, List.map_map, List.map_map]
    rfl
  have hynames : y2.map (fun o => o.info.name) = data.2.flatMap (Spec.resultNames kern) := by
    rw [hy2, List.map_map, List.map_flatten]
    clear hrun hstep hgood hfill hown hnames
    have hrn := hrnames
    clear_value y2
    clear hrnames hdata hy2
    generalize data.2 = os at hres hrn
    induction hres with
    | nil => rfl
    | @cons o r _ _ hor _ ih =>
      rw [List.map_cons, List.flatten_cons, List.flatMap_cons, ih (fun o ho => hrn o (List.mem_cons_of_mem _ ho)), ← hrn o (List.mem_cons_self) r hor.1,
        List.map_map]
  have hfaith : ∀ w ∈ y2, w.values.length = n ∧ w.known = true ∧ Spec.Faithful dflt w := by
    intro w hw'
    rw [hy2] at hw'
    obtain ⟨out, hout, rfl⟩ := List.mem_map.1 hw'
    obtain ⟨r, hr, hor⟩ := List.mem_flatten.1 hout
    obtain ⟨o, ho, -, h2, h3⟩ := Cis.Lon.mem_right hres hr
    obtain ⟨g1, g2⟩ := h2 out hor
    rw [hlenS] at g2
    refine ⟨by simp [outObj, g2], rfl, ?_⟩
    refine ⟨by simp [outObj, noPacking, Cis.Read.Spec.attr], by simp [outObj], ?_, by simp [outObj, noPacking], by simp [outObj, noPacking],
      by simp [outObj, noPacking]⟩
    intro x hx
    have hmiss : (outObj valid store history out).missing = some fill := by simp [outObj, g1, hfl]
    rw [hmiss]
    have hst : Spec.stored (outObj valid store history out) x = x := by simp [Spec.stored, outObj, noPacking, Cis.Read.Spec.attr]
    rw [hst]
    simp only [outObj, List.mem_map, Option.map_eq_some_iff] at hx
    obtain ⟨a, ha, b, rfl, rfl⟩ := hx
    obtain ⟨i, hi, hib⟩ := List.getElem_of_mem ha
    have hp : (mPoints sc n sample.2)[i]? = some ((mPoints sc n sample.2)[i]'(by rw [hlenS, ← g2]; exact hi)) :=
      List.getElem?_eq_getElem _
    have h3 := h3 i _ hp
    have hoi : out.2[i]? = some (some b) := by rw [List.getElem?_eq_getElem hi, hib]
    rw [ite_iff] at h3
    rcases Classical.em _ with hc | hc
    · have := h3.1 hc out hor
      rw [hoi] at this
      cases this
    · refine hfill s hw o ho _ (List.mem_of_getElem? hp) _ b (h3.2 hc) ?_
      exact List.mem_map.2 ⟨out, hor, by rw [hoi]; rfl⟩
  have hres0 : y2 ≠ [] := by
    intro h0
    rw [h0] at hynames
    cases hd : data.2 with
    | nil => exact hdata hd
    | cons o t =>
      rw [hd, List.flatMap_cons] at hynames
      rw [List.map_nil] at hynames
      exact resultNames_ne kern o (List.append_eq_nil_iff.1 hynames.symm).1
  have hsound : Spec.Sound valid dflt (sc, y2) := by
    refine ⟨⟨⟨?_, hres0⟩, ⟨n, ?_⟩, m2, ?_, ?_, ?_⟩, ?_⟩
    · intro h0
      have h0 : sc = [] := h0
      rw [h0] at m3
      exact hgc.some.1 (List.map_eq_nil_iff.1 m3.symm)
    · intro o ho
      rcases List.mem_append.1 ho with ho | ho
      · exact m1 o ho
      · exact hfaith o ho
    · show (sc.map _).Nodup
      rw [m3]; exact hgc.different
    · intro d hd
      have : d.info.name ∈ y2.map (fun o => o.info.name) := List.mem_map.2 ⟨d, hd, rfl⟩
      rw [hynames] at this
      obtain ⟨o, ho, hm⟩ := List.mem_flatMap.1 this
      exact hnames o ho _ hm
    · show (y2.map _).Nodup
      rw [hynames]; exact hown
    · intro o ho
      have ho : o ∈ y2 := ho
      rw [hy2] at ho
      obtain ⟨out, -, rfl⟩ := List.mem_map.1 ho
      unfold outObj
      dsimp only
      split
      · exact .inl ‹_›
      · exact .inr rfl
  obtain ⟨f, hf, -⟩ := c211_reread valid dflt (sc, y2) hsound
  have hread : ∀ w ∈ y2, ∃ d, createData valid true [f] w.info.name = .ok d ∧ d.info = w.info ∧ d.values = w.values ∧
      d.coords.map (fun c => (c.2.info.std, c.2.values)) = sc.map (fun c => (c.info.std, c.values)) := by
    intro w hw'
    obtain ⟨files, d, h1, h2, h3, h4, h5, h6⟩ := c96_round_trip valid dflt (sc, y2) [] w (by simpa using hsound.good) (by simp) hw' (by simp)
      (hsound.std w hw')
    have hfiles : files = [f] := by
      simp only [List.mapM_cons, List.mapM_nil, hf] at h1
      cases h1; rfl
    subst hfiles
    refine ⟨d, h2, h3, ?_, ?_⟩
    · rw [h4]
      simp only [List.flatMap_cons, List.flatMap_nil, List.append_nil]
      exact spec_variable y2 hsound.good.own w hw'
    · have a1 : d.coords.map (fun c => c.2.info.std) = sc.map (fun c => c.info.std) := by
        have := congrArg (List.map Info.std) h5
        rw [List.map_map, List.map_map] at this
        exact this
      have a2 : d.coords.map (fun c => c.2.values) = sc.map (fun c => c.values) := by
        rw [h6]
        refine List.map_congr_left fun c hc => ?_
        simp only [List.flatMap_cons, List.flatMap_nil, List.append_nil]
        exact spec_coordinate sc hsound.good.different c hc
      have z1 : ∀ (L : List (Char × Got)), L.map (fun c => (c.2.info.std, c.2.values)) = (L.map (fun c => c.2.info.std)).zip (L.map (fun c => c.2.values)) := by
        intro L; induction L with
        | nil => rfl
        | cons a t ih => simp [ih]
      have z2 : ∀ (L : List Obj), L.map (fun c => (c.info.std, c.values)) = (L.map (fun c => c.info.std)).zip (L.map (fun c => c.values)) := by
        intro L; induction L with
        | nil => rfl
        | cons a t ih => simp [ih]
      rw [z1, z2, a1, a2]
  refine ⟨s, _, f, hw, hstep, hf, ?_⟩
  intro o ho
  obtain ⟨r, hr, h1, h2, h3⟩ := forall₂_left hres ho
  have hsub : ∀ out ∈ r, outObj valid store history out ∈ y2 := fun out ho' => by
    rw [hy2]; exact List.mem_map.2 ⟨out, List.mem_flatten.2 ⟨r, hr, ho'⟩, rfl⟩
  have hds : ∃ ds : List Data, List.Forall₂ (fun out d => createData valid true [f] (outObj valid store history out).info.name = .ok d ∧
      d.info = (outObj valid store history out).info ∧ d.values = out.2.map (Option.map store) ∧
      d.coords.map (fun c => (c.2.info.std, c.2.values)) = sc.map (fun c => (c.info.std, c.values))) r ds := by
    clear h1 h2 h3 hr
    induction r with
    | nil => exact ⟨[], .nil⟩
    | cons a t ih =>
      obtain ⟨ds, hd⟩ := ih (fun out ho' => hsub out (List.mem_cons_of_mem _ ho'))
      obtain ⟨d, d1, d2, d3, d4⟩ := hread _ (hsub a List.mem_cons_self)
      exact ⟨d :: ds, .cons ⟨d1, d2, d3, d4⟩ hd⟩
  obtain ⟨ds, hds⟩ := hds
  have hn1 := hrnames o ho r h1
  refine ⟨ds, ?_, ?_, ?_, ?_⟩
  · rw [← hn1, List.map_map, List.map_map]
    clear h1 h2 h3 hr hsub hn1
    induction hds with
    | nil => rfl
    | cons h _ ih => rw [List.map_cons, List.map_cons, ih, ← h.1]; rfl
  · rw [← hn1, List.map_map]
    clear h1 h2 h3 hr hsub hn1
    induction hds with
    | nil => rfl
    | cons h _ ih => rw [List.map_cons, List.map_cons, ih, h.2.1]; rfl
  · intro d hd
    obtain ⟨out, ho', -, -, k3, k4⟩ := Cis.Lon.mem_right hds hd
    exact ⟨by rw [k3, List.length_map, (h2 out ho').2, hlenS], k4⟩
  · intro i p hp
    have h3 := h3 i p hp
    rw [ite_iff] at h3 ⊢
    refine ⟨fun hc => ?_, fun hc => ?_⟩
    · have h3 := h3.1 hc
      intro d hd
      obtain ⟨out, ho', -, -, k3, -⟩ := Cis.Lon.mem_right hds hd
      rw [k3, List.getElem?_map, h3 out ho']
      rfl
    · refine ⟨_, h3.2 hc, ?_⟩
      exact joined store i (hds.imp (fun out d h => h.2.2.1))

/-- **C213.** The file that `cis col` writes for points on points, read again. With options as in C184 and a fill value, `sc` the coordinates of the
sample with longitudes in one range and `dc` those of the data in the range of the sample: if the search is exact (C17) and no result is the fill
value, the command succeeds, the file can be read, and it holds, for every variable, its results under their names. Each has the coordinates `sc`,
point for point; at every sample point the values are the statistic, stored as floating point, of exactly the valid values within the separations
written, and missing if there are none or if the sample value is missing and the flag says so. -/
theorem c213_col_file (valid : String → Bool) (dflt : Bool → ℚ) (store : ℝ → ℚ) (history : String) (num : Str → Option ℚ) (kernels : List Str)
    (l : Opts) (kern : Str) (sample : List Obj × Option (List (Option ℚ))) (data : List Obj × List Obj) (n : Nat)
    (hl : Method.Spec.Plain "box".toList l) (hkeys : ∀ kv ∈ l, kv.1 ∈ ColOpts.Spec.keys)
    (hH : ∀ v, (kH, some v) ∈ l → ∃ x, ColOpts.Spec.Km num v x) (hA : ∀ v, (kA, some v) ∈ l → ∃ x, ColOpts.Spec.Metre num v x)
    (hP : ∀ v, (kP, some v) ∈ l → ∃ x, num v = some x) (hT : ∀ v, (kT, some v) ∈ l → ∃ x, ColOpts.Spec.Days v x)
    (fv : Str) (fill : ℚ) (hF : (kFill, some fv) ∈ l ∧ num fv = some fill)
    (hk : kern = [] ∨ kern ∈ kernels) (hstat : kern ∈ ColCmd.Spec.statistics)
    (start dstart : Option ℚ) (sc dc : List Obj) (hstart : Spec.Start sample.1 start) (hsc : Spec.InOneRange start sample.1 sc)
    (hdstart : Spec.Start sc dstart) (hdc : Spec.InOneRange dstart data.1 dc)
    (hcols : ∀ k ∈ needed, (∃ v, (k.1, some v) ∈ l) → (∃ c ∈ sample.1, c.info.std = k.2) ∧ ∃ c ∈ data.1, c.info.std = k.2)
    (hlon : (∃ c ∈ sample.1, c.info.std = "longitude") → ∃ c ∈ data.1, c.info.std = "longitude")
    (hgc : Spec.GoodCoords valid dflt sample.1 n) (hdata : data.2 ≠ [])
    (hnames : ∀ o ∈ data.2, ∀ m ∈ Spec.resultNames kern o, m ≠ "" ∧ m ∉ Spec.coordNames) (hown : (data.2.flatMap (Spec.resultNames kern)).Nodup)
    (hgood : ∀ s, ColCmd.Spec.Written num l s → ∀ o ∈ data.2,
      Colloc.Spec.Good (ColCmd.Spec.real s) (Spec.samplePoints sc n sample.2) (Spec.varOn dc o).rows)
    (hfill : ∀ s, ColCmd.Spec.Written num l s → ∀ o ∈ data.2, ∀ p ∈ Spec.samplePoints sc n sample.2, ∀ r x,
      ColCmd.Spec.Result kern (ColCmd.Spec.near s (Spec.varOn dc o) p) r → some x ∈ r → store x ≠ fill) :
    ∃ s y f, ColCmd.Spec.Written num l s ∧
      colStep valid store history num kernels (some (Method.methodArgs (Method.Spec.method "box".toList l))) (some (kern, [])) sample data = some y ∧
      save dflt y.1 y.2 = .ok f ∧
      ∀ o ∈ data.2, ∃ ds : List Data, (Spec.resultNames kern o).map (fun m => createData valid true [f] m) = ds.map .ok ∧
        ds.map (fun d => d.info.name) = Spec.resultNames kern o ∧
        (∀ d ∈ ds, d.values.length = n ∧ d.coords.map (fun c => (c.2.info.std, c.2.values)) = sc.map (fun c => (c.info.std, c.values))) ∧
        ∀ (i : Nat) (p : Colloc.Row), (Spec.samplePoints sc n sample.2)[i]? = some p →
          if ((match l.lookup kMissing with | none => sample.2.isSome | some v => checkBoolean v) = true ∧ sample.2.isSome = true ∧ p.val = none) ∨
            ColCmd.Spec.near s (Spec.varOn dc o) p = []
          then ∀ d ∈ ds, d.values[i]? = some none
          else ∃ r, ColCmd.Spec.Result kern (ColCmd.Spec.near s (Spec.varOn dc o) p) r ∧ ds.map (fun d => (d.values[i]?).join) = r.map (Option.map store) := by
  have h := col_file_aux valid dflt store history num kernels l kern sample data n hl hkeys hH hA hP hT fv fill hF hk hstat start dstart sc dc hstart hsc hdstart hdc hcols hlon hgc hdata hnames hown
  simp only [mPoints_eq, mVar_rows, mVar_near] at h
  exact h hgood hfill

/-! ### As a step of an analysis -/

theorem find_settled (dflt : Bool → ℚ) (coords : List Obj) (s : String) :
    (coords.map (Spec.settledCoord dflt)).find? (fun c => c.info.std == s) = (coords.find? (fun c => c.info.std == s)).map (Spec.settledCoord dflt) := by
  rw [List.find?_map]
  rfl

theorem any_settled (dflt : Bool → ℚ) (coords : List Obj) (p : String → List (Option ℚ) → Bool) :
    (coords.map (Spec.settledCoord dflt)).any (fun c => p c.info.std c.values) = coords.any (fun c => p c.info.std c.values) := by
  rw [List.any_map]
  rfl

theorem rangeOf_settled (dflt : Bool → ℚ) (coords : List Obj) : rangeOf (coords.map (Spec.settledCoord dflt)) = rangeOf coords := by
  unfold rangeOf
  rw [find_settled, Option.map_map]
  rfl

theorem setRange_settled (dflt : Bool → ℚ) (start : Option ℚ) (coords : List Obj) :
    setRange start (coords.map (Spec.settledCoord dflt)) = (setRange start coords).map (Spec.settledCoord dflt) := by
  cases start with
  | none => rfl
  | some s =>
    unfold setRange
    simp only [List.map_map]
    refine List.map_congr_left fun c _ => ?_
    simp only [Function.comp]
    have e : (Spec.settledCoord dflt c).info.std = c.info.std := rfl
    rw [e]
    by_cases h : c.info.std = "longitude"
    · rw [if_pos h, if_pos h]; rfl
    · rw [if_neg h, if_neg h]

theorem coordAt_settled (dflt : Bool → ℚ) (coords : List Obj) : coordAt (coords.map (Spec.settledCoord dflt)) = coordAt coords := by
  funext s i
  unfold coordAt
  rw [find_settled]
  cases coords.find? (fun c => c.info.std == s) <;> rfl

theorem rowsOf_settled (dflt : Bool → ℚ) (coords : List Obj) : rowsOf (coords.map (Spec.settledCoord dflt)) = rowsOf coords := by
  funext n vals
  unfold rowsOf
  rw [coordAt_settled]

theorem colsOf_settled (dflt : Bool → ℚ) (coords : List Obj) : colsOf (coords.map (Spec.settledCoord dflt)) = colsOf coords := by
  unfold colsOf
  rw [List.filterMap_map]
  rfl

theorem hasColumns_settled (dflt : Bool → ℚ) (o : Opts) (sample data : List Obj) :
    hasColumns o (sample.map (Spec.settledCoord dflt)) (data.map (Spec.settledCoord dflt)) = hasColumns o sample data := by
  unfold hasColumns
  congr 1
  funext k
  rw [any_settled dflt sample (fun s _ => s == k.2), any_settled dflt data (fun s _ => s == k.2)]

theorem colStep_settle (valid : String → Bool) (dflt : Bool → ℚ) (store : ℝ → ℚ) (history : String) (num : Str → Option ℚ) (kernels : List Str)
    (col kern : Option (Str × Opts)) (sample : List Obj × Option (List (Option ℚ))) (data : List Obj × List Obj) :
    (colStep valid store history num kernels col kern (sample.1.map (Spec.settledCoord dflt), sample.2) (Spec.settle dflt data)).map (Spec.settle dflt) =
      (colStep valid store history num kernels col kern sample data).map (Spec.settle dflt) := by
  have hvars : ∀ dc : List Obj, (Spec.settle dflt data).2.map (fun o => (⟨namesOf o, colsOf dc, rowsOf dc o.values.length (fun i => (o.values[i]?).join)⟩ : ColCmd.Var)) =
      data.2.map (fun o => ⟨namesOf o, colsOf dc, rowsOf dc o.values.length (fun i => (o.values[i]?).join)⟩) := by
    intro dc
    simp only [Spec.settle, List.map_map]
    rfl
  have hhead : ((sample.1.map (Spec.settledCoord dflt)).head?.map (fun c => c.values.length)) = sample.1.head?.map (fun c => c.values.length) := by
    rw [List.head?_map, Option.map_map]
    rfl
  have hcoords : (Spec.settle dflt data).1 = data.1.map (Spec.settledCoord dflt) := rfl
  unfold colStep
  simp only []
  rw [hcoords, hhead, hvars, rangeOf_settled, rangeOf_settled, setRange_settled, rangeOf_settled, setRange_settled, hasColumns_settled,
    any_settled dflt sample.1 (fun s v => s == "longitude" && v.isEmpty), colsOf_settled, colsOf_settled, rowsOf_settled, rowsOf_settled]
  split
  · rfl
  split
  · rfl
  split
  · rfl
  cases ColCmd.run num kernels sample.2.isSome col kern (colsOf (setRange (rangeOf sample.1) sample.1))
      (rowsOf (setRange (rangeOf sample.1) sample.1) ((sample.1.head?.map (fun c => c.values.length)).getD 0) (fun i => (sample.2.bind (fun v => v[i]?)).join))
      (data.2.map (fun o => ⟨namesOf o, colsOf (setRange (rangeOf (setRange (rangeOf sample.1) sample.1)) data.1),
        rowsOf (setRange (rangeOf (setRange (rangeOf sample.1) sample.1)) data.1) o.values.length (fun i => (o.values[i]?).join)⟩)) with
  | error e => rfl
  | ok r =>
    simp only [Option.map_some, Spec.settle, Option.some.injEq, Prod.mk.injEq, and_true, List.map_map]
    refine List.map_congr_left fun c _ => ?_
    rfl

/-- C213: collocation is a step that can be made through files. A sample and data that were saved and are read again give the same result, for all
options and for every kernel of C184, whether or not the search is exact; only what the variables of the coordinates are called may differ. -/
theorem c213_through_files (valid : String → Bool) (dflt : Bool → ℚ) (store : ℝ → ℚ) (history : String) (num : Str → Option ℚ) (kernels : List Str)
    (col kern : Option (Str × Opts)) (sc : List Obj) (sv : Obj) (useVar : Bool) (data : List Obj × List Obj)
    (hs : Spec.Sound valid dflt (sc, [sv])) (hd : Spec.Sound valid dflt data) :
    ∃ f g x sv' y, save dflt sc [sv] = .ok f ∧ save dflt data.1 data.2 = .ok g ∧ loaded valid [f] [sv.info.name] = .ok (x, [sv']) ∧
      loaded valid [g] (Spec.names data) = .ok y ∧
      (colStep valid store history num kernels col kern (x, if useVar then some sv'.values else none) y).map (Spec.settle dflt) =
        (colStep valid store history num kernels col kern (sc, if useVar then some sv.values else none) data).map (Spec.settle dflt) := by
  obtain ⟨f, hf, hf'⟩ := c211_reread valid dflt (sc, [sv]) hs
  obtain ⟨g, hg, hg'⟩ := c211_reread valid dflt data hd
  exact ⟨f, g, sc.map (Spec.settledCoord dflt), Spec.settled dflt sv, Spec.settle dflt data, hf, hg, hf', hg',
    colStep_settle valid dflt store history num kernels col kern (sc, if useVar then some sv.values else none) data⟩

/-! ### Non-vacuity: `box[t_sep=P1D,fill_value=-999]`, the mean, a sample whose first longitude is outside of both ranges -/

def exColOpts : Opts := [(kT, some "P1D".toList), (kFill, some "-999".toList)]
def exSampleLon : Obj := plainObj "lon" "longitude" [some (-200), some 5]
def exSampleTime : Obj := plainObj "t" "time" [some 0, some 9]
def exDataLon : Obj := plainObj "x" "longitude" [some (-10), some 20, some 30]
def exDataTime : Obj := plainObj "time" "time" [some 0, some (1 / 2), some 5]
def exDataVar : Obj := plainObj "so2" "" [some 1, some 3, none]
noncomputable def exStore (x : ℝ) : ℚ := ⌊x⌋

def exSampleMoved : List Obj := [plainObj "lon" "longitude" [some 160, some 5], exSampleTime]
def exDataMoved : List Obj := [plainObj "x" "longitude" [some 350, some 20, some 30], exDataTime]

theorem ex_start : Spec.Start [exSampleLon, exSampleTime] (some (-180)) := by
  refine ⟨?_, fun h => absurd rfl (h exSampleLon (by simp))⟩
  intro c hc hl
  simp only [List.mem_cons, List.not_mem_nil, or_false] at hc
  rcases hc with rfl | rfl
  · exact ⟨fun _ => rfl, fun h => absurd (h (-200) (by simp [exSampleLon, plainObj])) (by norm_num)⟩
  · exact absurd hl (by decide)

theorem ex_dstart : Spec.Start exSampleMoved (some 0) := by
  refine ⟨?_, fun h => absurd rfl (h _ (List.mem_cons_self))⟩
  intro c hc hl
  simp only [exSampleMoved, List.mem_cons, List.not_mem_nil, or_false] at hc
  rcases hc with rfl | rfl
  · refine ⟨?_, fun _ => rfl⟩
    rintro ⟨x, hx, h0⟩
    simp only [plainObj, List.mem_cons, Option.some.injEq, List.not_mem_nil, or_false] at hx
    rcases hx with rfl | rfl <;> norm_num at h0
  · exact absurd hl (by decide)

theorem ex_moved : Spec.InOneRange (some (-180)) [exSampleLon, exSampleTime] exSampleMoved := by
  refine .cons ⟨rfl, rfl, rfl, rfl, rfl, fun h => absurd h (by decide), ?_⟩ (.cons ⟨rfl, rfl, rfl, rfl, rfl, fun _ => rfl, fun s _ h => absurd h (by decide)⟩ .nil)
  intro s hs _
  cases hs
  exact .cons ⟨-200, 160, rfl, rfl, by norm_num, 1, by norm_num⟩ (.cons ⟨5, 5, rfl, rfl, by norm_num, 0, by norm_num⟩ .nil)

theorem ex_dmoved : Spec.InOneRange (some 0) [exDataLon, exDataTime] exDataMoved := by
  refine .cons ⟨rfl, rfl, rfl, rfl, rfl, fun h => absurd h (by decide), ?_⟩ (.cons ⟨rfl, rfl, rfl, rfl, rfl, fun _ => rfl, fun s _ h => absurd h (by decide)⟩ .nil)
  intro s hs _
  cases hs
  exact .cons ⟨-10, 350, rfl, rfl, by norm_num, 1, by norm_num⟩ (.cons ⟨20, 20, rfl, rfl, by norm_num, 0, by norm_num⟩
    (.cons ⟨30, 30, rfl, rfl, by norm_num, 0, by norm_num⟩ .nil))

theorem ex_goodCoords : Spec.GoodCoords (fun _ => true) defaultFill [exSampleLon, exSampleTime] 2 := by
  have hf : ∀ c : Obj, c = exSampleLon ∨ c = exSampleTime → Spec.Faithful defaultFill c := by
    intro c hc
    refine ⟨by rcases hc with rfl | rfl <;> simp [exSampleLon, exSampleTime, plainObj, noPacking, Cis.Read.Spec.attr],
      by rcases hc with rfl | rfl <;> simp [exSampleLon, exSampleTime, plainObj], ?_, by rcases hc with rfl | rfl <;> simp [exSampleLon, exSampleTime, plainObj, noPacking],
      by rcases hc with rfl | rfl <;> simp [exSampleLon, exSampleTime, plainObj, noPacking], by rcases hc with rfl | rfl <;> simp [exSampleLon, exSampleTime, plainObj, noPacking]⟩
    intro x hx
    rcases hc with rfl | rfl <;>
      (simp only [exSampleLon, exSampleTime, plainObj, List.mem_cons, Option.some.injEq, List.not_mem_nil, or_false] at hx
       rcases hx with rfl | rfl <;> norm_num [Spec.stored, exSampleLon, exSampleTime, plainObj, noPacking, Cis.Read.Spec.attr])
  refine ⟨⟨by simp, by decide⟩, ?_, ?_, by decide, ?_⟩
  · intro c hc
    simp only [List.mem_cons, List.not_mem_nil, or_false] at hc
    exact ⟨by rcases hc with rfl | rfl <;> rfl, by rcases hc with rfl | rfl <;> rfl, hf c hc⟩
  · intro c hc
    simp only [List.mem_cons, List.not_mem_nil, or_false] at hc
    exact ⟨by rcases hc with rfl | rfl <;> decide, rfl, by rcases hc with rfl | rfl <;> simp [exSampleLon, exSampleTime, plainObj]⟩
  · intro c hc hl
    simp only [List.mem_cons, List.not_mem_nil, or_false] at hc
    rcases hc with rfl | rfl
    · refine ⟨rfl, fun y h1 h2 => ?_⟩
      show (-999 : ℚ) ≠ y
      intro e; subst e; norm_num at h1
    · exact absurd hl (by decide)

theorem ex_seps (s : ColOpts.Seps) (h : ColCmd.Spec.Written exNum exColOpts s) : s.h = none ∧ s.p = none := by
  obtain ⟨hH, -, hP, -⟩ := h
  have key : ∀ {read : Str → ℚ → Prop} {k : Str} {x : Option ℚ}, k ≠ kT → k ≠ kFill → ColOpts.Spec.Says read exColOpts k x → x = none := by
    intro read k x h1 h2 h
    rcases h with ⟨v, y, hm, -⟩ | ⟨-, h⟩
    · simp only [exColOpts, List.mem_cons, List.not_mem_nil, or_false, Prod.mk.injEq] at hm
      rcases hm with hm | hm
      · exact absurd hm.1 h1
      · exact absurd hm.1 h2
    · exact h
  exact ⟨key (by decide) (by decide) hH, key (by decide) (by decide) hP⟩

theorem ex_near_nonneg (s : ColOpts.Seps) (p : Colloc.Row) : ∀ x ∈ ColCmd.Spec.near s (Spec.varOn exDataMoved exDataVar) p, 0 ≤ x := by
  intro x hx
  unfold ColCmd.Spec.near at hx
  obtain ⟨q, hq, rfl⟩ := List.mem_map.1 hx
  have hq := (List.mem_filter.1 hq).1
  simp only [Colloc.dropna, Spec.varOn, Spec.points, exDataVar, plainObj, List.length_cons, List.length_nil, List.range_succ, List.range_zero,
    List.mem_filterMap, List.mem_map, List.mem_append, List.mem_singleton, List.not_mem_nil, false_or] at hq
  obtain ⟨r, ⟨i, hi, rfl⟩, hv⟩ := hq
  rcases hi with (rfl | rfl) | rfl <;> simp at hv <;> (subst hv; norm_num)

theorem ex_other {k : Str} {P : Str → Prop} (h1 : k ≠ kT) (h2 : k ≠ kFill) : ∀ v, (k, some v) ∈ exColOpts → P v := by
  intro v hv
  simp only [exColOpts, List.mem_cons, List.not_mem_nil, or_false, Prod.mk.injEq] at hv
  rcases hv with hv | hv
  · exact absurd hv.1 h1
  · exact absurd hv.1 h2

example : ∃ s y f, ColCmd.Spec.Written exNum exColOpts s ∧
    colStep (fun _ => true) exStore "h" exNum ["mean".toList] (some (Method.methodArgs (Method.Spec.method "box".toList exColOpts))) (some ("mean".toList, []))
      ([exSampleLon, exSampleTime], some [some 0, none]) ([exDataLon, exDataTime], [exDataVar]) = some y ∧
    save defaultFill y.1 y.2 = .ok f ∧ ∃ d, createData (fun _ => true) true [f] "so2" = .ok d ∧ d.values.length = 2 ∧ d.values[1]? = some none ∧
      d.coords.map (fun c => (c.2.info.std, c.2.values)) = [("longitude", [some 160, some 5]), ("time", [some 0, some 9])] := by
  obtain ⟨s, y, f, h1, h2, h3, h4⟩ := c213_col_file (fun _ => true) defaultFill exStore "h" exNum ["mean".toList] exColOpts "mean".toList
    ([exSampleLon, exSampleTime], some [some 0, none]) ([exDataLon, exDataTime], [exDataVar]) 2
    ⟨by decide, by decide, by decide, by decide +kernel, by decide⟩ (by decide)
    (ex_other (by decide) (by decide)) (ex_other (by decide) (by decide))
    (ex_other (by decide) (by decide))
    (fun v hv => by
      simp only [exColOpts, List.mem_cons, List.not_mem_nil, or_false, Prod.mk.injEq] at hv
      rcases hv with ⟨-, hv⟩ | ⟨hv, -⟩
      · injection hv with hv; subst hv; exact ColCmd.ex_days
      · exact absurd hv (by decide))
    "-999".toList (-999) ⟨by simp [exColOpts], by decide +kernel⟩ (.inr (by decide)) (by decide)
    (some (-180)) (some 0) exSampleMoved exDataMoved ex_start ex_moved ex_dstart ex_dmoved
    (by
      intro k hk ⟨v, hv⟩
      have hkt : k.1 = kT ∨ k.1 = kFill := by
        simp only [exColOpts, List.mem_cons, List.not_mem_nil, or_false, Prod.mk.injEq] at hv
        rcases hv with hv | hv
        · exact .inl hv.1
        · exact .inr hv.1
      simp only [needed, List.mem_cons, List.not_mem_nil, or_false] at hk
      rcases hk with rfl | rfl | rfl | rfl | rfl
      iterate 4 exact absurd hkt (by decide)
      exact ⟨⟨exSampleTime, by simp, rfl⟩, exDataTime, by simp, rfl⟩)
    (fun _ => ⟨exDataLon, by simp, rfl⟩) ex_goodCoords (by simp)
    (by
      intro o ho m hm
      rw [List.mem_singleton] at ho
      subst ho
      have : m = "so2" := by
        have h : Spec.resultNames "mean".toList exDataVar = ["so2"] := by decide +kernel
        rw [h] at hm; simpa using hm
      subst this
      decide)
    (by
      have h : Spec.resultNames "mean".toList exDataVar = ["so2"] := by decide +kernel
      rw [List.flatMap_cons, List.flatMap_nil, h]
      decide)
    (by
      intro s hs o ho
      rw [List.mem_singleton] at ho
      subst ho
      obtain ⟨h0, p0⟩ := ex_seps s hs
      refine ⟨?_, ?_, by simp [ColCmd.Spec.real, h0], by intro h e; simp [ColCmd.Spec.real, h0] at e, .inl (by simp [ColCmd.Spec.real, h0])⟩
      · simp [Colloc.dropna, Spec.varOn, Spec.points, exDataVar, plainObj, List.range_succ]
      · intro r hr
        simp [Colloc.PresOK, ColCmd.Spec.real, p0])
    (by
      intro s _ o ho p _ r x hr hx
      rw [List.mem_singleton] at ho
      subst ho
      have e := hr.1 rfl
      subst e
      rw [List.mem_singleton] at hx
      injection hx with hx
      subst hx
      have h0 : (0 : ℝ) ≤ ColCmd.Spec.avg (ColCmd.Spec.near s (Spec.varOn exDataMoved exDataVar) p) :=
        div_nonneg (List.sum_nonneg (ex_near_nonneg s p)) (Nat.cast_nonneg _)
      have h1 : (0 : ℤ) ≤ ⌊ColCmd.Spec.avg (ColCmd.Spec.near s (Spec.varOn exDataMoved exDataVar) p)⌋ := Int.floor_nonneg.2 h0
      unfold exStore
      intro e
      have : (0 : ℚ) ≤ -999 := by rw [← e]; exact_mod_cast h1
      norm_num at this)
  obtain ⟨ds, g1, g2, g3, g4⟩ := h4 exDataVar (by simp)
  have h : Spec.resultNames "mean".toList exDataVar = ["so2"] := by decide +kernel
  rw [h] at g1 g2
  obtain ⟨d, rfl⟩ : ∃ d, ds = [d] := by
    have := congrArg List.length g2
    rw [List.length_map] at this
    exact List.length_eq_one_iff.1 this
  refine ⟨s, y, f, h1, h2, h3, d, by simpa using g1, (g3 d (by simp)).1, ?_, (g3 d (by simp)).2⟩
  have := g4 1 _ rfl
  rw [if_pos (.inl ⟨by decide, by decide, rfl⟩)] at this
  exact this d (by simp)

example (num : Str → Option ℚ) (col kern : Option (Str × Opts)) :
    ∃ f g x sv' y, save defaultFill [exLat3, exLon3] [exT3] = .ok f ∧ save defaultFill [exLat3, exLon3] [exT3] = .ok g ∧
      loaded (fun s => s != "") [f] ["t"] = .ok (x, [sv']) ∧ loaded (fun s => s != "") [g] ["t"] = .ok y ∧
      (colStep (fun s => s != "") exStore "h" num [] col kern (x, some sv'.values) y).map (Spec.settle defaultFill) =
        (colStep (fun s => s != "") exStore "h" num [] col kern ([exLat3, exLon3], some exT3.values) ([exLat3, exLon3], [exT3])).map
          (Spec.settle defaultFill) :=
  c213_through_files _ _ exStore "h" num [] col kern [exLat3, exLon3] exT3 true ([exLat3, exLon3], [exT3]) exSound exSound

end Cis.RoundTrip
