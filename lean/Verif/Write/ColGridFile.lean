import Verif.Write.ColFile
import Verif.Interp.Command
set_option linter.unusedSectionVars false
set_option linter.unusedSimpArgs false

/-!
# `cis col` of gridded data onto points: the file that is written

The collocation of `Interp/Command.lean` between reading and saving: the longitudes of the sample are brought into one range, the points are taken from
its coordinates, and the results are saved with the coordinates of the sample. The grid is in that range already (C23 says what it then is).
-/
namespace Cis.RoundTrip
open Cis.Str
open Cis.ColOpts hiding Err
open Cis.Interp (Val Axis AllInRange Handled)

/-! ### Model -/

/-- The points of the sample: for each the coordinates of the dimensions of the grid (`sample.coord(c).data_flattened`, gridded_interpolation.py:100). -/
def gridPoints (dims : List String) (sc : List Obj) (n : Nat) : List (List ℚ) :=
  (List.range n).map (fun i => dims.map (fun s => ((sc.find? (fun c => c.info.std == s)).bind (fun c => c.values[i]?)).join.getD 0))

/-- The values of the sample: `UngriddedCoordinates` if no sample variable is given, else a masked array with a mask for each point
(gridded_interpolation.py:124-130). -/
def sampleValues : Option (List (Option ℚ)) → InterpCmd.Values
  | none => .coordinates
  | some v => .mask (v.map Option.isNone)

/-- A value to be saved: masked ones are missing. NaN is not modelled (the grids have none). -/
def numOf : Val ℚ → Option ℚ
  | .num x => some x
  | .masked => none
  | .nan => none

/-- `col_cmd` (cis_main.py:65-99) for one datagroup of gridded data and a sample of points, between reading and saving. `dims` are the standard names of
the dimensions of the grid (`coords`, gridded_interpolation.py:78-100): the sample must have them all (CoordinateNotFoundError). The results have their
names, the fill value and the coordinates of the sample (col_implementations.py:175-181), and the history that is added (col.py:40-47). -/
def gridStep (valid : String → Bool) (store : ℚ → ℚ) (history : String) (num : Str → Option ℚ) (kernels : List Str) (flag : Option Nat)
    (col kern : Option (Str × Opts)) (dims : List String) (sample : List Obj × Option (List (Option ℚ))) (vars : List (InterpCmd.Var ℚ)) :
    Option (List Obj × List Obj) :=
  let sc := setRange (rangeOf sample.1) sample.1
  if sample.1.any (fun c => c.info.std == "longitude" && c.values.isEmpty) then none
  else if dims.all (fun s => sample.1.any (fun c => c.info.std == s)) = false then none
  else match InterpCmd.run num kernels flag col kern
      ⟨gridPoints dims sc ((sample.1.head?.map (fun c => c.values.length)).getD 0), sampleValues sample.2⟩ vars with
    | .error _ => none
    | .ok r => some (sc, r.map (fun o => outObj valid store history (o.1, o.2.map numOf)))

/-! ### Specification -/

/-- The coordinates of point number `i`, one for each dimension of the grid. -/
def Spec.IsPoint (dims : List String) (sc : List Obj) (i : Nat) (x : List ℚ) : Prop :=
  List.Forall₂ (fun s a => (Spec.coordinate sc s)[i]? = some (some a)) dims x

/-- Whether missing values of the sample matter: what the option says, and otherwise whether there is a sample variable. -/
def Spec.Matters (l : Opts) (vals : Option (List (Option ℚ))) (m : Bool) : Prop :=
  ((∀ v, (kMissing, v) ∉ l) → (m = true ↔ vals ≠ none)) ∧ ((kMissing, none) ∈ l → m = true) ∧
    ∀ v, (kMissing, some v) ∈ l → (m = true ↔ v.map Char.toLower = "true".toList)

/-- The value at a point: for `nn` that of the nearest node, else the linear interpolation. -/
def Spec.Value (how : Str) (axes : List (Axis ℚ)) (v : InterpCmd.Var ℚ) (x : List ℚ) (y : Val ℚ) : Prop :=
  (how = "nn".toList → InterpCmd.Spec.NearestTo axes v.vals x y) ∧ (how ≠ "nn".toList → InterpCmd.Spec.Linear axes v.vals x y)

/-! ### Proofs -/

/-- Results with coordinates that can be saved, names of their own and a fill value that is none of their values are found in the file. -/
theorem results_file {α : Type} (valid : String → Bool) (dflt : Bool → ℚ) (store : α → ℚ) (history : String) (sc : List Obj) (n : Nat) (fill : ℚ)
    (outs : List (Out × List (Option α))) (hsc : sc ≠ []) (m1 : ∀ c ∈ sc, c.values.length = n ∧ c.known = true ∧ Spec.Faithful dflt c)
    (m2 : ∀ c ∈ sc, c.info.std ∈ Spec.coordNames ∧ valid c.info.std = true ∧ none ∉ c.values) (m3 : (sc.map (fun c => c.info.std)).Nodup)
    (h0 : outs ≠ []) (hout : ∀ o ∈ outs, o.1.missing = some (some fill) ∧ o.2.length = n ∧ ∀ x, some x ∈ o.2 → store x ≠ fill)
    (hnames : ∀ o ∈ outs, String.ofList o.1.names.name ≠ "" ∧ String.ofList o.1.names.name ∉ Spec.coordNames)
    (hown : (outs.map (fun o => String.ofList o.1.names.name)).Nodup) :
    ∃ f, save dflt sc (outs.map (outObj valid store history)) = .ok f ∧ ∀ o ∈ outs, ∃ d, createData valid true [f] (String.ofList o.1.names.name) = .ok d ∧
      d.info = (outObj valid store history o).info ∧ d.values = o.2.map (Option.map store) ∧
      d.coords.map (fun c => (c.2.info.std, c.2.values)) = sc.map (fun c => (c.info.std, c.values)) := by
  set y2 := outs.map (outObj valid store history) with hy2
  have hsound : Spec.Sound valid dflt (sc, y2) := by
    refine ⟨⟨⟨hsc, by simpa [hy2] using h0⟩, ⟨n, ?_⟩, m2, m3, ?_, ?_⟩, ?_⟩
    · intro w hw
      rcases List.mem_append.1 hw with hw | hw
      · exact m1 w hw
      · obtain ⟨o, ho, rfl⟩ := List.mem_map.1 (hy2 ▸ hw)
        obtain ⟨g1, g2, g3⟩ := hout o ho
        refine ⟨by simp [outObj, g2], rfl, ?_⟩
        refine ⟨by simp [outObj, noPacking, Cis.Read.Spec.attr], by simp [outObj], ?_, by simp [outObj, noPacking], by simp [outObj, noPacking],
          by simp [outObj, noPacking]⟩
        intro x hx
        have hmiss : (outObj valid store history o).missing = some fill := by simp [outObj, g1]
        have hst : Spec.stored (outObj valid store history o) x = x := by simp [Spec.stored, outObj, noPacking, Cis.Read.Spec.attr]
        rw [hmiss, hst]
        simp only [outObj, List.mem_map, Option.map_eq_some_iff] at hx
        obtain ⟨a, ha, b, rfl, rfl⟩ := hx
        exact g3 b ha
    · intro d hd
      obtain ⟨o, ho, rfl⟩ := List.mem_map.1 (hy2 ▸ hd)
      exact hnames o ho
    · show (y2.map _).Nodup
      rw [hy2, List.map_map]
      exact hown
    · intro w hw
      obtain ⟨o, ho, rfl⟩ := List.mem_map.1 (hy2 ▸ hw)
      unfold outObj
      dsimp only
      split
      · exact .inl ‹_›
      · exact .inr rfl
  obtain ⟨f, hf, -⟩ := c211_reread valid dflt (sc, y2) hsound
  refine ⟨f, hf, ?_⟩
  intro o ho
  have hw' : outObj valid store history o ∈ y2 := by rw [hy2]; exact List.mem_map.2 ⟨o, ho, rfl⟩
  obtain ⟨files, d, h1, h2, h3, h4, h5, h6⟩ := c96_round_trip valid dflt (sc, y2) [] _ (by simpa using hsound.good) (by simp) hw' (by simp)
    (hsound.std _ hw')
  have hfiles : files = [f] := by
    simp only [List.mapM_cons, List.mapM_nil, hf] at h1
    cases h1; rfl
  subst hfiles
  refine ⟨d, h2, h3, ?_, ?_⟩
  · rw [h4]
    simp only [List.flatMap_cons, List.flatMap_nil, List.append_nil]
    exact spec_variable y2 hsound.good.own _ hw'
  · have a1 : d.coords.map (fun c => c.2.info.std) = sc.map (fun c => c.info.std) := by
      have := congrArg (List.map Info.std) h5
      rw [List.map_map, List.map_map] at this
      exact this
    have a2 : d.coords.map (fun c => c.2.values) = sc.map (fun c => c.values) := by
      rw [h6]
      refine List.map_congr_left fun c hc => ?_
      simp only [List.flatMap_cons, List.flatMap_nil, List.append_nil]
      exact spec_coordinate sc hsound.good.different c hc
    have z1 : ∀ (L : List (Char × Got)), L.map (fun c => (c.2.info.std, c.2.values)) = (L.map (fun c => c.2.info.std)).zip (L.map (fun c => c.2.values)) := by
      intro L; induction L with
      | nil => rfl
      | cons a t ih => simp [ih]
    have z2 : ∀ (L : List Obj), L.map (fun c => (c.info.std, c.values)) = (L.map (fun c => c.info.std)).zip (L.map (fun c => c.values)) := by
      intro L; induction L with
      | nil => rfl
      | cons a t ih => simp [ih]
    rw [z1, z2, a1, a2]

theorem isPoint_of (dims : List String) (sc : List Obj) (n : Nat) (m1 : ∀ c ∈ sc, c.values.length = n) (m2 : ∀ c ∈ sc, none ∉ c.values)
    (hd : ∀ s ∈ dims, ∃ c ∈ sc, c.info.std = s) (i : Nat) (hi : i < n) :
    ∃ x, (gridPoints dims sc n)[i]? = some x ∧ Spec.IsPoint dims sc i x := by
  refine ⟨_, by rw [gridPoints, List.getElem?_map, List.getElem?_range hi]; rfl, ?_⟩
  unfold Spec.IsPoint
  rw [List.forall₂_map_right_iff, List.forall₂_same]
  intro s hs
  obtain ⟨c0, hc0, hs0⟩ := hd s hs
  unfold Spec.coordinate
  cases hf : sc.find? (fun c => c.info.std == s) with
  | none => exact absurd (List.find?_eq_none.1 hf c0 hc0) (by simp [hs0])
  | some c =>
    have hc := List.mem_of_find?_eq_some hf
    have hic : i < c.values.length := by rw [m1 c hc]; exact hi
    simp only [Option.map_some, Option.getD_some, Option.bind_some]
    rw [List.getElem?_eq_getElem hic]
    cases hv : c.values[i] with
    | none => exact absurd (hv ▸ List.getElem_mem hic) (m2 c hc)
    | some v => rfl

theorem isPoint_unique {dims : List String} {sc : List Obj} {i : Nat} {x y : List ℚ} (h : Spec.IsPoint dims sc i x) (h' : Spec.IsPoint dims sc i y) : x = y := by
  unfold Spec.IsPoint at h h'
  induction h generalizing y with
  | nil => cases h'; rfl
  | cons hab _ ih =>
    cases h' with
    | cons hab' h' =>
      rw [hab] at hab'
      injection hab' with e; injection e with e
      rw [e, ih h']

theorem value_cases {how : Str} {axes : List (Axis ℚ)} {v : InterpCmd.Var ℚ} (hv : ∀ idx, v.vals idx ≠ .nan) {x : List ℚ} {y : Val ℚ}
    (h : Spec.Value how axes v x y) : y = .masked ∨ ∃ z, y = .num z := by
  by_cases hn : how = "nn".toList
  · obtain ⟨idx, -, e⟩ := h.1 hn
    have := hv idx
    cases hy : y with
    | num z => exact .inr ⟨z, rfl⟩
    | masked => exact .inl rfl
    | nan => exact absurd (e ▸ hy) this
  · obtain ⟨cells, -, h1, h2⟩ := h.2 hn
    by_cases hm : ∃ idx, List.Forall₂ (fun c k => k = c.1.2 ∨ k = c.2.1.2) cells idx ∧ v.vals idx = .masked
    · exact .inl (h2 hm)
    · refine .inr ⟨_, h1 (fun idx => match v.vals idx with | .num z => z | _ => 0) ?_⟩
      intro idx hi
      cases hy : v.vals idx with
      | num z => rfl
      | masked => exact absurd ⟨idx, hi, hy⟩ hm
      | nan => exact absurd hy (hv idx)

/-- **C214.** The file that `cis col` writes for gridded data on points, read again. With options as in C191 and a fill value, `sc` the coordinates of
the sample with longitudes in one range, among them one for each dimension of the grid: if no result is the fill value, the command succeeds, the file
can be read, and it holds every variable under the name, long name and units given as options or else its own, with the coordinates `sc` point for
point. Its values are, for every point, missing if the sample is missing there and this matters or if the point is out of the range of the grid, and
otherwise the linear interpolation (or the value at the nearest node) there, stored as floating point. -/
theorem c214_col_grid_file (valid : String → Bool) (dflt : Bool → ℚ) (store : ℚ → ℚ) (history : String) (num : Str → Option ℚ) (kernels : List Str)
    (flag : Option Nat) (how : Str) (l : Opts) (col : Option (Str × Opts)) (kern : Str) (dims : List String) (axes : List (Axis ℚ))
    (sample : List Obj × Option (List (Option ℚ))) (vars : List (InterpCmd.Var ℚ)) (n : Nat)
    (ht : InterpCmd.Spec.Text how l col) (hhow : how ∈ ["".toList, "lin".toList, "nn".toList]) (hkeys : ∀ kv ∈ l, kv.1 ∉ ColOpts.Spec.given)
    (fv : Str) (fill : ℚ) (hF : (kFill, some fv) ∈ l ∧ num fv = some fill) (hk : kern = [] ∨ kern ∈ kernels)
    (hax : Handled flag axes) (h2 : ∀ a ∈ axes, 2 ≤ (Interp.Spec.nodes a).length) (hgrid : ∀ v ∈ vars, v.axes = axes ∧ ∀ idx, v.vals idx ≠ .nan)
    (start : Option ℚ) (sc : List Obj) (hstart : Spec.Start sample.1 start) (hsc : Spec.InOneRange start sample.1 sc)
    (hgc : Spec.GoodCoords valid dflt sample.1 n) (hsv : ∀ w, sample.2 = some w → w.length = n) (hmat : sample.2 = none → Spec.Matters l none false)
    (hdims : dims.length = axes.length ∧ ∀ s ∈ dims, ∃ c ∈ sample.1, c.info.std = s) (hvars : vars ≠ [])
    (hnames : ∀ ns : List Str, List.Forall₂ (fun v m => InterpCmd.Spec.Named l kName (some v.names.name) (some m)) vars ns →
      ns.Nodup ∧ ∀ m ∈ ns, m ≠ [] ∧ String.ofList m ∉ Spec.coordNames)
    (hfill : ∀ v ∈ vars, ∀ i < n, ∀ x z, Spec.IsPoint dims sc i x → AllInRange axes x → Spec.Value how axes v x (.num z) → store z ≠ fill) :
    ∃ m y f, Spec.Matters l sample.2 m ∧ gridStep valid store history num kernels flag col (some (kern, [])) dims sample vars = some y ∧
      save dflt y.1 y.2 = .ok f ∧
      ∀ v ∈ vars, ∃ d name long units, InterpCmd.Spec.Named l kName (some v.names.name) (some name) ∧ InterpCmd.Spec.Named l kLong v.names.long long ∧
        InterpCmd.Spec.Named l kUnits v.names.units units ∧ createData valid true [f] (String.ofList name) = .ok d ∧
        d.info.name = String.ofList name ∧ d.info.long = (long.map String.ofList).getD "" ∧ d.info.units = (units.map String.ofList).getD "" ∧
        d.values.length = n ∧ d.coords.map (fun c => (c.2.info.std, c.2.values)) = sc.map (fun c => (c.info.std, c.values)) ∧
        ∀ i < n, ∃ x, Spec.IsPoint dims sc i x ∧
          ((m = true ∧ ∃ w, sample.2 = some w ∧ w[i]? = some none) ∨ ¬ AllInRange axes x → d.values[i]? = some none) ∧
          (¬ (m = true ∧ ∃ w, sample.2 = some w ∧ w[i]? = some none) → AllInRange axes x →
            ∃ y, Spec.Value how axes v x y ∧ ((y = .masked ∧ d.values[i]? = some none) ∨ ∃ z, y = .num z ∧ d.values[i]? = some (some (store z)))) := by
  obtain ⟨m1, m2, m3⟩ := moved_good hstart hgc hsc
  have e1 := start_eq hstart
  have e3 := inOneRange_eq hsc
  set s : InterpCmd.Sample ℚ := ⟨gridPoints dims sc n, sampleValues sample.2⟩ with hs
  have hslen : s.points.length = n := by rw [hs, gridPoints]; simp
  have hstd : ∀ t ∈ dims, ∃ c ∈ sc, c.info.std = t := by
    intro t ht
    obtain ⟨c, hc, he⟩ := hdims.2 t ht
    have : t ∈ sc.map (fun c => c.info.std) := by rw [m3]; exact List.mem_map.2 ⟨c, hc, he⟩
    obtain ⟨c', hc', he'⟩ := List.mem_map.1 this
    exact ⟨c', hc', he'⟩
  have hpt := fun i hi => isPoint_of dims sc n (fun c hc => (m1 c hc).1) (fun c hc => (m2 c hc).2.2) hstd i hi
  have hpts : ∀ x ∈ s.points, x.length = axes.length := by
    intro x hx
    rw [hs, gridPoints] at hx
    obtain ⟨i, -, rfl⟩ := List.mem_map.1 hx
    rw [List.length_map]; exact hdims.1
  have hmatter : ∀ m, InterpCmd.Spec.Matter l s m ↔ Spec.Matters l sample.2 m := by
    intro m
    have : s.values ≠ .coordinates ↔ sample.2 ≠ none := by
      rw [hs]; dsimp only; cases sample.2 <;> simp [sampleValues]
    unfold InterpCmd.Spec.Matter Spec.Matters
    rw [this]
  have hmissing : ∀ i, InterpCmd.Spec.Missing s i ↔ ∃ w, sample.2 = some w ∧ w[i]? = some none := by
    intro i
    unfold InterpCmd.Spec.Missing
    rw [hs]
    dsimp only
    cases sample.2 with
    | none => simp [sampleValues]
    | some w =>
      simp only [sampleValues, InterpCmd.Values.mask.injEq, Option.some.injEq, exists_eq_left', List.getElem?_map]
      rcases w[i]? with _ | (_ | x) <;> simp
  have hplain : (l.map Prod.fst).Nodup := by
    rcases ht with ⟨-, -, rfl⟩ | ⟨-, h⟩
    · simp
    · exact h.different
  have hFx : ∀ v, (kFill, some v) ∈ l → v = fv := by
    intro v hv
    have h1 := List.inj_on_of_nodup_map hplain hv hF.1 rfl
    injection h1 with _ h; injection h
  obtain ⟨m, fill', res, hm, hsf, hrun, hres⟩ := InterpCmd.c191_collocate num kernels flag how l col kern s axes vars ht hhow hkeys
    (fun v hv => ⟨fill, by rw [hFx v hv]; exact hF.2⟩) hk hax h2 (fun v hv => (hgrid v hv).1) hpts
    (by
      cases hs2 : sample.2 with
      | none => exact .inl ((hmatter false).2 (by rw [hs2]; exact hmat hs2))
      | some w =>
        refine .inr (.inr ⟨w.map Option.isNone, ?_, ?_⟩)
        · rw [hs]; dsimp only; rw [hs2]; rfl
        · rw [List.length_map, hslen, hsv w hs2])
  have hfl : fill' = some fill := by
    rcases hsf with ⟨v, x, hv, hx, e⟩ | ⟨h, -⟩
    · have hx : num v = some x := hx
      rw [hFx v hv, hF.2] at hx
      rw [e, ← hx]
    · exact absurd hF.1 (h fv)
  have hn0 : ((sample.1.head?.map (fun c => c.values.length)).getD 0) = n := by
    cases hs0 : sample.1 with
    | nil => exact absurd hs0 hgc.some.1
    | cons c t => simpa using (hgc.each c (by rw [hs0]; simp)).1
  have hstep : gridStep valid store history num kernels flag col (some (kern, [])) dims sample vars =
      some (sc, (res.map (fun o => (o.1, o.2.map numOf))).map (outObj valid store history)) := by
    unfold gridStep
    simp only []
    rw [e1, ← e3, hn0, if_neg, if_neg, hrun]
    · simp only [List.map_map]; rfl
    · rw [Bool.not_eq_false, List.all_eq_true]
      intro t ht'
      obtain ⟨c, hc, he⟩ := hdims.2 t ht'
      rw [List.any_eq_true]
      exact ⟨c, hc, by simpa using he⟩
    · rw [List.any_eq_true]
      rintro ⟨c, hc, h⟩
      have h0 := (hgc.each c hc).1
      have hp := hgc.some.2
      simp only [Bool.and_eq_true, List.isEmpty_iff] at h
      rw [h.2] at h0
      simp at h0
      omega
  have hns : (res.map (fun o => o.1.names.name)).Nodup ∧ ∀ a ∈ res.map (fun o => o.1.names.name), a ≠ [] ∧ String.ofList a ∉ Spec.coordNames := by
    refine hnames _ ?_
    rw [List.forall₂_map_right_iff]
    exact hres.imp (fun v r h => h.1)
  obtain ⟨f, hf, hread⟩ := results_file valid dflt store history sc n fill (res.map (fun o => (o.1, o.2.map numOf)))
    (by
      intro h0
      rw [h0] at m3
      exact hgc.some.1 (List.map_eq_nil_iff.1 m3.symm))
    m1 m2 (by rw [m3]; exact hgc.different)
    (by
      intro h0
      rw [List.map_eq_nil_iff] at h0
      have := hres.length_eq
      rw [h0, List.length_nil, List.length_eq_zero_iff] at this
      exact hvars this)
    (by
      intro o ho
      obtain ⟨r, hr, rfl⟩ := List.mem_map.1 ho
      obtain ⟨v, hv, -, -, -, -, g1, g2, g3⟩ := Cis.Lon.mem_right hres hr
      refine ⟨by rw [g1, hfl], by rw [List.length_map, g2, hslen], ?_⟩
      intro z hz
      obtain ⟨w, hw, he⟩ := List.mem_map.1 hz
      have hwz : w = .num z := by
        cases w <;> simp [numOf] at he
        rw [he]
      subst hwz
      obtain ⟨i, hi, hiw⟩ := List.getElem_of_mem hw
      have hin : i < n := by rw [← hslen, ← g2]; exact hi
      obtain ⟨x, hx, hip⟩ := hpt i hin
      obtain ⟨y, hy, h4, h5⟩ := g3 i x (by rw [hs]; exact hx)
      have hyz : y = .num z := by
        rw [List.getElem?_eq_getElem hi, hiw] at hy
        injection hy with hy; exact hy.symm
      subst hyz
      by_cases hc : (m = true ∧ InterpCmd.Spec.Missing s i) ∨ ¬ AllInRange axes x
      · exact absurd (h4 hc) (by simp)
      · rw [not_or, not_not] at hc
        exact hfill v hv i hin x z hip hc.2 (h5 hc.1 hc.2))
    (by
      intro o ho
      obtain ⟨r, hr, rfl⟩ := List.mem_map.1 ho
      obtain ⟨a1, a2⟩ := hns.2 _ (List.mem_map.2 ⟨r, hr, rfl⟩)
      refine ⟨fun h => a1 ?_, a2⟩
      have := congrArg String.toList h
      simpa using this)
    (by
      rw [List.map_map]
      have : ((fun o : Out × List (Option ℚ) => String.ofList o.1.names.name) ∘ fun o : Out × List (Val ℚ) => (o.1, o.2.map numOf)) =
          String.ofList ∘ (fun o : Out × List (Val ℚ) => o.1.names.name) := rfl
      rw [this, ← List.map_map]
      refine hns.1.map ?_
      intro a b hab
      have := congrArg String.toList hab
      simpa using this)
  refine ⟨m, _, f, (hmatter m).1 hm, hstep, hf, ?_⟩
  intro v hv
  obtain ⟨r, hr, b1, b2, b3, -, -, g2, g3⟩ := forall₂_left hres hv
  obtain ⟨d, d1, d2, d3, d4⟩ := hread _ (List.mem_map.2 ⟨r, hr, rfl⟩)
  refine ⟨d, _, _, _, b1, b2, b3, d1, by rw [d2]; rfl, by rw [d2]; rfl, by rw [d2]; rfl, ?_, d4, ?_⟩
  · rw [d3, List.length_map, List.length_map, g2, hslen]
  · intro i hi
    obtain ⟨x, hx, hip⟩ := hpt i hi
    obtain ⟨y, hy, h4, h5⟩ := g3 i x (by rw [hs]; exact hx)
    have hdv : d.values[i]? = some ((numOf y).map store) := by
      rw [d3, List.getElem?_map, List.getElem?_map, hy]; rfl
    refine ⟨x, hip, ?_, ?_⟩
    · intro hc
      rw [← hmissing] at hc
      rw [hdv, h4 hc]; rfl
    · intro hc hr'
      rw [← hmissing] at hc
      have hval : Spec.Value how axes v x y := h5 hc hr'
      refine ⟨y, hval, ?_⟩
      rcases value_cases (hgrid v hv).2 hval with rfl | ⟨z, rfl⟩
      · exact .inl ⟨rfl, hdv⟩
      · exact .inr ⟨z, rfl, hdv⟩

/-! ### Example -/

def exGridOpts : Opts := [(kFill, some "-999".toList)]
def exGridAxes : List (Axis ℚ) := [⟨[0, 100, 200], none⟩, ⟨[0, 8], none⟩]
def exGridVar : InterpCmd.Var ℚ := ⟨{ name := "so2".toList, standard := none, long := none, units := some "kg".toList }, exGridAxes, fun idx => .num (idx.sum : ℕ)⟩

theorem ex_grid_handled : Handled none exGridAxes := by
  intro d a h
  have hm := List.mem_of_getElem? h
  simp only [exGridAxes, List.mem_cons, List.not_mem_nil, or_false] at hm
  rcases hm with rfl | rfl <;> exact ⟨by simp, .inl (by norm_num [Interp.Spec.Ascending, Interp.Spec.nodes])⟩

example : ∃ y f, gridStep (fun _ => true) id "h" exNum [] none (some (Method.methodArgs (Method.Spec.method "nn".toList exGridOpts))) (some ([], []))
      ["longitude", "time"] ([exSampleLon, exSampleTime], some [some 0, some 1]) [exGridVar] = some y ∧
    save defaultFill y.1 y.2 = .ok f ∧ ∃ d, createData (fun _ => true) true [f] "so2" = .ok d ∧ d.info.units = "kg" ∧ d.values.length = 2 ∧
      d.values[1]? = some none ∧
      d.coords.map (fun c => (c.2.info.std, c.2.values)) = [("longitude", [some 160, some 5]), ("time", [some 0, some 9])] := by
  have hnf : ∀ k, k ≠ kFill → ∀ v, (k, some v) ∉ exGridOpts := by
    intro k hk v hv
    simp only [exGridOpts, List.mem_cons, List.not_mem_nil, or_false, Prod.mk.injEq] at hv
    exact hk hv.1
  have hnm : ∀ {k : Str} {own r : Option Str}, k ≠ kFill → InterpCmd.Spec.Named exGridOpts k own r → r = own := by
    intro k own r hk h
    rcases h with ⟨v, hv, -⟩ | ⟨-, h⟩
    · exact absurd hv (hnf k hk v)
    · exact h
  obtain ⟨m, y, f, -, h1, h2, h3⟩ := c214_col_grid_file (fun _ => true) defaultFill id "h" exNum [] none "nn".toList exGridOpts _ []
    ["longitude", "time"] exGridAxes ([exSampleLon, exSampleTime], some [some 0, some 1]) [exGridVar] 2
    (.inr ⟨rfl, by decide, by decide, by decide, by decide +kernel, by decide⟩) (by decide) (by decide +kernel)
    "-999".toList (-999) ⟨by simp [exGridOpts], by decide +kernel⟩ (.inl rfl) ex_grid_handled (by simp [exGridAxes, Interp.Spec.nodes])
    (by intro v hv; rw [List.mem_singleton] at hv; subst hv; exact ⟨rfl, fun idx h => by cases h⟩)
    (some (-180)) exSampleMoved ex_start ex_moved ex_goodCoords (by rintro w h; injection h with h; subst h; rfl) (by intro h; cases h)
    ⟨rfl, by
      intro s hs
      simp only [List.mem_cons, List.not_mem_nil, or_false] at hs
      rcases hs with rfl | rfl
      · exact ⟨exSampleLon, by simp, rfl⟩
      · exact ⟨exSampleTime, by simp, rfl⟩⟩
    (by simp)
    (by
      intro ns h
      obtain ⟨a, t, h1, h2, rfl⟩ := List.forall₂_cons_left_iff.1 h
      rw [List.forall₂_nil_left_iff] at h2
      subst h2
      have := hnm (by decide) h1
      injection this with this
      subst this
      exact ⟨by simp, by intro m hm; rw [List.mem_singleton] at hm; subst hm; decide +kernel⟩)
    (by
      intro v hv i _ x z _ _ hval
      rw [List.mem_singleton] at hv; subst hv
      obtain ⟨idx, -, e⟩ := hval.1 rfl
      have e : (Val.num z : Val ℚ) = .num ((idx.sum : ℕ) : ℚ) := e
      injection e with e
      have : (0 : ℚ) ≤ z := by rw [e]; exact Nat.cast_nonneg _
      show z ≠ -999
      intro h; rw [h] at this; norm_num at this)
  obtain ⟨d, name, long, units, a1, -, a3, a4, -, -, a7, a8, a9, a10⟩ := h3 exGridVar (by simp)
  have e1 := hnm (by decide) a1
  have e3 := hnm (by decide) a3
  injection e1 with e1
  subst e1 e3
  refine ⟨y, f, h1, h2, d, a4, a7.trans (by decide +kernel), a8, ?_, a9⟩
  obtain ⟨x, hx, hx', -⟩ := a10 1 (by decide)
  refine hx' (.inr ?_)
  obtain ⟨a, t, -, h2, rfl⟩ := List.forall₂_cons_left_iff.1 hx
  obtain ⟨b, t, hb, -, rfl⟩ := List.forall₂_cons_left_iff.1 h2
  have hb' : b = 9 := by
    have : (Spec.coordinate exSampleMoved "time")[1]? = some (some (9 : ℚ)) := by decide +kernel
    rw [this] at hb
    injection hb with hb; injection hb with hb; exact hb.symm
  subst hb'
  intro h
  have := h (⟨[0, 8], none⟩, 9) (by simp [exGridAxes])
  obtain ⟨-, q, hq, hq'⟩ := this
  simp [Interp.Spec.nodes] at hq
  rcases hq with rfl | rfl <;> norm_num at hq'

end Cis.RoundTrip
