import Verif.Colloc.Local
import Verif.Colloc.Inputs
import Verif.HavTree.Same
set_option linter.unusedSectionVars false
set_option linter.unusedSimpArgs false
/-!
Properties C152 and C153: ungridded data collocated onto themselves keep their values. The model is that of `Model.lean`
(col_implementations.py:19-112, 211-361, 365-556).
-/
namespace Cis.Colloc
open Cis.Geo Cis.KDTree Real

/-- The separations select something around every point. -/
def Spec.Positive (s : Seps) : Prop :=
  (∀ h, s.h = some h → 0 < h) ∧ (∀ a, s.a = some a → 0 < a) ∧ (∀ p, s.p = some p → 1 < p) ∧ ∀ t, s.t = some t → 0 < t

/-- Two points differ in the coordinate that the nearest neighbour kernel looks at. -/
def Spec.Differ : Kernel → Loc → Loc → Prop
  | .nnHorizontal, p, q => 0 < Geo.Spec.greatCircle 6378 p.lat p.lon q.lat q.lon
  | .nnAltitude, p, q => p.alt ≠ q.alt
  | .nnPressure, p, q => p.pres ≠ q.pres
  | .nnTime, p, q => p.time ≠ q.time
  | _, _, _ => False

theorem greatCircle_self (lat lon : ℝ) : Geo.Spec.greatCircle 6378 lat lon lat lon = 0 := by
  rw [← (c58_haversine_great_circle lat lon lat lon).1]
  exact (c58_haversine_metric lat lon lat lon lat lon).1

theorem within_self (s : Seps) (hs : Spec.Positive s) (p : Loc) (hp : s.p ≠ none → 0 < p.pres) : Spec.Within s p p := by
  refine ⟨fun h eh => ?_, fun a ea => ?_, fun q eq => ?_, fun t et => ?_⟩
  · rw [greatCircle_self]; exact hs.1 h eh
  · rw [sub_self, abs_zero]; exact hs.2.1 a ea
  · have h0 := hp (by rw [eq]; simp)
    rw [div_self (ne_of_gt h0), max_self]; exact hs.2.2.1 q eq
  · rw [sub_self, abs_zero]; exact hs.2.2.2 t et

theorem separation_differ (k : Kernel) (p q : Loc) (hp : k = .nnPressure → 0 < p.pres ∧ 0 < q.pres) (h : Spec.Differ k p q) :
    Spec.separation k p p < Spec.separation k p q := by
  cases k with
  | nnHorizontal =>
    simp only [Spec.separation, greatCircle_self]
    exact h
  | nnAltitude =>
    simp only [Spec.separation, sub_self, abs_zero]
    exact abs_pos.2 (sub_ne_zero.2 h)
  | nnTime =>
    simp only [Spec.separation, sub_self, abs_zero]
    exact abs_pos.2 (sub_ne_zero.2 h)
  | nnPressure =>
    obtain ⟨h1, h2⟩ := hp rfl
    simp only [Spec.separation, div_self (ne_of_gt h1), max_self]
    rcases lt_or_gt_of_ne (show p.pres ≠ q.pres from h) with h3 | h3
    · exact lt_max_of_lt_left ((one_lt_div h1).2 h3)
    · exact lt_max_of_lt_right ((one_lt_div h2).2 h3)
  | _ => exact absurd h id

theorem mem_dropna (data : List Row) (q : DRow) : q ∈ dropna data ↔ ∃ (j : Nat) (r : Row), data[j]? = some r ∧ r.val = some q.val ∧ q.loc = r.loc := by
  unfold dropna
  rw [List.mem_filterMap]
  constructor
  · rintro ⟨r, hr, e⟩
    obtain ⟨v, hv, rfl⟩ := Option.map_eq_some_iff.1 e
    obtain ⟨j, hj⟩ := List.mem_iff_getElem?.1 hr
    exact ⟨j, r, hj, hv, rfl⟩
  · rintro ⟨j, r, hj, hv, e⟩
    refine ⟨r, List.mem_of_getElem? hj, ?_⟩
    rw [hv]
    simp only [Option.map_some, Option.some.injEq]
    rw [← e]

theorem setLongitudeRange_again (data : List Row) :
    setLongitudeRange data (Lon.findLongitudeRange ((setLongitudeRange data (Lon.findLongitudeRange (data.map (fun r => r.loc.lon)))).map
      (fun r => r.loc.lon))) = setLongitudeRange data (Lon.findLongitudeRange (data.map (fun r => r.loc.lon))) := by
  have hl : ∀ w, (setLongitudeRange data w).map (fun r => r.loc.lon) = Lon.fixLongitudeRange (data.map (fun r => r.loc.lon)) w := by
    intro w
    unfold setLongitudeRange
    rw [List.map_zipWith]
    have hlen : (Lon.fixLongitudeRange (data.map (fun r => r.loc.lon)) w).length = data.length := by
      have := (Inputs.fix_same (data.map (fun r => r.loc.lon)) w).length_eq
      rw [this, List.length_map]
    apply List.ext_getElem
    · simp [hlen]
    · intro n h1 h2
      simp
  rw [hl]
  have h1 := Inputs.fix_again (data.map (fun r => r.loc.lon))
  rw [Inputs.fix_fix] at h1
  rw [setLongitudeRange, h1]
  rfl

/-- The selection around a point of the data themselves has only data in it and has the point. -/
theorem select_self (s : Seps) (hs : Spec.Positive s) (rows : List Row) (T : KD 2 ℝ) (hT : treeOf (dropna rows) = .ok T) (i : Nat) (r : Row)
    (hi : rows[i]? = some r) (hp : s.p ≠ none → 0 < r.loc.pres) :
    ∃ sel, kdConstrain s (fun _ h => treeSearch T rows h i) r.loc (dropna rows) = some sel ∧
      (∀ q ∈ sel, q ∈ dropna rows) ∧ ∀ v, r.val = some v → ⟨r.loc, v⟩ ∈ sel := by
  have hmem : ∀ v, r.val = some v → (⟨r.loc, v⟩ : DRow) ∈ dropna rows := fun v hv => (mem_dropna _ _).2 ⟨i, r, hi, hv, rfl⟩
  have hvw : VWithin s r.loc r.loc := (within_iff.1 (within_self s hs r.loc hp)).2
  have vert : ∀ f : List DRow, (∀ q ∈ f, q ∈ dropna rows) → (∀ v, r.val = some v → ⟨r.loc, v⟩ ∈ f) →
      ∃ sel, applyChecks (kdChecks s) r.loc f = some sel ∧ (∀ q ∈ sel, q ∈ dropna rows) ∧ ∀ v, r.val = some v → ⟨r.loc, v⟩ ∈ sel := by
    intro f hf hin
    obtain ⟨sel, h1, h2⟩ := applyChecks_perm r.loc (kdCond s) (kdCond_ok s) f f (List.Perm.refl _)
    rw [kdCond_fst] at h1
    refine ⟨sel, h1, ?_, ?_⟩
    · intro q hq
      exact hf q (List.mem_filter.1 (h2.mem_iff.1 hq)).1
    · intro v hv
      rw [h2.mem_iff, List.mem_filter]
      exact ⟨hin v hv, (kdCond_all s r.loc r.loc (fun e => ⟨hp e, hp e⟩)).2 hvw⟩
  unfold kdConstrain horizontal
  cases hh : s.h with
  | none => exact vert _ (fun q h => h) hmem
  | some h =>
    have hpos := hs.1 h hh
    simp only
    rw [if_neg (ne_of_gt hpos)]
    simp only
    have hlt : i < rows.length := (List.getElem?_eq_some_iff.1 hi).1
    obtain ⟨res, e, H⟩ := HavTree.c13_same_place rows.length (dropna rows).length (sampleLatLon rows) (latLon (dropna rows)) 10 T hT h hpos.le (by omega)
    obtain ⟨-, h2, h3⟩ := H i hlt
    have et : treeSearch T rows h i = res i := by unfold treeSearch; rw [e]
    rw [et, iloc_eq _ _ h2]
    apply vert
    · intro q hq
      obtain ⟨a, -, ha⟩ := List.mem_filterMap.1 hq
      exact List.mem_of_getElem? ha
    · intro v hv
      obtain ⟨j, hj⟩ := List.mem_iff_getElem?.1 (hmem v hv)
      have hjl : j < (dropna rows).length := (List.getElem?_eq_some_iff.1 hj).1
      exact List.mem_filterMap.2 ⟨j, h3 j hjl (by unfold latLon sampleLatLon; rw [hj, hi]), hj⟩

theorem differ_withLon {f g : ℝ → ℝ} (hf : ∀ x, Lon.Spec.Same (f x) x) (hg : ∀ x, Lon.Spec.Same (g x) x) (k : Kernel) (p q : Loc) :
    Spec.Differ k (p.withLon f) (q.withLon g) ↔ Spec.Differ k p q := by
  cases k <;> simp only [Spec.Differ]
  case nnHorizontal =>
    have := hdist_withLon hg hf q p
    unfold hdist at this
    rw [this]
  all_goals rfl

/-- C152: with a nearest neighbour kernel, data collocated onto themselves keep their values if no two points with values agree in the coordinate
the kernel looks at, wherever the points are. -/
theorem c152_nearest (s : Seps) (hs : Spec.Positive s) (k : Kernel) (hk : ¬ k.dataOnly) (missing hasVals : Bool) (cx cy : List Col)
    (hc : ColsOK k cx cy) (data : List Row) (hne : dropna data ≠ []) (hpres : k = .nnPressure ∨ s.p ≠ none → ∀ r ∈ data, 0 < r.loc.pres)
    (hdiff : ∀ (i j : Nat) (p q : Row), i ≠ j → data[i]? = some p → data[j]? = some q → p.val ≠ none → q.val ≠ none → Spec.Differ k p.loc q.loc) :
    ∃ out, collocate s k missing hasVals cx cy data data = .ok [out] ∧ out.length = data.length ∧
      ∀ (i : Nat) (r : Row) (v : ℝ), data[i]? = some r → r.val = some v → out[i]? = some (some v) := by
  obtain ⟨f, hf, ef, -⟩ := setLongitudeRange_eq data (Lon.findLongitudeRange (data.map (fun r => r.loc.lon)))
  have hget : ∀ (i : Nat) (r1 : Row), (data.map (fun r : Row => r.withLon f))[i]? = some r1 → ∃ r : Row, data[i]? = some r ∧ r1 = r.withLon f := by
    intro i r1 h
    rw [List.getElem?_map] at h
    cases hr : data[i]? with
    | none => rw [hr] at h; simp at h
    | some r => rw [hr] at h; simp at h; exact ⟨r, rfl, h.symm⟩
  obtain ⟨out, ho, hl, hlen, hcols⟩ := collocate_core treeSearch s k missing hasVals cx cy data data hne
    (fun i sel => (∀ q ∈ sel, q ∈ dropna (data.map (fun r : Row => r.withLon f))) ∧
      ∀ (r : Row) (v : ℝ), data[i]? = some r → r.val = some v → ⟨(r.withLon f).loc, v⟩ ∈ sel) (by
      intro T
      simp only
      rw [setLongitudeRange_again, ef]
      intro hT i r1 h1 _
      obtain ⟨r, hr, rfl⟩ := hget i r1 h1
      obtain ⟨sel, h2, h3, h4⟩ := select_self s hs _ T hT i _ h1 (fun e => hpres (Or.inr e) r (List.mem_of_getElem? hr))
      refine ⟨sel, h2, h3, ?_⟩
      intro r' v hr' hv
      rw [hr] at hr'
      cases hr'
      exact h4 v hv)
  have hl1 : out.length = 1 := by rw [hl]; cases k <;> first | rfl | exact absurd trivial hk
  obtain ⟨o, rfl⟩ := List.length_eq_one_iff.1 hl1
  refine ⟨o, ho, hlen o (by simp), ?_⟩
  intro i r v hi hv
  have h1 : (data.map (fun r : Row => r.withLon f))[i]? = some (r.withLon f) := by rw [List.getElem?_map, hi]; rfl
  have h2 := hcols i (r.withLon f) (by rw [ef]; exact h1)
  have hval : (r.withLon f).val = some v := hv
  rw [if_neg (by rintro ⟨-, -, e⟩; rw [hval] at e; cases e)] at h2
  obtain ⟨sel, ⟨hsub, hown⟩, hcol⟩ := h2
  have hqs := hown r v hi hv
  have hpos : k = .nnPressure → ∀ q ∈ dropna (data.map (fun r : Row => r.withLon f)), 0 < q.loc.pres := by
    intro e q hq
    obtain ⟨j, r1, hj, -, e2⟩ := (mem_dropna _ q).1 hq
    obtain ⟨r2, hr2, rfl⟩ := hget j r1 hj
    rw [e2]
    exact hpres (Or.inl e) r2 (List.mem_of_getElem? hr2)
  have hpr : k = .nnPressure → 0 < (r.withLon f).loc.pres := fun e => hpres (Or.inl e) r (List.mem_of_getElem? hi)
  have hus : ∀ q' ∈ sel, q' ≠ ⟨(r.withLon f).loc, v⟩ →
      Spec.separation k (r.withLon f).loc (r.withLon f).loc < Spec.separation k (r.withLon f).loc q'.loc := by
    intro q hq hqne
    obtain ⟨j, r1, hj, hv2, e2⟩ := (mem_dropna _ q).1 (hsub q hq)
    obtain ⟨r2, hr2, rfl⟩ := hget j r1 hj
    have hij : i ≠ j := by
      rintro rfl
      rw [hi] at hr2
      cases hr2
      rw [hval] at hv2
      apply hqne
      cases q
      simp only [Option.some.injEq] at hv2 e2
      rw [hv2, e2]
    rw [e2]
    refine separation_differ k _ _ (fun e => ⟨hpr e, by have := hpos e q (hsub q hq); rwa [e2] at this⟩) ?_
    exact (differ_withLon hf hf k r.loc r2.loc).2 (hdiff i j r r2 hij hi hr2 (by rw [hv]; simp) (by
      have : r2.val = some q.val := hv2
      rw [this]; simp))
  have hne' : sel ≠ [] := by intro h'; rw [h'] at hqs; simp at hqs
  have key : ∃ r', Spec.FirstNearest (Spec.separation k (r.withLon f).loc) sel r' ∧ getValue k cx cy (r.withLon f).loc sel = some [some r'.val] := by
    obtain ⟨a1, a2, a3⟩ := c16_nearest cx cy (r.withLon f).loc sel hne'
    cases k <;> simp only [Kernel.dataOnly, not_true] at hk
    · obtain ⟨⟨t, rfl⟩, ⟨t', rfl⟩⟩ := hc rfl
      exact c16_nearest_horizontal t t' (r.withLon f).loc sel hne'
    · exact a1
    · exact a3 ⟨hpr rfl, fun q' h' => hpos rfl q' (hsub q' h')⟩
    · exact a2
  obtain ⟨r', h3, h4⟩ := key
  rw [firstNearest_unique h3 hqs hus] at h4
  rw [h4] at hcol
  unfold column at hcol
  simp only [List.map_cons, List.map_nil, Option.getD_some, List.cons.injEq, and_true] at hcol
  cases e : o[i]? with
  | none => rw [e] at hcol; cases hcol
  | some z => rw [e] at hcol; simp only [Option.join] at hcol; rw [← hcol]; cases z <;> rfl

/-- C153: with mean, min, max or sum, data collocated onto themselves keep their values if no other point with a value is within the separations.
What is missing: the points are in the region where the search is exact (`Spec.Good`); elsewhere it fails (`c153_poles_violated`). -/
theorem c153_statistics_partial (s : Seps) (hs : Spec.Positive s) (k : Kernel) (hk : k = .mean ∨ k = .min ∨ k = .max ∨ k = .sum) (missing hasVals : Bool)
    (cx cy : List Col) (data : List Row) (g : Spec.Good s data data)
    (hapart : ∀ (i j : Nat) (p q : Row), i ≠ j → data[i]? = some p → data[j]? = some q → p.val ≠ none → q.val ≠ none → ¬ Spec.Within s p.loc q.loc) :
    ∃ out, collocate s k missing hasVals cx cy data data = .ok [out] ∧ out.length = data.length ∧
      ∀ (i : Nat) (r : Row) (v : ℝ), data[i]? = some r → r.val = some v → out[i]? = some (some v) := by
  have hd : k.dataOnly := by rcases hk with rfl | rfl | rfl | rfl <;> trivial
  obtain ⟨out, ho, hl, hlen, -⟩ := good_statement g k missing hasVals cx cy (cols_of_dataOnly hd cx cy)
  have hl1 : out.length = 1 := by rw [hl]; rcases hk with rfl | rfl | rfl | rfl <;> rfl
  obtain ⟨o, rfl⟩ := List.length_eq_one_iff.1 hl1
  refine ⟨o, ho, hlen o (by simp), ?_⟩
  intro i r v hi hv
  have hmem := List.mem_of_getElem? hi
  obtain ⟨-, -, h⟩ := good_value g k hd missing hasVals cx cy (out := [o]) ho
  have h1 := h i r hi
  rw [if_neg (by rintro ⟨-, -, e⟩; rw [e] at hv; cases hv)] at h1
  have hself := within_self s hs r.loc (fun e => (g.pressures r hmem e).1)
  have hsel : Spec.selected s r.loc (dropna data) = [⟨r.loc, v⟩] := by
    classical
    -- only the row itself is selected
    have hgen : ∀ (l : List Row) (off : Nat), (∀ (j : Nat) (q : Row), l[j]? = some q → data[off + j]? = some q) →
        Spec.selected s r.loc (dropna l) = if off ≤ i ∧ i < off + l.length then [⟨r.loc, v⟩] else [] := by
      intro l
      induction l with
      | nil =>
        intro off _
        rw [if_neg (by simp only [List.length_nil]; omega)]
        rfl
      | cons a t ih =>
        intro off hdat
        have ha : data[off]? = some a := by simpa using hdat 0 a rfl
        have iht := ih (off + 1) (fun j q hj => by
          have := hdat (j + 1) q (by simpa using hj)
          rwa [show off + 1 + j = off + (j + 1) by omega])
        by_cases hoi : off = i
        · subst hoi
          rw [hi] at ha
          cases ha
          rw [if_pos (by simp only [List.length_cons]; omega)]
          rw [if_neg (by omega)] at iht
          have : dropna (r :: t) = ⟨r.loc, v⟩ :: dropna t := by unfold dropna; rw [List.filterMap_cons, hv]; rfl
          rw [this]
          unfold Spec.selected at iht ⊢
          rw [List.filter_cons_of_pos (by simpa using hself), iht]
        · have hc : (off ≤ i ∧ i < off + (a :: t).length) ↔ (off + 1 ≤ i ∧ i < off + 1 + t.length) := by
            simp only [List.length_cons]; omega
          simp only [hc]
          rw [← iht]
          cases hva : a.val with
          | none =>
            have : dropna (a :: t) = dropna t := by unfold dropna; rw [List.filterMap_cons, hva]; rfl
            rw [this]
          | some w =>
            have : dropna (a :: t) = ⟨a.loc, w⟩ :: dropna t := by unfold dropna; rw [List.filterMap_cons, hva]; rfl
            rw [this]
            unfold Spec.selected
            rw [List.filter_cons_of_neg]
            simpa using hapart i off r a (Ne.symm hoi) hi ha (by rw [hv]; simp) (by rw [hva]; simp)
    have hlt : i < data.length := (List.getElem?_eq_some_iff.1 hi).1
    have := hgen data 0 (fun j q hj => by simpa using hj)
    rwa [if_pos ⟨Nat.zero_le _, by simpa using hlt⟩] at this
  rw [hsel] at h1
  have hval : getValue k cx cy r.loc [⟨r.loc, v⟩] = some [some v] := by
    rcases hk with rfl | rfl | rfl | rfl <;> simp [getValue, npMean, npMin, npMax]
  rw [hval] at h1
  unfold column at h1
  simp only [List.map_cons, List.map_nil, Option.getD_some, List.cons.injEq, and_true] at h1
  cases e : o[i]? with
  | none => rw [e] at h1; cases h1
  | some z => rw [e] at h1; simp only [Option.join] at h1; rw [← h1]; cases z <;> rfl

/-- Three points at different times, one without a value, with a time separation: the conditions are met. -/
example : ∃ out, collocate ⟨none, none, none, some 2⟩ .nnTime false true [] []
    [⟨⟨0, 0, 0, 1, 0⟩, some 5⟩, ⟨⟨10, 20, 0, 1, 1⟩, some 6⟩, ⟨⟨10, 20, 0, 1, 1⟩, none⟩]
    [⟨⟨0, 0, 0, 1, 0⟩, some 5⟩, ⟨⟨10, 20, 0, 1, 1⟩, some 6⟩, ⟨⟨10, 20, 0, 1, 1⟩, none⟩] = .ok [out] ∧
    out[0]? = some (some 5) ∧ out[1]? = some (some 6) := by
  obtain ⟨out, h1, -, h2⟩ := c152_nearest ⟨none, none, none, some 2⟩ ⟨by simp, by simp, by simp, by simp⟩ .nnTime (by simp [Kernel.dataOnly]) false true [] []
    (by intro h; cases h) [⟨⟨0, 0, 0, 1, 0⟩, some 5⟩, ⟨⟨10, 20, 0, 1, 1⟩, some 6⟩, ⟨⟨10, 20, 0, 1, 1⟩, none⟩]
    (by simp [dropna]) (by rintro (h | h); cases h; exact absurd rfl h) (by
      intro i j p q hij hi hj hp hq
      match i, j with
      | 0, 0 => exact absurd rfl hij
      | 1, 1 => exact absurd rfl hij
      | 0, 1 => cases hi; cases hj; simp [Spec.Differ]
      | 1, 0 => cases hi; cases hj; simp [Spec.Differ]
      | 2, _ => cases hi; exact absurd rfl hp
      | _, 2 => cases hj; exact absurd rfl hq
      | i + 3, _ => simp at hi
      | _, j + 3 => simp at hj)
  exact ⟨out, h1, h2 0 _ 5 rfl rfl, h2 1 _ 6 rfl rfl⟩

/-- Points near the pole and on both sides of the date line, with a horizontal separation, at different altitudes. -/
example : ∃ out, collocate ⟨some 100, none, none, none⟩ .nnAltitude true true [] []
    [⟨⟨89, 179, 0, 1, 0⟩, some 5⟩, ⟨⟨89, -1, 3, 1, 0⟩, some 6⟩] [⟨⟨89, 179, 0, 1, 0⟩, some 5⟩, ⟨⟨89, -1, 3, 1, 0⟩, some 6⟩] = .ok [out] ∧
    out[0]? = some (some 5) ∧ out[1]? = some (some 6) := by
  obtain ⟨out, h1, -, h2⟩ := c152_nearest ⟨some 100, none, none, none⟩ ⟨by simp, by simp, by simp, by simp⟩ .nnAltitude (by simp [Kernel.dataOnly])
    true true [] [] (by intro h; cases h) [⟨⟨89, 179, 0, 1, 0⟩, some 5⟩, ⟨⟨89, -1, 3, 1, 0⟩, some 6⟩]
    (by simp [dropna]) (by rintro (h | h); cases h; exact absurd rfl h) (by
      intro i j p q hij hi hj hp hq
      match i, j with
      | 0, 0 => exact absurd rfl hij
      | 1, 1 => exact absurd rfl hij
      | 0, 1 => cases hi; cases hj; simp [Spec.Differ]
      | 1, 0 => cases hi; cases hj; simp [Spec.Differ]
      | i + 2, _ => simp at hi
      | _, j + 2 => simp at hj)
  exact ⟨out, h1, h2 0 _ 5 rfl rfl, h2 1 _ 6 rfl rfl⟩

/-- The two poles. -/
def southPole : Loc := ⟨-90, 0, 0, 1, 0⟩
def northPole : Loc := ⟨90, 180, 0, 1, 0⟩

theorem poles_apart : ¬ Spec.Within ⟨some 1000, none, none, none⟩ southPole northPole ∧ ¬ Spec.Within ⟨some 1000, none, none, none⟩ northPole southPole := by
  have hs : sin (radians 90) = 1 := by rw [show radians 90 = π / 2 by unfold radians; ring, sin_pi_div_two]
  have hc : cos (radians 90) = 0 := by rw [show radians 90 = π / 2 by unfold radians; ring, cos_pi_div_two]
  have hs' : sin (radians (-90)) = -1 := by rw [show radians (-90) = -(π / 2) by unfold radians; ring, sin_neg, sin_pi_div_two]
  have hc' : cos (radians (-90)) = 0 := by rw [show radians (-90) = -(π / 2) by unfold radians; ring, cos_neg, cos_pi_div_two]
  have key : hdist southPole northPole = π * 6378 ∧ hdist northPole southPole = π * 6378 := by
    constructor <;>
    · rw [hdist_eq, ← HavTree.havPt_dist, HavTree.havPt_eq, HavTree.haversineRadians_eq]
      unfold HavTree.cosAngle
      simp [southPole, northPole, hs, hc, hs', hc', radiusEarth]
  have h3 := pi_gt_three
  constructor <;>
  · intro h
    have h := (within_iff.1 h).1 1000 rfl
    first | rw [key.1] at h | rw [key.2] at h
    linarith

/-- C153 is false at the poles: two points with a value each, half the earth apart, collocated onto themselves with a horizontal separation of 1000 km,
give their mean. -/
theorem c153_poles_violated : ∃ (s : Seps) (data : List Row), Spec.Positive s ∧
    (∀ (i j : Nat) (p q : Row), i ≠ j → data[i]? = some p → data[j]? = some q → p.val ≠ none → q.val ≠ none → ¬ Spec.Within s p.loc q.loc) ∧
    data.map Row.val = [some 1, some 3] ∧ collocate s .mean false true [.lat, .lon] [.lat, .lon] data data = .ok [[some 2, some 2]] := by
  refine ⟨⟨some 1000, none, none, none⟩, [⟨southPole, some 1⟩, ⟨northPole, some 3⟩], ⟨by simp, by simp, by simp, by simp⟩, ?_, rfl, ?_⟩
  · intro i j p q hij hi hj hp hq
    match i, j with
    | 0, 0 => exact absurd rfl hij
    | 1, 1 => exact absurd rfl hij
    | 0, 1 => cases hi; cases hj; exact poles_apart.1
    | 1, 0 => cases hi; cases hj; exact poles_apart.2
    | i + 2, _ => simp at hi
    | _, j + 2 => simp at hj
  · have win : Window [⟨southPole, some 1⟩, ⟨northPole, some 3⟩] 0 := by
      refine ⟨Or.inl rfl, ?_, ?_⟩
      · simp [southPole, northPole]
      · intro r hr; simp at hr; rcases hr with rfl | rfl <;> norm_num [southPole, northPole]
    unfold collocate collocateWith
    simp only
    rw [window_start win, setLongitudeRange_id _ 0 win.2.2, window_start win, setLongitudeRange_id _ 0 win.2.2]
    have ed : dropna [⟨southPole, some 1⟩, ⟨northPole, some 3⟩] = [⟨southPole, 1⟩, ⟨northPole, 3⟩] := rfl
    rw [ed]
    have et : treeOf [⟨southPole, 1⟩, ⟨northPole, 3⟩] = _ := HavTree.mkTree_leaf _ (by simp) (by simp)
    rw [et]
    simp only
    have e1 : max (-90 : ℝ) 90 = 90 := by norm_num
    have e2 : min (-90 : ℝ) 90 = -90 := by norm_num
    have e3 : min (90 : ℝ) (-90) = -90 := by norm_num
    have e4 : max (90 : ℝ) (-90) = 90 := by norm_num
    have e5 : (90 + 90 : ℝ) = 180 := by norm_num
    have e6 : (-90 - 90 : ℝ) = -180 := by norm_num
    have r180 : cos (radians 180) = -1 := by rw [show radians 180 = π by unfold radians; ring, cos_pi]
    have hs : ∀ i < 2, treeSearch (KD.mk 2 (latLon [⟨southPole, 1⟩, ⟨northPole, 3⟩]) 10
        (colMax 2 (latLon [⟨southPole, 1⟩, ⟨northPole, 3⟩])) (colMin 2 (latLon [⟨southPole, 1⟩, ⟨northPole, 3⟩])) (.leaf (List.range 2)))
        [⟨southPole, some 1⟩, ⟨northPole, some 3⟩] 1000 i = [0, 1] := by
      intro i hi
      unfold treeSearch HavTree.pointsWithinDistanceSample
      rw [HavTree.mkTree_leaf _ (by simp) (by simp)]
      simp only
      unfold HavTree.queryBallTree
      simp only
      rw [HavTree.checkTree_bulk]
      · rw [noCheckTree_eq _ _ _ (by simp [Tree.indices, List.range_succ])]
        simp [Tree.indices, List.range_succ]; omega
      · unfold HavTree.minRect
        rw [HavTree.havPt_zero_eq]
        simp [Rect.mk', colMax, colMin, List.range_succ, HavTree.rad0, latLon, sampleLatLon, southPole, northPole, e1, e2, e3, e4, e5, e6]
      · unfold HavTree.maxRect
        rw [HavTree.havPt_zero_eq]
        simp [Rect.mk', colMax, colMin, List.range_succ, HavTree.rad0, latLon, sampleLatLon, southPole, northPole, e1, e2, e3, e4, e5, e6, r180]
    rw [show ([⟨southPole, 1⟩, ⟨northPole, 3⟩] : List DRow).length = 2 from rfl]
    unfold kdIterator
    simp [horizontal, hs, iloc, kdChecks, applyChecks, Kernel.size, fillValues, fillStep, getValue, npMean]
    simp [List.range_succ]; norm_num

end Cis.Colloc
