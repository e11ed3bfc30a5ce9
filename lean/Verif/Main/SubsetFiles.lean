import Verif.Main.SubsetCommand
import Verif.Agg.Reorder
set_option linter.unusedSectionVars false
set_option linter.unusedSimpArgs false

/-!
# `cis subset` of many files, and of the output of another subset

Data read from several files are the points of the files one after the other (`from_many_coordinates` and the concatenation of utils.py:21-44, C77).
Subsetting them (common_data.py:113-138, subsetting/subset.py, subset_limits.py, C180) is the same as subsetting each file and putting the results together,
and a subset of a subset is the subset by all the limits, provided the longitudes of the files and the limits for them follow one
convention. Otherwise not: the convention of *all* data decides about the conversion.
-/
namespace Cis.SubsetCmd
open Cis.Str Cis.Time

variable {V : Type}

/-! ### Specification -/

/-- One point: its value on each coordinate (by the number of the coordinate object) and the datum. -/
structure Spec.Row (V : Type) where
  pos : Nat → ℚ
  value : V

/-- The data object with these points and the metadata of these coordinates. -/
def Spec.ofRows (meta' : List Crd) (rows : List (Spec.Row V)) : Data V where
  coords := meta'.map (fun c => { c with payload := { c.payload with points := rows.map (fun r => r.pos c.payload.id) } })
  values := rows.map Spec.Row.value

/-- The data of files, one after the other. -/
def Spec.ofFiles (meta' : List Crd) (files : List (List (Spec.Row V))) : Data V := Spec.ofRows meta' files.flatten

/-- The limits argument for some limits. -/
def Spec.text (asked : List Spec.Asked) : Str := Parse.joinBy ',' (asked.map (fun a => Limits.Spec.render a.dim a.first a.second))

/-- The limits are legible and find different coordinates of a data set with these coordinates (their points do not matter). -/
structure Spec.Legible (e : Env) (meta' : List Crd) (asked : List Spec.Asked) : Prop where
  word : ∀ a ∈ asked, Limits.Spec.Word ['=', ',', '[', '('] a.dim ∧ Limits.Spec.Word [']', ',', '[', '('] a.first ∧
      ∀ s, a.second = some s → Limits.Spec.Word [']', ',', '[', '('] s
  shape : ∀ a ∈ asked, ¬ "shape".toList <+: a.dim
  denotes : ∀ a ∈ asked, Spec.Denotes e a.dim a.first a.second a.range
  find : ∀ a ∈ asked, Coords.lookupCoord standardAxes meta' (String.ofList a.dim) = some a.coord
  dims : (asked.map Spec.Asked.dim).Nodup
  diff : (asked.map (fun a => key a.coord)).Nodup
  time : ∀ a ∈ asked, ∀ lo hi, a.range = .time lo hi → ∃ f, a.coord.payload.dates = some f ∧ ∀ x, Time.Spec.Real (f x)

/-- The limits for longitudes have two ends, and these and the longitudes of the points follow one convention: all at most 180, or all at least 0. -/
def Spec.OneConvention (asked : List Spec.Asked) (rows : List (Spec.Row V)) : Prop :=
  ∀ a ∈ asked, a.coord.stdName = some "longitude" → ∃ lo hi, a.range = .num (some lo) (some hi) ∧
    ((lo ≤ 180 ∧ hi ≤ 180 ∧ ∀ r ∈ rows, r.pos a.coord.payload.id ≤ 180) ∨ (0 ≤ lo ∧ 0 ≤ hi ∧ ∀ r ∈ rows, 0 ≤ r.pos a.coord.payload.id))

/-- The point lies within all the limits. -/
def Spec.Within (asked : List Spec.Asked) (r : Spec.Row V) : Prop :=
  ∀ a ∈ asked, Spec.In a.coord.payload a.range (r.pos a.coord.payload.id)

/-! ### Proofs -/

theorem convertFun_id (lons : List ℚ) (lo hi : ℚ)
    (h : (lo ≤ 180 ∧ hi ≤ 180 ∧ ∀ x ∈ lons, x ≤ 180) ∨ (0 ≤ lo ∧ 0 ≤ hi ∧ ∀ x ∈ lons, 0 ≤ x)) : Subset.convertFun lons lo hi = id := by
  have : Subset.newRange lons lo hi = none := by
    unfold Subset.newRange
    dsimp only
    rcases h with ⟨h1, h2, h3⟩ | ⟨h1, h2, h3⟩
    · have e1 : lons.any (fun x => decide (x > 180)) = false := by
        rw [List.any_eq_false]; intro x hx; simpa using h3 x hx
      have e2 : decide (lo > 180) = false := by simpa using h1
      have e3 : decide (hi > 180) = false := by simpa using h2
      rw [e1, e2, e3]; simp
    · have e1 : lons.any (fun x => decide (x < 0)) = false := by
        rw [List.any_eq_false]; intro x hx; simpa using h3 x hx
      have e2 : decide (lo < 0) = false := by simpa using h1
      have e3 : decide (hi < 0) = false := by simpa using h2
      rw [e1, e2, e3]; simp
  unfold Subset.convertFun
  rw [this]

/-- The coordinate with the points of these rows. -/
def withRows (rows : List (Spec.Row V)) (c : Crd) : Crd := { c with payload := { c.payload with points := rows.map (fun r => r.pos c.payload.id) } }

theorem withRows_eq (rows : List (Spec.Row V)) :
    withRows rows = Coords.withPayload (fun p : Column => { p with points := rows.map (fun r => r.pos p.id) }) := rfl

theorem filterMap_filter_range {α β : Type} (l : List α) (p : Nat → Bool) (q : α → Bool) (g : α → β)
    (h : ∀ i a, l[i]? = some a → p i = q a) :
    ((List.range l.length).filter p).filterMap (fun i => (l[i]?).map g) = (l.filter q).map g := by
  induction l using List.reverseRecOn with
  | nil => rfl
  | append_singleton l a ih =>
    have ih' := ih (fun i b hb => h i b (by
      have hi : i < l.length := (List.getElem?_eq_some_iff.1 hb).1
      rw [List.getElem?_append_left hi, hb]))
    rw [List.length_append, List.length_singleton, List.range_succ, List.filter_append, List.filterMap_append, List.filter_append, List.map_append, ← ih']
    congr 1
    · apply List.filterMap_congr
      intro i hi
      have : i < l.length := List.mem_range.1 (List.mem_filter.1 hi).1
      rw [List.getElem?_append_left this]
    · have ha : (l ++ [a])[l.length]? = some a := by simp
      have := h _ _ ha
      by_cases hq : q a = true
      · rw [List.filter_singleton, List.filter_singleton, this, hq]; simp
      · rw [List.filter_singleton, List.filter_singleton, this]; simp [hq]

open Classical in
/-- **C198** (one data set). For points and limits for longitudes in one convention, the subset is the points within all limits, in order, with
unchanged coordinates: what becomes of a point does not depend on the others. -/
theorem c198_rows (e : Env) (meta' : List Crd) (hids : (meta'.map (fun c => c.payload.id)).Nodup) (hkeys : (meta'.map key).Nodup)
    (asked : List Spec.Asked) (hne : asked ≠ []) (hleg : Spec.Legible e meta' asked) (rows : List (Spec.Row V)) (hconv : Spec.OneConvention asked rows) :
    run e (Spec.ofRows meta' rows) (Spec.text asked) =
      if rows.filter (fun r => decide (Spec.Within asked r)) = [] then .error .noData
      else .ok (Spec.ofRows meta' (rows.filter (fun r => decide (Spec.Within asked r)))) := by
  have hco : (Spec.ofRows meta' rows).coords = meta'.map (withRows rows) := rfl
  let asked' : List Spec.Asked := asked.map (fun a => { a with coord := withRows rows a.coord })
  have hwf : (Spec.ofRows meta' rows).WF := by
    refine ⟨?_, ?_, ?_⟩
    · intro c hc
      rw [hco] at hc
      obtain ⟨c0, _, rfl⟩ := List.mem_map.1 hc
      simp [withRows, Spec.ofRows]
    · rw [hco, List.map_map]; exact hids
    · rw [hco, List.map_map]; exact hkeys
  have hmem : ∀ a ∈ asked, a.coord ∈ meta' := fun a ha => lookup_mem _ _ _ _ (hleg.find a ha)
  obtain ⟨shift, _, hs2, hs3, hrun⟩ := c180_subset e (Spec.ofRows meta' rows) hwf asked' (by simpa [asked'] using hne)
    (by intro a ha; obtain ⟨b, hb, rfl⟩ := List.mem_map.1 ha; exact hleg.word b hb)
    (by intro a ha; obtain ⟨b, hb, rfl⟩ := List.mem_map.1 ha; exact hleg.shape b hb)
    (by intro a ha; obtain ⟨b, hb, rfl⟩ := List.mem_map.1 ha; exact hleg.denotes b hb)
    (by
      intro a ha; obtain ⟨b, hb, rfl⟩ := List.mem_map.1 ha
      dsimp only
      rw [hco, withRows_eq, Coords.lookupCoord_map, hleg.find b hb]
      rfl)
    (by rw [List.map_map]; exact hleg.dims)
    (by rw [List.map_map]; exact hleg.diff)
    (by
      intro a ha; obtain ⟨b, hb, rfl⟩ := List.mem_map.1 ha
      intro h
      obtain ⟨lo, hi, h1, _⟩ := hconv b hb h
      exact ⟨lo, hi, h1⟩)
    (by
      intro a ha; obtain ⟨b, hb, rfl⟩ := List.mem_map.1 ha
      intro lo hi h
      obtain ⟨f, h1, h2⟩ := hleg.time b hb lo hi h
      exact ⟨f, h1, fun x _ => h2 x⟩)
  have hsh : ∀ c ∈ meta', shift c.payload.id = id := by
    intro c hc
    by_cases hl : c.stdName = some "longitude"
    · by_cases hm : withRows rows c ∈ asked'.map Spec.Asked.coord
      · obtain ⟨a, ha, hac⟩ := List.mem_map.1 hm
        obtain ⟨b, hb, rfl⟩ := List.mem_map.1 ha
        dsimp only at hac
        have hid : b.coord.payload.id = c.payload.id := by
          have := congrArg (fun x : Crd => x.payload.id) hac
          exact this
        have hstd : b.coord.stdName = some "longitude" := by
          have := congrArg (fun x : Crd => x.stdName) hac
          simpa [withRows, hl] using this
        obtain ⟨lo, hi, h1, h2⟩ := hconv b hb hstd
        have := hs2 _ ha hstd lo hi h1
        dsimp only [withRows] at this
        rw [hid] at this
        rw [this]
        apply convertFun_id
        rw [hid] at h2
        rcases h2 with ⟨x, y, z⟩ | ⟨x, y, z⟩
        · refine .inl ⟨x, y, ?_⟩
          intro v hv; obtain ⟨r, hr, rfl⟩ := List.mem_map.1 hv; exact z r hr
        · refine .inr ⟨x, y, ?_⟩
          intro v hv; obtain ⟨r, hr, rfl⟩ := List.mem_map.1 hv; exact z r hr
      · exact hs3 (withRows rows c) (by rw [hco]; exact List.mem_map_of_mem hc) (.inr hm)
    · exact hs3 (withRows rows c) (by rw [hco]; exact List.mem_map_of_mem hc) (.inl hl)
  have htext : Parse.joinBy ',' (asked'.map (fun a => Limits.Spec.render a.dim a.first a.second)) = Spec.text asked := by
    unfold Spec.text; rw [List.map_map]; rfl
  dsimp only at hrun
  rw [htext] at hrun
  have hlen : (Spec.ofRows meta' rows).values.length = rows.length := by simp [Spec.ofRows]
  rw [hlen] at hrun
  generalize hkp : (List.range rows.length).filter (fun i => decide (∀ a ∈ asked',
        Spec.In a.coord.payload a.range (shift a.coord.payload.id (a.coord.payload.points.getD i 0)))) = keep at hrun
  have hp : ∀ i r, rows[i]? = some r → decide (∀ a ∈ asked',
        Spec.In a.coord.payload a.range (shift a.coord.payload.id (a.coord.payload.points.getD i 0))) = decide (Spec.Within asked r) := by
    intro i r hr
    apply decide_eq_decide.2
    unfold Spec.Within
    constructor
    · intro h a ha
      have := h _ (List.mem_map_of_mem ha)
      dsimp only [withRows] at this
      rw [hsh _ (hmem a ha)] at this
      simp only [List.getD_eq_getElem?_getD, List.getElem?_map, hr, Option.map_some, Option.getD_some, id] at this
      cases hrg : a.range <;> rw [hrg] at this <;> exact this
    · intro h a' ha'
      obtain ⟨a, ha, rfl⟩ := List.mem_map.1 ha'
      dsimp only [withRows]
      rw [hsh _ (hmem a ha)]
      simp only [List.getD_eq_getElem?_getD, List.getElem?_map, hr, Option.map_some, Option.getD_some, id]
      have := h a ha
      cases hrg : a.range <;> rw [hrg] at this <;> exact this
  have hfil : ∀ {β : Type} (g : Spec.Row V → β), keep.filterMap (fun i => (rows[i]?).map g) = (rows.filter (fun r => decide (Spec.Within asked r))).map g := by
    intro β g
    rw [← hkp]
    exact filterMap_filter_range rows _ _ g hp
  have hkeep : keep = [] ↔ rows.filter (fun r => decide (Spec.Within asked r)) = [] := by
    have h0 := congrArg List.length (hfil id)
    have h1 : (keep.filterMap (fun i => (rows[i]?).map id)).length = keep.length := by
      rw [List.length_filterMap_eq_countP, List.countP_eq_length]
      intro i hi
      rw [← hkp] at hi
      have := List.mem_range.1 (List.mem_filter.1 hi).1
      simp [List.getElem?_eq_getElem this]
    rw [h1, List.length_map] at h0
    rw [← List.length_eq_zero_iff, ← List.length_eq_zero_iff, h0]
  rw [hrun]
  by_cases hk : keep = []
  · rw [if_pos hk, if_pos (hkeep.1 hk)]
  · rw [if_neg hk, if_neg (fun h => hk (hkeep.2 h))]
    congr 1
    unfold Spec.ofRows
    congr 1
    · rw [List.map_map]
      refine List.map_congr_left (fun c hc => ?_)
      dsimp only [Function.comp, setPoints]
      rw [hsh c hc, ← hfil]
      simp only [List.getElem?_map, Option.map_id, id, Option.map_map]
      rfl
    · rw [← hfil]
      simp only [List.getElem?_map]

open Classical in
/-- **C198** (files). Subsetting data read from any number of files, some of which may hold no points within the limits or none at all, is
subsetting each file and joining the results in the order of the files; there is no output iff there is none for any file. -/
theorem c198_files (e : Env) (meta' : List Crd) (hids : (meta'.map (fun c => c.payload.id)).Nodup) (hkeys : (meta'.map key).Nodup)
    (asked : List Spec.Asked) (hne : asked ≠ []) (hleg : Spec.Legible e meta' asked) (files : List (List (Spec.Row V)))
    (hconv : Spec.OneConvention asked files.flatten) :
    ∃ kept : List (List (Spec.Row V)), kept.length = files.length ∧
      (∀ (i : Nat) (f : List (Spec.Row V)), files[i]? = some f → ∃ k : List (Spec.Row V), kept[i]? = some k ∧ k.Sublist f ∧
        run e (Spec.ofRows meta' f) (Spec.text asked) = if k = [] then .error .noData else .ok (Spec.ofRows meta' k)) ∧
      run e (Spec.ofFiles meta' files) (Spec.text asked) =
        if ∀ k ∈ kept, k = [] then .error .noData else .ok (Spec.ofFiles meta' kept) := by
  refine ⟨files.map (fun f => f.filter (fun r => decide (Spec.Within asked r))), by simp, ?_, ?_⟩
  · intro i f hf
    refine ⟨_, by rw [List.getElem?_map, hf]; rfl, List.filter_sublist, ?_⟩
    apply c198_rows e meta' hids hkeys asked hne hleg f
    intro a ha hl
    obtain ⟨lo, hi, h1, h2⟩ := hconv a ha hl
    have hfm : f ∈ files := List.mem_of_getElem? hf
    refine ⟨lo, hi, h1, ?_⟩
    rcases h2 with ⟨x, y, z⟩ | ⟨x, y, z⟩
    · exact .inl ⟨x, y, fun r hr => z r (List.mem_flatten.2 ⟨f, hfm, hr⟩)⟩
    · exact .inr ⟨x, y, fun r hr => z r (List.mem_flatten.2 ⟨f, hfm, hr⟩)⟩
  · have := c198_rows e meta' hids hkeys asked hne hleg files.flatten hconv
    rw [List.filter_flatten] at this
    unfold Spec.ofFiles
    rw [this]
    congr 1
    apply propext
    rw [List.flatten_eq_nil_iff]

open Classical in
/-- **C198** (twice). A subset of a subset is the subset by all the limits: the output of the first command, subset by other limits, is the output of
one command with both; if either leaves nothing, so does the other. -/
theorem c198_twice (e : Env) (meta' : List Crd) (hids : (meta'.map (fun c => c.payload.id)).Nodup) (hkeys : (meta'.map key).Nodup)
    (first second : List Spec.Asked) (hf : first ≠ []) (hs : second ≠ []) (hleg : Spec.Legible e meta' (first ++ second)) (rows : List (Spec.Row V))
    (hconv : Spec.OneConvention (first ++ second) rows) :
    run e (Spec.ofRows meta' rows) (Spec.text (first ++ second)) =
      (match run e (Spec.ofRows meta' rows) (Spec.text first) with
      | .error x => .error x
      | .ok d => run e d (Spec.text second)) := by
  have hl1 : Spec.Legible e meta' first := ⟨fun a ha => hleg.word a (by simp [ha]), fun a ha => hleg.shape a (by simp [ha]),
    fun a ha => hleg.denotes a (by simp [ha]), fun a ha => hleg.find a (by simp [ha]),
    by have := hleg.dims; rw [List.map_append] at this; exact (List.nodup_append.1 this).1,
    by have := hleg.diff; rw [List.map_append] at this; exact (List.nodup_append.1 this).1, fun a ha => hleg.time a (by simp [ha])⟩
  have hl2 : Spec.Legible e meta' second := ⟨fun a ha => hleg.word a (by simp [ha]), fun a ha => hleg.shape a (by simp [ha]),
    fun a ha => hleg.denotes a (by simp [ha]), fun a ha => hleg.find a (by simp [ha]),
    by have := hleg.dims; rw [List.map_append] at this; exact (List.nodup_append.1 this).2.1,
    by have := hleg.diff; rw [List.map_append] at this; exact (List.nodup_append.1 this).2.1, fun a ha => hleg.time a (by simp [ha])⟩
  have hsub : ∀ a ∈ second, a.coord.stdName = some "longitude" → ∃ lo hi, a.range = .num (some lo) (some hi) ∧
    ((lo ≤ 180 ∧ hi ≤ 180 ∧ ∀ r ∈ rows.filter (fun r => decide (Spec.Within first r)), r.pos a.coord.payload.id ≤ 180) ∨
      (0 ≤ lo ∧ 0 ≤ hi ∧ ∀ r ∈ rows.filter (fun r => decide (Spec.Within first r)), 0 ≤ r.pos a.coord.payload.id)) := by
    intro a ha hl
    obtain ⟨lo, hi, h1, h2⟩ := hconv a (by simp [ha]) hl
    refine ⟨lo, hi, h1, ?_⟩
    rcases h2 with ⟨x, y, z⟩ | ⟨x, y, z⟩
    · exact .inl ⟨x, y, fun r hr => z r (List.mem_filter.1 hr).1⟩
    · exact .inr ⟨x, y, fun r hr => z r (List.mem_filter.1 hr).1⟩
  rw [c198_rows e meta' hids hkeys _ (by simp [hf]) hleg rows hconv,
    c198_rows e meta' hids hkeys first hf hl1 rows (fun a ha => hconv a (by simp [ha]))]
  have hff : rows.filter (fun r => decide (Spec.Within (first ++ second) r)) =
      (rows.filter (fun r => decide (Spec.Within first r))).filter (fun r => decide (Spec.Within second r)) := by
    rw [List.filter_filter]
    apply List.filter_congr
    intro r _
    have : Spec.Within (first ++ second) r ↔ Spec.Within second r ∧ Spec.Within first r := by
      unfold Spec.Within
      constructor
      · intro h; exact ⟨fun a ha => h a (by simp [ha]), fun a ha => h a (by simp [ha])⟩
      · rintro ⟨h1, h2⟩ a ha
        rcases List.mem_append.1 ha with ha | ha
        · exact h2 a ha
        · exact h1 a ha
    rw [← Bool.decide_and]
    exact decide_eq_decide.2 this
  rw [hff]
  by_cases h1 : rows.filter (fun r => decide (Spec.Within first r)) = []
  · rw [if_pos h1, h1]; rfl
  · rw [if_neg h1]
    dsimp only
    rw [c198_rows e meta' hids hkeys second hs hl2 _ hsub]

/-- C198: every well-formed data set is one of rows. -/
theorem c198_all_data [Inhabited V] (d : Data V) (hwf : d.WF) : ∃ rows, Spec.ofRows d.coords rows = d := by
  obtain ⟨hlen, hids, _⟩ := hwf
  refine ⟨(List.range d.values.length).map (fun i => ⟨fun j => ((d.coords.find? (fun c => decide (c.payload.id = j))).map
    (fun c => c.payload.points.getD i 0)).getD 0, d.values.getD i default⟩), ?_⟩
  obtain ⟨cs, vs⟩ := d
  unfold Spec.ofRows
  dsimp only at *
  congr 1
  · conv_rhs => rw [← List.map_id cs]
    refine List.map_congr_left (fun c hc => ?_)
    have hfind : cs.find? (fun x => decide (x.payload.id = c.payload.id)) = some c := by
      cases hf : cs.find? (fun x => decide (x.payload.id = c.payload.id)) with
      | none => rw [List.find?_eq_none] at hf; exact absurd (decide_eq_true rfl) (hf c hc)
      | some y =>
        have h1 := List.find?_some hf
        rw [List.inj_on_of_nodup_map hids (List.mem_of_find?_eq_some hf) hc (by simpa using h1)]
    rw [List.map_map]
    have : (List.range vs.length).map ((fun r : Spec.Row V => r.pos c.payload.id) ∘ fun i => (⟨fun j => ((cs.find? (fun c => decide (c.payload.id = j))).map
      (fun c => c.payload.points.getD i 0)).getD 0, vs.getD i default⟩ : Spec.Row V)) = c.payload.points := by
      dsimp only [Function.comp_def]
      rw [hfind]
      dsimp only [Option.map_some, Option.getD_some]
      exact Agg.map_getD_range c.payload.points 0 vs.length (hlen c hc)
    rw [this]
    rfl
  · rw [List.map_map]
    exact Agg.map_getD_range vs default vs.length rfl

/-! ### Files in different conventions -/

/-- C198 violated without the condition: of a file with the longitude 350 and one with -10, each alone has its point within `lon=[-180,0]`, but
both together keep only one of them. -/
theorem c198_conventions_violated :
    keptBy exEnv (Spec.ofRows [exLon []] [⟨fun _ => 350, 1⟩]) "lon=[-180,0]" = some [1] ∧
    keptBy exEnv (Spec.ofRows [exLon []] [⟨fun _ => -10, 2⟩]) "lon=[-180,0]" = some [2] ∧
    keptBy exEnv (Spec.ofFiles [exLon []] [[⟨fun _ => 350, 1⟩], [⟨fun _ => -10, 2⟩]]) "lon=[-180,0]" = some [2] := by
  refine ⟨?_, ?_, ?_⟩ <;> with_unfolding_all rfl

/-! ### Examples -/

/-- Two limits, for latitude and longitude. -/
def exAsked : List Spec.Asked := [⟨"y".toList, "0".toList, some "5".toList, exLat [], .num (some 0) (some 5)⟩,
  ⟨"lon".toList, "10".toList, some "20".toList, exLon [], .num (some 10) (some 20)⟩]

def exRow (lon lat : ℚ) (v : Nat) : Spec.Row Nat := ⟨fun j => if j = 0 then lon else lat, v⟩

theorem exLegible : Spec.Legible exEnv [exLon [], exLat []] exAsked := by
  refine ⟨?_, ?_, ?_, ?_, by decide, by decide, ?_⟩
  · intro a ha
    simp only [exAsked, List.mem_cons, List.not_mem_nil, or_false] at ha
    rcases ha with rfl | rfl <;> refine ⟨⟨by decide, by decide⟩, ⟨by decide, by decide⟩, ?_⟩ <;> intro s hs <;> cases hs <;> exact ⟨by decide, by decide⟩
  · intro a ha
    simp only [exAsked, List.mem_cons, List.not_mem_nil, or_false] at ha
    rcases ha with rfl | rfl <;> decide
  · intro a ha
    simp only [exAsked, List.mem_cons, List.not_mem_nil, or_false] at ha
    rcases ha with rfl | rfl
    · exact ⟨by decide, .inr (.inr ⟨by decide, 0, rfl, rfl⟩), .inr ⟨_, rfl, .inr (.inr ⟨by decide, 5, rfl, rfl⟩)⟩, fun h => absurd h (by decide)⟩
    · exact ⟨by decide, .inr (.inr ⟨by decide, 10, rfl, rfl⟩), .inr ⟨_, rfl, .inr (.inr ⟨by decide, 20, rfl, rfl⟩)⟩, fun h => absurd h (by decide)⟩
  · intro a ha
    simp only [exAsked, List.mem_cons, List.not_mem_nil, or_false] at ha
    rcases ha with rfl | rfl <;> with_unfolding_all rfl
  · intro a ha lo hi h
    simp only [exAsked, List.mem_cons, List.not_mem_nil, or_false] at ha
    rcases ha with rfl | rfl <;> cases h

/-- Three files, the second without points within the limits. -/
example : ∃ kept : List (List (Spec.Row Nat)), kept.length = 3 ∧
    run exEnv (Spec.ofFiles [exLon [], exLat []] [[exRow 15 3 1, exRow 40 3 2], [exRow 15 7 3], [exRow 12 0 4]]) (Spec.text exAsked) =
      if ∀ k ∈ kept, k = [] then .error .noData else .ok (Spec.ofFiles [exLon [], exLat []] kept) := by
  obtain ⟨k, h1, _, h3⟩ := c198_files exEnv [exLon [], exLat []] (by decide) (by decide) exAsked (by decide) exLegible
    [[exRow 15 3 1, exRow 40 3 2], [exRow 15 7 3], [exRow 12 0 4]] (by
      intro a ha hl
      simp only [exAsked, List.mem_cons, List.not_mem_nil, or_false] at ha
      rcases ha with rfl | rfl
      · exact absurd hl (by decide)
      · refine ⟨10, 20, rfl, .inr ⟨by norm_num, by norm_num, ?_⟩⟩
        intro r hr
        simp [exRow] at hr
        rcases hr with rfl | rfl | rfl | rfl <;> simp [exLon])
  exact ⟨k, h1, h3⟩

example : keptBy exEnv (Spec.ofFiles [exLon [], exLat []] [[exRow 15 3 1, exRow 40 3 2], [exRow 15 7 3], [exRow 12 0 4]]) "y=[0,5],lon=[10,20]" =
    some [1, 4] := by with_unfolding_all rfl

end Cis.SubsetCmd
