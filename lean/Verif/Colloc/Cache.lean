import Verif.Colloc.Constraint
set_option linter.unusedSectionVars false
set_option linter.unusedSimpArgs false
/-!
Property C57: the cache of `SepConstraintKdtree` (col_implementations.py:313-334). The object is a state machine: indexing
data (data_index.py:259-275) replaces the index but keeps the cache; `constrain_points` uses both.
-/
namespace Cis.Colloc
open Cis.Geo Cis.KDTree

open Classical in
/-- `_get_cached_indices` (col_implementations.py:328-330): the dictionary, keyed by latitude and longitude. -/
noncomputable def cacheGet (c : List ((ℝ × ℝ) × List Nat)) (ref : Loc) : Option (List Nat) :=
  (c.find? (fun e => decide (e.1 = (ref.lat, ref.lon)))).map Prod.snd

/-- `_add_cached_indices` (col_implementations.py:332-334); only called when there is no entry. -/
def cacheAdd (c : List ((ℝ × ℝ) × List Nat)) (ref : Loc) (idx : List Nat) : List ((ℝ × ℝ) × List Nat) :=
  ((ref.lat, ref.lon), idx) :: c

/-- The constraint object: the indexed data (`none`: no index yet) and the cache. -/
structure Obj where
  index : Option (List DRow)
  cache : List ((ℝ × ℝ) × List Nat)

/-- A new constraint (col_implementations.py:265-270). -/
def Obj.init : Obj := ⟨none, []⟩

/-- Calls on the constraint. -/
inductive Call
  | indexData (data : List DRow)
  | constrain (ref : Loc) (data : List DRow)

/-- One call (col_implementations.py:313-326, data_index.py:259-275). `find data ref h` is `find_points_within_distance` on
an index of `data`. The output is the selection of `constrain_points` (`some none`: IndexError). -/
noncomputable def Obj.step (s : Seps) (find : List DRow → Loc → ℝ → List Nat) (o : Obj) : Call → Obj × Option (Option (List DRow))
  | .indexData data => ({ o with index := some data }, none)
  | .constrain ref data =>
    match o.index, horizontal s with
    | some indexed, some h =>
      match cacheGet o.cache ref with
      | some idx => (o, some ((iloc data idx).bind (applyChecks (kdChecks s) ref)))
      | none =>
        ({ o with cache := cacheAdd o.cache ref (find indexed ref h) },
          some ((iloc data (find indexed ref h)).bind (applyChecks (kdChecks s) ref)))
    | _, _ => (o, some (applyChecks (kdChecks s) ref data))

/-- A sequence of calls. -/
noncomputable def Obj.run (s : Seps) (find : List DRow → Loc → ℝ → List Nat) (o : Obj) (calls : List Call) : Obj :=
  calls.foldl (fun o c => (o.step s find c).1) o

/-- The search looks at latitude and longitude of the reference only. -/
def Positional (find : List DRow → Loc → ℝ → List Nat) : Prop :=
  ∀ data ref ref' h, ref.lat = ref'.lat → ref.lon = ref'.lon → find data ref h = find data ref' h

/-- What is selected without a cache. -/
noncomputable def fresh (s : Seps) (find : List DRow → Loc → ℝ → List Nat) (indexed : List DRow) (ref : Loc) (data : List DRow) :
    Option (List DRow) := kdConstrain s (find indexed) ref data

/-- C57, full statement: whatever the calls before, indexing `indexed` and constraining gives what a new object gives. -/
def CacheTransparent (s : Seps) (find : List DRow → Loc → ℝ → List Nat) : Prop :=
  ∀ (before between : List Call) (indexed : List DRow) (ref : Loc) (data : List DRow),
    (∀ c ∈ between, ∃ r d, c = .constrain r d) →
    (((Obj.init.run s find before).step s find (.indexData indexed)).1.run s find between |>.step s find (.constrain ref data)).2
      = some (fresh s find indexed ref data)

/-- Invariant: all entries of the cache are what the search finds in the only data ever indexed. -/
def CacheInv (s : Seps) (find : List DRow → Loc → ℝ → List Nat) (indexed : List DRow) (o : Obj) : Prop :=
  (o.index = none ∧ o.cache = [] ∨ o.index = some indexed) ∧
  ∀ h, horizontal s = some h → ∀ ref idx, cacheGet o.cache ref = some idx → idx = find indexed ref h

theorem cacheGet_add (c : List ((ℝ × ℝ) × List Nat)) (r ref : Loc) (idx : List Nat) :
    cacheGet (cacheAdd c r idx) ref = if r.lat = ref.lat ∧ r.lon = ref.lon then some idx else cacheGet c ref := by
  unfold cacheGet cacheAdd
  rw [List.find?_cons]
  by_cases h : r.lat = ref.lat ∧ r.lon = ref.lon
  · simp [h]
  · rw [if_neg h]
    have : ¬ ((r.lat, r.lon) = (ref.lat, ref.lon)) := by simpa using h
    simp [this]

theorem step_inv {s : Seps} {find : List DRow → Loc → ℝ → List Nat} (hpos : Positional find) {indexed : List DRow} {o : Obj}
    (hi : CacheInv s find indexed o) (c : Call) (hc : ∀ d, c = .indexData d → d = indexed) :
    CacheInv s find indexed (o.step s find c).1 := by
  cases c with
  | indexData d => rw [hc d rfl]; exact ⟨Or.inr rfl, hi.2⟩
  | constrain r d =>
    unfold Obj.step
    simp only
    split
    · rename_i ix h e1 e2
      split
      · exact hi
      · refine ⟨?_, ?_⟩
        · rcases hi.1 with ⟨h0, -⟩ | h0
          · rw [h0] at e1; cases e1
          · exact Or.inr h0
        · intro h' e3 ref idx hg
          have hix : ix = indexed := by
            rcases hi.1 with ⟨h0, -⟩ | h0
            · rw [h0] at e1; cases e1
            · rw [h0] at e1; cases e1; rfl
          rw [e2] at e3; cases e3
          simp only [cacheGet_add] at hg
          split at hg
          · rename_i hr
            cases hg
            rw [hix]; exact hpos _ _ _ _ hr.1 hr.2
          · exact hi.2 h e2 ref idx hg
    · exact hi

theorem run_inv {s : Seps} {find : List DRow → Loc → ℝ → List Nat} (hpos : Positional find) {indexed : List DRow}
    (calls : List Call) : ∀ {o : Obj}, CacheInv s find indexed o → (∀ c ∈ calls, ∀ d, c = .indexData d → d = indexed) →
    CacheInv s find indexed (o.run s find calls) := by
  induction calls with
  | nil => intro o hi _; exact hi
  | cons c t ih =>
    intro o hi hc
    unfold Obj.run
    rw [List.foldl_cons]
    exact ih (step_inv hpos hi c (hc c (by simp))) (fun c' h => hc c' (by simp [h]))

theorem index_run {s : Seps} {find : List DRow → Loc → ℝ → List Nat} (calls : List Call) (indexed : List DRow) :
    ∀ {o : Obj}, o.index = some indexed → (∀ c ∈ calls, ∃ r d, c = .constrain r d) →
    (o.run s find calls).index = some indexed := by
  induction calls with
  | nil => intro o hi _; exact hi
  | cons c t ih =>
    intro o hi hc
    unfold Obj.run
    rw [List.foldl_cons]
    apply ih _ (fun c' h => hc c' (by simp [h]))
    obtain ⟨r, d, rfl⟩ := hc c (by simp)
    unfold Obj.step
    simp only
    split
    · split <;> exact hi
    · exact hi

/-- C57 for histories in which only one data set is ever indexed. What is missing: indexing other data
(`c57_reindex_violated`). -/
theorem c57_same_data (s : Seps) (find : List DRow → Loc → ℝ → List Nat) (hpos : Positional find)
    (before between : List Call) (indexed : List DRow) (ref : Loc) (data : List DRow)
    (hbefore : ∀ d, .indexData d ∈ before → d = indexed) (hbetween : ∀ c ∈ between, ∃ r d, c = .constrain r d) :
    (((Obj.init.run s find before).step s find (.indexData indexed)).1.run s find between |>.step s find (.constrain ref data)).2
      = some (fresh s find indexed ref data) := by
  have h0 : CacheInv s find indexed Obj.init := ⟨Or.inl ⟨rfl, rfl⟩, by intro h _ ref idx e; simp [Obj.init, cacheGet] at e⟩
  have h1 := run_inv hpos before h0 (by rintro c hc d rfl; exact hbefore d hc)
  have h2 := step_inv hpos h1 (.indexData indexed) (by rintro d ⟨⟩; rfl)
  have h3 := run_inv hpos between h2 (by
    rintro c hc d rfl
    obtain ⟨r, d', e⟩ := hbetween _ hc
    cases e)
  have h4 : (((Obj.init.run s find before).step s find (.indexData indexed)).1.run s find between).index = some indexed :=
    index_run between indexed rfl hbetween
  generalize (((Obj.init.run s find before).step s find (.indexData indexed)).1.run s find between) = o at h3 h4
  unfold Obj.step fresh kdConstrain
  simp only
  rw [h4]
  cases hh : horizontal s with
  | none => rfl
  | some h =>
    simp only
    split
    · rename_i idx e
      rw [h3.2 h hh ref idx e]
    · rfl

/-- C57 is violated by indexing a second data set: a lookup at the same position as before uses the indices found in the
first data set. With an exact search the point on the other side of the Earth is selected. -/
theorem c57_reindex_violated : ∃ (s : Seps) (find : List DRow → Loc → ℝ → List Nat), Positional find ∧
    (∀ data ref h, SearchExact data ref h (find data ref h)) ∧ ¬ CacheTransparent s find := by
  classical
  set d := hdist (atLon 0) (atLon 180) with hd
  have hd0 : 0 < d := by
    rw [hd]; unfold hdist
    rw [← (c58_haversine_great_circle _ _ _ _).1]
    have hpi := Real.pi_pos
    simp [utilsHaversine, atLon, radians, radiusEarth]
    rw [neg_div, Real.sin_neg, Real.sin_pi_div_two]; simp [hpi]
  let find : List DRow → Loc → ℝ → List Nat := fun data ref h =>
    (List.range data.length).filter (fun i => match data[i]? with | some r => decide (hdist ref r.loc ≤ h) | none => false)
  refine ⟨⟨some (d / 2), none, none, none⟩, find, ?_, ?_, ?_⟩
  · intro data ref ref' h h1 h2
    have e : hdist ref = hdist ref' := by funext p; simp only [hdist, h1, h2]
    simp only [find]; rw [e]
  · intro data ref h
    refine ⟨List.Nodup.filter _ List.nodup_range, fun i => ?_⟩
    simp only [find, List.mem_filter, List.mem_range]
    constructor
    · rintro ⟨hi, h1⟩
      rw [List.getElem?_eq_getElem hi] at h1
      exact ⟨_, List.getElem?_eq_getElem hi, by simpa using h1⟩
    · rintro ⟨r, hr, h1⟩
      refine ⟨(List.getElem?_eq_some_iff.1 hr).1, ?_⟩
      rw [hr]; simpa using h1
  · intro ht
    have := ht [.indexData [⟨atLon 0, 1⟩], .constrain (atLon 0) [⟨atLon 0, 1⟩]] [] [⟨atLon 180, 2⟩] (atLon 0) [⟨atLon 180, 2⟩]
      (by simp)
    have hh : horizontal ⟨some (d / 2), none, none, none⟩ = some (d / 2) := by
      unfold horizontal; simp only; rw [if_neg (by linarith)]
    have f1 : find [⟨atLon 0, 1⟩] (atLon 0) (d / 2) = [0] := by
      have : hdist (atLon 0) (atLon 0) ≤ d / 2 := by rw [hdist_self]; linarith
      simp [find, List.range_succ, this]
    have f2 : find [⟨atLon 180, 2⟩] (atLon 0) (d / 2) = [] := by
      have : ¬ hdist (atLon 0) (atLon 180) ≤ d / 2 := by rw [← hd]; linarith
      simp [find, List.range_succ, this]
    simp only [Obj.run, Obj.init, List.foldl_cons, List.foldl_nil, Obj.step, hh, fresh, kdConstrain] at this
    simp [cacheGet, cacheAdd, f1, f2, iloc, applyChecks, kdChecks] at this

/-- The hypotheses of `c57_same_data` are met with two lookups at the same position at different altitudes. -/
example : (((Obj.init.run ⟨some 5, some 1, none, none⟩ (fun T r h => if r.lat < h then List.range T.length else [])
      [.indexData [⟨atLon 0, 1⟩]]).step ⟨some 5, some 1, none, none⟩ (fun T r h => if r.lat < h then List.range T.length else [])
      (.indexData [⟨atLon 0, 1⟩])).1.run ⟨some 5, some 1, none, none⟩ (fun T r h => if r.lat < h then List.range T.length else [])
      [.constrain { atLon 0 with alt := 7 } [⟨atLon 0, 1⟩]] |>.step ⟨some 5, some 1, none, none⟩
      (fun T r h => if r.lat < h then List.range T.length else []) (.constrain (atLon 0) [⟨atLon 0, 1⟩])).2
    = some (fresh ⟨some 5, some 1, none, none⟩ (fun T r h => if r.lat < h then List.range T.length else []) [⟨atLon 0, 1⟩]
      (atLon 0) [⟨atLon 0, 1⟩]) :=
  c57_same_data _ _ (by intro data ref ref' h h1 _; simp only [h1]) _ _ _ _ _ (by simp) (by simp)

end Cis.Colloc
