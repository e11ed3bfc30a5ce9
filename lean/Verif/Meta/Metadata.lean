import Mathlib.Tactic
set_option linter.unusedSectionVars false
set_option linter.unusedSimpArgs false
/-!
Model of the metadata of ungridded data: `Metadata` (cis/data_io/ungridded_data.py:19-161), `LazyData.name` (220-226), `update_range`
(386-409) and `UngriddedData.summary` (711-731). Property C103.

Contract: `STD_NAMES` of Iris is a set of names with the five names of coordinates in it; `cf_units.Unit` parses some texts. Texts are lists
of characters; `str.lower` on characters.
-/
namespace Cis.Meta

abbrev Text := List Char

inductive Err
  | value
  | type
  | index
deriving DecidableEq

/-- `str.lower`. -/
def lower (s : Text) : Text := s.map Char.toLower

/-- `guess_standard_name` (ungridded_data.py:149-161). -/
def guess (name : Text) : Option Text :=
  if "lat".toList.isPrefixOf (lower name) then some "latitude".toList
  else if "lon".toList.isPrefixOf (lower name) then some "longitude".toList
  else if "alt".toList.isPrefixOf (lower name) || lower name = "height".toList then some "altitude".toList
  else if "pres".toList.isPrefixOf (lower name) || lower name = "air_pressure".toList then some "air_pressure".toList
  else if lower name = "time".toList then some "time".toList
  else none

/-- The setter of `standard_name` (ungridded_data.py:117-126). -/
def setStandard (std : Text → Bool) (s : Option Text) : Except Err (Option Text) :=
  match s with
  | none => .ok none
  | some x => if std x then .ok (some x) else .error .value

/-- The standard name after `Metadata(name=..., standard_name=...)` (ungridded_data.py:26-34); an empty text or None is false. -/
def initStandard (std : Text → Bool) (name standardName : Option Text) : Except Err (Option Text) :=
  match standardName with
  | some (c :: t) => setStandard std (some (c :: t))
  | _ => match name with
    | some (c :: t) => setStandard std (guess (c :: t))
    | _ => .ok (some [])

/-- Does a text contain another. -/
def contains (s pat : Text) : Bool := s.tails.any (fun u => pat.isPrefixOf u)

/-- `str.replace(pat, rep)`, at most `n` characters. -/
def replace (pat rep : Text) : Nat → Text → Text
  | 0, s => s
  | _ + 1, [] => []
  | n + 1, c :: t => if pat.isPrefixOf (c :: t) then rep ++ replace pat rep n ((c :: t).drop pat.length) else c :: replace pat rep n t

/-- The tidying of the text of units (ungridded_data.py:137-145). -/
def tidy (u : Text) : Text :=
  if contains (lower u) "since".toList then
    (replace "since:".toList "since".toList (lower u).length (lower u)).filter (fun c => c ≠ ',')
  else u.map (fun c => if c = '#' then '1' else c)

/-- The units stored (ungridded_data.py:133-147): a parsed unit, or the text that could not be parsed. -/
def setUnits {U : Type} (parse : Text → Option U) (u : Text) : U ⊕ Text :=
  match parse (tidy u) with
  | some x => .inl x
  | none => .inr (tidy u)

structure Metadata where
  name : Text
  standardName : Option Text
  longName : Text
  units : Text
deriving DecidableEq

/-- `__eq__` (ungridded_data.py:50-58). -/
def eq (a b : Metadata) : Bool :=
  a.name == b.name && a.standardName == b.standardName && a.longName == b.longName && a.units == b.units

/-- `__hash__` (ungridded_data.py:67-69), of an object with an identity. -/
def hash (x : Nat × Metadata) : Nat := x.1

/-- `LazyData.name` (ungridded_data.py:220-226). -/
def displayName (m : Metadata) (default : Text) : Text :=
  if m.standardName.getD [] ≠ [] then m.standardName.getD []
  else if m.longName ≠ [] then m.longName
  else if m.name ≠ [] then m.name else default

/-- A range of metadata: None, the empty tuple, or the two ends (masked if all values are missing). -/
inductive Range
  | absent
  | empty
  | ends (lo hi : Option ℚ)
deriving DecidableEq

/-- `update_range` without argument on values that are not times (ungridded_data.py:386-409): `min` of no values raises ValueError, of missing
ones only it is masked. -/
def updateRange (data : List (Option ℚ)) : Range :=
  if data = [] then .empty else .ends (data.filterMap id).min? (data.filterMap id).max?

/-- `Metadata.summary` (ungridded_data.py:71-96): only the access to `range[0]` can fail; the line of the range is given. -/
def summary (r : Range) : Except Err (Option ℚ × Option ℚ) :=
  match r with
  | .absent => .error .type
  | .empty => .error .index
  | .ends a b => .ok (a, b)

/-- `UngriddedData.summary` (ungridded_data.py:711-731) of data and coordinates in memory: the ranges of the data and of each coordinate,
updated when the data were processed (482-500). -/
def dataSummary (data : List (Option ℚ)) (coords : List (List (Option ℚ))) : Except Err (List (Option ℚ × Option ℚ)) :=
  match summary (updateRange data) with
  | .error e => .error e
  | .ok a => match coords.mapM (fun c => summary (updateRange c)) with
    | .error e => .error e
    | .ok l => .ok (a :: l)

/-! ### Specification -/

/-- The five names of coordinates. -/
def Spec.coordinateNames : List Text := ["latitude".toList, "longitude".toList, "altitude".toList, "air_pressure".toList, "time".toList]

/-! ### Proofs -/

theorem prefix_iff (p s : Text) : p.isPrefixOf s = true ↔ p <+: s := List.isPrefixOf_iff_prefix

/-- C103: a standard name that is given is kept, whatever the name; one that is not a standard name is refused. -/
theorem c103_explicit (std : Text → Bool) (name : Option Text) (s : Text) (hs : s ≠ []) :
    (std s = true → initStandard std name (some s) = .ok (some s)) ∧ (std s = false → initStandard std name (some s) = .error .value) := by
  cases s with
  | nil => exact absurd rfl hs
  | cons c t =>
    constructor
    · intro h; simp [initStandard, setStandard, h]
    · intro h; simp [initStandard, setStandard, h]

theorem guess_mem (name x : Text) (h : guess name = some x) : x ∈ Spec.coordinateNames := by
  unfold guess at h
  split at h
  · cases h; simp [Spec.coordinateNames]
  · split at h
    · cases h; simp [Spec.coordinateNames]
    · split at h
      · cases h; simp [Spec.coordinateNames]
      · split at h
        · cases h; simp [Spec.coordinateNames]
        · split at h
          · cases h; simp [Spec.coordinateNames]
          · cases h

/-- C103: the standard name of metadata is always a standard name, or there is none. -/
theorem c103_valid (std : Text → Bool) (hstd : ∀ x ∈ Spec.coordinateNames, std x = true) (name standardName : Option Text) (r : Option Text)
    (h : initStandard std name standardName = .ok r) : r = none ∨ r = some [] ∨ ∃ x, r = some x ∧ std x = true := by
  have hset : ∀ s, setStandard std s = .ok r → r = none ∨ r = some [] ∨ ∃ x, r = some x ∧ std x = true := by
    intro s hs
    unfold setStandard at hs
    split at hs
    · cases hs; exact Or.inl rfl
    · split at hs
      · rename_i hx; cases hs; exact Or.inr (Or.inr ⟨_, rfl, hx⟩)
      · cases hs
  unfold initStandard at h
  split at h
  · exact hset _ h
  · split at h
    · exact hset _ h
    · cases h; exact Or.inr (Or.inl rfl)

/-- C103: a name without a standard name never makes the metadata fail. -/
theorem c103_guess_total (std : Text → Bool) (hstd : ∀ x ∈ Spec.coordinateNames, std x = true) (name : Text) (hn : name ≠ []) :
    initStandard std (some name) none = .ok (guess name) := by
  cases name with
  | nil => exact absurd rfl hn
  | cons c t =>
    show setStandard std (guess (c :: t)) = _
    unfold setStandard
    cases h : guess (c :: t) with
    | none => rfl
    | some x => simp only [hstd x (guess_mem _ _ h), if_true]

theorem prefix_cons3 (a b c : Char) (s : Text) : [a, b, c] <+: s ↔ ∃ t, s = a :: b :: c :: t := by
  constructor
  · rintro ⟨t, rfl⟩; exact ⟨t, rfl⟩
  · rintro ⟨t, rfl⟩; exact ⟨t, rfl⟩

theorem prefix_cons4 (a b c d : Char) (s : Text) : [a, b, c, d] <+: s ↔ ∃ t, s = a :: b :: c :: d :: t := by
  constructor
  · rintro ⟨t, rfl⟩; exact ⟨t, rfl⟩
  · rintro ⟨t, rfl⟩; exact ⟨t, rfl⟩

/-- C103: without a standard name it is guessed: latitude and longitude for names that begin with lat or lon, altitude for alt or the name
height, air pressure for pres or the name air_pressure, time for the name time, in any case of letters, and none for all other names. -/
theorem c103_guess (name : Text) :
    (guess name = some "latitude".toList ↔ "lat".toList <+: lower name) ∧
    (guess name = some "longitude".toList ↔ "lon".toList <+: lower name) ∧
    (guess name = some "altitude".toList ↔ "alt".toList <+: lower name ∨ lower name = "height".toList) ∧
    (guess name = some "air_pressure".toList ↔ "pres".toList <+: lower name ∨ lower name = "air_pressure".toList) ∧
    (guess name = some "time".toList ↔ lower name = "time".toList) ∧
    (guess name = none ↔ ¬ ("lat".toList <+: lower name ∨ "lon".toList <+: lower name ∨ "alt".toList <+: lower name ∨
      lower name = "height".toList ∨ "pres".toList <+: lower name ∨ lower name = "air_pressure".toList ∨ lower name = "time".toList)) := by
  unfold guess
  generalize lower name = s
  simp only [Bool.or_eq_true, prefix_iff, decide_eq_true_eq]
  have e1 : "lat".toList = ['l', 'a', 't'] := by decide
  have e2 : "lon".toList = ['l', 'o', 'n'] := by decide
  have e3 : "alt".toList = ['a', 'l', 't'] := by decide
  have e4 : "pres".toList = ['p', 'r', 'e', 's'] := by decide
  have e5 : "height".toList = ['h', 'e', 'i', 'g', 'h', 't'] := by decide
  have e6 : "air_pressure".toList = ['a', 'i', 'r', '_', 'p', 'r', 'e', 's', 's', 'u', 'r', 'e'] := by decide
  have e7 : "time".toList = ['t', 'i', 'm', 'e'] := by decide
  have d1 : "latitude".toList = ['l', 'a', 't', 'i', 't', 'u', 'd', 'e'] := by decide
  have d2 : "longitude".toList = ['l', 'o', 'n', 'g', 'i', 't', 'u', 'd', 'e'] := by decide
  have d3 : "altitude".toList = ['a', 'l', 't', 'i', 't', 'u', 'd', 'e'] := by decide
  rw [e1, e2, e3, e4, e5, e6, e7, d1, d2, d3]
  simp only [prefix_cons3, prefix_cons4]
  by_cases h1 : ∃ t, s = 'l' :: 'a' :: 't' :: t
  · obtain ⟨t, rfl⟩ := h1
    simp
  by_cases h2 : ∃ t, s = 'l' :: 'o' :: 'n' :: t
  · obtain ⟨t, rfl⟩ := h2
    simp
  by_cases h3 : (∃ t, s = 'a' :: 'l' :: 't' :: t) ∨ s = ['h', 'e', 'i', 'g', 'h', 't']
  · rw [if_neg (by rw [prefix_cons3]; exact h1), if_neg (by rw [prefix_cons3]; exact h2), if_pos (by rw [prefix_cons3]; exact h3)]
    rcases h3 with ⟨t, rfl⟩ | rfl <;> simp
  by_cases h4 : (∃ t, s = 'p' :: 'r' :: 'e' :: 's' :: t) ∨ s = ['a', 'i', 'r', '_', 'p', 'r', 'e', 's', 's', 'u', 'r', 'e']
  · rw [if_neg (by rw [prefix_cons3]; exact h1), if_neg (by rw [prefix_cons3]; exact h2), if_neg (by rw [prefix_cons3]; exact h3),
      if_pos (by rw [prefix_cons4]; exact h4)]
    rcases h4 with ⟨t, rfl⟩ | rfl <;> simp
  by_cases h5 : s = ['t', 'i', 'm', 'e']
  · subst h5
    simp
  rw [if_neg (by rw [prefix_cons3]; exact h1), if_neg (by rw [prefix_cons3]; exact h2), if_neg (by rw [prefix_cons3]; exact h3),
    if_neg (by rw [prefix_cons4]; exact h4), if_neg h5]
  rw [not_or] at h3 h4
  simp [h1, h2, h3.1, h3.2, h4.1, h4.2, h5]

theorem contains_iff (s p : Text) : contains s p = true ↔ p <:+: s := by
  unfold contains
  rw [List.any_eq_true]
  constructor
  · rintro ⟨u, hu, h⟩
    rw [List.mem_tails] at hu
    exact ((prefix_iff _ _).1 h).isInfix.trans hu.isInfix
  · rintro ⟨a, b, rfl⟩
    refine ⟨p ++ b, ?_, (prefix_iff _ _).2 (List.prefix_append _ _)⟩
    rw [List.mem_tails, List.append_assoc]
    exact List.suffix_append _ _

theorem replace_none (pat rep : Text) (hp : pat ≠ []) : ∀ (n : Nat) (s : Text), ¬ pat <:+: s → replace pat rep n s = s
  | 0, _, _ => rfl
  | _ + 1, [], _ => rfl
  | n + 1, c :: t, h => by
    unfold replace
    rw [if_neg]
    · rw [replace_none pat rep hp n t (fun hi => h (hi.trans (List.suffix_cons c t).isInfix))]
    · intro hpre
      exact h ((prefix_iff _ _).1 hpre).isInfix

/-- C103: units: texts without `since` are kept but for `#`, which stands for the number 1; texts with `since` are written in small letters
and without commas, and without the colon after it. The text is parsed then, and kept as text if that fails. -/
theorem c103_units {U : Type} (parse : Text → Option U) (u : Text) :
    (¬ "since".toList <:+: lower u → tidy u = u.map (fun c => if c = '#' then '1' else c)) ∧
    ("since".toList <:+: lower u → ',' ∉ tidy u) ∧
    ("since".toList <:+: lower u → ¬ "since:".toList <:+: lower u → tidy u = (lower u).filter (fun c => c ≠ ',')) ∧
    (∀ x, setUnits parse u = .inl x ↔ parse (tidy u) = some x) ∧
    (∀ s, setUnits parse u = .inr s ↔ parse (tidy u) = none ∧ s = tidy u) := by
  refine ⟨?_, ?_, ?_, ?_, ?_⟩
  · intro h
    unfold tidy
    rw [if_neg (by rw [contains_iff]; exact h)]
  · intro h
    unfold tidy
    rw [if_pos (by rw [contains_iff]; exact h)]
    simp [List.mem_filter]
  · intro h h'
    unfold tidy
    rw [if_pos (by rw [contains_iff]; exact h), replace_none _ _ (by decide) _ _ h']
  · intro x
    unfold setUnits
    cases parse (tidy u) <;> simp
  · intro s
    unfold setUnits
    cases parse (tidy u) <;> simp [eq_comm]

theorem replace_colon : ∀ (a b : Text) (n : Nat), ¬ "since:".toList <:+: a ++ "since".toList → ¬ "since:".toList <:+: b →
    (a ++ "since:".toList ++ b).length ≤ n →
    replace "since:".toList "since".toList n (a ++ "since:".toList ++ b) = a ++ "since".toList ++ b
  | [], b, n, _, hb, hn => by
    cases n with
    | zero => simp at hn
    | succ n =>
      have e : ("since:".toList ++ b) = 's' :: ('i' :: 'n' :: 'c' :: 'e' :: ':' :: b) := rfl
      show replace _ _ (n + 1) ("since:".toList ++ b) = _
      rw [e]
      unfold replace
      rw [← e, if_pos ((prefix_iff _ _).2 (List.prefix_append _ _))]
      rw [List.drop_left, replace_none _ _ (by decide) _ _ hb]
      rfl
  | c :: t, b, n, ha, hb, hn => by
    cases n with
    | zero => simp at hn
    | succ n =>
      rw [List.cons_append, List.cons_append]
      unfold replace
      rw [if_neg, replace_colon t b n _ hb]
      · rfl
      · simp only [List.cons_append, List.length_cons] at hn; omega
      · intro h; exact ha (h.trans (List.suffix_cons c _).isInfix)
      · intro hp
        rw [prefix_iff] at hp
        apply ha
        -- the first six characters lie within `c :: t ++ since:`, so within `c :: t ++ since` (or give a second colon there)
        obtain ⟨r, hr⟩ := hp
        by_cases hl : 6 ≤ (c :: t ++ "since".toList).length
        · have h6 : (c :: (t ++ "since:".toList ++ b)).take 6 = "since:".toList := by rw [← hr]; exact List.take_left (l₁ := "since:".toList)
          have : (c :: t ++ "since".toList).take 6 = "since:".toList := by
            rw [← h6]
            have : c :: (t ++ "since:".toList ++ b) = (c :: t ++ "since".toList) ++ (':' :: b) := by simp
            rw [this, List.take_append_of_le_length hl]
          rw [← this]
          exact (List.take_prefix _ _).isInfix
        · exfalso
          apply hl
          simp

/-- C103: the colon after one `since` is dropped, all else is kept. -/
theorem c103_colon (a b : Text) (ha : ¬ "since:".toList <:+: lower a ++ "since".toList) (hb : ¬ "since:".toList <:+: lower b)
    (hc : ',' ∉ lower a ∧ ',' ∉ lower b) : tidy (a ++ "Since:".toList ++ b) = lower a ++ "since".toList ++ lower b := by
  have hl : lower (a ++ "Since:".toList ++ b) = lower a ++ "since:".toList ++ lower b := by
    unfold lower
    rw [List.map_append, List.map_append]
    rfl
  unfold tidy
  rw [hl, if_pos]
  · rw [replace_colon _ _ _ ha hb (le_refl _), List.filter_eq_self.2]
    intro x hx
    simp only [List.mem_append] at hx
    rcases hx with (hx | hx) | hx
    · simp only [ne_eq, decide_eq_true_eq]; rintro rfl; exact hc.1 hx
    · revert hx; simp only [ne_eq, decide_eq_true_eq]; intro hx e; subst e; revert hx; decide
    · simp only [ne_eq, decide_eq_true_eq]; rintro rfl; exact hc.2 hx
  · rw [contains_iff]
    exact ⟨lower a, ':' :: lower b, by simp⟩

/-- C103: equality of metadata is that of name, standard name, long name and units. -/
theorem c103_eq (a b : Metadata) : eq a b = true ↔ a = b := by
  cases a; cases b
  simp [eq, and_assoc]

/-- C103: the name shown is the standard name, else the long name, else the name, else the default. -/
theorem c103_name (m : Metadata) (d : Text) :
    (∀ s, m.standardName = some s → s ≠ [] → displayName m d = s) ∧
    (m.standardName.getD [] = [] → m.longName ≠ [] → displayName m d = m.longName) ∧
    (m.standardName.getD [] = [] → m.longName = [] → m.name ≠ [] → displayName m d = m.name) ∧
    (m.standardName.getD [] = [] → m.longName = [] → m.name = [] → displayName m d = d) := by
  refine ⟨?_, ?_, ?_, ?_⟩
  · intro s h hs; simp [displayName, h, hs]
  · intro h1 h2; simp [displayName, h1, h2]
  · intro h1 h2 h3; simp [displayName, h1, h2, h3]
  · intro h1 h2 h3; simp [displayName, h1, h2, h3]

/-- C103: data with at least one point, and coordinates alike, can be shown, each with its least and greatest value that is not missing. -/
theorem c103_summary (data : List (Option ℚ)) (coords : List (List (Option ℚ))) (hd : data ≠ []) (hc : ∀ c ∈ coords, c ≠ []) :
    ∃ l, dataSummary data coords = .ok l ∧ l.length = coords.length + 1 ∧
      ∀ (i : Nat) (v : List (Option ℚ)), (data :: coords)[i]? = some v → ∃ r, l[i]? = some r ∧
        (∀ x, r.1 = some x ↔ some x ∈ v ∧ ∀ y, some y ∈ v → x ≤ y) ∧ (∀ x, r.2 = some x ↔ some x ∈ v ∧ ∀ y, some y ∈ v → y ≤ x) := by
  have key : ∀ v : List (Option ℚ), v ≠ [] → summary (updateRange v) = .ok ((v.filterMap id).min?, (v.filterMap id).max?) := by
    intro v hv
    unfold updateRange
    rw [if_neg hv]
    rfl
  have hm : ∀ cs : List (List (Option ℚ)), (∀ c ∈ cs, c ≠ []) →
      cs.mapM (fun c => summary (updateRange c)) = .ok (cs.map (fun v => ((v.filterMap id).min?, (v.filterMap id).max?))) := by
    intro cs
    induction cs with
    | nil => intro _; rfl
    | cons c t ih =>
      intro h
      rw [List.mapM_cons, key c (h c (by simp)), ih (fun x hx => h x (by simp [hx]))]
      rfl
  refine ⟨(data :: coords).map (fun v => ((v.filterMap id).min?, (v.filterMap id).max?)), ?_, by simp, ?_⟩
  · unfold dataSummary
    rw [key data hd]
    simp only
    rw [hm coords hc]
    rfl
  · intro i v hv
    refine ⟨_, by rw [List.getElem?_map, hv]; rfl, ?_, ?_⟩
    · intro x
      simp only [List.min?_eq_some_iff, List.mem_filterMap, id, exists_eq_right]
    · intro x
      simp only [List.max?_eq_some_iff, List.mem_filterMap, id, exists_eq_right]

/-! ### Concrete cases, and where the property fails -/

example : initStandard (fun s => Spec.coordinateNames.contains s) (some "Lat_track".toList) none = .ok (some "latitude".toList) := by decide

example : tidy "Days Since: 1993-01-01, 00:00".toList = "days since 1993-01-01 00:00".toList := by decide

example : tidy "#/cm3".toList = "1/cm3".toList := by decide

example : dataSummary [some 3, none, some 1] [[some 10, some 20, some 30]] = .ok [(some 1, some 3), (some 10, some 30)] := by decide +kernel

/-- C103 is violated by quantities whose names begin like those of coordinates: they are taken for coordinates. -/
theorem c103_guess_violated : guess "latent_heat_flux".toList = some "latitude".toList ∧ guess "longwave_flux".toList = some "longitude".toList ∧
    guess "present_weather".toList = some "air_pressure".toList ∧ guess "alternative_retrieval".toList = some "altitude".toList := by decide

/-- C103 is violated by equal metadata: their hashes differ, so that both are kept in a set. -/
theorem c103_hash_violated (m : Metadata) : ∃ x y : Nat × Metadata, eq x.2 y.2 = true ∧ hash x ≠ hash y :=
  ⟨(0, m), (1, m), by rw [c103_eq], Nat.zero_ne_one⟩

/-- C103 is violated by data without points, which cannot be shown, and by metadata that belong to no data yet. -/
theorem c103_summary_violated (coords : List (List (Option ℚ))) : dataSummary [] coords = .error .index ∧
    summary .absent = .error .type := ⟨rfl, rfl⟩

end Cis.Meta
