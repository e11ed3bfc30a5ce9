import Verif.Meta.Metadata
set_option linter.unusedSectionVars false
set_option linter.unusedSimpArgs false
/-!
Model of the conversion to data frames: `UngriddedData.as_data_frame`, `UngriddedCoordinates.as_data_frame`,
`UngriddedDataList.as_data_frame`, `_coords_as_data_frame` and `_to_flat_ndarray` (cis/data_io/ungridded_data.py:608-622, 941-948, 1097-1122,
1155-1210). Property C104.

Contract (pandas): a frame has columns under different keys; a column assigned under a key that is there replaces it; all columns and the
index have the same length, otherwise ValueError. Times are given by numbers (`num2date` is injective), and a missing time (NaN) cannot be
converted. Arrays are given flattened in C order, missing values as `none`; whether they are copied is not modelled.
-/
namespace Cis.Frame
open Cis.Meta

inductive Err
  | value
  | index
deriving DecidableEq

structure Coord where
  /-- None or a name, which may be empty. -/
  standardName : Option Text
  data : List (Option ℚ)

structure Var where
  md : Metadata
  data : List (Option ℚ)

abbrev Col := List (Option ℚ)

structure Frame where
  index : Option (List ℚ)
  columns : List (Option Text × Col)
deriving DecidableEq

/-- Assignment under a key. -/
def assign (cols : List (Option Text × Col)) (key : Option Text) (v : Col) : List (Option Text × Col) :=
  if cols.any (fun p => p.1 == key) then cols.map (fun p => if p.1 = key then (key, v) else p) else cols ++ [(key, v)]

/-- `num2date` on all times. -/
def convert (d : Col) : Option (List ℚ) := d.mapM id

/-- The loop of `_coords_as_data_frame` (ungridded_data.py:1167-1184). -/
def loop (timeIndex : Bool) : List Coord → Option (List ℚ) → List (Option Text × Col) → Except Err (Option (List ℚ) × List (Option Text × Col))
  | [], time, cols => .ok (time, cols)
  | c :: t, time, cols =>
    if timeIndex ∧ c.standardName = some "time".toList then
      match convert c.data with
      | none => .error .value
      | some x => loop timeIndex t (some x) cols
    else loop timeIndex t time (assign cols c.standardName c.data)

/-- All columns and the index have one length. -/
def fits (index : Option (List ℚ)) (cols : List (Option Text × Col)) (n : Nat) : Bool :=
  cols.all (fun p => p.2.length == n) && (index.map (fun x => x.length == n)).getD true

/-- The number of rows of a frame. -/
def rows (index : Option (List ℚ)) (cols : List (Option Text × Col)) : Nat :=
  match index with
  | some x => x.length
  | none => match cols with
    | [] => 0
    | p :: _ => p.2.length

/-- `_coords_as_data_frame` (ungridded_data.py:1155-1186), and `UngriddedCoordinates.as_data_frame` (941-948). -/
def coordsFrame (timeIndex : Bool) (coords : List Coord) : Except Err Frame :=
  match loop timeIndex coords none [] with
  | .error e => .error e
  | .ok (time, cols) => if fits time cols (rows time cols) then .ok ⟨time, cols⟩ else .error .value

/-- `df[name] = data`: into a frame without columns and index any length fits. -/
def setColumn (f : Frame) (name : Text) (data : Col) : Except Err Frame :=
  if (f.index.isNone ∧ f.columns = []) ∨ data.length = rows f.index f.columns then .ok { f with columns := assign f.columns (some name) data }
  else .error .value

/-- `UngriddedData.as_data_frame` (ungridded_data.py:608-622). -/
def dataFrame (timeIndex : Bool) (name : Option Text) (coords : List Coord) (v : Var) : Except Err Frame :=
  match coordsFrame timeIndex coords with
  | .error e => .error e
  | .ok f => setColumn f (match name with
    | some (c :: t) => c :: t
    | _ => displayName v.md "unknown".toList) v.data

/-- The further columns of a list (ungridded_data.py:1114-1120). -/
def further (f : Frame) : List Var → Except Err Frame
  | [] => .ok f
  | v :: t => match setColumn f (displayName v.md "unknown".toList) v.data with
    | .error e => .error e
    | .ok g => further g t

/-- `UngriddedDataList.as_data_frame` (ungridded_data.py:1097-1122), with the coordinates of the first variable. -/
def listFrame (coords : List Coord) : List Var → Except Err Frame
  | [] => .error .index
  | v :: t => match dataFrame true none coords v with
    | .error e => .error e
    | .ok f => further f t

/-! ### Specification -/

/-- The column of a frame under a key. -/
def Spec.column (f : Frame) (key : Option Text) : Option Col := (f.columns.find? (fun p => p.1 == key)).map Prod.snd

/-- Coordinates of `n` points, with different standard names, and no missing time. -/
structure Spec.Regular (n : Nat) (coords : List Coord) : Prop where
  names : (coords.map Coord.standardName).Nodup
  length : ∀ c ∈ coords, c.data.length = n
  times : ∀ c ∈ coords, c.standardName = some "time".toList → none ∉ c.data

/-! ### Proofs -/

theorem assign_new (cols : List (Option Text × Col)) (key : Option Text) (v : Col) (h : key ∉ cols.map Prod.fst) :
    assign cols key v = cols ++ [(key, v)] := by
  unfold assign
  rw [if_neg]
  rw [List.any_eq_true]
  rintro ⟨p, hp, e⟩
  exact h (List.mem_map.2 ⟨p, hp, by simpa using e⟩)

theorem convert_some : ∀ (d : Col), none ∉ d → ∃ x, convert d = some x ∧ d = x.map some
  | [], _ => ⟨[], rfl, rfl⟩
  | none :: t, h => absurd (by simp) h
  | some a :: t, h => by
    obtain ⟨x, hx, e⟩ := convert_some t (fun hh => h (by simp [hh]))
    refine ⟨a :: x, ?_, by simp [e]⟩
    unfold convert at hx ⊢
    rw [List.mapM_cons, hx]
    rfl

theorem convert_none (d : Col) (h : none ∈ d) : convert d = none := by
  unfold convert
  induction d with
  | nil => cases h
  | cons a t ih =>
    rw [List.mapM_cons]
    rcases List.mem_cons.1 h with rfl | h
    · rfl
    · cases a with
      | none => rfl
      | some a =>
        rename_i h'
        rw [ih (by simpa using h)]; rfl

/-- The columns of regular coordinates. -/
def plain (timeIndex : Bool) (coords : List Coord) : List (Option Text × Col) :=
  (coords.filter (fun c => !(timeIndex && c.standardName == some "time".toList))).map (fun c => (c.standardName, c.data))

theorem loop_regular (timeIndex : Bool) : ∀ (coords : List Coord) (time : Option (List ℚ)) (cols : List (Option Text × Col)),
    (∀ c ∈ coords, c.standardName ∉ cols.map Prod.fst) → (coords.map Coord.standardName).Nodup →
    (∀ c ∈ coords, c.standardName = some "time".toList → none ∉ c.data) →
    ∃ time', loop timeIndex coords time cols = .ok (time', cols ++ plain timeIndex coords) ∧
      ((∀ c ∈ coords, c.standardName ≠ some "time".toList) ∨ timeIndex = false → time' = time) ∧
      (timeIndex = true → ∀ c ∈ coords, c.standardName = some "time".toList → ∃ x, time' = some x ∧ c.data = x.map some)
  | [], time, cols, _, _, _ => ⟨time, by simp [loop, plain], fun _ => rfl, by simp⟩
  | c :: t, time, cols, h, hn, ht => by
    rw [List.map_cons, List.nodup_cons] at hn
    unfold loop
    by_cases hc : timeIndex = true ∧ c.standardName = some "time".toList
    · rw [if_pos hc]
      obtain ⟨x, hx, e⟩ := convert_some c.data (ht c (by simp) hc.2)
      rw [hx]
      obtain ⟨time', h1, h2, h3⟩ := loop_regular timeIndex t (some x) cols (fun d hd => h d (by simp [hd])) hn.2
        (fun d hd => ht d (by simp [hd]))
      have hother : ∀ d ∈ t, d.standardName ≠ some "time".toList := by
        intro d hd e'
        apply hn.1
        rw [hc.2, ← e']
        exact List.mem_map.2 ⟨d, hd, rfl⟩
      refine ⟨time', ?_, ?_, ?_⟩
      · show loop timeIndex t (some x) cols = _
        rw [h1]
        simp [plain, hc.1, hc.2]
      · rintro (h' | h')
        · exact absurd hc.2 (h' c (by simp))
        · rw [hc.1] at h'; cases h'
      · intro _ d hd hd'
        rcases List.mem_cons.1 hd with rfl | hd
        · exact ⟨x, h2 (Or.inl hother), e⟩
        · exact absurd hd' (hother d hd)
    · rw [if_neg hc, assign_new _ _ _ (h c (by simp))]
      obtain ⟨time', h1, h2, h3⟩ := loop_regular timeIndex t time (cols ++ [(c.standardName, c.data)])
        (by
          intro d hd
          rw [List.map_append, List.mem_append, not_or]
          refine ⟨h d (by simp [hd]), ?_⟩
          simp only [List.map_cons, List.map_nil, List.mem_singleton]
          intro e
          apply hn.1
          rw [← e]
          exact List.mem_map.2 ⟨d, hd, rfl⟩) hn.2 (fun d hd => ht d (by simp [hd]))
      refine ⟨time', ?_, ?_, ?_⟩
      · rw [h1]
        have : (timeIndex && c.standardName == some "time".toList) = false := by
          rw [Bool.eq_false_iff]
          intro e
          rw [Bool.and_eq_true] at e
          exact hc ⟨e.1, by simpa using e.2⟩
        unfold plain
        rw [List.filter_cons_of_pos (by rw [this]; rfl), List.map_cons, List.append_assoc]
        rfl
      · rintro (h' | h')
        · exact h2 (Or.inl (fun d hd => h' d (by simp [hd])))
        · exact h2 (Or.inr h')
      · intro hti d hd hd'
        rcases List.mem_cons.1 hd with rfl | hd
        · exact absurd ⟨hti, hd'⟩ hc
        · exact h3 hti d hd hd'

theorem plain_length (timeIndex : Bool) (coords : List Coord) (n : Nat) (h : ∀ c ∈ coords, c.data.length = n) :
    ∀ p ∈ plain timeIndex coords, p.2.length = n := by
  intro p hp
  obtain ⟨c, hc, rfl⟩ := List.mem_map.1 hp
  exact h c (List.mem_filter.1 hc).1

theorem column_plain (timeIndex : Bool) : ∀ (coords : List Coord), (coords.map Coord.standardName).Nodup → ∀ c ∈ coords,
    ((plain timeIndex coords).find? (fun p => p.1 == c.standardName)).map Prod.snd =
      if timeIndex = true ∧ c.standardName = some "time".toList then none else some c.data
  | [], _, c, hc => by cases hc
  | d :: t, hn, c, hc => by
    rw [List.map_cons, List.nodup_cons] at hn
    have hcons : plain timeIndex (d :: t) =
        if timeIndex = true ∧ d.standardName = some "time".toList then plain timeIndex t
        else (d.standardName, d.data) :: plain timeIndex t := by
      unfold plain
      by_cases hd : timeIndex = true ∧ d.standardName = some "time".toList
      · rw [if_pos hd, List.filter_cons_of_neg (by simp [hd.1, hd.2])]
      · rw [if_neg hd, List.filter_cons_of_pos]
        · rfl
        · simp only [Bool.not_eq_true', Bool.and_eq_false_iff, beq_eq_false_iff_ne]
          by_cases hti : timeIndex = true
          · exact Or.inr (fun e => hd ⟨hti, e⟩)
          · exact Or.inl (by simpa using hti)
    have habsent : ∀ k, k ∉ t.map Coord.standardName → (plain timeIndex t).find? (fun p => p.1 == k) = none := by
      intro k hk
      rw [List.find?_eq_none]
      intro p hp e
      obtain ⟨x, hx, rfl⟩ := List.mem_map.1 hp
      exact hk (List.mem_map.2 ⟨x, (List.mem_filter.1 hx).1, by simpa using e⟩)
    rw [hcons]
    rcases List.mem_cons.1 hc with rfl | hc
    · by_cases hd : timeIndex = true ∧ c.standardName = some "time".toList
      · rw [if_pos hd, if_pos hd, habsent _ hn.1]; rfl
      · rw [if_neg hd, if_neg hd, List.find?_cons_of_pos (by simp)]; rfl
    · have hne : d.standardName ≠ c.standardName := fun e => hn.1 (by rw [e]; exact List.mem_map.2 ⟨c, hc, rfl⟩)
      by_cases hd : timeIndex = true ∧ d.standardName = some "time".toList
      · rw [if_pos hd]; exact column_plain timeIndex t hn.2 c hc
      · rw [if_neg hd, List.find?_cons_of_neg (by simpa using hne)]; exact column_plain timeIndex t hn.2 c hc

theorem coordsFrame_ok (timeIndex : Bool) (n : Nat) (coords : List Coord) (h : Spec.Regular n coords) :
    ∃ time, coordsFrame timeIndex coords = .ok ⟨time, plain timeIndex coords⟩ ∧
      ((∀ c ∈ coords, c.standardName ≠ some "time".toList) ∨ timeIndex = false → time = none) ∧
      (timeIndex = true → ∀ c ∈ coords, c.standardName = some "time".toList → ∃ x, time = some x ∧ c.data = x.map some) ∧
      (coords ≠ [] → rows time (plain timeIndex coords) = n) ∧
      (coords ≠ [] → ¬ (time.isNone ∧ plain timeIndex coords = [])) := by
  obtain ⟨time, e, h2, h3⟩ := loop_regular timeIndex coords none [] (by simp) h.names h.times
  rw [List.nil_append] at e
  have hp := plain_length timeIndex coords n h.length
  have htime : ∀ x, time = some x → x.length = n := by
    intro x hx
    by_cases hti : timeIndex = true
    · by_cases hex : ∃ c ∈ coords, c.standardName = some "time".toList
      · obtain ⟨c, hc, hs⟩ := hex
        obtain ⟨y, hy, hd⟩ := h3 hti c hc hs
        rw [hx] at hy
        cases hy
        have := h.length c hc
        rw [hd, List.length_map] at this
        exact this
      · have := h2 (Or.inl (fun c hc hs => hex ⟨c, hc, hs⟩))
        rw [hx] at this; cases this
    · have := h2 (Or.inr (by simpa using hti))
      rw [hx] at this; cases this
  have hnonempty : coords ≠ [] → ¬ (time.isNone ∧ plain timeIndex coords = []) := by
    rintro hne ⟨hn, hpl⟩
    obtain ⟨c, t, rfl⟩ : ∃ c t, coords = c :: t := by
      cases coords with
      | nil => exact absurd rfl hne
      | cons c t => exact ⟨c, t, rfl⟩
    have hcol := column_plain timeIndex (c :: t) h.names c (by simp)
    rw [hpl] at hcol
    by_cases hc : timeIndex = true ∧ c.standardName = some "time".toList
    · obtain ⟨x, hx, -⟩ := h3 hc.1 c (by simp) hc.2
      rw [hx] at hn; cases hn
    · rw [if_neg hc] at hcol; cases hcol
  have hrows : coords ≠ [] → rows time (plain timeIndex coords) = n := by
    intro hne
    unfold rows
    cases ht : time with
    | some x => exact htime x ht
    | none =>
      cases hpl : plain timeIndex coords with
      | nil => exact absurd ⟨by rw [ht]; rfl, hpl⟩ (hnonempty hne)
      | cons p q => exact hp p (by rw [hpl]; simp)
  refine ⟨time, ?_, h2, h3, hrows, hnonempty⟩
  unfold coordsFrame
  rw [e]
  simp only
  rw [if_pos]
  unfold fits
  rw [Bool.and_eq_true, List.all_eq_true]
  by_cases hne : coords = []
  · subst hne
    have := h2 (Or.inl (by simp))
    subst this
    exact ⟨by simp [plain], rfl⟩
  · rw [hrows hne]
    refine ⟨fun p hpp => by simp [hp p hpp], ?_⟩
    cases ht : time with
    | none => rfl
    | some x => simp [htime x ht]

/-- C104: coordinates of any number of points become a frame with one row for each point: the times are its index, every other coordinate
is a column under its standard name, missing values as missing. Without index all coordinates are columns. -/
theorem c104_coords (timeIndex : Bool) (n : Nat) (coords : List Coord) (h : Spec.Regular n coords) :
    ∃ f, coordsFrame timeIndex coords = .ok f ∧
      (∀ c ∈ coords, if timeIndex = true ∧ c.standardName = some "time".toList then f.index.map (List.map some) = some c.data
        else Spec.column f c.standardName = some c.data) ∧
      ((∀ c ∈ coords, c.standardName ≠ some "time".toList) ∨ timeIndex = false → f.index = none) := by
  obtain ⟨time, e, h2, h3, -, -⟩ := coordsFrame_ok timeIndex n coords h
  refine ⟨_, e, ?_, h2⟩
  intro c hc
  split
  · rename_i ht
    obtain ⟨x, hx, hd⟩ := h3 ht.1 c hc ht.2
    rw [hx, hd]; rfl
  · rename_i ht
    have := column_plain timeIndex coords h.names c hc
    rw [if_neg ht] at this
    exact this

theorem column_assign (f : Frame) (cols : List (Option Text × Col)) (hf : f.columns = cols) (key : Option Text) (v : Col) (k : Option Text) :
    Spec.column ⟨f.index, assign cols key v⟩ k = if k = key then some v else Spec.column f k := by
  unfold Spec.column assign
  rw [hf]
  simp only
  clear hf
  by_cases hany : cols.any (fun p => p.1 == key) = true
  · rw [if_pos hany]
    induction cols with
    | nil => cases hany
    | cons p t ih =>
      rw [List.map_cons]
      by_cases hp : p.1 = key
      · rw [if_pos hp]
        by_cases hk : k = key
        · rw [if_pos hk, List.find?_cons_of_pos (by simp [hk])]; rfl
        · rw [if_neg hk, List.find?_cons_of_neg (by simpa using fun e => hk e.symm), List.find?_cons_of_neg (by rw [hp]; simpa using fun e => hk e.symm)]
          by_cases ht : t.any (fun p => p.1 == key) = true
          · have := ih ht; rw [if_neg hk] at this; exact this
          · have : t.map (fun p => if p.1 = key then (key, v) else p) = t := by
              conv_rhs => rw [← List.map_id t]
              apply List.map_congr_left
              intro q hq
              rw [if_neg]
              · rfl
              · intro e
                exact ht (List.any_eq_true.2 ⟨q, hq, by simp [e]⟩)
            rw [this]
      · rw [if_neg hp]
        have ht : t.any (fun p => p.1 == key) = true := by
          rw [List.any_cons, Bool.or_eq_true] at hany
          exact hany.resolve_left (by simpa using hp)
        by_cases hk : p.1 = k
        · rw [List.find?_cons_of_pos (by simp [hk]), List.find?_cons_of_pos (by simp [hk]), if_neg (fun e => hp (hk.trans e))]
        · rw [List.find?_cons_of_neg (by simpa using hk), List.find?_cons_of_neg (by simpa using hk)]
          exact ih ht
  · rw [if_neg hany, List.find?_append]
    by_cases hk : k = key
    · subst hk
      rw [if_pos rfl]
      have : cols.find? (fun p => p.1 == k) = none := by
        rw [List.find?_eq_none]
        intro p hp e
        exact hany (List.any_eq_true.2 ⟨p, hp, e⟩)
      rw [this]
      simp
    · rw [if_neg hk]
      have : [(key, v)].find? (fun p => p.1 == k) = none := by
        rw [List.find?_cons_of_neg (by simpa using fun e => hk e.symm)]; rfl
      rw [this, Option.or_none]

theorem setColumn_ok (f : Frame) (name : Text) (d : Col) (h : (f.index.isNone ∧ f.columns = []) ∨ d.length = rows f.index f.columns) :
    ∃ g, setColumn f name d = .ok g ∧ g.index = f.index ∧ (∀ k, Spec.column g k = if k = some name then some d else Spec.column f k) ∧
      (rows f.index f.columns = d.length → rows g.index g.columns = d.length) ∧ g.columns ≠ [] ∧
      ((f.index.isNone ∧ f.columns = []) → rows g.index g.columns = d.length) := by
  refine ⟨{ f with columns := assign f.columns (some name) d }, by unfold setColumn; rw [if_pos h], rfl, fun k => column_assign f f.columns rfl _ _ _, ?_, ?_, ?_⟩
  · intro hr
    unfold rows at hr ⊢
    cases hi : f.index with
    | some x => simpa [hi] using hr
    | none =>
      simp only [hi] at hr ⊢
      cases hc : f.columns with
      | nil => rfl
      | cons p t =>
        rw [hc] at hr
        have hr : p.2.length = d.length := hr
        unfold assign
        by_cases hany : (p :: t).any (fun p => p.1 == some name) = true
        · rw [if_pos hany, List.map_cons]
          show (if p.1 = some name then (some name, d) else p).2.length = _
          split
          · rfl
          · exact hr
        · rw [if_neg hany]
          exact hr
  · show assign f.columns (some name) d ≠ []
    unfold assign
    split
    · rename_i ha
      intro e
      rw [List.map_eq_nil_iff] at e
      rw [e] at ha
      cases ha
    · simp
  · rintro ⟨h1, h2⟩
    rw [Option.isNone_iff_eq_none] at h1
    simp [rows, assign, h1, h2]

/-- C104: ungridded data become a frame with one row for each point: the times as index and the coordinates as columns, as above, and the
data, missing values as missing, under the name asked for, or else their own name. -/
theorem c104_data (timeIndex : Bool) (name : Option Text) (coords : List Coord) (v : Var) (hne : coords ≠ [])
    (h : Spec.Regular v.data.length coords) (key : Text)
    (hkey : key = match name with | some (c :: t) => c :: t | _ => displayName v.md "unknown".toList) :
    ∃ f, dataFrame timeIndex name coords v = .ok f ∧ Spec.column f (some key) = some v.data ∧
      (∀ c ∈ coords, if timeIndex = true ∧ c.standardName = some "time".toList then f.index.map (List.map some) = some c.data
        else c.standardName ≠ some key → Spec.column f c.standardName = some c.data) := by
  obtain ⟨time, e, h2, h3, h4, h5⟩ := coordsFrame_ok timeIndex v.data.length coords h
  obtain ⟨g, hg, gi, gc, -, -, -⟩ := setColumn_ok ⟨time, plain timeIndex coords⟩ key v.data (Or.inr (h4 hne).symm)
  refine ⟨g, ?_, ?_, ?_⟩
  · unfold dataFrame
    rw [e]
    simp only
    rw [← hkey]
    exact hg
  · rw [gc, if_pos rfl]
  · intro c hc
    split
    · rename_i ht
      obtain ⟨x, hx, hd⟩ := h3 ht.1 c hc ht.2
      rw [gi]
      show time.map _ = _
      rw [hx, hd]; rfl
    · rename_i ht
      intro hk
      rw [gc, if_neg hk]
      have := column_plain timeIndex coords h.names c hc
      rw [if_neg ht] at this
      exact this

theorem further_ok (n : Nat) : ∀ (vars : List Var) (f : Frame), rows f.index f.columns = n → (∀ v ∈ vars, v.data.length = n) →
    (vars.map (fun v => displayName v.md "unknown".toList)).Nodup →
    ∃ g, further f vars = .ok g ∧ g.index = f.index ∧
      (∀ v ∈ vars, Spec.column g (some (displayName v.md "unknown".toList)) = some v.data) ∧
      (∀ k, (∀ v ∈ vars, k ≠ some (displayName v.md "unknown".toList)) → Spec.column g k = Spec.column f k)
  | [], f, _, _, _ => ⟨f, rfl, rfl, by simp, fun _ _ => rfl⟩
  | v :: t, f, hr, hl, hn => by
    rw [List.map_cons, List.nodup_cons] at hn
    obtain ⟨g, hg, gi, gc, gr, -, -⟩ := setColumn_ok f (displayName v.md "unknown".toList) v.data
      (Or.inr (by rw [hl v (by simp), hr]))
    have hr' : rows g.index g.columns = n := by rw [gr (by rw [hr, hl v (by simp)]), hl v (by simp)]
    obtain ⟨g', h1, h2, h3, h4⟩ := further_ok n t g hr' (fun x hx => hl x (by simp [hx])) hn.2
    refine ⟨g', ?_, by rw [h2, gi], ?_, ?_⟩
    · unfold further; rw [hg]; exact h1
    · intro x hx
      rcases List.mem_cons.1 hx with rfl | hx
      · rw [h4, gc, if_pos rfl]
        intro y hy e
        apply hn.1
        rw [Option.some.inj e]
        exact List.mem_map.2 ⟨y, hy, rfl⟩
      · exact h3 x hx
    · intro k hk
      rw [h4 k (fun x hx => hk x (by simp [hx])), gc, if_neg (hk v (by simp))]

/-- C104: a list of variables on the same points becomes a frame with the times as index, the coordinates as columns, and a column for each
variable under its name, when the names differ from each other and from those of the coordinates. -/
theorem c104_list (coords : List Coord) (vars : List Var) (n : Nat) (hne : coords ≠ []) (hv : vars ≠ []) (h : Spec.Regular n coords)
    (hl : ∀ v ∈ vars, v.data.length = n) (hn : (vars.map (fun v => displayName v.md "unknown".toList)).Nodup)
    (hd : ∀ v ∈ vars, ∀ c ∈ coords, c.standardName ≠ some (displayName v.md "unknown".toList)) :
    ∃ f, listFrame coords vars = .ok f ∧
      (∀ v ∈ vars, Spec.column f (some (displayName v.md "unknown".toList)) = some v.data) ∧
      (∀ c ∈ coords, if c.standardName = some "time".toList then f.index.map (List.map some) = some c.data
        else Spec.column f c.standardName = some c.data) := by
  cases vars with
  | nil => exact absurd rfl hv
  | cons v t =>
    rw [List.map_cons, List.nodup_cons] at hn
    obtain ⟨time, e, h2, h3, h4, h5⟩ := coordsFrame_ok true n coords h
    obtain ⟨g, hg, gi, gc, gr, -, -⟩ := setColumn_ok ⟨time, plain true coords⟩ (displayName v.md "unknown".toList) v.data
      (Or.inr (by rw [hl v (by simp)]; exact (h4 hne).symm))
    have hr' : rows g.index g.columns = n := by
      rw [gr (by rw [hl v (by simp)]; exact h4 hne), hl v (by simp)]
    obtain ⟨g', k1, k2, k3, k4⟩ := further_ok n t g hr' (fun x hx => hl x (by simp [hx])) hn.2
    refine ⟨g', ?_, ?_, ?_⟩
    · unfold listFrame dataFrame
      rw [e]
      simp only
      rw [hg]
      exact k1
    · intro x hx
      rcases List.mem_cons.1 hx with rfl | hx
      · rw [k4, gc, if_pos rfl]
        intro y hy e'
        apply hn.1
        rw [Option.some.inj e']
        exact List.mem_map.2 ⟨y, hy, rfl⟩
      · exact k3 x hx
    · intro c hc
      split
      · rename_i ht
        obtain ⟨x, hx, hd'⟩ := h3 rfl c hc ht
        rw [k2, gi]
        show time.map _ = _
        rw [hx, hd']; rfl
      · rename_i ht
        rw [k4 _ (fun x hx => hd x (by simp [hx]) c hc), gc, if_neg (hd v (by simp) c hc)]
        have := column_plain true coords h.names c hc
        rw [if_neg (fun hh => ht hh.2)] at this
        exact this

/-! ### Concrete cases, and where the property fails -/

def lonC : Coord := ⟨some "longitude".toList, [some 10, some 20]⟩
def latC : Coord := ⟨some "latitude".toList, [some 50, none]⟩
def timeC : Coord := ⟨some "time".toList, [some 1, some 2]⟩

def rain : Var := ⟨⟨"rain".toList, none, "Rain".toList, []⟩, [some 7, none]⟩

example : dataFrame true none [lonC, latC, timeC] rain =
    .ok ⟨some [1, 2], [(some "longitude".toList, [some 10, some 20]), (some "latitude".toList, [some 50, none]),
      (some "Rain".toList, [some 7, none])]⟩ := by decide +kernel

example : Spec.Regular 2 [lonC, latC, timeC] := ⟨by decide, by simp [lonC, latC, timeC], by
  intro c hc ht
  simp only [List.mem_cons, List.not_mem_nil, or_false] at hc
  rcases hc with rfl | rfl | rfl
  · exact absurd ht (by decide)
  · exact absurd ht (by decide)
  · decide⟩

/-- C104 is violated by coordinates without standard names: all but the last of them are lost. -/
theorem c104_unnamed_violated : coordsFrame true [⟨none, [some 1]⟩, ⟨none, [some 2]⟩] = .ok ⟨none, [(none, [some 2])]⟩ := by decide +kernel

/-- C104 is violated by data named like a coordinate, such as the longwave flux, which is given the standard name longitude: the column of the
longitudes is replaced by the data. -/
theorem c104_replaced_violated : guess "longwave_flux".toList = some "longitude".toList ∧
    dataFrame true none [lonC] ⟨⟨"longwave_flux".toList, guess "longwave_flux".toList, [], []⟩, [some 300, some 400]⟩ =
      .ok ⟨none, [(some "longitude".toList, [some 300, some 400])]⟩ := by decide +kernel

/-- C104 is violated by two variables of one name: the first is lost. -/
theorem c104_same_name_violated : listFrame [lonC] [rain, ⟨rain.md, [some 8, some 9]⟩] =
    .ok ⟨none, [(some "longitude".toList, [some 10, some 20]), (some "Rain".toList, [some 8, some 9])]⟩ := by decide +kernel

/-- C104 is violated by a missing time, with which no frame is made, and by the empty list. -/
theorem c104_time_violated (coords : List Coord) (c : Coord) (hc : c.standardName = some "time".toList) (h : none ∈ c.data) :
    coordsFrame true (c :: coords) = .error .value ∧ listFrame coords [] = .error .index := by
  constructor
  · unfold coordsFrame loop
    rw [if_pos ⟨rfl, hc⟩, convert_none _ h]
  · rfl

end Cis.Frame
