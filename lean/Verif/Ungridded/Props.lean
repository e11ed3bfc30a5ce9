import Verif.Ungridded.Spec
import Verif.Coords.Props
import Verif.Hyper.Views
set_option linter.unusedSectionVars false
set_option linter.unusedSimpArgs false
/-! Properties C43 (removal of points with missing coordinates) and C68 (points to data and back). -/
namespace Cis.Ungridded
open Cis.Coords
variable {K V : Type}

/-! ### Lemmas -/

theorem compress_eq {β : Type} (mask : List Bool) (x : List β) (h : mask.length = x.length) :
    compress mask x = Spec.select ((List.range x.length).filter (fun i => mask[i]? == some false)) x := by
  induction x generalizing mask with
  | nil => simp [compress, Spec.select]
  | cons a x ih =>
    cases mask with
    | nil => simp at h
    | cons m mask =>
      have ih' := ih mask (by simpa using h)
      rw [List.length_cons, List.range_succ_eq_map]
      have hshift : Spec.select (((List.range x.length).map Nat.succ).filter (fun i => (m :: mask)[i]? == some false)) (a :: x) =
          Spec.select ((List.range x.length).filter (fun i => mask[i]? == some false)) x := by
        rw [List.filter_map, Spec.select, List.filterMap_map, Spec.select]
        congr 1
      cases m with
      | true =>
        rw [List.filter_cons, if_neg (by simp), hshift, ← ih']
        simp [compress]
      | false =>
        rw [List.filter_cons, if_pos (by simp), Spec.select, List.filterMap_cons]
        simp only [List.getElem?_cons_zero]
        rw [← Spec.select, hshift, ← ih']
        simp [compress]

theorem combined_length (coords : List (Coord (Vals K))) (m : List Bool) (h : ∀ c ∈ coords, c.payload.cells.length = m.length) :
    (coords.foldl (fun m c => List.zipWith (· || ·) m (c.payload.cells.map (bad c.payload.object))) m).length = m.length := by
  induction coords generalizing m with
  | nil => rfl
  | cons c cs ih =>
    rw [List.foldl_cons, ih]
    · simp [h c (by simp)]
    · intro d hd
      simp [h c (by simp), h d (by simp [hd])]

theorem combined_get (coords : List (Coord (Vals K))) (m : List Bool) (h : ∀ c ∈ coords, c.payload.cells.length = m.length)
    (i : Nat) :
    (coords.foldl (fun m c => List.zipWith (· || ·) m (c.payload.cells.map (bad c.payload.object))) m)[i]? = some false ↔
      m[i]? = some false ∧ ∀ c ∈ coords, Spec.ValidAt c i := by
  induction coords generalizing m with
  | nil => simp
  | cons c cs ih =>
    have hlen : (List.zipWith (· || ·) m (c.payload.cells.map (bad c.payload.object))).length = m.length := by
      simp [h c (by simp)]
    rw [List.foldl_cons, ih _ (by intro d hd; rw [hlen]; exact h d (by simp [hd])), List.forall_mem_cons, ← and_assoc]
    apply and_congr_left'
    rw [List.getElem?_zipWith, List.getElem?_map]
    unfold Spec.ValidAt
    cases hm : m[i]? with
    | none => simp
    | some b =>
      cases hc : c.payload.cells[i]? with
      | none => simp
      | some x =>
        cases x <;> cases b <;> simp [bad]

theorem combinedMask_length (n : Nat) (coords : List (Coord (Vals K))) (h : ∀ c ∈ coords, c.payload.cells.length = n) :
    (combinedMask n coords).length = n := by
  rw [combinedMask, combined_length _ _ (by simpa using h)]; simp

theorem combinedMask_get (n : Nat) (coords : List (Coord (Vals K))) (h : ∀ c ∈ coords, c.payload.cells.length = n) (i : Nat) :
    (combinedMask n coords)[i]? = some false ↔ i < n ∧ ∀ c ∈ coords, Spec.ValidAt c i := by
  rw [combinedMask, combined_get _ _ (by simpa using h)]
  apply and_congr_left'
  rw [List.getElem?_replicate]
  split <;> simp_all

theorem kept_eq (n : Nat) (coords : List (Coord (Vals K))) (h : ∀ c ∈ coords, c.payload.cells.length = n) :
    (List.range n).filter (fun i => (combinedMask n coords)[i]? == some false) = Spec.kept n coords := by
  rw [Spec.kept]
  apply List.filter_congr
  intro i hi
  rw [Bool.eq_iff_iff, beq_iff_eq, combinedMask_get n coords h]
  simp [List.mem_range.1 hi]

theorem select_all {β : Type} (x : List β) : Spec.select (List.range x.length) x = x := by
  induction x with
  | nil => rfl
  | cons a x ih =>
    rw [List.length_cons, List.range_succ_eq_map, Spec.select, List.filterMap_cons, List.filterMap_map]
    simp only [List.getElem?_cons_zero]
    congr 1

theorem kept_all (n : Nat) (coords : List (Coord (Vals K))) (h : ∀ c ∈ coords, c.payload.cells.length = n)
    (hm : (combinedMask n coords).any id = false) : Spec.kept n coords = List.range n := by
  rw [← kept_eq n coords h, List.filter_eq_self]
  intro i hi
  have hlt : i < (combinedMask n coords).length := by rw [combinedMask_length n coords h]; exact List.mem_range.1 hi
  rw [List.any_eq_false] at hm
  have := hm _ (List.getElem_mem hlt)
  simp only [id, Bool.not_eq_true] at this
  rw [List.getElem?_eq_getElem hlt, this]; rfl

/-! ### The property -/

/-- C43. Loading keeps exactly the points all of whose coordinates are valid, in order, and the values of the data and of all
coordinates at these points; metadata of coordinates are unchanged; arrays of different sizes raise an error. (A NaN in a
coordinate of dtype `object` counts as valid here, see `c43_object_violated`.) -/
theorem c43_post_process (u : UG K V) :
    postProcess u =
      if ∀ c ∈ u.coords, c.payload.cells.length = u.data.length then
        some ⟨Spec.select (Spec.kept u.data.length u.coords) u.data, u.flat,
          u.coords.map (fun c => { c with payload := ⟨c.payload.object,
            Spec.select (Spec.kept u.data.length u.coords) c.payload.cells⟩ })⟩
      else none := by
  rw [postProcess]
  by_cases h : ∀ c ∈ u.coords, c.payload.cells.length = u.data.length
  · rw [if_pos h, if_pos h]
    simp only
    by_cases hm : (combinedMask u.data.length u.coords).any id = true
    · rw [if_pos hm]
      have hlen := combinedMask_length _ _ h
      congr 2
      · rw [compress_eq _ _ hlen, kept_eq _ _ h]
      · apply List.map_congr_left
        intro c hc
        rw [compressCoord, compress_eq _ _ (by rw [hlen, h c hc]), h c hc, kept_eq _ _ h]
    · rw [if_neg hm, kept_all _ _ h (by simpa using hm), select_all]
      congr 1
      obtain ⟨d, f, cs⟩ := u
      simp only [UG.mk.injEq, true_and]
      rw [List.map_congr_left (g := id), List.map_id]
      intro c hc
      rw [show d.length = c.payload.cells.length from (h c hc).symm, select_all]
      rfl
  · rw [if_neg h, if_neg h]

/-- C43. The remaining points have no masked element in any coordinate, and NaNs only in `object` coordinates. -/
theorem c43_all_valid (u u' : UG K V) (h : postProcess u = some u') (c : Coord (Vals K)) (hc : c ∈ u'.coords) :
    ∀ x ∈ c.payload.cells, x ≠ .masked ∧ (x = .nan → c.payload.object = true) := by
  rw [c43_post_process] at h
  split at h
  · cases h
    rw [List.mem_map] at hc
    obtain ⟨d, hd, rfl⟩ := hc
    intro x hx
    simp only [Spec.select, List.mem_filterMap] at hx
    obtain ⟨i, hi, hx⟩ := hx
    simp only [Spec.kept, List.mem_filter, decide_eq_true_eq] at hi
    obtain ⟨y, hy, h1, h2⟩ := hi.2 d hd
    rw [hy] at hx; cases hx
    exact ⟨h1, h2⟩
  · cases h

/-- C43. Data and coordinates remain of the same size. -/
theorem c43_aligned (u u' : UG K V) (h : postProcess u = some u') :
    ∀ c ∈ u'.coords, c.payload.cells.length = u'.data.length := by
  rw [c43_post_process] at h
  split at h
  · rename_i hl
    cases h
    intro c hc
    rw [List.mem_map] at hc
    obtain ⟨d, hd, rfl⟩ := hc
    have key : ∀ {β : Type} (x : List β), x.length = u.data.length →
        (Spec.select (Spec.kept u.data.length u.coords) x).length = (Spec.kept u.data.length u.coords).length := by
      intro β x hx
      rw [Spec.select]
      have : ∀ l : List Nat, (∀ i ∈ l, i < x.length) → (l.filterMap (x[·]?)).length = l.length := by
        intro l
        induction l with
        | nil => intro _; rfl
        | cons a l ih =>
          intro hl
          rw [List.filterMap_cons, List.getElem?_eq_getElem (hl a (by simp))]
          simp [ih (fun i hi => hl i (by simp [hi]))]
      apply this
      intro i hi
      simp only [Spec.kept, List.mem_filter, List.mem_range] at hi
      rw [hx]; exact hi.1
    simp only
    rw [key _ (hl d hd), key _ rfl]
  · cases h

/-- C43. Doing it again changes nothing. -/
theorem c43_idempotent (u u' : UG K V) (h : postProcess u = some u') : postProcess u' = some u' := by
  have h1 := c43_aligned u u' h
  have h2 := c43_all_valid u u' h
  rw [postProcess, if_pos h1]
  simp only
  rw [if_neg]
  intro hm
  rw [List.any_eq_true] at hm
  obtain ⟨b, hb, hb'⟩ := hm
  obtain ⟨i, hi, rfl⟩ := List.getElem_of_mem hb
  have hlen := combinedMask_length _ _ h1
  have : (combinedMask u'.data.length u'.coords)[i]? = some false := by
    rw [combinedMask_get _ _ h1]
    refine ⟨by rw [← hlen]; exact hi, ?_⟩
    intro c hc
    have hic : i < c.payload.cells.length := by rw [h1 c hc, ← hlen]; exact hi
    have := h2 c hc _ (List.getElem_mem hic)
    exact ⟨_, List.getElem?_eq_getElem hic, this.1, this.2⟩
  rw [List.getElem?_eq_getElem hi] at this
  simp only [Option.some.injEq] at this
  rw [this] at hb'
  simp at hb'

/-- C43. The same for coordinates without data: exactly the points with valid coordinates remain. -/
theorem c43_coordinates (c : Coord (Vals K)) (cs : List (Coord (Vals K)))
    (h : ∀ d ∈ c :: cs, d.payload.cells.length = c.payload.cells.length) :
    coordsPostProcess (c :: cs) = some ((c :: cs).map (fun d => { d with payload := ⟨d.payload.object,
      Spec.select (Spec.kept c.payload.cells.length (c :: cs)) d.payload.cells⟩ })) := by
  have := c43_post_process (V := Unit) ⟨c.payload.cells.map (fun _ => ((), false)), none, c :: cs⟩
  rw [postProcess] at this
  simp only [List.length_map] at this
  rw [if_pos h, if_pos h] at this
  rw [coordsPostProcess, if_pos h]
  simp only at this ⊢
  split at this
  · rename_i hm
    rw [if_pos hm]
    simp only [Option.some.injEq, UG.mk.injEq] at this
    rw [this.2.2]
  · rename_i hm
    rw [if_neg hm]
    simp only [Option.some.injEq, UG.mk.injEq] at this
    rw [← this.2.2]

-- a non-trivial case: three points, the second without latitude, the third with a masked time; the value of the first is masked
example : postProcess (⟨[((10 : ℚ), true), (20, false), (30, false), (40, false)], none,
    [⟨some "latitude", none, none, "Y", [], ⟨false, [.val (1 : ℚ), .nan, .val 3, .val 4]⟩⟩,
     ⟨some "time", none, none, "T", [], ⟨false, [.val 5, .val 6, .masked, .val 8]⟩⟩]⟩ : UG ℚ ℚ) =
  some ⟨[(10, true), (40, false)], none,
    [⟨some "latitude", none, none, "Y", [], ⟨false, [.val 1, .val 4]⟩⟩,
     ⟨some "time", none, none, "T", [], ⟨false, [.val 5, .val 8]⟩⟩]⟩ := by decide +kernel

/-! ### Violations -/

/-- C43 is violated: a NaN in a coordinate of dtype `object` is not removed. -/
theorem c43_object_violated :
    ∃ u u' : UG ℚ ℚ, postProcess u = some u' ∧ ∃ c ∈ u'.coords, Cell.nan ∈ c.payload.cells := by
  refine ⟨⟨[(1, false)], none, [⟨some "time", none, none, "T", [], ⟨true, [.nan]⟩⟩]⟩, _, rfl, _, List.mem_singleton_self _, ?_⟩
  decide

/-- C43 is violated: coordinates shared by two data objects are shortened by the first, and the second cannot be made. -/
theorem c43_shared_coords_violated :
    ∃ (cs : List (Coord (Vals ℚ))) (d : List (ℚ × Bool)), (∀ c ∈ cs, c.payload.cells.length = d.length) ∧
      ∃ u, make d cs = some u ∧ (make d u.coords : Option (UG ℚ ℚ)) = none := by
  refine ⟨[⟨some "latitude", none, none, "Y", [], ⟨false, [.val 1, .nan]⟩⟩], [(5, false), (6, false)], by decide,
    ⟨[(5, false)], none, [⟨some "latitude", none, none, "Y", [], ⟨false, [.val 1]⟩⟩]⟩, by decide +kernel, by decide +kernel⟩

/-- C43 is violated: after `data_flattened` was read and a coordinate was changed to have a NaN, the points got have the coordinates
of the remaining points and the values of all. -/
theorem c43_stale_points_violated :
    ∃ (u : UG ℚ ℚ), (∃ d cs, make d cs = some u) ∧
      ∃ u' v, getAllPoints (setCoord (dataFlattened u).1 0 [.nan, .val 2]) = some (u', v) ∧
        v.lat = some [.val 2] ∧ v.data = some [(5, false), (6, false)] ∧ u'.data = [(6, false)] := by
  refine ⟨⟨[(5, false), (6, false)], none, [⟨some "latitude", none, none, "Y", [], ⟨false, [.val 1, .val 2]⟩⟩,
      ⟨some "time", none, none, "T", [], ⟨false, [.val 8, .val 9]⟩⟩]⟩,
    ⟨[(5, false), (6, false)], [⟨some "latitude", none, none, "Y", [], ⟨false, [.val 1, .val 2]⟩⟩,
      ⟨some "time", none, none, "T", [], ⟨false, [.val 8, .val 9]⟩⟩], by decide +kernel⟩,
    _, _, rfl, by decide +kernel, by decide +kernel, by decide +kernel⟩

/-- C43. If `data_flattened` has not been read (or is that of the data, and all coordinates are valid), the points got are aligned: all
coordinates and the values have the size of the data. -/
theorem c43_points_aligned (u u' : UG K V) (v : Hyper.UView (Cell K) V)
    (hf : u.flat = none ∨ (u.flat = some u.data ∧ postProcess u = some u))
    (h : getAllPoints u = some (u', v)) : Hyper.Spec.Aligned v u'.data.length ∧ v.data = some u'.data := by
  rw [getAllPoints, Option.map_eq_some_iff] at h
  obtain ⟨w, hw, he⟩ := h
  have hd : (dataFlattened w).2 = w.data ∧ (dataFlattened w).1.data = w.data := by
    have hwf : w.flat = none ∨ w.flat = some w.data := by
      rcases hf with hf | ⟨hf, hp⟩
      · left
        rw [c43_post_process] at hw
        split at hw
        · cases hw; exact hf
        · cases hw
      · right
        rw [hp] at hw; cases hw; exact hf
    unfold dataFlattened
    rcases hwf with h | h <;> rw [h] <;> exact ⟨rfl, rfl⟩
  simp only [Prod.mk.injEq] at he
  obtain ⟨rfl, rfl⟩ := he
  rw [hd.2]
  have hal := c43_aligned u w hw
  have mem : ∀ (n : Nat) (l : List (Cell K)),
      ((findStandardCoords w.coords)[n]?.join).map (fun c => c.payload.cells) = some l → l.length = w.data.length := by
    intro n l hl
    rw [Option.map_eq_some_iff] at hl
    obtain ⟨c, hc, rfl⟩ := hl
    rw [Option.join_eq_some_iff] at hc
    have hc2 : some c ∈ findStandardCoords w.coords := List.mem_of_getElem? hc
    rw [findStandardCoords, List.mem_map] at hc2
    obtain ⟨nm, -, hc3⟩ := hc2
    apply hal
    rw [tryStandard] at hc3
    cases hg : getCoord w.coords { stdName := some nm } with
    | error e => rw [hg] at hc3; cases hc3
    | ok y =>
      rw [hg] at hc3; cases hc3
      rw [c45_get_coord_exact] at hg
      rcases hg with hg | ⟨-, ⟨-, hg⟩ | ⟨n, hn, -⟩⟩
      · rw [getCoords_std] at hg
        have : c ∈ List.filter (fun x => x.stdName == some nm) w.coords := by rw [hg]; simp
        exact (List.mem_filter.1 this).1
      · rw [hg]; simp
      · cases hn
  refine ⟨⟨fun l hl => mem 0 l hl, fun l hl => mem 1 l hl, fun l hl => mem 2 l hl, fun l hl => mem 3 l hl, fun l hl => mem 4 l hl, ?_⟩, ?_⟩
  · intro l hl
    simp only [Option.some.injEq] at hl
    rw [← hl, hd.1]
  · simp only [hd.1]

/-- C70. The size of bare coordinates is the number of points. Missing: lists of one coordinate. -/
theorem c70_coords_size (coords : List (Coord (Vals K))) (n : Nat) (h : ∀ c ∈ coords, c.payload.cells.length = n)
    (h2 : 2 ≤ coords.length) : coordsSize coords = n := by
  match coords, h2 with
  | c :: d :: t, _ => simp [coordsSize, h c (by simp)]

/-- C70 is violated: with one coordinate the size is said to be 0. -/
theorem c70_coords_size_violated (c : Coord (Vals K)) : coordsSize [c] = 0 := rfl

/-! ### Points to data and back -/

theorem find_pointCoords (lat : List K) (lon pres alt time : Option (List K))
    (h : lon.isSome ∨ pres.isSome ∨ alt.isSome ∨ time.isSome) :
    (findStandardCoords (pointCoords (some lat) lon pres alt time)).map (Option.map (fun c => c.payload.cells)) =
      [some (lat.map .val), lon.map (·.map .val), alt.map (·.map .val), pres.map (·.map .val), time.map (·.map .val)] := by
  cases lon <;> cases pres <;> cases alt <;> cases time <;>
    first
    | (simp at h; done)
    | simp [findStandardCoords, standardNames, pointCoords, stdCoord, tryStandard, getCoord, getCoords_std, fallback, exactlyOne]

/-- All points have the same coordinates as the first and one value. -/
def Uniform (ps : List (Hyper.HP K V)) : Prop :=
  ∀ p ∈ ps, ∀ q ∈ ps, (p.lat.isSome = q.lat.isSome) ∧ (p.lon.isSome = q.lon.isSome) ∧ (p.alt.isSome = q.alt.isSome) ∧
    (p.pres.isSome = q.pres.isSome) ∧ (p.time.isSome = q.time.isSome) ∧ p.val.length = 1

/-- A point with the elements of arrays in place of numbers. -/
def lift (p : Hyper.HP K V) : Hyper.HP (Cell K) (V × Bool) :=
  ⟨p.lat.map .val, p.lon.map .val, p.alt.map .val, p.pres.map .val, p.time.map .val, p.val.map (fun v => (v, false))⟩

theorem column_get (nanK : K) (get : Hyper.HP K V → Option K) (ps : List (Hyper.HP K V)) (hne : ps ≠ [])
    (hu : ∀ p ∈ ps, ∀ q ∈ ps, (get p).isSome = (get q).isSome) :
    (∀ l, Hyper.column nanK get ps = some l → l.length = ps.length) ∧
    (∀ p ∈ ps, (get p).isSome = (Hyper.column nanK get ps).isSome) ∧
    ∀ (i : Nat) (p : Hyper.HP K V), ps[i]? = some p →
      ((Hyper.column nanK get ps).map (·.map Cell.val)).bind (·[i]?) = (get p).map Cell.val := by
  match ps, hne with
  | q :: qs, _ =>
    cases hq : get q with
    | none =>
      have hcol : Hyper.column nanK get (q :: qs) = none := by simp only [Hyper.column, hq]
      rw [hcol]
      refine ⟨by simp, ?_, ?_⟩
      · intro p hp; rw [hu p hp q (by simp), hq]; rfl
      · intro i p hp
        have : get p = none := by
          have := hu p (List.mem_of_getElem? hp) q (by simp)
          rw [hq] at this; simpa using this
        simp [this]
    | some x =>
      have hcol : Hyper.column nanK get (q :: qs) = some ((q :: qs).map (fun q => (get q).getD nanK)) := by
        simp only [Hyper.column, hq]
      rw [hcol]
      refine ⟨?_, ?_, ?_⟩
      · intro l hl; simp only [Option.some.injEq] at hl; rw [← hl]; simp
      · intro p hp; rw [hu p hp q (by simp), hq]; rfl
      · intro i p hp
        have := hu p (List.mem_of_getElem? hp) q (by simp)
        rw [hq, Option.isSome_some, Option.isSome_iff_exists] at this
        obtain ⟨y, hy⟩ := this
        simp only [Option.map_some, Option.bind_some, List.getElem?_map, hp, Option.map_some, hy, Option.getD_some]

/-- C68. Points that all have the same coordinates, among them the latitude and at least one other, and one value each, come back
unchanged and in order when made into data and read as points. Missing: points without latitude, or with latitude only. -/
theorem c68_points_round_trip (zero : V) (nanK : K) (ps : List (Hyper.HP K V)) (hne : ps ≠ []) (hu : Uniform ps)
    (hlat : ∀ p ∈ ps, p.lat.isSome) (h2 : ∀ p ∈ ps, p.lon.isSome ∨ p.pres.isSome ∨ p.alt.isSome ∨ p.time.isSome) :
    ∃ u u' v, fromPoints zero nanK ps = some u ∧ getAllPoints u = some (u', v) ∧ v.length = some ps.length ∧
      v.iterAll ps.length = ps.map (fun p => some (lift p)) := by
  obtain ⟨la1, la2, la3⟩ := column_get nanK Hyper.HP.lat ps hne (fun p hp q hq => (hu p hp q hq).1)
  obtain ⟨lo1, lo2, lo3⟩ := column_get nanK Hyper.HP.lon ps hne (fun p hp q hq => (hu p hp q hq).2.1)
  obtain ⟨al1, al2, al3⟩ := column_get nanK Hyper.HP.alt ps hne (fun p hp q hq => (hu p hp q hq).2.2.1)
  obtain ⟨pr1, pr2, pr3⟩ := column_get nanK Hyper.HP.pres ps hne (fun p hp q hq => (hu p hp q hq).2.2.2.1)
  obtain ⟨ti1, ti2, ti3⟩ := column_get nanK Hyper.HP.time ps hne (fun p hp q hq => (hu p hp q hq).2.2.2.2.1)
  obtain ⟨p0, hp0⟩ : ∃ p, p ∈ ps := List.exists_mem_of_ne_nil ps hne
  have hl := hlat p0 hp0
  rw [la2 p0 hp0, Option.isSome_iff_exists] at hl
  obtain ⟨lat, hlat'⟩ := hl
  have hsome := h2 p0 hp0
  rw [lo2 p0 hp0, pr2 p0 hp0, al2 p0 hp0, ti2 p0 hp0] at hsome
  unfold fromPoints
  rw [hlat'] at la1 la3 ⊢
  generalize Hyper.column nanK Hyper.HP.lon ps = lon at *
  generalize Hyper.column nanK Hyper.HP.alt ps = alt at *
  generalize Hyper.column nanK Hyper.HP.pres ps = pres at *
  generalize Hyper.column nanK Hyper.HP.time ps = time at *
  have hfind := find_pointCoords lat lon pres alt time hsome
  set cs := pointCoords (some lat) lon pres alt time with hcs
  set dat := (Hyper.vals zero ps).map (fun v => (v, false)) with hdat
  have hdl : dat.length = ps.length := by simp [hdat, Hyper.vals]
  -- all coordinates are valid and of the right size
  have hmem : ∀ c ∈ cs, ∃ nm l, c = stdCoord nm l ∧ l.length = ps.length := by
    intro c hc
    simp only [hcs, pointCoords, List.mem_append, Option.mem_toList, Option.map_eq_some_iff] at hc
    rcases hc with (((⟨l, h, rfl⟩ | ⟨l, h, rfl⟩) | ⟨l, h, rfl⟩) | ⟨l, h, rfl⟩) | ⟨l, h, rfl⟩
    · exact ⟨_, l, rfl, la1 l h⟩
    · exact ⟨_, l, rfl, lo1 l h⟩
    · exact ⟨_, l, rfl, pr1 l h⟩
    · exact ⟨_, l, rfl, al1 l h⟩
    · exact ⟨_, l, rfl, ti1 l h⟩
  have hlen : ∀ c ∈ cs, c.payload.cells.length = dat.length := by
    intro c hc
    obtain ⟨nm, l, rfl, hl⟩ := hmem c hc
    simp [stdCoord, hl, hdl]
  have hpp : postProcess (⟨dat, none, cs⟩ : UG K V) = some ⟨dat, none, cs⟩ := by
    rw [postProcess, if_pos hlen]
    simp only
    rw [if_neg]
    intro hany
    rw [List.any_eq_true] at hany
    obtain ⟨b, hb, hb'⟩ := hany
    obtain ⟨i, hi, rfl⟩ := List.getElem_of_mem hb
    have hm := combinedMask_length _ _ hlen
    have : (combinedMask dat.length cs)[i]? = some false := by
      rw [combinedMask_get _ _ hlen]
      refine ⟨by rw [← hm]; exact hi, ?_⟩
      intro c hc
      have hic : i < c.payload.cells.length := by rw [hlen c hc, ← hm]; exact hi
      refine ⟨_, List.getElem?_eq_getElem hic, ?_⟩
      obtain ⟨nm, l, rfl, hl⟩ := hmem c hc
      simp [stdCoord]
    rw [List.getElem?_eq_getElem hi] at this
    simp only [Option.some.injEq] at this
    rw [this] at hb'
    simp at hb'
  refine ⟨⟨dat, none, cs⟩, ⟨dat, some dat, cs⟩,
    ⟨some (lat.map .val), lon.map (·.map .val), alt.map (·.map .val), pres.map (·.map .val), time.map (·.map .val), some dat⟩,
    hpp, ?_, ?_, ?_⟩
  · rw [getAllPoints, hpp, Option.map_some]
    have hcol : ∀ n : Nat, ((findStandardCoords cs)[n]?.join).map (fun c => c.payload.cells) =
        (((findStandardCoords cs).map (Option.map (fun c => c.payload.cells)))[n]?).join := by
      intro n
      rw [List.getElem?_map]
      cases (findStandardCoords cs)[n]? with
      | none => rfl
      | some o => cases o <;> rfl
    simp only [hcol, hfind]
    rfl
  · simp [Hyper.UView.length, la1 lat rfl]
  · apply List.ext_getElem?
    intro i
    rw [Hyper.UView.iterAll, List.getElem?_map, List.getElem?_map]
    by_cases hi : i < ps.length
    · rw [List.getElem?_range hi, List.getElem?_eq_getElem hi, Option.map_some, Option.map_some]
      congr 1
      rw [Hyper.c53_ungridded_item, if_pos hi]
      · have hpi : ps[i]? = some ps[i] := List.getElem?_eq_getElem hi
        have hv := (hu ps[i] (List.getElem_mem hi) ps[i] (List.getElem_mem hi)).2.2.2.2.2
        obtain ⟨v, hv⟩ := List.length_eq_one_iff.1 hv
        have hd : dat[i]? = some (v, false) := by
          simp [hdat, Hyper.vals, List.getElem?_eq_getElem hi, hv]
        congr 1
        simp only [lift, Hyper.HP.mk.injEq]
        refine ⟨la3 i _ hpi, lo3 i _ hpi, al3 i _ hpi, pr3 i _ hpi, ti3 i _ hpi, ?_⟩
        rw [Option.bind_some, hd, hv]; rfl
      · refine ⟨?_, ?_, ?_, ?_, ?_, ?_⟩ <;> intro l hl
        · cases hl; simpa using la1 lat rfl
        · obtain ⟨m, hm, rfl⟩ := Option.map_eq_some_iff.1 hl; simpa using lo1 m hm
        · obtain ⟨m, hm, rfl⟩ := Option.map_eq_some_iff.1 hl; simpa using al1 m hm
        · obtain ⟨m, hm, rfl⟩ := Option.map_eq_some_iff.1 hl; simpa using pr1 m hm
        · obtain ⟨m, hm, rfl⟩ := Option.map_eq_some_iff.1 hl; simpa using ti1 m hm
        · cases hl; exact hdl
    · rw [List.getElem?_eq_none (by simpa using hi), List.getElem?_eq_none (by simpa using hi)]; rfl

/-- C68. The values of a list of points are, point by point, the first value of the point, or zero if it has none. -/
theorem c68_values (zero : V) (ps : List (Hyper.HP K V)) :
    (Hyper.vals zero ps).length = ps.length ∧
    ∀ (i : Nat) (p : Hyper.HP K V), ps[i]? = some p →
      (∀ v rest, p.val = v :: rest → (Hyper.vals zero ps)[i]? = some v) ∧
      (p.val = [] → (Hyper.vals zero ps)[i]? = some zero) := by
  refine ⟨by simp [Hyper.vals], ?_⟩
  intro i p hp
  constructor
  · intro v rest h; simp [Hyper.vals, hp, h]
  · intro h; simp [Hyper.vals, hp, h]

/-- C68 is violated: a point with a latitude only comes back with its latitude in all five coordinates. -/
theorem c68_points_round_trip_violated :
    ∃ (p : Hyper.HP ℚ ℚ) (u u' : UG ℚ ℚ) (v : Hyper.UView (Cell ℚ) ℚ), p = ⟨some 5, none, none, none, none, [1]⟩ ∧
      fromPoints 0 0 [p] = some u ∧ getAllPoints u = some (u', v) ∧
      v.iterAll 1 = [some ⟨some (.val 5), some (.val 5), some (.val 5), some (.val 5), some (.val 5), [(1, false)]⟩] := by
  refine ⟨_, ⟨[(1, false)], none, [stdCoord "latitude" [5]]⟩, ⟨[(1, false)], some [(1, false)], [stdCoord "latitude" [5]]⟩,
    ⟨some [.val 5], some [.val 5], some [.val 5], some [.val 5], some [.val 5], some [(1, false)]⟩, rfl, by decide +kernel,
    by decide +kernel, by decide +kernel⟩

example : Uniform [(⟨some 1, some 2, none, none, some 3, [7]⟩ : Hyper.HP ℚ ℚ), ⟨some 4, some 5, none, none, some 6, [8]⟩] := by
  intro p hp q hq
  simp only [List.mem_cons, List.not_mem_nil, or_false] at hp hq
  rcases hp with rfl | rfl <;> rcases hq with rfl | rfl <;> decide

end Cis.Ungridded
