import Verif.Read.Decode
import Verif.Time.Model
set_option linter.unusedSectionVars false
set_option linter.unusedSimpArgs false
/-!
Model of the profile products: `expand_1d_to_2d_array` (utils.py:94-135), the coordinates and the decoding of CloudSat
(products/cloudsat.py) and the coordinates of CALIOP (products/caliop.py). Properties C75 (decoding) and C87 (coordinates).

Arrays are lists, two-dimensional ones lists of rows; `none` is a masked element; numbers are rational.
-/
namespace Cis.Read
open Cis.Time

variable {X : Type}

/-- `expand_1d_to_2d_array(array, length, axis)` (utils.py:94-135): rows equal to the array for axis 0, each element repeated
for axis 1; the mask is expanded likewise. -/
def expand (a : List X) (length axis : Nat) : List (List X) :=
  if axis = 0 then List.replicate length a else a.map (List.replicate length)

/-! ### CloudSat -/

/-- What is read from one CloudSat file: the decoded arrays (see `csSds`, `csVds`), the profile times and start time in seconds
after 1993-01-01. -/
structure CsFile where
  lat : MA
  lon : MA
  profileTime : MA
  taiStart : ℚ
  height : Option (List MA)

/-- 1993-01-01 in seconds after 1600-01-01. -/
def tai1993 : ℚ := 143541 * 86400

/-- `_generate_time_array` (cloudsat.py:44-59). -/
def csTime (fs : List CsFile) : MA :=
  (fs.map (fun f => (f.profileTime.map (Option.map (fun t => t + f.taiStart))).map (Option.map (fun s => secSinceToStdTime s tai1993)))).flatten

/-- The coordinates of CloudSat data: latitude, longitude, height if there is, and time, as two-dimensional arrays, or
one-dimensional ones (a single row) without height. -/
structure CsCoords where
  lat : List MA
  lon : List MA
  height : Option (List MA)
  time : List MA

/-- The heights of all files; `none` if a file does not have them (InvalidVariableError, cloudsat.py:101-120). -/
def csHeights : List CsFile → Option (List MA)
  | [] => some []
  | f :: t => match f.height, csHeights t with
    | some h, some r => some (h ++ r)
    | _, _ => none

/-- `_create_coord_list` (cloudsat.py:94-153); `none` is an exception (no files, or no profiles in the case with height). -/
def csCoords (fs : List CsFile) : Option CsCoords :=
  let lat := (fs.map (·.lat)).flatten
  let lon := (fs.map (·.lon)).flatten
  let time := csTime fs
  if fs = [] then none else
  match csHeights fs with
  | none => some ⟨[lat], [lon], none, [time]⟩
  | some [] => none                                   -- len(height_data[0])
  | some (h0 :: hs) => some ⟨expand lat h0.length 1, expand lon h0.length 1, some (h0 :: hs), expand time h0.length 1⟩

/-- The operators of `missop_fn` (cloudsat.py:230-234). -/
def missop (op : String) (missing x : ℚ) : Option Bool :=
  if op = "<" then some (decide (x < missing))
  else if op = "<=" then some (decide (x ≤ missing))
  else if op = "==" then some (decide (x = missing))
  else if op = "=>" then some (decide (missing ≤ x))
  else if op = ">" then some (decide (missing < x))
  else none                                            -- KeyError, a warning

/-- A CloudSat data set with its attributes; the fields of a vdata have `missing` only with the operator `==`. -/
structure CsSds where
  stored : List ℚ
  fillValue : Option ℚ
  missing : Option ℚ
  missop : Option String
  validRange : Option (ℚ × ℚ)
  offset : Option ℚ
  factor : Option ℚ

/-- The masking of missing values (cloudsat.py:236-245). -/
def maskMissop (d : CsSds) (a : MA) : MA :=
  match d.missing, d.missop with
  | some m, some op => if (missop op m 0).isSome then maskWhere (fun x => (missop op m x).getD false) a else a
  | _, _ => a

/-- `_get_cloudsat_sds_data` (cloudsat.py:215-261) and `_apply_scaling_factor_CLOUDSAT` (263-274); division by a factor of zero
is not described. -/
def csSds (d : CsSds) : MA :=
  arith (fun x => (x - d.offset.getD 0) / d.factor.getD 1) (maskRangeSd d.validRange (maskMissop d (maskFill d.fillValue d.stored)))

/-- `_get_cloudsat_vds_data` (cloudsat.py:178-213). -/
def csVds (d : CsSds) : MA :=
  arith (fun x => (x - d.offset.getD 0) / d.factor.getD 1) (maskRangeSd d.validRange (maskFill d.missing d.stored))

/-! ### CALIOP -/

/-- What is read from one CALIOP file: latitude, longitude and time have a row for each profile (with three columns for the
5 km products: start, middle and end); `pressure` has a row for each profile. The altitudes are in km. -/
structure CalFile where
  lat : List MA
  lon : List MA
  time : List MA
  altitudes : MA
  pressure : List MA

structure CalCoords where
  lat : List MA
  lon : List MA
  time : List MA
  alt : List MA
  pres : Option (List MA)

/-- `x[:, index_offset]`; `none` is IndexError. -/
def column (k : Nat) : List MA → Option MA
  | [] => some []
  | r :: t => match r[k]?, column k t with
    | some x, some c => some (x :: c)
    | _, _ => none

/-- The shape of a two-dimensional array. -/
def shape2 (a : List MA) : Nat × Option Nat := (a.length, a.head?.map List.length)

/-- `_create_coord_list` (caliop.py:46-129); `none` is an exception. -/
def calCoords (includePressure : Bool) (indexOffset : Nat) (fs : List CalFile) : Option CalCoords :=
  match fs with
  | [] => none
  | f0 :: _ =>
    let alt1 := f0.altitudes.map (Option.map (fun x => x * 1000))
    let lat := (fs.map (·.lat)).flatten
    let lon := (fs.map (·.lon)).flatten
    let time := ((fs.map (·.time)).flatten).map (fun r => r.map (Option.map (fun s => secSinceToStdTime s tai1993)))
    let alt := expand alt1 lat.length 0
    let pres := (fs.map (·.pressure)).flatten
    match column indexOffset lat, column indexOffset lon, column indexOffset time with
    | some la, some lo, some ti =>
      some ⟨expand la alt1.length 1, expand lo alt1.length 1, expand ti alt1.length 1, alt,
        if includePressure = true ∧ shape2 pres = shape2 alt then some pres else none⟩
    | _, _, _ => none

/-- The shape recorded in the metadata of the coordinates (caliop.py:78-82, 90, 99, 106). -/
def calRecordedShape (fs : List CalFile) : Option (Nat × Nat) :=
  match fs with
  | [] => none
  | f0 :: _ => some (f0.altitudes.length, ((fs.map (·.lat)).flatten).length)

/-! ### Specification -/
namespace Spec

/-- A measurement: profile position and time, and a value of the level. -/
structure Pt where
  lat : Option ℚ
  lon : Option ℚ
  time : Option ℚ
  level : Option ℚ
deriving DecidableEq

/-- Seconds after 1993-01-01 (143541 days after 1600-01-01) as standard time. -/
def stdTime (s : ℚ) : ℚ := 143541 + s / 86400

/-- The points of flattened coordinates. -/
def points (lat lon time level : List MA) : List Pt :=
  (lat.flatten.zip (lon.flatten.zip (time.flatten.zip level.flatten))).map (fun p => ⟨p.1, p.2.1, p.2.2.1, p.2.2.2⟩)

/-- The points of a CloudSat file: for each profile its levels. -/
def csPoints (f : CsFile) (hs : List MA) : List Pt :=
  (f.lat.zip (f.lon.zip (f.profileTime.zip hs))).flatMap (fun p => p.2.2.2.map (fun h =>
    ⟨p.1, p.2.1, p.2.2.1.map (fun t => stdTime (t + f.taiStart)), h⟩))

/-- The points of a CALIOP file: for each profile, at the altitudes of that file in m. -/
def calPoints (k : Nat) (f : CalFile) : List Pt :=
  (f.lat.zip (f.lon.zip f.time)).flatMap (fun p => f.altitudes.map (fun h =>
    ⟨(p.1[k]?).join, (p.2.1[k]?).join, ((p.2.2[k]?).join).map stdTime, h.map (fun x => x * 1000)⟩))

/-- A CloudSat file is as it should be: every profile has its own values, and `L` levels. -/
structure CsOk (L : Nat) (f : CsFile) (hs : List MA) : Prop where
  height : f.height = some hs
  lon : f.lon.length = f.lat.length
  time : f.profileTime.length = f.lat.length
  rows : hs.length = f.lat.length
  levels : ∀ r ∈ hs, r.length = L

/-- A CALIOP file is as it should be. -/
structure CalOk (k : Nat) (alt : MA) (f : CalFile) : Prop where
  lon : f.lon.length = f.lat.length
  time : f.time.length = f.lat.length
  altitudes : f.altitudes = alt
  cols : (∀ r ∈ f.lat, k < r.length) ∧ (∀ r ∈ f.lon, k < r.length) ∧ ∀ r ∈ f.time, k < r.length

/-- What the attributes of a CloudSat data set declare missing. -/
def CsBad (d : CsSds) (x : ℚ) : Prop :=
  d.fillValue = some x ∨ (∃ m, d.missing = some m ∧
    ((d.missop = some "<" ∧ x < m) ∨ (d.missop = some "<=" ∧ x ≤ m) ∨ (d.missop = some "==" ∧ x = m) ∨
      (d.missop = some ">=" ∧ m ≤ x) ∨ (d.missop = some ">" ∧ m < x))) ∨
  ∃ lo hi, d.validRange = some (lo, hi) ∧ (x < lo ∨ hi < x)

end Spec

/-! ### Proofs -/

theorem stdTime_eq (s : ℚ) : secSinceToStdTime s tai1993 = Spec.stdTime s := by
  unfold secSinceToStdTime tai1993 Spec.stdTime
  rw [show (143541 * 86400 : ℚ) / 86400 = ((143541 : ℤ) : ℚ) by norm_num, Int.floor_intCast]
  norm_num

theorem expand_flatten (a : List X) (n : Nat) : (expand a n 1).flatten = a.flatMap (List.replicate n) := by
  simp [expand, List.flatMap]

/-- Zipping blocks of the same size. -/
theorem zip_flatMap {α β Y Z : Type} (n : Nat) (g : α → List Y) (h : β → List Z) : ∀ (a : List α) (b : List β),
    (∀ x ∈ a, (g x).length = n) → (∀ y ∈ b, (h y).length = n) →
    (a.flatMap g).zip (b.flatMap h) = (a.zip b).flatMap (fun p => (g p.1).zip (h p.2)) := by
  intro a
  induction a with
  | nil => intro b _ _; simp
  | cons x t ih =>
    intro b ha hb
    cases b with
    | nil => simp
    | cons y u =>
      simp only [List.flatMap_cons, List.zip_cons_cons]
      rw [List.zip_append (by rw [ha x (by simp), hb y (by simp)]), ih u (fun z hz => ha z (by simp [hz])) (fun z hz => hb z (by simp [hz]))]

theorem zip_replicate_left {Y : Type} (x : X) (l : List Y) : (List.replicate l.length x).zip l = l.map (fun y => (x, y)) := by
  induction l with
  | nil => rfl
  | cons a t ih => simp [List.replicate_succ, ih]

theorem points_expand (la lo ti : MA) (lv : List MA) (L : Nat) (h : ∀ r ∈ lv, r.length = L) :
    Spec.points (expand la L 1) (expand lo L 1) (expand ti L 1) lv =
      (la.zip (lo.zip (ti.zip lv))).flatMap (fun p => p.2.2.2.map (fun x => ⟨p.1, p.2.1, p.2.2.1, x⟩)) := by
  unfold Spec.points
  rw [expand_flatten, expand_flatten, expand_flatten]
  have e : lv.flatten = lv.flatMap id := by simp [List.flatMap]
  rw [e]
  rw [zip_flatMap L _ _ ti lv (by simp) (by simpa using h)]
  have e1 : ∀ p ∈ ti.zip lv, ((List.replicate L p.1).zip (id p.2)).length = L := by
    rintro ⟨t, r⟩ hp
    simp [h r (List.of_mem_zip hp).2]
  rw [zip_flatMap L _ _ lo _ (by simp) e1]
  have e2 : ∀ p ∈ lo.zip (ti.zip lv), ((List.replicate L p.1).zip ((List.replicate L p.2.1).zip (id p.2.2))).length = L := by
    rintro ⟨l, t, r⟩ hp
    have := (List.of_mem_zip hp).2
    simp [h r (List.of_mem_zip this).2]
  rw [zip_flatMap L _ _ la _ (by simp) e2, List.map_flatMap]
  have key : ∀ (ps : List (Option ℚ × Option ℚ × Option ℚ × MA)), (∀ p ∈ ps, p.2.2.2.length = L) →
      ps.flatMap (fun p => List.map (fun q : Option ℚ × Option ℚ × Option ℚ × Option ℚ => (⟨q.1, q.2.1, q.2.2.1, q.2.2.2⟩ : Spec.Pt))
        ((List.replicate L p.1).zip ((List.replicate L p.2.1).zip ((List.replicate L p.2.2.1).zip (id p.2.2.2))))) =
      ps.flatMap (fun p => p.2.2.2.map (fun x => ⟨p.1, p.2.1, p.2.2.1, x⟩)) := by
    intro ps
    induction ps with
    | nil => intro _; rfl
    | cons p t ih =>
      intro hp
      simp only [List.flatMap_cons]
      rw [ih (fun q hq => hp q (by simp [hq]))]
      congr 1
      have hl := hp p (by simp)
      have z1 : (List.replicate L p.2.2.1).zip p.2.2.2 = p.2.2.2.map (fun x => (p.2.2.1, x)) := by
        rw [← hl]; exact zip_replicate_left _ _
      have z2 : (List.replicate L p.2.1).zip (p.2.2.2.map (fun x => (p.2.2.1, x))) = p.2.2.2.map (fun x => (p.2.1, p.2.2.1, x)) := by
        have := zip_replicate_left p.2.1 (p.2.2.2.map (fun x => (p.2.2.1, x)))
        rw [List.length_map, hl] at this
        rw [this, List.map_map]; rfl
      have z3 : (List.replicate L p.1).zip (p.2.2.2.map (fun x => (p.2.1, p.2.2.1, x))) = p.2.2.2.map (fun x => (p.1, p.2.1, p.2.2.1, x)) := by
        have := zip_replicate_left p.1 (p.2.2.2.map (fun x => (p.2.1, p.2.2.1, x)))
        rw [List.length_map, hl] at this
        rw [this, List.map_map]; rfl
      simp only [id, z1, z2, z3, List.map_map, Function.comp_def]
  apply key
  rintro ⟨a, b, c, d⟩ hp
  have h1 := (List.of_mem_zip hp).2
  have h2 := (List.of_mem_zip h1).2
  exact h d (List.of_mem_zip h2).2

theorem csHeights_eq (fs : List (CsFile × List MA)) (L : Nat) (h : ∀ p ∈ fs, Spec.CsOk L p.1 p.2) :
    csHeights (fs.map Prod.fst) = some (fs.flatMap Prod.snd) := by
  induction fs with
  | nil => rfl
  | cons p t ih =>
    simp [csHeights, (h p (by simp)).height, ih (fun q hq => h q (by simp [hq]))]

theorem cs_zip (fs : List (CsFile × List MA)) (L : Nat) (h : ∀ p ∈ fs, Spec.CsOk L p.1 p.2) :
    (((fs.map Prod.fst).map (·.lat)).flatten.zip (((fs.map Prod.fst).map (·.lon)).flatten.zip
      ((csTime (fs.map Prod.fst)).zip (fs.flatMap Prod.snd)))) =
    fs.flatMap (fun p => p.1.lat.zip (p.1.lon.zip ((p.1.profileTime.map (Option.map (fun t => Spec.stdTime (t + p.1.taiStart)))).zip p.2))) := by
  induction fs with
  | nil => rfl
  | cons p t ih =>
    have hp := h p (by simp)
    have := ih (fun q hq => h q (by simp [hq]))
    unfold csTime at this ⊢
    simp only [List.map_cons, List.flatten_cons, List.flatMap_cons, List.map_map] at this ⊢
    rw [List.zip_append (by simp [hp.time, hp.rows]), List.zip_append (by simp [hp.lon, hp.time, hp.rows]),
      List.zip_append (by simp [hp.lon, hp.time, hp.rows]), this]
    congr 4
    have : (Option.map (fun s => secSinceToStdTime s tai1993) ∘ Option.map fun t => t + p.1.taiStart) =
        Option.map (fun t => Spec.stdTime (t + p.1.taiStart)) := by
      funext x
      cases x <;> simp [stdTime_eq]
    rw [this]

/-- **C87** for CloudSat data with height: the points are those of the files in order, each profile with its own position, time
(of its file) and heights; element `i` of each of the flattened coordinate arrays belongs to point `i`. -/
theorem c87_cloudsat (fs : List (CsFile × List MA)) (L : Nat) (h : ∀ p ∈ fs, Spec.CsOk L p.1 p.2)
    (hne : ∃ p ∈ fs, p.1.lat ≠ []) :
    ∃ c hs, csCoords (fs.map Prod.fst) = some c ∧ c.height = some hs ∧
      Spec.points c.lat c.lon c.time hs = fs.flatMap (fun p => Spec.csPoints p.1 p.2) ∧
      (c.lat.flatten.length = hs.flatten.length ∧ c.lon.flatten.length = hs.flatten.length ∧ c.time.flatten.length = hs.flatten.length) := by
  obtain ⟨p0, hp0, hl0⟩ := hne
  have hfs : fs.map Prod.fst ≠ [] := by
    intro e
    rw [List.map_eq_nil_iff] at e
    simp [e] at hp0
  cases hh : fs.flatMap Prod.snd with
  | nil =>
    exfalso
    rw [List.flatMap_eq_nil_iff] at hh
    have e := hh p0 hp0
    have := (h p0 hp0).rows
    rw [e] at this
    exact hl0 (List.length_eq_zero_iff.1 this.symm)
  | cons h0 hs =>
    have hlev : ∀ r ∈ h0 :: hs, r.length = L := by
      rw [← hh]
      intro r hr
      obtain ⟨p, hp, hr⟩ := List.mem_flatMap.1 hr
      exact (h p hp).levels r hr
    have hL := hlev h0 (by simp)
    refine ⟨⟨expand ((fs.map Prod.fst).map (·.lat)).flatten h0.length 1, expand ((fs.map Prod.fst).map (·.lon)).flatten h0.length 1,
        some (h0 :: hs), expand (csTime (fs.map Prod.fst)) h0.length 1⟩, h0 :: hs, ?_, rfl, ?_, ?_⟩
    · unfold csCoords
      rw [if_neg hfs, csHeights_eq fs L h, hh]
    · simp only
      rw [hL, points_expand _ _ _ _ L hlev, ← hh, cs_zip fs L h, List.flatMap_assoc]
      congr 1
      funext p
      unfold Spec.csPoints
      generalize hz : (fun t => Spec.stdTime (t + p.1.taiStart)) = g
      have : ∀ (a b c : MA) (d : List MA), (a.zip (b.zip ((c.map (Option.map g)).zip d))).flatMap (fun p => p.2.2.2.map (fun x => (⟨p.1, p.2.1, p.2.2.1, x⟩ : Spec.Pt))) =
          (a.zip (b.zip (c.zip d))).flatMap (fun p => p.2.2.2.map (fun x => ⟨p.1, p.2.1, p.2.2.1.map g, x⟩)) := by
        intro a
        induction a with
        | nil => intros; rfl
        | cons a0 at' ih =>
          intro b c d
          cases b <;> cases c <;> cases d <;> simp [ih]
      exact this _ _ _ _
    · have n1 : ((fs.map Prod.fst).map (·.lat)).flatten.length = (h0 :: hs).length := by
        rw [← hh]
        clear hh hlev hL hp0 hl0 hfs
        induction fs with
        | nil => rfl
        | cons p t ih =>
          simp only [List.map_cons, List.flatten_cons, List.flatMap_cons, List.length_append]
          rw [ih (fun q hq => h q (by simp [hq])), (h p (by simp)).rows]
      have n2 : ((fs.map Prod.fst).map (·.lon)).flatten.length = (h0 :: hs).length := by
        rw [← hh]
        clear hh hlev hL hp0 hl0 hfs n1
        induction fs with
        | nil => rfl
        | cons p t ih =>
          simp only [List.map_cons, List.flatten_cons, List.flatMap_cons, List.length_append]
          rw [ih (fun q hq => h q (by simp [hq])), (h p (by simp)).rows, (h p (by simp)).lon]
      have n3 : (csTime (fs.map Prod.fst)).length = (h0 :: hs).length := by
        rw [← hh]
        clear hh hlev hL hp0 hl0 hfs n1 n2
        unfold csTime
        induction fs with
        | nil => rfl
        | cons p t ih =>
          simp only [List.map_cons, List.flatten_cons, List.flatMap_cons, List.length_append, List.length_map] at ih ⊢
          rw [ih (fun q hq => h q (by simp [hq])), (h p (by simp)).rows, (h p (by simp)).time]
      have n4 : ∀ a : List MA, (∀ r ∈ a, r.length = L) → a.flatten.length = a.length * L := by
        intro a
        induction a with
        | nil => intro _; simp
        | cons r t ih =>
          intro hr
          simp only [List.flatten_cons, List.length_append, List.length_cons]
          rw [ih (fun q hq => hr q (by simp [hq])), hr r (by simp)]
          ring
      have n5 : ∀ a : MA, (expand a L 1).flatten.length = a.length * L := by
        intro a
        rw [n4 _ (by simp [expand])]
        simp [expand]
      simp only
      rw [hL, n5, n5, n5, n1, n2, n3, n4 _ hlev]
      exact ⟨rfl, rfl, rfl⟩

/-- **C87** for CloudSat data without height: the one-dimensional coordinates are those of the files in order. -/
theorem c87_cloudsat_1d (fs : List CsFile) (hne : fs ≠ []) (f : CsFile) (hf : f ∈ fs) (h : f.height = none) :
    csCoords fs = some ⟨[fs.flatMap (·.lat)], [fs.flatMap (·.lon)], none,
      [fs.flatMap (fun f => f.profileTime.map (Option.map (fun t => Spec.stdTime (t + f.taiStart))))]⟩ := by
  have hh : csHeights fs = none := by
    clear hne
    induction fs with
    | nil => simp at hf
    | cons g t ih =>
      rcases List.mem_cons.1 hf with rfl | e
      · simp [csHeights, h]
      · rw [csHeights, ih e]
        cases g.height <;> rfl
  unfold csCoords
  rw [if_neg hne, hh]
  simp only [Option.some.injEq, CsCoords.mk.injEq, List.cons.injEq, and_true, List.flatMap, true_and]
  unfold csTime
  congr 1
  apply List.map_congr_left
  intro g _
  rw [List.map_map]
  apply List.map_congr_left
  intro x _
  cases x <;> simp [stdTime_eq]

theorem column_eq (k : Nat) (a : List MA) (h : ∀ r ∈ a, k < r.length) : column k a = some (a.map (fun r => (r[k]?).join)) := by
  induction a with
  | nil => rfl
  | cons r t ih =>
    have hr := h r (by simp)
    rw [column, ih (fun q hq => h q (by simp [hq])), List.getElem?_eq_getElem hr]
    simp [List.getElem?_eq_getElem hr]

/-- **C87** for CALIOP files that all have the same altitudes: the points are those of the files in order, each profile with its
own position and time (of the chosen column: start, middle or end) at all the altitudes, in m. -/
theorem c87_caliop (fs : List CalFile) (k : Nat) (pr : Bool) (alt : MA) (hne : fs ≠ []) (h : ∀ f ∈ fs, Spec.CalOk k alt f) :
    ∃ c, calCoords pr k fs = some c ∧ Spec.points c.lat c.lon c.time c.alt = fs.flatMap (Spec.calPoints k) ∧
      c.lat.length = (fs.map (fun f => f.lat.length)).sum ∧ (∀ r ∈ c.lat ++ c.lon ++ c.time ++ c.alt, r.length = alt.length) ∧
      (∀ p, c.pres = some p → pr = true ∧ p = fs.flatMap (·.pressure) ∧ p.length = c.lat.length) := by
  cases fs with
  | nil => simp at hne
  | cons f0 t =>
    generalize hfs : f0 :: t = fs at *
    have hmem : f0 ∈ fs := by rw [← hfs]; simp
    have halt : f0.altitudes = alt := (h f0 hmem).altitudes
    have c1 : column k (fs.map (·.lat)).flatten = some ((fs.map (·.lat)).flatten.map (fun r => (r[k]?).join)) := by
      apply column_eq
      intro r hr
      obtain ⟨l, hl, hr⟩ := List.mem_flatten.1 hr
      obtain ⟨f, hf, rfl⟩ := List.mem_map.1 hl
      exact (h f hf).cols.1 r hr
    have c2 : column k (fs.map (·.lon)).flatten = some ((fs.map (·.lon)).flatten.map (fun r => (r[k]?).join)) := by
      apply column_eq
      intro r hr
      obtain ⟨l, hl, hr⟩ := List.mem_flatten.1 hr
      obtain ⟨f, hf, rfl⟩ := List.mem_map.1 hl
      exact (h f hf).cols.2.1 r hr
    have c3 := column_eq k ((fs.map (·.time)).flatten.map (fun r => r.map (Option.map (fun s => secSinceToStdTime s tai1993)))) (by
      intro r hr
      obtain ⟨r, hr', rfl⟩ := List.mem_map.1 hr
      obtain ⟨l, hl, hr⟩ := List.mem_flatten.1 hr'
      obtain ⟨f, hf, rfl⟩ := List.mem_map.1 hl
      simpa using (h f hf).cols.2.2 r hr)
    have hc : calCoords pr k fs = some ⟨expand ((fs.map (·.lat)).flatten.map (fun r => (r[k]?).join)) alt.length 1,
        expand ((fs.map (·.lon)).flatten.map (fun r => (r[k]?).join)) alt.length 1,
        expand (((fs.map (·.time)).flatten.map (fun r => r.map (Option.map (fun s => secSinceToStdTime s tai1993)))).map
          (fun r => (r[k]?).join)) alt.length 1,
        expand (alt.map (Option.map (fun x => x * 1000))) (fs.map (·.lat)).flatten.length 0,
        if pr = true ∧ shape2 (fs.map (·.pressure)).flatten = shape2 (expand (alt.map (Option.map (fun x => x * 1000)))
          (fs.map (·.lat)).flatten.length 0) then some (fs.map (·.pressure)).flatten else none⟩ := by
      unfold calCoords
      rw [← hfs] at c1 c2 c3 ⊢
      simp only [c1, c2, c3, halt, List.length_map]
    refine ⟨_, hc, ?_, ?_, ?_, ?_⟩
    · simp only
      have hrep : ∀ r ∈ expand (alt.map (Option.map (fun x => x * 1000))) (fs.map (·.lat)).flatten.length 0, r.length = alt.length := by
        intro r hr
        simp only [expand, if_true] at hr
        simp [List.eq_of_mem_replicate hr]
      rw [points_expand _ _ _ _ _ hrep]
      clear hc c1 c2 c3 hrep halt hmem hfs hne
      induction fs with
      | nil => rfl
      | cons f t ih =>
        have hf := h f (by simp)
        have := ih (fun g hg => h g (by simp [hg]))
        simp only [expand, if_true] at this ⊢
        simp only [List.map_cons, List.flatten_cons, List.map_append, List.length_append, List.flatMap_cons, List.replicate_add]
        rw [List.zip_append (by simp [hf.time]), List.zip_append (by simp [hf.time, hf.lon]),
          List.zip_append (by simp [hf.time, hf.lon]), List.flatMap_append, this]
        congr 1
        unfold Spec.calPoints
        rw [hf.altitudes]
        have hlo := hf.lon
        have hti := hf.time
        generalize f.lat = a at *
        generalize f.lon = b at *
        generalize f.time = d at *
        clear hf this ih h
        induction a generalizing b d with
        | nil => simp
        | cons r a ih =>
          cases b with
          | nil => simp at hlo
          | cons s b =>
            cases d with
            | nil => simp at hti
            | cons u d =>
              simp only [List.length_cons, Nat.add_right_cancel_iff] at hlo hti
              simp only [List.map_cons, List.length_cons, List.replicate_succ, List.zip_cons_cons, List.flatMap_cons]
              rw [ih b hlo d hti]
              congr 1
              rw [List.map_map]
              apply List.map_congr_left
              intro x _
              simp only [Function.comp, Spec.Pt.mk.injEq, true_and, and_true]
              simp only [List.getElem?_map]
              cases u[k]? with
              | none => rfl
              | some y => cases y <;> simp [stdTime_eq]
    · simp [expand, List.length_flatten, Function.comp_def]
    · intro r hr
      simp only [expand, List.mem_append, if_true, one_ne_zero, if_false, List.mem_map] at hr
      rcases hr with ((⟨x, _, rfl⟩ | ⟨x, _, rfl⟩) | ⟨x, _, rfl⟩) | hr
      · simp
      · simp
      · simp
      · simp [List.eq_of_mem_replicate hr]
    · intro p hp
      simp only at hp
      split at hp
      · rename_i hcond
        simp only [Option.some.injEq] at hp
        subst hp
        refine ⟨hcond.1, by simp [List.flatMap], ?_⟩
        have := congrArg Prod.fst hcond.2
        simp only [shape2, expand, if_true, List.length_replicate] at this
        rw [this]
        simp only [expand, one_ne_zero, if_false, List.length_map]
      · cases hp

/-- **C87** is violated by CALIOP files with different altitudes: the points of the second file get those of the first. -/
theorem c87_altitudes_violated :
    (calCoords false 0 [⟨[[some 1]], [[some 1]], [[some 0]], [some 1], []⟩, ⟨[[some 2]], [[some 2]], [[some 0]], [some 5], []⟩]).map
      (fun c => c.alt) = some [[some 1000], [some 1000]] := by decide +kernel

/-- **C87** is violated by the shape recorded in the metadata: it is (levels, profiles) for data of shape (profiles, levels). -/
theorem c87_shape_violated :
    calRecordedShape [⟨[[some 1]], [[some 1]], [[some 0]], [some 1, some 2], []⟩] = some (2, 1) ∧
    (calCoords false 0 [⟨[[some 1]], [[some 1]], [[some 0]], [some 1, some 2], []⟩]).map (fun c => shape2 c.lat) = some (1, some 2) := by
  decide +kernel

/-! ### C75 for CloudSat -/

theorem missop_isSome (op : String) (m x y : ℚ) : (missop op m x).isSome = (missop op m y).isSome := by
  unfold missop
  split_ifs <;> rfl

open Classical in
/-- C75 for CloudSat (without the operator ">="): every value is masked or transformed to `(x - offset) / factor`, once. -/
theorem c75_cloudsat (d : CsSds) (hr : ∀ lo hi, d.validRange = some (lo, hi) → lo ≤ hi) (hop : d.missop ≠ some ">=")
    (hop' : d.missop ≠ some "=>") :
    csSds d = d.stored.map (Spec.decode (Spec.CsBad d) (fun x => (x - d.offset.getD 0) / d.factor.getD 1)) := by
  unfold csSds arith
  have key : maskRangeSd d.validRange (maskMissop d (maskFill d.fillValue d.stored)) =
      d.stored.map (fun x => if Spec.CsBad d x then none else some x) := by
    have hm : maskMissop d (maskFill d.fillValue d.stored) = d.stored.map (fun x => if d.fillValue = some x ∨ (∃ m, d.missing = some m ∧
        ((d.missop = some "<" ∧ x < m) ∨ (d.missop = some "<=" ∧ x ≤ m) ∨ (d.missop = some "==" ∧ x = m) ∨
      (d.missop = some ">=" ∧ m ≤ x) ∨ (d.missop = some ">" ∧ m < x))) then none else some x) := by
      unfold maskMissop maskFill
      rcases hmi : d.missing with _ | m
      · simp
      rcases hms : d.missop with _ | op
      · simp
      have h1 : op ≠ ">=" := fun e => hop (by rw [hms, e])
      have h2 : op ≠ "=>" := fun e => hop' (by rw [hms, e])
      simp only [Option.some.injEq, exists_eq_left', h1, false_and, false_or]
      split
      · rename_i hs
        unfold maskWhere
        rw [List.map_map]
        apply List.map_congr_left
        intro x _
        simp only [Function.comp]
        by_cases hf : d.fillValue = some x
        · simp [hf]
        · simp only [hf, if_false, false_or, Option.bind_some]
          unfold missop at hs ⊢
          by_cases a1 : op = "<"
          · subst a1; simp
          by_cases a2 : op = "<="
          · subst a2; simp
          by_cases a3 : op = "=="
          · subst a3; simp
          by_cases a4 : op = ">"
          · subst a4; simp
          · simp [a1, a2, a3, a4, h2] at hs
      · rename_i hs
        apply List.map_congr_left
        intro x _
        have : ∀ s : String, s ∈ ["<", "<=", "==", ">"] → op ≠ s := by
          intro s hs' e
          apply hs
          simp only [List.mem_cons, List.not_mem_nil, or_false] at hs'
          rcases hs' with rfl | rfl | rfl | rfl <;> subst e <;> simp [missop]
        simp [this]
    rw [hm]
    unfold maskRangeSd
    rcases hrange : d.validRange with _ | ⟨lo, hi⟩
    · simp only [Spec.CsBad, hrange]
      simp
    · simp only [maskedOutside, if_neg (not_lt.2 (hr lo hi hrange)), maskWhere, List.map_map]
      apply List.map_congr_left
      intro x _
      simp only [Function.comp, Spec.CsBad, hrange, Option.some.injEq, Prod.mk.injEq]
      have : (∃ l h, (lo = l ∧ hi = h) ∧ (x < l ∨ h < x)) ↔ (x < lo ∨ hi < x) := by
        constructor
        · rintro ⟨l, h, ⟨rfl, rfl⟩, hx⟩; exact hx
        · intro hx; exact ⟨lo, hi, ⟨rfl, rfl⟩, hx⟩
      simp only [this]
      by_cases hp : d.fillValue = some x
      · simp [hp]
      · by_cases hq : ∃ m, d.missing = some m ∧
            ((d.missop = some "<" ∧ x < m) ∨ (d.missop = some "<=" ∧ x ≤ m) ∨ (d.missop = some "==" ∧ x = m) ∨
          (d.missop = some ">=" ∧ m ≤ x) ∨ (d.missop = some ">" ∧ m < x))
        · simp only [hp, hq, true_or, or_true, if_true, Option.bind_none]
        · simp only [hp, hq, false_or, if_false, Option.bind_some]
          by_cases h1 : x < lo <;> by_cases h2 : hi < x <;> simp [h1, h2]
  rw [key, List.map_map]
  apply List.map_congr_left
  intro x _
  simp only [Function.comp, Spec.decode]
  split <;> simp

open Classical in
/-- C75 for the vdata of CloudSat. -/
theorem c75_cloudsat_vd (d : CsSds) (hr : ∀ lo hi, d.validRange = some (lo, hi) → lo ≤ hi) :
    csVds d = d.stored.map (Spec.decode (Spec.SdBad d.missing d.validRange) (fun x => (x - d.offset.getD 0) / d.factor.getD 1)) := by
  have h := (c75_hdf_sd ⟨false, d.stored, d.missing, d.validRange, none, none⟩ hr).2
  unfold modisGetData at h
  simp only [Option.map_none, Option.getD_none, sub_zero, mul_one, Spec.attr] at h
  have ha : ∀ a : MA, arith (fun x => x) a = a := by
    intro a
    unfold arith
    conv_rhs => rw [← List.map_id a]
    apply List.map_congr_left
    intro x _
    cases x <;> simp
  rw [ha] at h
  unfold csVds
  rw [h, arith, List.map_map]
  apply List.map_congr_left
  intro x _
  simp only [Function.comp, Spec.decode]
  split <;> simp

/-- C75 is violated by CloudSat data whose missing values are those `>=` a number: the operator is not known, and they are kept. -/
theorem c75_cloudsat_missop_violated : csSds ⟨[9, 10, 11], none, some 10, some ">=", none, none, none⟩ = [some 9, some 10, some 11] ∧
    Spec.CsBad ⟨[9, 10, 11], none, some 10, some ">=", none, none, none⟩ 11 := by
  refine ⟨by decide +kernel, Or.inr (Or.inl ⟨10, rfl, ?_⟩)⟩
  norm_num

example : csSds ⟨[-9, 10, 11, 50, 7], some (-9), some 11, some "==", some (8, 40), some 2, some 4⟩ =
    [none, some 2, none, none, none] := by decide +kernel
example : Spec.CsOk 2 ⟨[some 1, none], [some 2, some 3], [some 0, some 1], 10, some [[some 5, none], [some 6, some 7]]⟩
    [[some 5, none], [some 6, some 7]] := ⟨rfl, rfl, rfl, rfl, by simp⟩
example : Spec.CalOk 1 [some 1, some 2] ⟨[[some 1, some 2, some 3]], [[some 1, some 2, some 3]], [[some 1, some 2, some 3]],
    [some 1, some 2], [[some 1, some 2]]⟩ := ⟨rfl, rfl, rfl, by simp⟩

end Cis.Read
