import Verif.Read.Many
set_option linter.unusedSectionVars false
set_option linter.unusedSimpArgs false
/-!
Model of the listing of the variables of satellite files and of what reading a listed variable gives: `AProduct.get_variable_names`
(cis/data_io/products/AProduct.py:70-97), `MODIS_L2.get_variable_names`, `MODIS_L3.get_variable_names` (MODIS.py:107-122,
205-220), `abstract_Caliop.get_variable_names` (caliop.py:24-46), `CloudSat.get_variable_names` (cloudsat.py:14-42), and the
shapes of data and coordinates in `create_data_object` of MODIS_L2 (MODIS.py:255-311), Caliop_L1, Caliop_L2
(caliop.py:48-138, 233-352) and CloudSat (cloudsat.py:61-168). Property C107.

Arrays are represented by their shapes (the values are the subject of C75, C77, C87 and C100). The data are read at once; the code
reads them when they are first used. Fields of 1 km resolution (C100) and the slices of fields of more than two dimensions (C78)
are not repeated here.
-/
namespace Cis.Listing
open Cis.Read Cis.Str

/-- `SD.datasets()[name][0:2]`, names and lengths of the dimensions; for vdata the shape is the number of records alone. -/
structure Info where
  dims : List Str
  shape : List Nat
deriving DecidableEq

/-- A file: its scientific data sets and vdata, and the number of values of the field `Lidar_Data_Altitudes` of its first vdata. -/
structure F where
  hdf : Hdf Info
  altitudes : Option Nat

/-- `if var_info[1] == valid_shape: variables.add(var_name)` (MODIS.py:216-218, caliop.py:42-44). -/
def ofShape (d : List (Str × Info)) (s : List Nat) : List Str := (d.filter (fun e => e.2.shape == s)).map Prod.fst

/-- `MODIS_L2.get_variable_names` (MODIS.py:205-220). -/
def modisL2Names (fs : List F) : Except HdfErr (List Str) :=
  match fs with
  | [] => .error .index
  | f0 :: _ =>
    match dget f0.hdf.sd "Latitude".toList with
    | none => .error .key
    | some la => .ok (fs.flatMap (fun f => ofShape f.hdf.sd la.shape))

/-- `MODIS_L3.get_variable_names` (MODIS.py:107-122). -/
def modisL3Names (fs : List F) : List Str :=
  fs.flatMap (fun f => (f.hdf.sd.filter (fun e => e.2.dims == ["YDim:mod08".toList, "XDim:mod08".toList])).map Prod.fst)

/-- `abstract_Caliop.get_variable_names` (caliop.py:24-46); an error of the library for a file without altitudes is `io`. -/
def caliopNames (fs : List F) : Except HdfErr (List Str) :=
  match fs with
  | [] => .error .index
  | f0 :: _ =>
    match dget f0.hdf.sd "Latitude".toList with
    | none => .error .key
    | some la =>
      match la.shape with
      | [] => .error .index
      | lenX :: _ =>
        match f0.altitudes with
        | none => .error .io
        | some lenY => .ok (fs.flatMap (fun f => ofShape f.hdf.sd [lenX, lenY]))

/-- The part of `CloudSat.get_variable_names` for one file (cloudsat.py:22-40). -/
def cloudsatFile (f : F) : Except HdfErr (List Str) :=
  match dget f.hdf.vd "Latitude".toList with
  | none => .error .index
  | some la =>
    .ok (ofShape f.hdf.vd la.shape ++
      match dget f.hdf.sd "Height".toList with
      | some h => ofShape f.hdf.sd h.shape
      | none => [])

/-- `CloudSat.get_variable_names` (cloudsat.py:14-42). -/
def cloudsatNames : List F → Except HdfErr (List Str)
  | [] => .ok []
  | f :: fs =>
    match cloudsatFile f with
    | .error e => .error e
    | .ok l =>
      match cloudsatNames fs with
      | .error e => .error e
      | .ok l' => .ok (l ++ l')

/-- `np.concatenate` of two arrays along the first dimension. -/
def concat2 (a b : List Nat) : Except HdfErr (List Nat) :=
  match a, b with
  | n :: s, m :: t => if s = t then .ok ((n + m) :: s) else .error .value
  | _, _ => .error .value

/-- `utils.concatenate` (utils.py:21-43). -/
def concatShapes : List (List Nat) → Except HdfErr (List Nat)
  | [] => .error .index
  | s :: t => t.foldlM concat2 s

/-- `sdata[v]`, `hdf.read_data` (hdf.py:103-122). -/
def shapeIn (d : List (Str × List Info)) (v : Str) : Except HdfErr (List Nat) :=
  match dget d v with
  | none => .error .key
  | some l => concatShapes (l.map Info.shape)

/-- The names of the coordinates of MODIS level 2 (MODIS.py:258). -/
def modisCoords : List Str := ["Latitude".toList, "Longitude".toList, "Scan_Start_Time".toList]

/-- `MODIS_L2.create_data_object` (MODIS.py:255-311): the shapes of the data and of latitude, longitude and time; one dimension
gives NotImplementedError (here `value`). -/
def modisL2Object (fs : List F) (v : Str) : Except HdfErr (List Nat × List (List Nat)) := do
  let (s, _) ← hdfRead modisCoords (fs.map F.hdf) [] []
  let la ← shapeIn s "Latitude".toList
  let lo ← shapeIn s "Longitude".toList
  let ti ← shapeIn s "Scan_Start_Time".toList
  let (sv, _) ← hdfRead [v] (fs.map F.hdf) [] []
  let d ← shapeIn sv v
  if d.length < 2 then .error .value else .ok (d, [la, lo, ti])

/-- One coordinate variable of CALIOP: the scientific data sets of the files that have it (caliop.py:60-68), one after the other. -/
def calVar (fs : List F) (v : Str) : Except HdfErr (List Nat) :=
  match fs.filterMap (fun f => dget f.hdf.sd v) with
  | [] => .error .key
  | l => concatShapes (l.map Info.shape)

/-- `data[:, index_offset]`. -/
def columnOf (offset : Nat) (s : List Nat) : Except HdfErr Nat :=
  match s with
  | n :: k :: [] => if offset < k then .ok n else .error .index
  | _ => .error .index

/-- `abstract_Caliop._create_coord_list` (caliop.py:48-138): shapes of latitude, longitude, time, altitude and, if it has the shape
of the altitudes, pressure. -/
def calCoords (includePressure : Bool) (offset : Nat) (fs : List F) : Except HdfErr (List (List Nat)) := do
  let alt ← match fs with
    | [] => .error .index
    | f0 :: _ => match f0.altitudes with | none => .error .io | some n => .ok n
  let la ← calVar fs "Latitude".toList
  let lenY ← match la with | [] => .error .index | n :: _ => .ok n
  let pres ← if includePressure then (calVar fs "Pressure".toList).map some else .ok none
  let nla ← columnOf offset la
  let lo ← calVar fs "Longitude".toList
  let nlo ← columnOf offset lo
  let ti ← calVar fs "Profile_Time".toList
  let nti ← columnOf offset ti
  .ok ([[nla, alt], [nlo, alt], [nti, alt], [lenY, alt]] ++ (if pres = some [lenY, alt] then [[lenY, alt]] else []))

/-- `Caliop_L2._create_one_dimensional_coord_list` (caliop.py:243-294). -/
def calCoords1 (offset : Nat) (fs : List F) : Except HdfErr (List (List Nat)) := do
  let nla ← columnOf offset (← calVar fs "Latitude".toList)
  let nlo ← columnOf offset (← calVar fs "Longitude".toList)
  let nti ← columnOf offset (← calVar fs "Profile_Time".toList)
  .ok [[nla], [nlo], [nti]]

/-- `MIXED_RESOLUTION_VARIABLES` (caliop.py:9-10). -/
def mixed : List Str := ["Atmospheric_Volume_Description".toList, "CAD_Score".toList, "Extinction_QC_Flag_1064".toList,
  "Extinction_QC_Flag_532".toList]

/-- `data[:, :, 0]` (caliop.py:236-238). -/
def firstSlice (s : List Nat) : Except HdfErr (List Nat) :=
  match s with
  | a :: b :: c :: t => if 0 < c then .ok (a :: b :: t) else .error .index
  | _ => .error .index

/-- `Caliop_L2.create_data_object` (caliop.py:296-321). -/
def calL2Object (includePressure : Bool) (fs : List F) (v : Str) : Except HdfErr (List Nat × List (List Nat)) := do
  let cs ← if "Column".toList.isPrefixOf v then calCoords1 1 fs else calCoords includePressure 1 fs
  let (s, _) ← hdfRead [v] (fs.map F.hdf) [] []
  match dget s v with
  | none => .error .key
  | some l =>
    let d ← if v ∈ mixed then concatShapes (← (l.map Info.shape).mapM firstSlice) else concatShapes (l.map Info.shape)
    .ok (d, cs)

/-- `Caliop_L1.create_data_object` (caliop.py:337-352). -/
def calL1Object (fs : List F) (v : Str) : Except HdfErr (List Nat × List (List Nat)) := do
  let cs ← calCoords true 0 fs
  let (s, _) ← hdfRead [v] (fs.map F.hdf) [] []
  let d ← shapeIn s v
  .ok (d, cs)

/-- The shape of the times of CloudSat, `time += start` file by file (cloudsat.py:44-59). -/
def csTime (d : List (Str × List Info)) : Except HdfErr (List Nat) :=
  match dget d "Profile_time".toList, dget d "TAI_start".toList with
  | some p, some t =>
    if (p.zip t).all (fun x => x.2.shape == [1] || x.2.shape == x.1.shape) then concatShapes ((p.zip t).map (fun x => x.1.shape))
    else .error .value
  | _, _ => .error .key

/-- `expand_1d_to_2d_array(x, n, axis=1)` (utils.py:137-161). -/
def expand1 (n : Nat) (s : List Nat) : List Nat := s ++ [n]

/-- The names of the coordinates of CloudSat without the height (cloudsat.py:64). -/
def csNames : List Str := ["Latitude".toList, "Longitude".toList, "TAI_start".toList, "Profile_time".toList]

/-- `CloudSat._create_one_dimensional_coord_list` (cloudsat.py:61-94). -/
def csCoords1 (fs : List F) : Except HdfErr (List (List Nat)) := do
  let (_, d) ← hdfRead csNames (fs.map F.hdf) [] []
  let la ← shapeIn d "Latitude".toList
  let lo ← shapeIn d "Longitude".toList
  let ti ← csTime d
  .ok [la, lo, ti]

/-- `CloudSat._create_coord_list` (cloudsat.py:96-155) for files with heights: latitude, longitude, height, time; without heights
the coordinates are those of `_create_one_dimensional_coord_list`. -/
def csCoords (fs : List F) : Except HdfErr (List (List Nat)) :=
  match hdfRead (csNames ++ ["Height".toList]) (fs.map F.hdf) [] [] with
  | .error .invalidVariable => csCoords1 fs
  | .error e => .error e
  | .ok (s, d) => do
    let h ← shapeIn s "Height".toList
    let n ← match h with
      | r :: k :: _ => if 0 < r then .ok k else .error .index
      | _ => .error .index
    let la ← shapeIn d "Latitude".toList
    let lo ← shapeIn d "Longitude".toList
    let ti ← csTime d
    .ok [expand1 n la, expand1 n lo, h, expand1 n ti]

/-- `CloudSat.create_data_object` (cloudsat.py:160-182). -/
def csObject (fs : List F) (v : Str) : Except HdfErr (List Nat × List (List Nat)) := do
  let (s, d) ← hdfRead [v] (fs.map F.hdf) [] []
  if (dget d v).isSome then
    let cs ← csCoords1 fs
    let x ← shapeIn d v
    .ok (x, cs)
  else if (dget s v).isSome then
    let cs ← csCoords fs
    let x ← shapeIn s v
    .ok (x, cs)
  else .error .value

/-! ## Reading at the level of shapes -/

theorem dget_mem {A : Type} {d : List (Str × A)} {k : Str} {x : A} (h : dget d k = some x) : (k, x) ∈ d := by
  induction d with
  | nil => cases h
  | cons e d ih =>
    rw [dget_cons] at h
    split at h
    · cases h; rename_i h1; subst h1; exact List.mem_cons_self
    · exact List.mem_cons_of_mem _ (ih h)

theorem mem_dget {A : Type} {d : List (Str × A)} {k : Str} {x : A} (hn : (d.map Prod.fst).Nodup) (h : (k, x) ∈ d) : dget d k = some x := by
  induction d with
  | nil => cases h
  | cons e d ih =>
    rw [dget_cons]
    rw [List.map_cons, List.nodup_cons] at hn
    rcases List.mem_cons.1 h with rfl | h
    · simp
    · rw [if_neg, ih hn.2 h]
      rintro rfl
      exact hn.1 (List.mem_map.2 ⟨_, h, rfl⟩)

theorem mem_ofShape (d : List (Str × Info)) (s : List Nat) (v : Str) : v ∈ ofShape d s ↔ ∃ i, (v, i) ∈ d ∧ i.shape = s := by
  unfold ofShape
  simp only [List.mem_map, List.mem_filter, beq_iff_eq, Prod.exists]
  constructor
  · rintro ⟨a, b, ⟨h1, h2⟩, rfl⟩; exact ⟨b, h1, h2⟩
  · rintro ⟨i, h1, h2⟩; exact ⟨v, i, ⟨h1, h2⟩, rfl⟩

/-- Concatenating arrays with `n i` rows each and equal further dimensions. -/
theorem concatShapes_ok (ns : List Nat) (t : List Nat) (hne : ns ≠ []) :
    concatShapes (ns.map (fun n => n :: t)) = .ok (ns.sum :: t) := by
  cases ns with
  | nil => exact absurd rfl hne
  | cons n ns =>
    rw [List.map_cons, concatShapes, List.sum_cons]
    clear hne
    induction ns generalizing n with
    | nil => simp; rfl
    | cons m ns ih =>
      rw [List.map_cons, List.foldlM_cons]
      have : concat2 (n :: t) (m :: t) = .ok ((n + m) :: t) := by simp [concat2]
      rw [this]
      show List.foldlM concat2 ((n + m) :: t) _ = _
      rw [ih, List.sum_cons, Nat.add_assoc]

theorem map_sd {fs : List F} {v : Str} {t : List Nat} {n : F → Nat} {xs : List Info}
    (h : List.Forall₂ (fun f x => dget f.sd v = some x) (fs.map F.hdf) xs)
    (hs : ∀ f ∈ fs, ∀ i, dget f.hdf.sd v = some i → i.shape = n f :: t) :
    xs.map Info.shape = (fs.map n).map (fun n => n :: t) := by
  induction fs generalizing xs with
  | nil => cases h; rfl
  | cons f fs ih =>
    cases h with
    | cons h1 h2 =>
      rw [List.map_cons, List.map_cons, List.map_cons, hs f List.mem_cons_self _ h1,
        ih h2 (fun g hg => hs g (List.mem_cons_of_mem _ hg))]

theorem map_vd {fs : List F} {v : Str} {t : List Nat} {n : F → Nat} {xs : List Info}
    (h : List.Forall₂ (fun f x => dget f.vd v = some x) (fs.map F.hdf) xs)
    (hs : ∀ f ∈ fs, ∀ i, dget f.hdf.vd v = some i → i.shape = n f :: t) :
    xs.map Info.shape = (fs.map n).map (fun n => n :: t) := by
  induction fs generalizing xs with
  | nil => cases h; rfl
  | cons f fs ih =>
    cases h with
    | cons h1 h2 =>
      rw [List.map_cons, List.map_cons, List.map_cons, hs f List.mem_cons_self _ h1,
        ih h2 (fun g hg => hs g (List.mem_cons_of_mem _ hg))]

/-- The rows of a scientific data set that has `n f` rows in file `f` and the further dimensions `t` in all files. -/
def Spec.SdGrid (fs : List F) (v : Str) (n : F → Nat) (t : List Nat) : Prop :=
  ∀ f ∈ fs, ∃ i, dget f.hdf.sd v = some i ∧ i.shape = n f :: t

/-- The same for vdata (that are not also scientific data sets). -/
def Spec.VdGrid (fs : List F) (v : Str) (n : F → Nat) : Prop :=
  ∀ f ∈ fs, dget f.hdf.sd v = none ∧ ∃ i, dget f.hdf.vd v = some i ∧ i.shape = [n f]

theorem read_sd {fs : List F} {v : Str} {n : F → Nat} {t : List Nat} (hne : fs ≠ []) (hg : Spec.SdGrid fs v n t)
    {vars : List Str} (hn : vars.Nodup) (hv : v ∈ vars) {r : List (Str × List Info) × List (Str × List Info)}
    (hr : hdfRead vars (fs.map F.hdf) [] [] = .ok r) :
    ∃ xs, dget r.1 v = some xs ∧ dget r.2 v = none ∧ xs.map Info.shape = (fs.map n).map (fun n => n :: t) ∧
      shapeIn r.1 v = .ok ((fs.map n).sum :: t) := by
  have hs : ∀ f ∈ fs.map F.hdf, (dget f.sd v).isSome := by
    intro f hf
    obtain ⟨g, hg', rfl⟩ := List.mem_map.1 hf
    obtain ⟨i, hi, -⟩ := hg g hg'
    rw [hi]; rfl
  obtain ⟨h0, h2, h1, -⟩ := c77_hdf vars hn _ r hr v hv
  have h1 := h1 hs
  have hx : ∃ xs, dget r.1 v = some xs := by
    cases h : dget r.1 v with
    | none =>
      rw [h, Option.getD_none] at h1
      cases fs with
      | nil => exact absurd rfl hne
      | cons => cases h1
    | some xs => exact ⟨xs, rfl⟩
  obtain ⟨xs, hx⟩ := hx
  rw [hx, Option.getD_some] at h1
  have h3 := map_sd (n := n) (t := t) h1 (by
    intro f hf i hi
    obtain ⟨j, hj, hs⟩ := hg f hf
    rw [hi] at hj; cases hj; exact hs)
  refine ⟨xs, hx, ?_, h3, ?_⟩
  · obtain ⟨rs, g1, -, g3⟩ := hdfRead_eq vars (fs.map F.hdf) [] [] r hr
    have hnd : ∀ x ∈ rs.map Prod.snd, (x.map Prod.fst).Nodup ∧ dget x v = none := by
      intro x hx
      obtain ⟨y, hy, rfl⟩ := List.mem_map.1 hx
      obtain ⟨i, hi, rfl⟩ := List.getElem_of_mem hy
      have hi' : i < (fs.map F.hdf).length := by rw [g1.length_eq]; exact hi
      have := readHdf4_iff _ _ hn _ (g1.get hi' hi)
      refine ⟨this.2.2.2.1, ?_⟩
      have h6 := this.2.2.2.2.2 v
      have h7 := hs _ (List.get_mem _ ⟨i, hi'⟩)
      simp only [List.get_eq_getElem] at h6 h7
      rw [h6]
      cases h8 : dget (fs.map F.hdf)[i].sd v with
      | none => rw [h8] at h7; cases h7
      | some _ => simp
    rw [g3, dget_accumulate _ (fun x hx => (hnd x hx).1)]
    have : (rs.map Prod.snd).filterMap (fun x => dget x v) = [] := by
      rw [List.filterMap_eq_nil_iff]; exact fun x hx => (hnd x hx).2
    rw [this]; simp [dget]
  · rw [shapeIn, hx]
    show concatShapes (xs.map Info.shape) = _
    rw [h3, concatShapes_ok _ _ (by simpa using hne)]

theorem read_vd {fs : List F} {v : Str} {n : F → Nat} (hne : fs ≠ []) (hg : Spec.VdGrid fs v n)
    {vars : List Str} (hn : vars.Nodup) (hv : v ∈ vars) {r : List (Str × List Info) × List (Str × List Info)}
    (hr : hdfRead vars (fs.map F.hdf) [] [] = .ok r) :
    ∃ xs, dget r.2 v = some xs ∧ xs.map Info.shape = (fs.map n).map (fun n => [n]) ∧ shapeIn r.2 v = .ok [(fs.map n).sum] := by
  have hs : ∀ f ∈ fs.map F.hdf, dget f.sd v = none := by
    intro f hf
    obtain ⟨g, hg', rfl⟩ := List.mem_map.1 hf
    exact (hg g hg').1
  obtain ⟨-, -, -, h1⟩ := c77_hdf vars hn _ r hr v hv
  have h1 := h1 hs
  have hx : ∃ xs, dget r.2 v = some xs := by
    cases h : dget r.2 v with
    | none =>
      rw [h, Option.getD_none] at h1
      cases fs with
      | nil => exact absurd rfl hne
      | cons => cases h1
    | some xs => exact ⟨xs, rfl⟩
  obtain ⟨xs, hx⟩ := hx
  rw [hx, Option.getD_some] at h1
  have h3 := map_vd (n := n) (t := []) h1 (by
    intro f hf i hi
    obtain ⟨j, hj, hs⟩ := (hg f hf).2
    rw [hi] at hj; cases hj; exact hs)
  refine ⟨xs, hx, h3, ?_⟩
  rw [shapeIn, hx]
  show concatShapes (xs.map Info.shape) = _
  rw [h3, concatShapes_ok _ _ (by simpa using hne)]

theorem read_total {fs : List F} {vars : List Str} (hn : vars.Nodup) (hname : ∀ f ∈ fs, ".hdf".toList <:+ f.hdf.name)
    (h : ∀ f ∈ fs, ∀ v ∈ vars, (dget f.hdf.sd v).isSome ∨ (dget f.hdf.vd v).isSome) :
    ∃ r, hdfRead vars (fs.map F.hdf) [] [] = .ok r := by
  rw [c77_hdf_success vars hn]
  intro f hf
  obtain ⟨g, hg, rfl⟩ := List.mem_map.1 hf
  exact ⟨hname g hg, h g hg⟩

theorem sdGrid_isSome {fs : List F} {v : Str} {n : F → Nat} {t : List Nat} (h : Spec.SdGrid fs v n t) (f : F) (hf : f ∈ fs) :
    (dget f.hdf.sd v).isSome := by
  obtain ⟨i, hi, -⟩ := h f hf; rw [hi]; rfl

theorem vdGrid_isSome {fs : List F} {v : Str} {n : F → Nat} (h : Spec.VdGrid fs v n) (f : F) (hf : f ∈ fs) :
    (dget f.hdf.vd v).isSome := by
  obtain ⟨i, hi, -⟩ := (h f hf).2; rw [hi]; rfl

/-! ## MODIS -/

/-- C107 (MODIS level 2): listing succeeds iff the first file has latitudes; a name is listed iff some file has a data set of this
name with the shape of the latitudes of the first file. -/
theorem c107_modis_l2_listed (fs : List F) :
    (∀ l, modisL2Names fs = .ok l → ∃ (f0 : F) (la : Info), fs.head? = some f0 ∧ dget f0.hdf.sd "Latitude".toList = some la ∧
      ∀ v, v ∈ l ↔ ∃ f ∈ fs, ∃ i, (v, i) ∈ f.hdf.sd ∧ i.shape = la.shape) ∧
    ((∃ l, modisL2Names fs = .ok l) ↔ ∃ f0, fs.head? = some f0 ∧ (dget f0.hdf.sd "Latitude".toList).isSome) := by
  cases fs with
  | nil => exact ⟨fun l h => by simp [modisL2Names] at h, by simp [modisL2Names]⟩
  | cons f0 fs =>
    cases h : dget f0.hdf.sd "Latitude".toList with
    | none =>
      refine ⟨fun l hl => by rw [modisL2Names, h] at hl; simp at hl, ?_⟩
      rw [modisL2Names, h]
      constructor
      · rintro ⟨l, hl⟩; cases hl
      · rintro ⟨g, hg, hs⟩; cases hg; rw [h] at hs; cases hs
    | some la =>
      constructor
      · intro l hl
        refine ⟨f0, la, rfl, h, ?_⟩
        intro v
        rw [modisL2Names, h] at hl
        cases hl
        simp only [List.mem_flatMap, mem_ofShape]
      · rw [modisL2Names, h]
        exact ⟨fun _ => ⟨f0, rfl, by rw [h]; rfl⟩, fun _ => ⟨_, rfl⟩⟩

/-- C107 (MODIS level 2), many files: a field that has, in every file, the shape of the latitudes (longitudes, times) of this file
is listed, can be read, and the data and all coordinates read have one shape, all rows of all files. -/
theorem c107_modis_l2_read (fs : List F) (hne : fs ≠ []) (v : Str) (n : F → Nat) (c : Nat)
    (hname : ∀ f ∈ fs, ".hdf".toList <:+ f.hdf.name)
    (hla : Spec.SdGrid fs "Latitude".toList n [c]) (hlo : Spec.SdGrid fs "Longitude".toList n [c])
    (hti : Spec.SdGrid fs "Scan_Start_Time".toList n [c]) (hv : Spec.SdGrid fs v n [c]) :
    (∃ l, modisL2Names fs = .ok l ∧ v ∈ l) ∧
      modisL2Object fs v = .ok ([(fs.map n).sum, c], List.replicate 3 [(fs.map n).sum, c]) := by
  constructor
  · cases fs with
    | nil => exact absurd rfl hne
    | cons f0 fs =>
      obtain ⟨la, h1, h2⟩ := hla f0 List.mem_cons_self
      obtain ⟨i, h3, h4⟩ := hv f0 List.mem_cons_self
      rw [modisL2Names, h1]
      refine ⟨_, rfl, ?_⟩
      rw [List.mem_flatMap]
      exact ⟨f0, List.mem_cons_self, (mem_ofShape _ _ _).2 ⟨i, dget_mem h3, by rw [h2, h4]⟩⟩
  · have hn : modisCoords.Nodup := by decide +kernel
    obtain ⟨r, hr⟩ := read_total hn hname (by
      intro f hf w hw
      left
      simp only [modisCoords, List.mem_cons, List.not_mem_nil, or_false] at hw
      rcases hw with rfl | rfl | rfl
      · exact sdGrid_isSome hla f hf
      · exact sdGrid_isSome hlo f hf
      · exact sdGrid_isSome hti f hf)
    obtain ⟨r', hr'⟩ := read_total (vars := [v]) (by simp) hname (by
      intro f hf w hw
      rw [List.mem_singleton] at hw
      subst hw
      exact Or.inl (sdGrid_isSome hv f hf))
    obtain ⟨-, -, -, -, e1⟩ := read_sd hne hla hn (by simp [modisCoords]) hr
    obtain ⟨-, -, -, -, e2⟩ := read_sd hne hlo hn (by simp [modisCoords]) hr
    obtain ⟨-, -, -, -, e3⟩ := read_sd hne hti hn (by simp [modisCoords]) hr
    obtain ⟨-, -, -, -, e4⟩ := read_sd hne hv (by simp) (by simp) hr'
    simp only [modisL2Object, hr, hr', e1, e2, e3, e4, bind, Except.bind]
    rfl

/-- C107 (MODIS level 2), one file: of a file with latitudes, longitudes and times on one grid, exactly the fields on this grid are
listed, and each of them can be read on these coordinates. -/
theorem c107_modis_l2_single (f : F) (n c : Nat) (hname : ".hdf".toList <:+ f.hdf.name) (hk : (f.hdf.sd.map Prod.fst).Nodup)
    (hla : Spec.SdGrid [f] "Latitude".toList (fun _ => n) [c]) (hlo : Spec.SdGrid [f] "Longitude".toList (fun _ => n) [c])
    (hti : Spec.SdGrid [f] "Scan_Start_Time".toList (fun _ => n) [c]) :
    ∃ l, modisL2Names [f] = .ok l ∧ (∀ v, v ∈ l ↔ ∃ i, (v, i) ∈ f.hdf.sd ∧ i.shape = [n, c]) ∧
      ∀ v ∈ l, modisL2Object [f] v = .ok ([n, c], [[n, c], [n, c], [n, c]]) := by
  obtain ⟨la, h1, h2⟩ := hla f (by simp)
  have h0 : modisL2Names [f] = .ok (ofShape f.hdf.sd la.shape) := by
    simp only [modisL2Names, h1, List.flatMap_cons, List.flatMap_nil, List.append_nil]
  refine ⟨_, h0, ?_, ?_⟩
  · intro v; rw [mem_ofShape, h2]
  · intro v hv
    rw [mem_ofShape, h2] at hv
    obtain ⟨i, hi, hs⟩ := hv
    have := (c107_modis_l2_read [f] (by simp) v (fun _ => n) c (by simpa using hname) hla hlo hti (by
      intro g hg
      rw [List.mem_singleton] at hg
      subst hg
      exact ⟨i, mem_dget hk hi, hs⟩)).2
    simpa using this

/-- C107 (MODIS level 3): a name is listed iff some file has a data set of this name with exactly the two dimensions of the grid. -/
theorem c107_modis_l3_listed (fs : List F) (v : Str) :
    v ∈ modisL3Names fs ↔ ∃ f ∈ fs, ∃ i, (v, i) ∈ f.hdf.sd ∧ i.dims = ["YDim:mod08".toList, "XDim:mod08".toList] := by
  unfold modisL3Names
  simp only [List.mem_flatMap, List.mem_map, List.mem_filter, beq_iff_eq, Prod.exists]
  constructor
  · rintro ⟨f, hf, a, b, ⟨h1, h2⟩, rfl⟩; exact ⟨f, hf, b, h1, h2⟩
  · rintro ⟨f, hf, i, h1, h2⟩; exact ⟨f, hf, v, i, ⟨h1, h2⟩, rfl⟩

/-! ## CALIOP -/

/-- C107 (CALIOP): a name is listed iff some file has a data set of this name with as many rows as the first file has latitudes and
as many columns as it has altitudes. -/
theorem c107_caliop_listed (fs : List F) (l : List Str) (h : caliopNames fs = .ok l) :
    ∃ (f0 : F) (la : Info) (n k : Nat), fs.head? = some f0 ∧ dget f0.hdf.sd "Latitude".toList = some la ∧ la.shape.head? = some n ∧
      f0.altitudes = some k ∧ ∀ v, v ∈ l ↔ ∃ f ∈ fs, ∃ i, (v, i) ∈ f.hdf.sd ∧ i.shape = [n, k] := by
  cases fs with
  | nil => simp [caliopNames] at h
  | cons f0 fs =>
    rw [caliopNames] at h
    split at h
    · cases h
    rename_i la h1
    split at h
    · cases h
    rename_i n _ h2
    split at h
    · cases h
    rename_i k h3
    cases h
    exact ⟨f0, la, n, k, rfl, h1, by rw [h2]; rfl, h3, by intro v; simp only [List.mem_flatMap, mem_ofShape]⟩

theorem calVar_ok {fs : List F} {v : Str} {n : F → Nat} {t : List Nat} (hne : fs ≠ []) (hg : Spec.SdGrid fs v n t) :
    calVar fs v = .ok ((fs.map n).sum :: t) := by
  have h : ∀ fs : List F, Spec.SdGrid fs v n t →
      (fs.filterMap (fun f => dget f.hdf.sd v)).map Info.shape = (fs.map n).map (fun n => n :: t) := by
    intro fs
    induction fs with
    | nil => intro _; rfl
    | cons f fs ih =>
      intro hg
      obtain ⟨i, hi, hs⟩ := hg f List.mem_cons_self
      rw [List.filterMap_cons, hi]
      simp only [List.map_cons, hs, ih (fun g hgm => hg g (List.mem_cons_of_mem _ hgm))]
  have h1 := h fs hg
  unfold calVar
  split
  · rename_i h2
    rw [h2] at h1
    cases fs with
    | nil => exact absurd rfl hne
    | cons => simp at h1
  · rw [h1, concatShapes_ok _ _ (by simpa using hne)]

theorem calCoords_ok (fs : List F) (hne : fs ≠ []) (n : F → Nat) (k w : Nat) (halt : ∀ f ∈ fs, f.altitudes = some k)
    (hla : Spec.SdGrid fs "Latitude".toList n [w]) (hlo : Spec.SdGrid fs "Longitude".toList n [w])
    (hti : Spec.SdGrid fs "Profile_Time".toList n [w]) (m : F → Nat) (kp : Nat) (hpr : Spec.SdGrid fs "Pressure".toList m [kp])
    (p : Bool) (o : Nat) (ho : o < w) :
    ∃ cs, calCoords p o fs = .ok cs ∧ 4 ≤ cs.length ∧ ∀ c ∈ cs, c = [(fs.map n).sum, k] := by
  have hl := calVar_ok hne hla
  have hm := calVar_ok hne hlo
  have ht := calVar_ok hne hti
  have hp := calVar_ok hne hpr
  obtain ⟨f0, fs', rfl⟩ := List.exists_cons_of_ne_nil hne
  cases p <;> simp only [calCoords, halt f0 List.mem_cons_self, hl, hm, ht, hp, columnOf, ho, if_true, bind, Except.bind,
    Except.map, Bool.false_eq_true, if_false] <;>
  · refine ⟨_, rfl, by simp, ?_⟩
    intro c hc
    rw [List.mem_append] at hc
    rcases hc with hc | hc
    · simpa using hc
    · split at hc
      · simpa using hc
      · cases hc

/-- C107 (CALIOP), many files: a field that has a row for every profile and a column for every altitude in every file (all files
having as many altitudes) is listed, can be read with either level's product, and data and coordinates read have one shape. -/
theorem c107_caliop_read (fs : List F) (hne : fs ≠ []) (v : Str) (n : F → Nat) (k w : Nat) (hw : 1 < w)
    (hname : ∀ f ∈ fs, ".hdf".toList <:+ f.hdf.name) (halt : ∀ f ∈ fs, f.altitudes = some k)
    (hla : Spec.SdGrid fs "Latitude".toList n [w]) (hlo : Spec.SdGrid fs "Longitude".toList n [w])
    (hti : Spec.SdGrid fs "Profile_Time".toList n [w]) (m : F → Nat) (kp : Nat) (hpr : Spec.SdGrid fs "Pressure".toList m [kp])
    (hv : Spec.SdGrid fs v n [k]) :
    (∃ l, caliopNames fs = .ok l ∧ v ∈ l) ∧
      (∃ cs, calL1Object fs v = .ok ([(fs.map n).sum, k], cs) ∧ 4 ≤ cs.length ∧ ∀ c ∈ cs, c = [(fs.map n).sum, k]) ∧
      (¬ "Column".toList <+: v → v ∉ mixed → ∀ p,
        ∃ cs, calL2Object p fs v = .ok ([(fs.map n).sum, k], cs) ∧ 4 ≤ cs.length ∧ ∀ c ∈ cs, c = [(fs.map n).sum, k]) := by
  have hcs := fun (p : Bool) (o : Nat) (ho : o < w) => calCoords_ok fs hne n k w halt hla hlo hti m kp hpr p o ho
  obtain ⟨r', hr'⟩ := read_total (vars := [v]) (by simp) hname (by
    intro f hf w hw
    rw [List.mem_singleton] at hw
    subst hw
    exact Or.inl (sdGrid_isSome hv f hf))
  obtain ⟨xs, g1, -, g2, e4⟩ := read_sd hne hv (by simp) (by simp) hr'
  refine ⟨?_, ?_, ?_⟩
  · cases fs with
    | nil => exact absurd rfl hne
    | cons f0 fs =>
      obtain ⟨la, h1, h2⟩ := hla f0 List.mem_cons_self
      obtain ⟨i, h3, h4⟩ := hv f0 List.mem_cons_self
      simp only [caliopNames, h1, h2, halt f0 List.mem_cons_self]
      refine ⟨_, rfl, ?_⟩
      rw [List.mem_flatMap]
      exact ⟨f0, List.mem_cons_self, (mem_ofShape _ _ _).2 ⟨i, dget_mem h3, h4⟩⟩
  · obtain ⟨cs, h1, h2, h3⟩ := hcs true 0 (by omega)
    refine ⟨cs, ?_, h2, h3⟩
    simp only [calL1Object, h1, hr', e4, bind, Except.bind]
  · intro hc hm p
    obtain ⟨cs, h1, h2, h3⟩ := hcs p 1 (by omega)
    refine ⟨cs, ?_, h2, h3⟩
    have h5 : "Column".toList.isPrefixOf v = false := by
      rw [Bool.eq_false_iff]; intro h; exact hc (List.isPrefixOf_iff_prefix.1 h)
    have h6 : concatShapes (xs.map Info.shape) = .ok [(fs.map n).sum, k] := by
      rw [g2, concatShapes_ok _ _ (by simpa using hne)]
    simp only [calL2Object, h5, Bool.false_eq_true, if_false, h1, hr', g1, hm, h6, bind, Except.bind]

/-- C107 (CALIOP), mixed resolution: of the variables of mixed resolution (a row per profile, a column per altitude, and some values for
each) one value is read per profile and altitude, and data and coordinates have one shape. -/
theorem c107_caliop_mixed (fs : List F) (hne : fs ≠ []) (v : Str) (n : F → Nat) (k w c : Nat) (hw : 1 < w) (hc0 : 0 < c)
    (hname : ∀ f ∈ fs, ".hdf".toList <:+ f.hdf.name) (halt : ∀ f ∈ fs, f.altitudes = some k)
    (hla : Spec.SdGrid fs "Latitude".toList n [w]) (hlo : Spec.SdGrid fs "Longitude".toList n [w])
    (hti : Spec.SdGrid fs "Profile_Time".toList n [w]) (m : F → Nat) (kp : Nat) (hpr : Spec.SdGrid fs "Pressure".toList m [kp])
    (hv : Spec.SdGrid fs v n [k, c])
    (hm : v ∈ ["Atmospheric_Volume_Description".toList, "CAD_Score".toList, "Extinction_QC_Flag_1064".toList, "Extinction_QC_Flag_532".toList])
    (p : Bool) : ∃ cs, calL2Object p fs v = .ok ([(fs.map n).sum, k], cs) ∧ 4 ≤ cs.length ∧ ∀ c ∈ cs, c = [(fs.map n).sum, k] := by
  obtain ⟨r', hr'⟩ := read_total (vars := [v]) (by simp) hname (by
    intro f hf w hw
    rw [List.mem_singleton] at hw
    subst hw
    exact Or.inl (sdGrid_isSome hv f hf))
  obtain ⟨xs, g1, -, g2, e4⟩ := read_sd hne hv (by simp) (by simp) hr'
  obtain ⟨cs, h1, h2, h3⟩ := calCoords_ok fs hne n k w halt hla hlo hti m kp hpr p 1 hw
  refine ⟨cs, ?_, h2, h3⟩
  have h5 : "Column".toList.isPrefixOf v = false := by
    rcases List.mem_cons.1 hm with rfl | hm
    · decide +kernel
    rcases List.mem_cons.1 hm with rfl | hm
    · decide +kernel
    rcases List.mem_cons.1 hm with rfl | hm
    · decide +kernel
    rcases List.mem_cons.1 hm with rfl | hm
    · decide +kernel
    cases hm
  have h6 : ∀ ns : List Nat, (ns.map (fun n => n :: [k, c])).mapM firstSlice = .ok (ns.map (fun n => n :: [k])) := by
    intro ns
    induction ns with
    | nil => rfl
    | cons a ns ih =>
      rw [List.map_cons, List.mapM_cons, ih]
      simp only [firstSlice, hc0, if_true]
      rfl
  have h7 : v ∈ mixed := hm
  have h8 := concatShapes_ok (fs.map n) [k] (by simpa using hne)
  simp only [calL2Object, h5, Bool.false_eq_true, if_false, h1, hr', g1, h7, if_true, g2, h6, h8, bind, Except.bind]

/-- C107 (CALIOP): the level 2 product uses the middle one of the values of each profile; files with one value per profile are refused,
whatever the variable. -/
theorem c107_caliop_one_column (fs : List F) (hne : fs ≠ []) (n : F → Nat) (hla : Spec.SdGrid fs "Latitude".toList n [1]) (p : Bool) (v : Str)
    (r : List Nat × List (List Nat)) : calL2Object p fs v ≠ .ok r := by
  have hl := calVar_ok hne hla
  intro h
  have h1 : ∀ x, calCoords1 1 fs ≠ .ok x := by
    intro x hx
    simp only [calCoords1, hl, columnOf, bind, Except.bind, Nat.lt_irrefl, if_false] at hx
    cases hx
  have h2 : ∀ x, calCoords p 1 fs ≠ .ok x := by
    intro x hx
    simp only [calCoords, hl, columnOf, bind, Except.bind, Nat.lt_irrefl, if_false] at hx
    cases fs with
    | nil => cases hx
    | cons f0 fs =>
      simp only at hx
      cases ha : f0.altitudes with
      | none => rw [ha] at hx; cases hx
      | some k =>
        rw [ha] at hx
        cases p
        · cases hx
        · simp only [if_true] at hx
          cases hq : Except.map some (calVar (f0 :: fs) "Pressure".toList) <;> rw [hq] at hx <;> cases hx
  unfold calL2Object at h
  by_cases hc : "Column".toList.isPrefixOf v = true
  · rw [if_pos hc] at h
    cases hx : calCoords1 1 fs with
    | ok x => exact h1 x hx
    | error e => rw [hx] at h; cases h
  · rw [if_neg hc] at h
    cases hx : calCoords p 1 fs with
    | ok x => exact h2 x hx
    | error e => rw [hx] at h; cases h

/-- C107 (MODIS level 2): what is read has two dimensions or more; a variable with one is refused. -/
theorem c107_modis_dimensions (fs : List F) (v : Str) (r : List Nat × List (List Nat)) (h : modisL2Object fs v = .ok r) : 2 ≤ r.1.length := by
  by_contra hlt
  unfold modisL2Object at h
  simp only [bind, Except.bind] at h
  repeat' split at h
  all_goals first | cases h; done | skip
  all_goals (cases h; simp only at hlt; omega)

/-! ## CloudSat -/

theorem cloudsatNames_ok (fs : List F) : ∀ l, cloudsatNames fs = .ok l →
    (∀ f ∈ fs, ∃ la, dget f.hdf.vd "Latitude".toList = some la) ∧
    ∀ v, v ∈ l ↔ ∃ f ∈ fs, (∃ i la, (v, i) ∈ f.hdf.vd ∧ dget f.hdf.vd "Latitude".toList = some la ∧ i.shape = la.shape) ∨
      (∃ i h, (v, i) ∈ f.hdf.sd ∧ dget f.hdf.sd "Height".toList = some h ∧ i.shape = h.shape) := by
  induction fs with
  | nil => intro l h; cases h; simp
  | cons f fs ih =>
    intro l h
    rw [cloudsatNames] at h
    split at h
    · cases h
    rename_i a ha
    split at h
    · cases h
    rename_i b hb
    cases h
    obtain ⟨i1, i2⟩ := ih b hb
    rw [cloudsatFile] at ha
    split at ha
    · cases ha
    rename_i la hla
    cases ha
    constructor
    · intro g hg
      rcases List.mem_cons.1 hg with rfl | hg
      · exact ⟨la, hla⟩
      · exact i1 g hg
    · intro v
      rw [List.mem_append, i2, List.mem_append, mem_ofShape, List.exists_mem_cons_iff]
      apply or_congr_left
      apply or_congr
      · constructor
        · rintro ⟨i, h1, h2⟩; exact ⟨i, la, h1, hla, h2⟩
        · rintro ⟨i, la', h1, h2, h3⟩; rw [hla] at h2; cases h2; exact ⟨i, h1, h3⟩
      · cases hh : dget f.hdf.sd "Height".toList with
        | none => simp
        | some hgt =>
          simp only [mem_ofShape]
          constructor
          · rintro ⟨i, h1, h2⟩; exact ⟨i, hgt, h1, rfl, h2⟩
          · rintro ⟨i, h', h1, h2, h3⟩; cases h2; exact ⟨i, h1, h3⟩

/-- C107 (CloudSat): listing succeeds iff every file has vdata called Latitude; a name is listed iff, in some file, it is vdata with
as many records as the latitudes of this file, or a data set with the shape of the heights of this file. -/
theorem c107_cloudsat_listed (fs : List F) :
    (∀ l, cloudsatNames fs = .ok l →
      ∀ v, v ∈ l ↔ ∃ f ∈ fs, (∃ i la, (v, i) ∈ f.hdf.vd ∧ dget f.hdf.vd "Latitude".toList = some la ∧ i.shape = la.shape) ∨
        (∃ i h, (v, i) ∈ f.hdf.sd ∧ dget f.hdf.sd "Height".toList = some h ∧ i.shape = h.shape)) ∧
    ((∃ l, cloudsatNames fs = .ok l) ↔ ∀ f ∈ fs, (dget f.hdf.vd "Latitude".toList).isSome) := by
  refine ⟨fun l h => (cloudsatNames_ok fs l h).2, ?_, ?_⟩
  · rintro ⟨l, hl⟩ f hf
    obtain ⟨la, h⟩ := (cloudsatNames_ok fs l hl).1 f hf
    rw [h]; rfl
  · intro h
    induction fs with
    | nil => exact ⟨[], rfl⟩
    | cons f fs ih =>
      obtain ⟨l, hl⟩ := ih (fun g hg => h g (List.mem_cons_of_mem _ hg))
      obtain ⟨la, hla⟩ := Option.isSome_iff_exists.1 (h f List.mem_cons_self)
      simp only [cloudsatNames, cloudsatFile, hla, hl]
      exact ⟨_, rfl⟩

theorem csTime_ok {fs : List F} {n : F → Nat} {d : List (Str × List Info)} {p t : List Info} (hne : fs ≠ [])
    (hp : dget d "Profile_time".toList = some p) (ht : dget d "TAI_start".toList = some t)
    (h1 : p.map Info.shape = (fs.map n).map (fun n => [n])) (h2 : t.map Info.shape = (fs.map (fun _ => 1)).map (fun n => [n])) :
    csTime d = .ok [(fs.map n).sum] := by
  have hl : p.length = t.length := by
    have := congrArg List.length h1
    have := congrArg List.length h2
    simp at *
    omega
  have h3 : (p.zip t).all (fun x => x.2.shape == [1] || x.2.shape == x.1.shape) = true := by
    rw [List.all_eq_true]
    intro x hx
    have hx2 : x.2.shape ∈ t.map Info.shape := List.mem_map.2 ⟨x.2, (List.of_mem_zip hx).2, rfl⟩
    rw [h2] at hx2
    simp at hx2
    simp [hx2.2]
  have h4 : (p.zip t).map (fun x => x.1.shape) = p.map Info.shape := by
    rw [show (fun x : Info × Info => x.1.shape) = Info.shape ∘ Prod.fst from rfl, ← List.map_map, List.map_fst_zip (by omega)]
  simp only [csTime, hp, ht, h3, if_true, h4, h1]
  exact concatShapes_ok _ _ (by simpa using hne)

/-- The vdata that give the coordinates of CloudSat files: a record per profile, and one starting time per file. -/
def Spec.CsCoords (fs : List F) (n : F → Nat) : Prop :=
  Spec.VdGrid fs "Latitude".toList n ∧ Spec.VdGrid fs "Longitude".toList n ∧ Spec.VdGrid fs "Profile_time".toList n ∧
    Spec.VdGrid fs "TAI_start".toList (fun _ => 1)

theorem csCoords1_ok {fs : List F} {n : F → Nat} (hne : fs ≠ []) (hname : ∀ f ∈ fs, ".hdf".toList <:+ f.hdf.name)
    (hc : Spec.CsCoords fs n) : csCoords1 fs = .ok (List.replicate 3 [(fs.map n).sum]) := by
  obtain ⟨h1, h2, h3, h4⟩ := hc
  have hn : csNames.Nodup := by decide +kernel
  obtain ⟨r, hr⟩ := read_total hn hname (by
    intro f hf w hw
    right
    simp only [csNames, List.mem_cons, List.not_mem_nil, or_false] at hw
    rcases hw with rfl | rfl | rfl | rfl
    · exact vdGrid_isSome h1 f hf
    · exact vdGrid_isSome h2 f hf
    · exact vdGrid_isSome h4 f hf
    · exact vdGrid_isSome h3 f hf)
  obtain ⟨-, -, -, e1⟩ := read_vd hne h1 hn (by simp [csNames]) hr
  obtain ⟨-, -, -, e2⟩ := read_vd hne h2 hn (by simp [csNames]) hr
  obtain ⟨p, p1, p2, -⟩ := read_vd hne h3 hn (by simp [csNames]) hr
  obtain ⟨t, t1, t2, -⟩ := read_vd hne h4 hn (by simp [csNames]) hr
  simp only [csCoords1, hr, e1, e2, csTime_ok hne p1 t1 p2 t2, bind, Except.bind]
  rfl

/-- C107 (CloudSat), many files, vdata: a variable with a record for every profile in every file is listed and can be read; the data
and the three coordinates have one value per profile of all files. -/
theorem c107_cloudsat_vdata (fs : List F) (hne : fs ≠ []) (v : Str) (n : F → Nat)
    (hname : ∀ f ∈ fs, ".hdf".toList <:+ f.hdf.name) (hc : Spec.CsCoords fs n) (hv : Spec.VdGrid fs v n) :
    (∃ l, cloudsatNames fs = .ok l ∧ v ∈ l) ∧ csObject fs v = .ok ([(fs.map n).sum], List.replicate 3 [(fs.map n).sum]) := by
  constructor
  · obtain ⟨l, hl⟩ := (c107_cloudsat_listed fs).2.2 (fun f hf => vdGrid_isSome hc.1 f hf)
    refine ⟨l, hl, ((c107_cloudsat_listed fs).1 l hl v).2 ?_⟩
    cases fs with
    | nil => exact absurd rfl hne
    | cons f0 fs =>
      obtain ⟨la, h1, h2⟩ := (hc.1 f0 List.mem_cons_self).2
      obtain ⟨i, h3, h4⟩ := (hv f0 List.mem_cons_self).2
      exact ⟨f0, List.mem_cons_self, Or.inl ⟨i, la, dget_mem h3, h1, by rw [h2, h4]⟩⟩
  · obtain ⟨r', hr'⟩ := read_total (vars := [v]) (by simp) hname (by
      intro f hf w hw
      rw [List.mem_singleton] at hw
      subst hw
      exact Or.inr (vdGrid_isSome hv f hf))
    obtain ⟨xs, g1, -, e4⟩ := read_vd hne hv (by simp) (by simp) hr'
    simp only [csObject, hr', g1, e4, csCoords1_ok hne hname hc, Option.isSome_some, if_true, bind, Except.bind]

/-- C107 (CloudSat), many files, data sets: a field with a row for every profile and a column for every height in every file is
listed and can be read; the data and the four coordinates have one shape. -/
theorem c107_cloudsat_sd (fs : List F) (v : Str) (n : F → Nat) (k : Nat) (hpos : 0 < (fs.map n).sum)
    (hname : ∀ f ∈ fs, ".hdf".toList <:+ f.hdf.name) (hc : Spec.CsCoords fs n) (hh : Spec.SdGrid fs "Height".toList n [k])
    (hv : Spec.SdGrid fs v n [k]) :
    (∃ l, cloudsatNames fs = .ok l ∧ v ∈ l) ∧ csObject fs v = .ok ([(fs.map n).sum, k], List.replicate 4 [(fs.map n).sum, k]) := by
  have hne : fs ≠ [] := by rintro rfl; simp at hpos
  constructor
  · obtain ⟨l, hl⟩ := (c107_cloudsat_listed fs).2.2 (fun f hf => vdGrid_isSome hc.1 f hf)
    refine ⟨l, hl, ((c107_cloudsat_listed fs).1 l hl v).2 ?_⟩
    cases fs with
    | nil => exact absurd rfl hne
    | cons f0 fs =>
      obtain ⟨la, h1, h2⟩ := hh f0 List.mem_cons_self
      obtain ⟨i, h3, h4⟩ := hv f0 List.mem_cons_self
      exact ⟨f0, List.mem_cons_self, Or.inr ⟨i, la, dget_mem h3, h1, by rw [h2, h4]⟩⟩
  · obtain ⟨r', hr'⟩ := read_total (vars := [v]) (by simp) hname (by
      intro f hf w hw
      rw [List.mem_singleton] at hw
      subst hw
      exact Or.inl (sdGrid_isSome hv f hf))
    obtain ⟨xs, g1, g2, -, e4⟩ := read_sd hne hv (by simp) (by simp) hr'
    obtain ⟨h1, h2, h3, h4⟩ := hc
    have hn : (csNames ++ ["Height".toList]).Nodup := by decide +kernel
    obtain ⟨r, hr⟩ := read_total hn hname (by
      intro f hf w hw
      simp only [csNames, List.cons_append, List.nil_append, List.mem_cons, List.not_mem_nil, or_false] at hw
      rcases hw with rfl | rfl | rfl | rfl | rfl
      · exact Or.inr (vdGrid_isSome h1 f hf)
      · exact Or.inr (vdGrid_isSome h2 f hf)
      · exact Or.inr (vdGrid_isSome h4 f hf)
      · exact Or.inr (vdGrid_isSome h3 f hf)
      · exact Or.inl (sdGrid_isSome hh f hf))
    obtain ⟨-, -, -, e1⟩ := read_vd hne h1 hn (by simp [csNames]) hr
    obtain ⟨-, -, -, e2⟩ := read_vd hne h2 hn (by simp [csNames]) hr
    obtain ⟨p, p1, p2, -⟩ := read_vd hne h3 hn (by simp [csNames]) hr
    obtain ⟨t, t1, t2, -⟩ := read_vd hne h4 hn (by simp [csNames]) hr
    obtain ⟨-, -, -, -, e5⟩ := read_sd hne hh hn (by simp [csNames]) hr
    have hcs : csCoords fs = .ok (List.replicate 4 [(fs.map n).sum, k]) := by
      simp only [csCoords, hr, e5, e1, e2, csTime_ok hne p1 t1 p2 t2, hpos, if_true, bind, Except.bind]
      rfl
    simp only [csObject, hr', g1, g2, e4, hcs, Option.isSome_some, Option.isSome_none, Bool.false_eq_true, if_false, if_true, bind, Except.bind]

/-- C160 violated (CloudSat): files without profiles, which are listed like all others, cannot be read: `len(height_data[0])` is an IndexError, for
every field on profiles and heights. -/
theorem c160_cloudsat_no_profiles_violated (fs : List F) (hne : fs ≠ []) (v : Str) (n : F → Nat) (k : Nat) (hzero : (fs.map n).sum = 0)
    (hname : ∀ f ∈ fs, ".hdf".toList <:+ f.hdf.name) (hc : Spec.CsCoords fs n) (hh : Spec.SdGrid fs "Height".toList n [k])
    (hv : Spec.SdGrid fs v n [k]) : csObject fs v = .error .index := by
  obtain ⟨r', hr'⟩ := read_total (vars := [v]) (by simp) hname (by
    intro f hf w hw
    rw [List.mem_singleton] at hw
    subst hw
    exact Or.inl (sdGrid_isSome hv f hf))
  obtain ⟨xs, g1, g2, -, e4⟩ := read_sd hne hv (by simp) (by simp) hr'
  obtain ⟨h1, h2, h3, h4⟩ := hc
  have hn : (csNames ++ ["Height".toList]).Nodup := by decide +kernel
  obtain ⟨r, hr⟩ := read_total hn hname (by
    intro f hf w hw
    simp only [csNames, List.cons_append, List.nil_append, List.mem_cons, List.not_mem_nil, or_false] at hw
    rcases hw with rfl | rfl | rfl | rfl | rfl
    · exact Or.inr (vdGrid_isSome h1 f hf)
    · exact Or.inr (vdGrid_isSome h2 f hf)
    · exact Or.inr (vdGrid_isSome h4 f hf)
    · exact Or.inr (vdGrid_isSome h3 f hf)
    · exact Or.inl (sdGrid_isSome hh f hf))
  obtain ⟨-, -, -, -, e5⟩ := read_sd hne hh hn (by simp [csNames]) hr
  have hcs : csCoords fs = .error .index := by
    simp only [csCoords, hr, e5, hzero, Nat.lt_irrefl, if_false, bind, Except.bind]
  simp only [csObject, hr', g1, g2, e4, hcs, Option.isSome_some, Option.isSome_none, Bool.false_eq_true, if_false, if_true, bind, Except.bind]

/-! ## The listing of the other products -/

/-- A file as the library for its extension shows it: NetCDF variables with the names of their dimensions, or HDF4 contents. -/
structure GFile where
  nc : Grp (List Str)
  hdf : Hdf Info

/-- Outcomes of `get_variable_names` of the general product. -/
inductive GErr
  | type             -- TypeError
  | hdf (e : HdfErr)
deriving DecidableEq

/-- One file of `AProduct.get_variable_names` (AProduct.py:82-96): the names, and the data type kept for the next file. -/
def genericFile (valid : Option (List Str)) (dataType : Option Str) (f : GFile) : Except GErr (List Str × Option Str) :=
  if ".nc".toList.isSuffixOf f.hdf.name then
    .ok ((removeNonSpatiotemporal (fun d => d) valid (allVariables f.nc)).map Prod.fst, dataType)
  else if ".hdf".toList.isSuffixOf f.hdf.name then
    let dt := dataType.getD "SD".toList
    match hdfFileVariables f.hdf (some (dt.map Char.toLower)) with
    | .error e => .error (.hdf e)
    | .ok (sd, vd) => .ok (sd.getD [] ++ vd.getD [], some dt)
  else if ".h5".toList.isSuffixOf f.hdf.name then
    .ok ((removeNonSpatiotemporal (fun d => d) valid (allVariables f.nc)).map Prod.fst, dataType)
  else .error .type

/-- `AProduct.get_variable_names` (AProduct.py:70-97); the result is made a set. -/
def genericNames (valid : Option (List Str)) : Option Str → List GFile → Except GErr (List Str)
  | _, [] => .ok []
  | dt, f :: fs =>
    match genericFile valid dt f with
    | .error e => .error e
    | .ok (l, dt') =>
      match genericNames valid dt' fs with
      | .error e => .error e
      | .ok l' => .ok (l ++ l')

/-- C107 (other products), NetCDF files: a name is listed iff some file has a variable of this full name all of whose dimensions
are valid ones of the product (any, if the product does not state them); the listing succeeds. -/
theorem c107_generic_netcdf (valid : Option (List Str)) (dt : Option Str) (fs : List GFile) (hw : ∀ f ∈ fs, f.nc.WF)
    (hname : ∀ f ∈ fs, ".nc".toList <:+ f.hdf.name ∨ ".h5".toList <:+ f.hdf.name) :
    ∃ l, genericNames valid dt fs = .ok l ∧
      ∀ v, v ∈ l ↔ ∃ f ∈ fs, ∃ dims, HasVar f.nc v dims ∧ ∀ vs, valid = some vs → ∀ d ∈ dims, d ∈ vs := by
  induction fs with
  | nil => exact ⟨[], rfl, by simp⟩
  | cons f fs ih =>
    obtain ⟨l', hl', hm⟩ := ih (fun g hg => hw g (List.mem_cons_of_mem _ hg)) (fun g hg => hname g (List.mem_cons_of_mem _ hg))
    have hf : genericFile valid dt f =
        .ok ((removeNonSpatiotemporal (fun d => d) valid (allVariables f.nc)).map Prod.fst, dt) := by
      unfold genericFile
      rcases hname f List.mem_cons_self with h | h
      · rw [if_pos (List.isSuffixOf_iff_suffix.2 h)]
      · have h2 : ∀ e : Str, e.length = 4 → e.getLast? ≠ some '5' → ¬ (e.isSuffixOf f.hdf.name = true) := by
          intro e _ he h3
          rw [List.isSuffixOf_iff_suffix] at h3
          obtain ⟨a, ha⟩ := h3
          obtain ⟨b, hb⟩ := h
          have : e.getLast? = (".h5".toList).getLast? := by
            have h4 : (a ++ e).getLast? = (b ++ ".h5".toList).getLast? := by rw [ha, hb]
            rw [List.getLast?_append, List.getLast?_append] at h4
            cases h5 : e.getLast? with
            | none => rw [List.getLast?_eq_none_iff] at h5; subst h5; simp at *
            | some c => rw [h5] at h4; simpa using h4
          rw [this] at he
          exact he (by decide +kernel)
        have h3 : ¬ (".nc".toList.isSuffixOf f.hdf.name = true) := by
          intro h3
          rw [List.isSuffixOf_iff_suffix] at h3
          obtain ⟨a, ha⟩ := h3
          obtain ⟨b, hb⟩ := h
          have h4 : (a ++ ".nc".toList).getLast? = (b ++ ".h5".toList).getLast? := by rw [ha, hb]
          rw [List.getLast?_append, List.getLast?_append] at h4
          revert h4
          show ¬ ((some 'c').or _ = (some '5').or _)
          simp
        rw [if_neg h3, if_neg (h2 ".hdf".toList (by decide +kernel) (by decide +kernel)), if_pos (List.isSuffixOf_iff_suffix.2 h)]
    refine ⟨(removeNonSpatiotemporal (fun d => d) valid (allVariables f.nc)).map Prod.fst ++ l', by simp only [genericNames, hf, hl'], ?_⟩
    intro v
    rw [List.mem_append, hm, List.exists_mem_cons_iff]
    apply or_congr_left
    have hlist := c76_listing f.nc (hw f List.mem_cons_self)
    cases valid with
    | none =>
      rw [removeNonSpatiotemporal]
      simp only [List.mem_map, Prod.exists]
      constructor
      · rintro ⟨a, b, h1, rfl⟩; exact ⟨b, (hlist.2 _ _).1 h1, by simp⟩
      · rintro ⟨b, h1, -⟩; exact ⟨v, b, (hlist.2 _ _).2 h1, rfl⟩
    | some vs =>
      rw [(c76_spatiotemporal (fun d => d) vs _ hlist.1).1]
      simp only [List.mem_map, Prod.exists, List.mem_filter]
      constructor
      · rintro ⟨a, b, ⟨h1, h2⟩, rfl⟩
        refine ⟨b, (hlist.2 _ _).1 h1, ?_⟩
        intro vs' e d hd
        cases e
        have := List.all_eq_true.1 h2 d hd
        simpa using this
      · rintro ⟨b, h1, h2⟩
        refine ⟨v, b, ⟨(hlist.2 _ _).2 h1, ?_⟩, rfl⟩
        rw [List.all_eq_true]
        intro d hd
        simpa using h2 vs rfl d hd

/-- C107 (other products), HDF4 files: without a data type, or with `SD`, exactly the scientific data sets of the files are listed;
with `VD` exactly the vdata; any other type is refused with a ValueError. -/
theorem c107_generic_hdf (valid : Option (List Str)) (fs : List GFile) (hname : ∀ f ∈ fs, ".hdf".toList <:+ f.hdf.name) :
    genericNames valid none fs = .ok (fs.flatMap (fun f => f.hdf.sd.map Prod.fst)) ∧
    genericNames valid (some "SD".toList) fs = .ok (fs.flatMap (fun f => f.hdf.sd.map Prod.fst)) ∧
    genericNames valid (some "VD".toList) fs = .ok (fs.flatMap (fun f => f.hdf.vd.map Prod.fst)) ∧
    ∀ dt : Str, dt.map Char.toLower ≠ "sd".toList → dt.map Char.toLower ≠ "vd".toList → fs ≠ [] →
      genericNames valid (some dt) fs = .error (.hdf .value) := by
  have hext : ∀ f : GFile, ".hdf".toList <:+ f.hdf.name → ¬ (".nc".toList.isSuffixOf f.hdf.name = true) := by
    intro f h h3
    rw [List.isSuffixOf_iff_suffix] at h3
    obtain ⟨a, ha⟩ := h3
    obtain ⟨b, hb⟩ := h
    have h4 : (a ++ ".nc".toList).getLast? = (b ++ ".hdf".toList).getLast? := by rw [ha, hb]
    rw [List.getLast?_append, List.getLast?_append] at h4
    revert h4
    show ¬ ((some 'c').or _ = (some 'f').or _)
    simp
  have hfile : ∀ (f : GFile) (dt : Option Str), ".hdf".toList <:+ f.hdf.name → genericFile valid dt f =
      match hdfFileVariables f.hdf (some ((dt.getD "SD".toList).map Char.toLower)) with
      | .error e => .error (.hdf e)
      | .ok (sd, vd) => .ok (sd.getD [] ++ vd.getD [], some (dt.getD "SD".toList)) := by
    intro f dt h
    unfold genericFile
    rw [if_neg (hext f h), if_pos (List.isSuffixOf_iff_suffix.2 h)]
  have e1 : ("SD".toList).map Char.toLower = "sd".toList := by decide +kernel
  have e2 : ("VD".toList).map Char.toLower = "vd".toList := by decide +kernel
  have e3 : ("vd".toList : Str) ≠ "sd".toList := by decide +kernel
  have hSD : ∀ fs : List GFile, (∀ f ∈ fs, ".hdf".toList <:+ f.hdf.name) →
      genericNames valid (some "SD".toList) fs = .ok (fs.flatMap (fun f => f.hdf.sd.map Prod.fst)) := by
    intro fs
    induction fs with
    | nil => intro _; rfl
    | cons f fs ih =>
      intro h
      have h1 : genericFile valid (some "SD".toList) f = .ok (f.hdf.sd.map Prod.fst, some "SD".toList) := by
        rw [hfile f _ (h f List.mem_cons_self), Option.getD_some, e1, hdfFileVariables, if_pos (Or.inr rfl)]
        simp
      simp only [genericNames, h1, ih (fun g hg => h g (List.mem_cons_of_mem _ hg)), List.flatMap_cons]
  refine ⟨?_, hSD fs hname, ?_, ?_⟩
  · cases fs with
    | nil => rfl
    | cons f fs =>
      have h1 : genericFile valid none f = .ok (f.hdf.sd.map Prod.fst, some "SD".toList) := by
        rw [hfile f _ (hname f List.mem_cons_self), Option.getD_none, e1, hdfFileVariables, if_pos (Or.inr rfl)]
        simp
      simp only [genericNames, h1, hSD fs (fun g hg => hname g (List.mem_cons_of_mem _ hg)), List.flatMap_cons]
  · induction fs with
    | nil => rfl
    | cons f fs ih =>
      have h1 : genericFile valid (some "VD".toList) f = .ok (f.hdf.vd.map Prod.fst, some "VD".toList) := by
        rw [hfile f _ (hname f List.mem_cons_self), Option.getD_some, e2, hdfFileVariables, if_neg, if_pos (Or.inr rfl)]
        · simp
        · rintro (h | h)
          · cases h
          · exact e3 (Option.some.inj h)
      simp only [genericNames, h1, ih (fun g hg => hname g (List.mem_cons_of_mem _ hg)), List.flatMap_cons]
  · intro dt h1 h2 hne
    obtain ⟨f, fs', rfl⟩ := List.exists_cons_of_ne_nil hne
    have h3 : genericFile valid (some dt) f = .error (.hdf .value) := by
      rw [hfile f _ (hname f List.mem_cons_self), Option.getD_some, hdfFileVariables, if_neg, if_neg]
      · rintro (h | h)
        · cases h
        · exact h2 (Option.some.inj h)
      · rintro (h | h)
        · cases h
        · exact h1 (Option.some.inj h)
    simp only [genericNames, h3]

/-! ## Violations -/

def modisFile (name : String) (la : List Nat) (vs : List (String × List Nat)) : F :=
  ⟨⟨name.toList, [("Latitude".toList, ⟨[], la⟩), ("Longitude".toList, ⟨[], la⟩), ("Scan_Start_Time".toList, ⟨[], la⟩)] ++
    vs.map (fun x => (x.1.toList, ⟨[], x.2⟩)), []⟩, none⟩

/-- C107 violated: a variable of the second file only is listed but cannot be read. -/
theorem c107_some_files_violated : ∃ (fs : List F) (v : Str) (l : List Str), modisL2Names fs = .ok l ∧ v ∈ l ∧
    modisL2Object fs v = .error .invalidVariable :=
  ⟨[modisFile "a.hdf" [5, 3] [], modisFile "b.hdf" [5, 3] [("aod", [5, 3])]], "aod".toList,
    ["Latitude".toList, "Longitude".toList, "Scan_Start_Time".toList, "Latitude".toList, "Longitude".toList, "Scan_Start_Time".toList,
      "aod".toList], by decide +kernel⟩

/-- C107 violated: shapes are compared with those of the first file only, so that a variable off the grid of its file is listed; the
data read have another shape than their coordinates. -/
theorem c107_first_shape_violated : ∃ (fs : List F) (v : Str) (l : List Str), modisL2Names fs = .ok l ∧ v ∈ l ∧
    modisL2Object fs v = .ok ([6, 3], [[9, 3], [9, 3], [9, 3]]) :=
  ⟨[modisFile "a.hdf" [5, 3] [("aod", [1, 3])], modisFile "b.hdf" [4, 3] [("aod", [5, 3])]], "aod".toList,
    ["Latitude".toList, "Longitude".toList, "Scan_Start_Time".toList, "aod".toList], by decide +kernel⟩

/-- C107 violated: a field of three dimensions can be read but is not listed. -/
theorem c107_bands_violated : ∃ (f : F) (v : Str) (l : List Str), modisL2Names [f] = .ok l ∧ v ∉ l ∧
    ∃ r, modisL2Object [f] v = .ok r :=
  ⟨modisFile "a.hdf" [5, 3] [("aod", [2, 5, 3])], "aod".toList, ["Latitude".toList, "Longitude".toList, "Scan_Start_Time".toList],
    by decide +kernel, by decide +kernel, _, rfl⟩

def caliopFile (vs : List (String × List Nat)) : F :=
  ⟨⟨"c.hdf".toList, [("Latitude".toList, ⟨[], [4, 3]⟩), ("Longitude".toList, ⟨[], [4, 3]⟩), ("Profile_Time".toList, ⟨[], [4, 3]⟩),
    ("Pressure".toList, ⟨[], [4, 2]⟩)] ++ vs.map (fun x => (x.1.toList, ⟨[], x.2⟩)), []⟩, some 2⟩

/-- C107 violated: column and mixed resolution variables of CALIOP, for which there is special code, are not listed. -/
theorem c107_caliop_special_violated : ∃ (f : F) (l : List Str), caliopNames [f] = .ok l ∧
    "Column_Optical_Depth".toList ∉ l ∧ calL2Object true [f] "Column_Optical_Depth".toList = .ok ([4, 1], [[4], [4], [4]]) ∧
    "CAD_Score".toList ∉ l ∧ calL2Object true [f] "CAD_Score".toList = .ok ([4, 2], [[4, 2], [4, 2], [4, 2], [4, 2], [4, 2]]) :=
  ⟨caliopFile [("Column_Optical_Depth", [4, 1]), ("CAD_Score", [4, 2, 2])], ["Pressure".toList], by decide +kernel⟩

def cloudsatFileEx (name : String) (n : Nat) (vs : List (String × Nat)) (ss : List (String × List Nat)) : F :=
  ⟨⟨name.toList, ss.map (fun x => (x.1.toList, ⟨[], x.2⟩)),
    [("Latitude".toList, ⟨[], [n]⟩), ("Longitude".toList, ⟨[], [n]⟩), ("TAI_start".toList, ⟨[], [1]⟩), ("Profile_time".toList, ⟨[], [n]⟩)] ++
      vs.map (fun x => (x.1.toList, ⟨[], [x.2]⟩))⟩, none⟩

/-- C107 violated: without heights the data sets of CloudSat can be read but are not listed; without latitudes as vdata the listing
of all files ends with an IndexError. -/
theorem c107_cloudsat_violated :
    (∃ (f : F) (v : Str) (l : List Str), cloudsatNames [f] = .ok l ∧ v ∉ l ∧ csObject [f] v = .ok ([4, 5], [[4], [4], [4]])) ∧
    ∃ f g : F, (∃ l, cloudsatNames [f] = .ok l) ∧ cloudsatNames [f, g] = .error .index :=
  ⟨⟨cloudsatFileEx "a.hdf" 4 [] [("rain", [4, 5])], "rain".toList, ["Latitude".toList, "Longitude".toList, "Profile_time".toList],
    by decide +kernel⟩,
   cloudsatFileEx "a.hdf" 4 [] [], ⟨⟨"b.hdf".toList, [], []⟩, none⟩, ⟨_, rfl⟩, by decide +kernel⟩

/-- C107 violated: the extension is compared exactly; a file called `.HDF` or `.hdf5` (or with any other extension) ends with a TypeError. -/
theorem c107_extension_violated (valid : Option (List Str)) (dt : Option Str) :
    genericNames valid dt [⟨.mk [("aod".toList, [])] .nil, ⟨"a.HDF".toList, [("aod".toList, ⟨[], [3]⟩)], []⟩⟩] = .error .type := by
  rfl

/-! ## Examples -/

example : modisL2Names [modisFile "a.hdf" [5, 3] [("aod", [5, 3]), ("n", [2])]] =
    .ok ["Latitude".toList, "Longitude".toList, "Scan_Start_Time".toList, "aod".toList] := by decide +kernel

example : modisL2Object [modisFile "a.hdf" [5, 3] [("aod", [5, 3])], modisFile "b.hdf" [4, 3] [("aod", [4, 3])]] "aod".toList =
    .ok ([9, 3], [[9, 3], [9, 3], [9, 3]]) := by decide +kernel

example : calL2Object true [caliopFile [("Ext", [4, 2])], caliopFile [("Ext", [4, 2])]] "Ext".toList =
    .ok ([8, 2], [[8, 2], [8, 2], [8, 2], [8, 2], [8, 2]]) := by decide +kernel

example : calL2Object true [caliopFile [("CAD_Score", [4, 2, 2])], caliopFile [("CAD_Score", [4, 2, 2])]] "CAD_Score".toList =
    .ok ([8, 2], [[8, 2], [8, 2], [8, 2], [8, 2], [8, 2]]) := by decide +kernel

example : csObject [cloudsatFileEx "a.hdf" 4 [("rain", 4)] [], cloudsatFileEx "b.hdf" 2 [("rain", 2)] []] "rain".toList =
    .ok ([6], [[6], [6], [6]]) := by decide +kernel

example : csObject [cloudsatFileEx "a.hdf" 4 [] [("Height", [4, 7]), ("rain", [4, 7])], cloudsatFileEx "b.hdf" 2 [] [("Height", [2, 7]), ("rain", [2, 7])]]
    "rain".toList = .ok ([6, 7], [[6, 7], [6, 7], [6, 7], [6, 7]]) := by decide +kernel

example : csObject [cloudsatFileEx "a.hdf" 0 [] [("Height", [0, 7]), ("rain", [0, 7])]] "rain".toList = .error .index := by decide +kernel

example : genericNames (some ["x".toList]) none [⟨.mk [("aod".toList, ["x".toList]), ("s".toList, ["sensor".toList])] .nil,
    ⟨"a.nc".toList, [], []⟩⟩, ⟨.mk [] .nil, ⟨"b.hdf".toList, [("v".toList, ⟨[], [3]⟩)], [("vd".toList, ⟨[], [3]⟩)]⟩⟩] =
    .ok ["aod".toList, "v".toList] := by decide +kernel

end Cis.Listing
