import Mathlib.Data.Rat.Defs
import Mathlib.Data.List.Basic
set_option linter.unusedSectionVars false
set_option linter.unusedSimpArgs false
/-!
Points in text files. Model of `ASCII_Hyperpoints` (cis/data_io/products/products.py:145-205), of the part of `numpy.genfromtxt` it uses
(lines without their ends; comments from `#` to the end; empty lines skipped; all remaining lines must have five fields; a number that cannot be
read becomes NaN, a time that cannot be read becomes None, and a blank field is masked; one line gives an array without dimensions), of
`utils.concatenate` (cis/utils.py:21-43), and of the removal of points without coordinates (cis/data_io/ungridded_data.py:466-500, 863-882).
Property C115.

`num` is Python's `float`: `none` is a ValueError and `some none` NaN. `parse` is `dateutil.parser.parse`; `conv` is the conversion of an
array of times to standard time, of which only what it does to arrays of proper times is used.
-/
namespace Cis.Ascii

abbrev Str := List Char

/-- Errors. -/
inductive Err where
  | io (file : Str)
  | type
  | value
  | index
  | other
deriving DecidableEq

/-- An element of a masked array; the value `none` is NaN or None. -/
structure Cell (A : Type) where
  masked : Bool
  val : Option A
deriving DecidableEq

/-- A row of the file. -/
structure Row (T : Type) where
  lat : Cell ℚ
  lon : Cell ℚ
  alt : Cell ℚ
  time : Cell T
  value : Cell ℚ
deriving DecidableEq

/-- `s.split(',')`. -/
def splitComma : Str → List Str
  | [] => [[]]
  | c :: s => if c = ',' then [] :: splitComma s else (splitComma s).modifyHead (c :: ·)

/-- The fields of a line (`LineSplitter` of numpy); no field: the line is skipped. -/
def fields (line : Str) : List Str :=
  match line.takeWhile (· ≠ '#') with
  | [] => []
  | l => splitComma l

/-- A blank field is masked: `v.strip() in missing_values`. -/
def blank (s : Str) : Bool := s.all Char.isWhitespace

variable {T : Type} (num : Str → Option (Option ℚ)) (parse : Str → Option T)

/-- A number, `_loose_call`. -/
def numCell (s : Str) : Cell ℚ := ⟨blank s, (num s).getD none⟩

/-- A time. -/
def timeCell (s : Str) : Cell T := ⟨blank s, parse s⟩

/-- A row of five fields. -/
def rowOf : List Str → Option (Row T)
  | [a, b, c, d, e] => some ⟨numCell num a, numCell num b, numCell num c, timeCell parse d, numCell num e⟩
  | _ => none

/-- `genfromtxt` in `try`, any error being an IOError with the name of the file (products.py:160-168). -/
def readFile (f : Str × List Str) : Except Err (List (Row T)) :=
  match (f.2.map fields).filter (· ≠ []) with
  | [] => .error (.io f.1)
  | l => match l.mapM (rowOf num parse) with
    | none => .error (.io f.1)
    | some rows => .ok rows

/-- `utils.concatenate` (products.py:170): arrays without dimensions (of one row) can not be concatenated. -/
def concatRows : List (List (Row T)) → Except Err (List (Row T))
  | [] => .error .index
  | [a] => .ok a
  | l => if l.any (fun a => a.length = 1) then .error .value else .ok l.flatten

/-- The array of all rows, with its length (products.py:157-171). -/
def readAll (files : List (Str × List Str)) : Except Err (List (Row T)) := do
  let l ← files.mapM (readFile num parse)
  let rows ← concatRows l
  if rows.length = 1 then .error .type else .ok rows

variable (conv : List (Cell T) → Except Err (List (Cell ℚ)))

/-- A point as it is read: coordinates, and the element of the masked array of values. -/
structure Point where
  lat : ℚ
  lon : ℚ
  alt : ℚ
  time : ℚ
  value : Cell ℚ
deriving DecidableEq

/-- A coordinate that is neither masked nor NaN. -/
def Cell.present {A : Type} (c : Cell A) : Option A := if c.masked then none else c.val

/-- Points with a missing coordinate are removed (ungridded_data.py:476-498). -/
def keep (r : Row T) (t : Cell ℚ) : Option Point := do
  let la ← r.lat.present
  let lo ← r.lon.present
  let al ← r.alt.present
  let ti ← t.present
  some ⟨la, lo, al, ti, r.value⟩

/-- `create_data_object` (products.py:173-199). -/
def createData (files : List (Str × List Str)) : Except Err (List Point) := do
  let rows ← readAll num parse files
  let ts ← conv (rows.map Row.time)
  .ok ((rows.zip ts).filterMap (fun x => keep x.1 x.2))

/-- `create_coords` (products.py:149-195; ungridded_data.py:863-882). -/
def createCoords (files : List (Str × List Str)) : Except Err (List (ℚ × ℚ × ℚ × ℚ)) := do
  let rows ← readAll num parse files
  let ts ← conv (rows.map Row.time)
  .ok ((rows.zip ts).filterMap (fun x => (keep x.1 x.2).map (fun p => (p.lat, p.lon, p.alt, p.time))))

/-! ## Specification -/

/-- What is written in a line: `none` for an empty field. -/
structure Spec.Written (T : Type) where
  lat : Option ℚ
  lon : Option ℚ
  alt : Option ℚ
  time : T
  value : Option ℚ

/-- A field for a number: blank, or the text of a number. -/
def Spec.NumField (s : Str) (x : Option ℚ) : Prop :=
  ',' ∉ s ∧ '#' ∉ s ∧ ((x = none ∧ ∀ c ∈ s, c.isWhitespace) ∨ (∃ q, x = some q ∧ num s = some (some q) ∧ ∃ c ∈ s, ¬ c.isWhitespace))

/-- A field for a time. -/
def Spec.TimeField (s : Str) (t : T) : Prop := ',' ∉ s ∧ '#' ∉ s ∧ parse s = some t ∧ ∃ c ∈ s, ¬ c.isWhitespace

/-- The line of a point: five fields with commas between them, and perhaps a comment. -/
def Spec.PointLine (line : Str) (p : Spec.Written T) : Prop :=
  ∃ a b c d e comment, line = a ++ [','] ++ b ++ [','] ++ c ++ [','] ++ d ++ [','] ++ e ++ comment ∧
    (comment = [] ∨ ∃ r, comment = '#' :: r) ∧
    Spec.NumField num a p.lat ∧ Spec.NumField num b p.lon ∧ Spec.NumField num c p.alt ∧ Spec.TimeField parse d p.time ∧
    Spec.NumField num e p.value

/-- The lines of a file with points: lines of points in order, and empty lines or comments between them. -/
inductive Spec.FileOf : List Str → List (Spec.Written T) → Prop
  | nil : Spec.FileOf [] []
  | empty {l p} : Spec.FileOf l p → Spec.FileOf ([] :: l) p
  | comment {l p} (r : Str) : Spec.FileOf l p → Spec.FileOf (('#' :: r) :: l) p
  | point {l p line q} : Spec.PointLine num parse line q → Spec.FileOf l p → Spec.FileOf (line :: l) (q :: p)

/-- The point that is read for what is written: none if a coordinate is missing. -/
def Spec.pointOf (std : T → ℚ) (w : Spec.Written T) : Option Point :=
  match w.lat, w.lon, w.alt with
  | some la, some lo, some al => some ⟨la, lo, al, std w.time, ⟨w.value.isNone, w.value⟩⟩
  | _, _, _ => none

/-! ## Proofs -/

theorem splitComma_plain (s : Str) (h : ',' ∉ s) : splitComma s = [s] := by
  induction s with
  | nil => rfl
  | cons c s ih =>
    rw [List.mem_cons, not_or] at h
    unfold splitComma
    rw [if_neg (fun e => h.1 e.symm), ih h.2]
    rfl

theorem splitComma_append (s t : Str) (h : ',' ∉ s) : splitComma (s ++ ',' :: t) = s :: splitComma t := by
  induction s with
  | nil => rw [List.nil_append]; conv => lhs; unfold splitComma; rw [if_pos rfl]
  | cons c s ih =>
    rw [List.mem_cons, not_or] at h
    rw [List.cons_append]
    conv => lhs; unfold splitComma
    rw [if_neg (fun e => h.1 e.symm), ih h.2]
    rfl

theorem blank_iff (s : Str) : blank s = true ↔ ∀ c ∈ s, c.isWhitespace := by
  unfold blank; rw [List.all_eq_true]

theorem takeWhile_plain (s comment : Str) (h : '#' ∉ s) (hc : comment = [] ∨ ∃ r, comment = '#' :: r) :
    (s ++ comment).takeWhile (· ≠ '#') = s := by
  induction s with
  | nil => rcases hc with rfl | ⟨r, rfl⟩ <;> simp
  | cons c s ih =>
    rw [List.mem_cons, not_or] at h
    rw [List.cons_append, List.takeWhile_cons, ih h.2]
    simp [Ne.symm h.1]

/-- The row of what is written. -/
def rowW (w : Spec.Written T) : Row T :=
  ⟨⟨w.lat.isNone, w.lat⟩, ⟨w.lon.isNone, w.lon⟩, ⟨w.alt.isNone, w.alt⟩, ⟨false, some w.time⟩, ⟨w.value.isNone, w.value⟩⟩

theorem numCell_spec (hblank : ∀ s, blank s = true → num s = none) (s : Str) (x : Option ℚ) (h : Spec.NumField num s x) :
    numCell num s = ⟨x.isNone, x⟩ := by
  obtain ⟨-, -, ⟨rfl, h⟩ | ⟨q, rfl, hq, c, hc, hw⟩⟩ := h
  · have := (blank_iff s).2 h
    simp [numCell, this, hblank s this]
  · have : blank s = false := by
      rw [Bool.eq_false_iff]; intro hb; exact hw ((blank_iff s).1 hb c hc)
    simp [numCell, this, hq]

theorem timeCell_spec (s : Str) (t : T) (h : Spec.TimeField parse s t) : timeCell parse s = ⟨false, some t⟩ := by
  obtain ⟨-, -, hp, c, hc, hw⟩ := h
  have : blank s = false := by
    rw [Bool.eq_false_iff]; intro hb; exact hw ((blank_iff s).1 hb c hc)
  simp [timeCell, this, hp]

theorem fields_point (hblank : ∀ s, blank s = true → num s = none) (line : Str) (w : Spec.Written T) (h : Spec.PointLine num parse line w) :
    fields line ≠ [] ∧ rowOf num parse (fields line) = some (rowW w) := by
  obtain ⟨a, b, c, d, e, comment, rfl, hcom, ha, hb, hc, hd, he⟩ := h
  have hf : fields (a ++ [','] ++ b ++ [','] ++ c ++ [','] ++ d ++ [','] ++ e ++ comment) = [a, b, c, d, e] := by
    unfold fields
    rw [takeWhile_plain _ _ (by simp [ha.2.1, hb.2.1, hc.2.1, hd.2.1, he.2.1]) hcom]
    have hne : ∃ x y, a ++ [','] ++ b ++ [','] ++ c ++ [','] ++ d ++ [','] ++ e = x :: y := by
      cases a <;> simp
    obtain ⟨x, y, hxy⟩ := hne
    rw [hxy]
    simp only
    rw [← hxy]
    simp only [List.append_assoc, List.singleton_append, List.cons_append, List.nil_append]
    rw [splitComma_append _ _ ha.1, splitComma_append _ _ hb.1, splitComma_append _ _ hc.1, splitComma_append _ _ hd.1, splitComma_plain _ he.1]
  rw [hf]
  refine ⟨by simp, ?_⟩
  simp only [rowOf, rowW, numCell_spec num hblank a _ ha, numCell_spec num hblank b _ hb, numCell_spec num hblank c _ hc,
    numCell_spec num hblank e _ he, timeCell_spec parse d _ hd]

theorem file_rows (hblank : ∀ s, blank s = true → num s = none) (lines : List Str) (ws : List (Spec.Written T))
    (h : Spec.FileOf num parse lines ws) :
    ((lines.map fields).filter (· ≠ [])).mapM (rowOf num parse) = some (ws.map rowW) ∧
      ((lines.map fields).filter (· ≠ []) = [] ↔ ws = []) := by
  induction h with
  | nil => exact ⟨rfl, by simp⟩
  | empty h ih => simpa [fields] using ih
  | comment r h ih => simpa [fields] using ih
  | point hp h ih =>
    obtain ⟨h1, h2⟩ := fields_point num parse hblank _ _ hp
    constructor
    · rw [List.map_cons, List.filter_cons_of_pos (by simpa using h1), List.mapM_cons, h2, ih.1]
      rfl
    · simp [h1]

theorem readFile_ok (hblank : ∀ s, blank s = true → num s = none) (f : Str × List Str) (ws : List (Spec.Written T))
    (h : Spec.FileOf num parse f.2 ws) (hne : ws ≠ []) : readFile num parse f = .ok (ws.map rowW) := by
  obtain ⟨h1, h2⟩ := file_rows num parse hblank _ _ h
  unfold readFile
  split
  · rename_i e; exact absurd (h2.1 e) hne
  · rw [h1]

theorem files_ok (hblank : ∀ s, blank s = true → num s = none) (files : List (Str × List Str)) (ws : List (List (Spec.Written T)))
    (h : List.Forall₂ (fun f w => Spec.FileOf num parse f.2 w ∧ 2 ≤ w.length) files ws) :
    files.mapM (readFile num parse) = .ok (ws.map (List.map rowW)) := by
  induction h with
  | nil => rfl
  | cons h _ ih =>
    rw [List.mapM_cons, readFile_ok num parse hblank _ _ h.1 (by rintro rfl; simp at h), ih]
    rfl

theorem readAll_ok (hblank : ∀ s, blank s = true → num s = none) (files : List (Str × List Str)) (ws : List (List (Spec.Written T)))
    (h : List.Forall₂ (fun f w => Spec.FileOf num parse f.2 w ∧ 2 ≤ w.length) files ws) (hne : files ≠ []) :
    readAll num parse files = .ok (ws.flatten.map rowW) := by
  have h1 := files_ok num parse hblank files ws h
  have hlen : ∀ w ∈ ws, 2 ≤ w.length := by
    intro w hw
    clear h1 hne
    induction h with
    | nil => cases hw
    | cons h _ ih =>
      rcases List.mem_cons.1 hw with rfl | hw
      · exact h.2
      · exact ih hw
  have hc : concatRows (ws.map (List.map rowW)) = .ok (ws.flatten.map rowW) := by
    cases h with
    | nil => exact absurd rfl hne
    | cons h t =>
      cases t with
      | nil => simp [concatRows]
      | cons h' t' =>
        simp only [List.map_cons, concatRows]
        rw [if_neg]
        · simp [List.map_flatten]
        · rw [← List.map_cons, ← List.map_cons, Bool.not_eq_true, List.any_eq_false]
          intro a ha
          obtain ⟨w, hw, rfl⟩ := List.mem_map.1 ha
          have := hlen w hw
          simp only [List.length_map, decide_eq_true_eq]
          omega
  have hl : (ws.flatten.map (rowW (T := T))).length ≠ 1 := by
    cases h with
    | nil => exact absurd rfl hne
    | cons h t => simp only [List.flatten_cons, List.map_append, List.length_append, List.length_map]; have := h.2; omega
  unfold readAll
  simp only [h1, hc, bind, Except.bind]
  rw [if_neg hl]

theorem keep_spec (std : T → ℚ) (w : Spec.Written T) : keep (rowW w) ⟨false, some (std w.time)⟩ = Spec.pointOf std w := by
  obtain ⟨la, lo, al, t, v⟩ := w
  cases la <;> cases lo <;> cases al <;> rfl

theorem zip_keep {B : Type} (std : T → ℚ) (f : Point → B) (ws : List (Spec.Written T)) :
    ((ws.map rowW).zip (ws.map (fun w => (⟨false, some (std w.time)⟩ : Cell ℚ)))).filterMap (fun x => (keep x.1 x.2).map f) =
      ws.filterMap (fun w => (Spec.pointOf std w).map f) := by
  induction ws with
  | nil => rfl
  | cons w ws ih =>
    rw [List.map_cons, List.map_cons, List.zip_cons_cons, List.filterMap_cons, List.filterMap_cons, ih]
    simp only [keep_spec]

/-- C115, for files of two points or more: reading gives the points that are written, of all files, in order, in standard time, without those
that lack a coordinate; a missing value is masked. Empty lines and comments do not matter. -/
theorem c115_points (hblank : ∀ s, blank s = true → num s = none) (std : T → ℚ)
    (hconv : ∀ ts : List T, conv (ts.map (fun t => ⟨false, some t⟩)) = .ok (ts.map (fun t => ⟨false, some (std t)⟩)))
    (files : List (Str × List Str)) (ws : List (List (Spec.Written T)))
    (h : List.Forall₂ (fun f w => Spec.FileOf num parse f.2 w ∧ 2 ≤ w.length) files ws) (hne : files ≠ []) :
    createData num parse conv files = .ok (ws.flatten.filterMap (Spec.pointOf std)) ∧
      createCoords num parse conv files =
        .ok ((ws.flatten.filterMap (Spec.pointOf std)).map (fun p => (p.lat, p.lon, p.alt, p.time))) := by
  have h1 := readAll_ok num parse hblank files ws h hne
  have h2 : conv ((ws.flatten.map rowW).map Row.time) = .ok (ws.flatten.map (fun w => ⟨false, some (std w.time)⟩)) := by
    have := hconv (ws.flatten.map Spec.Written.time)
    rw [List.map_map, List.map_map] at this
    rw [List.map_map]
    exact this
  constructor
  · unfold createData
    simp only [h1, h2, bind, Except.bind]
    have := zip_keep std id ws.flatten
    simp only [Option.map_id_fun, id] at this
    rw [this]
  · unfold createCoords
    simp only [h1, h2, bind, Except.bind]
    rw [zip_keep, List.map_filterMap]

/-- C115: a line with another number of fields is an error that names the file; nothing is read. -/
theorem c115_fields (f : Str × List Str) (line : Str) (hl : line ∈ f.2) (h0 : fields line ≠ []) (h5 : (fields line).length ≠ 5) :
    readFile num parse f = .error (.io f.1) := by
  have hm : fields line ∈ (f.2.map fields).filter (· ≠ []) := by
    rw [List.mem_filter]
    exact ⟨List.mem_map_of_mem hl, by simpa using h0⟩
  have hr : rowOf num parse (fields line) = none := by
    unfold rowOf
    split
    · rename_i e; rw [e] at h5; simp at h5
    · rfl
  have key : ∀ l : List (List Str), fields line ∈ l → l.mapM (rowOf num parse) = none := by
    intro l
    induction l with
    | nil => intro h; cases h
    | cons x l ih =>
      intro h
      rw [List.mapM_cons]
      rcases List.mem_cons.1 h with h | h
      · rw [← h, hr]; rfl
      · rw [ih h]
        cases rowOf num parse x <;> rfl
  unfold readFile
  split
  · rfl
  · rename_i l hne
    rw [key _ hm]

/-- C115: an error in one of the files is the error of the whole. -/
theorem c115_error (a b : List (Str × List Str)) (f : Str × List Str) (e : Err)
    (ha : ∀ x ∈ a, ∃ r, readFile num parse x = .ok r) (hf : readFile num parse f = .error e) :
    createData num parse conv (a ++ f :: b) = .error e ∧ createCoords num parse conv (a ++ f :: b) = .error e := by
  have key : (a ++ f :: b).mapM (readFile num parse) = .error e := by
    induction a with
    | nil => rw [List.nil_append, List.mapM_cons, hf]; rfl
    | cons x a ih =>
      obtain ⟨r, hr⟩ := ha x List.mem_cons_self
      rw [List.cons_append, List.mapM_cons, hr, ih (fun y hy => ha y (List.mem_cons_of_mem _ hy))]
      rfl
  unfold createData createCoords readAll
  simp only [key, bind, Except.bind, and_self]

/-- C115 violated: a file with one point can not be read, alone or with others: an error that names neither file nor cause. -/
theorem c115_one_point_violated (hblank : ∀ s, blank s = true → num s = none) (f g : Str × List Str) (w : Spec.Written T) (ws : List (Spec.Written T))
    (hf : Spec.FileOf num parse f.2 [w]) (hg : Spec.FileOf num parse g.2 ws) (hne : ws ≠ []) :
    createData num parse conv [f] = .error .type ∧ createData num parse conv [f, g] = .error .value ∧
      createData num parse conv [g, f] = .error .value := by
  have h1 := readFile_ok num parse hblank f [w] hf (by simp)
  have h2 := readFile_ok num parse hblank g ws hg hne
  refine ⟨?_, ?_, ?_⟩ <;> unfold createData readAll <;>
    simp [List.mapM_cons, h1, h2, bind, Except.bind, pure, Except.pure, concatRows]

/-! ## Examples and further violations -/

/-- Some numbers. -/
def exNum (s : Str) : Option (Option ℚ) :=
  if s = "10".toList then some (some 10) else if s = "20".toList then some (some 20) else if s = "30".toList then some (some 30) else none

/-- One time. -/
def exParse (s : Str) : Option Nat := if s = "2000-01-01".toList then some 7 else none

/-- Its standard time. -/
def exConv (l : List (Cell Nat)) : Except Err (List (Cell ℚ)) :=
  if l.any (fun c => c.val = none) then .error .other else .ok (l.map (fun c => ⟨false, c.val.map (fun n : Nat => (n : ℚ))⟩))

theorem exNum_blank (s : Str) (h : blank s = true) : exNum s = none := by
  unfold exNum
  split
  · rename_i e; subst e; exact absurd h (by decide +kernel)
  · split
    · rename_i e; subst e; exact absurd h (by decide +kernel)
    · split
      · rename_i e; subst e; exact absurd h (by decide +kernel)
      · rfl

theorem exConv_ok (ts : List Nat) :
    exConv (ts.map (fun t => ⟨false, some t⟩)) = .ok (ts.map (fun t : Nat => (⟨false, some (t : ℚ)⟩ : Cell ℚ))) := by
  unfold exConv
  rw [if_neg]
  · rw [List.map_map]; rfl
  · simp

example : (createData exNum exParse exConv [("a.txt".toList, ["# points".toList, "10,20,30,2000-01-01,10".toList, [], "10,20, ,2000-01-01,10".toList]),
    ("b.txt".toList, ["10,30,30,2000-01-01,# no value".toList, "20,20,20,2000-01-01,20".toList])]).toOption =
      some [⟨10, 20, 30, 7, ⟨false, some 10⟩⟩, ⟨10, 30, 30, 7, ⟨true, none⟩⟩, ⟨20, 20, 20, 7, ⟨false, some 20⟩⟩] := by decide +kernel

example : Spec.FileOf exNum exParse ["# points".toList, "10,20,30,2000-01-01,10".toList, [], "10,20, ,2000-01-01,10".toList]
    [⟨some 10, some 20, some 30, 7, some 10⟩, ⟨some 10, some 20, none, 7, some 10⟩] := by
  refine .comment " points".toList (.point ⟨"10".toList, "20".toList, "30".toList, "2000-01-01".toList, "10".toList, [], by decide +kernel, .inl rfl,
    ?_, ?_, ?_, ?_, ?_⟩ (.empty (.point ⟨"10".toList, "20".toList, " ".toList, "2000-01-01".toList, "10".toList, [], by decide +kernel, .inl rfl,
    ?_, ?_, ?_, ?_, ?_⟩ .nil)))
  all_goals first
    | exact ⟨by decide +kernel, by decide +kernel, .inr ⟨_, rfl, by decide +kernel, by decide +kernel⟩⟩
    | exact ⟨by decide +kernel, by decide +kernel, .inl ⟨rfl, by decide +kernel⟩⟩
    | exact ⟨by decide +kernel, by decide +kernel, by decide +kernel, by decide +kernel⟩

/-- C115 violated: what is not a number is no error. A point with such a coordinate is left out, and such a value is not masked but NaN. -/
theorem c115_unreadable_violated :
    (createData exNum exParse exConv [("a.txt".toList, ["10,2O,30,2000-01-01,10".toList, "10,20,30,2000-01-01,1O".toList])]).toOption =
      some [⟨10, 20, 30, 7, ⟨false, none⟩⟩] := by decide +kernel

/-- C115 violated: a time that is not one is an error that does not name the file. -/
theorem c115_time_violated :
    ∀ name : Str, createData exNum exParse exConv [(name, ["10,20,30,yesterday,10".toList, "10,20,30,2000-01-01,10".toList])] = .error .other := by
  intro name
  rfl

end Cis.Ascii
