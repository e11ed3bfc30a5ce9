import Verif.Str.Basic
import Mathlib.Tactic
set_option linter.unusedSectionVars false
set_option linter.unusedSimpArgs false
/-!
Model of the names of the columns of AERONET files: `get_aeronet_version`, `get_aeronet_file_variables`
(cis/data_io/aeronet.py:3-131). Property C80. A file is a list of lines without their line feeds.
-/
namespace Cis.Aeronet
open Cis.Str

/-- `defaultdeletechars` (aeronet.py:3). -/
def deleteChars : Str := "~!@#$%^&*=+~\\|]}[{'; /?.>,<".toList

/-- Exceptions. -/
inductive Err
  | value        -- ValueError
  | fileFormat   -- FileFormatError
  | index        -- IndexError
  | key          -- KeyError
deriving DecidableEq

/-- `sub in s`. -/
def contains (sub s : Str) : Bool := s.tails.any (fun t => sub.isPrefixOf t)

/-- The formats. -/
inductive Version
  | aeronetSda2 | aeronet2 | manSda2 | man2 | aeronetSda3 | aeronet3
deriving DecidableEq

/-- `AERONET_HEADER_LENGTH` (aeronet.py:5-6). -/
def headerLength : Version → Nat
  | .aeronetSda2 => 5 | .aeronet2 => 5 | .manSda2 => 5 | .man2 => 5 | .aeronetSda3 => 7 | .aeronet3 => 7

/-- `get_aeronet_version` (aeronet.py:45-70). -/
def getVersion (lines : List Str) : Except Err Version :=
  match lines with
  | first :: second :: _ =>
    let man := contains "Maritime Aerosol Network".toList first
    let sda := contains "SDA".toList first
    if man then .ok (if sda then .manSda2 else .man2)
    else if ("AERONET Version 3".toList).isPrefixOf first then .ok (if sda then .aeronetSda3 else .aeronet3)
    else if ("Version 2 Direct Sun Algorithm".toList).isPrefixOf second then .ok (if sda then .aeronetSda2 else .aeronet2)
    else .error .fileFormat
  | _ => .error .value

/-- `AERONET_COORDINATE_RENAME` (aeronet.py:13-34). -/
def renameTable : List (Str × Str) := [
  ("Date(dd:mm:yy)".toList, "date".toList), ("Date(dd-mm-yy)".toList, "date".toList), ("Date(dd:mm:yyyy)".toList, "date".toList),
  ("Date(dd-mm-yyyy)".toList, "date".toList), ("Date_(dd:mm:yy)".toList, "date".toList), ("Date_(dd-mm-yy)".toList, "date".toList),
  ("Date_(dd:mm:yyyy)".toList, "date".toList), ("Date_(dd-mm-yyyy)".toList, "date".toList), ("Time(hh:mm:ss)".toList, "time".toList),
  ("Time(hh-mm-ss)".toList, "time".toList), ("Time_(hh:mm:ss)".toList, "time".toList), ("Time_(hh-mm-ss)".toList, "time".toList),
  ("Latitude".toList, "latitude".toList), ("Longitude".toList, "longitude".toList), ("Latitude(Degrees)".toList, "latitude".toList),
  ("Longitude(Degrees)".toList, "longitude".toList), ("Site_Latitude(Degrees)".toList, "latitude".toList),
  ("Site_Longitude(Degrees)".toList, "longitude".toList), ("Site_Elevation(m)".toList, "altitude".toList),
  ("Elevation(m)".toList, "altitude".toList)]

/-- `AERONET_COORDINATE_RENAME[var]`, or the name itself (aeronet.py:125-129). -/
def rename (v : Str) : Str :=
  match renameTable.find? (fun e => e.1 == v) with
  | some e => e.2
  | none => v

/-- Removing the nonstandard characters, one after the other, then `strip` (aeronet.py:119-123). -/
def clean (v : Str) : Str := strip (deleteChars.foldl (fun s c => s.filter (· != c)) v)

/-- The loop over the variables (aeronet.py:112-129); `rep` is `repeated_items`. -/
def nameLoop : List Str → (Str → Option Int) → List Str
  | [], _ => []
  | v :: t, rep =>
    match rep v with
    | some n =>
      rename (clean (v ++ '.' :: Nat.toDigits 10 (n + 1).toNat)) :: nameLoop t (fun w => if w = v then some (n + 1) else rep w)
    | none => rename (clean v) :: nameLoop t rep

/-- `repeated_items` (aeronet.py:109). -/
def repeatedItems (vars : List Str) (v : Str) : Option Int := if 1 < vars.count v then some (-1) else none

/-- The names in the header, with the unlisted columns of SDA files (aeronet.py:93-107). -/
def columns (header data : Str) : Except Err (List Str) :=
  let vars := splitChar ',' header
  let last := vars.getLast?.getD []
  if last = "Exact_Wavelengths_for_Input_AOD(um)".toList ∨ last = "Exact_Wavelengths_for_Input_AOD(nm)".toList then
    -- `values[len(variables) - 2]`; with a single variable the index is -1
    let values := splitChar ',' data
    match (if 2 ≤ vars.length then values[vars.length - 2]? else values.getLast?) with
    | none => .error .index
    | some v =>
      match pyInt v with
      | none => .error .value
      | some n => .ok (vars ++ List.replicate (n - 1).toNat last)
  else .ok vars

/-- `get_aeronet_file_variables` (aeronet.py:73-131). -/
def fileVariables (lines : List Str) : Except Err (List Str) :=
  match getVersion lines with
  | .error e => .error e
  | .ok v =>
    match lines[headerLength v - 1]?, lines[headerLength v]? with
    | some header, some data =>
      match columns header data with
      | .error e => .error e
      | .ok vars => .ok (nameLoop vars (repeatedItems vars))
    | _, _ => .ok []

/-! ### Specification -/

/-- A string of digits. -/
def Spec.Digits (s : Str) : Prop := ∀ c ∈ s, c.isDigit

/-- The header names can be told apart: they contain no character that is removed and no white space, none is another one
followed by digits, and no two are spellings of the same coordinate. -/
structure Spec.Plain (vars : List Str) : Prop where
  allowed : ∀ v ∈ vars, ∀ c ∈ v, c ∉ deleteChars ∧ isSpace c = false
  counter : ∀ v ∈ vars, ∀ w ∈ vars, v ≠ w → ∀ d, Spec.Digits d → v ≠ w ++ d
  coords : ∀ v ∈ vars, ∀ w ∈ vars, v ≠ w → rename v ≠ rename w

/-- The name of column `i`: the header name, with the number of earlier columns of this name if it is repeated. -/
def Spec.name (vars : List Str) (i : Nat) (v : Str) : Str :=
  rename (if 1 < vars.count v then v ++ Nat.toDigits 10 ((vars.take i).count v) else v)

/-! ### Proofs -/

theorem nameLoop_length (vars : List Str) : ∀ rep, (nameLoop vars rep).length = vars.length := by
  induction vars with
  | nil => intro rep; rfl
  | cons v t ih =>
    intro rep
    rw [nameLoop]
    split <;> simp [ih]

/-- Column by column. -/
theorem nameLoop_get (vars : List Str) : ∀ (rep : Str → Option Int) (i : Nat) (v : Str), vars[i]? = some v →
    (nameLoop vars rep)[i]? = some (rename (clean (match rep v with
      | some n => v ++ '.' :: Nat.toDigits 10 (n + ((vars.take i).count v : Nat) + 1).toNat
      | none => v))) := by
  induction vars with
  | nil => intro rep i v h; simp at h
  | cons x t ih =>
    intro rep i v h
    rw [nameLoop]
    cases i with
    | zero =>
      simp only [List.getElem?_cons_zero, Option.some.injEq] at h
      subst h
      cases hr : rep x with
      | none => simp
      | some n => simp
    | succ i =>
      rw [List.getElem?_cons_succ] at h
      cases hr : rep x with
      | none =>
        simp only [List.getElem?_cons_succ]
        rw [ih rep i v h]
        cases hv : rep v with
        | none => rfl
        | some m =>
          have : x ≠ v := by rintro rfl; rw [hr] at hv; cases hv
          simp only [List.take_succ_cons, List.count_cons_of_ne this]
      | some n =>
        simp only [List.getElem?_cons_succ]
        rw [ih _ i v h]
        by_cases hx : v = x
        · subst hx
          simp only [if_true, hr, List.take_succ_cons, List.count_cons_self]
          congr 7
          push_cast
          ring
        · simp only [if_neg hx]
          cases hv : rep v with
          | none => rfl
          | some m => simp only [List.take_succ_cons, List.count_cons_of_ne (Ne.symm hx)]

theorem foldl_delete (l : Str) : ∀ s : Str, l.foldl (fun s c => s.filter (· != c)) s = s.filter (fun c => !l.contains c) := by
  induction l with
  | nil => intro s; simp
  | cons a t ih =>
    intro s
    rw [List.foldl_cons, ih, List.filter_filter]
    apply List.filter_congr
    intro c _
    rw [List.contains_cons]
    cases h : (c == a) <;> simp [bne, h]

theorem clean_eq (v : Str) : clean v = strip (v.filter (fun c => !deleteChars.contains c)) := by
  unfold clean; rw [foldl_delete]

theorem mem_strip {s : Str} {c : Char} (h : c ∈ strip s) : c ∈ s := by
  unfold strip at h
  rw [List.mem_reverse] at h
  have h1 := (List.dropWhile_sublist _).subset h
  rw [List.mem_reverse] at h1
  exact (List.dropWhile_sublist _).subset h1

theorem rename_cases (v : Str) : rename v = v ∨ rename v ∈ ["date".toList, "time".toList, "latitude".toList, "longitude".toList, "altitude".toList] := by
  unfold rename
  cases h : renameTable.find? (fun e => e.1 == v) with
  | none => exact .inl rfl
  | some e =>
    right
    have hm := List.mem_of_find?_eq_some h
    have : ∀ e ∈ renameTable, e.2 ∈ ["date".toList, "time".toList, "latitude".toList, "longitude".toList, "altitude".toList] := by
      decide +kernel
    exact this e hm

theorem nameLoop_clean (vars : List Str) :
    (nameLoop vars (repeatedItems vars)).length = vars.length ∧
      (∀ n ∈ nameLoop vars (repeatedItems vars), ∀ c ∈ n, c ∉ deleteChars) := by
  refine ⟨nameLoop_length _ _, ?_⟩
  intro n hn c hc
  obtain ⟨i, hi, rfl⟩ := List.getElem_of_mem hn
  rw [nameLoop_length] at hi
  have h1 := nameLoop_get vars (repeatedItems vars) i _ (List.getElem?_eq_getElem hi)
  rw [List.getElem?_eq_getElem (by rw [nameLoop_length]; exact hi)] at h1
  rw [Option.some.inj h1] at hc
  rcases rename_cases (clean (match repeatedItems vars vars[i] with
      | some n => vars[i] ++ '.' :: Nat.toDigits 10 (n + ((vars.take i).count vars[i] : Nat) + 1).toNat
      | none => vars[i])) with h2 | h2
  · rw [h2, clean_eq] at hc
    have := List.mem_filter.1 (mem_strip hc)
    simpa using this.2
  · have : ∀ s ∈ ["date".toList, "time".toList, "latitude".toList, "longitude".toList, "altitude".toList], ∀ c ∈ s, c ∉ deleteChars := by
      decide +kernel
    exact this _ h2 c hc

theorem digit_allowed {c : Char} (h : c.isDigit = true) : c ∉ deleteChars ∧ isSpace c = false := by
  refine ⟨?_, digit_not_space h⟩
  intro hm
  have : ∀ c ∈ deleteChars, c.isDigit = false := by decide +kernel
  rw [this c hm] at h
  cases h

theorem clean_allowed (s : Str) (h : ∀ c ∈ s, c ∉ deleteChars ∧ isSpace c = false) : clean s = s := by
  rw [clean_eq, List.filter_eq_self.2 (fun c hc => by simpa using (h c hc).1), strip_of_ends (fun c hc => (h c hc).2)]

theorem clean_counter (v d : Str) (h : ∀ c ∈ v, c ∉ deleteChars ∧ isSpace c = false) (hd : Spec.Digits d) : clean (v ++ '.' :: d) = v ++ d := by
  have h1 : (v ++ '.' :: d).filter (fun c => !deleteChars.contains c) = v ++ d := by
    rw [List.filter_append, List.filter_cons_of_neg (by decide +kernel),
      List.filter_eq_self.2 (fun c hc => by simpa using (h c hc).1), List.filter_eq_self.2 (fun c hc => by simpa using (digit_allowed (hd c hc)).1)]
  rw [clean_eq, h1, strip_of_ends]
  intro c hc
  rcases List.mem_append.1 hc with hc | hc
  · exact (h c hc).2
  · exact (digit_allowed (hd c hc)).2

theorem toDigits_digits (n : Nat) : Spec.Digits (Nat.toDigits 10 n) := (numeral_toDigits n).2

/-- The name of each column. -/
theorem nameLoop_names (vars : List Str) (hp : Spec.Plain vars) (i : Nat) (v : Str) (hv : vars[i]? = some v) :
    (nameLoop vars (repeatedItems vars))[i]? = some (Spec.name vars i v) := by
  rw [nameLoop_get vars _ i v hv]
  unfold repeatedItems Spec.name
  have ha := hp.allowed v (List.mem_of_getElem? hv)
  by_cases h : 1 < vars.count v
  · simp only [if_pos h]
    rw [clean_counter v _ ha (toDigits_digits _)]
    congr 4
    omega
  · simp only [if_neg h]
    rw [clean_allowed v ha]

theorem rename_digits (v d : Str) (hd : Spec.Digits d) (hne : d ≠ []) : rename (v ++ d) = v ++ d := by
  unfold rename
  cases h : renameTable.find? (fun e => e.1 == v ++ d) with
  | none => rfl
  | some e =>
    exfalso
    have hm := List.mem_of_find?_eq_some h
    have he : e.1 = v ++ d := by simpa using List.find?_some h
    have : ∀ e ∈ renameTable, (e.1.getLast?.getD 'x').isDigit = false := by decide +kernel
    have h2 := this e hm
    rw [he, List.getLast?_append_of_ne_nil _ hne, List.getLast?_eq_some_getLast hne] at h2
    rw [Option.getD_some, hd _ (List.getLast_mem hne)] at h2
    cases h2

theorem rename_ne_digits (v w d : Str) (hd : Spec.Digits d) (hne : d ≠ []) (h : rename v = w ++ d) : v = w ++ d := by
  rcases rename_cases v with h1 | h1
  · rw [← h1, h]
  · exfalso
    have : ∀ s ∈ ["date".toList, "time".toList, "latitude".toList, "longitude".toList, "altitude".toList], (s.getLast?.getD 'x').isDigit = false := by
      decide +kernel
    have h2 := this _ h1
    rw [h, List.getLast?_append_of_ne_nil _ hne, List.getLast?_eq_some_getLast hne] at h2
    rw [Option.getD_some, hd _ (List.getLast_mem hne)] at h2
    cases h2

theorem append_digits_ne {vars : List Str} (hp : Spec.Plain vars) {v w d e : Str} (hv : v ∈ vars) (hw : w ∈ vars) (hne : v ≠ w)
    (hd : Spec.Digits d) (he : Spec.Digits e) : v ++ d ≠ w ++ e := by
  intro h
  rw [List.append_eq_append_iff] at h
  rcases h with ⟨a, h1, h2⟩ | ⟨a, h1, h2⟩
  · -- w = v ++ a, d = a ++ e
    exact hp.counter w hw v hv hne.symm a (fun c hc => hd c (by rw [h2]; exact List.mem_append_left _ hc)) h1
  · exact hp.counter v hv w hw hne a (fun c hc => he c (by rw [h2]; exact List.mem_append_left _ hc)) h1

/-- The names of the columns are all different, if the header names can be told apart. -/
theorem nameLoop_nodup (vars : List Str) (hp : Spec.Plain vars) : (nameLoop vars (repeatedItems vars)).Nodup := by
  rw [List.nodup_iff_getElem?_ne_getElem?]
  intro i j hij hj
  rw [nameLoop_length] at hj
  have hi : i < vars.length := by omega
  rw [nameLoop_names vars hp i _ (List.getElem?_eq_getElem hi), nameLoop_names vars hp j _ (List.getElem?_eq_getElem hj)]
  intro h
  rw [Option.some.injEq] at h
  generalize hv : vars[i] = v at h
  generalize hw : vars[j] = w at h
  have mv : v ∈ vars := by rw [← hv]; exact List.getElem_mem _
  have mw : w ∈ vars := by rw [← hw]; exact List.getElem_mem _
  have hdn : ∀ n, Nat.toDigits 10 n ≠ [] := fun n => (numeral_toDigits n).1
  unfold Spec.name at h
  by_cases hvw : v = w
  · subst hvw
    have hc : 1 < vars.count v := by
      have h1 : (vars.take j).count v + (vars.drop j).count v = vars.count v := by
        rw [← List.count_append, List.take_append_drop]
      have h2 : 0 < (vars.take j).count v := by
        rw [List.count_pos_iff, ← hv]
        exact List.mem_take_iff_getElem.2 ⟨i, by omega, rfl⟩
      have h3 : 0 < (vars.drop j).count v := by
        rw [List.count_pos_iff, ← hw]
        exact List.mem_drop_iff_getElem.2 ⟨0, by omega, by simp⟩
      omega
    rw [if_pos hc, if_pos hc, rename_digits _ _ (toDigits_digits _) (hdn _), rename_digits _ _ (toDigits_digits _) (hdn _)] at h
    have h4 := congrArg value (List.append_cancel_left h)
    rw [value_toDigits, value_toDigits] at h4
    have h5 : (vars.take (i + 1)).count v ≤ (vars.take j).count v :=
      List.Sublist.count_le v (List.take_sublist_take_left (by omega))
    rw [List.take_succ_eq_append_getElem hi, List.count_append, hv] at h5
    simp at h5
    omega
  · split at h <;> split at h
    · rw [rename_digits _ _ (toDigits_digits _) (hdn _), rename_digits _ _ (toDigits_digits _) (hdn _)] at h
      exact append_digits_ne hp mv mw hvw (toDigits_digits _) (toDigits_digits _) h
    · rw [rename_digits _ _ (toDigits_digits _) (hdn _)] at h
      have := rename_ne_digits _ _ _ (toDigits_digits _) (hdn _) h.symm
      exact hp.counter w mw v mv (Ne.symm hvw) _ (toDigits_digits _) this
    · rw [rename_digits _ _ (toDigits_digits _) (hdn _)] at h
      have := rename_ne_digits _ _ _ (toDigits_digits _) (hdn _) h
      exact hp.counter v mv w mw hvw _ (toDigits_digits _) this
    · exact hp.coords v mv w mw hvw h

/-- C80: the columns of SDA files that the header does not list are supplied: the last name is repeated as often as the number of
wavelengths says. -/
theorem c80_sda_columns (names : List Str) (last : Str) (values : List Str) (k : Str) (hk : IsNumeral k) (h1 : 1 ≤ value k)
    (hlast : last = "Exact_Wavelengths_for_Input_AOD(um)".toList ∨ last = "Exact_Wavelengths_for_Input_AOD(nm)".toList)
    (hn : names ≠ []) (hc : ∀ n ∈ names, ',' ∉ n) (hv : ∀ x ∈ values, ',' ∉ x) (hi : values[names.length - 1]? = some k) :
    columns (join ',' (names ++ [last])) (join ',' values) = .ok (names ++ List.replicate (value k) last) := by
  have hcl : ',' ∉ last := by rcases hlast with rfl | rfl <;> decide +kernel
  have hval : values ≠ [] := by rintro rfl; simp at hi
  unfold columns
  rw [splitChar_join ',' _ (by simp) (by
    intro n hn'
    rcases List.mem_append.1 hn' with hn' | hn'
    · exact hc n hn'
    · rw [List.mem_singleton] at hn'; subst hn'; exact hcl), splitChar_join ',' values hval hv]
  have hpos : 0 < names.length := List.length_pos_iff.2 hn
  simp only [List.getLast?_concat, Option.getD_some, if_pos hlast, List.length_append, List.length_singleton]
  rw [if_pos (by omega), show names.length + 1 - 2 = names.length - 1 by omega, hi]
  simp only [pyInt_numeral hk]
  congr 1
  rw [List.append_assoc, ← List.replicate_one, List.replicate_append_replicate]
  congr 2
  omega

/-- C80: a file with header line and first data line is given one name for each column, without removed characters; if the header
names can be told apart the names are all different, each being the header name (numbered if repeated, standard for coordinates).
Without a data line there are no names. -/
theorem c80_file (lines : List Str) (v : Version) (hv : getVersion lines = .ok v) :
    (∀ header data vars, lines[headerLength v - 1]? = some header → lines[headerLength v]? = some data → columns header data = .ok vars →
      ∃ names, fileVariables lines = .ok names ∧ names.length = vars.length ∧ (∀ n ∈ names, ∀ c ∈ n, c ∉ deleteChars) ∧
        (Spec.Plain vars → names.Nodup ∧ ∀ (i : Nat) (w : Str), vars[i]? = some w → names[i]? = some (Spec.name vars i w))) ∧
      (lines.length ≤ headerLength v → fileVariables lines = .ok []) := by
  constructor
  · intro header data vars h1 h2 h3
    refine ⟨nameLoop vars (repeatedItems vars), ?_, (nameLoop_clean vars).1, (nameLoop_clean vars).2, fun hp => ⟨nameLoop_nodup vars hp, nameLoop_names vars hp⟩⟩
    unfold fileVariables
    rw [hv]
    simp only [h1, h2, h3]
  · intro h
    unfold fileVariables
    rw [hv]
    simp only
    rw [List.getElem?_eq_none h]
    split
    · rename_i h'; cases h'
    · rfl

/-- `sub in s`. -/
theorem contains_iff (sub s : Str) : contains sub s = true ↔ ∃ a b, s = a ++ sub ++ b := by
  unfold contains
  rw [List.any_eq_true]
  constructor
  · rintro ⟨t, ht, hp⟩
    obtain ⟨a, ha⟩ := (List.mem_tails _ _).mp ht
    obtain ⟨b, hb⟩ := List.isPrefixOf_iff_prefix.mp hp
    exact ⟨a, b, by rw [List.append_assoc, hb, ha]⟩
  · rintro ⟨a, b, rfl⟩
    exact ⟨sub ++ b, (List.mem_tails _ _).mpr ⟨a, by simp⟩, List.isPrefixOf_iff_prefix.mpr ⟨b, rfl⟩⟩

/-- The text occurs in the line. -/
def Spec.Mentions (line : Str) (text : String) : Prop := ∃ a b, line = a ++ text.toList ++ b

/-- C80: the version is told from the first two lines as documented: the Maritime Aerosol Network if the first line mentions it,
otherwise version 3 or 2 by the start of the first or second line, with spectral deconvolution if the first line mentions SDA;
the last header line is the fifth, in version 3 the seventh. -/
theorem c80_layout (l1 l2 : Str) (rest : List Str) (v : Version) : getVersion (l1 :: l2 :: rest) = .ok v ↔
    (Spec.Mentions l1 "Maritime Aerosol Network" ∧ Spec.Mentions l1 "SDA" ∧ v = .manSda2) ∨
    (Spec.Mentions l1 "Maritime Aerosol Network" ∧ ¬ Spec.Mentions l1 "SDA" ∧ v = .man2) ∨
    (¬ Spec.Mentions l1 "Maritime Aerosol Network" ∧ "AERONET Version 3".toList <+: l1 ∧
      (Spec.Mentions l1 "SDA" ∧ v = .aeronetSda3 ∨ ¬ Spec.Mentions l1 "SDA" ∧ v = .aeronet3)) ∨
    (¬ Spec.Mentions l1 "Maritime Aerosol Network" ∧ ¬ "AERONET Version 3".toList <+: l1 ∧
      "Version 2 Direct Sun Algorithm".toList <+: l2 ∧
      (Spec.Mentions l1 "SDA" ∧ v = .aeronetSda2 ∨ ¬ Spec.Mentions l1 "SDA" ∧ v = .aeronet2)) := by
  unfold getVersion Spec.Mentions
  simp only [← contains_iff, ← List.isPrefixOf_iff_prefix]
  generalize contains "Maritime Aerosol Network".toList l1 = man
  generalize contains "SDA".toList l1 = sda
  generalize ("AERONET Version 3".toList).isPrefixOf l1 = v3
  generalize ("Version 2 Direct Sun Algorithm".toList).isPrefixOf l2 = v2
  cases man <;> cases sda <;> cases v3 <;> cases v2 <;> simp [eq_comm]

/-- C80: the names come from the fifth line, in version 3 from the seventh line, and the data start on the line after it. -/
theorem c80_header_line (lines : List Str) (v : Version) (hv : getVersion lines = .ok v) (n : Nat)
    (hn : n = if v = .aeronet3 ∨ v = .aeronetSda3 then 6 else 4) (header data : Str)
    (hh : lines[n]? = some header) (hd : lines[n + 1]? = some data) :
    fileVariables lines = (columns header data).map (fun vars => nameLoop vars (repeatedItems vars)) := by
  have e : headerLength v = n + 1 := by subst hn; cases v <;> rfl
  unfold fileVariables
  rw [hv]
  simp only [e, Nat.add_sub_cancel, hh, hd]
  cases columns header data <;> rfl

/-- C80 is violated by a name that is another, repeated, name with a number: two columns get the same name. -/
theorem c80_counter_clash_violated : nameLoop ["AOT".toList, "AOT".toList, "AOT0".toList] (repeatedItems ["AOT".toList, "AOT".toList, "AOT0".toList]) =
    ["AOT0".toList, "AOT1".toList, "AOT0".toList] := by decide +kernel

/-- C80 is violated by names that only differ in removed characters. -/
theorem c80_removed_clash_violated : nameLoop ["440-870.Angstrom".toList, "440-870Angstrom".toList] (repeatedItems ["440-870.Angstrom".toList, "440-870Angstrom".toList]) =
    ["440-870Angstrom".toList, "440-870Angstrom".toList] := by decide +kernel

/-- Two lines of a header are found. -/
example : getVersion ["Level 2.0 Maritime Aerosol Network (MAN) SDA".toList, "x".toList] = .ok .manSda2 ∧
    getVersion ["AERONET Version 3;".toList, "x".toList] = .ok .aeronet3 ∧
    getVersion ["a".toList, "Version 2 Direct Sun Algorithm".toList] = .ok .aeronet2 ∧ getVersion ["a".toList, "b".toList] = .error .fileFormat := by
  decide +kernel

/-- Names as in a file of version 3. -/
example : fileVariables (["AERONET Version 3;".toList, "".toList, "".toList, "".toList, "".toList, "".toList,
      "Date(dd:mm:yyyy),Time(hh:mm:ss),AOD_500nm,W,W,W".toList, "01:01:2000,00:00:00,1,2,3,4".toList]) =
    .ok ["date".toList, "time".toList, "AOD_500nm".toList, "W0".toList, "W1".toList, "W2".toList] := by decide +kernel

theorem plain_example : Spec.Plain ["Date(dd:mm:yyyy)".toList, "AOD_500nm".toList, "W".toList, "W".toList] where
  allowed := by decide +kernel
  counter := by
    have key : ∀ v ∈ ["Date(dd:mm:yyyy)".toList, "AOD_500nm".toList, "W".toList, "W".toList], (v.getLast?.getD '0').isDigit = false := by
      decide +kernel
    intro v hv w hw hne d hd e
    cases d with
    | nil => rw [List.append_nil] at e; exact hne e
    | cons a t =>
      have h2 := key v hv
      have hne' : a :: t ≠ [] := by simp
      rw [e, List.getLast?_append_of_ne_nil _ hne', List.getLast?_eq_some_getLast hne', Option.getD_some, hd _ (List.getLast_mem hne')] at h2
      cases h2
  coords := by decide +kernel

end Cis.Aeronet
