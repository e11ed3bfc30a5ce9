import Verif.Plugin.Props
import Verif.Read.Reader
set_option linter.unusedSectionVars false
set_option linter.unusedSimpArgs false
/-!
How errors of products are reported, and which product reads which file. Model of `get_data`, `get_coordinates`, `get_variables`,
`get_file_format` and `ProductPluginException` (cis/data_io/products/AProduct.py:186-304), of `FileFormatError` and
`UserPrintableException` (cis/exceptions.py:82-111), of what `main` prints (cis/cis_main.py:16-26, 275-284), and of `info`
(cis/info.py:6-24). Property C114. The choice of the product is `getClass` of C49.

An exception has the name of its class, its `args` as texts, its text (`str`), and whether its class is derived from `Exception`.
-/
namespace Cis.Errors
open Cis.Plugin
variable {A : Type}

/-- A raised exception. -/
structure Exc where
  cls : String
  args : List String
  str : String
  derived : Bool
deriving DecidableEq

/-- An exception of an ordinary class made with texts: `str` of one argument is the argument, of none the empty text. -/
def Exc.ofArgs (cls : String) (args : List String) : Exc :=
  ⟨cls, args, match args with | [] => "" | [a] => a | l => "(" ++ ", ".intercalate l ++ ")", true⟩

/-- `UserPrintableException(message)` (exceptions.py:96-111): no `args`. -/
def Exc.userPrintable (message : String) : Exc := ⟨"UserPrintableException", [], message, true⟩

/-- `FileFormatError(error_list, *args)` (exceptions.py:82-91): the base class is given the tuple `args` and the dictionary `kwargs`; the texts
of `error_list` are in neither. `tuple` is the text of the tuple. -/
def Exc.fileFormat (tuple : List String → String) (_errorList : List String) (args : List String) : Exc :=
  Exc.ofArgs "FileFormatError" [tuple args, "{}"]

/-- The fixed parts of the message (AProduct.py:204-206). -/
def part1 : String := "An error occurred retrieving "
/-- (AProduct.py:204-206) -/
def part2 : String := " using the product "
/-- (AProduct.py:204-206) -/
def part3 : String := ". Check that this is the correct product plugin for your chosen data. Exception was "

/-- The message (AProduct.py:204-206, 226-228, 248-250, 269-272). -/
def message (what product cls arg : String) : String := part1 ++ what ++ part2 ++ product ++ part3 ++ cls ++ ": " ++ arg ++ "."

/-- `try ... except Exception as e: raise ProductPluginException(... e.args[0] ...)` (AProduct.py:199-206, 221-228, 243-250, 264-272). -/
def report (what product : String) (r : Except Exc A) : Except Exc A :=
  match r with
  | .ok a => .ok a
  | .error e =>
    if e.derived then
      match e.args with
      | [] => .error (Exc.ofArgs "IndexError" ["tuple index out of range"])
      | a :: _ => .error (Exc.ofArgs "ProductPluginException" [message what product e.cls a])
    else .error e

/-- A reader: what its methods give for a list of files. -/
structure Methods (A C V : Type) where
  data : Cls → List (List Char) → List Char → Except Exc A
  coords : Cls → List (List Char) → Except Exc C
  names : Cls → List (List Char) → Except Exc V
  format : Cls → List Char → Except Exc String

variable {C V : Type} (reMatch : String → List Char → Bool) (typeErr : Cls → List Char → Bool) (classes : List Cls)

/-- `__get_class(filenames[0], product)` (AProduct.py:196, 219, 241, 262). -/
def chosen (files : List (List Char)) (product : Option String) : Except Exc Cls :=
  match files with
  | [] => .error (Exc.ofArgs "IndexError" ["list index out of range"])
  | f :: _ => match getClass reMatch typeErr classes f product with
    | none => .error (Exc.ofArgs "ClassNotFoundError" ["Product cannot be found for given file."])
    | some c => .ok c

/-- `get_data` (AProduct.py:186-206). -/
def getData (M : Methods A C V) (files : List (List Char)) (var : List Char) (product : Option String) : Except Exc A :=
  match chosen reMatch typeErr classes files product with
  | .error e => .error e
  | .ok c => report "data" c.name (M.data c files var)

/-- `get_file_format` (AProduct.py:253-278). -/
def getFormat (tuple : List String → String) (M : Methods A C V) (files : List (List Char)) (product : Option String) : Except Exc String :=
  match chosen reMatch typeErr classes files product with
  | .error e => .error e
  | .ok c =>
    match report "the file format" c.name (M.format c (files.headD [])) with
    | .error e => .error e
    | .ok f => match M.coords c files with
      | .ok _ => .ok f
      | .error e =>
        if e.derived then
          match e.args with
          | [] => .error (Exc.ofArgs "IndexError" ["tuple index out of range"])
          | a :: _ => .error (Exc.fileFormat tuple ["Could not read coordinates from the file", a] [])
        else .error e

/-- What `main` writes to the error output for an exception of a command (cis_main.py:16-26, 275-284); `none`: not caught. -/
def printed (e : Exc) : Option String :=
  if e.cls = "MemoryError" then some "Not enough memory. Please either reduce the amount of data, increase the swap space available on your machine or use a machine with more memory (for example the JASMIN facility)."
  else if e.derived then some e.str
  else none

/-- `info` with variables (info.py:17-19): what is printed, and the error that ended it. -/
def infoVars (get : List Char → Except Exc String) : List (List Char) → List String × Option Exc
  | [] => ([], none)
  | v :: t => match get v with
    | .error e => ([], some e)
    | .ok s => let r := infoVars get t; (s :: r.1, r.2)

/-! ## Specification -/

/-- A text contains another. -/
def Spec.Contains (s sub : String) : Prop := ∃ a b : String, s = a ++ sub ++ b

/-! ## Proofs -/

theorem message_contains (what product cls arg : String) :
    Spec.Contains (message what product cls arg) product ∧ Spec.Contains (message what product cls arg) cls ∧
      Spec.Contains (message what product cls arg) arg := by
  refine ⟨⟨part1 ++ what ++ part2, part3 ++ cls ++ ": " ++ arg ++ ".", ?_⟩, ⟨part1 ++ what ++ part2 ++ product ++ part3, ": " ++ arg ++ ".", ?_⟩,
    ⟨part1 ++ what ++ part2 ++ product ++ part3 ++ cls ++ ": ", ".", ?_⟩⟩ <;>
    simp only [message, String.append_assoc]

/-- C114: what a product gives is given, and nothing else is. -/
theorem c114_success (M : Methods A C V) (files : List (List Char)) (var : List Char) (product : Option String) (a : A) :
    getData reMatch typeErr classes M files var product = .ok a ↔
      ∃ f t c, files = f :: t ∧ getClass reMatch typeErr classes f product = some c ∧ M.data c files var = .ok a := by
  unfold getData chosen
  cases files with
  | nil => simp
  | cons f t =>
    cases hc : getClass reMatch typeErr classes f product with
    | none => simp [hc]
    | some c =>
      simp only [hc, report]
      constructor
      · intro h
        refine ⟨f, t, c, rfl, hc, ?_⟩
        cases hd : M.data c (f :: t) var with
        | ok x => rw [hd] at h; exact h
        | error e =>
          rw [hd] at h
          simp only at h
          split at h
          · split at h <;> cases h
          · cases h
      · rintro ⟨f', t', c', e, hc', hd⟩
        cases e
        rw [hc] at hc'
        cases hc'
        rw [hd]

/-- C114, for exceptions with arguments: the error says which product failed, with which exception and why. -/
theorem c114_reported (M : Methods A C V) (f : List Char) (t : List (List Char)) (var : List Char) (product : Option String) (c : Cls)
    (e : Exc) (a : String) (rest : List String) (hc : getClass reMatch typeErr classes f product = some c)
    (he : M.data c (f :: t) var = .error e) (hd : e.derived = true) (ha : e.args = a :: rest) :
    ∃ r, getData reMatch typeErr classes M (f :: t) var product = .error r ∧ r.cls = "ProductPluginException" ∧
      ∃ s, printed r = some s ∧ Spec.Contains s c.name ∧ Spec.Contains s e.cls ∧ Spec.Contains s a := by
  refine ⟨Exc.ofArgs "ProductPluginException" [message "data" c.name e.cls a], ?_, rfl, _, rfl, message_contains _ _ _ _⟩
  unfold getData chosen report
  simp only [hc, he, hd, ha, if_true]

example : ∃ e : Exc, e.derived = true ∧ e.args = ["no such variable"] := ⟨Exc.ofArgs "ValueError" ["no such variable"], rfl, rfl⟩

/-- C114 violated: of an exception without arguments, whatever it was, the user sees `tuple index out of range`. -/
theorem c114_no_args_violated (M : Methods A C V) (f : List Char) (t : List (List Char)) (var : List Char) (product : Option String) (c : Cls)
    (e : Exc) (hc : getClass reMatch typeErr classes f product = some c)
    (he : M.data c (f :: t) var = .error e) (hd : e.derived = true) (ha : e.args = []) :
    ∃ r, getData reMatch typeErr classes M (f :: t) var product = .error r ∧ printed r = some "tuple index out of range" := by
  refine ⟨Exc.ofArgs "IndexError" ["tuple index out of range"], ?_, rfl⟩
  unfold getData chosen report
  simp only [hc, he, hd, ha, if_true]

/-- C114 violated: the exceptions of CIS that are meant for the user are of this kind. Their message is printed if a command raises them, and lost if a
product does. -/
theorem c114_user_printable_violated (M : Methods A C V) (f : List Char) (t : List (List Char)) (var : List Char) (product : Option String) (c : Cls)
    (m : String) (hc : getClass reMatch typeErr classes f product = some c) (he : M.data c (f :: t) var = .error (Exc.userPrintable m)) :
    printed (Exc.userPrintable m) = some m ∧
    ∃ r, getData reMatch typeErr classes M (f :: t) var product = .error r ∧ printed r = some "tuple index out of range" :=
  ⟨rfl, c114_no_args_violated reMatch typeErr classes M f t var product c _ hc he rfl rfl⟩

/-- C114 violated: a lack of memory while a product reads is not reported as such. -/
theorem c114_memory_violated (M : Methods A C V) (f : List Char) (t : List (List Char)) (var : List Char) (product : Option String) (c : Cls)
    (args : List String) (hc : getClass reMatch typeErr classes f product = some c)
    (he : M.data c (f :: t) var = .error (Exc.ofArgs "MemoryError" args)) :
    ∃ r, getData reMatch typeErr classes M (f :: t) var product = .error r ∧ r.cls ≠ "MemoryError" := by
  unfold getData chosen report
  simp only [hc, he]
  cases args with
  | nil => exact ⟨_, rfl, by decide⟩
  | cons a l => exact ⟨_, rfl, by show "ProductPluginException" ≠ "MemoryError"; decide⟩

/-- C114 violated: the errors found in a file (`error_list`) are not shown: the text of a `FileFormatError` does not depend on them. -/
theorem c114_format_error_violated (tuple : List String → String) (l l' args : List String) :
    printed (Exc.fileFormat tuple l args) = printed (Exc.fileFormat tuple l' args) := rfl

/-- C114, file formats: the format is that of the first file, given exactly if the product also reads the coordinates of all files. -/
theorem c114_format (tuple : List String → String) (M : Methods A C V) (files : List (List Char)) (product : Option String) (s : String) :
    getFormat reMatch typeErr classes tuple M files product = .ok s ↔
      ∃ f t c x, files = f :: t ∧ getClass reMatch typeErr classes f product = some c ∧ M.format c f = .ok s ∧ M.coords c files = .ok x := by
  unfold getFormat chosen
  cases files with
  | nil => simp
  | cons f t =>
    cases hc : getClass reMatch typeErr classes f product with
    | none => simp [hc]
    | some c =>
      simp only [hc, List.headD_cons, report]
      constructor
      · intro h
        cases hf : M.format c f with
        | error e =>
          rw [hf] at h
          exfalso
          by_cases hde : e.derived = true
          · simp only [hde, if_true] at h
            cases hargs : e.args <;> rw [hargs] at h <;> cases h
          · simp only [hde, Bool.false_eq_true, if_false] at h
            cases h
        | ok s' =>
          rw [hf] at h
          simp only at h
          cases hx : M.coords c (f :: t) with
          | ok x =>
            rw [hx] at h
            cases h
            exact ⟨f, t, c, x, rfl, hc, hf, hx⟩
          | error e =>
            rw [hx] at h
            simp only at h
            exfalso
            split at h
            · split at h <;> cases h
            · cases h
      · rintro ⟨f', t', c', x, e, hc', hf, hx⟩
        cases e
        rw [hc] at hc'
        cases hc'
        rw [hf]
        simp only
        rw [hx]

/-- C114: files that one product is chosen for are read by this product. -/
theorem c114_own_product (M : Methods A C V) (files : List (List Char)) (var : List Char) (c : Cls) (hne : files ≠ [])
    (h : ∀ f ∈ files, getClass reMatch typeErr classes f none = some c) :
    getData reMatch typeErr classes M files var none = report "data" c.name (M.data c files var) := by
  cases files with
  | nil => exact absurd rfl hne
  | cons f t =>
    unfold getData chosen
    simp only [h f List.mem_cons_self]

/-- C114 violated: in a list of files for which different products are chosen, all are given to the product of the first. -/
theorem c114_mixed_violated (M : Methods A C V) (f g : List Char) (var : List Char) (c d : Cls)
    (hf : getClass reMatch typeErr classes f none = some c) (_hg : getClass reMatch typeErr classes g none = some d) (_hcd : c ≠ d) :
    getData reMatch typeErr classes M [f, g] var none = report "data" c.name (M.data c [f, g] var) := by
  unfold getData chosen
  simp only [hf]

/-- C114, info: the description of each variable is printed, in order, up to the first that cannot be read. -/
theorem c114_info (get : List Char → Except Exc String) (vars : List (List Char)) (out : List String) (e : Option Exc) :
    infoVars get vars = (out, e) ↔ ∃ k, k = out.length ∧ List.Forall₂ (fun v s => get v = .ok s) (vars.take k) out ∧
      ((e = none ∧ k = vars.length) ∨ ∃ v x, vars[k]? = some v ∧ get v = .error x ∧ e = some x) := by
  induction vars generalizing out with
  | nil =>
    constructor
    · intro h; cases h; exact ⟨0, rfl, List.Forall₂.nil, Or.inl ⟨rfl, rfl⟩⟩
    · rintro ⟨k, rfl, h1, h2⟩
      rw [List.take_nil] at h1
      cases h1
      rcases h2 with ⟨rfl, -⟩ | ⟨v, x, hv, -⟩
      · rfl
      · simp at hv
  | cons v t ih =>
    unfold infoVars
    constructor
    · intro h
      cases hg : get v with
      | error x =>
        rw [hg] at h
        cases h
        exact ⟨0, rfl, List.Forall₂.nil, Or.inr ⟨v, x, rfl, hg, rfl⟩⟩
      | ok s =>
        rw [hg] at h
        simp only [Prod.mk.injEq] at h
        obtain ⟨h1, h2⟩ := h
        obtain ⟨k, hk, hF, hE⟩ := (ih (infoVars get t).1).1 (by rw [← h2])
        subst h1
        refine ⟨k + 1, by rw [List.length_cons, hk], ?_, ?_⟩
        · rw [List.take_succ_cons]; exact List.Forall₂.cons hg hF
        · rcases hE with ⟨he, hl⟩ | ⟨w, x, hw, hx, he⟩
          · exact Or.inl ⟨he, by rw [List.length_cons, hl]⟩
          · exact Or.inr ⟨w, x, by rw [List.getElem?_cons_succ]; exact hw, hx, he⟩
    · rintro ⟨k, hk, hF, hE⟩
      cases out with
      | nil =>
        subst hk
        rcases hE with ⟨-, hl⟩ | ⟨w, x, hw, hx, he⟩
        · cases hl
        · rw [List.length_nil, List.getElem?_cons_zero, Option.some.injEq] at hw
          subst hw
          rw [hx, he]
      | cons s o =>
        subst hk
        rw [List.length_cons, List.take_succ_cons] at hF
        cases hF with
        | cons hv hF =>
          rw [hv]
          have := (ih o).2 ⟨o.length, rfl, hF, by
            rcases hE with ⟨he, hl⟩ | ⟨w, x, hw, hx, he⟩
            · exact Or.inl ⟨he, by simpa using hl⟩
            · exact Or.inr ⟨w, x, by simpa using hw, hx, he⟩⟩
          simp [this]

/-- C114 violated, info: a pattern for variables, which reading the data expands, is looked for as the name of one variable. -/
theorem c114_info_pattern_violated :
    (infoVars (fun v => if v ∈ ["a".toList, "b".toList] then .ok "description" else .error (Exc.ofArgs "IOError" ["no variable"])) ["*".toList]).2 ≠ none ∧
      Reader.expandWildcards ["a".toList, "b".toList] ["*".toList] = .ok ["a".toList, "b".toList] := by
  decide

end Cis.Errors
