import Verif.Evaluate.Commute
import Verif.Parse.Props
import Verif.Parse.Args
import Verif.Read.Reader
set_option linter.unusedSectionVars false
set_option linter.unusedSimpArgs false

/-!
# `cis eval`: from the datagroups on the command line to the variable that is saved (C186)

The entries `name` or `name=alias` of the datagroups are read, an expression is evaluated with the aliases as names (C155), and the result is saved under
the name, with the units and with the attributes that are given.
-/
namespace Cis.EvalCmd
open Cis.Parse (OS)
open Cis.Evaluate (Var Expr Result evaluateExpr)

abbrev Str := List Char
variable {V : Type}

/-! ### Model -/

/-- What the product makes of files: the variables they have (`get_variables`) and the object for one of them (`get_data`). -/
structure Archive (V : Type) where
  fileVars : List Str → List Str
  get : List Str → Str → Except Reader.Err (Var ℚ V)

/-- A datagroup of the command line: the entries before the colon, at commas, and the files (parse.py:425-437). -/
structure Group where
  entries : List Str
  files : List Str

/-- The shapes that `append` of a list of data compares (common_data_list: data_list.py, ungridded_data.py:1065-1090). -/
def objOf (w : Var ℚ V) : DataList.Obj ℚ := ⟨some w.gridded, w.coords.map (fun c => ⟨c.metaShape, c.vals⟩)⟩

/-- `get_data` as `read_data_list` calls it (data_reader.py:90-91). -/
def readOne (A : Archive V) (files : List Str) (v : Str) : Except Reader.Err (Reader.Data ℚ) :=
  match A.get files v with
  | .error e => .error e
  | .ok w => .ok ⟨objOf w, v, [], none⟩

/-- The object with the file names and the alias that `read_data_list` has set (data_reader.py:92-97). -/
def named (A : Archive V) (d : Reader.Data ℚ) : Option (Var ℚ V) :=
  match A.get d.filenames d.var with
  | .error _ => none
  | .ok w => some { w with
      aliasName := String.ofList (d.alias?.getD d.var)
      varName := String.ofList d.var
      files := d.filenames.map String.ofList }

/-- `read_datagroups` (data_reader.py:130-153, 155-180): the lists of all groups one after the other. -/
def readGroups (A : Archive V) : List (List Str × List (Str × Str)) → Except Reader.Err (List (Var ℚ V))
  | [] => .ok []
  | (files, ps) :: t =>
    match Reader.readDataList (readOne A) (A.fileVars files) files (ps.map Prod.fst) (some (ps.map Prod.snd)) with
    | .error e => .error e
    | .ok l =>
      match readGroups A t with
      | .error e => .error e
      | .ok r => .ok (l.filterMap (named A) ++ r)

inductive Err
  | parser                    -- parser.error
  | stopped                   -- "No operation performed", or the question is not answered
  | read (e : Reader.Err)
  | evaluate (e : Evaluate.Err)

/-- The command line after the datagroups (parse.py:253-260) and the answers to the question whether to overwrite. -/
structure Line where
  text : String
  units : String
  output : Str
  attributes : Option Str
  force : Bool
  env : Str
  answers : List Str

/-- `_create_attributes_dictionary` (parse.py:855-870): no dictionary without the option, `none` for a text that is refused. -/
def attributesOf : Option Str → Option (Option (List (String × String)))
  | none => some none
  | some s => (Args.attributes s).map (fun d => some (d.map (fun p => (String.ofList p.1, String.ofList p.2))))

/-- `validate_eval_args` (parse.py:942-946) and `evaluate_cmd` (cis_main.py:173-186): the file and what is saved there. The expression comes parsed,
with its text. -/
def run (repr : List String → String) (version : String) (os : OS) (A : Archive V) (groups : List Group) (e : Expr V) (l : Line) :
    Except Err (Str × Result ℚ V) :=
  match Parse.setAliases (groups.map Group.entries) with
  | none => .error .parser
  | some gs =>
    match attributesOf l.attributes with
    | none => .error .parser
    | some attrs =>
      match Parse.validateOutput os ".nc".toList l.output l.force l.env l.answers (groups.flatMap Group.files) with
      | .error => .error .parser
      | .noOperation => .error .stopped
      | .waiting => .error .stopped
      | .proceed file var =>
        match readGroups A ((groups.map Group.files).zip gs) with
        | .error x => .error (.read x)
        | .ok data =>
          match evaluateExpr repr version data e l.text (var.map String.ofList) (some l.units) attrs with
          | .error x => .error (.evaluate x)
          | .ok r => .ok (file, r)

/-! ### Specification -/

/-- An entry of a datagroup: the name of a variable and the name it has in the expression, if that is another. -/
structure Spec.Written where
  name : Str
  alias? : Option Str

/-- Written `name` or `name=alias`. -/
def Spec.Written.text (w : Spec.Written) : Str :=
  match w.alias? with
  | none => w.name
  | some a => w.name ++ ['='] ++ a

/-- The name in the expression. -/
def Spec.Written.called (w : Spec.Written) : String :=
  match w.alias? with
  | none => String.ofList w.name
  | some a => String.ofList a

/-- Names are not empty, have no `=`, and the name of the variable is no pattern. -/
def Spec.Written.Proper (w : Spec.Written) : Prop :=
  w.name ≠ [] ∧ (∀ c ∈ w.name, c ≠ '=' ∧ c ≠ '*' ∧ c ≠ '?' ∧ c ≠ ']' ∧ c ≠ '}') ∧ ∀ a, w.alias? = some a → a ≠ [] ∧ '=' ∉ a

/-- A datagroup: entries and files. -/
structure Spec.Group where
  entries : List Spec.Written
  files : List Str

/-- All entries with their files, in the order of the command line. -/
def Spec.all (gs : List Spec.Group) : List (List Str × Spec.Written) := gs.flatMap (fun g => g.entries.map (fun w => (g.files, w)))

/-- The names in an expression. -/
def Spec.names : Expr V → List String
  | .name s => [s]
  | .number _ => []
  | .unary _ e => Spec.names e
  | .binary _ a b => Spec.names a ++ Spec.names b
  | .reduce _ e => Spec.names e

/-- The value that the name `s` has at point number `i`: that of the variable written with it. -/
def Spec.value (gs : List Spec.Group) (held : List Str → Str → Var ℚ V) (i : Nat) (s : String) : Option V :=
  ((Spec.all gs).find? (fun x => x.2.called = s)).bind (fun x => (held x.1 x.2.name).vals[i]?)

/-- The output argument `file` or `name:file`. -/
def Spec.outputText (name : Option Str) (path : Str) : Str :=
  match name with
  | none => path
  | some v => v ++ [':'] ++ path

/-! ### Proofs -/

theorem entry_written (w : Spec.Written) (h : w.Proper) : Parse.Entry w.text w.name (w.alias?.getD w.name) := by
  obtain ⟨h1, h2, h3⟩ := h
  have h4 : '=' ∉ w.name := fun hm => (h2 _ hm).1 rfl
  unfold Spec.Written.text
  cases ha : w.alias? with
  | none => exact .plain _ h1 h4
  | some a =>
    obtain ⟨h5, h6⟩ := h3 a ha
    dsimp only
    rw [List.append_assoc]
    exact .aliased _ _ h1 h4 h5 h6

theorem called_eq (w : Spec.Written) : w.called = String.ofList (w.alias?.getD w.name) := by
  unfold Spec.Written.called
  cases w.alias? <;> rfl

/-- What the parser makes of the entries of a group. -/
def parsed (g : Spec.Group) : List (Str × Str) := g.entries.map (fun w => (w.name, w.alias?.getD w.name))

theorem setAliases_written (gs : List Spec.Group) (hp : ∀ g ∈ gs, ∀ w ∈ g.entries, w.Proper)
    (hd : ((Spec.all gs).map (fun x => x.2.called)).Nodup) :
    Parse.setAliases (gs.map (fun g => g.entries.map Spec.Written.text)) = some (gs.map parsed) := by
  rw [Parse.aliases_spec]
  constructor
  · rw [List.forall₂_map_left_iff, List.forall₂_map_right_iff, List.forall₂_same]
    intro g hg
    unfold Parse.Entries parsed
    rw [List.forall₂_map_left_iff, List.forall₂_map_right_iff, List.forall₂_same]
    intro w hw
    exact entry_written w (hp g hg w hw)
  · have : ((gs.map parsed).flatten.map Prod.snd).map String.ofList = (Spec.all gs).map (fun x => x.2.called) := by
      unfold Spec.all parsed
      induction gs with
      | nil => rfl
      | cons g t ih =>
        have ih' := ih (fun g hg => hp g (List.mem_cons_of_mem _ hg)) (by
          unfold Spec.all at hd ⊢
          rw [List.flatMap_cons, List.map_append] at hd
          exact hd.of_append_right)
        rw [List.map_cons, List.flatten_cons, List.map_append, List.map_append, List.flatMap_cons, List.map_append, ih']
        congr 1
        simp [List.map_map, Function.comp_def, called_eq]
    rw [← this] at hd
    exact List.Nodup.of_map _ hd

theorem expand_plain (fv vars : List Str) (hne : vars ≠ []) (h : ∀ v ∈ vars, FileList.hasWildcard v = false) :
    Reader.expandWildcards fv vars = .ok vars := by
  have : vars.flatMap (fun v => if FileList.hasWildcard v then fv.filter (Reader.fnmatch v) else [v]) = vars := by
    clear hne
    induction vars with
    | nil => rfl
    | cons v t ih =>
      rw [List.flatMap_cons, ih (fun w hw => h w (List.mem_cons_of_mem _ hw)), h v List.mem_cons_self]
      rfl
  unfold Reader.expandWildcards
  rw [this]
  cases vars with
  | nil => exact absurd rfl hne
  | cons v t => rfl

/-- The object held, as it is named in the expression. -/
def asNamed (held : List Str → Str → Var ℚ V) (x : List Str × Spec.Written) : Var ℚ V :=
  { held x.1 x.2.name with
    aliasName := x.2.called
    varName := String.ofList x.2.name
    files := x.1.map String.ofList }

theorem compatible_of_shapes (x y : Var ℚ V) (h : x.coords.map Evaluate.Coord.metaShape = y.coords.map Evaluate.Coord.metaShape) :
    DataList.Spec.Compatible (objOf x) (objOf y) := by
  have hl : x.coords.length = y.coords.length := by simpa using congrArg List.length h
  refine ⟨by simp [objOf, hl], ?_⟩
  intro i c d hc hd
  simp only [objOf, List.getElem?_map, Option.map_eq_some_iff] at hc hd
  obtain ⟨c', hc', rfl⟩ := hc
  obtain ⟨d', hd', rfl⟩ := hd
  have := congrArg (fun l => l[i]?) h
  simp only [List.getElem?_map, hc', hd', Option.map_some, Option.some.injEq] at this
  dsimp only
  rw [this]
  intro j a b ha hb
  rw [ha] at hb; cases hb; rfl

/-- One group: the variables written, in their order, under their aliases. -/
theorem readGroup (A : Archive V) (held : List Str → Str → Var ℚ V) (g : Spec.Group) (hne : g.entries ≠ []) (hp : ∀ w ∈ g.entries, w.Proper)
    (hg : ∀ w ∈ g.entries, A.get g.files w.name = .ok (held g.files w.name) ∧ (held g.files w.name).gridded = false)
    (hs : ∀ w ∈ g.entries, ∀ w' ∈ g.entries,
      (held g.files w.name).coords.map Evaluate.Coord.metaShape = (held g.files w'.name).coords.map Evaluate.Coord.metaShape) :
    ∃ l, Reader.readDataList (readOne A) (A.fileVars g.files) g.files ((parsed g).map Prod.fst) (some ((parsed g).map Prod.snd)) = .ok l ∧
      l.filterMap (named A) = g.entries.map (fun w => asNamed held (g.files, w)) := by
  have hv : (parsed g).map Prod.fst = g.entries.map Spec.Written.name := by simp [parsed]
  have hal : (parsed g).map Prod.snd = g.entries.map (fun w => w.alias?.getD w.name) := by simp [parsed]
  have hex := expand_plain (A.fileVars g.files) ((parsed g).map Prod.fst) (by rw [hv]; simpa using hne) (by
    rw [hv]
    intro v hvm
    obtain ⟨w, hw, rfl⟩ := List.mem_map.1 hvm
    have h := (hp w hw).2.1
    unfold FileList.hasWildcard
    rw [List.any_eq_false]
    intro c hc hm
    obtain ⟨-, h1, h2, h3, h4⟩ := h c (by simpa using hm)
    simp [h1, h2, h3, h4] at hc)
  have hread : ∀ w ∈ g.entries, readOne A g.files w.name = .ok ⟨objOf (held g.files w.name), w.name, [], none⟩ := by
    intro w hw
    unfold readOne
    rw [(hg w hw).1]
  obtain ⟨l, hl⟩ := Reader.c79_success (readOne A) (A.fileVars g.files) g.files ((parsed g).map Prod.fst) _ (some ((parsed g).map Prod.snd)) false hex
    (by
      rw [hv]; intro v hvm
      obtain ⟨w, hw, rfl⟩ := List.mem_map.1 hvm
      exact ⟨_, hread w hw, by simp [objOf, (hg w hw).2]⟩)
    (by
      rw [hv]; intro v hvm v' hvm' d d' hd hd'
      obtain ⟨w, hw, rfl⟩ := List.mem_map.1 hvm
      obtain ⟨w', hw', rfl⟩ := List.mem_map.1 hvm'
      rw [hread w hw] at hd
      rw [hread w' hw'] at hd'
      cases hd; cases hd'
      exact compatible_of_shapes _ _ (hs w' hw' w hw))
    (by intro as has; cases has; right; simp)
  refine ⟨l, hl, ?_⟩
  obtain ⟨vs, he, hlen, -, hall⟩ := Reader.c79_read _ _ _ _ _ _ hl
  rw [hex] at he
  cases he
  have hm : l.map (named A) = g.entries.map (fun w => some (asNamed held (g.files, w))) := by
    apply List.ext_getElem?
    intro j
    rw [List.getElem?_map, List.getElem?_map]
    cases hj : l[j]? with
    | none =>
      have : g.entries[j]? = none := by
        rw [List.getElem?_eq_none_iff] at hj ⊢
        rw [hlen, hv, List.length_map] at hj
        exact hj
      rw [this]; rfl
    | some d =>
      obtain ⟨v, d0, h1, h2, -, h4, h5, h6, -⟩ := hall j d hj
      rw [hv, List.getElem?_map, Option.map_eq_some_iff] at h1
      obtain ⟨w, hw, rfl⟩ := h1
      have hwm := List.mem_of_getElem? hw
      rw [hread w hwm] at h2
      cases h2
      obtain ⟨a, ha, had⟩ := h6 _ rfl (by rw [hal]; simpa using hne)
      rw [hal, List.getElem?_map, hw, Option.map_some, Option.some.injEq] at ha
      rw [hw, Option.map_some, Option.map_some]
      unfold named asNamed
      rw [h4, h5, (hg w hwm).1, had, ← ha]
      simp [called_eq]
  have : l.filterMap (named A) = (l.map (named A)).filterMap id := by simp [List.filterMap_map]
  rw [this, hm, List.filterMap_map]
  simp [Function.comp_def]

theorem readGroups_written (A : Archive V) (held : List Str → Str → Var ℚ V) (gs : List Spec.Group) (hne : ∀ g ∈ gs, g.entries ≠ [])
    (hp : ∀ g ∈ gs, ∀ w ∈ g.entries, w.Proper)
    (hg : ∀ g ∈ gs, ∀ w ∈ g.entries, A.get g.files w.name = .ok (held g.files w.name) ∧ (held g.files w.name).gridded = false)
    (hs : ∀ g ∈ gs, ∀ w ∈ g.entries, ∀ w' ∈ g.entries,
      (held g.files w.name).coords.map Evaluate.Coord.metaShape = (held g.files w'.name).coords.map Evaluate.Coord.metaShape) :
    readGroups A ((gs.map Spec.Group.files).zip (gs.map parsed)) = .ok ((Spec.all gs).map (asNamed held)) := by
  induction gs with
  | nil => rfl
  | cons g t ih =>
    have ih' := ih (fun g hg' => hne g (List.mem_cons_of_mem _ hg')) (fun g hg' => hp g (List.mem_cons_of_mem _ hg'))
      (fun g' hg' => hg g' (List.mem_cons_of_mem _ hg')) (fun g' hg' => hs g' (List.mem_cons_of_mem _ hg'))
    obtain ⟨l, h1, h2⟩ := readGroup A held g (hne g List.mem_cons_self) (hp g List.mem_cons_self) (hg g List.mem_cons_self) (hs g List.mem_cons_self)
    rw [List.map_cons, List.map_cons, List.zip_cons_cons, readGroups, h1]
    dsimp only
    rw [ih', h2]
    simp [Spec.all]

theorem value_named (gs : List Spec.Group) (held : List Str → Str → Var ℚ V) (hd : ((Spec.all gs).map (fun x => x.2.called)).Nodup) (i : Nat) (s : String) :
    Evaluate.Spec.valueAt ((Spec.all gs).map (asNamed held)) i s = Spec.value gs held i s := by
  unfold Evaluate.Spec.valueAt Spec.value
  generalize Spec.all gs = l at hd
  rw [← List.map_reverse, List.find?_map]
  have key : l.reverse.find? ((fun v => decide (v.aliasName = s)) ∘ asNamed held) = l.find? (fun x => decide (x.2.called = s)) := by
    have e : ((fun v : Var ℚ V => decide (v.aliasName = s)) ∘ asNamed held) = (fun x => decide (x.2.called = s)) := by
      funext x; rfl
    rw [e]
    induction l with
    | nil => rfl
    | cons x t ih =>
      rw [List.map_cons, List.nodup_cons] at hd
      rw [List.reverse_cons, List.find?_append, ih hd.2, List.find?_cons]
      by_cases hx : x.2.called = s
      · have hn : t.find? (fun x => decide (x.2.called = s)) = none := by
          rw [List.find?_eq_none]
          intro y hy hc
          apply hd.1
          rw [hx]
          exact List.mem_map.2 ⟨y, hy, by simpa using hc⟩
        rw [hn]
        simp [hx]
      · simp [hx]
  rw [key]
  cases l.find? (fun x => decide (x.2.called = s)) <;> rfl

theorem known_of_names (data : List (Var ℚ V)) (e : Expr V) (h : ∀ s ∈ Spec.names e, ∃ v ∈ data, v.aliasName = s) : Evaluate.Spec.Known data e := by
  induction e with
  | name s => exact h s (by simp [Spec.names])
  | number v => trivial
  | unary f e ih => exact ih h
  | reduce f e ih => exact ih h
  | binary f a b iha ihb =>
    exact ⟨iha (fun s hs => h s (by simp [Spec.names, hs])), ihb (fun s hs => h s (by simp [Spec.names, hs]))⟩

theorem named_of_names (e : Expr V) (h : Spec.names e ≠ []) : Evaluate.Spec.Named e := by
  induction e with
  | name s => trivial
  | number v => exact absurd rfl h
  | unary f e ih => exact ih h
  | reduce f e ih => exact ih h
  | binary f a b iha ihb =>
    by_cases ha : Spec.names a = []
    · exact Or.inr (ihb (fun hb => h (by simp [Spec.names, ha, hb])))
    · exact Or.inl (iha ha)

theorem lookup_strings (d : List (Str × Str)) (k : Str) :
    (d.map (fun p => (String.ofList p.1, String.ofList p.2))).lookup (String.ofList k) = (d.lookup k).map String.ofList := by
  induction d with
  | nil => rfl
  | cons p t ih =>
    rw [List.map_cons, List.lookup_cons, List.lookup_cons, ih]
    by_cases h : k = p.1
    · subst h; simp
    · have h1 : (k == p.1) = false := by simpa using h
      have h2 : (String.ofList k == String.ofList p.1) = false := by
        rw [beq_eq_false_iff_ne]
        intro e
        exact h (by simpa using congrArg String.toList e)
      rw [h1, h2]

/-- **C186.** `cis eval` with datagroups whose entries are names of variables, with or without an alias, all of them called differently, that hold data on
the same points; an expression made of operators that work element by element in which every name is one of these; attributes written `key=value,…`, if
any; and an output, `file` or `name:file`, that may be written and is none of the inputs. Then the file with the extension `.nc`, unless it has one, is
written; the variable in it is called `name`, or `calculated_variable`; it has the units given and, for each key, the value given last for it; it is on the
coordinates of the variable written first; and its value at each point is that of the expression, each name standing for the value there of the variable
that was written with it. -/
theorem c186_evaluate (repr : List String → String) (version : String) (os : OS) (A : Archive V) (held : List Str → Str → Var ℚ V)
    (gs : List Spec.Group) (hgs : gs ≠ []) (hne : ∀ g ∈ gs, g.entries ≠ []) (hp : ∀ g ∈ gs, ∀ w ∈ g.entries, w.Proper)
    (hd : ((Spec.all gs).map (fun x => x.2.called)).Nodup)
    (hg : ∀ g ∈ gs, ∀ w ∈ g.entries, A.get g.files w.name = .ok (held g.files w.name))
    (n : Nat) (coords : List (List ℚ)) (hsame : Evaluate.Spec.SamePoints ((Spec.all gs).map (fun x => held x.1 x.2.name)) n coords)
    (hs : ∀ g ∈ gs, ∀ w ∈ g.entries, ∀ w' ∈ g.entries,
      (held g.files w.name).coords.map Evaluate.Coord.metaShape = (held g.files w'.name).coords.map Evaluate.Coord.metaShape)
    (e : Expr V) (he : Evaluate.Spec.Elementwise e) (hn : Spec.names e ≠ [])
    (hk : ∀ s ∈ Spec.names e, ∃ x ∈ Spec.all gs, x.2.called = s)
    (text units : String) (ht : ¬ Evaluate.Occurs "__" text)
    (ps : List (Str × Str)) (hw : ∀ p ∈ ps, Args.Spec.Writable p)
    (name : Option Str) (path : Str) (hcolon : ':' ∉ path ∧ ∀ v, name = some v → ':' ∉ v)
    (force : Bool) (env : Str) (answers : List Str) (file : Str) (hf : file = if os.ext path = [] then path ++ ".nc".toList else path)
    (hcons : Parse.Consent os file force env answers) (hin : ∀ g ∈ gs, ∀ i ∈ g.files, ¬(os.pathExists file = true ∧ os.samefile file i = true)) :
    ∃ r first, run repr version os A (gs.map (fun g => ⟨g.entries.map Spec.Written.text, g.files⟩)) e
        ⟨text, units, Spec.outputText name path, if ps = [] then none else some (Args.Spec.write ps), force, env, answers⟩ = .ok (file, r) ∧
      r.varName = (match name with | some v => String.ofList v | none => "calculated_variable") ∧ r.units = units ∧
      (∀ k, r.attrs.lookup (String.ofList k) = (ps.reverse.lookup k).map String.ofList) ∧
      (Spec.all gs).head? = some first ∧
      r.coords.map (fun c => (c.name, c.vals)) = (held first.1 first.2.name).coords.map (fun c => (c.name, c.vals)) ∧
      r.gridded = false ∧ r.vals.length = n ∧
      ∀ i < n, r.vals[i]? = Evaluate.Spec.at' (Spec.value gs held i) e := by
  have hmem : ∀ g ∈ gs, ∀ w ∈ g.entries, (g.files, w) ∈ Spec.all gs := by
    intro g hg' w hw'
    exact List.mem_flatMap.2 ⟨g, hg', List.mem_map.2 ⟨w, hw', rfl⟩⟩
  have hattr : ∃ attrs : Option (List (String × String)), attributesOf (if ps = [] then none else some (Args.Spec.write ps)) = some attrs ∧
      ∀ k, (attrs.getD []).lookup (String.ofList k) = (ps.reverse.lookup k).map String.ofList := by
    by_cases hps : ps = []
    · subst hps
      exact ⟨none, by simp [attributesOf], fun k => by simp⟩
    · rw [if_neg hps]
      obtain ⟨d, hd1, -⟩ := Args.c111_attributes_value ps hps hw []
      refine ⟨some (d.map (fun p => (String.ofList p.1, String.ofList p.2))), by simp [attributesOf, hd1], fun k => ?_⟩
      obtain ⟨d', hd2, hd3⟩ := Args.c111_attributes_value ps hps hw k
      rw [hd1] at hd2; cases hd2
      rw [Option.getD_some, lookup_strings, hd3]
  obtain ⟨attrs, ha1, ha2⟩ := hattr
  have hout : Parse.validateOutput os ".nc".toList (Spec.outputText name path) force env answers
      ((gs.map (fun g => (⟨g.entries.map Spec.Written.text, g.files⟩ : Group))).flatMap Group.files) = .proceed file name := by
    rw [Parse.output_validation]
    refine ⟨?_, hcons, ?_⟩
    · unfold Parse.outputFile
      have : Parse.splitOutput (Spec.outputText name path) = some (name, path) := by
        rw [Parse.splitOutput_spec]
        cases name with
        | none => exact Or.inl ⟨rfl, rfl, hcolon.1⟩
        | some v => exact Or.inr ⟨v, rfl, by simp [Spec.outputText], hcolon.2 v rfl, hcolon.1⟩
      rw [this, Option.map_some]
      unfold Parse.withExt
      dsimp only
      rw [← hf]
    · intro i hi
      rw [List.flatMap_map, List.mem_flatMap] at hi
      obtain ⟨g, hg', hi'⟩ := hi
      exact hin g hg' i hi'
  have hread := readGroups_written A held gs hne hp
    (fun g hg' w hw' => ⟨hg g hg' w hw', hsame.ungridded _ (List.mem_map.2 ⟨_, hmem g hg' w hw', rfl⟩)⟩) hs
  have hall : Spec.all gs ≠ [] := by
    cases gs with
    | nil => exact absurd rfl hgs
    | cons g t =>
      have := hne g List.mem_cons_self
      cases hge : g.entries with
      | nil => exact absurd hge this
      | cons w u => simp [Spec.all, hge]
  have hsame' : Evaluate.Spec.SamePoints ((Spec.all gs).map (asNamed held)) n coords := by
    constructor
    · intro v hv
      obtain ⟨x, hx, rfl⟩ := List.mem_map.1 hv
      exact hsame.ungridded (held x.1 x.2.name) (List.mem_map.2 ⟨x, hx, rfl⟩)
    · intro v hv
      obtain ⟨x, hx, rfl⟩ := List.mem_map.1 hv
      exact hsame.shape (held x.1 x.2.name) (List.mem_map.2 ⟨x, hx, rfl⟩)
    · intro v hv
      obtain ⟨x, hx, rfl⟩ := List.mem_map.1 hv
      exact hsame.length (held x.1 x.2.name) (List.mem_map.2 ⟨x, hx, rfl⟩)
    · intro v hv
      obtain ⟨x, hx, rfl⟩ := List.mem_map.1 hv
      exact hsame.coords_eq (held x.1 x.2.name) (List.mem_map.2 ⟨x, hx, rfl⟩)
    · exact hsame.coords_length
  have hknown : Evaluate.Spec.Known ((Spec.all gs).map (asNamed held)) e := by
    apply known_of_names
    intro s hs'
    obtain ⟨x, hx, hxs⟩ := hk s hs'
    exact ⟨asNamed held x, List.mem_map.2 ⟨x, hx, rfl⟩, hxs⟩
  have hdun : Evaluate.hasDunder text.toList = false := by
    rw [← Bool.not_eq_true, Evaluate.hasDunder_string]; exact ht
  cases hal : Spec.all gs with
  | nil => exact absurd hal hall
  | cons first rest =>
    have hvals := value_named gs held hd
    rw [hal] at hread hsame' hknown hvals
    rw [List.map_cons] at hread hsame' hknown
    simp only [List.map_cons] at hvals
    obtain ⟨r, h1, h2, h3, h4, h5, h6⟩ := Evaluate.c155_pointwise repr version (asNamed held first) (rest.map (asNamed held)) n coords hsame' e he hknown
      (named_of_names e hn) text hdun (name.map String.ofList) (some units) attrs
    have h1' := h1
    unfold evaluateExpr at h1'
    obtain ⟨-, s, rest', a, -, -, -, q1, q2, q3, -⟩ := (Evaluate.c48_ok_iff _ _ _ _ _ _ _ _ _).1 h1'
    refine ⟨r, first, ?_, ?_, ?_, ?_, rfl, ?_, h4, h2, ?_⟩
    · unfold run
      have : (gs.map (fun g => (⟨g.entries.map Spec.Written.text, g.files⟩ : Group))).map Group.entries =
          gs.map (fun g => g.entries.map Spec.Written.text) := by simp [List.map_map, Function.comp_def]
      rw [this, setAliases_written gs hp hd]
      dsimp only
      rw [ha1]
      dsimp only
      rw [hout]
      dsimp only
      have : (gs.map (fun g => (⟨g.entries.map Spec.Written.text, g.files⟩ : Group))).map Group.files = gs.map Spec.Group.files := by
        simp [List.map_map, Function.comp_def]
      rw [this, hread]
      dsimp only
      rw [h1]
    · rw [q1]; cases name <;> rfl
    · rw [q2]; rfl
    · rw [q3]; exact ha2
    · exact h5
    · intro i hi
      rw [h6 i hi]
      congr 1
      funext s
      exact hvals i s

/-- C186: if two entries, of the same or of different groups, are called the same, the command is refused and nothing is saved. -/
theorem c186_same_name (repr : List String → String) (version : String) (os : OS) (A : Archive V) (gs : List Spec.Group)
    (hp : ∀ g ∈ gs, ∀ w ∈ g.entries, w.Proper) (hd : ¬ ((Spec.all gs).map (fun x => x.2.called)).Nodup) (e : Expr V) (l : Line) :
    run repr version os A (gs.map (fun g => ⟨g.entries.map Spec.Written.text, g.files⟩)) e l = .error .parser := by
  have hmap : ∀ gs : List Spec.Group, ((gs.map parsed).flatten.map Prod.snd).map String.ofList = (Spec.all gs).map (fun x => x.2.called) := by
    intro gs
    unfold Spec.all parsed
    induction gs with
    | nil => rfl
    | cons g t ih =>
      rw [List.map_cons, List.flatten_cons, List.map_append, List.map_append, List.flatMap_cons, List.map_append, ih]
      congr 1
      simp [List.map_map, Function.comp_def, called_eq]
  have hnone : Parse.setAliases (gs.map (fun g => g.entries.map Spec.Written.text)) = none := by
    rw [Parse.aliases_fail_iff]
    intro r hr hnd
    have hr' : List.Forall₂ Parse.Entries (gs.map (fun g => g.entries.map Spec.Written.text)) (gs.map parsed) := by
      rw [List.forall₂_map_left_iff, List.forall₂_map_right_iff, List.forall₂_same]
      intro g hg
      unfold Parse.Entries parsed
      rw [List.forall₂_map_left_iff, List.forall₂_map_right_iff, List.forall₂_same]
      intro w hw
      exact entry_written w (hp g hg w hw)
    have h1 := (Parse.parseGroups_iff _ _).2 hr
    rw [(Parse.parseGroups_iff _ _).2 hr'] at h1
    cases h1
    apply hd
    rw [← hmap]
    refine hnd.map ?_
    intro a b hab
    simpa using congrArg String.toList hab
  unfold run
  have : (gs.map (fun g => (⟨g.entries.map Spec.Written.text, g.files⟩ : Group))).map Group.entries =
      gs.map (fun g => g.entries.map Spec.Written.text) := by simp [List.map_map, Function.comp_def]
  rw [this, hnone]

/-! ### Not vacuous -/

def exVar (vals : List ℚ) : Var ℚ ℚ := ⟨"", "", [], false, [3], vals, [⟨"time", [1, 2, 3], [3]⟩]⟩

def exHeld (_ : List Str) (v : Str) : Var ℚ ℚ := if v = "a".toList then exVar [1, 2, 3] else exVar [10, 20, 30]

def exArchive : Archive ℚ := ⟨fun _ => [], fun f v => .ok (exHeld f v)⟩

/-- `cis eval a=x,b:one.nc a:two.nc …` -/
def exGroups : List Spec.Group :=
  [⟨[⟨"a".toList, some "x".toList⟩, ⟨"b".toList, none⟩], ["one.nc".toList]⟩, ⟨[⟨"a".toList, none⟩], ["two.nc".toList]⟩]

/-- `x + 2 * b - a`. -/
def exExpr : Expr ℚ :=
  .binary (· - ·) (.binary (· + ·) (.name "x") (.binary (· * ·) (.number 2) (.name "b"))) (.name "a")

example : (∀ g ∈ exGroups, ∀ w ∈ g.entries, w.Proper) ∧ ((Spec.all exGroups).map (fun x => x.2.called)).Nodup ∧
    Evaluate.Spec.Elementwise exExpr ∧ (∀ s ∈ Spec.names exExpr, ∃ x ∈ Spec.all exGroups, x.2.called = s) ∧ Spec.names exExpr ≠ [] := by
  refine ⟨?_, ?_, ⟨⟨trivial, trivial, trivial⟩, trivial⟩, ?_, by decide⟩
  · unfold Spec.Written.Proper
    decide
  · decide
  · decide

example : Evaluate.Spec.SamePoints ((Spec.all exGroups).map (fun x => exHeld x.1 x.2.name)) 3 [[1, 2, 3]] := by
  constructor <;> decide +kernel

def shown : Except Err (Str × Result ℚ ℚ) → Option (String × String × String × List (String × String) × List ℚ)
  | .ok (f, r) => some (String.ofList f, r.varName, r.units, r.attrs, r.vals)
  | .error _ => none

example : shown (run (fun _ => "") "1" Parse.exampleOS exArchive (exGroups.map (fun g => ⟨g.entries.map Spec.Written.text, g.files⟩)) exExpr
    ⟨"x + 2 * b - a", "m", "v:new".toList, some "k=1,k=2".toList, false, [], []⟩) = some ("new.nc", "v", "m", [("k", "2")], [20, 40, 60]) := by
  with_unfolding_all rfl

end Cis.EvalCmd
