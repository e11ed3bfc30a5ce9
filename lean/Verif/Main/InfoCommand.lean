import Verif.Parse.Datagroups
import Verif.Read.Errors
import Verif.Read.Listing
set_option linter.unusedSectionVars false
set_option linter.unusedSimpArgs false

/-!
# `cis info`: from the text of the datagroup to the lines printed

Model of the command as a whole: `validate_info_args` (cis/parse.py:882-895, C124), `info_cmd` (cis/cis_main.py:53-64), `info` (cis/info.py:6-24) and
`get_data`, `get_variables` (cis/data_io/products/AProduct.py:186-252, C49 and C114). Parameters: the products (which class is right for a file,
what its methods give for files and a variable), expansion of lists of files (C02), and the order in which Python runs through a set of names. The
listing of the general product is `genericNames` (C107).
-/
namespace Cis.InfoCmd
open Cis.Str Cis.Parse Cis.Plugin Cis.Errors Cis.Datagroups

variable {N : Type}

/-- What the command depends on: the texts, the products and the files. -/
structure World (N : Type) where
  env : Datagroups.Env N
  reMatch : String → List Char → Bool
  typeErr : Cls → List Char → Bool
  classes : List Cls
  describe : Cls → List Str → Str → Except Exc String        -- `str(product().create_data_object(filenames, variable))`
  names : Cls → List Str → Option Str → Except Exc (List Str)  -- `product().get_variable_names(filenames, data_type)`, elements of the set
  order : List Str → List Str                                -- running through a set

/-- `dg.get(key)` for a datagroup. -/
def field (d : List (Str × Val N)) (k : String) : Option (Val N) := d.lookup k.toList

/-- `dg['filenames']`. -/
def filesOf (d : List (Str × Val N)) : List Str :=
  match field d "filenames" with
  | some (.texts l) => l
  | _ => []

/-- `dg.get('product', None)`. -/
def productOf (d : List (Str × Val N)) : Option String :=
  match field d "product" with
  | some (.text s) => some (String.ofList s)
  | _ => none

/-- `get_variables` (AProduct.py:231-252). -/
def getVariables (w : World N) (files : List Str) (product : Option String) (type : Option Str) : Except Exc (List Str) :=
  match chosen w.reMatch w.typeErr w.classes files product with
  | .error e => .error e
  | .ok c => report "variables" c.name (w.names c files type)

/-- Methods of the products that `info` uses, in the form of C114. -/
def methods (w : World N) : Methods String Unit Unit :=
  ⟨w.describe, fun _ _ => .ok (), fun _ _ => .ok (), fun _ _ => .ok ""⟩

/-- How the command ends, when it does not end well. -/
inductive Failure
  | usage            -- the parser refuses the arguments
  | exc (e : Exc)

/-- What the command does: the texts printed, one after the other, and the failure, if any. -/
structure Out where
  lines : List String
  failure : Option Failure

/-- `cis info <datagroup> [--type <type>]` (parse.py:882-895, cis_main.py:53-64, info.py:6-24). -/
def run (w : World N) (group : Str) (type : Option Str) : Out :=
  match Datagroups.info w.env group with
  | none => ⟨[], some .usage⟩
  | some d =>
    match field d "variables" with
    | some (.texts vs) =>
      let r := infoVars (fun v => getData w.reMatch w.typeErr w.classes (methods w) (filesOf d) v (productOf d)) vs
      ⟨r.1, r.2.map .exc⟩
    | _ =>
      match getVariables w (filesOf d) (productOf d) type with
      | .error e => ⟨[], some (.exc e)⟩
      | .ok ns => ⟨(w.order ns).map String.ofList, none⟩

/-! ### Specification -/

/-- Running through a set: each element once. -/
def Spec.SetOrder (order : List Str → List Str) : Prop := ∀ l, (order l).Nodup ∧ ∀ x, x ∈ order l ↔ x ∈ l

/-- The user is told which product failed, with which exception and why. -/
def Spec.Told (c : Cls) (e : Exc) (r : Exc) : Prop :=
  ∀ a rest, e.derived = true → e.args = a :: rest → r.cls = "ProductPluginException" ∧
    ∃ s, printed r = some s ∧ Errors.Spec.Contains s c.name ∧ Errors.Spec.Contains s e.cls ∧ Errors.Spec.Contains s a

/-- The datagroup `variables:files[:product=p]` as written on the command line. -/
def Spec.written (vs : List Str) (files : Str) (product : Option Str) : Str :=
  Datagroups.Spec.text [join ',' vs, files] (product.toList.map (fun p => ("product".toList, p)))

/-- Names of variables, a text for files that stands for the files `l`, and a product, as they can be written. -/
structure Spec.Legible (w : World N) (vs : List Str) (files : Str) (l : List Str) (product : Option Str) : Prop where
  names : Datagroups.Spec.Names vs
  ends : ∀ v ∈ vs, v.getLast? ≠ some '\\'
  found : w.env.expand files = some l ∧ l ≠ []
  text : files ≠ [] ∧ files.getLast? ≠ some '\\'
  product : ∀ p, product = some p → WellFormed ("product".toList, p)

/-! ### C199 -/

theorem info_written (w : World N) (vs : List Str) (files : Str) (l : List Str) (product : Option Str) (h : Spec.Legible w vs files l product) :
    Datagroups.info w.env (Spec.written vs files product) =
      some ([("variables".toList, .texts vs), ("filenames".toList, .texts l)] ++ product.toList.map (fun p => ("product".toList, .text p))) := by
  have hb := c124_basic w.env vs files l product h.names h.ends h.text.1 h.text.2 h.found.1 h.found.2 h.product
  unfold Spec.written
  have hw : Datagroups.Spec.Writable [join ',' vs, files] (product.toList.map (fun p => ("product".toList, p))) := by
    refine ⟨?_, ?_, ?_⟩
    · intro f hf'
      simp only [List.mem_cons, List.not_mem_nil, or_false] at hf'
      rcases hf' with rfl | rfl
      · exact join_last vs h.names.1 h.ends (fun v hv => (h.names.2 v hv).1)
      · exact h.text.2
    · intro kv hkv
      obtain ⟨p, hp', rfl⟩ := List.mem_map.1 hkv
      exact h.product p (by simpa using hp')
    · cases product <;> simp
  rw [(c124_info w.env files l h.text.1 h.found.1 h.found.2).2 _ (by
    rw [fields_of_text _ _ (by simp) hw]; simp only [List.length_append, List.length_cons, List.length_nil]; omega), hb]

theorem run_written (w : World N) (vs : List Str) (files : Str) (l : List Str) (product : Option Str) (h : Spec.Legible w vs files l product)
    (type : Option Str) : run w (Spec.written vs files product) type =
      let r := infoVars (fun v => getData w.reMatch w.typeErr w.classes (methods w) l v (product.map String.ofList)) vs
      ⟨r.1, r.2.map .exc⟩ := by
  unfold run
  rw [info_written w vs files l product h]
  cases product with
  | none => rfl
  | some p => rfl

/-- **C199** (variables). `cis info v1,v2,...:files[:product=p]` describes the variables, in order, each as the product for the first file (C49) describes
it for all the files, up to the first that the product cannot give; if there is one, the user is told product and cause. -/
theorem c199_variables (w : World N) (vs : List Str) (files : Str) (f : Str) (t : List Str) (product type : Option Str)
    (h : Spec.Legible w vs files (f :: t) product) (c : Cls) (hc : getClass w.reMatch w.typeErr w.classes f (product.map String.ofList) = some c) :
    let out := run w (Spec.written vs files product) type
    List.Forall₂ (fun v s => w.describe c (f :: t) v = .ok s) (vs.take out.lines.length) out.lines ∧
      ((out.failure = none ∧ out.lines.length = vs.length) ∨
        ∃ v e r, vs[out.lines.length]? = some v ∧ w.describe c (f :: t) v = .error e ∧ out.failure = some (.exc r) ∧ Spec.Told c e r) := by
  dsimp only
  rw [run_written w vs files (f :: t) product h]
  dsimp only
  generalize hr : infoVars (fun v => getData w.reMatch w.typeErr w.classes (methods w) (f :: t) v (product.map String.ofList)) vs = r
  obtain ⟨out, e⟩ := r
  obtain ⟨k, rfl, h1, h2⟩ := (c114_info _ vs out e).1 hr
  dsimp only
  have hok : ∀ v s, getData w.reMatch w.typeErr w.classes (methods w) (f :: t) v (product.map String.ofList) = .ok s →
      w.describe c (f :: t) v = .ok s := by
    intro v s hv
    obtain ⟨f', t', c', hft, hc', hd⟩ := (c114_success _ _ _ (methods w) (f :: t) v _ s).1 hv
    cases hft
    rw [hc] at hc'
    cases hc'
    exact hd
  refine ⟨h1.imp hok, ?_⟩
  rcases h2 with ⟨rfl, h2⟩ | ⟨v, x, hv, hx, rfl⟩
  · exact .inl ⟨rfl, h2⟩
  · refine .inr ⟨v, ?_⟩
    cases hd : w.describe c (f :: t) v with
    | ok s =>
      have := (c114_success _ _ _ (methods w) (f :: t) v _ s).2 ⟨f, t, c, rfl, hc, hd⟩
      rw [hx] at this
      cases this
    | error e =>
      refine ⟨e, x, hv, rfl, rfl, ?_⟩
      intro a rest h3 h4
      obtain ⟨r, h5, h6⟩ := c114_reported w.reMatch w.typeErr w.classes (methods w) f t v _ c e a rest hc hd h3 h4
      rw [hx] at h5
      cases h5
      exact h6

/-- C199: without a product for the first file nothing is printed and the user is told so. -/
theorem c199_no_product (w : World N) (vs : List Str) (files : Str) (f : Str) (t : List Str) (product type : Option Str)
    (h : Spec.Legible w vs files (f :: t) product) (hc : getClass w.reMatch w.typeErr w.classes f (product.map String.ofList) = none) :
    ∃ r, run w (Spec.written vs files product) type = ⟨[], some (.exc r)⟩ ∧ r.cls = "ClassNotFoundError" := by
  rw [run_written w vs files (f :: t) product h]
  obtain ⟨v, vs', rfl⟩ := List.exists_cons_of_ne_nil h.names.1
  have hg : getData w.reMatch w.typeErr w.classes (methods w) (f :: t) v (product.map String.ofList) =
      .error (Exc.ofArgs "ClassNotFoundError" ["Product cannot be found for given file."]) := by
    unfold getData chosen
    dsimp only
    rw [hc]
  dsimp only [infoVars]
  rw [hg]
  exact ⟨_, rfl, rfl⟩

theorem run_files (w : World N) (files : Str) (l : List Str) (hf : files ≠ []) (hl : w.env.expand files = some l) (hl0 : l ≠ []) (type : Option Str) :
    run w (escape files) type = match getVariables w l none type with
      | .error e => ⟨[], some (.exc e)⟩
      | .ok ns => ⟨(w.order ns).map String.ofList, none⟩ := by
  unfold run
  rw [(c124_info w.env files l hf hl hl0).1]
  rfl

theorem ofList_inj : Function.Injective String.ofList := fun a b h => by
  have := congrArg String.toList h
  simpa using this

/-- **C199** (files). `cis info files` prints each name that the product for the first file lists for all the files, exactly once and nothing else; if
listing fails the user is told product and cause. -/
theorem c199_files (w : World N) (hord : Spec.SetOrder w.order) (files : Str) (f : Str) (t : List Str) (hf : files ≠ [])
    (hl : w.env.expand files = some (f :: t)) (type : Option Str) (c : Cls) (hc : getClass w.reMatch w.typeErr w.classes f none = some c) :
    (∀ ns, w.names c (f :: t) type = .ok ns → (run w (escape files) type).failure = none ∧ (run w (escape files) type).lines.Nodup ∧
      ∀ s, s ∈ (run w (escape files) type).lines ↔ ∃ n ∈ ns, s = String.ofList n) ∧
    (∀ e, w.names c (f :: t) type = .error e → ∃ r, run w (escape files) type = ⟨[], some (.exc r)⟩ ∧ Spec.Told c e r) := by
  rw [run_files w files (f :: t) hf hl (by simp)]
  have hch : chosen w.reMatch w.typeErr w.classes (f :: t) none = .ok c := by unfold chosen; dsimp only; rw [hc]
  unfold getVariables
  rw [hch]
  dsimp only
  constructor
  · intro ns hns
    rw [hns]
    dsimp only [report]
    refine ⟨rfl, (List.nodup_map_iff ofList_inj).2 (hord ns).1, ?_⟩
    intro s
    simp only [List.mem_map, (hord ns).2]
    constructor
    · rintro ⟨n, h1, rfl⟩; exact ⟨n, h1, rfl⟩
    · rintro ⟨n, h1, rfl⟩; exact ⟨n, h1, rfl⟩
  · intro e he
    rw [he]
    unfold report
    dsimp only
    by_cases hd : e.derived = true
    · rw [if_pos hd]
      cases ha : e.args with
      | nil => exact ⟨_, rfl, fun a rest _ h => by rw [ha] at h; cases h⟩
      | cons a rest =>
        refine ⟨_, rfl, ?_⟩
        intro a' rest' _ h
        rw [ha] at h
        cases h
        refine ⟨rfl, message "variables" c.name e.cls a, ?_, ?_, ?_, ?_⟩
        · simp [printed, Exc.ofArgs]
        · exact ⟨part1 ++ "variables" ++ part2, part3 ++ e.cls ++ ": " ++ a ++ ".", by unfold message; simp only [String.append_assoc]⟩
        · exact ⟨part1 ++ "variables" ++ part2 ++ c.name ++ part3, ": " ++ a ++ ".", by unfold message; simp only [String.append_assoc]⟩
        · exact ⟨part1 ++ "variables" ++ part2 ++ c.name ++ part3 ++ e.cls ++ ": ", ".", by unfold message; simp only [String.append_assoc]⟩
    · rw [if_neg hd]
      exact ⟨e, rfl, fun a rest h _ => absurd h hd⟩

/-- The product lists variables like the general one (AProduct.py:70-97), with the valid dimensions `valid`, for files with these contents. `excOf`
are the exceptions raised. -/
def Spec.Generic (w : World N) (c : Cls) (valid : Option (List Str)) (content : Str → Listing.GFile) (excOf : Listing.GErr → Exc) : Prop :=
  (∀ f, (content f).hdf.name = f) ∧
  ∀ l type, w.names c l type = match Listing.genericNames valid type (l.map content) with
    | .ok ns => .ok ns
    | .error e => .error (excOf e)

/-- **C199** (NetCDF files, general listing). Whatever `--type`, each name of a variable in any of the files all of whose dimensions are valid for the
product is printed, once, and nothing else. -/
theorem c199_netcdf (w : World N) (hord : Spec.SetOrder w.order) (files : Str) (f : Str) (t : List Str) (hf : files ≠ [])
    (hl : w.env.expand files = some (f :: t)) (type : Option Str) (c : Cls) (hc : getClass w.reMatch w.typeErr w.classes f none = some c)
    (valid : Option (List Str)) (content : Str → Listing.GFile) (excOf : Listing.GErr → Exc) (hg : Spec.Generic w c valid content excOf)
    (hname : ∀ g ∈ f :: t, ".nc".toList <:+ g ∨ ".h5".toList <:+ g) (hw : ∀ g ∈ f :: t, (content g).nc.WF) :
    (run w (escape files) type).failure = none ∧ (run w (escape files) type).lines.Nodup ∧
      ∀ s, s ∈ (run w (escape files) type).lines ↔ ∃ n, s = String.ofList n ∧ ∃ g ∈ f :: t, ∃ dims, Read.HasVar (content g).nc n dims ∧
        ∀ vs, valid = some vs → ∀ d ∈ dims, d ∈ vs := by
  obtain ⟨ns, h1, h2⟩ := Listing.c107_generic_netcdf valid type ((f :: t).map content)
    (by intro g hg'; obtain ⟨g0, h0, rfl⟩ := List.mem_map.1 hg'; exact hw g0 h0)
    (by intro g hg'; obtain ⟨g0, h0, rfl⟩ := List.mem_map.1 hg'; rw [hg.1]; exact hname g0 h0)
  have hn : w.names c (f :: t) type = .ok ns := by rw [hg.2, h1]
  obtain ⟨h3, h4, h5⟩ := (c199_files w hord files f t hf hl type c hc).1 ns hn
  refine ⟨h3, h4, fun s => ?_⟩
  rw [h5]
  constructor
  · rintro ⟨n, hn, rfl⟩
    obtain ⟨g, hg', dims, h6⟩ := (h2 n).1 hn
    obtain ⟨g0, h0, rfl⟩ := List.mem_map.1 hg'
    exact ⟨n, rfl, g0, h0, dims, h6⟩
  · rintro ⟨n, rfl, g, h0, dims, h6⟩
    exact ⟨n, (h2 n).2 ⟨content g, List.mem_map_of_mem h0, dims, h6⟩, rfl⟩

/-- **C199** (HDF4 files, general listing). `--type SD`: the names of the scientific data sets of all the files, each once; `--type VD`: those of the
vdata. -/
theorem c199_hdf (w : World N) (hord : Spec.SetOrder w.order) (files : Str) (f : Str) (t : List Str) (hf : files ≠ [])
    (hl : w.env.expand files = some (f :: t)) (c : Cls) (hc : getClass w.reMatch w.typeErr w.classes f none = some c)
    (valid : Option (List Str)) (content : Str → Listing.GFile) (excOf : Listing.GErr → Exc) (hg : Spec.Generic w c valid content excOf)
    (hname : ∀ g ∈ f :: t, ".hdf".toList <:+ g) :
    ((run w (escape files) (some "SD".toList)).failure = none ∧ (run w (escape files) (some "SD".toList)).lines.Nodup ∧
      ∀ s, s ∈ (run w (escape files) (some "SD".toList)).lines ↔ ∃ g ∈ f :: t, ∃ x ∈ (content g).hdf.sd, s = String.ofList x.1) ∧
    ((run w (escape files) (some "VD".toList)).failure = none ∧ (run w (escape files) (some "VD".toList)).lines.Nodup ∧
      ∀ s, s ∈ (run w (escape files) (some "VD".toList)).lines ↔ ∃ g ∈ f :: t, ∃ x ∈ (content g).hdf.vd, s = String.ofList x.1) := by
  obtain ⟨-, h2, h3, -⟩ := Listing.c107_generic_hdf valid ((f :: t).map content)
    (by intro g hg'; obtain ⟨g0, h0, rfl⟩ := List.mem_map.1 hg'; rw [hg.1]; exact hname g0 h0)
  constructor
  · obtain ⟨h4, h5, h6⟩ := (c199_files w hord files f t hf hl (some "SD".toList) c hc).1 _ (by rw [hg.2, h2])
    refine ⟨h4, h5, fun s => ?_⟩
    rw [h6]
    constructor
    · rintro ⟨n, hn, rfl⟩
      obtain ⟨g, hg', hx⟩ := List.mem_flatMap.1 hn
      obtain ⟨g0, h0, rfl⟩ := List.mem_map.1 hg'
      obtain ⟨x, hx', rfl⟩ := List.mem_map.1 hx
      exact ⟨g0, h0, x, hx', rfl⟩
    · rintro ⟨g, h0, x, hx, rfl⟩
      exact ⟨x.1, List.mem_flatMap.2 ⟨content g, List.mem_map_of_mem h0, List.mem_map_of_mem hx⟩, rfl⟩
  · obtain ⟨h4, h5, h6⟩ := (c199_files w hord files f t hf hl (some "VD".toList) c hc).1 _ (by rw [hg.2, h3])
    refine ⟨h4, h5, fun s => ?_⟩
    rw [h6]
    constructor
    · rintro ⟨n, hn, rfl⟩
      obtain ⟨g, hg', hx⟩ := List.mem_flatMap.1 hn
      obtain ⟨g0, h0, rfl⟩ := List.mem_map.1 hg'
      obtain ⟨x, hx', rfl⟩ := List.mem_map.1 hx
      exact ⟨g0, h0, x, hx', rfl⟩
    · rintro ⟨g, h0, x, hx, rfl⟩
      exact ⟨x.1, List.mem_flatMap.2 ⟨content g, List.mem_map_of_mem h0, List.mem_map_of_mem hx⟩, rfl⟩

/-- C199: a product can only be given together with a variable: `files:product=p` is refused, unless `product=p` is a file. -/
theorem c199_product_needs_variable (w : World N) (files p : Str) (type : Option Str) (hf : files.getLast? ≠ some '\\')
    (hno : w.env.expand ("product=".toList ++ p) = none) :
    run w (join ':' [escape files, escape ("product=".toList ++ p)]) type = ⟨[], some .usage⟩ := by
  have hcf : colonFields (join ':' [escape files, escape ("product=".toList ++ p)]) = [files, "product=".toList ++ p] := by
    have := colon_roundtrip [files, "product=".toList ++ p] (by simp) (by
      intro x hx
      rcases List.mem_singleton.1 hx with rfl
      exact hf)
    exact this
  have hi : Datagroups.info w.env (join ':' [escape files, escape ("product=".toList ++ p)]) = none := by
    unfold Datagroups.info
    rw [hcf, if_neg (by simp)]
    unfold parseGroup
    rw [hcf]
    have h2 : checkFiles w.env ("product=".toList ++ p) = none := by
      unfold checkFiles
      rw [if_neg (by simp), hno]
    have e1 : ¬ [files, "product=".toList ++ p].length < (basic w.env).compulsory.length := by simp [basic]
    have e2 : ¬ (basic w.env).compulsory.length + 1 < [files, "product=".toList ++ p].length := by simp [basic]
    dsimp only
    rw [if_neg e1, if_neg e2]
    have e3 : positional (basic w.env).compulsory [files, "product=".toList ++ p] = none := by
      dsimp only [basic]
      unfold positional
      cases checkCommaSplit (N := N) files with
      | none => rfl
      | some x =>
        dsimp only
        unfold positional
        rw [h2]
    rw [e3]
  unfold run
  rw [hi]

/-! ### C200: what doc/file_information.rst says and the command does not do -/

/-- C200 violated, "the default is `All`": without `--type` exactly what `--type SD` prints is printed for HDF4 files, so no vdata; and `--type All`, which the
help of the option names, is refused for every HDF4 file. -/
theorem c200_default_type_violated (w : World N) (files : Str) (f : Str) (t : List Str) (hf : files ≠ [])
    (hl : w.env.expand files = some (f :: t)) (c : Cls) (hc : getClass w.reMatch w.typeErr w.classes f none = some c)
    (valid : Option (List Str)) (content : Str → Listing.GFile) (excOf : Listing.GErr → Exc) (hg : Spec.Generic w c valid content excOf)
    (hname : ∀ g ∈ f :: t, ".hdf".toList <:+ g) :
    run w (escape files) none = run w (escape files) (some "SD".toList) ∧
      (run w (escape files) (some "All".toList)).lines = [] ∧ (run w (escape files) (some "All".toList)).failure ≠ none := by
  obtain ⟨h1, h2, -, h4⟩ := Listing.c107_generic_hdf valid ((f :: t).map content)
    (by intro g hg'; obtain ⟨g0, h0, rfl⟩ := List.mem_map.1 hg'; rw [hg.1]; exact hname g0 h0)
  have h5 := h4 "All".toList (by decide) (by decide) (by simp)
  have hch : chosen w.reMatch w.typeErr w.classes (f :: t) none = .ok c := by unfold chosen; dsimp only; rw [hc]
  simp only [run_files w files (f :: t) hf hl (by simp)]
  unfold getVariables
  rw [hch]
  dsimp only
  rw [hg.2, hg.2, hg.2, h1, h2, h5]
  refine ⟨rfl, ?_⟩
  dsimp only [report]
  by_cases hd : (excOf (.hdf .value)).derived = true
  · rw [if_pos hd]
    cases (excOf (.hdf .value)).args with
    | nil => exact ⟨rfl, by simp⟩
    | cons a rest => exact ⟨rfl, by simp⟩
  · rw [if_neg hd]
    exact ⟨rfl, by simp⟩

/-! ### Examples -/

/-- One product, for files whose names end in `.hdf`; two files, with a data set and a vdata. -/
def exCls : Cls := ⟨0, "Product", 10, "AProduct", [".*hdf"]⟩

def exContent (f : Str) : Listing.GFile := ⟨.mk [] .nil, ⟨f, [("aod".toList, ⟨[], [3]⟩)], [("height".toList, ⟨[], [3]⟩)]⟩⟩

def exExc : Listing.GErr → Exc
  | .type => Exc.ofArgs "TypeError" ["'NoneType' object is not iterable"]
  | .hdf _ => Exc.ofArgs "ValueError" ["Invalid data-type: All, HDF variables must be VD or SD only"]

def exWorld : World ℚ where
  env := { exampleEnv with expand := fun s => if s = "a.hdf,b.hdf".toList then some ["a.hdf".toList, "b.hdf".toList] else none }
  reMatch := fun _ f => ".hdf".toList.isSuffixOf f
  typeErr := fun _ _ => false
  classes := [exCls]
  describe := fun _ _ v => if v = "aod".toList then .ok "Ungridded data: aod" else .error (Exc.ofArgs "IOError" ["no such variable"])
  names := fun _ l type => match Listing.genericNames none type (l.map exContent) with
    | .ok ns => .ok ns
    | .error e => .error (exExc e)
  order := List.dedup

theorem exOrder : Spec.SetOrder exWorld.order := fun l => ⟨List.nodup_dedup l, fun _ => List.mem_dedup⟩

theorem exGeneric : Spec.Generic exWorld exCls none exContent exExc := ⟨fun _ => rfl, fun _ _ => rfl⟩

theorem exLegible : Spec.Legible exWorld ["aod".toList, "x".toList] "a.hdf,b.hdf".toList ["a.hdf".toList, "b.hdf".toList] none :=
  ⟨⟨by decide, by decide⟩, by decide, by decide, by decide, by simp⟩

/-- Of two variables the first is described, and then the failure of the second reported. -/
example : (run exWorld (Spec.written ["aod".toList, "x".toList] "a.hdf,b.hdf".toList none) none).lines = ["Ungridded data: aod"] := by
  with_unfolding_all rfl

example : (run exWorld (escape "a.hdf,b.hdf".toList) none).lines = ["aod"] ∧
    (run exWorld (escape "a.hdf,b.hdf".toList) (some "VD".toList)).lines = ["height"] := by
  constructor <;> with_unfolding_all rfl

/-- The hypotheses hold for the example: neither vdata nor `All`. -/
example : "height" ∉ (run exWorld (escape "a.hdf,b.hdf".toList) none).lines ∧
    (run exWorld (escape "a.hdf,b.hdf".toList) (some "All".toList)).failure ≠ none := by
  have h := c200_default_type_violated exWorld "a.hdf,b.hdf".toList "a.hdf".toList ["b.hdf".toList] (by decide) (by decide) exCls
    (by with_unfolding_all rfl) none exContent exExc exGeneric (by decide)
  have h2 := c199_hdf exWorld exOrder "a.hdf,b.hdf".toList "a.hdf".toList ["b.hdf".toList] (by decide) (by decide) exCls
    (by with_unfolding_all rfl) none exContent exExc exGeneric (by decide)
  refine ⟨?_, h.2.2⟩
  rw [h.1, h2.1.2.2]
  rintro ⟨g, hg, x, hx, he⟩
  simp only [exContent, List.mem_singleton] at hx
  subst hx
  exact absurd he (by decide)

end Cis.InfoCmd
