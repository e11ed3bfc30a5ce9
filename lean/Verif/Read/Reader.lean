import Verif.FileList.Model
import Verif.DataList.Props
import Mathlib.Tactic
set_option linter.unusedSectionVars false
set_option linter.unusedSimpArgs false
/-!
Model of `DataReader.read_data_list`, `_expand_wildcards`, `read_datagroups` (cis/data_io/data_reader.py:65-176) and of
`cis.read_data` / `cis.read_data_list` (cis/__init__.py:27-71). Property C79.

`fnmatch.filter` of the Python library is modelled for POSIX (no change of case), with character classes and ranges.
Reading one variable (`get_data`) is an arbitrary function.
-/
namespace Cis.Reader

abbrev Str := List Char

/-! ### `fnmatch` -/

/-- The parts of a pattern. -/
inductive Tok
  | star
  | any
  | lit (c : Char)
  | cls (neg : Bool) (items : List (Char × Char))
deriving DecidableEq

/-- The contents of a character class: characters and ranges. -/
def clsItems : Str → List (Char × Char)
  | a :: '-' :: b :: t => (a, b) :: clsItems t
  | a :: t => (a, a) :: clsItems t
  | [] => []

/-- The class after `[`: negation, contents up to the closing bracket (a bracket in the first place does not close), and the rest;
`none` if it is not closed. -/
def parseCls (s : Str) : Option (Tok × Str) :=
  let neg := s.head? == some '!'
  let s1 := if neg then s.tail else s
  match s1 with
  | [] => none
  | c :: t =>
    let body := t.takeWhile (· != ']')
    match t.drop body.length with
    | [] => none
    | _ :: rest => some (.cls neg (clsItems (c :: body)), rest)

/-- `fnmatch.translate`, as a list of parts; `fuel` bounds the length. -/
def tokens : Nat → Str → List Tok
  | 0, _ => []
  | _, [] => []
  | n + 1, '*' :: t => .star :: tokens n t
  | n + 1, '?' :: t => .any :: tokens n t
  | n + 1, '[' :: t =>
    match parseCls t with
    | some (k, rest) => k :: tokens n rest
    | none => .lit '[' :: tokens n t
  | n + 1, c :: t => .lit c :: tokens n t

/-- Matching a whole name. -/
def matchToks : List Tok → Str → Bool
  | [], s => s.isEmpty
  | .star :: p, s => s.tails.any (matchToks p)
  | .any :: p, s => match s with
    | [] => false
    | _ :: t => matchToks p t
  | .lit c :: p, s => match s with
    | [] => false
    | x :: t => x == c && matchToks p t
  | .cls neg items :: p, s => match s with
    | [] => false
    | x :: t => (items.any (fun i => decide (i.1 ≤ x ∧ x ≤ i.2)) != neg) && matchToks p t

/-- `fnmatch.fnmatch(name, pattern)`. -/
def fnmatch (pattern name : Str) : Bool := matchToks (tokens pattern.length pattern) name

/-! ### `DataReader` -/

/-- Exceptions. -/
inductive Err
  | value   -- ValueError
  | type    -- TypeError
  | io      -- IOError
  | read (n : Nat)  -- whatever reading the data raises
deriving DecidableEq

/-- A data object: what `CommonDataList.append` looks at, the variable it was read from, the file names and the alias. -/
structure Data (K : Type) where
  obj : DataList.Obj K
  var : Str
  filenames : List Str
  alias? : Option Str

variable {K : Type}

/-- `_expand_wildcards` (data_reader.py:103-130); `fileVars` are the variables of the files (a set, in the order of its iteration). -/
def expandWildcards (fileVars : List Str) (vars : List Str) : Except Err (List Str) :=
  let valid := vars.flatMap (fun v => if FileList.hasWildcard v then fileVars.filter (fnmatch v) else [v])
  if valid.length = 0 then .error .value else .ok valid

/-- What `append` raises. -/
def ofListErr : DataList.Err → Err
  | .typeError => .type
  | .valueError => .value

/-- The object with its file names and alias (data_reader.py:91-96); `none` is the IndexError, raised again as ValueError. -/
def withAlias (files : List Str) (aliases : Option (List Str)) (i : Nat) (d : Data K) : Option (Data K) :=
  match aliases with
  | none => some { d with filenames := files }
  | some as => (as[i]?).map (fun a => { d with filenames := files, alias? := some a })

/-- The loop of `read_data_list` (data_reader.py:88-101); `kind` is the kind of list made for the first variable. -/
def readLoop (get : List Str → Str → Except Err (Data K)) (files : List Str) (aliases : Option (List Str)) :
    List Str → Nat → Option Bool → List (Data K) → Except Err (List (Data K))
  | [], _, _, acc => .ok acc
  | v :: vs, i, kind, acc =>
    match get files v with
    | .error e => .error e
    | .ok d0 =>
      match withAlias files aliases i d0 with
      | none => .error .value
      | some d =>
        match DataList.append (kind.getD (d.obj.gridded.getD false)) (acc.map Data.obj) d.obj with
        | .error e => .error (ofListErr e)
        | .ok _ => readLoop get files aliases vs (i + 1) (some (kind.getD (d.obj.gridded.getD false))) (acc ++ [d])

/-- `read_data_list` (data_reader.py:65-101). An empty list of aliases counts as none. -/
def readDataList (get : List Str → Str → Except Err (Data K)) (fileVars files vars : List Str) (aliases : Option (List Str)) :
    Except Err (List (Data K)) :=
  let aliases := match aliases with
    | some [] => none
    | a => a
  match expandWildcards fileVars vars with
  | .error e => .error e
  | .ok vs => readLoop get files aliases vs 0 none []

/-- `cis.read_data` (cis/__init__.py:27-44) for one variable name, after the expansion of the file names. -/
def readData (get : List Str → Str → Except Err (Data K)) (fileVars files : List Str) (var : Str) : Except Err (Data K) :=
  match readDataList get fileVars files [var] none with
  | .error e => .error e
  | .ok l =>
    if 1 < l.length then .error .value
    else match l with
      | [] => .error .value
      | d :: _ => .ok d

/-! ### Specification -/

/-- A pattern without character classes matches a name. -/
inductive Spec.Glob : Str → Str → Prop
  | nil : Spec.Glob [] []
  | star (w p s n : Str) : n = w ++ s → Spec.Glob p s → Spec.Glob ('*' :: p) n
  | any (c : Char) (p s : Str) : Spec.Glob p s → Spec.Glob ('?' :: p) (c :: s)
  | lit (c : Char) (p s : Str) : c ≠ '*' → c ≠ '?' → Spec.Glob p s → Spec.Glob (c :: p) (c :: s)

/-- What a requested variable stands for. -/
def Spec.Stands (fileVars : List Str) (req var : Str) : Prop :=
  if req.any (fun c => c = '*' ∨ c = '?' ∨ c = ']' ∨ c = '}') then var ∈ fileVars ∧ Spec.Glob req var else var = req

/-- Objects of one kind with matching numbers and shapes of coordinates. -/
def Spec.Uniform (l : List (Data K)) : Prop := ∃ kind, DataList.Spec.Homogeneous kind (l.map Data.obj)

/-! ### Proofs -/

theorem tokens_lit (n : Nat) (c : Char) (t : Str) (h1 : c ≠ '*') (h2 : c ≠ '?') (h3 : c ≠ '[') :
    tokens (n + 1) (c :: t) = .lit c :: tokens n t := by
  rw [tokens]
  · intro h; cases h; exact h1 rfl
  · intro h; cases h; exact h2 rfl
  · intro h; cases h; exact h3 rfl

/-- `fnmatch` is matching. -/
theorem fnmatch_iff (p s : Str) (hb : '[' ∉ p) : fnmatch p s = true ↔ Spec.Glob p s := by
  have key : ∀ (p s : Str) (n : Nat), p.length ≤ n → '[' ∉ p → (matchToks (tokens n p) s = true ↔ Spec.Glob p s) := by
    intro p
    induction p with
    | nil =>
      intro s n _ _
      have : tokens n [] = [] := by cases n <;> rfl
      rw [this]
      cases s with
      | nil => exact ⟨fun _ => .nil, fun _ => rfl⟩
      | cons x t => exact ⟨fun h => by simp [matchToks] at h, fun h => by cases h⟩
    | cons c p ih =>
      intro s n hn hb
      rw [List.length_cons] at hn
      rw [List.mem_cons, not_or] at hb
      obtain ⟨n, rfl⟩ : ∃ k, n = k + 1 := ⟨n - 1, by omega⟩
      by_cases h1 : c = '*'
      · subst h1
        rw [tokens, matchToks, List.any_eq_true]
        constructor
        · rintro ⟨t, ht, hm⟩
          rw [List.mem_tails] at ht
          obtain ⟨w, rfl⟩ := ht
          exact .star w p t _ rfl ((ih t n (by omega) hb.2).1 hm)
        · intro h
          cases h with
          | star w _ t _ e h => exact ⟨t, (List.mem_tails _ _).2 ⟨w, e.symm⟩, (ih t n (by omega) hb.2).2 h⟩
          | lit _ _ _ h _ _ => exact absurd rfl h
      · by_cases h2 : c = '?'
        · subst h2
          rw [tokens]
          cases s with
          | nil => exact ⟨fun h => by simp [matchToks] at h, fun h => by cases h⟩
          | cons x t =>
            rw [matchToks, ih t n (by omega) hb.2]
            constructor
            · exact fun h => .any x p t h
            · intro h
              cases h with
              | any _ _ _ h => exact h
              | lit _ _ _ _ h _ => exact absurd rfl h
        · rw [tokens_lit n c p h1 h2 (Ne.symm hb.1)]
          cases s with
          | nil =>
            refine ⟨fun h => by simp [matchToks] at h, fun h => ?_⟩
            cases h with
            | star => exact absurd rfl h1
          | cons x t =>
            rw [matchToks]
            simp only [Bool.and_eq_true, beq_iff_eq]
            rw [ih t n (by omega) hb.2]
            constructor
            · rintro ⟨rfl, h⟩; exact .lit x p t h1 h2 h
            · intro h
              cases h with
              | star => exact absurd rfl h1
              | any => exact absurd rfl h2
              | lit _ _ _ _ _ h => exact ⟨rfl, h⟩
  exact key p s p.length le_rfl hb

theorem hasWildcard_eq (v : Str) : FileList.hasWildcard v = v.any (fun c => decide (c = '*' ∨ c = '?' ∨ c = ']' ∨ c = '}')) := by
  rw [Bool.eq_iff_iff]
  simp only [FileList.hasWildcard, List.any_cons, List.any_nil, Bool.or_false, Bool.or_eq_true, List.contains_iff_mem, List.any_eq_true,
    decide_eq_true_eq]
  constructor
  · rintro (h | h | h | h)
    exacts [⟨_, h, .inl rfl⟩, ⟨_, h, .inr (.inl rfl)⟩, ⟨_, h, .inr (.inr (.inl rfl))⟩, ⟨_, h, .inr (.inr (.inr rfl))⟩]
  · rintro ⟨c, hc, rfl | rfl | rfl | rfl⟩
    exacts [.inl hc, .inr (.inl hc), .inr (.inr (.inl hc)), .inr (.inr (.inr hc))]

/-- C79: the requested names are expanded one after the other, each to the variables it stands for; it is refused iff nothing is left. -/
theorem c79_expand (fileVars vars : List Str) (hn : fileVars.Nodup) (hb : ∀ v ∈ vars, '[' ∉ v) :
    ∃ parts : List (List Str),
      List.Forall₂ (fun req part => part.Nodup ∧ ∀ v, v ∈ part ↔ Spec.Stands fileVars req v) vars parts ∧
      (parts.flatten ≠ [] → expandWildcards fileVars vars = .ok parts.flatten) ∧
      (parts.flatten = [] → expandWildcards fileVars vars = .error .value) := by
  refine ⟨vars.map (fun v => if FileList.hasWildcard v then fileVars.filter (fnmatch v) else [v]), ?_, ?_, ?_⟩
  · rw [List.forall₂_map_right_iff, List.forall₂_same]
    intro v hv
    unfold Spec.Stands
    rw [hasWildcard_eq]
    split
    · refine ⟨hn.filter _, fun w => ?_⟩
      rw [List.mem_filter, fnmatch_iff v w (hb v hv)]
    · exact ⟨List.nodup_singleton v, fun w => List.mem_singleton⟩
  · intro h
    unfold expandWildcards
    rw [List.flatMap_def]
    rw [if_neg (by rwa [List.length_eq_zero_iff])]
  · intro h
    unfold expandWildcards
    rw [List.flatMap_def]
    rw [if_pos (by rwa [List.length_eq_zero_iff])]

theorem readLoop_ok (get : List Str → Str → Except Err (Data K)) (files : List Str) (aliases : Option (List Str)) (vs : List Str) :
    ∀ (i : Nat) (kind : Option Bool) (acc r : List (Data K)),
      (match kind with | none => acc = [] | some k => DataList.Spec.Homogeneous k (acc.map Data.obj)) →
      readLoop get files aliases vs i kind acc = .ok r →
      ∃ new, r = acc ++ new ∧ new.length = vs.length ∧
        (∀ (j : Nat) (d : Data K), new[j]? = some d → ∃ v d0, vs[j]? = some v ∧ get files v = .ok d0 ∧ d.obj = d0.obj ∧ d.var = d0.var ∧
          d.filenames = files ∧ (match aliases with
            | none => d.alias? = d0.alias?
            | some as => ∃ a, as[i + j]? = some a ∧ d.alias? = some a)) ∧
        (r ≠ [] → Spec.Uniform r) := by
  induction vs with
  | nil =>
    intro i kind acc r hk h
    rw [readLoop] at h
    cases h
    refine ⟨[], by simp, rfl, by simp, fun hr => ?_⟩
    cases kind with
    | none => exact absurd hk hr
    | some k => exact ⟨k, hk⟩
  | cons v vs ih =>
    intro i kind acc r hk h
    rw [readLoop] at h
    cases hg : get files v with
    | error e => rw [hg] at h; cases h
    | ok d0 =>
      rw [hg] at h
      simp only at h
      cases hw : withAlias files aliases i d0 with
      | none => rw [hw] at h; cases h
      | some d =>
        rw [hw] at h
        simp only at h
        have hd : d.obj = d0.obj ∧ d.var = d0.var ∧ d.filenames = files ∧ (match aliases with
            | none => d.alias? = d0.alias?
            | some as => ∃ a, as[i]? = some a ∧ d.alias? = some a) := by
          unfold withAlias at hw
          cases aliases with
          | none => simp only [Option.some.injEq] at hw; subst hw; exact ⟨rfl, rfl, rfl, rfl⟩
          | some as =>
            simp only [Option.map_eq_some_iff] at hw
            obtain ⟨a, ha, rfl⟩ := hw
            exact ⟨rfl, rfl, rfl, a, ha, rfl⟩
        cases ha : DataList.append (kind.getD (d.obj.gridded.getD false)) (acc.map Data.obj) d.obj with
        | error e => rw [ha] at h; cases h
        | ok l =>
          rw [ha] at h
          simp only at h
          have hh : DataList.Spec.Homogeneous (kind.getD (d.obj.gridded.getD false)) ((acc ++ [d]).map Data.obj) := by
            have h0 : DataList.Spec.Homogeneous (kind.getD (d.obj.gridded.getD false)) (acc.map Data.obj) := by
              cases kind with
              | none => rw [hk]; exact ⟨by simp, by simp⟩
              | some k => exact hk
            have h1 := DataList.append_homogeneous _ _ _ _ h0 ha
            rw [DataList.c46_append] at ha
            split at ha
            · cases ha
            · split at ha
              · cases ha
                rw [List.map_append, List.map_singleton]
                exact h1
              · cases ha
          obtain ⟨new, h1, h2, h3, h4⟩ := ih (i + 1) (some _) (acc ++ [d]) r hh h
          refine ⟨d :: new, by rw [h1]; simp, by simp [h2], ?_, h4⟩
          intro j x hx
          cases j with
          | zero =>
            rw [List.getElem?_cons_zero] at hx
            cases hx
            exact ⟨v, d0, rfl, hg, hd.1, hd.2.1, hd.2.2.1, by have h9 := hd.2.2.2; cases aliases <;> exact h9⟩
          | succ j =>
            rw [List.getElem?_cons_succ] at hx
            obtain ⟨w, d1, a1, a2, a3, a4, a5, a6⟩ := h3 j x hx
            refine ⟨w, d1, a1, a2, a3, a4, a5, ?_⟩
            cases aliases with
            | none => exact a6
            | some as =>
              obtain ⟨a, b1, b2⟩ := a6
              exact ⟨a, by rw [← b1]; congr 1; omega, b2⟩

/-- C79: if reading succeeds, there is one object for every name after expansion, in this order, read from all the files; the
objects are of one kind with matching coordinates; they have the file names, and the alias in the same place, if there are any. -/
theorem c79_read (get : List Str → Str → Except Err (Data K)) (fileVars files vars : List Str) (aliases : Option (List Str))
    (r : List (Data K)) (h : readDataList get fileVars files vars aliases = .ok r) :
    ∃ vs, expandWildcards fileVars vars = .ok vs ∧ r.length = vs.length ∧ Spec.Uniform r ∧
      ∀ (j : Nat) (d : Data K), r[j]? = some d → ∃ v d0, vs[j]? = some v ∧ get files v = .ok d0 ∧ d.obj = d0.obj ∧ d.var = d0.var ∧
        d.filenames = files ∧
        (∀ as, aliases = some as → as ≠ [] → ∃ a, as[j]? = some a ∧ d.alias? = some a) ∧
        ((aliases = none ∨ aliases = some []) → d.alias? = d0.alias?) := by
  unfold readDataList at h
  cases he : expandWildcards fileVars vars with
  | error e => rw [he] at h; cases h
  | ok vs =>
    rw [he] at h
    simp only at h
    obtain ⟨new, h1, h2, h3, h4⟩ := readLoop_ok get files _ vs 0 none [] r rfl h
    rw [List.nil_append] at h1
    subst h1
    have hne : r ≠ [] := by
      intro e
      subst e
      have h5 : vs = [] := List.length_eq_zero_iff.1 h2.symm
      subst h5
      unfold expandWildcards at he
      simp only at he
      split at he
      · cases he
      · rename_i h6
        injection he with he
        rw [he] at h6; exact h6 rfl
    refine ⟨vs, rfl, h2, h4 hne, ?_⟩
    intro j d hd
    obtain ⟨v, d0, a1, a2, a3, a4, a5, a6⟩ := h3 j d hd
    refine ⟨v, d0, a1, a2, a3, a4, a5, ?_, ?_⟩
    · intro as e hne
      subst e
      cases as with
      | nil => exact absurd rfl hne
      | cons x t => simpa using a6
    · rintro (rfl | rfl)
      · exact a6
      · exact a6

theorem readLoop_total (get : List Str → Str → Except Err (Data K)) (files : List Str) (aliases : Option (List Str)) (kind : Bool)
    (vs : List Str) : ∀ (i : Nat) (k : Option Bool) (acc : List (Data K)), (k = none ∧ acc = [] ∨ k = some kind) →
      (∀ v ∈ vs, ∃ d, get files v = .ok d ∧ d.obj.gridded = some kind) →
      (∀ v ∈ vs, ∀ w d e, get files v = .ok d → (∃ x ∈ acc.head?, x.obj = e.obj) ∨ (w ∈ vs ∧ get files w = .ok e) → DataList.Spec.Compatible e.obj d.obj) →
      (∀ as, aliases = some as → i + vs.length ≤ as.length) →
      ∃ r, readLoop get files aliases vs i k acc = .ok r := by
  induction vs with
  | nil => intro i k acc _ _ _ _; exact ⟨acc, rfl⟩
  | cons v vs ih =>
    intro i k acc hk hg hc ha
    obtain ⟨d0, h1, h2⟩ := hg v List.mem_cons_self
    rw [readLoop, h1]
    simp only
    obtain ⟨d, hw, hd⟩ : ∃ d, withAlias files aliases i d0 = some d ∧ d.obj = d0.obj := by
      unfold withAlias
      cases aliases with
      | none => exact ⟨_, rfl, rfl⟩
      | some as =>
        have := ha as rfl
        rw [List.length_cons] at this
        have hi : i < as.length := by omega
        refine ⟨{ d0 with filenames := files, alias? := some as[i] }, ?_, rfl⟩
        simp only [List.getElem?_eq_getElem hi, Option.map_some]
    rw [hw]
    simp only
    have hkk : k.getD (d.obj.gridded.getD false) = kind := by
      rcases hk with ⟨rfl, -⟩ | rfl
      · rw [hd, h2]; rfl
      · rfl
    rw [hkk]
    have happ : DataList.append kind (acc.map Data.obj) d.obj = .ok (acc.map Data.obj ++ [d.obj]) := by
      rw [DataList.c46_append, if_neg (by rw [hd, h2]; simp), if_pos]
      intro y hy
      rw [List.head?_map] at hy
      obtain ⟨x, hx, rfl⟩ := Option.map_eq_some_iff.1 hy
      rw [hd]
      exact hc v List.mem_cons_self v d0 x h1 (.inl ⟨x, hx, rfl⟩)
    rw [happ]
    simp only
    apply ih (i + 1) (some kind) (acc ++ [d]) (.inr rfl) (fun w hw => hg w (List.mem_cons_of_mem _ hw))
    · intro w hw' u e f he hf
      rcases hf with ⟨x, hx, hxf⟩ | ⟨hu, hf⟩
      · rw [← hxf]
        cases acc with
        | nil =>
          simp only [List.nil_append, List.head?_cons, Option.mem_def, Option.some.injEq] at hx
          subst hx
          rw [hd]
          exact hc w (List.mem_cons_of_mem _ hw') v e d0 he (.inr ⟨List.mem_cons_self, h1⟩)
        | cons y t =>
          simp only [List.cons_append, List.head?_cons, Option.mem_def, Option.some.injEq] at hx
          subst hx
          exact hc w (List.mem_cons_of_mem _ hw') v e y he (.inl ⟨y, rfl, rfl⟩)
      · exact hc w (List.mem_cons_of_mem _ hw') u e f he (.inr ⟨List.mem_cons_of_mem _ hu, hf⟩)
    · intro as e
      have := ha as e
      rw [List.length_cons] at this
      omega

/-- C79: reading succeeds if every variable can be read, the objects are of one kind with matching coordinates, and there are enough
aliases. -/
theorem c79_success (get : List Str → Str → Except Err (Data K)) (fileVars files vars vs : List Str) (aliases : Option (List Str)) (kind : Bool)
    (he : expandWildcards fileVars vars = .ok vs)
    (hg : ∀ v ∈ vs, ∃ d, get files v = .ok d ∧ d.obj.gridded = some kind)
    (hc : ∀ v ∈ vs, ∀ w ∈ vs, ∀ d e, get files v = .ok d → get files w = .ok e → DataList.Spec.Compatible e.obj d.obj)
    (ha : ∀ as, aliases = some as → as = [] ∨ vs.length ≤ as.length) :
    ∃ r, readDataList get fileVars files vars aliases = .ok r := by
  unfold readDataList
  rw [he]
  simp only
  apply readLoop_total get files _ kind vs 0 none [] (.inl ⟨rfl, rfl⟩) hg
  · intro v hv w d e h1 h2
    rcases h2 with ⟨x, hx, -⟩ | ⟨hw, h2⟩
    · simp at hx
    · exact hc v hv w hw d e h1 h2
  · intro as has
    rcases aliases with _ | _ | ⟨a, t⟩
    · cases has
    · cases has
    · simp only [Option.some.injEq] at has
      subst has
      rcases ha _ rfl with h | h
      · cases h
      · omega

theorem readLoop_few (get : List Str → Str → Except Err (Data K)) (files as : List Str) (vs : List Str) :
    ∀ (i : Nat) (k : Option Bool) (acc : List (Data K)), i ≤ as.length → as.length < i + vs.length →
      ∃ e, readLoop get files (some as) vs i k acc = .error e := by
  induction vs with
  | nil => intro i k acc h1 h; simp at h; omega
  | cons v vs ih =>
    intro i k acc hi h
    rw [List.length_cons] at h
    rw [readLoop]
    cases hg : get files v with
    | error e => exact ⟨e, rfl⟩
    | ok d0 =>
      simp only
      cases hw : withAlias files (some as) i d0 with
      | none => exact ⟨_, rfl⟩
      | some d =>
        simp only
        cases ha : DataList.append (k.getD (d.obj.gridded.getD false)) (acc.map Data.obj) d.obj with
        | error e => exact ⟨_, rfl⟩
        | ok l =>
          simp only
          apply ih
          · unfold withAlias at hw
            simp only [Option.map_eq_some_iff] at hw
            obtain ⟨a, ha', -⟩ := hw
            have := (List.getElem?_eq_some_iff.1 ha').1
            omega
          · omega

/-- C79: too few aliases are refused. -/
theorem c79_few_aliases (get : List Str → Str → Except Err (Data K)) (fileVars files vars vs as : List Str)
    (he : expandWildcards fileVars vars = .ok vs) (hne : as ≠ []) (h : as.length < vs.length) :
    ∃ e, readDataList get fileVars files vars (some as) = .error e := by
  unfold readDataList
  rw [he]
  cases as with
  | nil => exact absurd rfl hne
  | cons a t => exact readLoop_few get files (a :: t) vs 0 none [] (by simp) (by simpa using h)

/-- C79: `cis.read_data` gives the only variable the name stands for, and refuses if there are several or none. -/
theorem c79_read_data (get : List Str → Str → Except Err (Data K)) (fileVars files : List Str) (var : Str) (d : Data K)
    (h : readData get fileVars files var = .ok d) :
    ∃ v d0, expandWildcards fileVars [var] = .ok [v] ∧ get files v = .ok d0 ∧ d = { d0 with filenames := files } := by
  unfold readData at h
  cases hr : readDataList get fileVars files [var] none with
  | error e => rw [hr] at h; cases h
  | ok l =>
    rw [hr] at h
    simp only at h
    split at h
    · cases h
    · rename_i hl
      cases l with
      | nil => cases h
      | cons x t =>
        cases h
        have ht : t = [] := by
          cases t with
          | nil => rfl
          | cons _ _ => simp at hl
        subst ht
        obtain ⟨vs, h1, h2, -, h3⟩ := c79_read get fileVars files [var] none [d] hr
        obtain ⟨v, d0, a1, a2, a3, a4, a5, -, a7⟩ := h3 0 d rfl
        obtain ⟨w, rfl⟩ := List.length_eq_one_iff.1 h2.symm
        cases a1
        refine ⟨v, d0, h1, a2, ?_⟩
        replace a7 := a7 (.inl rfl)
        cases d; cases d0
        simp only at a3 a4 a5 a7
        subst a3 a4 a5 a7
        rfl

/-- C79: `cis.read_data` succeeds whenever the name stands for one variable that can be read and makes a list of its own. -/
theorem c79_read_data_success (get : List Str → Str → Except Err (Data K)) (fileVars files : List Str) (var v : Str) (d0 : Data K) (kind : Bool)
    (he : expandWildcards fileVars [var] = .ok [v]) (hg : get files v = .ok d0) (hk : d0.obj.gridded = some kind)
    (hc : DataList.Spec.Compatible d0.obj d0.obj) : readData get fileVars files var = .ok { d0 with filenames := files } := by
  obtain ⟨r, hr⟩ := c79_success get fileVars files [var] [v] none kind he
    (fun w hw => ⟨d0, by rw [List.mem_singleton.1 hw]; exact hg, hk⟩)
    (fun w hw u hu d e h1 h2 => by
      rw [List.mem_singleton.1 hw, hg] at h1
      rw [List.mem_singleton.1 hu, hg] at h2
      cases h1; cases h2
      exact hc) (by simp)
  obtain ⟨vs, h1, h2, -, -⟩ := c79_read get fileVars files [var] none r hr
  rw [he] at h1
  cases h1
  obtain ⟨d, rfl⟩ := List.length_eq_one_iff.1 h2
  have hok : readData get fileVars files var = .ok d := by
    unfold readData
    rw [hr]
    simp
  obtain ⟨v', d', e1, e2, e3⟩ := c79_read_data get fileVars files var d hok
  rw [he] at e1
  cases e1
  rw [hg] at e2
  cases e2
  rw [hok, e3]

/-- Reading for the examples: a variable without coordinates. -/
def exGet (_ : List Str) (v : Str) : Except Err (Data Nat) := .ok ⟨⟨some false, []⟩, v, [], none⟩

/-- C79 is violated by a wildcard matching nothing: it is left out, and the following variables get the aliases of their predecessors. -/
theorem c79_shifted_alias_violated : (readDataList exGet ["t".toList] ["f".toList] ["a*".toList, "t".toList] (some ["A".toList, "T".toList])).map (fun r => r.map (fun d => (d.var, d.alias?))) =
    .ok [("t".toList, some "A".toList)] := by decide +kernel

/-- C79 is violated by too many aliases: they are not refused. -/
theorem c79_extra_alias_violated : (readDataList exGet [] ["f".toList] ["t".toList] (some ["A".toList, "B".toList])).map (fun r => r.map (fun d => (d.var, d.alias?))) =
    .ok [("t".toList, some "A".toList)] := by decide +kernel

/-- C79 is violated by names with a closing bracket: they are taken for patterns, which do not match themselves. -/
theorem c79_bracket_violated : expandWildcards ["x[1]".toList] ["x[1]".toList] = .error .value := by decide +kernel

/-- C79 is violated by names with a closing bracket: another variable is read instead. -/
theorem c79_bracket_other_violated : expandWildcards ["x[1]".toList, "x1".toList] ["x[1]".toList] = .ok ["x1".toList] := by decide +kernel

example : (readDataList exGet ["aod1".toList, "aod2".toList, "t".toList] ["f".toList] ["t".toList, "aod?".toList] (some ["T".toList, "A".toList, "B".toList])).map (fun r => r.map (fun d => (d.var, d.alias?))) =
    .ok [("t".toList, some "T".toList), ("aod1".toList, some "A".toList), ("aod2".toList, some "B".toList)] := by decide +kernel

example : Spec.Glob "a*b?".toList "axxbc".toList := (fnmatch_iff _ _ (by decide)).1 (by decide +kernel)

example : fnmatch "[!a-c]*".toList "dog".toList = true ∧ fnmatch "[!a-c]*".toList "bird".toList = false := by decide +kernel

end Cis.Reader
