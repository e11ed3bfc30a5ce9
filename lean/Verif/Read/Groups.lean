import Verif.Str.Basic
import Mathlib.Tactic
set_option linter.unusedSectionVars false
set_option linter.unusedSimpArgs false
/-!
Model of the listing and reading of variables of NetCDF files with groups: `get_netcdf_file_variables`,
`_get_all_fully_qualified_variables`, `remove_variables_with_non_spatiotemporal_dimensions`, `read`,
`read_many_files_individually` (cis/data_io/netcdf.py:26-193). Property C76.

A file is a tree of groups; a variable is an arbitrary object. Dictionaries are lists of pairs in order of insertion.
-/
namespace Cis.Read
open Cis.Str

mutual
/-- A group: variables by name and subgroups. -/
inductive Grp (V : Type)
  | mk (vars : List (Str × V)) (subs : Grps V)
/-- The subgroups of a group by name. -/
inductive Grps (V : Type)
  | nil
  | cons (name : Str) (g : Grp V) (t : Grps V)
end

variable {V : Type}

/-- `group.variables`. -/
def Grp.vars : Grp V → List (Str × V)
  | .mk v _ => v

/-- `group.groups`. -/
def Grp.subs : Grp V → Grps V
  | .mk _ s => s

mutual
/-- The assignments of `get_variables_for_group` in order (netcdf.py:62-76), `p` being `previous_groups`. -/
def Grp.collect (p : List Str) : Grp V → List (Str × V)
  | .mk _ subs => subs.collect p
/-- The loop over the subgroups. -/
def Grps.collect (p : List Str) : Grps V → List (Str × V)
  | .nil => []
  | .cons n (.mk vars subs) t =>
    vars.map (fun x => (join '/' (p ++ [n] ++ [x.1]), x.2)) ++ subs.collect (p ++ [n]) ++ t.collect p
end

/-- Assignment to a dictionary. -/
def dictSet (d : List (Str × V)) (x : Str × V) : List (Str × V) :=
  if d.any (fun e => e.1 == x.1) then d.map (fun e => if e.1 == x.1 then x else e) else d ++ [x]

/-- `_get_all_fully_qualified_variables` (netcdf.py:52-80). -/
def allVariables (f : Grp V) : List (Str × V) := (f.collect []).foldl dictSet f.vars

/-- `get_netcdf_file_variables` (netcdf.py:26-49); `dims` are the names of the dimensions of the file. -/
def fileVariables (f : Grp V) (dims : List Str) (excludeCoords : Bool) : List (Str × V) :=
  if excludeCoords then (dims.foldl (fun d n => d.filter (fun e => e.1 != n)) (allVariables f)) else allVariables f

/-- `remove_variables_with_non_spatiotemporal_dimensions` (netcdf.py:83-101): the loop over the keys, deleting a variable at
its first dimension that is not in the list; `dimsOf` gives the dimensions of a variable. -/
def removeNonSpatiotemporal (dimsOf : V → List Str) (names : Option (List Str)) (d : List (Str × V)) : List (Str × V) :=
  match names with
  | none => d
  | some names => d.foldl (fun acc e => if (dimsOf e.2).any (fun n => !names.contains n) then acc.filter (fun x => x.1 != e.1) else acc) d

/-- `groups[name]`. -/
def Grps.lookup (name : Str) : Grps V → Option (Grp V)
  | .nil => none
  | .cons n g t => if n == name then some g else t.lookup name

/-- Exceptions. -/
inductive ReadErr
  | key              -- KeyError
  | invalidVariable  -- InvalidVariableError
deriving DecidableEq

/-- The walk through the groups (netcdf.py:184-186). -/
def descend (f : Grp V) : List Str → Except ReadErr (Grp V)
  | [] => .ok f
  | n :: t =>
    match f.subs.lookup n with
    | some g => descend g t
    | none => .error .key

/-- `read` for one variable (netcdf.py:178-191). -/
def readVar (f : Grp V) (name : Str) : Except ReadErr V :=
  let parts := splitChar '/' name
  match descend f parts.dropLast with
  | .error e => .error e
  | .ok g =>
    match g.vars.find? (fun x => x.1 == parts.getLast?.getD []) with
    | some x => .ok x.2
    | none => .error .invalidVariable

/-! ### Specification -/

/-- `g` is the subgroup called `n`. -/
def InSubs (n : Str) (g : Grp V) : Grps V → Prop
  | .nil => False
  | .cons m h t => (n = m ∧ g = h) ∨ InSubs n g t

/-- `h` is the group of `g` at the given path. -/
inductive At : Grp V → List Str → Grp V → Prop
  | here (g : Grp V) : At g [] g
  | sub {g h k : Grp V} {n : Str} {p : List Str} : InSubs n h g.subs → At h p k → At g (n :: p) k

/-- The file has the variable `x` under the full name `name`: group path and name of the variable joined by `/`. -/
def HasVar (f : Grp V) (name : Str) (x : V) : Prop :=
  ∃ (p : List Str) (g : Grp V) (v : Str), At f p g ∧ (v, x) ∈ g.vars ∧ name = join '/' (p ++ [v])

/-- Names of subgroups. -/
def Grps.names : Grps V → List Str
  | .nil => []
  | .cons n _ t => n :: t.names

mutual
/-- What NetCDF guarantees: names contain no `/`, variables of one group have different names, subgroups too. -/
def Grp.WF : Grp V → Prop
  | .mk vars subs => (vars.map Prod.fst).Nodup ∧ (∀ x ∈ vars, '/' ∉ x.1) ∧ subs.names.Nodup ∧ subs.WF
/-- The same for a list of groups. -/
def Grps.WF : Grps V → Prop
  | .nil => True
  | .cons n g t => '/' ∉ n ∧ g.WF ∧ t.WF
end

/-! ### Proofs -/

/-- The assignments by path. -/
def Grps.collectP : Grps V → List (List Str × V)
  | .nil => []
  | .cons n (.mk vars subs) t =>
    vars.map (fun x => ([n, x.1], x.2)) ++ subs.collectP.map (fun e => (n :: e.1, e.2)) ++ t.collectP

theorem collect_eq (p : List Str) : ∀ s : Grps V, s.collect p = s.collectP.map (fun e => (join '/' (p ++ e.1), e.2))
  | .nil => by simp [Grps.collect, Grps.collectP]
  | .cons n (.mk vars subs) t => by
    rw [Grps.collect, Grps.collectP, collect_eq (p ++ [n]) subs, collect_eq p t]
    simp [List.map_append, Function.comp_def]

theorem mem_collectP (q : List Str) (x : V) : ∀ s : Grps V, (q, x) ∈ s.collectP ↔
    ∃ n g p h v, InSubs n g s ∧ At g p h ∧ (v, x) ∈ h.vars ∧ q = n :: (p ++ [v])
  | .nil => by simp [Grps.collectP, InSubs]
  | .cons n (.mk vars subs) t => by
    rw [Grps.collectP, List.mem_append, List.mem_append, mem_collectP q x t]
    constructor
    · rintro ((h | h) | ⟨m, g, p, k, v, h1, h2, h3, h4⟩)
      · obtain ⟨⟨v, y⟩, hy, he⟩ := List.mem_map.1 h
        cases he
        exact ⟨n, _, [], _, v, Or.inl ⟨rfl, rfl⟩, At.here _, hy, rfl⟩
      · obtain ⟨⟨q', y⟩, hy, he⟩ := List.mem_map.1 h
        cases he
        obtain ⟨m, g, p, k, v, h1, h2, h3, h4⟩ := (mem_collectP _ _ subs).1 hy
        exact ⟨n, .mk vars subs, m :: p, k, v, Or.inl ⟨rfl, rfl⟩, At.sub h1 h2, h3, by rw [h4]; rfl⟩
      · exact ⟨m, g, p, k, v, Or.inr h1, h2, h3, h4⟩
    · rintro ⟨m, g, p, k, v, h1 | h1, h2, h3, h4⟩
      · obtain ⟨rfl, rfl⟩ := h1
        cases h2 with
        | here =>
          refine Or.inl (Or.inl (List.mem_map.2 ⟨(v, x), h3, ?_⟩))
          rw [h4]; rfl
        | @sub _ h' _ n' p' hs ht =>
          refine Or.inl (Or.inr (List.mem_map.2 ⟨(n' :: (p' ++ [v]), x), (mem_collectP _ _ subs).2 ⟨n', _, p', k, v, hs, ht, h3, rfl⟩, ?_⟩))
          rw [h4]; rfl
      · exact Or.inr ⟨m, g, p, k, v, h1, h2, h3, h4⟩

theorem inSubs_names {n : Str} {g : Grp V} : ∀ {s : Grps V}, InSubs n g s → n ∈ s.names
  | .cons _ _ t, h => by
    rcases h with h | h
    · simp [Grps.names, h.1]
    · simp [Grps.names, inSubs_names (s := t) h]

theorem inSubs_wf {n : Str} {g : Grp V} : ∀ {s : Grps V}, s.WF → InSubs n g s → '/' ∉ n ∧ g.WF
  | .cons _ _ t, hw, h => by
    rcases h with ⟨rfl, rfl⟩ | h
    · exact ⟨hw.1, hw.2.1⟩
    · exact inSubs_wf (s := t) hw.2.2 h

theorem wf_iff (g : Grp V) : g.WF ↔ (g.vars.map Prod.fst).Nodup ∧ (∀ x ∈ g.vars, '/' ∉ x.1) ∧ g.subs.names.Nodup ∧ g.subs.WF := by
  cases g; rfl

theorem at_wf {g h : Grp V} {p : List Str} (hw : g.WF) (ha : At g p h) : (∀ n ∈ p, '/' ∉ n) ∧ h.WF := by
  induction ha with
  | here => exact ⟨by simp, hw⟩
  | sub hs _ ih =>
    rw [wf_iff] at hw
    obtain ⟨h1, h2⟩ := inSubs_wf hw.2.2.2 hs
    obtain ⟨h3, h4⟩ := ih h2
    exact ⟨by simpa using ⟨h1, h3⟩, h4⟩

theorem inSubs_unique {n : Str} {g h : Grp V} : ∀ {s : Grps V}, s.names.Nodup → InSubs n g s → InSubs n h s → g = h
  | .cons m k t, hn, h1, h2 => by
    rw [Grps.names, List.nodup_cons] at hn
    rcases h1 with ⟨rfl, rfl⟩ | h1 <;> rcases h2 with ⟨e, rfl⟩ | h2
    · rfl
    · exact absurd (inSubs_names h2) hn.1
    · exact absurd (inSubs_names h1) (e ▸ hn.1)
    · exact inSubs_unique hn.2 h1 h2

theorem mem_path {q : List Str} {x : V} {s : Grps V} (h : (q, x) ∈ s.collectP) : ∃ n t, q = n :: t ∧ n ∈ s.names ∧ t ≠ [] := by
  obtain ⟨n, g, p, k, v, h1, -, -, h4⟩ := (mem_collectP q x s).1 h
  exact ⟨n, p ++ [v], h4, inSubs_names h1, by simp⟩

theorem collectP_nodup : ∀ s : Grps V, s.names.Nodup → s.WF → (s.collectP.map Prod.fst).Nodup
  | .nil, _, _ => by simp [Grps.collectP]
  | .cons n (.mk vars subs) t, hn, hw => by
    rw [Grps.names, List.nodup_cons] at hn
    have hg := (wf_iff _).1 hw.2.1
    simp only [Grp.vars, Grp.subs] at hg
    have ih1 := collectP_nodup subs hg.2.2.1 hg.2.2.2
    have ih2 := collectP_nodup t hn.2 hw.2.2
    rw [Grps.collectP, List.map_append, List.map_append, List.nodup_append, List.nodup_append]
    refine ⟨⟨?_, ?_, ?_⟩, ih2, ?_⟩
    · rw [List.map_map]
      have : (Prod.fst ∘ fun x : Str × V => ([n, x.1], x.2)) = (fun s : Str => [n, s]) ∘ Prod.fst := rfl
      rw [this, ← List.map_map]
      exact List.Nodup.map (fun a b h => by simpa using h) hg.1
    · rw [List.map_map]
      have : (Prod.fst ∘ fun e : List Str × V => (n :: e.1, e.2)) = (fun s : List Str => n :: s) ∘ Prod.fst := rfl
      rw [this, ← List.map_map]
      exact List.Nodup.map (fun a b h => by simpa using h) ih1
    · intro a ha b hb e
      subst e
      simp only [List.mem_map, Prod.exists] at ha hb
      obtain ⟨q1, x1, ⟨v, y, hv, e1⟩, rfl⟩ := ha
      obtain ⟨q2, x2, ⟨q', y', hv', e2⟩, e3⟩ := hb
      obtain ⟨m, tl, e4, -, hne⟩ := mem_path hv'
      cases e1
      have : q2 = n :: q' := (Prod.mk.inj e2).1.symm
      rw [this, e4] at e3
      simp only [List.cons.injEq, true_and] at e3
      exact hne e3.2
    · intro a ha b hb e
      subst e
      rw [List.mem_append] at ha
      obtain ⟨⟨q2, x2⟩, hq, rfl⟩ := List.mem_map.1 hb
      obtain ⟨m, tl, e4, hm, -⟩ := mem_path hq
      have : ∃ tl', q2 = n :: tl' := by
        rcases ha with ha | ha
        · simp only [List.mem_map, Prod.exists] at ha
          obtain ⟨q1, x1, ⟨v, y, hv, e1⟩, e5⟩ := ha
          cases e1
          exact ⟨_, e5.symm⟩
        · simp only [List.mem_map, Prod.exists] at ha
          obtain ⟨q1, x1, ⟨v, y, hv, e1⟩, e5⟩ := ha
          cases e1
          exact ⟨_, e5.symm⟩
      obtain ⟨tl', e6⟩ := this
      rw [e6] at e4
      cases e4
      exact hn.1 hm

theorem foldl_dictSet (l : List (Str × V)) : ∀ d : List (Str × V), ((d ++ l).map Prod.fst).Nodup → l.foldl dictSet d = d ++ l := by
  induction l with
  | nil => intro d _; simp
  | cons x t ih =>
    intro d hn
    have hx : dictSet d x = d ++ [x] := by
      unfold dictSet
      rw [if_neg]
      rw [List.any_eq_true]
      rintro ⟨e, he, h⟩
      rw [List.map_append, List.nodup_append] at hn
      exact hn.2.2 e.1 (List.mem_map_of_mem he) x.1 (by simp) (by simpa using h)
    rw [List.foldl_cons, hx, ih (d ++ [x]) (by simpa using hn)]
    simp

/-- The names of a path are determined by the joined name. -/
theorem join_inj {p q : List Str} (hp : p ≠ []) (hq : q ≠ []) (h1 : ∀ n ∈ p, '/' ∉ n) (h2 : ∀ n ∈ q, '/' ∉ n)
    (h : join '/' p = join '/' q) : p = q := by
  rw [← splitChar_join '/' p hp h1, ← splitChar_join '/' q hq h2, h]

/-- All variables by path. -/
def allP (f : Grp V) : List (List Str × V) := f.vars.map (fun x => ([x.1], x.2)) ++ f.subs.collectP

theorem mem_allP (f : Grp V) (q : List Str) (x : V) : (q, x) ∈ allP f ↔ ∃ p g v, At f p g ∧ (v, x) ∈ g.vars ∧ q = p ++ [v] := by
  unfold allP
  rw [List.mem_append, mem_collectP]
  constructor
  · rintro (h | ⟨n, g, p, k, v, h1, h2, h3, h4⟩)
    · obtain ⟨⟨v, y⟩, hy, he⟩ := List.mem_map.1 h
      cases he
      exact ⟨[], f, v, At.here _, hy, rfl⟩
    · exact ⟨n :: p, k, v, At.sub h1 h2, h3, h4⟩
  · rintro ⟨p, g, v, h1, h2, h3⟩
    cases h1 with
    | here => exact Or.inl (List.mem_map.2 ⟨(v, x), h2, by rw [h3]; rfl⟩)
    | @sub _ h' _ n' p' hs ht => exact Or.inr ⟨n', h', p', g, v, hs, ht, h2, h3⟩

theorem allP_nodup (f : Grp V) (hw : f.WF) : ((allP f).map Prod.fst).Nodup := by
  rw [wf_iff] at hw
  unfold allP
  rw [List.map_append, List.nodup_append]
  refine ⟨?_, collectP_nodup _ hw.2.2.1 hw.2.2.2, ?_⟩
  · rw [List.map_map]
    have : (Prod.fst ∘ fun x : Str × V => ([x.1], x.2)) = (fun s : Str => [s]) ∘ Prod.fst := rfl
    rw [this, ← List.map_map]
    exact List.Nodup.map (fun a b h => by simpa using h) hw.1
  · intro a ha b hb e
    subst e
    simp only [List.mem_map, Prod.exists] at ha
    obtain ⟨q1, x1, ⟨v, y, hv, e1⟩, rfl⟩ := ha
    obtain ⟨⟨q2, x2⟩, hq, e3⟩ := List.mem_map.1 hb
    obtain ⟨m, tl, e4, -, hne⟩ := mem_path hq
    cases e1
    simp only at e3 e4
    rw [e4] at e3
    simp only [List.cons.injEq] at e3
    exact hne e3.2

theorem allP_wf (f : Grp V) (hw : f.WF) {q : List Str} {x : V} (h : (q, x) ∈ allP f) : q ≠ [] ∧ ∀ n ∈ q, '/' ∉ n := by
  obtain ⟨p, g, v, h1, h2, rfl⟩ := (mem_allP f q x).1 h
  obtain ⟨h3, h4⟩ := at_wf hw h1
  rw [wf_iff] at h4
  refine ⟨by simp, ?_⟩
  intro n hn
  rcases List.mem_append.1 hn with hn | hn
  · exact h3 n hn
  · rw [List.mem_singleton] at hn
    subst hn
    exact h4.2.1 (n, x) h2

theorem names_nodup (f : Grp V) (hw : f.WF) : ((allP f).map (fun e => (join '/' e.1, e.2))).map Prod.fst |>.Nodup := by
  rw [List.map_map]
  have : (Prod.fst ∘ fun e : List Str × V => (join '/' e.1, e.2)) = join '/' ∘ Prod.fst := rfl
  rw [this, ← List.map_map]
  refine List.Nodup.map_on ?_ (allP_nodup f hw)
  intro a ha b hb h
  obtain ⟨⟨qa, xa⟩, ha', rfl⟩ := List.mem_map.1 ha
  obtain ⟨⟨qb, xb⟩, hb', rfl⟩ := List.mem_map.1 hb
  obtain ⟨h1, h2⟩ := allP_wf f hw ha'
  obtain ⟨h3, h4⟩ := allP_wf f hw hb'
  exact join_inj h1 h3 h2 h4 h

theorem allVariables_eq (f : Grp V) (hw : f.WF) : allVariables f = (allP f).map (fun e => (join '/' e.1, e.2)) := by
  have h1 : f.vars ++ f.collect [] = (allP f).map (fun e => (join '/' e.1, e.2)) := by
    unfold allP
    rw [List.map_append]
    congr 1
    · simp [Function.comp_def, join]
    · cases f
      rw [Grp.collect, collect_eq]
      rfl
  unfold allVariables
  rw [foldl_dictSet _ _ (by rw [h1]; exact names_nodup f hw), h1]

/-- C76: the variables listed are exactly those of the file, each once, under their full names. -/
theorem c76_listing (f : Grp V) (hw : f.WF) :
    ((allVariables f).map Prod.fst).Nodup ∧ ∀ name x, (name, x) ∈ allVariables f ↔ HasVar f name x := by
  rw [allVariables_eq f hw]
  refine ⟨names_nodup f hw, ?_⟩
  intro name x
  simp only [List.mem_map, Prod.exists, Prod.mk.injEq, HasVar]
  constructor
  · rintro ⟨q, y, h, rfl, rfl⟩
    obtain ⟨p, g, v, h1, h2, rfl⟩ := (mem_allP f q y).1 h
    exact ⟨p, g, v, h1, h2, rfl⟩
  · rintro ⟨p, g, v, h1, h2, rfl⟩
    exact ⟨p ++ [v], x, (mem_allP f _ x).2 ⟨p, g, v, h1, h2, rfl⟩, rfl, rfl⟩

theorem lookup_iff {n : Str} {g : Grp V} : ∀ {s : Grps V}, s.names.Nodup → (s.lookup n = some g ↔ InSubs n g s)
  | .nil, _ => by simp [Grps.lookup, InSubs]
  | .cons m h t, hn => by
    rw [Grps.names, List.nodup_cons] at hn
    rw [Grps.lookup, InSubs]
    by_cases e : m = n
    · subst e
      simp only [beq_self_eq_true, if_true, Option.some.injEq, true_and]
      constructor
      · intro h; exact Or.inl h.symm
      · rintro (h | h)
        · exact h.symm
        · exact absurd (inSubs_names h) hn.1
    · have e' : (m == n) = false := by simpa using e
      simp only [e', Bool.false_eq_true, if_false, Ne.symm e, false_and, false_or]
      rw [lookup_iff hn.2]

theorem descend_iff (p : List Str) : ∀ (f g : Grp V), f.WF → (descend f p = .ok g ↔ At f p g) := by
  induction p with
  | nil =>
    intro f g _
    simp only [descend, Except.ok.injEq]
    constructor
    · rintro rfl; exact At.here _
    · intro h; cases h; rfl
  | cons n t ih =>
    intro f g hw
    have hw' := (wf_iff f).1 hw
    rw [descend]
    constructor
    · intro h
      split at h
      · rename_i k hk
        have hk' := (lookup_iff hw'.2.2.1).1 hk
        exact At.sub hk' ((ih k g (inSubs_wf hw'.2.2.2 hk').2).1 h)
      · cases h
    · intro h
      cases h with
      | sub hs ht =>
        rw [(lookup_iff hw'.2.2.1).2 hs]
        exact (ih _ g (inSubs_wf hw'.2.2.2 hs).2).2 ht

/-- C76: reading a name succeeds exactly for the variables of the file, and gives the variable of this name. -/
theorem c76_read (f : Grp V) (hw : f.WF) (name : Str) (x : V) : readVar f name = .ok x ↔ HasVar f name x := by
  have hne := splitChar_ne_nil '/' name
  obtain ⟨ps, l, hl⟩ : ∃ ps l, splitChar '/' name = ps ++ [l] := ⟨_, _, (List.dropLast_append_getLast hne).symm⟩
  have hname : name = join '/' (ps ++ [l]) := by rw [← hl, join_splitChar]
  have hslash : ∀ n ∈ ps ++ [l], '/' ∉ n := by rw [← hl]; exact splitChar_not_mem '/' name
  have hr : readVar f name = match descend f ps with
      | .error e => .error e
      | .ok g =>
        match g.vars.find? (fun x => x.1 == l) with
        | some x => .ok x.2
        | none => .error .invalidVariable := by
    unfold readVar
    simp only [hl, List.dropLast_concat, List.getLast?_concat, Option.getD_some]
  rw [hr]
  constructor
  · intro h
    split at h
    · cases h
    · rename_i g hg
      split at h
      · rename_i y hy
        cases h
        refine ⟨ps, g, l, (descend_iff ps f g hw).1 hg, ?_, hname⟩
        have h1 := List.mem_of_find?_eq_some hy
        have h2 : y.1 = l := by simpa using List.find?_some hy
        rw [← h2]; exact h1
      · cases h
  · rintro ⟨p, g, v, h1, h2, h3⟩
    obtain ⟨h4, h5⟩ := at_wf hw h1
    rw [wf_iff] at h5
    have h6 : p ++ [v] = ps ++ [l] := by
      apply join_inj (by simp) (by simp) ?_ hslash (h3.symm.trans hname)
      intro n hn
      rcases List.mem_append.1 hn with hn | hn
      · exact h4 n hn
      · rw [List.mem_singleton] at hn; subst hn; exact h5.2.1 _ h2
    obtain ⟨rfl, h7⟩ := List.append_inj' h6 rfl
    cases h7
    rw [(descend_iff p f g hw).2 h1]
    simp only
    have : g.vars.find? (fun x => x.1 == l) = some (l, x) := by
      have hn := h5.1
      clear h5 h3 hr h1
      revert hn h2
      generalize g.vars = vs
      intro h2 hn
      induction vs with
      | nil => cases h2
      | cons y t ih =>
        rw [List.map_cons, List.nodup_cons] at hn
        rw [List.find?_cons]
        rcases List.mem_cons.1 h2 with rfl | h2
        · simp
        · have : y.1 ≠ l := fun e => hn.1 (by rw [e]; exact List.mem_map_of_mem (f := Prod.fst) h2)
          simp only [beq_eq_false_iff_ne.2 this]
          exact ih h2 hn.2
    rw [this]

/-- C76: every listed variable can be read under its listed name, and gives itself; every name that can be read is listed. -/
theorem c76_listed_iff_readable (f : Grp V) (hw : f.WF) (name : Str) (x : V) :
    (name, x) ∈ allVariables f ↔ readVar f name = .ok x := by
  rw [c76_read f hw, (c76_listing f hw).2]

theorem foldl_filter (dims : List Str) : ∀ d : List (Str × V),
    dims.foldl (fun d n => d.filter (fun e => e.1 != n)) d = d.filter (fun e => !dims.contains e.1) := by
  induction dims with
  | nil => intro d; simp
  | cons n t ih =>
    intro d
    rw [List.foldl_cons, ih, List.filter_filter]
    apply List.filter_congr
    intro e _
    rw [List.contains_cons]
    simp [Bool.not_or, Bool.and_comm]
    rfl

/-- C76: excluding coordinates leaves out exactly the variables named like a dimension of the file, in the same order. -/
theorem c76_exclude_coords (f : Grp V) (dims : List Str) :
    fileVariables f dims true = (allVariables f).filter (fun e => !dims.contains e.1) ∧ fileVariables f dims false = allVariables f :=
  ⟨foldl_filter dims _, rfl⟩

/-- C76: the restriction to spatio-temporal dimensions keeps exactly the variables all of whose dimensions are in the list. -/
theorem c76_spatiotemporal (dimsOf : V → List Str) (names : List Str) (d : List (Str × V)) (hn : (d.map Prod.fst).Nodup) :
    removeNonSpatiotemporal dimsOf (some names) d = d.filter (fun e => (dimsOf e.2).all (fun n => names.contains n)) ∧
      removeNonSpatiotemporal dimsOf none d = d := by
  refine ⟨?_, rfl⟩
  have key : ∀ (l acc : List (Str × V)),
      l.foldl (fun acc e => if (dimsOf e.2).any (fun n => !names.contains n) then acc.filter (fun x => x.1 != e.1) else acc) acc =
        acc.filter (fun x => !(l.any (fun e => (dimsOf e.2).any (fun n => !names.contains n) && (e.1 == x.1)))) := by
    intro l
    induction l with
    | nil => intro acc; simp
    | cons e t ih =>
      intro acc
      rw [List.foldl_cons, ih]
      by_cases h : (dimsOf e.2).any (fun n => !names.contains n) = true
      · rw [if_pos h, List.filter_filter]
        apply List.filter_congr
        intro x _
        rw [List.any_cons, h]
        simp only [Bool.true_and, Bool.not_or]
        rw [Bool.and_comm]
        congr 1
        exact congrArg (!·) (BEq.comm (a := x.1) (b := e.1))
      · rw [if_neg h]
        apply List.filter_congr
        intro x _
        rw [Bool.not_eq_true] at h
        rw [List.any_cons, h, Bool.false_and, Bool.false_or]
  unfold removeNonSpatiotemporal
  simp only
  rw [key]
  apply List.filter_congr
  intro x hx
  rw [Bool.eq_iff_iff]
  simp only [Bool.not_eq_true', List.any_eq_false, Bool.and_eq_true, List.any_eq_true, List.all_eq_true, beq_iff_eq, not_and]
  constructor
  · intro h n hn'
    by_contra hc
    exact h x hx ⟨n, hn', by simpa using hc⟩ rfl
  · rintro h e he ⟨n, hn', hc⟩ hxe
    have : e = x := by
      have := List.inj_on_of_nodup_map hn he hx hxe
      exact this
    subst this
    rw [h n hn'] at hc
    simp at hc

/-- C76 is violated by reading from a group that does not exist: KeyError instead of InvalidVariableError. -/
theorem c76_unknown_group_violated : ∃ (f : Grp Nat) (name : Str), f.WF ∧ (∀ x, ¬ HasVar f name x) ∧ readVar f name = .error .key := by
  refine ⟨.mk [("a".toList, 1)] .nil, "g/a".toList, ?_, ?_, by decide +kernel⟩
  · rw [wf_iff]; simp [Grp.vars, Grp.subs, Grps.names, Grps.WF]
  · intro x hx
    have hw : (Grp.mk [("a".toList, 1)] .nil : Grp Nat).WF := by rw [wf_iff]; simp [Grp.vars, Grp.subs, Grps.names, Grps.WF]
    have := (c76_read _ hw _ x).2 hx
    rw [show readVar (Grp.mk [("a".toList, 1)] .nil : Grp Nat) "g/a".toList = .error .key by decide +kernel] at this
    cases this

/-- C76 is violated by coordinate variables in groups: the dimension `x` of group `g` has the coordinate variable `g/x`, which is
not excluded (the names compared are those of the dimensions of the file itself). -/
theorem c76_group_coordinates_violated : ∃ f : Grp Nat, f.WF ∧ ("g/x".toList, 1) ∈ fileVariables f ["x".toList] true := by
  refine ⟨.mk [] (.cons "g".toList (.mk [("x".toList, 1)] .nil) .nil), ?_, by decide +kernel⟩
  rw [wf_iff]; simp [Grp.vars, Grp.subs, Grps.names, Grps.WF, Grp.WF]

/-- A file with nested groups meets the hypotheses. -/
example : (Grp.mk [("t".toList, 0)] (.cons "g".toList (.mk [("x".toList, 1)] (.cons "h".toList (.mk [("x".toList, 2)] .nil) .nil)) .nil) : Grp Nat).WF ∧
    allVariables (Grp.mk [("t".toList, 0)] (.cons "g".toList (.mk [("x".toList, 1)] (.cons "h".toList (.mk [("x".toList, 2)] .nil) .nil)) .nil) : Grp Nat)
      = [("t".toList, 0), ("g/x".toList, 1), ("g/h/x".toList, 2)] := by
  refine ⟨?_, by decide +kernel⟩
  rw [wf_iff]; simp [Grp.vars, Grp.subs, Grps.names, Grps.WF, Grp.WF]

end Cis.Read
