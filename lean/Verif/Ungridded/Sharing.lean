import Mathlib.Logic.Function.Basic
import Mathlib.Data.List.Basic
import Mathlib.Data.List.Nodup
set_option linter.unusedSectionVars false
set_option linter.unusedSimpArgs false
/-!
Property C117: copies, parts and results of ungridded data are objects of their own. Model of `UngriddedData.copy` and `__getitem__`
(cis/data_io/ungridded_data.py:534-562, Coord.py:38-47, 115-124), of `make_new_with_same_coordinates` with `flatten`
(ungridded_data.py:502-532), which makes the results of `evaluate` (cis/evaluate.py:89-91), of what `_post_process` does to the shapes
(ungridded_data.py:476-500), and of what can be done to an object in place: writing values (as `convert_units` and views do, 412-426),
changing metadata, adding attributes (357-373).

An object has parts: the data and the coordinates. Of each part there is an array (a buffer with a shape) and a metadata object. Both are
references into a heap. Simplified: all coordinates are valid (C43), ranges are left out, and arrays are contiguous.
-/
namespace Cis.Share
variable {A M : Type}

/-- Metadata: the shape and everything else. -/
structure Meta (M : Type) where
  shape : List Nat
  info : M
deriving DecidableEq

/-- The data or a coordinate. -/
structure Part where
  buf : Nat
  shape : List Nat
  met : Nat
deriving DecidableEq

/-- A data object: first the data, then the coordinates. -/
structure Obj where
  parts : List Part
  attrs : List (String × String)
deriving DecidableEq

/-- Buffers and metadata. -/
structure Heap (A M : Type) where
  bufs : Nat → List A
  mets : Nat → Meta M
  next : Nat

/-- The heap and all objects. -/
structure State (A M : Type) where
  heap : Heap A M
  objs : List Obj

/-- `update_shape` of every part (ungridded_data.py:478-483, 499, 380-384). -/
def refit (h : Heap A M) (ps : List Part) : Heap A M :=
  ps.foldl (fun h p => ⟨h.bufs, Function.update h.mets p.met ⟨p.shape, (h.mets p.met).info⟩, h.next⟩) h

/-- New arrays and deep copies of the metadata, one part after the other; `sel` gives the values and the shape of the new array. -/
def clone (sel : List A → List Nat → List A × List Nat) : Heap A M → List Part → Heap A M × List Part
  | h, [] => (h, [])
  | h, p :: t =>
    let v := sel (h.bufs p.buf) p.shape
    let r := clone sel ⟨Function.update h.bufs h.next v.1, Function.update h.mets h.next ⟨v.2, (h.mets p.met).info⟩, h.next + 1⟩ t
    (r.1, ⟨h.next, v.2, h.next⟩ :: r.2)

/-- What can be done. -/
inductive Op (A M : Type) where
  /-- `objs.append(objs[i].copy())` -/
  | copy (i : Nat)
  /-- `objs.append(objs[i][keys])` -/
  | index (i : Nat) (sel : List A → List Nat → List A × List Nat)
  /-- `objs.append(objs[i].make_new_with_same_coordinates(data, ..., flatten=True))` -/
  | new (i : Nat) (vals : List A) (info : M)
  /-- write a value of part `k` -/
  | write (i k j : Nat) (v : A)
  /-- change the metadata of part `k` -/
  | label (i k : Nat) (f : M → M)
  /-- `add_attributes` -/
  | addAttr (i : Nat) (key value : String)

/-- `flatten`: the same buffer with one dimension. -/
def flatPart (h : Heap A M) (p : Part) : Part := ⟨p.buf, [(h.bufs p.buf).length], p.met⟩

/-- One operation. Copying and indexing ask for the coordinates of the source first, which sets its shapes (`coords()`,
ungridded_data.py:623-630). -/
def step (σ : State A M) : Op A M → State A M
  | .copy i => match σ.objs[i]? with
    | none => σ
    | some o => let r := clone (fun v s => (v, s)) (refit σ.heap o.parts) o.parts; ⟨r.1, σ.objs ++ [⟨r.2, []⟩]⟩
  | .index i sel => match σ.objs[i]? with
    | none => σ
    | some o => let r := clone sel (refit σ.heap o.parts) o.parts; ⟨r.1, σ.objs ++ [⟨r.2, []⟩]⟩
  | .new i vals info => match σ.objs[i]? with
    | none => σ
    | some o =>
      let h : Heap A M := ⟨Function.update σ.heap.bufs σ.heap.next vals, Function.update σ.heap.mets σ.heap.next ⟨[vals.length], info⟩, σ.heap.next + 1⟩
      let cs := (o.parts.drop 1).map (flatPart σ.heap)
      ⟨refit h cs, σ.objs ++ [⟨⟨σ.heap.next, [vals.length], σ.heap.next⟩ :: cs, []⟩]⟩
  | .write i k j v => match (σ.objs[i]?).bind (fun o => o.parts[k]?) with
    | none => σ
    | some p => ⟨⟨Function.update σ.heap.bufs p.buf ((σ.heap.bufs p.buf).set j v), σ.heap.mets, σ.heap.next⟩, σ.objs⟩
  | .label i k f => match (σ.objs[i]?).bind (fun o => o.parts[k]?) with
    | none => σ
    | some p => ⟨⟨σ.heap.bufs, Function.update σ.heap.mets p.met ⟨(σ.heap.mets p.met).shape, f (σ.heap.mets p.met).info⟩, σ.heap.next⟩, σ.objs⟩
  | .addAttr i key value => ⟨σ.heap, σ.objs.modify i (fun o => ⟨o.parts, o.attrs.filter (·.1 ≠ key) ++ [(key, value)]⟩)⟩

/-- A history. -/
def run (σ : State A M) (ops : List (Op A M)) : State A M := ops.foldl step σ

/-! ## Specification: objects as values -/

/-- A part as a value: values, shape, metadata. -/
structure Spec.PartV (A M : Type) where
  vals : List A
  shape : List Nat
  met : Meta M

/-- An object as a value. -/
structure Spec.ObjV (A M : Type) where
  parts : List (Spec.PartV A M)
  attrs : List (String × String)

/-- What is seen of an object. -/
def Spec.seen (h : Heap A M) (o : Obj) : Spec.ObjV A M := ⟨o.parts.map (fun p => ⟨h.bufs p.buf, p.shape, h.mets p.met⟩), o.attrs⟩

/-- All objects. -/
def Spec.all (σ : State A M) : List (Spec.ObjV A M) := σ.objs.map (Spec.seen σ.heap)

/-- Metadata that say the shape of the array. -/
def Spec.PartV.fitted (p : Spec.PartV A M) : Spec.PartV A M := ⟨p.vals, p.shape, ⟨p.shape, p.met.info⟩⟩

/-- A part of another array with the same description. -/
def Spec.PartV.select (sel : List A → List Nat → List A × List Nat) (p : Spec.PartV A M) : Spec.PartV A M :=
  ⟨(sel p.vals p.shape).1, (sel p.vals p.shape).2, ⟨(sel p.vals p.shape).2, p.met.info⟩⟩

/-- The operations on objects that are values: each changes only the object it is done to. -/
def Spec.stepV (l : List (Spec.ObjV A M)) : Op A M → List (Spec.ObjV A M)
  | .copy i => match l[i]? with
    | none => l
    | some o => l.set i ⟨o.parts.map Spec.PartV.fitted, o.attrs⟩ ++ [⟨o.parts.map Spec.PartV.fitted, []⟩]
  | .index i sel => match l[i]? with
    | none => l
    | some o => l.set i ⟨o.parts.map Spec.PartV.fitted, o.attrs⟩ ++ [⟨o.parts.map (Spec.PartV.select sel), []⟩]
  | .new i vals info => match l[i]? with
    | none => l
    | some o => l ++ [⟨⟨vals, [vals.length], ⟨[vals.length], info⟩⟩ ::
        (o.parts.drop 1).map (fun p => ⟨p.vals, [p.vals.length], ⟨[p.vals.length], p.met.info⟩⟩), []⟩]
  | .write i k j v => l.modify i (fun o => ⟨o.parts.modify k (fun p => ⟨p.vals.set j v, p.shape, p.met⟩), o.attrs⟩)
  | .label i k f => l.modify i (fun o => ⟨o.parts.modify k (fun p => ⟨p.vals, p.shape, ⟨p.met.shape, f p.met.info⟩⟩), o.attrs⟩)
  | .addAttr i key value => l.modify i (fun o => ⟨o.parts, o.attrs.filter (·.1 ≠ key) ++ [(key, value)]⟩)

/-- No two parts have the same array or metadata object, and all exist. -/
structure Spec.Own (σ : State A M) : Prop where
  buf : ∀ (i j k l : Nat) (o o' : Obj) (p p' : Part), σ.objs[i]? = some o → σ.objs[j]? = some o' → o.parts[k]? = some p → o'.parts[l]? = some p' →
    p.buf = p'.buf → i = j ∧ k = l
  met : ∀ (i j k l : Nat) (o o' : Obj) (p p' : Part), σ.objs[i]? = some o → σ.objs[j]? = some o' → o.parts[k]? = some p → o'.parts[l]? = some p' →
    p.met = p'.met → i = j ∧ k = l
  lt : ∀ o ∈ σ.objs, ∀ p ∈ o.parts, p.buf < σ.heap.next ∧ p.met < σ.heap.next

/-- An operation that makes no result with the coordinates of another object. -/
def Spec.Plain : Op A M → Prop
  | .new _ _ _ => False
  | _ => True

/-- The data array (not the coordinates) of every object is no part of anything else; all arrays exist. -/
structure Spec.DataOwn (σ : State A M) : Prop where
  buf : ∀ (i j l : Nat) (o o' : Obj) (p p' : Part), σ.objs[i]? = some o → σ.objs[j]? = some o' → o.parts[0]? = some p →
    o'.parts[l]? = some p' → p.buf = p'.buf → i = j ∧ 0 = l
  lt : ∀ o ∈ σ.objs, ∀ p ∈ o.parts, p.buf < σ.heap.next ∧ p.met < σ.heap.next

/-- The data values of object `i`. -/
def Spec.dataOf (σ : State A M) (i : Nat) : Option (List A) := ((σ.objs[i]?).bind (fun o => o.parts[0]?)).map (fun p => σ.heap.bufs p.buf)

/-- What an operation does to the data values of object `i`: only writing to them changes them. -/
def Spec.written (i : Nat) (vals : List A) : Op A M → List A
  | .write i' 0 j v => if i' = i then vals.set j v else vals
  | _ => vals

/-! ## Proofs -/

theorem refit_bufs (h : Heap A M) (ps : List Part) : (refit h ps).bufs = h.bufs ∧ (refit h ps).next = h.next := by
  induction ps generalizing h with
  | nil => exact ⟨rfl, rfl⟩
  | cons p ps ih => exact ih _

theorem refit_other (h : Heap A M) (ps : List Part) (m : Nat) (hm : ∀ p ∈ ps, p.met ≠ m) : (refit h ps).mets m = h.mets m := by
  induction ps generalizing h with
  | nil => rfl
  | cons p ps ih =>
    have := ih ⟨h.bufs, Function.update h.mets p.met ⟨p.shape, (h.mets p.met).info⟩, h.next⟩ (fun q hq => hm q (List.mem_cons_of_mem _ hq))
    show (refit ⟨h.bufs, Function.update h.mets p.met ⟨p.shape, (h.mets p.met).info⟩, h.next⟩ ps).mets m = _
    rw [this]
    exact Function.update_of_ne (Ne.symm (hm p List.mem_cons_self)) _ _

theorem refit_info (h : Heap A M) (ps : List Part) (m : Nat) : ((refit h ps).mets m).info = (h.mets m).info := by
  induction ps generalizing h with
  | nil => rfl
  | cons p ps ih =>
    show ((refit ⟨h.bufs, Function.update h.mets p.met ⟨p.shape, (h.mets p.met).info⟩, h.next⟩ ps).mets m).info = _
    rw [ih]
    by_cases e : m = p.met
    · subst e; simp
    · simp [Function.update_of_ne e]

theorem refit_mem (h : Heap A M) (ps : List Part) (hn : (ps.map Part.met).Nodup) (p : Part) (hp : p ∈ ps) :
    (refit h ps).mets p.met = ⟨p.shape, (h.mets p.met).info⟩ := by
  induction ps generalizing h with
  | nil => cases hp
  | cons q ps ih =>
    rw [List.map_cons, List.nodup_cons] at hn
    show (refit ⟨h.bufs, Function.update h.mets q.met ⟨q.shape, (h.mets q.met).info⟩, h.next⟩ ps).mets p.met = _
    rcases List.mem_cons.1 hp with rfl | hp
    · rw [refit_other _ _ _ (fun r hr e => hn.1 (by rw [← e]; exact List.mem_map_of_mem hr))]
      simp
    · rw [ih _ hn.2 hp]
      have : p.met ≠ q.met := fun e => hn.1 (by rw [← e]; exact List.mem_map_of_mem hp)
      simp [Function.update_of_ne this]

theorem clone_old (sel : List A → List Nat → List A × List Nat) (h : Heap A M) (ps : List Part) :
    h.next ≤ (clone sel h ps).1.next ∧ (∀ m < h.next, (clone sel h ps).1.bufs m = h.bufs m ∧ (clone sel h ps).1.mets m = h.mets m) := by
  induction ps generalizing h with
  | nil => exact ⟨Nat.le_refl _, fun _ _ => ⟨rfl, rfl⟩⟩
  | cons p ps ih =>
    obtain ⟨h1, h2⟩ := ih ⟨Function.update h.bufs h.next (sel (h.bufs p.buf) p.shape).1,
      Function.update h.mets h.next ⟨(sel (h.bufs p.buf) p.shape).2, (h.mets p.met).info⟩, h.next + 1⟩
    constructor
    · exact Nat.le_trans (Nat.le_succ _) h1
    · intro m hm
      obtain ⟨g1, g2⟩ := h2 m (Nat.lt_succ_of_lt hm)
      refine ⟨g1.trans ?_, g2.trans ?_⟩ <;> exact Function.update_of_ne (Nat.ne_of_lt hm) _ _

theorem clone_spec (sel : List A → List Nat → List A × List Nat) (h : Heap A M) (ps : List Part)
    (hlt : ∀ p ∈ ps, p.buf < h.next ∧ p.met < h.next) :
    (clone sel h ps).1.next = h.next + ps.length ∧ (clone sel h ps).2.length = ps.length ∧
    (∀ k q, (clone sel h ps).2[k]? = some q → q.buf = h.next + k ∧ q.met = h.next + k) ∧
    (clone sel h ps).2.map (fun p => (⟨(clone sel h ps).1.bufs p.buf, p.shape, (clone sel h ps).1.mets p.met⟩ : Spec.PartV A M)) =
      ps.map (fun p => Spec.PartV.select sel ⟨h.bufs p.buf, p.shape, h.mets p.met⟩) := by
  induction ps generalizing h with
  | nil => exact ⟨rfl, rfl, by simp [clone], rfl⟩
  | cons p ps ih =>
    let h' : Heap A M := ⟨Function.update h.bufs h.next (sel (h.bufs p.buf) p.shape).1,
      Function.update h.mets h.next ⟨(sel (h.bufs p.buf) p.shape).2, (h.mets p.met).info⟩, h.next + 1⟩
    obtain ⟨g1, g2, g3, g4⟩ := ih h' (fun q hq => by
      have := hlt q (List.mem_cons_of_mem _ hq)
      exact ⟨Nat.lt_succ_of_lt this.1, Nat.lt_succ_of_lt this.2⟩)
    obtain ⟨o1, o2⟩ := clone_old sel h' ps
    refine ⟨?_, ?_, ?_, ?_⟩
    · show (clone sel h' ps).1.next = _
      rw [g1, List.length_cons]
      show h.next + 1 + _ = _
      omega
    · show ((⟨h.next, _, h.next⟩ : Part) :: (clone sel h' ps).2).length = _
      rw [List.length_cons, g2, List.length_cons]
    · intro k q hq
      have hq' : ((⟨h.next, (sel (h.bufs p.buf) p.shape).2, h.next⟩ : Part) :: (clone sel h' ps).2)[k]? = some q := hq
      cases k with
      | zero => cases hq'; exact ⟨rfl, rfl⟩
      | succ k =>
        rw [List.getElem?_cons_succ] at hq'
        obtain ⟨e1, e2⟩ := g3 k q hq'
        have e3 : h'.next = h.next + 1 := rfl
        rw [e3] at e1 e2
        constructor <;> omega
    · show ((⟨h.next, (sel (h.bufs p.buf) p.shape).2, h.next⟩ : Part) :: (clone sel h' ps).2).map
        (fun p => (⟨(clone sel h' ps).1.bufs p.buf, p.shape, (clone sel h' ps).1.mets p.met⟩ : Spec.PartV A M)) = _
      rw [List.map_cons, List.map_cons, g4]
      congr 1
      · obtain ⟨e1, e2⟩ := o2 h.next (Nat.lt_succ_self _)
        simp only [e1, e2]
        simp [h', Spec.PartV.select]
      · apply List.map_congr_left
        intro q hq
        have := hlt q (List.mem_cons_of_mem _ hq)
        have n1 : q.buf ≠ h.next := by omega
        have n2 : q.met ≠ h.next := by omega
        simp [h', Function.update_of_ne n1, Function.update_of_ne n2]

theorem own_nodup (σ : State A M) (h : Spec.Own σ) (i : Nat) (o : Obj) (hi : σ.objs[i]? = some o) : (o.parts.map Part.met).Nodup := by
  rw [List.nodup_iff_injective_get]
  intro a b hab
  have ha : a.1 < o.parts.length := by simpa using a.2
  have hb : b.1 < o.parts.length := by simpa using b.2
  simp only [List.get_eq_getElem, List.getElem_map] at hab
  have := h.met i i a.1 b.1 o o _ _ hi hi (List.getElem?_eq_getElem ha) (List.getElem?_eq_getElem hb) hab
  exact Fin.ext this.2

/-- Copying and indexing. -/
theorem clone_step (σ : State A M) (h : Spec.Own σ) (sel : List A → List Nat → List A × List Nat) (i : Nat) (o : Obj)
    (hi : σ.objs[i]? = some o) (τ : State A M)
    (hτ : τ = ⟨(clone sel (refit σ.heap o.parts) o.parts).1, σ.objs ++ [⟨(clone sel (refit σ.heap o.parts) o.parts).2, []⟩]⟩) :
    Spec.Own τ ∧ Spec.all τ = (Spec.all σ).set i ⟨(Spec.seen σ.heap o).parts.map Spec.PartV.fitted, o.attrs⟩ ++
      [⟨(Spec.seen σ.heap o).parts.map (Spec.PartV.select sel), []⟩] := by
  obtain ⟨rb, rn⟩ := refit_bufs σ.heap o.parts
  have ho : o ∈ σ.objs := List.mem_of_getElem? hi
  have hilt : i < σ.objs.length := (List.getElem?_eq_some_iff.1 hi).1
  have hlt : ∀ p ∈ o.parts, p.buf < (refit σ.heap o.parts).next ∧ p.met < (refit σ.heap o.parts).next := by
    intro p hp; rw [rn]; exact h.lt o ho p hp
  obtain ⟨c1, c2, c3, c4⟩ := clone_spec sel (refit σ.heap o.parts) o.parts hlt
  obtain ⟨d1, d2⟩ := clone_old sel (refit σ.heap o.parts) o.parts
  rw [rn] at c1 c3 d1 d2
  have hnd := own_nodup σ h i o hi
  have hget : ∀ j o', τ.objs[j]? = some o' → (j < σ.objs.length ∧ σ.objs[j]? = some o') ∨
      (j = σ.objs.length ∧ o' = ⟨(clone sel (refit σ.heap o.parts) o.parts).2, []⟩) := by
    intro j o' hj
    subst hτ
    rcases Nat.lt_or_ge j σ.objs.length with hl | hl
    · exact .inl ⟨hl, by rwa [List.getElem?_append_left hl] at hj⟩
    · rw [List.getElem?_append_right hl] at hj
      have : j - σ.objs.length = 0 := by
        by_contra hne
        rw [List.getElem?_eq_none (by simp; omega)] at hj
        cases hj
      rw [this] at hj
      exact .inr ⟨by omega, by simpa using hj.symm⟩
  have hold : ∀ (o' : Obj) (j k : Nat) (p : Part), σ.objs[j]? = some o' → o'.parts[k]? = some p → p.buf < σ.heap.next ∧ p.met < σ.heap.next :=
    fun o' j k p hj hk => h.lt o' (List.mem_of_getElem? hj) p (List.mem_of_getElem? hk)
  constructor
  · refine ⟨?_, ?_, ?_⟩
    · intro a b k l x y p q ha hb hk hl e
      rcases hget a x ha with ⟨la, ga⟩ | ⟨la, ga⟩ <;> rcases hget b y hb with ⟨lb, gb⟩ | ⟨lb, gb⟩
      · exact h.buf a b k l x y p q ga gb hk hl e
      · have := (hold x a k p ga hk).1
        subst gb
        have := (c3 l q hl).1
        omega
      · have := (hold y b l q gb hl).1
        subst ga
        have := (c3 k p hk).1
        omega
      · subst ga gb
        have := (c3 l q hl).1
        have := (c3 k p hk).1
        exact ⟨by omega, by omega⟩
    · intro a b k l x y p q ha hb hk hl e
      rcases hget a x ha with ⟨la, ga⟩ | ⟨la, ga⟩ <;> rcases hget b y hb with ⟨lb, gb⟩ | ⟨lb, gb⟩
      · exact h.met a b k l x y p q ga gb hk hl e
      · have := (hold x a k p ga hk).2
        subst gb
        have := (c3 l q hl).2
        omega
      · have := (hold y b l q gb hl).2
        subst ga
        have := (c3 k p hk).2
        omega
      · subst ga gb
        have := (c3 l q hl).2
        have := (c3 k p hk).2
        exact ⟨by omega, by omega⟩
    · intro x hx p hp
      obtain ⟨a, ha⟩ := List.getElem?_of_mem hx
      obtain ⟨k, hk⟩ := List.getElem?_of_mem hp
      have hn : τ.heap.next = σ.heap.next + o.parts.length := by rw [hτ]; exact c1
      rcases hget a x ha with ⟨la, ga⟩ | ⟨la, ga⟩
      · have := hold x a k p ga hk
        omega
      · subst ga
        have e := c3 k p hk
        have : k < o.parts.length := by
          rw [← c2]
          exact (List.getElem?_eq_some_iff.1 hk).1
        omega
  · subst hτ
    unfold Spec.all
    rw [List.map_append]
    congr 1
    · apply List.ext_getElem?
      intro j
      rw [List.getElem?_map, List.getElem?_set, List.getElem?_map, List.length_map]
      by_cases hj : i = j
      · subst hj
        rw [if_pos rfl, if_pos hilt, hi, Option.map_some]
        congr 1
        unfold Spec.seen
        congr 1
        rw [List.map_map]
        apply List.map_congr_left
        intro p hp
        obtain ⟨l1, l2⟩ := h.lt o ho p hp
        simp only [(d2 p.buf l1).1, (d2 p.met l2).2, rb, Function.comp_def, refit_mem σ.heap o.parts hnd p hp, Spec.PartV.fitted]
      · rw [if_neg hj]
        cases hj' : σ.objs[j]? with
        | none => rfl
        | some o' =>
          rw [Option.map_some, Option.map_some]
          congr 1
          unfold Spec.seen
          congr 1
          apply List.map_congr_left
          intro p hp
          obtain ⟨l1, l2⟩ := h.lt o' (List.mem_of_getElem? hj') p hp
          simp only [(d2 p.buf l1).1, (d2 p.met l2).2, rb]
          rw [refit_other]
          intro q hq e
          obtain ⟨k, hk⟩ := List.getElem?_of_mem hp
          obtain ⟨l, hl⟩ := List.getElem?_of_mem hq
          exact hj (h.met i j l k o o' q p hi hj' hl hk e).1
    · simp only [List.map_cons, List.map_nil]
      congr 1
      unfold Spec.seen
      congr 1
      rw [c4, List.map_map]
      apply List.map_congr_left
      intro p hp
      simp only [rb, Function.comp_def, refit_mem σ.heap o.parts hnd p hp, Spec.PartV.select]

/-- Writing. -/
theorem write_step (σ : State A M) (h : Spec.Own σ) (i k j : Nat) (v : A) :
    Spec.Own (step σ (.write i k j v)) ∧ Spec.all (step σ (.write i k j v)) = Spec.stepV (Spec.all σ) (.write i k j v) := by
  unfold step Spec.stepV
  simp only
  cases hp : (σ.objs[i]?).bind (fun o => o.parts[k]?) with
  | none =>
    refine ⟨h, ?_⟩
    apply List.ext_getElem?
    intro j'
    rw [List.getElem?_modify]
    cases hj : (Spec.all σ)[j']? with
    | none => rfl
    | some o' =>
      show some o' = some _
      congr 1
      beta_reduce
      split
      · rename_i e
        subst e
        unfold Spec.all at hj
        rw [List.getElem?_map] at hj
        cases ho : σ.objs[i]? with
        | none => rw [ho] at hj; cases hj
        | some o =>
          rw [ho] at hj hp
          simp only [Option.map_some, Option.some.injEq, Option.bind_some] at hj hp
          subst hj
          unfold Spec.seen
          congr 2
          rw [List.modify_eq_self]
          rw [List.length_map]
          exact List.getElem?_eq_none_iff.1 hp
      · rfl
  | some p =>
    obtain ⟨o, ho, hk⟩ := Option.bind_eq_some_iff.1 hp
    refine ⟨⟨h.buf, h.met, h.lt⟩, ?_⟩
    simp only
    unfold Spec.all
    apply List.ext_getElem?
    intro j'
    rw [List.getElem?_map, List.getElem?_modify, List.getElem?_map]
    cases hj : σ.objs[j']? with
    | none => simp
    | some o' =>
      simp only [Option.map_some]
      congr 1
      have key : ∀ l q, o'.parts[l]? = some q → q.buf = p.buf → i = j' ∧ k = l := by
        intro l q hl e
        exact h.buf i j' k l o o' p q ho hj hk hl e.symm
      by_cases hij : i = j'
      · subst hij
        simp only [if_true]
        rw [hj] at ho
        cases ho
        unfold Spec.seen
        simp only
        congr 1
        apply List.ext_getElem?
        intro l
        rw [List.getElem?_map, List.getElem?_modify, List.getElem?_map]
        cases hl : o.parts[l]? with
        | none => simp
        | some q =>
          simp only [Option.map_some]
          congr 1
          by_cases hkl : k = l
          · subst hkl
            rw [hk] at hl
            cases hl
            simp
          · have : q.buf ≠ p.buf := fun e => hkl (key l q hl e).2
            simp [Function.update_of_ne this, hkl]
      · simp only [if_neg hij]
        show Spec.seen _ o' = Spec.seen _ o'
        unfold Spec.seen
        congr 1
        apply List.map_congr_left
        intro q hq
        obtain ⟨l, hl⟩ := List.getElem?_of_mem hq
        have : q.buf ≠ p.buf := fun e => hij (key l q hl e).1
        simp [Function.update_of_ne this]

/-- Changing metadata. -/
theorem label_step (σ : State A M) (h : Spec.Own σ) (i k : Nat) (f : M → M) :
    Spec.Own (step σ (.label i k f)) ∧ Spec.all (step σ (.label i k f)) = Spec.stepV (Spec.all σ) (.label i k f) := by
  unfold step Spec.stepV
  simp only
  cases hp : (σ.objs[i]?).bind (fun o => o.parts[k]?) with
  | none =>
    refine ⟨h, ?_⟩
    apply List.ext_getElem?
    intro j'
    rw [List.getElem?_modify]
    cases hj : (Spec.all σ)[j']? with
    | none => rfl
    | some o' =>
      show some o' = some _
      congr 1
      beta_reduce
      split
      · rename_i e
        subst e
        unfold Spec.all at hj
        rw [List.getElem?_map] at hj
        cases ho : σ.objs[i]? with
        | none => rw [ho] at hj; cases hj
        | some o =>
          rw [ho] at hj hp
          simp only [Option.map_some, Option.some.injEq, Option.bind_some] at hj hp
          subst hj
          unfold Spec.seen
          congr 2
          rw [List.modify_eq_self]
          rw [List.length_map]
          exact List.getElem?_eq_none_iff.1 hp
      · rfl
  | some p =>
    obtain ⟨o, ho, hk⟩ := Option.bind_eq_some_iff.1 hp
    refine ⟨⟨h.buf, h.met, h.lt⟩, ?_⟩
    simp only
    unfold Spec.all
    apply List.ext_getElem?
    intro j'
    rw [List.getElem?_map, List.getElem?_modify, List.getElem?_map]
    cases hj : σ.objs[j']? with
    | none => simp
    | some o' =>
      simp only [Option.map_some]
      congr 1
      have key : ∀ l q, o'.parts[l]? = some q → q.met = p.met → i = j' ∧ k = l := by
        intro l q hl e
        exact h.met i j' k l o o' p q ho hj hk hl e.symm
      by_cases hij : i = j'
      · subst hij
        simp only [if_true]
        rw [hj] at ho
        cases ho
        unfold Spec.seen
        simp only
        congr 1
        apply List.ext_getElem?
        intro l
        rw [List.getElem?_map, List.getElem?_modify, List.getElem?_map]
        cases hl : o.parts[l]? with
        | none => simp
        | some q =>
          simp only [Option.map_some]
          congr 1
          by_cases hkl : k = l
          · subst hkl
            rw [hk] at hl
            cases hl
            simp
          · have : q.met ≠ p.met := fun e => hkl (key l q hl e).2
            simp [Function.update_of_ne this, hkl]
      · simp only [if_neg hij]
        show Spec.seen _ o' = Spec.seen _ o'
        unfold Spec.seen
        congr 1
        apply List.map_congr_left
        intro q hq
        obtain ⟨l, hl⟩ := List.getElem?_of_mem hq
        have : q.met ≠ p.met := fun e => hij (key l q hl e).1
        simp [Function.update_of_ne this]

theorem attribute_step (σ : State A M) (h : Spec.Own σ) (i : Nat) (key value : String) :
    Spec.Own (step σ (.addAttr i key value)) ∧
      Spec.all (step σ (.addAttr i key value)) = Spec.stepV (Spec.all σ) (.addAttr i key value) := by
  unfold step Spec.stepV
  simp only
  have hget : ∀ (a : Nat) (x : Obj), (σ.objs.modify i (fun o => ⟨o.parts, o.attrs.filter (·.1 ≠ key) ++ [(key, value)]⟩))[a]? = some x →
      ∃ y : Obj, σ.objs[a]? = some y ∧ y.parts = x.parts := by
    intro a x hx
    rw [List.getElem?_modify] at hx
    cases hy : σ.objs[a]? with
    | none => rw [hy] at hx; simp at hx
    | some y =>
      rw [hy] at hx
      refine ⟨y, rfl, ?_⟩
      have hx' : _ = x := Option.some.inj hx
      rw [← hx']
      beta_reduce
      split <;> rfl
  constructor
  · refine ⟨?_, ?_, ?_⟩
    · intro a b k l x y p q ha hb hk hl e
      obtain ⟨x', h1, h2⟩ := hget a x ha
      obtain ⟨y', h3, h4⟩ := hget b y hb
      exact h.buf a b k l x' y' p q h1 h3 (h2 ▸ hk) (h4 ▸ hl) e
    · intro a b k l x y p q ha hb hk hl e
      obtain ⟨x', h1, h2⟩ := hget a x ha
      obtain ⟨y', h3, h4⟩ := hget b y hb
      exact h.met a b k l x' y' p q h1 h3 (h2 ▸ hk) (h4 ▸ hl) e
    · intro x hx p hp
      obtain ⟨a, ha⟩ := List.getElem?_of_mem hx
      obtain ⟨x', h1, h2⟩ := hget a x ha
      exact h.lt x' (List.mem_of_getElem? h1) p (h2 ▸ hp)
  · unfold Spec.all
    apply List.ext_getElem?
    intro j
    rw [List.getElem?_map, List.getElem?_modify, List.getElem?_modify, List.getElem?_map]
    cases σ.objs[j]? with
    | none => rfl
    | some o =>
      simp only [Option.map_some]
      split <;> rfl

/-- One plain operation. -/
theorem plain_step (σ : State A M) (h : Spec.Own σ) (op : Op A M) (hp : Spec.Plain op) :
    Spec.Own (step σ op) ∧ Spec.all (step σ op) = Spec.stepV (Spec.all σ) op := by
  have hat : ∀ i : Nat, (Spec.all σ)[i]? = (σ.objs[i]?).map (Spec.seen σ.heap) := by
    intro i; unfold Spec.all; rw [List.getElem?_map]
  cases op with
  | copy i =>
    cases hi : σ.objs[i]? with
    | none => simp only [step, Spec.stepV, hat, hi, Option.map_none]; exact ⟨h, trivial⟩
    | some o =>
      obtain ⟨h1, h2⟩ := clone_step σ h (fun v s => (v, s)) i o hi _ rfl
      simp only [step, Spec.stepV, hat, hi, Option.map_some]
      exact ⟨h1, h2⟩
  | index i sel =>
    cases hi : σ.objs[i]? with
    | none => simp only [step, Spec.stepV, hat, hi, Option.map_none]; exact ⟨h, trivial⟩
    | some o =>
      obtain ⟨h1, h2⟩ := clone_step σ h sel i o hi _ rfl
      simp only [step, Spec.stepV, hat, hi, Option.map_some]
      exact ⟨h1, h2⟩
  | new => exact absurd hp id
  | write i k j v => exact write_step σ h i k j v
  | label i k f => exact label_step σ h i k f
  | addAttr i key value => exact attribute_step σ h i key value

/-- C117, without results of `evaluate`: whatever is copied, indexed, written, relabelled and given attributes, in any order, the objects
behave as values: an operation changes the object that it is done to and no other. -/
theorem c117_values (σ : State A M) (h : Spec.Own σ) (ops : List (Op A M)) (hp : ∀ op ∈ ops, Spec.Plain op) :
    Spec.Own (run σ ops) ∧ Spec.all (run σ ops) = ops.foldl Spec.stepV (Spec.all σ) := by
  induction ops generalizing σ with
  | nil => exact ⟨h, rfl⟩
  | cons op ops ih =>
    obtain ⟨h1, h2⟩ := plain_step σ h op (hp op List.mem_cons_self)
    obtain ⟨h3, h4⟩ := ih (step σ op) h1 (fun x hx => hp x (List.mem_cons_of_mem _ hx))
    refine ⟨h3, ?_⟩
    show Spec.all (run (step σ op) ops) = _
    rw [h4, h2]
    rfl

/-- C117: in particular a copy is not changed by anything that is done to the original (object `i`). -/
theorem c117_copy_kept (σ : State A M) (h : Spec.Own σ) (i : Nat) (o : Obj) (hi : σ.objs[i]? = some o) (ops : List (Op A M))
    (hp : ∀ op ∈ ops, (∃ k j v, op = .write i k j v) ∨ (∃ k f, op = .label i k f) ∨ ∃ k v, op = .addAttr i k v) :
    (Spec.all (run σ (.copy i :: ops)))[σ.objs.length]? = some ⟨(Spec.seen σ.heap o).parts.map Spec.PartV.fitted, []⟩ := by
  have hplain : ∀ op ∈ Op.copy i :: ops, Spec.Plain op := by
    intro op hop
    rcases List.mem_cons.1 hop with rfl | hop
    · trivial
    · rcases hp op hop with ⟨k, j, v, rfl⟩ | ⟨k, f, rfl⟩ | ⟨k, v, rfl⟩ <;> trivial
  rw [(c117_values σ h _ hplain).2, List.foldl_cons]
  have hilt : i < σ.objs.length := (List.getElem?_eq_some_iff.1 hi).1
  have h0 : (Spec.stepV (Spec.all σ) (.copy i))[σ.objs.length]? = some ⟨(Spec.seen σ.heap o).parts.map Spec.PartV.fitted, []⟩ := by
    have hat : (Spec.all σ)[i]? = some (Spec.seen σ.heap o) := by unfold Spec.all; rw [List.getElem?_map, hi]; rfl
    simp only [Spec.stepV, hat]
    rw [List.getElem?_append_right (by simp [Spec.all])]
    simp [Spec.all]
  have key : ∀ (ops : List (Op A M)) (l : List (Spec.ObjV A M)),
      (∀ op ∈ ops, (∃ k j v, op = .write i k j v) ∨ (∃ k f, op = .label i k f) ∨ ∃ k v, op = .addAttr i k v) →
      (ops.foldl Spec.stepV l)[σ.objs.length]? = l[σ.objs.length]? := by
    intro ops
    induction ops with
    | nil => intro l _; rfl
    | cons op ops ih =>
      intro l hp
      rw [List.foldl_cons, ih _ (fun x hx => hp x (List.mem_cons_of_mem _ hx))]
      have hne : i ≠ σ.objs.length := Nat.ne_of_lt hilt
      rcases hp op List.mem_cons_self with ⟨k, j, v, rfl⟩ | ⟨k, f, rfl⟩ | ⟨k, v, rfl⟩ <;>
        simp [Spec.stepV, List.getElem?_modify, hne]
  rw [key ops _ hp, h0]

/-- Appending an object whose data array is new and whose other arrays are new or exist, without changing old arrays. -/
theorem append_own (σ : State A M) (h : Spec.DataOwn σ) (g : Heap A M) (o' : Obj) (hn : σ.heap.next ≤ g.next)
    (hb : ∀ m < σ.heap.next, g.bufs m = σ.heap.bufs m)
    (h0 : ∀ p, o'.parts[0]? = some p → σ.heap.next ≤ p.buf ∧ ∀ l q, o'.parts[l]? = some q → p.buf = q.buf → 0 = l)
    (hsh : ∀ (l : Nat) (q : Part), o'.parts[l]? = some q → σ.heap.next ≤ q.buf ∨
      ∀ (i : Nat) (o : Obj) (p : Part), σ.objs[i]? = some o → o.parts[0]? = some p → p.buf ≠ q.buf)
    (hlt : ∀ q ∈ o'.parts, q.buf < g.next ∧ q.met < g.next) :
    Spec.DataOwn (⟨g, σ.objs ++ [o']⟩ : State A M) ∧
      ∀ i < σ.objs.length, Spec.dataOf (⟨g, σ.objs ++ [o']⟩ : State A M) i = Spec.dataOf σ i := by
  have hget : ∀ (j : Nat) (x : Obj), (σ.objs ++ [o'])[j]? = some x → (j < σ.objs.length ∧ σ.objs[j]? = some x) ∨
      (j = σ.objs.length ∧ x = o') := by
    intro j x hj
    rcases Nat.lt_or_ge j σ.objs.length with hl | hl
    · exact .inl ⟨hl, by rwa [List.getElem?_append_left hl] at hj⟩
    · rw [List.getElem?_append_right hl] at hj
      have : j - σ.objs.length = 0 := by
        by_contra hne
        rw [List.getElem?_eq_none (by simp; omega)] at hj
        cases hj
      rw [this] at hj
      exact .inr ⟨by omega, by simpa using hj.symm⟩
  have hold : ∀ (x : Obj) (j k : Nat) (p : Part), σ.objs[j]? = some x → x.parts[k]? = some p → p.buf < σ.heap.next :=
    fun x j k p hj hk => (h.lt x (List.mem_of_getElem? hj) p (List.mem_of_getElem? hk)).1
  refine ⟨⟨?_, ?_⟩, ?_⟩
  · intro a b l x y p q ha hb hk hl e
    rcases hget a x ha with ⟨la, ga⟩ | ⟨la, ga⟩ <;> rcases hget b y hb with ⟨lb, gb⟩ | ⟨lb, gb⟩
    · exact h.buf a b l x y p q ga gb hk hl e
    · subst gb
      have := hold x a 0 p ga hk
      rcases hsh l q hl with h1 | h1
      · omega
      · exact absurd e (h1 a x p ga hk)
    · subst ga
      have := hold y b l q gb hl
      have := (h0 p hk).1
      omega
    · subst ga gb
      exact ⟨by omega, (h0 p hk).2 l q hl e⟩
  · intro x hx p hp
    rcases List.mem_append.1 hx with hx | hx
    · have := h.lt x hx p hp
      exact ⟨Nat.lt_of_lt_of_le this.1 hn, Nat.lt_of_lt_of_le this.2 hn⟩
    · rw [List.mem_singleton] at hx
      subst hx
      exact hlt p hp
  · intro i hi
    unfold Spec.dataOf
    show (((σ.objs ++ [o'])[i]?).bind (fun o => o.parts[0]?)).map (fun p => g.bufs p.buf) = _
    rw [List.getElem?_append_left hi]
    cases hp : (σ.objs[i]?).bind (fun o => o.parts[0]?) with
    | none => rfl
    | some p =>
      obtain ⟨o, ho, hk⟩ := Option.bind_eq_some_iff.1 hp
      show some (g.bufs p.buf) = some (σ.heap.bufs p.buf)
      rw [hb _ (hold o i 0 p ho hk)]

theorem clone_own (σ : State A M) (h : Spec.DataOwn σ) (sel : List A → List Nat → List A × List Nat) (i : Nat) (o : Obj)
    (hi : σ.objs[i]? = some o) (τ : State A M)
    (hτ : τ = ⟨(clone sel (refit σ.heap o.parts) o.parts).1, σ.objs ++ [⟨(clone sel (refit σ.heap o.parts) o.parts).2, []⟩]⟩) :
    Spec.DataOwn τ ∧ ∀ i < σ.objs.length, Spec.dataOf τ i = Spec.dataOf σ i := by
  obtain ⟨rb, rn⟩ := refit_bufs σ.heap o.parts
  have ho : o ∈ σ.objs := List.mem_of_getElem? hi
  have hlt : ∀ p ∈ o.parts, p.buf < (refit σ.heap o.parts).next ∧ p.met < (refit σ.heap o.parts).next := by
    intro p hp; rw [rn]; exact h.lt o ho p hp
  obtain ⟨c1, c2, c3, c4⟩ := clone_spec sel (refit σ.heap o.parts) o.parts hlt
  obtain ⟨d1, d2⟩ := clone_old sel (refit σ.heap o.parts) o.parts
  rw [rn] at c1 c3 d1 d2
  subst hτ
  apply append_own σ h _ _ d1
  · intro m hm; rw [(d2 m hm).1, rb]
  · intro p hp
    have e1 := (c3 0 p hp).1
    refine ⟨by omega, ?_⟩
    intro l q hl e
    have e2 := (c3 l q hl).1
    omega
  · intro l q hl
    have := (c3 l q hl).1
    exact .inl (by omega)
  · intro q hq
    obtain ⟨l, hl⟩ := List.getElem?_of_mem hq
    have := c3 l q hl
    have hl' : l < (clone sel (refit σ.heap o.parts) o.parts).2.length := (List.getElem?_eq_some_iff.1 hl).1
    rw [c2] at hl'
    rw [c1]
    omega

/-- One operation and the data. -/
theorem data_step (σ : State A M) (h : Spec.DataOwn σ) (op : Op A M) :
    Spec.DataOwn (step σ op) ∧ σ.objs.length ≤ (step σ op).objs.length ∧
      ∀ i < σ.objs.length, Spec.dataOf (step σ op) i = (Spec.dataOf σ i).map (fun v => Spec.written i v op) := by
  have same : ∀ x : Option (List A), x.map (fun v => v) = x := fun x => by cases x <;> rfl
  cases op with
  | copy i =>
    simp only [Spec.written, same]
    cases hi : σ.objs[i]? with
    | none => simp only [step, hi]; exact ⟨h, Nat.le_refl _, fun _ _ => trivial⟩
    | some o =>
      obtain ⟨h1, h2⟩ := clone_own σ h (fun v s => (v, s)) i o hi _ rfl
      simp only [step, hi]
      exact ⟨h1, by simp, h2⟩
  | index i sel =>
    simp only [Spec.written, same]
    cases hi : σ.objs[i]? with
    | none => simp only [step, hi]; exact ⟨h, Nat.le_refl _, fun _ _ => trivial⟩
    | some o =>
      obtain ⟨h1, h2⟩ := clone_own σ h sel i o hi _ rfl
      simp only [step, hi]
      exact ⟨h1, by simp, h2⟩
  | new i vals info =>
    simp only [Spec.written, same]
    cases hi : σ.objs[i]? with
    | none => simp only [step, hi]; exact ⟨h, Nat.le_refl _, fun _ _ => trivial⟩
    | some o =>
      simp only [step, hi]
      obtain ⟨rb, rn⟩ := refit_bufs (⟨Function.update σ.heap.bufs σ.heap.next vals,
        Function.update σ.heap.mets σ.heap.next ⟨[vals.length], info⟩, σ.heap.next + 1⟩ : Heap A M) ((o.parts.drop 1).map (flatPart σ.heap))
      have hpart : ∀ (l : Nat) (q : Part), ((o.parts.drop 1).map (flatPart σ.heap))[l]? = some q →
          ∃ q', o.parts[l + 1]? = some q' ∧ q.buf = q'.buf ∧ q.met = q'.met := by
        intro l q hl
        rw [List.getElem?_map, List.getElem?_drop, Nat.add_comm] at hl
        obtain ⟨q', h1, h2⟩ := Option.map_eq_some_iff.1 hl
        exact ⟨q', h1, by rw [← h2]; rfl, by rw [← h2]; rfl⟩
      have hlt := h.lt o (List.mem_of_getElem? hi)
      obtain ⟨g1, g2⟩ := append_own σ h (refit (⟨Function.update σ.heap.bufs σ.heap.next vals,
        Function.update σ.heap.mets σ.heap.next ⟨[vals.length], info⟩, σ.heap.next + 1⟩ : Heap A M) ((o.parts.drop 1).map (flatPart σ.heap)))
        ⟨⟨σ.heap.next, [vals.length], σ.heap.next⟩ :: (o.parts.drop 1).map (flatPart σ.heap), []⟩ (by rw [rn]; exact Nat.le_succ _)
        (by intro m hm; rw [rb]; exact Function.update_of_ne (Nat.ne_of_lt hm) _ _)
        (by
          intro p hp
          rw [List.getElem?_cons_zero] at hp
          cases hp
          refine ⟨Nat.le_refl _, ?_⟩
          intro l q hl e
          cases l with
          | zero => rfl
          | succ l =>
            rw [List.getElem?_cons_succ] at hl
            obtain ⟨q', e1, e2, _⟩ := hpart l q hl
            have := (hlt q' (List.mem_of_getElem? e1)).1
            rw [← e2, ← e] at this
            exact absurd this (Nat.lt_irrefl _))
        (by
          intro l q hl
          cases l with
          | zero => rw [List.getElem?_cons_zero] at hl; cases hl; exact .inl (Nat.le_refl _)
          | succ l =>
            rw [List.getElem?_cons_succ] at hl
            obtain ⟨q', e1, e2, _⟩ := hpart l q hl
            refine .inr ?_
            intro a x p ha hp e
            have := (h.buf a i (l + 1) x o p q' ha hi hp e1 (e.trans e2)).2
            omega)
        (by
          intro q hq
          rw [rn]
          rcases List.mem_cons.1 hq with rfl | hq
          · exact ⟨Nat.lt_succ_self _, Nat.lt_succ_self _⟩
          · obtain ⟨l, hl⟩ := List.getElem?_of_mem hq
            obtain ⟨q', e1, e2, e3⟩ := hpart l q hl
            have := hlt q' (List.mem_of_getElem? e1)
            rw [e2, e3]
            exact ⟨Nat.lt_succ_of_lt this.1, Nat.lt_succ_of_lt this.2⟩)
      exact ⟨g1, by simp, g2⟩
  | write i k j v =>
    cases hp : (σ.objs[i]?).bind (fun o => o.parts[k]?) with
    | none =>
      simp only [step, hp]
      refine ⟨h, Nat.le_refl _, ?_⟩
      intro a ha
      unfold Spec.dataOf
      cases hq : (σ.objs[a]?).bind (fun o => o.parts[0]?) with
      | none => rfl
      | some q =>
        simp only [Option.map_some]
        congr 1
        unfold Spec.written
        cases k with
        | succ k => rfl
        | zero =>
          by_cases e : i = a
          · subst e; rw [hp] at hq; cases hq
          · simp [e]
    | some p =>
      simp only [step, hp]
      refine ⟨⟨h.buf, h.lt⟩, Nat.le_refl _, ?_⟩
      intro a ha
      unfold Spec.dataOf
      cases hq : (σ.objs[a]?).bind (fun o => o.parts[0]?) with
      | none => rfl
      | some q =>
        obtain ⟨o, ho, hk⟩ := Option.bind_eq_some_iff.1 hp
        obtain ⟨x, hx, hqx⟩ := Option.bind_eq_some_iff.1 hq
        simp only [Option.map_some]
        congr 1
        by_cases e : q.buf = p.buf
        · obtain ⟨e1, e2⟩ := h.buf a i k x o q p hx ho hqx hk e
          subst e1 e2
          rw [e, Function.update_self]
          simp [Spec.written]
        · rw [Function.update_of_ne e]
          unfold Spec.written
          cases k with
          | succ k => rfl
          | zero =>
            by_cases e' : i = a
            · subst e'
              rw [hp] at hq
              cases hq
              exact absurd rfl e
            · simp [e']
  | label i k f =>
    simp only [Spec.written, same]
    cases hp : (σ.objs[i]?).bind (fun o => o.parts[k]?) with
    | none => simp only [step, hp]; exact ⟨h, Nat.le_refl _, fun _ _ => trivial⟩
    | some p => simp only [step, hp]; exact ⟨⟨h.buf, h.lt⟩, Nat.le_refl _, fun _ _ => rfl⟩
  | addAttr i key value =>
    simp only [Spec.written, same, step]
    have hget : ∀ a : Nat, ((σ.objs.modify i (fun o => ⟨o.parts, o.attrs.filter (·.1 ≠ key) ++ [(key, value)]⟩))[a]?).map Obj.parts =
        (σ.objs[a]?).map Obj.parts := by
      intro a
      rw [List.getElem?_modify]
      cases σ.objs[a]? with
      | none => rfl
      | some y =>
        show some _ = some _
        congr 1
        beta_reduce
        split <;> rfl
    have hget' : ∀ (a : Nat) (x : Obj), (σ.objs.modify i (fun o => ⟨o.parts, o.attrs.filter (·.1 ≠ key) ++ [(key, value)]⟩))[a]? = some x →
        ∃ y : Obj, σ.objs[a]? = some y ∧ y.parts = x.parts := by
      intro a x hx
      have := hget a
      rw [hx] at this
      obtain ⟨y, h1, h2⟩ := Option.map_eq_some_iff.1 this.symm
      exact ⟨y, h1, h2⟩
    refine ⟨⟨?_, ?_⟩, by simp, ?_⟩
    · intro a b l x y p q ha hb hk hl e
      obtain ⟨x', h1, h2⟩ := hget' a x ha
      obtain ⟨y', h3, h4⟩ := hget' b y hb
      exact h.buf a b l x' y' p q h1 h3 (h2 ▸ hk) (h4 ▸ hl) e
    · intro x hx p hp
      obtain ⟨a, ha⟩ := List.getElem?_of_mem hx
      obtain ⟨x', h1, h2⟩ := hget' a x ha
      exact h.lt x' (List.mem_of_getElem? h1) p (h2 ▸ hp)
    · intro a _
      have e : ∀ y : Option Obj, y.bind (fun o => o.parts[0]?) = (y.map Obj.parts).bind (fun l => l[0]?) := fun y => by cases y <;> rfl
      unfold Spec.dataOf
      simp only
      rw [e, hget a, ← e]

/-- C117: the data values of an object are its own, in every history, with results of `evaluate` too: nothing changes them but writing to
them through this object. -/
theorem c117_data_own (σ : State A M) (h : Spec.DataOwn σ) (ops : List (Op A M)) (i : Nat) (hi : i < σ.objs.length) :
    Spec.DataOwn (run σ ops) ∧ Spec.dataOf (run σ ops) i = (Spec.dataOf σ i).map (fun v => ops.foldl (Spec.written i) v) := by
  induction ops generalizing σ with
  | nil => exact ⟨h, by show Spec.dataOf σ i = _; cases Spec.dataOf σ i <;> rfl⟩
  | cons op ops ih =>
    obtain ⟨h1, h2, h3⟩ := data_step σ h op
    obtain ⟨h4, h5⟩ := ih (step σ op) h1 (Nat.lt_of_lt_of_le hi h2)
    refine ⟨h4, ?_⟩
    show Spec.dataOf (run (step σ op) ops) i = _
    rw [h5, h3 i hi, Option.map_map]
    rfl

/-- Objects that share nothing have their own data. -/
theorem own_dataOwn (σ : State A M) (h : Spec.Own σ) : Spec.DataOwn σ :=
  ⟨fun i j l o o' p p' hi hj hk hl e => h.buf i j 0 l o o' p p' hi hj hk hl e, h.lt⟩

/-- C117 violated: copies and parts have no attributes, whatever the attributes of the source. -/
theorem c117_attributes_violated (σ : State A M) (i : Nat) (o : Obj) (hi : σ.objs[i]? = some o) :
    ∃ o', (step σ (.copy i)).objs[σ.objs.length]? = some o' ∧ o'.attrs = [] := by
  simp only [step, hi]
  exact ⟨_, by rw [List.getElem?_append_right (Nat.le_refl _), Nat.sub_self]; rfl, rfl⟩

/-- C117 violated: a result of `evaluate` has the coordinate arrays and metadata of its source. Making it changes the shapes that the
metadata of the source's coordinates say (to one dimension), -/
theorem c117_result_shape_violated (σ : State A M) (h : Spec.Own σ) (i k : Nat) (o : Obj) (p : Part) (hi : σ.objs[i]? = some o)
    (hk : o.parts[k + 1]? = some p) (vals : List A) (info : M) :
    ((step σ (.new i vals info)).heap.mets p.met).shape = [(σ.heap.bufs p.buf).length] := by
  obtain ⟨l1, l2⟩ := h.lt o (List.mem_of_getElem? hi) p (List.mem_of_getElem? hk)
  simp only [step, hi]
  have hnd : (((o.parts.drop 1).map (flatPart σ.heap)).map Part.met).Nodup := by
    rw [List.map_map]
    have : (Part.met ∘ flatPart σ.heap) = Part.met := rfl
    rw [this]
    exact ((own_nodup σ h i o hi).sublist ((List.drop_sublist 1 o.parts).map _))
  have hmem : flatPart σ.heap p ∈ (o.parts.drop 1).map (flatPart σ.heap) := by
    apply List.mem_map_of_mem
    rw [List.mem_iff_getElem?]
    exact ⟨k, by rw [List.getElem?_drop, Nat.add_comm]; exact hk⟩
  have e := refit_mem (⟨Function.update σ.heap.bufs σ.heap.next vals, Function.update σ.heap.mets σ.heap.next ⟨[vals.length], info⟩,
    σ.heap.next + 1⟩ : Heap A M) _ hnd _ hmem
  have e' : (flatPart σ.heap p).met = p.met := rfl
  rw [e'] at e
  rw [e]
  rfl

/-- and writing a coordinate of the result writes the coordinate of the source. -/
theorem c117_result_write_violated (σ : State A M) (i k j : Nat) (v : A) (o : Obj) (p : Part) (hi : σ.objs[i]? = some o)
    (hk : o.parts[k + 1]? = some p) (hlt : p.buf < σ.heap.next) (vals : List A) (info : M) :
    (run σ [.new i vals info, .write σ.objs.length (k + 1) j v]).heap.bufs p.buf = (σ.heap.bufs p.buf).set j v := by
  show (step (step σ (.new i vals info)) (.write σ.objs.length (k + 1) j v)).heap.bufs p.buf = _
  have h1 : ((step σ (.new i vals info)).objs[σ.objs.length]?).bind (fun o => o.parts[k + 1]?) = some (flatPart σ.heap p) := by
    simp only [step, hi]
    rw [List.getElem?_append_right (Nat.le_refl _), Nat.sub_self]
    simp only [List.getElem?_cons_zero, Option.bind_some, List.getElem?_cons_succ, List.getElem?_map, List.getElem?_drop]
    rw [Nat.add_comm 1 k, hk]
    rfl
  have h2 : (step σ (.new i vals info)).heap.bufs p.buf = σ.heap.bufs p.buf := by
    simp only [step, hi]
    rw [(refit_bufs _ _).1]
    exact Function.update_of_ne (Nat.ne_of_lt hlt) _ _
  generalize step σ (.new i vals info) = τ at h1 h2
  simp only [step, h1]
  show Function.update τ.heap.bufs p.buf ((τ.heap.bufs p.buf).set j v) p.buf = _
  rw [Function.update_self, h2]

/-! ## Examples -/

/-- Data of shape 2 × 2 with one coordinate. -/
def exState : State Nat String :=
  ⟨⟨fun n => if n = 0 then [1, 2, 3, 4] else [5, 6, 7, 8], fun n => if n = 0 then ⟨[2, 2], "K"⟩ else ⟨[2, 2], "degrees"⟩, 2⟩,
    [⟨[⟨0, [2, 2], 0⟩, ⟨1, [2, 2], 1⟩], [("a", "b")]⟩]⟩

example : Spec.Own exState := by
  refine ⟨?_, ?_, ?_⟩
  · intro i j k l o o' p p' hi hj hk hl e
    have : i = 0 := by
      rcases i with _ | i
      · rfl
      · simp [exState] at hi
    subst this
    have : j = 0 := by
      rcases j with _ | j
      · rfl
      · simp [exState] at hj
    subst this
    cases hi; cases hj
    rcases k with _ | _ | k <;> rcases l with _ | _ | l <;> simp at hk hl <;> first | exact ⟨rfl, rfl⟩ | (subst hk hl; simp at e)
  · intro i j k l o o' p p' hi hj hk hl e
    have : i = 0 := by
      rcases i with _ | i
      · rfl
      · simp [exState] at hi
    subst this
    have : j = 0 := by
      rcases j with _ | j
      · rfl
      · simp [exState] at hj
    subst this
    cases hi; cases hj
    rcases k with _ | _ | k <;> rcases l with _ | _ | l <;> simp at hk hl <;> first | exact ⟨rfl, rfl⟩ | (subst hk hl; simp at e)
  · intro o ho p hp
    simp [exState] at ho
    subst ho
    simp at hp
    rcases hp with rfl | rfl <;> simp [exState]

/-- The shape of the source's coordinate (2 × 2) is said to be 4 after a result was made of it. -/
example : ((step exState (.new 0 [9, 9, 9, 9] "m")).heap.mets 1).shape = [4] := by decide

example : (run exState [.copy 0, .write 1 0 2 9, .label 1 1 (fun _ => "radians")]).heap.bufs 0 = [1, 2, 3, 4] := by decide

end Cis.Share
