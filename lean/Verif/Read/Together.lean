import Mathlib.Data.List.Basic
import Mathlib.Data.List.Sort
import Mathlib.Data.List.Flatten
import Mathlib.Data.Rat.Defs
import Mathlib.Algebra.Order.Field.Rat
set_option linter.unusedSectionVars false
set_option linter.unusedSimpArgs false
/-!
Property C118: files read together. Model of `load_cube` and the callbacks that products give to it
(cis/data_io/gridded_data.py:14-36, products/gridded_NetCDF.py:123-141, HadGEM.py:14-22, 101-121, CCI.py:111-129, 141-170), of the names
of PP variables (HadGEM.py:100-121), and of the constructor of gridded data (gridded_data.py:50-70).

A cube is its attributes, everything that must agree between files (names, units, other coordinates), whether time is a dimension, and
one field for each time. Simplified: attributes are listed in one order (a dictionary has none); the other dimensions are longer than one;
the times of a file do not decrease; bounds are left out.
-/
namespace Cis.Together
variable {N V : Type} [DecidableEq N]

/-- One variable of one file, or the result. -/
structure Cube (N V : Type) where
  attrs : List (String × String)
  info : N
  dim : Bool
  fields : List (ℚ × V)

/-- How a read may fail. -/
inductive Err where
  | keyError (k : String)
  | notFound
  | notSingle
deriving DecidableEq

/-- A callback: the attributes that it takes (and needs), those that it removes if they are there, and whether it squeezes. -/
structure Callback where
  need : List String
  drop : List String
  squeeze : Bool

/-- `HadGEM_CONVSH.load_multiple_files_callback` (HadGEM.py:14-22). -/
def hadgem : Callback := ⟨["history"], [], true⟩
/-- `Cloud_CCI_L3.load_multiple_files_callback` (CCI.py:111-129). -/
def cloud : Callback := ⟨["time_coverage_start", "time_coverage_end"], ["number_of_processed_orbits", "id", "tracking_id", "date_created"], false⟩
/-- `Aerosol_CCI_L3.load_multiple_files_callback` (CCI.py:141-170). -/
def aerosol : Callback :=
  ⟨["time_coverage_start", "time_coverage_end"], ["id", "tracking_id", "date_created", "time_coverage_duration", "history", "inputfilelist"], false⟩
/-- The callback of other gridded files, and of single HadGEM files, does nothing (gridded_NetCDF.py:12-22). -/
def nothing : Callback := ⟨[], [], false⟩

/-- A callback on a cube (`attributes.pop`, `iris.util.squeeze`). -/
def Callback.run (cb : Callback) (c : Cube N V) : Except Err (Cube N V) :=
  match cb.need.find? (fun k => !(c.attrs.any (fun a => a.1 == k))) with
  | some k => .error (.keyError k)
  | none => .ok ⟨c.attrs.filter (fun a => !(cb.need.contains a.1 || cb.drop.contains a.1)), c.info,
      c.dim && !(cb.squeeze && c.fields.length == 1), c.fields⟩

/-- The first time. -/
def Cube.first (c : Cube N V) : ℚ := (c.fields.head?.map Prod.fst).getD 0

/-- Times strictly increase. -/
def increasing : List (ℚ × V) → Bool
  | [] => true
  | f :: t => t.all (fun g => decide (f.1 < g.1)) && increasing t

/-- `load_cube` after the callbacks (gridded_data.py:24-36): cubes with a scalar time are merged, cubes with a time dimension are
concatenated; both need equal metadata and distinct times in order. -/
def loadCube : List (Cube N V) → Except Err (Cube N V)
  | [] => .error .notFound
  | [c] => .ok c
  | c :: t =>
    let fs := ((c :: t).insertionSort (fun a b => a.first ≤ b.first)).flatMap (fun d => d.fields)
    if t.all (fun d => decide (d.attrs = c.attrs) && decide (d.info = c.info) && (d.dim == c.dim)) && increasing fs then
      .ok ⟨c.attrs, c.info, true, fs⟩
    else .error .notSingle

/-- Reading: the callback for one file or that for several (gridded_NetCDF.py:123-126), on the cubes of the variable. -/
def read (single multi : Callback) (files : List (Cube N V)) : Except Err (Cube N V) :=
  match files with
  | [f] => (single.run f).bind (fun c => loadCube [c])
  | fs => (fs.mapM multi.run).bind loadCube

/-! ## Specification -/

/-- The times of two files do not overlap. -/
def Spec.Apart (c d : Cube N V) : Prop := (∀ x ∈ c.fields, ∀ y ∈ d.fields, x.1 < y.1) ∨ (∀ x ∈ c.fields, ∀ y ∈ d.fields, y.1 < x.1)

/-- The times of every file increase, and there are some. -/
def Spec.Ordered (c : Cube N V) : Prop := c.fields ≠ [] ∧ c.fields.Pairwise (fun x y => x.1 < y.1)

/-- The attributes of a file that are neither taken nor removed. -/
def Spec.kept (cb : Callback) (c : Cube N V) : List (String × String) := c.attrs.filter (fun a => a.1 ∉ cb.need ∧ a.1 ∉ cb.drop)

/-- The file has the attributes that are needed. -/
def Spec.HasNeeded (cb : Callback) (c : Cube N V) : Prop := ∀ k ∈ cb.need, ∃ v, (k, v) ∈ c.attrs

/-! ## Proofs -/

theorem increasing_iff (l : List (ℚ × V)) : increasing l = true ↔ l.Pairwise (fun x y => x.1 < y.1) := by
  induction l with
  | nil => simp [increasing]
  | cons f t ih =>
    rw [increasing, Bool.and_eq_true, ih, List.pairwise_cons, List.all_eq_true]
    simp

theorem run_ok (cb : Callback) (c d : Cube N V) (h : cb.run c = .ok d) :
    Spec.HasNeeded cb c ∧ d.attrs = Spec.kept cb c ∧ d.info = c.info ∧ d.fields = c.fields ∧
      d.dim = (c.dim && !(cb.squeeze && c.fields.length == 1)) := by
  unfold Callback.run at h
  cases hf : cb.need.find? (fun k => !(c.attrs.any (fun a => a.1 == k))) with
  | some k => rw [hf] at h; cases h
  | none =>
    rw [hf] at h
    cases h
    refine ⟨?_, ?_, rfl, rfl, rfl⟩
    · intro k hk
      have := List.find?_eq_none.1 hf k hk
      simp only [Bool.not_eq_true, Bool.not_eq_false'] at this
      rw [List.any_eq_true] at this
      obtain ⟨a, ha, he⟩ := this
      exact ⟨a.2, by rw [← eq_of_beq he]; exact ha⟩
    · unfold Spec.kept
      apply List.filter_congr
      intro a _
      simp [List.contains_iff_mem]

theorem run_succeeds (cb : Callback) (c : Cube N V) (h : Spec.HasNeeded cb c) : ∃ d, cb.run c = .ok d := by
  unfold Callback.run
  have : cb.need.find? (fun k => !(c.attrs.any (fun a => a.1 == k))) = none := by
    rw [List.find?_eq_none]
    intro k hk
    obtain ⟨v, hv⟩ := h k hk
    simp only [Bool.not_eq_true, Bool.not_eq_false']
    rw [List.any_eq_true]
    exact ⟨(k, v), hv, by simp⟩
  rw [this]
  exact ⟨_, rfl⟩

theorem run_fails (cb : Callback) (c : Cube N V) (h : ¬ Spec.HasNeeded cb c) : ∃ k, cb.run c = .error (.keyError k) := by
  unfold Callback.run
  cases hf : cb.need.find? (fun k => !(c.attrs.any (fun a => a.1 == k))) with
  | some k => exact ⟨k, rfl⟩
  | none =>
    exfalso
    apply h
    exact (run_ok cb c ⟨c.attrs.filter (fun a => !(cb.need.contains a.1 || cb.drop.contains a.1)), c.info,
      c.dim && !(cb.squeeze && c.fields.length == 1), c.fields⟩ (by unfold Callback.run; rw [hf])).1

theorem mapM_ok {A B E : Type} (f : A → Except E B) (l : List A) (r : List B) (h : l.mapM f = .ok r) :
    List.Forall₂ (fun a b => f a = .ok b) l r := by
  induction l generalizing r with
  | nil => cases h; exact .nil
  | cons a t ih =>
    rw [List.mapM_cons] at h
    cases ha : f a with
    | error e => rw [ha] at h; cases h
    | ok b =>
      rw [ha] at h
      cases ht : t.mapM f with
      | error e => rw [ht] at h; cases h
      | ok s =>
        rw [ht] at h
        cases h
        exact .cons ha (ih s ht)

theorem mapM_succeeds {A B E : Type} (f : A → Except E B) (l : List A) (h : ∀ a ∈ l, ∃ b, f a = .ok b) : ∃ r, l.mapM f = .ok r := by
  induction l with
  | nil => exact ⟨[], rfl⟩
  | cons a t ih =>
    obtain ⟨b, hb⟩ := h a List.mem_cons_self
    obtain ⟨r, hr⟩ := ih (fun x hx => h x (List.mem_cons_of_mem _ hx))
    exact ⟨b :: r, by rw [List.mapM_cons, hb, hr]; rfl⟩

theorem mapM_error {A B E : Type} (f : A → Except E B) (l : List A) (P : E → Prop) (hall : ∀ a ∈ l, ∀ e, f a = .error e → P e)
    (h : ∃ a ∈ l, ∃ e, f a = .error e) : ∃ e, l.mapM f = .error e ∧ P e := by
  induction l with
  | nil => obtain ⟨a, ha, _⟩ := h; cases ha
  | cons a t ih =>
    rw [List.mapM_cons]
    cases ha : f a with
    | error e => exact ⟨e, rfl, hall a List.mem_cons_self e ha⟩
    | ok b =>
      obtain ⟨x, hx, e, he⟩ := h
      rcases List.mem_cons.1 hx with rfl | hx
      · rw [ha] at he; cases he
      · obtain ⟨e', h1, h2⟩ := ih (fun y hy => hall y (List.mem_cons_of_mem _ hy)) ⟨x, hx, e, he⟩
        exact ⟨e', by rw [h1]; rfl, h2⟩

theorem load_ok (cs : List (Cube N V)) (r : Cube N V) (h : loadCube cs = .ok r) :
    r.fields.Perm (cs.flatMap (fun c => c.fields)) ∧ (∀ c ∈ cs, c.attrs = r.attrs ∧ c.info = r.info) ∧
      (2 ≤ cs.length → r.dim = true ∧ r.fields.Pairwise (fun x y => x.1 < y.1) ∧ ∀ c ∈ cs, ∀ d ∈ cs, c.dim = d.dim) := by
  match cs, h with
  | [c], h =>
    cases h
    refine ⟨by simp, by simp, by simp⟩
  | c :: d :: t, h =>
    unfold loadCube at h
    simp only at h
    split at h
    · rename_i hc
      cases h
      rw [Bool.and_eq_true, increasing_iff, List.all_eq_true] at hc
      refine ⟨?_, ?_, fun _ => ⟨rfl, hc.2, ?_⟩⟩
      · exact (List.perm_insertionSort _ _).flatMap_right _
      · intro x hx
        rcases List.mem_cons.1 hx with rfl | hx
        · exact ⟨rfl, rfl⟩
        · have := hc.1 x hx
          simp only [Bool.and_eq_true, decide_eq_true_eq] at this
          exact ⟨this.1.1, this.1.2⟩
      · have key : ∀ x ∈ c :: d :: t, x.dim = c.dim := by
          intro x hx
          rcases List.mem_cons.1 hx with rfl | hx
          · rfl
          · have := hc.1 x hx
            simp only [Bool.and_eq_true, decide_eq_true_eq, beq_iff_eq] at this
            exact this.2
        intro x hx y hy
        rw [key x hx, key y hy]
    · cases h

theorem first_mem (c : Cube N V) (h : c.fields ≠ []) : ∃ f ∈ c.fields, c.first = f.1 := by
  unfold Cube.first
  cases hc : c.fields with
  | nil => exact absurd hc h
  | cons f t => exact ⟨f, List.mem_cons_self, rfl⟩

theorem load_succeeds (cs : List (Cube N V)) (hne : cs ≠ []) (ho : ∀ c ∈ cs, Spec.Ordered c) (ha : cs.Pairwise Spec.Apart)
    (hm : ∀ c ∈ cs, ∀ d ∈ cs, c.attrs = d.attrs ∧ c.info = d.info ∧ c.dim = d.dim) : ∃ r, loadCube cs = .ok r := by
  match cs, hne with
  | [c], _ => exact ⟨c, rfl⟩
  | c :: d :: t, _ =>
    unfold loadCube
    simp only
    rw [if_pos]
    · exact ⟨_, rfl⟩
    · rw [Bool.and_eq_true, increasing_iff, List.all_eq_true]
      constructor
      · intro x hx
        obtain ⟨h1, h2, h3⟩ := hm x (List.mem_cons_of_mem _ hx) c List.mem_cons_self
        simp [h1, h2, h3]
      · rw [List.pairwise_flatMap]
        have hp := List.perm_insertionSort (fun a b : Cube N V => a.first ≤ b.first) (c :: d :: t)
        constructor
        · intro x hx
          exact (ho x (hp.mem_iff.1 hx)).2
        · have hs : ((c :: d :: t).insertionSort (fun a b => a.first ≤ b.first)).Pairwise (fun a b => a.first ≤ b.first) := by
            haveI : Std.Total (fun a b : Cube N V => a.first ≤ b.first) := ⟨fun a b => le_total _ _⟩
            haveI : IsTrans (Cube N V) (fun a b => a.first ≤ b.first) := ⟨fun a b c => le_trans⟩
            exact List.pairwise_insertionSort _ _
          have hsym : ∀ {x y : Cube N V}, Spec.Apart x y → Spec.Apart y x := by
            intro x y h
            rcases h with h | h
            · exact .inr (fun a ha b hb => h b hb a ha)
            · exact .inl (fun a ha b hb => h b hb a ha)
          have ha' := (hp.pairwise_iff hsym).2 ha
          have hb := List.pairwise_and_iff.2 ⟨hs, ha'⟩
          refine hb.imp_of_mem ?_
          intro x y hx hy h a ha b hb
          rcases h.2 with h' | h'
          · exact h' a ha b hb
          · exfalso
            obtain ⟨f, hf, ef⟩ := first_mem x (ho x (hp.mem_iff.1 hx)).1
            obtain ⟨g, hg, eg⟩ := first_mem y (ho y (hp.mem_iff.1 hy)).1
            have h1 := h' f hf g hg
            have h2 := h.1
            rw [ef, eg] at h2
            exact absurd h1 (not_lt.2 h2)

theorem forall2_flatMap {A B C : Type} (l : List A) (r : List B) (f : A → List C) (g : B → List C)
    (h : List.Forall₂ (fun a b => g b = f a) l r) : r.flatMap g = l.flatMap f := by
  induction h with
  | nil => rfl
  | cons h _ ih => rw [List.flatMap_cons, List.flatMap_cons, h, ih]

theorem read_many (single multi : Callback) (files : List (Cube N V)) (h : files.length ≠ 1) :
    read single multi files = (files.mapM multi.run).bind loadCube := by
  match files, h with
  | [], _ => rfl
  | a :: b :: t, _ => rfl

/-- C118: files read together give every field of every file, once, in the order of time, with the names, units and coordinates of all. -/
theorem c118_fields (single multi : Callback) (files : List (Cube N V)) (r : Cube N V) (h : read single multi files = .ok r) :
    r.fields.Perm (files.flatMap (fun f => f.fields)) ∧ (∀ f ∈ files, f.info = r.info) ∧
      (2 ≤ files.length → r.fields.Pairwise (fun x y => x.1 < y.1) ∧ ∀ f ∈ files, Spec.kept multi f = r.attrs) ∧
      (∀ f, files = [f] → r.fields = f.fields ∧ r.attrs = Spec.kept single f) := by
  by_cases hl : files.length = 1
  · obtain ⟨f, rfl⟩ := List.length_eq_one_iff.1 hl
    unfold read at h
    simp only at h
    cases hr : single.run f with
    | error e => rw [hr] at h; cases h
    | ok c =>
      rw [hr] at h
      cases h
      obtain ⟨_, h2, h3, h4, _⟩ := run_ok single f r hr
      refine ⟨by simp [h4], ?_, by simp, ?_⟩
      · intro g hg
        rw [List.mem_singleton] at hg
        rw [hg, h3]
      · intro g hg
        cases hg
        exact ⟨h4, h2⟩
  · rw [read_many single multi files hl] at h
    cases hm : files.mapM multi.run with
    | error e => rw [hm] at h; cases h
    | ok cs =>
      rw [hm] at h
      have hf := mapM_ok _ _ _ hm
      obtain ⟨l1, l2, l3⟩ := load_ok cs r h
      have hfields : cs.flatMap (fun c => c.fields) = files.flatMap (fun c => c.fields) := by
        apply forall2_flatMap
        exact hf.imp (fun a b hab => (run_ok multi a b hab).2.2.2.1)
      have hlen : files.length = cs.length := hf.length_eq
      have hmem : ∀ f ∈ files, ∃ c ∈ cs, multi.run f = .ok c := by
        intro f hfm
        obtain ⟨i, hi, rfl⟩ := List.getElem_of_mem hfm
        have hi' : i < cs.length := by omega
        exact ⟨cs[i], List.getElem_mem _, hf.get hi hi'⟩
      refine ⟨hfields ▸ l1, ?_, ?_, ?_⟩
      · intro f hfm
        obtain ⟨c, hc, hr⟩ := hmem f hfm
        rw [← (l2 c hc).2, (run_ok multi f c hr).2.2.1]
      · intro h2
        refine ⟨(l3 (by omega)).2.1, ?_⟩
        intro f hfm
        obtain ⟨c, hc, hr⟩ := hmem f hfm
        rw [← (l2 c hc).1, (run_ok multi f c hr).2.1]
      · intro f hfe
        rw [hfe] at hl
        exact absurd rfl hl

/-- C118: what the product of CCI clouds needs and removes when several files are read together: the times of the coverage must be there. -/
theorem c118_cloud (c d : Cube N V) : cloud.run c = .ok d ↔
    "time_coverage_start" ∈ c.attrs.map Prod.fst ∧ "time_coverage_end" ∈ c.attrs.map Prod.fst ∧
      d = { c with attrs := c.attrs.filter (fun a => a.1 ∉ ["time_coverage_start", "time_coverage_end", "number_of_processed_orbits", "id", "tracking_id", "date_created"]) } := by
  constructor
  · intro h
    obtain ⟨h1, h2, h3, h4, h5⟩ := run_ok _ c d h
    obtain ⟨v, hv⟩ := h1 "time_coverage_start" (by simp [cloud])
    obtain ⟨w, hw⟩ := h1 "time_coverage_end" (by simp [cloud])
    refine ⟨List.mem_map_of_mem (f := Prod.fst) hv, List.mem_map_of_mem (f := Prod.fst) hw, ?_⟩
    obtain ⟨da, di, dd, df⟩ := d
    dsimp only at h2 h3 h4 h5 ⊢
    rw [h2, h3, h4, h5]
    congr 1
    · unfold Spec.kept
      apply List.filter_congr
      intro a _
      simp [cloud, Bool.and_assoc]
    · simp [cloud]
  · rintro ⟨h1, h2, rfl⟩
    obtain ⟨v, hv, hv'⟩ := List.mem_map.1 h1
    obtain ⟨w, hw, hw'⟩ := List.mem_map.1 h2
    obtain ⟨d, hd⟩ := run_succeeds cloud c (fun k hk => by
      simp only [cloud, List.mem_cons, List.not_mem_nil, or_false] at hk
      rcases hk with rfl | rfl
      · exact ⟨v.2, by rw [← hv']; exact hv⟩
      · exact ⟨w.2, by rw [← hw']; exact hw⟩)
    obtain ⟨-, k2, k3, k4, k5⟩ := run_ok _ c d hd
    rw [hd]
    obtain ⟨da, di, dd, df⟩ := d
    dsimp only at k2 k3 k4 k5 ⊢
    rw [k2, k3, k4, k5]
    congr 2
    · unfold Spec.kept
      apply List.filter_congr
      intro a _
      simp [cloud, Bool.and_assoc]
    · simp [cloud]

/-- C118: what the product of CCI aerosol needs and removes when several files are read together: the times of the coverage must be there. -/
theorem c118_aerosol (c d : Cube N V) : aerosol.run c = .ok d ↔
    "time_coverage_start" ∈ c.attrs.map Prod.fst ∧ "time_coverage_end" ∈ c.attrs.map Prod.fst ∧
      d = { c with attrs := c.attrs.filter (fun a => a.1 ∉ ["time_coverage_start", "time_coverage_end", "id", "tracking_id", "date_created", "time_coverage_duration",
        "history", "inputfilelist"]) } := by
  constructor
  · intro h
    obtain ⟨h1, h2, h3, h4, h5⟩ := run_ok _ c d h
    obtain ⟨v, hv⟩ := h1 "time_coverage_start" (by simp [aerosol])
    obtain ⟨w, hw⟩ := h1 "time_coverage_end" (by simp [aerosol])
    refine ⟨List.mem_map_of_mem (f := Prod.fst) hv, List.mem_map_of_mem (f := Prod.fst) hw, ?_⟩
    obtain ⟨da, di, dd, df⟩ := d
    dsimp only at h2 h3 h4 h5 ⊢
    rw [h2, h3, h4, h5]
    congr 1
    · unfold Spec.kept
      apply List.filter_congr
      intro a _
      simp [aerosol, Bool.and_assoc]
    · simp [aerosol]
  · rintro ⟨h1, h2, rfl⟩
    obtain ⟨v, hv, hv'⟩ := List.mem_map.1 h1
    obtain ⟨w, hw, hw'⟩ := List.mem_map.1 h2
    obtain ⟨d, hd⟩ := run_succeeds aerosol c (fun k hk => by
      simp only [aerosol, List.mem_cons, List.not_mem_nil, or_false] at hk
      rcases hk with rfl | rfl
      · exact ⟨v.2, by rw [← hv']; exact hv⟩
      · exact ⟨w.2, by rw [← hw']; exact hw⟩)
    obtain ⟨-, k2, k3, k4, k5⟩ := run_ok _ c d hd
    rw [hd]
    obtain ⟨da, di, dd, df⟩ := d
    dsimp only at k2 k3 k4 k5 ⊢
    rw [k2, k3, k4, k5]
    congr 2
    · unfold Spec.kept
      apply List.filter_congr
      intro a _
      simp [aerosol, Bool.and_assoc]
    · simp [aerosol]

/-- C118: several files can be read together if they have the attributes that are needed, agree in all others but those that are removed,
do not overlap, and either all have one time or none has. -/
theorem c118_succeeds (single multi : Callback) (files : List (Cube N V)) (h2 : 2 ≤ files.length)
    (hn : ∀ f ∈ files, Spec.HasNeeded multi f) (ho : ∀ f ∈ files, Spec.Ordered f) (ha : files.Pairwise Spec.Apart)
    (hm : ∀ f ∈ files, ∀ g ∈ files, Spec.kept multi f = Spec.kept multi g ∧ f.info = g.info ∧ f.dim = g.dim ∧
      (f.fields.length = 1 ↔ g.fields.length = 1)) : ∃ r, read single multi files = .ok r := by
  rw [read_many single multi files (by omega)]
  obtain ⟨cs, hcs⟩ := mapM_succeeds multi.run files (fun f hf => run_succeeds multi f (hn f hf))
  rw [hcs]
  have hf := mapM_ok _ _ _ hcs
  have hlen : files.length = cs.length := hf.length_eq
  have hback : ∀ c ∈ cs, ∃ f ∈ files, multi.run f = .ok c := by
    intro c hc
    obtain ⟨i, hi, rfl⟩ := List.getElem_of_mem hc
    have hi' : i < files.length := by omega
    exact ⟨files[i], List.getElem_mem _, hf.get hi' hi⟩
  apply load_succeeds
  · intro e; rw [e] at hlen; simp only [List.length_nil] at hlen; omega
  · intro c hc
    obtain ⟨f, hfm, hr⟩ := hback c hc
    have := ho f hfm
    unfold Spec.Ordered at *
    rw [(run_ok multi f c hr).2.2.2.1]
    exact this
  · rw [List.pairwise_iff_getElem] at ha ⊢
    intro i j hi hj hij
    have e := ha i j (by omega) (by omega) hij
    have e1 := (run_ok multi _ _ (hf.get (by omega) hi)).2.2.2.1
    have e2 := (run_ok multi _ _ (hf.get (by omega) hj)).2.2.2.1
    simp only [List.get_eq_getElem] at e1 e2
    unfold Spec.Apart at *
    rw [e1, e2]
    exact e
  · intro c hc d hd
    obtain ⟨f, hfm, hr⟩ := hback c hc
    obtain ⟨g, hgm, hs⟩ := hback d hd
    obtain ⟨_, a1, a2, _, a4⟩ := run_ok multi f c hr
    obtain ⟨_, b1, b2, _, b4⟩ := run_ok multi g d hs
    obtain ⟨m1, m2, m3, m4⟩ := hm f hfm g hgm
    refine ⟨by rw [a1, b1, m1], by rw [a2, b2, m2], ?_⟩
    rw [a4, b4, m3]
    by_cases hg1 : g.fields.length = 1
    · simp [hg1, m4.2 hg1]
    · have : ¬ f.fields.length = 1 := fun e => hg1 (m4.1 e)
      have e1 : (g.fields.length == 1) = false := by simpa using hg1
      have e2 : (f.fields.length == 1) = false := by simpa using this
      rw [e1, e2]

/-- C118 violated: several HadGEM files of which one has no `history` attribute are refused with a KeyError, whatever else. -/
theorem c118_history_violated (files : List (Cube N V)) (h2 : 2 ≤ files.length)
    (h : ∃ f ∈ files, ∀ v, ("history", v) ∉ f.attrs) : read nothing hadgem files = .error (.keyError "history") := by
  rw [read_many _ _ _ (by omega)]
  obtain ⟨f, hf, hv⟩ := h
  have hneed : ¬ Spec.HasNeeded hadgem f := by
    intro hn
    obtain ⟨v, hv'⟩ := hn "history" (by simp [hadgem])
    exact hv v hv'
  obtain ⟨e, h1, h2⟩ := mapM_error (hadgem.run) files (fun e => e = .keyError "history")
    (by
      intro a _ e he
      unfold Callback.run at he
      cases hk : hadgem.need.find? (fun k => !(a.attrs.any (fun x => x.1 == k))) with
      | none => rw [hk] at he; cases he
      | some k =>
        rw [hk] at he
        cases he
        have := List.mem_of_find?_eq_some hk
        simp [hadgem] at this
        rw [this])
    (by obtain ⟨k, hk⟩ := run_fails hadgem f hneed; exact ⟨f, hf, _, hk⟩)
  rw [h1, h2]
  rfl

/-- C118 violated: HadGEM files of which one has one time and another has several cannot be read together, however well they agree. -/
theorem c118_mixed_violated (files : List (Cube N V)) (f g : Cube N V) (hf : f ∈ files) (hg : g ∈ files) (h1 : f.fields.length = 1)
    (h2 : g.fields.length ≠ 1) (hd : g.dim = true) (r : Cube N V) : read nothing hadgem files ≠ .ok r := by
  intro h
  have hl : 2 ≤ files.length := by
    match files, hf, hg with
    | [x], hf, hg =>
      rw [List.mem_singleton] at hf hg
      rw [hf] at h1; rw [hg] at h2
      exact absurd h1 h2
    | _ :: _ :: _, _, _ => simp
  rw [read_many _ _ _ (by omega)] at h
  cases hm : files.mapM (hadgem.run) with
  | error e => rw [hm] at h; cases h
  | ok cs =>
    rw [hm] at h
    have hfa := mapM_ok _ _ _ hm
    have hlen : files.length = cs.length := hfa.length_eq
    have hmem : ∀ f ∈ files, ∃ c ∈ cs, hadgem.run f = .ok c := by
      intro f hfm
      obtain ⟨i, hi, rfl⟩ := List.getElem_of_mem hfm
      have hi' : i < cs.length := by omega
      exact ⟨cs[i], List.getElem_mem _, hfa.get hi hi'⟩
    obtain ⟨c, hc, hcr⟩ := hmem f hf
    obtain ⟨d, hd', hdr⟩ := hmem g hg
    have := ((load_ok cs r h).2.2 (by omega)).2.2 c hc d hd'
    rw [(run_ok _ _ _ hcr).2.2.2.2, (run_ok _ _ _ hdr).2.2.2.2] at this
    simp [hadgem, h1, h2, hd] at this

/-- C118 violated: of files read together the history of none is kept. -/
theorem c118_history_lost_violated (files : List (Cube N V)) (h2 : 2 ≤ files.length) (r : Cube N V) (h : read nothing hadgem files = .ok r)
    (v : String) : ("history", v) ∉ r.attrs := by
  obtain ⟨_, _, h3, _⟩ := c118_fields _ _ _ _ h
  obtain ⟨f, hf⟩ : ∃ f, f ∈ files := by
    cases files with
    | nil => simp at h2
    | cons a t => exact ⟨a, List.mem_cons_self⟩
  rw [← (h3 h2).2 f hf]
  unfold Spec.kept
  simp [hadgem]

/-- C118 violated: other gridded files with different histories (or any other attribute) cannot be read together. -/
theorem c118_attributes_violated (files : List (Cube N V)) (f g : Cube N V) (hf : f ∈ files) (hg : g ∈ files) (hne : f.attrs ≠ g.attrs)
    (r : Cube N V) : read nothing nothing files ≠ .ok r := by
  intro h
  obtain ⟨_, _, h3, _⟩ := c118_fields _ _ _ _ h
  have hl : 2 ≤ files.length := by
    match files, hf, hg with
    | [x], hf, hg => rw [List.mem_singleton] at hf hg; rw [hf, hg] at hne; exact absurd rfl hne
    | _ :: _ :: _, _, _ => simp
  have e : ∀ c : Cube N V, Spec.kept nothing c = c.attrs := by intro c; simp [Spec.kept, nothing]
  have h1 := (h3 hl).2 f hf
  have h2 := (h3 hl).2 g hg
  rw [e] at h1 h2
  exact hne (h1.trans h2.symm)

/-! ## Names of PP variables -/

/-- The names of a cube. -/
structure Names where
  std : Option String
  long : Option String
  var : Option String
deriving DecidableEq

/-- `Cube.name()`. -/
def Names.name (n : Names) : String := ((n.std.or n.long).or n.var).getD "unknown"

/-- What iris takes for `var_name`: a word. -/
def validVar (s : String) : Bool := !s.toList.isEmpty && s.toList.all (fun c => !c.isWhitespace)

/-- `name.replace(' ', '_')`. -/
def underscored (s : String) : String := String.ofList (s.toList.map (fun c => if c = ' ' then '_' else c))

/-- `HadGEM_PP.load_multiple_files_callback` (HadGEM.py:100-108). -/
def ppMulti (n : Names) : Names := if validVar n.name then ⟨n.std, n.long, some n.name⟩ else n

/-- `HadGEM_PP.load_single_file_callback` (HadGEM.py:110-121). -/
def ppSingle (n : Names) : Names :=
  if validVar n.name then ⟨n.std, n.long, some n.name⟩
  else if validVar (underscored n.name) then ⟨n.std, n.long, some (underscored n.name)⟩ else n

/-- The constraint by which a variable is found (gridded_NetCDF.py:118-122). -/
def found (v : String) (n : Names) : Bool := n.var == some v || n.std == some v || n.long == some v

theorem valid_unknown : validVar "unknown" = true := by decide

theorem found_name (n m : Names) (h1 : m.std = n.std) (h2 : m.long = n.long) (hv : n.var = none)
    (h3 : validVar n.name = true → m.var = some n.name) : found n.name m = true := by
  unfold found
  rw [h1, h2]
  cases hs : n.std with
  | some s => simp [Names.name, hs]
  | none =>
    cases hl : n.long with
    | some l => simp [Names.name, hs, hl]
    | none =>
      have e : n.name = "unknown" := by simp [Names.name, hs, hl, hv]
      rw [h3 (by rw [e]; exact valid_unknown)]
      simp

/-- C118: a PP variable is found under the name listed for it, in one file and in several. -/
theorem c118_pp_found (n : Names) (hv : n.var = none) : found n.name (ppSingle n) = true ∧ found n.name (ppMulti n) = true := by
  constructor
  · refine found_name n _ ?_ ?_ hv ?_
    · unfold ppSingle; split <;> [rfl; (split <;> rfl)]
    · unfold ppSingle; split <;> [rfl; (split <;> rfl)]
    · intro h; unfold ppSingle; rw [if_pos h]
  · refine found_name n _ ?_ ?_ hv ?_
    · unfold ppMulti; split <;> rfl
    · unfold ppMulti; split <;> rfl
    · intro h; unfold ppMulti; rw [if_pos h]

/-- C118: in one file it gets its name as the name of the output variable, blanks replaced by underscores, if that is a word. -/
theorem c118_pp_var (n : Names) (h : validVar (underscored n.name) = true) : (ppSingle n).var = some (underscored n.name) := by
  unfold ppSingle
  by_cases hv : validVar n.name = true
  · rw [if_pos hv]
    show some _ = some _
    congr 1
    unfold validVar at hv
    rw [Bool.and_eq_true, List.all_eq_true] at hv
    unfold underscored
    have : n.name.toList.map (fun c => if c = ' ' then '_' else c) = n.name.toList := by
      conv_rhs => rw [← List.map_id n.name.toList]
      apply List.map_congr_left
      intro c hc
      have := hv.2 c hc
      have : c ≠ ' ' := by rintro rfl; revert this; decide
      simp [this]
    rw [this]
    simp
  · rw [if_neg hv, if_pos h]

/-- C118 violated: in several files a name with a blank is not replaced, so the name under which the variable is found in one file (and
under which its output is written) is not one in several. -/
theorem c118_pp_blank_violated (n : Names) (hv : n.var = none) (hb : ' ' ∈ n.name.toList) (hw : validVar (underscored n.name) = true) :
    (ppMulti n).var = none ∧ found (underscored n.name) (ppSingle n) = true := by
  have hnv : validVar n.name = false := by
    unfold validVar
    rw [Bool.and_eq_false_iff]
    right
    rw [← Bool.not_eq_true, List.all_eq_true]
    intro h
    have := h ' ' hb
    revert this
    decide
  constructor
  · unfold ppMulti
    rw [if_neg (by rw [hnv]; decide)]
    exact hv
  · unfold found
    rw [c118_pp_var n hw]
    simp

/-! ## The constructor of gridded data -/

/-- How the constructor may fail. -/
inductive CErr where
  | value
  | key (k : String)
deriving DecidableEq

/-- `iris.cube.Cube(...)`: refused with ValueError if the units are not units or something else is wrong. -/
def irisCube {U : Type} (unitOk : U → Bool) (restOk : Bool) (std : Option String) (units : Option U) :
    Except CErr (Option String × Option U) :=
  if restOk && units.all unitOk then .ok (std, units) else .error .value

/-- `GriddedData.__init__` (gridded_data.py:50-70). -/
def construct {U : Type} (stdOk : String → Bool) (unitOk : U → Bool) (restOk : Bool) (std : Option String) (units : Option U) :
    Except CErr (Option String × Option U) :=
  let std' := std.filter stdOk
  match irisCube unitOk restOk std' units with
  | .ok r => .ok r
  | .error _ => match units with
    | none => .error (.key "units")
    | some _ => irisCube unitOk restOk std' none

/-- C118: gridded data keep their standard name exactly if it is one and their units exactly if they are units; nothing else that is wrong
is accepted. -/
theorem c118_construct {U : Type} (stdOk : String → Bool) (unitOk : U → Bool) (std : Option String) (units : Option U) :
    construct stdOk unitOk true std units = .ok (std.filter stdOk, units.filter unitOk) ∧
      ∀ r, construct stdOk unitOk false std units ≠ .ok r := by
  constructor
  · unfold construct irisCube
    cases units with
    | none => rfl
    | some u => cases hu : unitOk u <;> simp [hu, Option.filter]
  · intro r
    unfold construct irisCube
    cases units with
    | none => simp
    | some u => simp

/-- C118 violated: what is wrong is reported as a missing key `units` if no units are given. -/
theorem c118_construct_violated {U : Type} (stdOk : String → Bool) (unitOk : U → Bool) (std : Option String) :
    construct stdOk unitOk false std none = .error (.key "units") := rfl

/-! ## Examples -/

def exA : Cube String Nat := ⟨[("history", "x"), ("model", "um")], "t", true, [(3, 30)]⟩
def exB : Cube String Nat := ⟨[("history", "y"), ("model", "um")], "t", true, [(1, 10)]⟩
def exC : Cube String Nat := ⟨[("history", "y"), ("model", "um")], "t", true, [(5, 50), (6, 60)]⟩
def exD : Cube String Nat := ⟨[("model", "um")], "t", true, [(7, 70)]⟩

example : (read nothing hadgem [exA, exB]).toOption.map (fun c => c.fields) = some [(1, 10), (3, 30)] := by decide +kernel
example : (read nothing hadgem [exA, exC]).toOption.isNone = true := by decide +kernel
example : read nothing hadgem [exA, exD] = .error (.keyError "history") :=
  c118_history_violated _ (by decide) ⟨exD, by simp, by intro v; simp [exD]⟩
example : Spec.HasNeeded hadgem exA ∧ Spec.Ordered exA ∧ Spec.Apart exA exB := by
  refine ⟨?_, ⟨by simp [exA], by simp [exA]⟩, .inr (by simp [exA, exB])⟩
  intro k hk
  simp [hadgem] at hk
  subst hk
  exact ⟨"x", by simp [exA]⟩
example : (ppSingle ⟨none, some "mass of dust", none⟩).var = some "mass_of_dust" := by decide +kernel
example : ' ' ∈ (⟨none, some "mass of dust", none⟩ : Names).name.toList := by decide
example : construct (fun s => s == "time") (fun n : Nat => n < 5) true (some "tim") (some 7) = .ok (none, none) := rfl

end Cis.Together
