import Mathlib.Logic.Function.Basic
import Mathlib.Data.List.Nodup
set_option linter.unusedSectionVars false
set_option linter.unusedSimpArgs false
/-!
The names of the files that data come from. Model of `CommonData.filenames` (cis/data_io/common_data.py:10, one list for the class),
`CommonDataList.filenames` (common_data.py:331-347), their use by `DataReader.read_data_list` (data_reader.py:81-101) and in the history of
collocated (collocation/col.py:38-46), aggregated (ungridded_data.py:1305-1317) and collapsed data (gridded_data.py:642-653). Property C109.

A state has the list objects by address, and for each data object the address of the list that is its own attribute, if it has one;
otherwise Python finds the list of the class, which is at address 0. Data objects made by a constructor (all results of collocation,
aggregation, collapsing, subsetting and arithmetic) have no attribute of their own.
-/
namespace Cis.Files
variable {F : Type}

structure St (F : Type) where
  heap : Nat → List F
  attr : Nat → Option Nat
  /-- Data objects from this number on have not been made. -/
  objs : Nat
  /-- List objects from this address on have not been made. -/
  next : Nat

/-- The beginning of the program: the list of the class is empty (common_data.py:10). -/
def St.init : St F := ⟨fun _ => [], fun _ => none, 0, 1⟩

/-- The list object which `data.filenames` denotes. -/
def St.addr (σ : St F) (v : Nat) : Nat := (σ.attr v).getD 0

/-- `data.filenames`. -/
def St.files (σ : St F) (v : Nat) : List F := σ.heap (σ.addr v)

/-- `data_list.filenames` (common_data.py:331-339). -/
def St.listFiles (σ : St F) (vs : List Nat) : List F := vs.flatMap σ.files

/-- What a program does to file names. -/
inductive Op (F : Type)
  /-- A new data object by a constructor. -/
  | make
  /-- `read_data_list(files, variables)` of `cis` with `n` variables found (cis/__init__.py:64-70, data_reader.py:81-101): one list object. -/
  | read (files : List F) (n : Nat)
  /-- `data.filenames = [...]` for one data object. -/
  | assign (v : Nat) (files : List F)
  /-- `data_list.filenames = [...]` (common_data.py:341-347). -/
  | setList (vs : List Nat) (files : List F)

/-- `data.filenames.extend(names)`. -/
def extend (files : List F) (σ : St F) (v : Nat) : St F :=
  { σ with heap := Function.update σ.heap (σ.addr v) (σ.files v ++ files) }

def step (σ : St F) : Op F → St F
  | .make => { σ with objs := σ.objs + 1 }
  | .read files n =>
    ⟨Function.update σ.heap σ.next files, fun v => if σ.objs ≤ v ∧ v < σ.objs + n then some σ.next else σ.attr v, σ.objs + n, σ.next + 1⟩
  | .assign v files => ⟨Function.update σ.heap σ.next files, Function.update σ.attr v (some σ.next), σ.objs, σ.next + 1⟩
  | .setList vs files => vs.foldl (extend files) σ

def run (σ : St F) (ops : List (Op F)) : St F := ops.foldl step σ

/-- The file names in the history of the result of a collocation (col.py:38-46): of the sample and of the data. -/
def collocateHistory (σ : St F) (sample : Nat) (data : List Nat) : List F × List F := (σ.files sample, σ.listFiles data)

/-- The file names in the history of an aggregation (ungridded_data.py:1305-1310). -/
def aggregateHistory (σ : St F) (data : List Nat) : List F := σ.listFiles data

/-- The file names in the history of a collapse (gridded_data.py:642-653): when the text is made, `data` is already the list of the
`n` results. -/
def collapseHistory (σ : St F) (_data : Nat) (n : Nat) : List F :=
  (run σ (List.replicate n .make)).listFiles ((List.range n).map (σ.objs + ·))

/-! ## Specification: each data object has its own file names -/

structure Spec.Names (F : Type) where
  files : Nat → List F
  objs : Nat

def Spec.init : Spec.Names F := ⟨fun _ => [], 0⟩

def Spec.step (s : Spec.Names F) : Op F → Spec.Names F
  | .make => { s with objs := s.objs + 1 }
  | .read files n => ⟨fun v => if s.objs ≤ v ∧ v < s.objs + n then files else s.files v, s.objs + n⟩
  | .assign v files => { s with files := Function.update s.files v files }
  | .setList vs files => { s with files := fun v => if v ∈ vs then s.files v ++ files else s.files v }

def Spec.run (s : Spec.Names F) (ops : List (Op F)) : Spec.Names F := ops.foldl Spec.step s

/-- The operations refer to existing data only, and names are added only to variables each of which has a list object of its own,
that no other data object refers to. -/
def Spec.Alone : St F → List (Op F) → Prop
  | _, [] => True
  | σ, op :: ops =>
    (match op with
      | .make => True
      | .read _ _ => True
      | .assign v _ => v < σ.objs
      | .setList vs _ => vs.Nodup ∧ ∀ v ∈ vs, v < σ.objs ∧ ∃ a, σ.attr v = some a ∧ ∀ w, w ≠ v → σ.attr w ≠ some a) ∧
    Spec.Alone (Files.step σ op) ops

/-! ## Proofs -/

theorem extend_attr (files : List F) (σ : St F) (v : Nat) : (extend files σ v).attr = σ.attr := rfl
theorem extend_objs (files : List F) (σ : St F) (v : Nat) : (extend files σ v).objs = σ.objs := rfl
theorem extend_next (files : List F) (σ : St F) (v : Nat) : (extend files σ v).next = σ.next := rfl

theorem fold_fields (files : List F) : ∀ (vs : List Nat) (σ : St F),
    (vs.foldl (extend files) σ).attr = σ.attr ∧ (vs.foldl (extend files) σ).objs = σ.objs ∧ (vs.foldl (extend files) σ).next = σ.next := by
  intro vs
  induction vs with
  | nil => intro σ; exact ⟨rfl, rfl, rfl⟩
  | cons v vs ih => intro σ; exact ih _

theorem fold_heap (files : List F) (a : Nat) : ∀ (vs : List Nat) (σ : St F),
    (vs.foldl (extend files) σ).heap a = σ.heap a ++ (List.replicate (vs.countP (fun v => σ.addr v = a)) files).flatten := by
  intro vs
  induction vs with
  | nil => intro σ; simp
  | cons v vs ih =>
    intro σ
    rw [List.foldl_cons, ih]
    have ha : ∀ w, (extend files σ v).addr w = σ.addr w := fun w => rfl
    simp only [ha]
    rw [List.countP_cons]
    by_cases h : σ.addr v = a
    · have e : (extend files σ v).heap a = σ.heap a ++ files := by
        unfold extend St.files
        simp only [h, Function.update_self]
      rw [e]
      simp [h, List.replicate_succ]
    · have e : (extend files σ v).heap a = σ.heap a := by
        unfold extend
        simp only [Function.update_apply]
        rw [if_neg (fun e => h e.symm)]
      rw [e]
      simp [h]

/-- C109, exactly what adding names to a list of variables does: the names of any data object, in the list or not, are followed by the
new ones as many times as there are variables in the list that refer to the same list object. -/
theorem c109_setter_exact (σ : St F) (vs : List Nat) (files : List F) (w : Nat) :
    (step σ (.setList vs files)).files w = σ.files w ++ (List.replicate (vs.countP (fun v => σ.addr v = σ.addr w)) files).flatten := by
  have h := fold_fields files vs σ
  show (vs.foldl (extend files) σ).heap ((vs.foldl (extend files) σ).addr w) = _
  have ha : (vs.foldl (extend files) σ).addr w = σ.addr w := by unfold St.addr; rw [h.1]
  rw [ha, fold_heap]
  rfl

/-- The relation of the program to the specification. -/
structure Rel (σ : St F) (s : Spec.Names F) : Prop where
  objs : σ.objs = s.objs
  files : ∀ v, v < σ.objs → σ.files v = s.files v
  cls : σ.heap 0 = []
  pos : 0 < σ.next
  bound : ∀ v a, σ.attr v = some a → 0 < a ∧ a < σ.next
  unmade : ∀ v, σ.objs ≤ v → σ.attr v = none ∧ s.files v = []

theorem addr_lt {σ : St F} {s : Spec.Names F} (h : Rel σ s) (v : Nat) : σ.addr v < σ.next := by
  unfold St.addr
  cases e : σ.attr v with
  | none => simpa using h.pos
  | some a => simpa using (h.bound v a e).2

theorem files_all {σ : St F} {s : Spec.Names F} (h : Rel σ s) (v : Nat) : σ.files v = s.files v := by
  by_cases hv : v < σ.objs
  · exact h.files v hv
  · obtain ⟨h1, h2⟩ := h.unmade v (by omega)
    rw [h2]
    unfold St.files St.addr
    rw [h1]
    exact h.cls

theorem rel_step {σ : St F} {s : Spec.Names F} (h : Rel σ s) (op : Op F) (ops : List (Op F)) (ha : Spec.Alone σ (op :: ops)) :
    Rel (step σ op) (Spec.step s op) := by
  have ha1 := ha.1
  have hpos := h.pos
  cases op with
  | make =>
    refine ⟨by simp only [step, Spec.step]; rw [h.objs], fun v _ => files_all h v, h.cls, h.pos, h.bound, ?_⟩
    intro v hv
    exact h.unmade v (by simp only [step] at hv; omega)
  | read files n =>
    refine ⟨by simp only [step, Spec.step]; rw [h.objs], ?_, ?_, Nat.succ_pos _, ?_, ?_⟩
    · intro v _
      simp only [St.files, St.addr, step, Spec.step, ← h.objs]
      by_cases hv : σ.objs ≤ v ∧ v < σ.objs + n
      · simp [hv]
      · rw [if_neg hv, if_neg hv, Function.update_apply, if_neg]
        · exact files_all h v
        · have := addr_lt h v
          unfold St.addr at this
          omega
    · show Function.update σ.heap σ.next files 0 = []
      rw [Function.update_apply, if_neg (by omega)]
      exact h.cls
    · intro v a hv
      simp only [step] at hv ⊢
      split at hv
      · cases hv; omega
      · have := h.bound v a hv; omega
    · intro v hv
      simp only [step, Spec.step] at hv ⊢
      rw [← h.objs, if_neg (by omega), if_neg (by omega)]
      exact h.unmade v (by omega)
  | assign w files =>
    have hw : w < σ.objs := ha1
    refine ⟨h.objs, ?_, ?_, Nat.succ_pos _, ?_, ?_⟩
    · intro v _
      simp only [St.files, St.addr, step, Spec.step]
      by_cases hv : v = w
      · subst hv; simp
      · rw [Function.update_of_ne hv, Function.update_of_ne hv, Function.update_apply, if_neg]
        · exact files_all h v
        · have := addr_lt h v
          unfold St.addr at this
          omega
    · show Function.update σ.heap σ.next files 0 = []
      rw [Function.update_apply, if_neg (by omega)]
      exact h.cls
    · intro v a hv
      simp only [step] at hv ⊢
      rw [Function.update_apply] at hv
      split at hv
      · cases hv; omega
      · have := h.bound v a hv; omega
    · intro v hv
      simp only [step, Spec.step] at hv ⊢
      rw [Function.update_of_ne (by omega), Function.update_of_ne (by omega)]
      exact h.unmade v hv
  | setList vs files =>
    obtain ⟨hnd, hown⟩ := ha1
    have hf := fold_fields files vs σ
    have hcount : ∀ w, vs.countP (fun v => σ.addr v = σ.addr w) = if w ∈ vs then 1 else 0 := by
      intro w
      by_cases hw : w ∈ vs
      · rw [if_pos hw]
        have e : ∀ v ∈ vs, decide (σ.addr v = σ.addr w) = (v == w) := by
          intro v hv
          by_cases hvw : v = w
          · subst hvw; simp
          · obtain ⟨_, a, hva, hun⟩ := hown v hv
            have : σ.addr v ≠ σ.addr w := by
              unfold St.addr
              rw [hva]
              intro e
              cases hwa : σ.attr w with
              | none => rw [hwa] at e; have := h.bound v a hva; simp at e; omega
              | some b =>
                rw [hwa] at e
                simp at e
                exact hun w (fun e => hvw e.symm) (by rw [hwa, e])
            simp [hvw, this]
        rw [List.countP_congr (fun v hv => by rw [e v hv])]
        exact List.count_eq_one_of_mem hnd hw
      · rw [if_neg hw, List.countP_eq_zero]
        intro v hv
        obtain ⟨_, a, hva, hun⟩ := hown v hv
        simp only [decide_eq_true_eq]
        unfold St.addr
        rw [hva]
        intro e
        cases hwa : σ.attr w with
        | none => rw [hwa] at e; have := h.bound v a hva; simp at e; omega
        | some b =>
          rw [hwa] at e
          simp at e
          exact hun w (fun e => hw (e ▸ hv)) (by rw [hwa, e])
    refine ⟨by show (vs.foldl (extend files) σ).objs = _; rw [hf.2.1]; exact h.objs, ?_, ?_, ?_, ?_, ?_⟩
    · intro w _
      rw [c109_setter_exact, hcount, files_all h]
      simp only [Spec.step]
      split <;> simp
    · show (vs.foldl (extend files) σ).heap 0 = []
      rw [fold_heap, h.cls]
      have : vs.countP (fun v => σ.addr v = 0) = 0 := by
        rw [List.countP_eq_zero]
        intro v hv
        obtain ⟨_, a, hva, _⟩ := hown v hv
        have := h.bound v a hva
        simp [St.addr, hva]
        omega
      rw [this]; simp
    · show 0 < (vs.foldl (extend files) σ).next
      rw [hf.2.2]; exact h.pos
    · intro v a hv
      have hv' : (vs.foldl (extend files) σ).attr v = some a := hv
      rw [hf.1] at hv'
      show 0 < a ∧ a < (vs.foldl (extend files) σ).next
      rw [hf.2.2]; exact h.bound v a hv'
    · intro v hv
      have hv' : (vs.foldl (extend files) σ).objs ≤ v := hv
      rw [hf.2.1] at hv'
      obtain ⟨h1, h2⟩ := h.unmade v hv'
      refine ⟨by show (vs.foldl (extend files) σ).attr v = none; rw [hf.1]; exact h1, ?_⟩
      simp only [Spec.step]
      rw [if_neg, h2]
      intro hm
      have := (hown v hm).1
      omega

theorem rel_run : ∀ (ops : List (Op F)) (σ : St F) (s : Spec.Names F), Rel σ s → Spec.Alone σ ops → Rel (run σ ops) (Spec.run s ops) := by
  intro ops
  induction ops with
  | nil => intro σ s h _; exact h
  | cons op ops ih => intro σ s h ha; exact ih _ _ (rel_step h op ops ha) ha.2

theorem rel_init : Rel (St.init : St F) Spec.init := ⟨rfl, fun v hv => absurd hv (Nat.not_lt_zero _), rfl, Nat.one_pos, fun _ _ h => (nomatch h), fun _ _ => ⟨rfl, rfl⟩⟩

/-- C109: after any history in which names are added only to variables with list objects of their own, every data object has exactly the
file names it was read with or given, no others, and so have the texts of the history of collocations and aggregations. -/
theorem c109_files (ops : List (Op F)) (ha : Spec.Alone St.init ops) (v sample : Nat) (data : List Nat) :
    (run St.init ops).files v = (Spec.run Spec.init ops).files v ∧
    collocateHistory (run St.init ops) sample data =
      ((Spec.run Spec.init ops).files sample, data.flatMap (Spec.run Spec.init ops).files) ∧
    aggregateHistory (run St.init ops) data = data.flatMap (Spec.run Spec.init ops).files := by
  have h := rel_run ops _ _ rel_init ha
  have e : (run St.init ops).files = (Spec.run Spec.init ops).files := funext (files_all h)
  unfold collocateHistory aggregateHistory St.listFiles
  rw [e]
  exact ⟨rfl, rfl, rfl⟩

/-- A history with two reads, an assignment and an addition. -/
example : Spec.Alone (St.init : St String) [.read ["a.nc", "b.nc"] 2, .make, .assign 1 ["c.nc"], .setList [1, 0] ["d.nc"]] ∧
    (run (St.init : St String) [.read ["a.nc", "b.nc"] 2, .make, .assign 1 ["c.nc"], .setList [1, 0] ["d.nc"]]).files 1 = ["c.nc", "d.nc"] := by
  refine ⟨⟨trivial, trivial, ?_, ?_, trivial⟩, by decide +kernel⟩
  · exact (by decide : 1 < 3)
  · refine ⟨by decide, ?_⟩
    intro v hv
    have : v = 1 ∨ v = 0 := by simpa using hv
    rcases this with rfl | rfl
    · refine ⟨by decide, 2, by decide, ?_⟩
      intro w hw
      simp [step, Function.update_apply, hw, St.init]
    · refine ⟨by decide, 1, by decide, ?_⟩
      intro w hw
      by_cases h1 : w = 1
      · subst h1; decide
      · simp [step, Function.update_apply, h1, St.init]
        omega

/-! ## Violations -/

/-- C109 violated: the `n` variables read by one call have one list object between them. After names are added to this list of variables, each
of them has the new names `n` times. -/
theorem c109_read_violated (σ : St F) (files new : List F) (n i : Nat) (hi : i < n) :
    let σ1 := step σ (.read files n)
    let vs := (List.range n).map (σ.objs + ·)
    (step σ1 (.setList vs new)).files (σ.objs + i) = files ++ (List.replicate n new).flatten ∧
    (2 ≤ n → new ≠ [] → (step σ1 (.setList vs new)).files (σ.objs + i) ≠ files ++ new) := by
  intro σ1 vs
  have hadr : ∀ j, j < n → σ1.addr (σ.objs + j) = σ.next := by
    intro j hj
    simp [σ1, step, St.addr, hj]
  have e : (step σ1 (.setList vs new)).files (σ.objs + i) = files ++ (List.replicate n new).flatten := by
    rw [c109_setter_exact]
    have h1 : σ1.files (σ.objs + i) = files := by
      unfold St.files
      rw [hadr i hi]
      simp [σ1, step]
    have h2 : vs.countP (fun v => σ1.addr v = σ1.addr (σ.objs + i)) = n := by
      have : vs.countP (fun v => σ1.addr v = σ1.addr (σ.objs + i)) = vs.length := by
        rw [List.countP_eq_length]
        intro v hv
        obtain ⟨j, hj, rfl⟩ := List.mem_map.1 hv
        rw [hadr i hi, hadr j (List.mem_range.1 hj)]
        simp
      rw [this]; simp [vs]
    rw [h1, h2]
  refine ⟨e, ?_⟩
  intro hn hne
  rw [e]
  intro h
  have h1 := List.append_cancel_left h
  have h2 := congrArg List.length h1
  have h3 : 0 < new.length := List.length_pos_of_ne_nil hne
  rw [List.length_flatten, List.map_replicate, List.sum_replicate_nat] at h2
  have h4 : 2 * new.length ≤ n * new.length := Nat.mul_le_mul_right _ hn
  omega

/-- C109 violated: data that were not read from files (results of any computation) use the list of the class. Names added to one of them become
names of all such data, of those that are made later, and of the history of each later collapse. -/
theorem c109_class_violated (σ : St F) (v w : Nat) (new : List F) (hv : σ.attr v = none) (hw : σ.attr w = none)
    (hu : ∀ x, σ.objs ≤ x → σ.attr x = none) :
    let σ1 := step σ (.setList [v] new)
    σ1.files w = σ.files w ++ new ∧ (step σ1 .make).files σ1.objs = σ.files v ++ new ∧
      ∀ d, collapseHistory σ1 d 1 = σ.files v ++ new := by
  intro σ1
  have h0 : ∀ x, σ.attr x = none → σ1.files x = σ.files v ++ new := by
    intro x hx
    rw [c109_setter_exact]
    simp [St.addr, St.files, hv, hx]
  refine ⟨?_, ?_, ?_⟩
  · rw [h0 w hw]; simp [St.files, St.addr, hv, hw]
  · exact h0 _ (hu _ (Nat.le_refl _))
  · intro d
    have e : collapseHistory σ1 d 1 = σ1.files σ1.objs := by
      simp [collapseHistory, run, St.listFiles, step, St.files, St.addr]
    rw [e]
    exact h0 _ (hu _ (Nat.le_refl _))

/-- C109 violated: the history of a collapse never names the files of the data that were collapsed: whatever they are, it has those of the
class, as a rule none. -/
theorem c109_collapse_violated (σ : St F) (data n : Nat) (hu : ∀ x, σ.objs ≤ x → σ.attr x = none) :
    collapseHistory σ data n = (List.replicate n (σ.heap 0)).flatten ∧ (σ.heap 0 = [] → collapseHistory σ data n = []) := by
  have hrun : ∀ n, (run σ (List.replicate n .make)).attr = σ.attr ∧ (run σ (List.replicate n .make)).heap = σ.heap := by
    intro n
    have : ∀ (n : Nat) (σ : St F), (run σ (List.replicate n .make)).attr = σ.attr ∧ (run σ (List.replicate n .make)).heap = σ.heap := by
      intro n
      induction n with
      | zero => intro σ; exact ⟨rfl, rfl⟩
      | succ n ih => intro σ; exact ih (step σ .make)
    exact this n σ
  have e : collapseHistory σ data n = (List.replicate n (σ.heap 0)).flatten := by
    unfold collapseHistory St.listFiles
    rw [List.flatMap_map, List.flatMap_def]
    congr 1
    apply List.eq_replicate_iff.2
    refine ⟨by simp, ?_⟩
    intro b hb
    obtain ⟨i, _, rfl⟩ := List.mem_map.1 hb
    unfold St.files St.addr
    rw [(hrun n).1, (hrun n).2, hu _ (by omega)]
    rfl
  refine ⟨e, fun h => ?_⟩
  rw [e, h]
  simp

/-- The hypotheses are met at the beginning of a program that reads and makes data. -/
example : (run (St.init : St String) [.read ["a.nc"] 2, .make]).attr 2 = none ∧
    ∀ x, (run (St.init : St String) [.read ["a.nc"] 2, .make]).objs ≤ x → (run (St.init : St String) [.read ["a.nc"] 2, .make]).attr x = none := by
  refine ⟨by decide, fun x hx => ?_⟩
  simp [run, step, St.init] at hx ⊢
  omega

end Cis.Files
