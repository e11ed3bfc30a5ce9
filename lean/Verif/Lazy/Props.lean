import Verif.Lazy.Spec
set_option linter.unusedSectionVars false
set_option linter.unusedSimpArgs false
/-! Property C44: lazy data. -/
namespace Cis.Lazy
variable {M A F : Type}

/-! ### Lemmas -/

theorem loadLoop_ok (cfg : Cfg M A F) (crash : Nat → Bool) (hc : ∀ i, crash i = false) (ms : List M) (i : Nat) (a : A)
    (s : St M A F) :
    (loadLoop cfg crash i ms a s).2 = some (ms.foldl (fun a m => cfg.concat a (cfg.retrieve m)) a) ∧
    (loadLoop cfg crash i ms a s).1.flat = s.flat ∧ (loadLoop cfg crash i ms a s).1.calls = s.calls ++ ms := by
  induction ms generalizing i a s with
  | nil => simp [loadLoop]
  | cons m ms ih =>
    rw [loadLoop, hc, if_neg (by simp)]
    obtain ⟨h1, h2, h3⟩ := ih (i + 1) (cfg.concat a (cfg.retrieve m))
      { s with data := some (cfg.concat a (cfg.retrieve m)), calls := s.calls ++ [m] }
    refine ⟨h1, h2, ?_⟩
    rw [h3]; simp

theorem getData_none (cfg : Cfg M A F) (crash : Nat → Bool) (hc : ∀ i, crash i = false) (s : St M A F) (h : s.data = none) :
    getData cfg crash s =
      (⟨some (Spec.loaded cfg), s.flat, s.calls ++ cfg.first :: cfg.rest⟩, some (Spec.loaded cfg)) := by
  rw [getData, h, hc, if_neg (by simp)]
  obtain ⟨h1, h2, h3⟩ := loadLoop_ok cfg crash hc cfg.rest 1 (cfg.retrieve cfg.first)
    { s with data := some (cfg.retrieve cfg.first), calls := s.calls ++ [cfg.first] }
  generalize loadLoop cfg crash 1 cfg.rest (cfg.retrieve cfg.first)
    { s with data := some (cfg.retrieve cfg.first), calls := s.calls ++ [cfg.first] } = r at h1 h2 h3
  obtain ⟨s', o⟩ := r
  simp only at h1 h2 h3
  subst h1
  simp only [h2, h3, Spec.loaded]
  simp

theorem getData_some (cfg : Cfg M A F) (crash : Nat → Bool) (s : St M A F) (a : A) (h : s.data = some a) :
    getData cfg crash s = (s, some a) := by
  rw [getData, h]

/-- The object holds `a`: it has it in memory, or it has not been read and `a` is what would be loaded. -/
def Holds (cfg : Cfg M A F) (s : St M A F) (a : A) : Prop :=
  s.data = some a ∨ (s.data = none ∧ a = Spec.loaded cfg)

/-- The cached flattened array is that of `a`. -/
def Coherent (cfg : Cfg M A F) (s : St M A F) (a : A) : Prop := ∀ f, s.flat = some f → f = cfg.ravel a

theorem getData_holds (cfg : Cfg M A F) (crash : Nat → Bool) (hc : ∀ i, crash i = false) (s : St M A F) (a : A)
    (h : Holds cfg s a) : (getData cfg crash s).2 = some a ∧ (getData cfg crash s).1.data = some a ∧
      (getData cfg crash s).1.flat = s.flat := by
  rcases h with h | ⟨h, rfl⟩
  · rw [getData_some cfg crash s a h]; exact ⟨rfl, h, rfl⟩
  · rw [getData_none cfg crash hc s h]; exact ⟨rfl, rfl, rfl⟩

theorem step_holds (cfg : Cfg M A F) (op : Op A) (s : St M A F) (a : A) (h : Holds cfg s a) (hc : Spec.NoCrash op)
    (hl : s.data.isSome ∨ Spec.NotLonRange op) :
    Holds cfg (step cfg op s).1 (Spec.step cfg op a).1 ∧
    Spec.hideFlat (step cfg op s).2 = Spec.hideFlat (Spec.step cfg op a).2 ∧
    (s.data.isSome → (step cfg op s).1.data.isSome) := by
  cases op with
  | read c =>
    obtain ⟨h1, h2, h3⟩ := getData_holds cfg c hc s a h
    rw [step]
    generalize getData cfg c s = r at h1 h2 h3
    obtain ⟨s', o⟩ := r
    simp only at h1 h2 h3; subst h1
    simp [Holds, h2, Spec.step]
  | readFlat c =>
    obtain ⟨h1, h2, h3⟩ := getData_holds cfg c hc s a h
    rw [step, getFlat]
    cases hf : s.flat with
    | some f => exact ⟨h, rfl, id⟩
    | none =>
      simp only
      generalize getData cfg c s = r at h1 h2 h3
      obtain ⟨s', o⟩ := r
      simp only at h1 h2 h3; subst h1
      simp [Holds, h2, Spec.step, Spec.hideFlat]
  | assign b => simp [step, Spec.step, Holds]
  | convert f c =>
    obtain ⟨h1, h2, h3⟩ := getData_holds cfg c hc s a h
    rw [step]
    generalize getData cfg c s = r at h1 h2 h3
    obtain ⟨s', o⟩ := r
    simp only at h1 h2 h3; subst h1
    simp [Holds, h2, Spec.step]
  | convertSet f c =>
    obtain ⟨h1, h2, h3⟩ := getData_holds cfg c hc s a h
    rw [step]
    generalize getData cfg c s = r at h1 h2 h3
    obtain ⟨s', o⟩ := r
    simp only at h1 h2 h3; subst h1
    simp [Holds, h2, Spec.step]
  | lonRange f =>
    rcases hl with hl | hl
    · rcases h with h | ⟨h, -⟩
      · simp [step, h, Holds, Spec.step]
      · simp [h] at hl
    · exact hl.elim
  | inPlace f c =>
    obtain ⟨h1, h2, h3⟩ := getData_holds cfg c hc s a h
    rw [step]
    generalize getData cfg c s = r at h1 h2 h3
    obtain ⟨s', o⟩ := r
    simp only at h1 h2 h3; subst h1
    simp [Holds, h2, Spec.step]

theorem step_coherent (cfg : Cfg M A F) (op : Op A) (s : St M A F) (a : A) (h : Holds cfg s a) (hf : Coherent cfg s a)
    (hc : Spec.NoCrash op) (hl : s.data.isSome ∨ Spec.NotLonRange op) (hd : Spec.NotDirect op)
    (hv : (∀ f c, op = .inPlace f c → cfg.isView a = true)) :
    Coherent cfg (step cfg op s).1 (Spec.step cfg op a).1 ∧ (step cfg op s).2 = (Spec.step cfg op a).2 := by
  cases op with
  | read c =>
    obtain ⟨h1, h2, h3⟩ := getData_holds cfg c hc s a h
    rw [step]
    generalize getData cfg c s = r at h1 h2 h3
    obtain ⟨s', o⟩ := r
    simp only at h1 h2 h3; subst h1
    refine ⟨?_, rfl⟩
    intro f hf'; simp only [h3] at hf'; exact hf f hf'
  | readFlat c =>
    obtain ⟨h1, h2, h3⟩ := getData_holds cfg c hc s a h
    rw [step, getFlat]
    cases hf' : s.flat with
    | some f => 
      refine ⟨hf, ?_⟩
      simp only [Spec.step]; rw [hf f hf']
    | none =>
      simp only
      generalize getData cfg c s = r at h1 h2 h3
      obtain ⟨s', o⟩ := r
      simp only at h1 h2 h3; subst h1
      refine ⟨?_, rfl⟩
      intro f hf''; simp only [Option.some.injEq] at hf''; exact hf''.symm
  | assign b => 
    refine ⟨?_, rfl⟩
    intro f hf'; simp [step] at hf'
  | convert f c => exact hd.elim
  | convertSet f c =>
    obtain ⟨h1, h2, h3⟩ := getData_holds cfg c hc s a h
    rw [step]
    generalize getData cfg c s = r at h1 h2 h3
    obtain ⟨s', o⟩ := r
    simp only at h1 h2 h3; subst h1
    refine ⟨?_, rfl⟩
    intro f hf'; simp at hf'
  | lonRange f =>
    rcases hl with hl | hl
    · rcases h with h | ⟨h, -⟩
      · rw [step, h]
        refine ⟨?_, rfl⟩
        intro f hf'; simp at hf'
      · simp [h] at hl
    · exact hl.elim
  | inPlace f c =>
    obtain ⟨h1, h2, h3⟩ := getData_holds cfg c hc s a h
    rw [step]
    generalize getData cfg c s = r at h1 h2 h3
    obtain ⟨s', o⟩ := r
    simp only at h1 h2 h3; subst h1
    refine ⟨?_, rfl⟩
    intro g hg
    simp only [h3] at hg
    cases hs : s.flat with
    | none => simp [hs] at hg
    | some old => simp [hs, hv f c rfl] at hg; exact hg.symm

/-! ### The property -/

theorem run_data (cfg : Cfg M A F) (ops : List (Op A)) (s : St M A F) (a : A) (h : Holds cfg s a)
    (hc : ∀ op ∈ ops, Spec.NoCrash op) (hl : s.data.isSome ∨ ∀ op ∈ ops, Spec.NotLonRange op) :
    (run cfg ops s).2.map Spec.hideFlat = (Spec.run cfg ops a).map Spec.hideFlat := by
  induction ops generalizing s a with
  | nil => rfl
  | cons op ops ih =>
    have hl' : s.data.isSome ∨ Spec.NotLonRange op := hl.imp id (fun h => h op (by simp))
    obtain ⟨h1, h2, h3⟩ := step_holds cfg op s a h (hc op (by simp)) hl'
    simp only [run, Spec.run, List.map_cons, h2]
    rw [ih _ _ h1 (fun o ho => hc o (by simp [ho])) (hl.imp h3 (fun h o ho => h o (by simp [ho])))]

/-- C44. In every history in which no read runs out of memory (and `Coord.set_longitude_range` is not called on an unread
object), every operation shows what it would show on the loaded array, flattened arrays excepted. Missing: exhausted memory,
`set_longitude_range` before the first read, for which it is false. -/
theorem c44_data (cfg : Cfg M A F) (ops : List (Op A)) (hc : ∀ op ∈ ops, Spec.NoCrash op)
    (hl : ∀ op ∈ ops, Spec.NotLonRange op) :
    (run cfg ops fresh).2.map Spec.hideFlat = (Spec.run cfg ops (Spec.loaded cfg)).map Spec.hideFlat :=
  run_data cfg ops fresh _ (Or.inr ⟨rfl, rfl⟩) hc (Or.inr hl)

/-- C44. The same for objects made from an array, all operations allowed. -/
theorem c44_data_array (cfg : Cfg M A F) (a : A) (ops : List (Op A)) (hc : ∀ op ∈ ops, Spec.NoCrash op) :
    (run cfg ops (ofArray cfg a)).2.map Spec.hideFlat = (Spec.run cfg ops (cfg.post a)).map Spec.hideFlat :=
  run_data cfg ops _ _ (Or.inl rfl) hc (Or.inl rfl)

theorem run_all (cfg : Cfg M A F) (ops : List (Op A)) (s : St M A F) (a : A) (h : Holds cfg s a) (hf : Coherent cfg s a)
    (hc : ∀ op ∈ ops, Spec.NoCrash op) (hl : s.data.isSome ∨ ∀ op ∈ ops, Spec.NotLonRange op)
    (hd : ∀ op ∈ ops, Spec.NotDirect op) (hv : (∀ a, cfg.isView a = true) ∨ ∀ op ∈ ops, ∀ f c, op ≠ .inPlace f c) :
    (run cfg ops s).2 = Spec.run cfg ops a := by
  induction ops generalizing s a with
  | nil => rfl
  | cons op ops ih =>
    have hl' : s.data.isSome ∨ Spec.NotLonRange op := hl.imp id (fun h => h op (by simp))
    obtain ⟨h1, -, h3⟩ := step_holds cfg op s a h (hc op (by simp)) hl'
    obtain ⟨h4, h5⟩ := step_coherent cfg op s a h hf (hc op (by simp)) hl' (hd op (by simp)) (by
      intro f c he
      rcases hv with hv | hv
      · exact hv a
      · exact absurd he (hv op (by simp) f c))
    simp only [run, Spec.run, h5]
    rw [ih _ _ h1 h4 (fun o ho => hc o (by simp [ho])) (hl.imp h3 (fun h o ho => h o (by simp [ho])))
      (fun o ho => hd o (by simp [ho])) (hv.imp id (fun h o ho => h o (by simp [ho])))]

/-- C44. If moreover no conversion that assigns `_data` directly is used, and arrays are contiguous (or no units are converted in
place), then flattened arrays are shown rightly too: the object cannot be told from the loaded array. -/
theorem c44_flat (cfg : Cfg M A F) (ops : List (Op A)) (hc : ∀ op ∈ ops, Spec.NoCrash op)
    (hl : ∀ op ∈ ops, Spec.NotLonRange op) (hd : ∀ op ∈ ops, Spec.NotDirect op)
    (hv : (∀ a, cfg.isView a = true) ∨ ∀ op ∈ ops, ∀ f c, op ≠ .inPlace f c) :
    (run cfg ops fresh).2 = Spec.run cfg ops (Spec.loaded cfg) :=
  run_all cfg ops fresh _ (Or.inr ⟨rfl, rfl⟩) (by intro f h; cases h) hc (Or.inr hl) hd hv

/-- C44. The same for objects made from an array. -/
theorem c44_flat_array (cfg : Cfg M A F) (a : A) (ops : List (Op A)) (hc : ∀ op ∈ ops, Spec.NoCrash op)
    (hd : ∀ op ∈ ops, Spec.NotDirect op) (hv : (∀ a, cfg.isView a = true) ∨ ∀ op ∈ ops, ∀ f c, op ≠ .inPlace f c) :
    (run cfg ops (ofArray cfg a)).2 = Spec.run cfg ops (cfg.post a) :=
  run_all cfg ops _ _ (Or.inl rfl) (by intro f h; cases h) hc (Or.inl rfl) hd hv

theorem step_calls (cfg : Cfg M A F) (op : Op A) (s : St M A F) (hc : Spec.NoCrash op)
    (h : (s.data = none ∧ s.calls = []) ∨ (s.data.isSome ∧ (s.calls = [] ∨ s.calls = cfg.first :: cfg.rest))) :
    ((step cfg op s).1.data = none ∧ (step cfg op s).1.calls = []) ∨
      ((step cfg op s).1.data.isSome ∧ ((step cfg op s).1.calls = [] ∨ (step cfg op s).1.calls = cfg.first :: cfg.rest)) := by
  have key : ∀ c : Nat → Bool, (∀ i, c i = false) → ∃ a s', getData cfg c s = (s', some a) ∧
      (s'.data.isSome ∧ (s'.calls = [] ∨ s'.calls = cfg.first :: cfg.rest)) := by
    intro c hc
    cases hd : s.data with
    | some a =>
      refine ⟨a, s, getData_some cfg c s a hd, ?_⟩
      rcases h with h | h
      · rw [hd] at h; simp at h
      · exact h
    | none =>
      refine ⟨_, _, getData_none cfg c hc s hd, rfl, ?_⟩
      rcases h with h | h
      · right; simp [h.2]
      · rw [hd] at h; simp at h
  cases op with
  | read c => obtain ⟨a, s', h1, h2⟩ := key c hc; right; simp only [step, h1]; exact h2
  | readFlat c =>
    obtain ⟨a, s', h1, h2⟩ := key c hc
    rw [step, getFlat]
    cases hf : s.flat with
    | some f => exact h
    | none => right; simp only [h1]; exact h2
  | assign b =>
    right; refine ⟨rfl, ?_⟩
    rcases h with h | h
    · left; exact h.2
    · exact h.2
  | convert f c => obtain ⟨a, s', h1, h2⟩ := key c hc; right; simp only [step, h1]; exact ⟨rfl, h2.2⟩
  | convertSet f c => obtain ⟨a, s', h1, h2⟩ := key c hc; right; simp only [step, h1]; exact ⟨rfl, h2.2⟩
  | lonRange f =>
    rw [step]
    cases hd : s.data with
    | none => left; rcases h with h | h
              · exact h
              · rw [hd] at h; simp at h
    | some a =>
      right; refine ⟨rfl, ?_⟩
      rcases h with h | h
      · rw [hd] at h; simp at h
      · exact h.2
  | inPlace f c => obtain ⟨a, s', h1, h2⟩ := key c hc; right; simp only [step, h1]; exact ⟨rfl, h2.2⟩

/-- C44. In a history without exhausted memory no file is read twice: either nothing was read or each file exactly once. -/
theorem c44_loaded_once (cfg : Cfg M A F) (ops : List (Op A)) (hc : ∀ op ∈ ops, Spec.NoCrash op) :
    (run cfg ops fresh).1.calls = [] ∨ (run cfg ops fresh).1.calls = cfg.first :: cfg.rest := by
  have : ∀ (ops : List (Op A)) (s : St M A F), (∀ op ∈ ops, Spec.NoCrash op) →
      ((s.data = none ∧ s.calls = []) ∨ (s.data.isSome ∧ (s.calls = [] ∨ s.calls = cfg.first :: cfg.rest))) →
      ((run cfg ops s).1.calls = [] ∨ (run cfg ops s).1.calls = cfg.first :: cfg.rest) := by
    intro ops
    induction ops with
    | nil => intro s _ h; rcases h with h | h
             · exact Or.inl h.2
             · exact h.2
    | cons op ops ih =>
      intro s hc h
      exact ih _ (fun o ho => hc o (by simp [ho])) (step_calls cfg op s (hc op (by simp)) h)
  exact this ops fresh hc (Or.inl ⟨rfl, rfl⟩)

/-! ### Violations -/

/-- Three files with one number each; arrays are lists; every array is contiguous. -/
def demo : Cfg Nat (List Nat) (List Nat) where
  first := 1
  rest := [2, 3]
  retrieve := fun m => [m]
  concat := (· ++ ·)
  post := id
  ravel := id
  isView := fun _ => true

/-- C44 is violated at crash points: if memory runs out while the third file is read, the next read shows the first two files as if
they were all. -/
theorem c44_crash_violated :
    ∃ (cfg : Cfg Nat (List Nat) (List Nat)) (ops : List (Op (List Nat))),
      Spec.loaded cfg = [1, 2, 3] ∧ (run cfg ops fresh).2 = [.error, .data [1, 2]] :=
  ⟨demo, [.read (fun i => i == 2), .read (fun _ => false)], by decide, by decide⟩

/-- C44. In general: when memory runs out at file `k > 0` of an unread object, all further reads show exactly the first `k` files,
not post-processed, and no further file is ever read. -/
theorem c44_crash_exact (cfg : Cfg M A F) (k : Nat) (hk : k < cfg.rest.length) (crash' : Nat → Bool) :
    (run cfg [.read (fun i => i == k + 1), .read crash'] fresh).2 =
      [.error, .data ((cfg.rest.take k).foldl (fun a m => cfg.concat a (cfg.retrieve m)) (cfg.retrieve cfg.first))] := by
  have key : ∀ (ms : List M) (i k : Nat) (a : A) (s : St M A F), k < ms.length → s.data = some a →
      ∃ s', loadLoop cfg (fun j => j == i + k) i ms a s = (s', none) ∧
        s'.data = some ((ms.take k).foldl (fun a m => cfg.concat a (cfg.retrieve m)) a) := by
    intro ms
    induction ms with
    | nil => intro i k a s hk; simp at hk
    | cons m ms ih =>
      intro i k a s hk hs
      rw [loadLoop]
      cases k with
      | zero => simp [hs]
      | succ k =>
        have : (i == i + (k + 1)) = false := by simp
        simp only [this, Bool.false_eq_true, if_false, List.take_succ_cons, List.foldl_cons]
        obtain ⟨s', h1, h2⟩ := ih (i + 1) k (cfg.concat a (cfg.retrieve m))
          { s with data := some (cfg.concat a (cfg.retrieve m)), calls := s.calls ++ [m] } (by simpa using hk) rfl
        refine ⟨s', ?_, h2⟩
        rw [← h1, show i + (k + 1) = i + 1 + k by omega]
  obtain ⟨s', h1, h2⟩ := key cfg.rest 1 k (cfg.retrieve cfg.first)
    ⟨some (cfg.retrieve cfg.first), none, [cfg.first]⟩ hk rfl
  have h3 : getData cfg (fun i => i == k + 1) fresh = (s', none) := by
    rw [getData]
    simp only [fresh, List.nil_append]
    rw [if_neg (by simp)]
    rw [show (fun i => i == k + 1) = (fun j => j == 1 + k) by funext i; rw [Nat.add_comm], h1]
  simp only [run, step, h3, getData_some cfg crash' s' _ h2]

/-- C44 is violated: after a conversion to standard time the flattened array is still the old one. -/
theorem c44_stale_flat_violated :
    ∃ (cfg : Cfg Nat (List Nat) (List Nat)) (ops : List (Op (List Nat))), (∀ op ∈ ops, Spec.NoCrash op) ∧
      cfg.ravel = id ∧ (run cfg ops fresh).2 = [.flat [1, 2, 3], .done, .data [11, 12, 13], .flat [1, 2, 3]] := by
  refine ⟨demo, [.readFlat (fun _ => false), .convert (List.map (· + 10)) (fun _ => false), .read (fun _ => false),
    .readFlat (fun _ => false)], ?_, rfl, by decide⟩
  intro op hop
  simp at hop
  rcases hop with rfl | rfl | rfl | rfl <;> intro i <;> rfl

/-- C44 is violated: the longitude range of a coordinate that has not been read cannot be set. -/
theorem c44_lon_range_violated :
    ∃ (cfg : Cfg Nat (List Nat) (List Nat)) (ops : List (Op (List Nat))), (∀ op ∈ ops, Spec.NoCrash op) ∧
      (run cfg ops fresh).2 = [.error] ∧ Spec.run cfg ops (Spec.loaded cfg) = [.done] := by
  refine ⟨demo, [.lonRange id], ?_, by decide, rfl⟩
  intro op hop
  simp at hop
  subst hop
  trivial

-- the hypotheses of the positive theorems are met by a non-trivial history
example : (run demo [.readFlat (fun _ => false), .convertSet (List.map (· + 10)) (fun _ => false), .assign [7],
    .readFlat (fun _ => false), .read (fun _ => false)] fresh).2 = [.flat [1, 2, 3], .done, .done, .flat [7], .data [7]] := by
  rw [c44_flat]
  · decide
  · intro op hop; simp at hop; rcases hop with rfl | rfl | rfl | rfl | rfl <;> first | (intro i; rfl) | trivial
  · intro op hop; simp at hop; rcases hop with rfl | rfl | rfl | rfl | rfl <;> trivial
  · intro op hop; simp at hop; rcases hop with rfl | rfl | rfl | rfl | rfl <;> trivial
  · left; intro a; rfl

end Cis.Lazy
