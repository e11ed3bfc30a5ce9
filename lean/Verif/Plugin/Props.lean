import Verif.Plugin.Spec
set_option linter.unusedSectionVars false
set_option linter.unusedSimpArgs false
namespace Cis.Plugin

/-! ### Subclasses -/

theorem isSub_cons (t : Tree) (ts : List Tree) (c : Cls) : IsSub (t :: ts) c ↔ IsSub [t] c ∨ IsSub ts c := by
  constructor
  · rintro (⟨h⟩ | ⟨h, h2⟩)
    · rcases List.mem_cons.1 h with h | h
      · exact Or.inl (.direct (List.mem_singleton.2 h))
      · exact Or.inr (.direct h)
    · rcases List.mem_cons.1 h with h | h
      · exact Or.inl (.deeper (List.mem_singleton.2 h) h2)
      · exact Or.inr (.deeper h h2)
  · rintro (h | h)
    · rcases h with ⟨h⟩ | ⟨h, h2⟩
      · exact .direct (List.mem_cons.2 (Or.inl (List.mem_singleton.1 h)))
      · exact .deeper (List.mem_cons.2 (Or.inl (List.mem_singleton.1 h))) h2
    · rcases h with ⟨h⟩ | ⟨h, h2⟩
      · exact .direct (List.mem_cons_of_mem _ h)
      · exact .deeper (List.mem_cons_of_mem _ h) h2

theorem not_isSub_nil (c : Cls) : ¬ IsSub [] c := by rintro (⟨h⟩ | ⟨h, _⟩) <;> simp at h

mutual
theorem mem_allSubsOf : ∀ (t : Tree) (c : Cls), IsSub [t] c ↔ c ∈ allSubsOf t ∨ c = t.root
  | .node d kids, c => by
    rw [allSubsOf, Tree.root, List.mem_append]
    have ih := mem_allSubsDeep kids c
    rw [← ih]
    constructor
    · rintro (⟨h⟩ | ⟨h, h2⟩)
      · simp at h; exact Or.inr h.1
      · simp at h; rw [h.2] at h2; exact Or.inl h2
    · rintro (h | h)
      · exact .deeper (List.mem_singleton.2 rfl) h
      · subst h; exact .direct (List.mem_singleton.2 rfl)
theorem mem_allSubsDeep : ∀ (ts : List Tree) (c : Cls), IsSub ts c ↔ c ∈ allSubsDeep ts ∨ c ∈ ts.map Tree.root
  | [], c => by simp [allSubsDeep, not_isSub_nil]
  | t :: ts, c => by
    rw [isSub_cons, mem_allSubsOf t c, mem_allSubsDeep ts c, allSubsDeep, List.map_cons, List.mem_append, List.mem_cons]
    tauto
end

/-- C50: the built-in search finds exactly the direct and indirect subclasses. -/
theorem c50_subclasses (ts : List Tree) (c : Cls) : c ∈ getAllSubclasses ts ↔ IsSub ts c := by
  rw [mem_allSubsDeep, getAllSubclasses, List.mem_append]

/-! ### Removal while iterating -/

theorem mem_removeLoop_of_not {α : Type} [DecidableEq α] (p : α → Bool) (i : Nat) (l : List α) (x : α) (hx : p x = false) :
    x ∈ removeLoop p i l ↔ x ∈ l := by
  fun_induction removeLoop p i l with
  | case1 i l h hp ih =>
    rw [ih]
    exact List.mem_erase_of_ne (by rintro rfl; simp [hx] at hp)
  | case2 i l h hp ih => exact ih
  | case3 i l h => rfl

theorem mem_removeLoop_sub {α : Type} [DecidableEq α] (p : α → Bool) (i : Nat) (l : List α) (x : α) (hx : x ∈ removeLoop p i l) : x ∈ l := by
  fun_induction removeLoop p i l with
  | case1 i l h hp ih => exact List.mem_of_mem_erase (ih hx)
  | case2 i l h hp ih => exact ih hx
  | case3 i l h => exact hx

/-- What the loop really does to a list without repetitions: the element after a removed one is not looked at. -/
def skipNext {α : Type} (p : α → Bool) : List α → List α
  | [] => []
  | [x] => if p x then [] else [x]
  | x :: y :: ys => if p x then y :: skipNext p ys else x :: skipNext p (y :: ys)

theorem skipNext_neg {α : Type} (p : α → Bool) (x : α) (xs : List α) (h : ¬ p x = true) : skipNext p (x :: xs) = x :: skipNext p xs := by
  cases xs <;> simp [skipNext, h]

theorem removeLoop_eq_skipNext {α : Type} [DecidableEq α] (p : α → Bool) (pre l : List α) (hn : (pre ++ l).Nodup) :
    removeLoop p pre.length (pre ++ l) = pre ++ skipNext p l := by
  induction hlen : l.length using Nat.strong_induction_on generalizing pre l with
  | _ n ih =>
    cases l with
    | nil => rw [removeLoop]; simp [skipNext]
    | cons x xs =>
      rw [removeLoop]
      have h : pre.length < (pre ++ x :: xs).length := by simp
      rw [dif_pos h]
      have hx : (pre ++ x :: xs)[pre.length] = x := by simp
      simp only [hx]
      by_cases hp : p x = true
      · rw [if_pos hp]
        have hnx : x ∉ pre := by
          intro hc
          have := (List.nodup_append.1 hn).2.2 x hc x (by simp)
          exact this rfl
        rw [List.erase_append_right _ hnx]
        simp only [List.erase_cons_head]
        cases xs with
        | nil => rw [removeLoop]; simp [skipNext, hp]
        | cons y ys =>
          rw [skipNext, if_pos hp]
          have e : pre ++ y :: ys = (pre ++ [y]) ++ ys := by simp
          have el : pre.length + 1 = (pre ++ [y]).length := by simp
          have hn2 : ((pre ++ [y]) ++ ys).Nodup := by
            rw [← e]
            exact hn.sublist (List.Sublist.append_left (List.sublist_cons_self _ _) _)
          rw [e, el, ih ys.length (by simp at hlen; omega) (pre ++ [y]) ys hn2 rfl]
          simp
      · rw [if_neg hp, skipNext_neg p x xs hp]
        have e : pre ++ x :: xs = (pre ++ [x]) ++ xs := by simp
        have el : pre.length + 1 = (pre ++ [x]).length := by simp
        rw [e, el, ih xs.length (by simp at hlen; omega) (pre ++ [x]) xs (by rw [← e]; exact hn) rfl]
        simp

theorem skipNext_eq_filter {α : Type} (p : α → Bool) (l : List α)
    (h : ∀ (pre post : List α) (x y : α), l = pre ++ x :: y :: post → p x = true → p y = false) :
    skipNext p l = l.filter (fun x => !p x) := by
  fun_induction skipNext p l with
  | case1 => rfl
  | case2 x hp => simp [hp]
  | case3 x hp => simp [hp]
  | case4 x y ys hp ih =>
    have := h [] ys x y rfl hp
    simp only [List.filter_cons, hp, this]
    simp
    apply ih
    intro pre post a b he
    exact h (x :: y :: pre) post a b (by simp [he])
  | case5 x y ys hp ih =>
    rw [List.filter_cons, if_pos (by simp [hp]), ih]
    intro pre post a b he
    exact h (x :: pre) post a b (by simp [he])

theorem isAbstract_iff (c : Cls) : isAbstract c = true ↔ Abstract c := by
  unfold isAbstract Abstract
  rw [Bool.or_eq_true, List.isPrefixOf_iff_prefix, List.isPrefixOf_iff_prefix]
  constructor
  · rintro (⟨r, h⟩ | ⟨r, h⟩)
    · exact ⟨String.ofList r, Or.inl (String.toList_inj.1 (by simp [← h]))⟩
    · exact ⟨String.ofList r, Or.inr (String.toList_inj.1 (by simp [← h]))⟩
  · rintro ⟨r, h | h⟩
    · exact Or.inl ⟨r.toList, by simp [h]⟩
    · exact Or.inr ⟨r.toList, by simp [h]⟩

/-- C50: every concrete subclass, direct or indirect, built in or from any plugin file (the classes of imported files are subclasses
as well), is found. -/
theorem c50_complete (parentName : String) (files : List (List Cls)) (ts : List Tree) (c : Cls) (h : IsSub ts c) (ha : ¬ Abstract c) :
    c ∈ findPluginClasses parentName files ts := by
  rw [findPluginClasses, List.mem_insertionSort, mem_removeLoop_of_not _ _ _ _ (by rw [← isAbstract_iff] at ha; simpa using ha),
    List.mem_append, c50_subclasses]
  exact Or.inr h

/-- C50: nothing else is found but classes of the plugin files with a matching base. -/
theorem c50_sound (parentName : String) (files : List (List Cls)) (ts : List Tree) (c : Cls)
    (h : c ∈ findPluginClasses parentName files ts) : IsSub ts c ∨ c ∈ findPlugins parentName files := by
  rw [findPluginClasses, List.mem_insertionSort] at h
  have := mem_removeLoop_sub _ _ _ _ h
  rw [List.mem_append, c50_subclasses] at this
  exact this.symm

/-- C50: abstract classes are left out when no two of them come one after the other in the search (and nothing is found twice). -/
theorem c50_abstract (parentName : String) (files : List (List Cls)) (ts : List Tree)
    (hn : (findPlugins parentName files ++ getAllSubclasses ts).Nodup)
    (h : ∀ (pre post : List Cls) (x y : Cls), findPlugins parentName files ++ getAllSubclasses ts = pre ++ x :: y :: post →
      Abstract x → ¬ Abstract y) (c : Cls) (hc : c ∈ findPluginClasses parentName files ts) : ¬ Abstract c := by
  rw [findPluginClasses, List.mem_insertionSort] at hc
  have e := removeLoop_eq_skipNext isAbstract [] (findPlugins parentName files ++ getAllSubclasses ts) hn
  rw [List.nil_append, List.nil_append, List.length_nil] at e
  rw [e, skipNext_eq_filter] at hc
  · rw [← isAbstract_iff]; simpa using (List.mem_filter.1 hc).2
  · intro pre post x y he hx
    have := h pre post x y he ((isAbstract_iff _).1 hx)
    rw [← isAbstract_iff] at this
    simpa using this

/-- C50: what `find_plugins` returns: only the classes of the last file. -/
theorem findPlugins_last (parentName : String) (files : List (List Cls)) (last : List Cls) :
    findPlugins parentName (files ++ [last]) = last.filter (fun c => occursIn parentName.toList c.base.toList) := by
  simp [findPlugins]

/-- An example: two abstract classes, and a concrete one of each. -/
def exTrees : List Tree :=
  [.node ⟨0, "AbstractA", 10, "AProduct", []⟩ [.node ⟨1, "A", 20, "AbstractA", ["a.*"]⟩ []],
   .node ⟨2, "AbstractB", 10, "AProduct", []⟩ [.node ⟨3, "B", 10, "AbstractB", [".*nc"]⟩ []]]

/-- C50, violated: of two abstract classes found one after the other the second is not left out. -/
theorem c50_abstract_violated : ∃ (ts : List Tree) (c : Cls), c ∈ findPluginClasses "AProduct" [] ts ∧ Abstract c := by
  refine ⟨exTrees, ⟨2, "AbstractB", 10, "AProduct", []⟩, ?_, "B", Or.inr (by decide)⟩
  rw [findPluginClasses, List.mem_insertionSort]
  have e := removeLoop_eq_skipNext isAbstract [] (findPlugins "AProduct" [] ++ getAllSubclasses exTrees) (by decide +kernel)
  simp only [List.length_nil, List.nil_append] at e
  rw [e]
  decide +kernel

/-- C50, violated: a plugin class that is no true subclass (it only follows the interface) is lost unless it is in the last file. -/
theorem c50_first_file_violated : ∃ (c d : Cls), findPlugins "AProduct" [[c], [d]] = [d] ∧
    occursIn "AProduct".toList c.base.toList = true ∧ c ≠ d :=
  ⟨⟨0, "A", 10, "x.AProduct", []⟩, ⟨1, "B", 10, "x.AProduct", []⟩, by decide +kernel⟩

example : ∃ c, IsSub exTrees c ∧ ¬ Abstract c := ⟨⟨1, "A", 20, "AbstractA", ["a.*"]⟩,
  .deeper (by simp [exTrees]; exact Or.inl ⟨rfl, rfl⟩) (.direct (by simp; rfl)), by
    rw [← isAbstract_iff]; decide +kernel⟩

/-! ### Choice of the product -/

theorem basename_spec (dir base : List Char) (h : dir = [] ∨ dir.getLast? = some '/') (hb : '/' ∉ base) : basename (dir ++ base) = base := by
  unfold basename
  rw [List.reverse_append, List.takeWhile_append_of_pos (by intro x hx; simp at hx; simp; rintro rfl; exact hb hx)]
  have : dir.reverse.takeWhile (· ≠ '/') = [] := by
    rcases h with rfl | h
    · rfl
    · rw [← List.head?_reverse] at h
      cases hr : dir.reverse with
      | nil => rfl
      | cons a r => rw [hr] at h; simp at h; subst h; simp
  simp at this ⊢
  rw [this]

theorem accepts_iff (reMatch : String → List Char → Bool) (typeErr : Cls → List Char → Bool) (dir base : List Char)
    (h : dir = [] ∨ dir.getLast? = some '/') (hb : '/' ∉ base) (c : Cls) :
    accepts reMatch typeErr (dir ++ base) c = true ↔ Right reMatch typeErr dir base c := by
  simp [accepts, Right, basename_spec dir base h hb, List.any_eq_true]
  tauto

/-- Order of the search: by decreasing priority, then by name. -/
def Before (a b : Cls) : Prop := b.priority < a.priority ∨ (a.priority = b.priority ∧ a.name ≤ b.name)

theorem orderedInsert_before (x : Cls) (l : List Cls) (hl : l.Pairwise Before) (hx : ∀ y ∈ l, x.name ≤ y.name) :
    (l.orderedInsert (fun a b => b.priority ≤ a.priority) x).Pairwise Before := by
  induction l with
  | nil => simp
  | cons y ys ih =>
    rw [List.orderedInsert]
    rw [List.pairwise_cons] at hl
    split
    · rename_i h
      rw [List.pairwise_cons]
      refine ⟨?_, List.pairwise_cons.2 hl⟩
      intro z hz
      have hxz := hx z hz
      rcases List.mem_cons.1 hz with rfl | hz'
      · rcases lt_or_eq_of_le h with h | h
        · exact Or.inl h
        · exact Or.inr ⟨h.symm, hxz⟩
      · have hyz := hl.1 z hz'
        have : z.priority ≤ x.priority := by
          rcases hyz with h3 | ⟨h3, _⟩
          · omega
          · omega
        rcases lt_or_eq_of_le this with h | h
        · exact Or.inl h
        · exact Or.inr ⟨h.symm, hxz⟩
    · rename_i h
      rw [List.pairwise_cons]
      refine ⟨?_, ih hl.2 (fun z hz => hx z (List.mem_cons_of_mem _ hz))⟩
      intro z hz
      rcases (List.mem_orderedInsert (r := fun (a b : Cls) => b.priority ≤ a.priority)).1 hz with rfl | hz
      · left; omega
      · exact hl.1 z hz

theorem byPriority_before (l : List Cls) (hl : l.Pairwise (fun a b => a.name ≤ b.name)) : (byPriority l).Pairwise Before := by
  unfold byPriority
  induction l with
  | nil => simp
  | cons x xs ih =>
    rw [List.insertionSort_cons]
    rw [List.pairwise_cons] at hl
    apply orderedInsert_before _ _ (ih hl.2)
    intro y hy
    rw [List.mem_insertionSort] at hy
    exact hl.1 y hy

theorem findPluginClasses_sorted (parentName : String) (files : List (List Cls)) (ts : List Tree) :
    (findPluginClasses parentName files ts).Pairwise (fun a b => a.name ≤ b.name) := by
  unfold findPluginClasses
  have : Std.Total (fun a b : Cls => a.name ≤ b.name) := ⟨fun a b => le_total _ _⟩
  have : IsTrans Cls (fun a b : Cls => a.name ≤ b.name) := ⟨fun a b c => le_trans⟩
  exact List.pairwise_insertionSort _ _

theorem find?_first {α : Type} {R : α → α → Prop} (p : α → Bool) (l : List α) (hl : l.Pairwise R) (x : α) (h : l.find? p = some x) :
    ∀ y ∈ l, p y = true → y = x ∨ R x y := by
  induction l with
  | nil => simp at h
  | cons a r ih =>
    rw [List.pairwise_cons] at hl
    rw [List.find?_cons] at h
    intro y hy hp
    cases ha : p a with
    | true =>
      simp [ha] at h; subst h
      rcases List.mem_cons.1 hy with rfl | hy
      · exact Or.inl rfl
      · exact Or.inr (hl.1 y hy)
    | false =>
      simp [ha] at h
      rcases List.mem_cons.1 hy with rfl | hy
      · simp [ha] at hp
      · exact ih hl.2 h y hy hp

/-- C49: without an explicit product the chosen class is one of those found, it is right for the file, no right class has a higher
priority, and among those of its priority it is the first by name. It fails exactly if no class is right. -/
theorem c49_choice (reMatch : String → List Char → Bool) (typeErr : Cls → List Char → Bool) (parentName : String)
    (files : List (List Cls)) (ts : List Tree) (dir base : List Char) (h : dir = [] ∨ dir.getLast? = some '/') (hb : '/' ∉ base) :
    (∀ c, getClass reMatch typeErr (findPluginClasses parentName files ts) (dir ++ base) none = some c →
      c ∈ findPluginClasses parentName files ts ∧ Right reMatch typeErr dir base c ∧
      ∀ d ∈ findPluginClasses parentName files ts, Right reMatch typeErr dir base d →
        d.priority ≤ c.priority ∧ (d.priority = c.priority → c.name ≤ d.name)) ∧
    (getClass reMatch typeErr (findPluginClasses parentName files ts) (dir ++ base) none = none ↔
      ∀ d ∈ findPluginClasses parentName files ts, ¬ Right reMatch typeErr dir base d) := by
  have hmem : ∀ d, d ∈ byPriority (findPluginClasses parentName files ts) ↔ d ∈ findPluginClasses parentName files ts := by
    intro d; unfold byPriority; exact List.mem_insertionSort _
  constructor
  · intro c hc
    simp only [getClass] at hc
    refine ⟨(hmem c).1 (List.mem_of_find?_eq_some hc), (accepts_iff _ _ _ _ h hb c).1 (List.find?_some hc), ?_⟩
    intro d hd hr
    have := find?_first _ _ (byPriority_before _ (findPluginClasses_sorted parentName files ts)) c hc d ((hmem d).2 hd)
      ((accepts_iff _ _ _ _ h hb d).2 hr)
    rcases this with rfl | hbef
    · exact ⟨le_refl _, fun _ => le_refl _⟩
    · rcases hbef with h1 | ⟨h1, h2⟩
      · exact ⟨by omega, fun h3 => by omega⟩
      · exact ⟨by omega, fun _ => h2⟩
  · simp only [getClass, List.find?_eq_none]
    constructor
    · intro hn d hd hr; exact hn d ((hmem d).2 hd) ((accepts_iff _ _ _ _ h hb d).2 hr)
    · intro hn d hd hr; exact hn d ((hmem d).1 hd) ((accepts_iff _ _ _ _ h hb d).1 hr)

/-- C49: with an explicit product exactly a class of this name is used, whatever the file; it fails if there is none. -/
theorem c49_explicit (reMatch : String → List Char → Bool) (typeErr : Cls → List Char → Bool) (classes : List Cls)
    (filename : List Char) (p : String) :
    (∀ c, getClass reMatch typeErr classes filename (some p) = some c → c ∈ classes ∧ c.name = p) ∧
    (getClass reMatch typeErr classes filename (some p) = none ↔ ∀ c ∈ classes, c.name ≠ p) := by
  constructor
  · intro c hc
    simp only [getClass] at hc
    refine ⟨?_, by have := List.find?_some hc; exact (beq_iff_eq.1 this).symm⟩
    have := List.mem_of_find?_eq_some hc
    unfold byPriority at this
    exact (List.mem_insertionSort _).1 this
  · simp only [getClass, List.find?_eq_none, byPriority, List.mem_insertionSort]
    simp only [beq_iff_eq]
    exact ⟨fun hh c hc he => hh c hc he.symm, fun hh c hc he => hh c hc he.symm⟩

/-- The matching of the examples: the pattern is everything, or the name. -/
def exMatch (p : String) (f : List Char) : Bool := p == ".*nc$" || p.toList == f ++ ['$']

example : (byPriority (exTrees.map Tree.root ++ allSubsDeep exTrees)).map Cls.name = ["A", "AbstractA", "AbstractB", "B"] := by decide +kernel
example : (getClass exMatch (fun _ _ => false) (getAllSubclasses exTrees) "/x/y.nc".toList none).map Cls.name = some "B" := by decide +kernel

/-! ### Choice of the collocator -/

theorem getKernel_iff (kernels : List String) (arg : KernelArg) (out : KernelOut) :
    getKernel kernels arg = some out ↔ MeansKernel kernels arg out := by
  unfold MeansKernel
  cases arg with
  | none => simp [getKernel, eq_comm]
  | str s =>
    by_cases hs : s = ""
    · subst hs; simp [getKernel, eq_comm]
    · by_cases hk : s ∈ kernels
      · simp [getKernel, hs, hk]; exact eq_comm
      · simp [getKernel, hs, hk]
  | inst k => simp [getKernel, eq_comm]
  | other b => cases b <;> simp [getKernel, eq_comm]

/-- C52: the choice agrees with the table: there is a line for the kinds of sample and data and the method, and the kernel is the one
of the line, or the one the user means where the line leaves it open. Where the line for gridded sampling of gridded data fixes it,
none may be given. In all other cases the call fails. -/
theorem c52_table (sampleGridded : Bool) (kernels : List String) (data : DataKind) (how : String) (kernel : KernelArg) (ch : Choice) :
    sampledFrom sampleGridded kernels data how kernel = some ch ↔
      ∃ row ∈ table, row.sampleGridded = sampleGridded ∧ some row.dataGridded = kindGridded data ∧ row.how = how ∧
        ch.collocator = row.collocator ∧ ch.constraint = row.constraint ∧
        (row.fixed = none → MeansKernel kernels kernel ch.kernel) ∧
        (∀ k, row.fixed = some k → ch.kernel = k ∧ (sampleGridded = true → kernel = .none)) := by
  simp only [← getKernel_iff]
  obtain ⟨c1, c2, c3⟩ := ch
  simp only [table, List.mem_cons, List.not_mem_nil, or_false, exists_eq_or_imp, exists_eq_left]
  rcases Classical.em (how = "") with rfl | h1
  on_goal 2 => rcases Classical.em (how = "bin") with rfl | h2
  on_goal 3 => rcases Classical.em (how = "box") with rfl | h3
  on_goal 4 => rcases Classical.em (how = "lin") with rfl | h4
  on_goal 5 => rcases Classical.em (how = "nn") with rfl | h5
  all_goals
    cases sampleGridded <;> cases data <;> simp [sampledFrom, griddedSampledFrom, ungriddedSampledFrom, kindGridded]
  all_goals
    first
    | (cases hk : getKernel kernels kernel <;> simp <;> grind)
    | grind

/-- C52, remark: ungridded sampling of gridded data takes any kernel argument and ignores it. -/
theorem c52_kernel_ignored (kernels : List String) (how : String) (k1 k2 : KernelArg) :
    sampledFrom false kernels .gridded how k1 = sampledFrom false kernels .gridded how k2 := rfl

example : sampledFrom true ["mean"] .ungriddedList "" (.str "mean") =
    some ⟨"GeneralGriddedCollocator", some "BinnedCubeCellOnlyConstraint", .new "mean"⟩ ∧
    sampledFrom true ["mean"] .gridded "bin" .none = none ∧ sampledFrom true ["mean"] .gridded "lin" (.str "mean") = none := by decide

end Cis.Plugin
