import Verif.Main.Concurrent
set_option linter.unusedSectionVars false
set_option linter.unusedSimpArgs false

/-!
# Commands that use each other's output

A script of `cis` commands, in which later ones read the outputs of earlier ones (`cis subset … -o a.nc`, `cis col … a.nc -o b.nc`), and the same
commands given to `make -j` or a batch system with dependencies: each starts when those whose output it reads are done. The model is that of
`Main/Concurrent.lean` (parse.py:801-852, write_netcdf.py:147-177): nothing new is modelled here.
-/
namespace Cis.Concurrent
open Cis.RoundTrip

/-! ### Specification -/

/-- The disk when the first `k` commands have each written its file. -/
def Spec.after (cmds : Nat → Cmd) (made : Nat → File) (d : Disk) : Nat → Disk
  | 0 => d
  | k + 1 => put (Spec.after cmds made d k) (cmds k).output (made k)

/-- A script of `n` commands that succeeds: each can do its work when the earlier ones have done theirs, each writes a file of its own, and none
writes what an earlier one has read. -/
structure Spec.Script (dflt : Bool → ℚ) (cmds : Nat → Cmd) (made : Nat → File) (d : Disk) (n : Nat) : Prop where
  makes : ∀ k < n, Spec.Makes dflt (cmds k) (Spec.after cmds made d k) (made k)
  outputs : ∀ i < n, ∀ j < n, i ≠ j → (cmds i).output ≠ (cmds j).output
  order : ∀ i < n, ∀ j < n, (cmds i).output ∈ (cmds j).inputs → i < j

/-- A schedule in which a command has its turns only when all commands whose output it reads are done. -/
def Spec.Respects (dflt : Bool → ℚ) (cmds : Nat → Cmd) (d : Disk) (n : Nat) (schedule : List Nat) : Prop :=
  ∀ (s : List Nat) (j : Nat) (t : List Nat), schedule = s ++ j :: t → j < n ∧
    ∀ i < n, (cmds i).output ∈ (cmds j).inputs → (run dflt cmds (Spec.fresh d) s).st i = .done

/-! ### Proofs -/

theorem after_of_not (cmds : Nat → Cmd) (made : Nat → File) (d : Disk) (p : Path) : ∀ k, (∀ i < k, p ≠ (cmds i).output) → Spec.after cmds made d k p = d p
  | 0, _ => rfl
  | k + 1, h => by
    rw [Spec.after, put, Function.update_of_ne (h k (Nat.lt_succ_self k))]
    exact after_of_not cmds made d p k (fun i hi => h i (Nat.lt_succ_of_lt hi))

theorem after_of_mem (cmds : Nat → Cmd) (made : Nat → File) (d : Disk) (i : Nat) : ∀ k, i < k →
    (∀ j < k, i ≠ j → (cmds i).output ≠ (cmds j).output) → Spec.after cmds made d k (cmds i).output = some (made i)
  | 0, h, _ => absurd h (Nat.not_lt_zero i)
  | k + 1, h, hd => by
    rw [Spec.after, put]
    by_cases hk : i = k
    · subst hk; simp
    · rw [Function.update_of_ne (hd k (Nat.lt_succ_self k) hk)]
      exact after_of_mem cmds made d i k (by omega) (fun j hj => hd j (Nat.lt_succ_of_lt hj))

/-- **C210.** The commands of a script that succeeds, in any interleaving in which each has its turns only when the commands whose output it reads
are done: at every moment each command is where it would be in the script, after as many steps, and so is its output; all other files are as they
were. -/
theorem c210_interleaving (dflt : Bool → ℚ) (cmds : Nat → Cmd) (made : Nat → File) (d : Disk) (n : Nat) (h : Spec.Script dflt cmds made d n)
    (schedule : List Nat) (hs : Spec.Respects dflt cmds d n schedule) :
    (∀ i < n, (run dflt cmds (Spec.fresh d) schedule).st i = (alone dflt (cmds i) (Spec.turns schedule i) (.start, Spec.after cmds made d i)).1 ∧
      (run dflt cmds (Spec.fresh d) schedule).disk (cmds i).output =
        (alone dflt (cmds i) (Spec.turns schedule i) (.start, Spec.after cmds made d i)).2 (cmds i).output) ∧
    (∀ p, (∀ i < n, p ≠ (cmds i).output) → (run dflt cmds (Spec.fresh d) schedule).disk p = d p) := by
  have hdone : ∀ i < n, ∀ m, (alone dflt (cmds i) m (.start, Spec.after cmds made d i)).1 = .done →
      (alone dflt (cmds i) m (.start, Spec.after cmds made d i)).2 (cmds i).output = some (made i) := by
    intro i hi m hm
    obtain ⟨k, hk⟩ := c208_alone dflt (cmds i) _ _ (h.makes i hi)
    have e : alone dflt (cmds i) (m + k) (.start, Spec.after cmds made d i) = alone dflt (cmds i) m (.start, Spec.after cmds made d i) := by
      rw [alone_add]
      exact ended_alone dflt (cmds i) k _ _ (.inl hm)
    have := (hk (m + k) (by omega)).2
    rw [e] at this
    rw [this]
    simp [put]
  induction schedule using List.reverseRecOn with
  | nil =>
    refine ⟨fun i hi => ⟨rfl, ?_⟩, fun _ _ => rfl⟩
    show d (cmds i).output = Spec.after cmds made d i (cmds i).output
    exact (after_of_not cmds made d _ i (fun j hj => h.outputs i hi j (by omega) (by omega))).symm
  | append_singleton s k ih =>
    have hs' : Spec.Respects dflt cmds d n s := by
      intro a j b e
      exact hs a j (b ++ [k]) (by rw [e]; simp)
    obtain ⟨hkn, hdeps⟩ := hs s k [] rfl
    obtain ⟨ih1, ih2⟩ := ih hs'
    have hrun : run dflt cmds (Spec.fresh d) (s ++ [k]) = World.step dflt cmds (run dflt cmds (Spec.fresh d) s) k := by
      rw [run, List.foldl_append]; rfl
    rw [hrun]
    generalize run dflt cmds (Spec.fresh d) s = w at ih1 ih2 hdeps ⊢
    have hin : ∀ p ∈ (cmds k).inputs, w.disk p = (alone dflt (cmds k) (Spec.turns s k) (.start, Spec.after cmds made d k)).2 p := by
      intro p hp
      by_cases hne : p = (cmds k).output
      · rw [hne]; exact (ih1 k hkn).2
      · rw [(alone_inv dflt (cmds k) _ _).1 p hne]
        by_cases hout : ∃ i < n, p = (cmds i).output
        · obtain ⟨i, hi, rfl⟩ := hout
          have hik := h.order i hi k hkn hp
          rw [after_of_mem cmds made d i k hik (fun j hj hij => h.outputs i hi j (by omega) hij), (ih1 i hi).2]
          apply hdone i hi
          rw [← (ih1 i hi).1]
          exact hdeps i hi hp
        · have hout' : ∀ i < n, p ≠ (cmds i).output := fun i hi e => hout ⟨i, hi, e⟩
          rw [ih2 p hout', after_of_not cmds made d p k (fun i hi => hout' i (by omega))]
    obtain ⟨s1, s2, s3, -⟩ := step_local dflt (cmds k) (w.st k) w.disk _ (ih1 k hkn).2 hin
      (by rw [(ih1 k hkn).1]; exact (alone_inv dflt (cmds k) _ _).2)
    constructor
    · intro i hi
      by_cases hik : i = k
      · subst hik
        have ht : Spec.turns (s ++ [i]) i = Spec.turns s i + 1 := by simp [Spec.turns]
        rw [ht, alone_succ]
        simp only [World.step, Function.update_self]
        rw [s1, s2, (ih1 i hi).1]
        exact ⟨rfl, rfl⟩
      · have ht : Spec.turns (s ++ [k]) i = Spec.turns s i := by
          simp only [Spec.turns, List.count_append, List.count_singleton, beq_iff_eq]
          rw [if_neg (fun e => hik e.symm), Nat.add_zero]
        rw [ht]
        simp only [World.step, Function.update_of_ne hik]
        rw [s3 _ (h.outputs i hi k hkn hik)]
        exact ih1 i hi
    · intro p hp
      simp only [World.step]
      rw [s3 p (hp k hkn)]
      exact ih2 p hp

/-- **C210.** Given enough turns, all commands are done and the disk is exactly that which the script leaves, whatever the order. -/
theorem c210_same_as_script (dflt : Bool → ℚ) (cmds : Nat → Cmd) (made : Nat → File) (d : Disk) (n : Nat) (h : Spec.Script dflt cmds made d n) :
    ∃ need : Nat → Nat, ∀ schedule : List Nat, Spec.Respects dflt cmds d n schedule → (∀ i < n, need i ≤ Spec.turns schedule i) →
      (∀ i < n, (run dflt cmds (Spec.fresh d) schedule).st i = .done) ∧ (run dflt cmds (Spec.fresh d) schedule).disk = Spec.after cmds made d n := by
  have hx : ∀ i, ∃ k, i < n → ∀ m ≥ k, (alone dflt (cmds i) m (.start, Spec.after cmds made d i)).1 = .done ∧
      (alone dflt (cmds i) m (.start, Spec.after cmds made d i)).2 = put (Spec.after cmds made d i) (cmds i).output (made i) := by
    intro i
    by_cases hi : i < n
    · obtain ⟨k, hk⟩ := c208_alone dflt (cmds i) _ _ (h.makes i hi)
      exact ⟨k, fun _ => hk⟩
    · exact ⟨0, fun h => absurd h hi⟩
  choose need hneed using hx
  refine ⟨need, fun schedule hs ht => ?_⟩
  obtain ⟨h1, h2⟩ := c210_interleaving dflt cmds made d n h schedule hs
  constructor
  · intro i hi
    rw [(h1 i hi).1]
    exact (hneed i hi _ (ht i hi)).1
  · funext p
    by_cases hout : ∃ i < n, p = (cmds i).output
    · obtain ⟨i, hi, rfl⟩ := hout
      rw [(h1 i hi).2, (hneed i hi _ (ht i hi)).2, after_of_mem cmds made d i n hi (fun j hj hij => h.outputs i hi j hj hij)]
      simp [put]
    · have hout' : ∀ i < n, p ≠ (cmds i).output := fun i hi e => hout ⟨i, hi, e⟩
      rw [h2 p hout', after_of_not cmds made d p n hout']

/-- C210: a schedule as in `c210_same_as_script` can always go on: while not all commands are done, some command that is not done may have its turns,
until it is done. -/
theorem c210_progress (dflt : Bool → ℚ) (cmds : Nat → Cmd) (made : Nat → File) (d : Disk) (n : Nat) (h : Spec.Script dflt cmds made d n)
    (schedule : List Nat) (hs : Spec.Respects dflt cmds d n schedule) (hn : ¬ ∀ i < n, (run dflt cmds (Spec.fresh d) schedule).st i = .done) :
    ∃ j < n, (run dflt cmds (Spec.fresh d) schedule).st j ≠ .done ∧
      ∃ m, Spec.Respects dflt cmds d n (schedule ++ List.replicate m j) ∧
        (run dflt cmds (Spec.fresh d) (schedule ++ List.replicate m j)).st j = .done ∧
        ∀ i < n, i ≠ j → (run dflt cmds (Spec.fresh d) (schedule ++ List.replicate m j)).st i = (run dflt cmds (Spec.fresh d) schedule).st i := by
  have hex : ∃ j, j < n ∧ (run dflt cmds (Spec.fresh d) schedule).st j ≠ .done := by
    by_contra hc
    push Not at hc
    exact hn hc
  classical
  obtain ⟨j, ⟨hj, hne⟩, hmin⟩ := Nat.findX hex
  have hext : ∀ m, Spec.Respects dflt cmds d n (schedule ++ List.replicate m j) ∧
      ∀ i < n, i ≠ j → (run dflt cmds (Spec.fresh d) (schedule ++ List.replicate m j)).st i = (run dflt cmds (Spec.fresh d) schedule).st i := by
    intro m
    induction m with
    | zero => simpa using hs
    | succ m ih =>
      obtain ⟨ih1, ih2⟩ := ih
      rw [List.replicate_succ', ← List.append_assoc]
      have hrun : run dflt cmds (Spec.fresh d) (schedule ++ List.replicate m j ++ [j]) =
          World.step dflt cmds (run dflt cmds (Spec.fresh d) (schedule ++ List.replicate m j)) j := by
        rw [run, List.foldl_append]; rfl
      constructor
      · intro a k b e
        rcases List.eq_nil_or_concat b with rfl | ⟨b', x, rfl⟩
        · have e' : schedule ++ List.replicate m j ++ [j] = a ++ [k] := e
          obtain ⟨e1, e2⟩ := List.append_inj' e' rfl
          cases e2
          rw [← e1]
          refine ⟨hj, fun i hi hmem => ?_⟩
          have hij := h.order i hi j hj hmem
          rw [ih2 i hi (by omega)]
          by_contra hc
          exact hmin i hij ⟨hi, hc⟩
        · have e' : schedule ++ List.replicate m j ++ [j] = (a ++ k :: b') ++ [x] := by rw [e]; simp
          obtain ⟨e1, -⟩ := List.append_inj' e' rfl
          exact ih1 a k b' e1
      · intro i hi hij
        rw [hrun]
        simp only [World.step, Function.update_of_ne hij]
        exact ih2 i hi hij
  refine ⟨j, hj, hne, ?_⟩
  obtain ⟨k, hk⟩ := c208_alone dflt (cmds j) _ _ (h.makes j hj)
  refine ⟨k, (hext k).1, ?_, (hext k).2⟩
  rw [((c210_interleaving dflt cmds made d n h _ (hext k).1).1 j hj).1]
  apply (hk _ ?_).1
  simp [Spec.turns, List.count_append]

/-- C210: there is such a schedule, so every script that succeeds can be run by a batch system that heeds the dependencies, from any moment on. -/
theorem c210_completes (dflt : Bool → ℚ) (cmds : Nat → Cmd) (made : Nat → File) (d : Disk) (n : Nat) (h : Spec.Script dflt cmds made d n)
    (schedule : List Nat) (hs : Spec.Respects dflt cmds d n schedule) :
    ∃ t, Spec.Respects dflt cmds d n (schedule ++ t) ∧ (∀ i < n, (run dflt cmds (Spec.fresh d) (schedule ++ t)).st i = .done) ∧
      (run dflt cmds (Spec.fresh d) (schedule ++ t)).disk = Spec.after cmds made d n := by
  classical
  have hall : ∃ t, Spec.Respects dflt cmds d n (schedule ++ t) ∧ ∀ i < n, (run dflt cmds (Spec.fresh d) (schedule ++ t)).st i = .done := by
    induction hk : ((Finset.range n).filter (fun i => (run dflt cmds (Spec.fresh d) schedule).st i ≠ .done)).card using Nat.strong_induction_on
      generalizing schedule with
    | _ k ih =>
      by_cases hn : ∀ i < n, (run dflt cmds (Spec.fresh d) schedule).st i = .done
      · exact ⟨[], by simpa using hs, by simpa using hn⟩
      · obtain ⟨j, hj, hne, m, h1, h2, h3⟩ := c210_progress dflt cmds made d n h schedule hs hn
        obtain ⟨t, ht1, ht2⟩ := ih _ (by
          rw [← hk]
          apply Finset.card_lt_card
          rw [Finset.ssubset_iff_of_subset]
          · exact ⟨j, by simp [hj, hne], by simp [h2]⟩
          · intro i hi
            simp only [Finset.mem_filter, Finset.mem_range] at hi ⊢
            refine ⟨hi.1, ?_⟩
            by_cases hij : i = j
            · rw [hij]; exact hne
            · rw [← h3 i hi.1 hij]; exact hi.2) _ h1 rfl
        exact ⟨List.replicate m j ++ t, by rw [← List.append_assoc]; exact ht1, by rw [← List.append_assoc]; exact ht2⟩
  obtain ⟨t, ht1, ht2⟩ := hall
  refine ⟨t, ht1, ht2, ?_⟩
  obtain ⟨h1, h2⟩ := c210_interleaving dflt cmds made d n h _ ht1
  funext p
  by_cases hout : ∃ i < n, p = (cmds i).output
  · obtain ⟨i, hi, rfl⟩ := hout
    have hd := ht2 i hi
    obtain ⟨k, hk⟩ := c208_alone dflt (cmds i) _ _ (h.makes i hi)
    rw [(h1 i hi).2]
    rw [(h1 i hi).1] at hd
    have e : alone dflt (cmds i) (Spec.turns (schedule ++ t) i + k) (.start, Spec.after cmds made d i) =
        alone dflt (cmds i) (Spec.turns (schedule ++ t) i) (.start, Spec.after cmds made d i) := by
      rw [alone_add]
      exact ended_alone dflt (cmds i) k _ _ (.inl hd)
    rw [← e, (hk _ (by omega)).2, after_of_mem cmds made d i n hi (fun j hj hij => h.outputs i hi j hj hij)]
    simp [put]
  · have hout' : ∀ i < n, p ≠ (cmds i).output := fun i hi e => hout ⟨i, hi, e⟩
    rw [h2 p hout', after_of_not cmds made d p n hout']

/-! ### Example -/

/-- A script of two commands: the first writes two points to `a`, the second reads `a`, fails unless there are two variables in it, and writes the
values that it found. -/
def exScript : Nat → Cmd
  | 0 => exCmd "a" 1 2
  | _ => ⟨["a"], "b", false, fun files =>
      match files with
      | [⟨_, n, [_, v]⟩] => if n = 2 then some ([exCoord [5, 6]], [exVar v.var.stored]) else none
      | _ => none⟩

def exMade (i : Nat) : File :=
  match save exDflt [exCoord (if i = 0 then [1, 2] else [5, 6])] [exVar [10 * 1, 10 * 2]] with
  | .ok f => f
  | .error _ => emptyFile

example : Spec.Script exDflt exScript exMade (fun _ => none) 2 where
  makes := by
    intro k hk
    obtain rfl | rfl : k = 0 ∨ k = 1 := by omega
    · exact ⟨.inl rfl, [], _, _, .nil, rfl, rfl⟩
    · refine ⟨.inl (by simp [Spec.after, put, exScript, exCmd]), [exMade 0], _, _, .cons (by simp [Spec.after, put, exScript, exCmd]) .nil, rfl, rfl⟩
  outputs := by
    intro i hi j hj h
    obtain rfl | rfl : i = 0 ∨ i = 1 := by omega
    · obtain rfl : j = 1 := by omega
      decide
    · obtain rfl : j = 0 := by omega
      decide
  order := by
    intro i hi j hj h
    obtain rfl | rfl : j = 0 ∨ j = 1 := by omega
    · simp [exScript, exCmd] at h
    · obtain rfl | rfl : i = 0 ∨ i = 1 := by omega
      · omega
      · simp [exScript, exCmd] at h

end Cis.Concurrent
