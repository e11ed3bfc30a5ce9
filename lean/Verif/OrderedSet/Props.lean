import Verif.OrderedSet.Lemmas
/-! Property C01: OrderedSet behaves as an insertion-ordered set under any history. -/
namespace Cis.OrderedSet
variable {α : Type} [DecidableEq α]

/-- C01. For every history of operations from the empty set: outputs are those of the abstract ordered set, iteration and
reversed iteration terminate and give the abstract content forwards/backwards, `len`/`in` agree with it. -/
theorem c01_orderedSet_refines (ops : List (Op α)) :
    let s := (run init ops).1
    let l := (Spec.run [] ops).1
    (run (init : St α) ops).2 = (Spec.run [] ops).2 ∧
    iter s = some l ∧ reversed s = some l.reverse ∧ len s = l.length ∧
    (∀ k, contains s k = true ↔ k ∈ l) ∧ l.Nodup := by
  obtain ⟨h, as, r⟩ := rep_run (rep_init (α := α)) ops
  exact ⟨h, r.iter, r.reversed, r.len, r.contains_iff, r.lnodup⟩

/-- C01 (equality). Two ordered sets reached by any histories compare equal iff they iterate identically, and an ordered set
equals another iterable iff they have the same elements. -/
theorem c01_orderedSet_eq (ops1 ops2 : List (Op α)) (other : List α) :
    (eqOrdered (run init ops1).1 (run init ops2).1 = some true ↔
      (Spec.run [] ops1).1 = (Spec.run ([] : List α) ops2).1) ∧
    (eqOrdered (run init ops1).1 (run (init : St α) ops2).1).isSome ∧
    (eqOther (run init ops1).1 other = some true ↔ ∀ x, x ∈ (Spec.run [] ops1).1 ↔ x ∈ other) := by
  obtain ⟨-, as1, r1⟩ := rep_run (rep_init (α := α)) ops1
  obtain ⟨-, as2, r2⟩ := rep_run (rep_init (α := α)) ops2
  refine ⟨?_, ?_, ?_⟩
  · unfold eqOrdered
    rw [r1.len, r2.len, r1.iter, r2.iter]
    split
    · simp
    · rename_i h; constructor
      · simp
      · intro h'; rw [h'] at h; exact absurd rfl h
  · unfold eqOrdered
    rw [r1.iter, r2.iter]; split <;> simp
  · unfold eqOther
    rw [r1.iter]
    simp only [Option.some.injEq, Bool.and_eq_true, List.all_eq_true, decide_eq_true_eq]
    constructor
    · intro h x; exact ⟨h.1 x, h.2 x⟩
    · intro h; exact ⟨fun x => (h x).1, fun x => (h x).2⟩

-- A concrete non-trivial history (a test of the model, not a proof): re-adding moves to the end, pops at both ends.
example : (run (init : St Nat) [.add 1, .add 2, .add 3, .discard 1, .add 1, .pop true, .pop false, .discard 9]).2
    = [.none, .none, .none, .none, .none, .key 1, .key 2, .none] := by decide
example : iter (run (init : St Nat) [.add 1, .add 2, .add 3, .discard 1, .add 1]).1 = some [2, 3, 1] := by decide

end Cis.OrderedSet
