import Verif.OrderedSet.Spec
import Mathlib.Data.List.Basic
import Mathlib.Data.List.Perm.Basic
import Mathlib.Data.List.Nodup
import Mathlib.Data.List.Induction
set_option linter.unusedSectionVars false
set_option linter.unusedSimpArgs false
namespace Cis.OrderedSet
variable {α : Type} [DecidableEq α]

/-- Consecutive addresses are linked both ways. -/
def Link (h : Heap α) : List Nat → Prop
  | x :: y :: t => (h x).next = y ∧ (h y).prev = x ∧ Link h (y :: t)
  | _ => True

theorem link_append (h : Heap α) (l1 : List Nat) (x : Nat) (l2 : List Nat) :
    Link h (l1 ++ x :: l2) ↔ Link h (l1 ++ [x]) ∧ Link h (x :: l2) := by
  induction l1 with
  | nil => simp [Link]
  | cons a t ih =>
    cases t with
    | nil => simp [Link]; tauto
    | cons b t =>
      simp only [List.cons_append, Link] at ih ⊢
      tauto

theorem link_frame (h h' : Heap α) (l : List Nat)
    (hn : ∀ a ∈ l.dropLast, (h' a).next = (h a).next)
    (hp : ∀ a ∈ l.tail, (h' a).prev = (h a).prev) (hl : Link h l) : Link h' l := by
  induction l with
  | nil => simp [Link]
  | cons x t ih =>
    cases t with
    | nil => simp [Link]
    | cons y t =>
      simp only [Link] at hl ⊢
      refine ⟨?_, ?_, ?_⟩
      · rw [hn x (by simp)]; exact hl.1
      · rw [hp y (by simp)]; exact hl.2.1
      · apply ih _ _ hl.2.2
        · intro a ha; apply hn; simp only [List.dropLast] at ha ⊢; exact List.mem_cons_of_mem _ ha
        · intro a ha; apply hp; simp only [List.tail] at ha ⊢; exact List.mem_cons_of_mem _ ha

/-- `s` represents the abstract list `l` with cells `as`. -/
structure Rep (s : St α) (as : List Nat) (l : List α) : Prop where
  link : Link s.heap (0 :: (as ++ [0]))
  nodup : as.Nodup
  pos : ∀ a ∈ as, a ≠ 0
  lt : ∀ a ∈ as, a < s.fresh
  fpos : 0 < s.fresh
  keys : as.map (fun a => (s.heap a).key) = l.map some
  lnodup : l.Nodup
  map : s.map.Perm (l.zip as)

theorem Rep.len_eq {s : St α} {as l} (r : Rep s as l) : as.length = l.length := by
  have := congrArg List.length r.keys; simpa using this

theorem lookup_eq_some {m : List (α × Nat)} (hm : (m.map Prod.fst).Nodup) {k : α} {a : Nat} :
    lookup m k = some a ↔ (k, a) ∈ m := by
  induction m with
  | nil => simp [lookup]
  | cons p t ih =>
    obtain ⟨k', a'⟩ := p
    simp only [List.map_cons, List.nodup_cons] at hm
    simp only [lookup, List.mem_cons, Prod.mk.injEq]
    split
    · rename_i h; subst h
      constructor
      · intro h; left; simpa using (Option.some.inj h).symm
      · rintro (h | h)
        · simp [h.2]
        · exact absurd (List.mem_map_of_mem (f := Prod.fst) h) hm.1
    · rename_i h
      rw [ih hm.2]
      constructor
      · exact fun h => Or.inr h
      · rintro (h' | h')
        · exact absurd h'.1.symm h
        · exact h'

theorem lookup_isSome {m : List (α × Nat)} {k : α} :
    (lookup m k).isSome = true ↔ k ∈ m.map Prod.fst := by
  induction m with
  | nil => simp [lookup]
  | cons p t ih =>
    obtain ⟨k', a'⟩ := p
    simp only [lookup, List.map_cons, List.mem_cons]
    split
    · rename_i h; simp [h]
    · rename_i h; rw [ih]
      constructor
      · exact fun h => Or.inr h
      · rintro (h' | h')
        · exact absurd h'.symm h
        · exact h'

theorem Rep.map_keys {s : St α} {as l} (r : Rep s as l) : (s.map.map Prod.fst).Perm l := by
  have h := r.map.map Prod.fst
  rwa [List.map_fst_zip (Nat.le_of_eq r.len_eq.symm)] at h

theorem Rep.contains_iff {s : St α} {as l} (r : Rep s as l) (k : α) :
    contains s k = true ↔ k ∈ l := by
  unfold contains
  rw [lookup_isSome]; exact r.map_keys.mem_iff

theorem Rep.len {s : St α} {as l} (r : Rep s as l) : len s = l.length := by
  unfold OrderedSet.len
  have := r.map_keys.length_eq; simpa using this

theorem rep_init : Rep (init : St α) [] [] := by
  constructor <;> simp [init, Link]

theorem link_last {h : Heap α} (as : List Nat) (hl : Link h (0 :: (as ++ [0]))) :
    (h 0).prev = (0 :: as).getLast (by simp) := by
  rcases List.eq_nil_or_concat' as with rfl | ⟨t, b, rfl⟩
  · simpa [Link] using hl.2.1
  · have : Link h ((0 :: t) ++ b :: [0]) := by simpa using hl
    rw [link_append] at this
    have := this.2
    simp only [Link] at this
    simp [this.2.1]

theorem rep_add {s : St α} {as l} (r : Rep s as l) (k : α) :
    ∃ as', Rep (add s k) as' (if k ∈ l then l else l ++ [k]) := by
  unfold add
  by_cases hk : k ∈ l
  · rw [if_pos ((r.contains_iff k).2 hk), if_pos hk]; exact ⟨as, r⟩
  · rw [if_neg (fun h => hk ((r.contains_iff k).1 h)), if_neg hk]
    refine ⟨as ++ [s.fresh], ?_⟩
    have hprev := link_last as r.link
    have hf0 : s.fresh ≠ 0 := Nat.pos_iff_ne_zero.1 r.fpos
    have hfas : s.fresh ∉ as := fun h => Nat.lt_irrefl _ (r.lt _ h)
    set c := (s.heap 0).prev with hc
    have hcmem : c ∈ 0 :: as := by rw [hprev]; exact List.getLast_mem _
    have hcf : c ≠ s.fresh := by
      intro h; rw [h] at hcmem
      rcases List.mem_cons.1 hcmem with h | h
      · exact hf0 h
      · exact hfas h
    constructor
    · -- link
      obtain ⟨t, ht⟩ : ∃ t, 0 :: as = t ++ [c] := by
        refine ⟨(0 :: as).dropLast, ?_⟩
        rw [hprev, List.dropLast_append_getLast]
      have hold : Link s.heap (t ++ [c]) := by
        have h1 : Link s.heap (t ++ c :: [0]) := by
          have : t ++ c :: [0] = 0 :: (as ++ [0]) := by
            rw [show t ++ c :: [0] = (t ++ [c]) ++ [0] by simp, ← ht]; simp
          rw [this]; exact r.link
        rw [link_append] at h1; exact h1.1
      have heq : (0 :: (as ++ [s.fresh] ++ [0])) = t ++ c :: [s.fresh, 0] := by
        rw [show t ++ c :: [s.fresh, 0] = (t ++ [c]) ++ [s.fresh, 0] by simp, ← ht]; simp
      simp only [heq]
      rw [link_append]
      have hnodup0 : (0 :: as).Nodup := List.nodup_cons.2 ⟨fun h => r.pos 0 h rfl, r.nodup⟩
      rw [ht] at hnodup0
      have hct : c ∉ t := by
        intro h
        have := (List.nodup_append.1 hnodup0).2.2
        exact this c h c (by simp) rfl
      have htas : ∀ a ∈ t ++ [c], a ≠ s.fresh := by
        intro a ha; rw [← ht] at ha
        rcases List.mem_cons.1 ha with h | h
        · rw [h]; exact hf0.symm
        · intro h'; rw [h'] at h; exact hfas h
      constructor
      · refine link_frame s.heap _ _ ?_ ?_ hold
        · intro a ha
          rw [List.dropLast_concat] at ha
          have h1 : a ≠ c := fun h => hct (h ▸ ha)
          have h2 : a ≠ s.fresh := htas a (by simp [ha])
          simp only [setPrev, setNext, alloc]
          split <;> simp [h1, h2]
        · intro a ha
          rw [← ht] at ha
          simp only [List.tail_cons] at ha
          have h0 : a ≠ 0 := r.pos a ha
          have h2 : a ≠ s.fresh := fun h => hfas (h ▸ ha)
          simp only [setPrev, setNext, alloc, if_neg h0, if_neg h2]
          split <;> simp [h2]
      · simp only [Link, setPrev, setNext, alloc]
        refine ⟨?_, ?_, ?_, ?_, trivial⟩
        · split <;> simp
        · simp [hf0, hcf.symm]
        · simp [hf0, hcf.symm]
        · simp
    · rw [List.nodup_append]
      refine ⟨r.nodup, by simp, ?_⟩
      intro a ha b hb; simp at hb; subst hb
      exact fun h => hfas (h ▸ ha)
    · intro a ha; rcases List.mem_append.1 ha with h | h
      · exact r.pos a h
      · simp at h; rw [h]; exact hf0
    · intro a ha; rcases List.mem_append.1 ha with h | h
      · exact Nat.lt_succ_of_lt (r.lt a h)
      · simp at h; rw [h]; exact Nat.lt_succ_self _
    · exact Nat.succ_pos _
    · simp only [List.map_append, List.map_cons, List.map_nil]
      congr 1
      · rw [← r.keys]
        apply List.map_congr_left
        intro a ha
        have h2 : a ≠ s.fresh := fun h => hfas (h ▸ ha)
        simp only [setPrev, setNext, alloc]
        split
        · split <;> simp [h2]
        · split <;> simp [h2]
      · simp [setPrev, setNext, alloc, hf0, hcf.symm]
    · rw [List.nodup_append]
      refine ⟨r.lnodup, by simp, ?_⟩
      intro a ha b hb; simp at hb; subst hb
      exact fun h => hk (h ▸ ha)
    · rw [List.zip_append r.len_eq.symm]
      exact r.map.append_right _

theorem filter_zip_erase (l : List α) (as : List Nat) (k : α) (p : List α) (q : List α) (ap aq : List Nat) (a : Nat)
    (hl : l = p ++ k :: q) (ha : as = ap ++ a :: aq) (hlen : p.length = ap.length) (hn : l.Nodup) :
    (l.zip as).filter (fun x => decide (x.1 ≠ k)) = (p ++ q).zip (ap ++ aq) := by
  subst hl; subst ha
  have hp : k ∉ p := fun h => (List.nodup_append.1 hn).2.2 k h k (by simp) rfl
  have hq : k ∉ q := (List.nodup_cons.1 (List.nodup_append.1 hn).2.1).1
  rw [List.zip_append hlen, List.zip_append hlen, List.filter_append]
  congr 1
  · apply List.filter_eq_self.2
    intro x hx
    have := (List.of_mem_zip (a := x.1) (b := x.2) hx).1
    simp only [decide_eq_true_eq]
    exact fun h => hp (h ▸ this)
  · simp only [List.zip_cons_cons, List.filter_cons]
    simp only [ne_eq, not_true_eq_false, decide_false, Bool.false_eq_true, if_false]
    apply List.filter_eq_self.2
    intro x hx
    have := (List.of_mem_zip (a := x.1) (b := x.2) hx).1
    simp only [decide_eq_true_eq]
    exact fun h => hq (h ▸ this)

/-- Splitting off the cell of a key. -/
theorem Rep.split {s : St α} {as l} (r : Rep s as l) {k : α} (hk : k ∈ l) :
    ∃ p q ap a aq, l = p ++ k :: q ∧ as = ap ++ a :: aq ∧ p.length = ap.length ∧
      lookup s.map k = some a ∧ (s.heap a).key = some k := by
  obtain ⟨p, q, rfl⟩ := List.append_of_mem hk
  have hlen := r.len_eq
  have hlt : p.length < as.length := by rw [hlen]; simp
  refine ⟨p, q, as.take p.length, as[p.length], as.drop (p.length + 1), rfl, ?_, ?_, ?_, ?_⟩
  · rw [← List.drop_eq_getElem_cons hlt, List.take_append_drop]
  · simp; omega
  · have hnd : (s.map.map Prod.fst).Nodup := r.map_keys.nodup_iff.2 r.lnodup
    rw [lookup_eq_some hnd, r.map.mem_iff]
    rw [List.mem_iff_getElem]
    refine ⟨p.length, ?_, ?_⟩
    · simp [hlen]
    · simp
  · have := congrArg (fun x => x[p.length]?) r.keys
    simp [List.getElem?_eq_getElem hlt] at this
    exact this

theorem rep_discard {s : St α} {as l} (r : Rep s as l) (k : α) :
    ∃ as', Rep (discard s k) as' (l.erase k) := by
  unfold discard
  by_cases hk : k ∈ l
  swap
  · have : lookup s.map k = none := by
      have := r.contains_iff k
      unfold contains at this
      cases h : lookup s.map k with
      | none => rfl
      | some a => rw [h] at this; exact absurd (this.1 rfl) hk
    rw [this, List.erase_of_not_mem hk]
    exact ⟨as, r⟩
  obtain ⟨p, q, ap, a, aq, hl, ha, hlen, hlook, hkey⟩ := r.split hk
  rw [hlook]
  have hnd := r.nodup
  have hap : a ∉ ap := by
    rw [ha] at hnd; exact fun h => (List.nodup_append.1 hnd).2.2 a h a (by simp) rfl
  have haq : a ∉ aq := by
    rw [ha] at hnd; exact (List.nodup_cons.1 (List.nodup_append.1 hnd).2.1).1
  have ha0 : a ≠ 0 := r.pos a (by rw [ha]; simp)
  -- neighbours
  obtain ⟨tp, P, htp⟩ : ∃ tp P, (0 :: ap : List Nat) = tp ++ [P] :=
    ⟨(0 :: ap).dropLast, (0 :: ap).getLast (by simp), by rw [List.dropLast_append_getLast]⟩
  obtain ⟨N, tq, htq⟩ : ∃ N tq, (aq ++ [0] : List Nat) = N :: tq := by
    cases aq with
    | nil => exact ⟨0, [], rfl⟩
    | cons b t => exact ⟨b, t ++ [0], rfl⟩
  have hfull : (0 :: (as ++ [0])) = tp ++ P :: a :: N :: tq := by
    have : (0 :: (as ++ [0])) = (0 :: ap) ++ a :: (aq ++ [0]) := by rw [ha]; simp
    rw [this, htp, htq]; simp
  have hlink := r.link
  rw [hfull, link_append] at hlink
  obtain ⟨hL1, hL2⟩ := hlink
  simp only [Link] at hL2
  obtain ⟨e1, e2, e3, e4, hL3⟩ := hL2
  simp only [e2, e3]
  have hnd0 : (0 :: as).Nodup := List.nodup_cons.2 ⟨fun h => r.pos 0 h rfl, r.nodup⟩
  have hsplit0 : (0 :: as) = tp ++ P :: a :: aq := by
    have : (0 :: as) = (0 :: ap) ++ a :: aq := by rw [ha]; simp
    rw [this, htp]; simp
  rw [hsplit0] at hnd0
  have hPtp : P ∉ tp := fun h => (List.nodup_append.1 hnd0).2.2 P h P (by simp) rfl
  have hnd2 := (List.nodup_append.1 hnd0).2.1
  have hPaq : P ∉ aq := by
    intro h; have := (List.nodup_cons.1 hnd2).1; exact this (by simp [h])
  have hdisj : ∀ x ∈ tp ++ [P], x ∉ aq := by
    intro x hx hxa
    rcases List.mem_append.1 hx with h | h
    · exact (List.nodup_append.1 hnd0).2.2 x h x (by simp [hxa]) rfl
    · simp at h; rw [h] at hxa; exact hPaq hxa
  refine ⟨ap ++ aq, ?_⟩
  have hkeyf : ∀ x, (setPrev (setNext s.heap P N) N P x).key = (s.heap x).key := by
    intro x; simp only [setPrev, setNext]; split <;> split <;> rfl
  constructor
  · have heq : (0 :: (ap ++ aq ++ [0])) = tp ++ P :: N :: tq := by
      have : (0 :: (ap ++ aq ++ [0])) = (0 :: ap) ++ (aq ++ [0]) := by simp
      rw [this, htp, htq]; simp
    simp only [heq]
    rw [link_append]
    constructor
    · refine link_frame s.heap _ _ ?_ ?_ hL1
      · intro x hx
        rw [List.dropLast_concat] at hx
        have h1 : x ≠ P := fun h => hPtp (h ▸ hx)
        simp only [setPrev, setNext, if_neg h1]; split <;> rfl
      · intro x hx
        rw [← htp] at hx; simp only [List.tail_cons] at hx
        have hx0 : x ≠ 0 := r.pos x (by rw [ha]; simp [hx])
        have hxN : x ≠ N := by
          intro h
          have : N ∈ aq ++ [0] := by rw [htq]; simp
          rcases List.mem_append.1 this with h' | h'
          · rw [← h] at h'
            exact hdisj x (by rw [← htp]; simp [hx]) h'
          · simp at h'; exact hx0 (h.trans h')
        simp only [setPrev, setNext, if_neg hxN]; split <;> rfl
    · simp only [Link]
      refine ⟨?_, ?_, ?_⟩
      · simp only [setPrev, setNext]; split <;> simp
      · simp [setPrev]
      · refine link_frame s.heap _ _ ?_ ?_ hL3
        · intro x hx
          have hx' : x ∈ aq := by
            rw [← htq] at hx; rwa [List.dropLast_concat] at hx
          have h1 : x ≠ P := fun h => hPaq (h ▸ hx')
          simp only [setPrev, setNext, if_neg h1]; split <;> rfl
        · intro x hx
          simp only [List.tail_cons] at hx
          have hxN : x ≠ N := by
            intro h; subst h
            have hnd3 : (aq ++ [0]).Nodup := by
              rw [List.nodup_append]
              refine ⟨?_, by simp, ?_⟩
              · exact (List.nodup_cons.1 (List.nodup_cons.1 hnd2).2).2
              · intro y hy z hz; simp at hz; rw [hz]; exact r.pos y (by rw [ha]; simp [hy])
            rw [htq] at hnd3
            exact (List.nodup_cons.1 hnd3).1 hx
          simp only [setPrev, setNext, if_neg hxN]; split <;> rfl
  · rw [ha] at hnd
    exact (List.nodup_middle.1 hnd).of_cons
  · intro x hx; apply r.pos; rw [ha]; simp at hx ⊢; tauto
  · intro x hx; apply r.lt; rw [ha]; simp at hx ⊢; tauto
  · exact r.fpos
  · have hk2 := r.keys
    rw [ha, hl] at hk2
    simp only [List.map_append, List.map_cons] at hk2
    have hA := List.append_inj hk2 (by simp [hlen])
    have hpk : k ∉ p := by
      have := r.lnodup; rw [hl] at this
      exact fun h => (List.nodup_append.1 this).2.2 k h k (by simp) rfl
    rw [hl, List.erase_append_right _ hpk, List.erase_cons_head]
    simp only [hkeyf, List.map_append]
    rw [hA.1]
    have := hA.2
    simp only [List.cons.injEq] at this
    rw [this.2]
  · exact r.lnodup.erase k
  · have hpk : k ∉ p := by
      have := r.lnodup; rw [hl] at this
      exact fun h => (List.nodup_append.1 this).2.2 k h k (by simp) rfl
    have := r.map.filter (fun x => decide (x.1 ≠ k))
    rw [filter_zip_erase l as k p q ap aq a hl ha hlen r.lnodup] at this
    rw [hl, List.erase_append_right _ hpk, List.erase_cons_head]
    exact this

theorem walkNext_eq (h : Heap α) (as : List Nat) (l : List α) (fuel c : Nat) (hf : as.length < fuel)
    (hlink : Link h (c :: (as ++ [0]))) (hpos : ∀ a ∈ as, a ≠ 0)
    (hk : as.map (fun a => (h a).key) = l.map some) : walkNext h fuel (h c).next = some l := by
  induction as generalizing l fuel c with
  | nil =>
    obtain ⟨f, rfl⟩ : ∃ f, fuel = f + 1 := ⟨fuel - 1, by simp at hf; omega⟩
    simp [Link] at hlink
    have : l = [] := by cases l with
      | nil => rfl
      | cons _ _ => simp at hk
    simp [walkNext, hlink.1, this]
  | cons a t ih =>
    obtain ⟨f, rfl⟩ : ∃ f, fuel = f + 1 := ⟨fuel - 1, by simp at hf; omega⟩
    simp only [List.cons_append, Link] at hlink
    cases l with
    | nil => simp at hk
    | cons k l =>
      simp only [List.map_cons, List.cons.injEq] at hk
      rw [hlink.1]
      simp only [walkNext, if_neg (hpos a (by simp)), hk.1]
      rw [ih l f a (by simp at hf; omega) hlink.2.2 (fun x hx => hpos x (by simp [hx])) hk.2]
      rfl

/-- A reversed doubly linked chain is a chain for `prev`. -/
theorem walkPrev_eq (h : Heap α) (as : List Nat) (l : List α) (fuel c : Nat) (hf : as.length < fuel)
    (hlink : Link h (0 :: (as ++ [c]))) (hpos : ∀ a ∈ as, a ≠ 0)
    (hk : as.map (fun a => (h a).key) = l.map some) : walkPrev h fuel (h c).prev = some l.reverse := by
  induction as using List.reverseRecOn generalizing l fuel c with
  | nil =>
    obtain ⟨f, rfl⟩ : ∃ f, fuel = f + 1 := ⟨fuel - 1, by simp at hf; omega⟩
    simp [Link] at hlink
    have : l = [] := by cases l with
      | nil => rfl
      | cons _ _ => simp at hk
    simp [walkPrev, hlink.2, this]
  | append_singleton t a ih =>
    obtain ⟨f, rfl⟩ : ∃ f, fuel = f + 1 := ⟨fuel - 1, by simp at hf; omega⟩
    rcases List.eq_nil_or_concat' l with rfl | ⟨l', k, rfl⟩
    · simp at hk
    · have hl' : Link h ((0 :: t) ++ a :: [c]) := by simpa using hlink
      rw [link_append] at hl'
      simp only [List.map_append, List.map_cons, List.map_nil] at hk
      have hlen : (t.map (fun a => (h a).key)).length = (l'.map some).length := by
        have := congrArg List.length hk; simp at this; simpa using this
      have hA := List.append_inj hk hlen
      simp only [Link] at hl'
      rw [hl'.2.2.1]
      have hka : (h a).key = some k := by simpa using hA.2
      simp only [walkPrev, if_neg (hpos a (by simp)), hka]
      rw [ih l' f a (by simp at hf; omega) (by simpa using hl'.1) (fun x hx => hpos x (by simp [hx])) hA.1]
      simp

theorem nodup_lt_length (as : List Nat) (n : Nat) (hn : as.Nodup) (h0 : ∀ a ∈ as, a ≠ 0) (hlt : ∀ a ∈ as, a < n)
    (hpos : 0 < n) : as.length < n := by
  have h1 : (0 :: as).Nodup := List.nodup_cons.2 ⟨fun h => h0 0 h rfl, hn⟩
  have hsub : (0 :: as) ⊆ List.range n := by
    intro x hx; rw [List.mem_range]
    rcases List.mem_cons.1 hx with h | h
    · omega
    · exact hlt x h
  have := (List.subperm_of_subset h1 hsub).length_le
  simp at this; omega

theorem Rep.iter {s : St α} {as l} (r : Rep s as l) : iter s = some l :=
  walkNext_eq s.heap as l s.fresh 0 (nodup_lt_length as _ r.nodup r.pos r.lt r.fpos) r.link r.pos r.keys

theorem Rep.reversed {s : St α} {as l} (r : Rep s as l) : reversed s = some l.reverse :=
  walkPrev_eq s.heap as l s.fresh 0 (nodup_lt_length as _ r.nodup r.pos r.lt r.fpos) r.link r.pos r.keys

theorem erase_last (l : List α) (k : α) (h : (l ++ [k]).Nodup) : (l ++ [k]).erase k = l := by
  have : k ∉ l := fun hk => (List.nodup_append.1 h).2.2 k hk k (by simp) rfl
  rw [List.erase_append_right _ this]; simp

theorem rep_step {s : St α} {as l} (r : Rep s as l) (op : Op α) :
    (step s op).2 = (Spec.step l op).2 ∧ ∃ as', Rep (step s op).1 as' (Spec.step l op).1 := by
  cases op with
  | add k => exact ⟨rfl, rep_add r k⟩
  | discard k => exact ⟨rfl, rep_discard r k⟩
  | pop last =>
    simp only [step, pop, r.len]
    cases last with
    | true =>
      rcases List.eq_nil_or_concat' l with rfl | ⟨l', k, rfl⟩
      · simp [Spec.step]; exact ⟨as, r⟩
      · rcases List.eq_nil_or_concat' as with rfl | ⟨as', a, rfl⟩
        · have := r.len_eq; simp at this
        · have hp := link_last _ r.link
          have hp' : (s.heap 0).prev = a := by simpa using hp
          have hk := r.keys
          simp only [List.map_append, List.map_cons, List.map_nil] at hk
          have hA := List.append_inj hk (by have := r.len_eq; simpa using this)
          have hka : (s.heap a).key = some k := by simpa using hA.2
          simp only [Spec.step, List.length_append, List.length_cons, List.length_nil, Nat.add_eq_zero_iff,
            if_neg (show ¬ (l'.length = 0 ∧ 0 + 1 = 0) by simp), if_true, hp', hka]
          simp
          have := rep_discard r k
          rwa [erase_last _ _ r.lnodup] at this
    | false =>
      cases l with
      | nil => simp [Spec.step]; exact ⟨as, r⟩
      | cons k l' =>
        cases as with
        | nil => have := r.len_eq; simp at this
        | cons a as' =>
          have hl := r.link
          simp only [List.cons_append, Link] at hl
          have hka : (s.heap a).key = some k := by
            have := r.keys; simp only [List.map_cons, List.cons.injEq] at this; exact this.1
          simp only [Spec.step, List.length_cons, if_neg (Nat.succ_ne_zero _), Bool.false_eq_true, if_false,
            hl.1, hka, true_and]
          have := rep_discard r k
          rwa [List.erase_cons_head] at this

theorem rep_run {s : St α} {as l} (r : Rep s as l) (ops : List (Op α)) :
    (run s ops).2 = (Spec.run l ops).2 ∧ ∃ as', Rep (run s ops).1 as' (Spec.run l ops).1 := by
  induction ops generalizing s as l with
  | nil => exact ⟨rfl, as, r⟩
  | cons op ops ih =>
    obtain ⟨h1, as', r'⟩ := rep_step r op
    obtain ⟨h2, h3⟩ := ih r'
    simp only [run, Spec.run]
    exact ⟨by rw [h1, h2], h3⟩

end Cis.OrderedSet
