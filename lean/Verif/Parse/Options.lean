import Verif.Parse.OptionsModel
import Verif.Parse.Props
import Mathlib.Data.List.Induction
import Mathlib.Data.List.Nodup
import Mathlib.Data.List.Perm.Subperm
set_option linter.unusedSectionVars false
set_option linter.unusedSimpArgs false
/-!
Properties of the optional arguments of a datagroup (C61), and the converse of C30: writing pieces with brackets and splitting
gives them back.
-/
namespace Cis.Parse
open Cis.Str

/-! ### Splitting is the inverse of joining -/

theorem cutPositions_ge (full : List Str) : ∀ f fs, full = f :: fs → ∀ i ∈ cutPositions full, f.length ≤ i := by
  intro f fs e i hi
  subst e
  cases fs with
  | nil => simp [cutPositions] at hi
  | cons g gs =>
    simp only [cutPositions, List.mem_cons, List.mem_map] at hi
    rcases hi with rfl | ⟨j, _, rfl⟩ <;> omega

theorem cutPositions_sorted (full : List Str) : (cutPositions full).Pairwise (· < ·) := by
  induction full with
  | nil => simp [cutPositions]
  | cons f fs ih =>
    cases fs with
    | nil => simp [cutPositions]
    | cons g gs =>
      simp only [cutPositions, List.pairwise_cons, List.mem_map, List.pairwise_map]
      refine ⟨?_, ih.imp (by intro a b h; omega)⟩
      rintro i ⟨j, _, rfl⟩
      omega

/-- The pieces are determined by the string and the positions of the cuts. -/
theorem pieces_unique : ∀ (f1 f2 : List Str) (c1 c2 : List Char), f1.length = c1.length + 1 → f2.length = c2.length + 1 →
    weave f1 c1 = weave f2 c2 → cutPositions f1 = cutPositions f2 → f1 = f2 := by
  intro f1
  induction f1 with
  | nil => intro f2 c1 c2 h; simp at h
  | cons a t ih =>
    intro f2 c1 c2 h1 h2 hw hc
    cases f2 with
    | nil => simp at h2
    | cons b s =>
      cases t with
      | nil =>
        cases s with
        | nil =>
          cases c1 with
          | nil => cases c2 with
            | nil => simpa [weave] using hw
            | cons => simp at h2
          | cons => simp at h1
        | cons => simp [cutPositions] at hc
      | cons a' t' =>
        cases s with
        | nil => simp [cutPositions] at hc
        | cons b' s' =>
          cases c1 with
          | nil => simp at h1
          | cons x c1 =>
            cases c2 with
            | nil => simp at h2
            | cons y c2 =>
              simp only [cutPositions, List.cons.injEq] at hc
              simp only [weave] at hw
              obtain ⟨e1, e2⟩ := List.append_inj hw hc.1
              simp only [List.cons.injEq] at e2
              have := ih (b' :: s') c1 c2 (by simpa using h1) (by simpa using h2) e2.2 (by
                have h3 := hc.2
                rw [hc.1] at h3
                exact List.map_injective_iff.2 (by intro p q; simp) h3)
              rw [e1, this]

/-- All brackets opened are closed again. -/
def Balanced (close : Char → Option Char) (s : Str) : Prop := expected close s = []

theorem expected_append_balanced (close : Char → Option Char) (f t : Str) (h : Balanced close f) :
    expected close (f ++ t) = expected close t := by
  unfold Balanced expected at h
  unfold expected
  rw [List.foldl_append, h]

theorem outside_glue (seps : List Char) (close : Char → Option Char) (f t : Str) (c : Char) (hc : c ∈ seps)
    (hcl : close c = none) (hb : Balanced close f) (hno : ∀ i, ¬ OutsideSep seps close f i) (i : Nat) :
    OutsideSep seps close (f ++ c :: t) i ↔ i = f.length ∨ ∃ j, OutsideSep seps close t j ∧ j + (f.length + 1) = i := by
  have hone : expected close (f ++ [c]) = [] := by
    rw [expected_append_balanced _ _ _ hb]
    simp [expected, hcl]
  rcases lt_trichotomy i f.length with h | h | h
  · constructor
    · rintro ⟨x, hx, h1, h2, h3⟩
      rw [List.getElem?_append_left h] at hx
      rw [List.take_append_of_le_length (le_of_lt h)] at h3
      exact absurd ⟨x, hx, h1, h2, h3⟩ (hno i)
    · rintro (rfl | ⟨j, _, rfl⟩) <;> omega
  · subst h
    simp only [true_or, iff_true]
    exact ⟨c, by simp, hc, hcl, by simpa [Balanced] using hb⟩
  · obtain ⟨j, rfl⟩ : ∃ j, i = j + (f.length + 1) := ⟨i - (f.length + 1), by omega⟩
    have e1 : (f ++ c :: t)[j + (f.length + 1)]? = t[j]? := by
      rw [List.getElem?_append_right (by omega)]
      have : j + (f.length + 1) - f.length = j + 1 := by omega
      rw [this]; simp
    have e2 : expected close ((f ++ c :: t).take (j + (f.length + 1))) = expected close (t.take j) := by
      have : (f ++ c :: t).take (j + (f.length + 1)) = (f ++ [c]) ++ t.take j := by
        rw [List.take_append, List.take_of_length_le (by omega)]
        have : j + (f.length + 1) - f.length = j + 1 := by omega
        rw [this]; simp
      rw [this, expected_append_balanced _ _ _ hone]
    constructor
    · rintro ⟨x, hx, h1, h2, h3⟩
      exact Or.inr ⟨j, ⟨x, by rw [← e1]; exact hx, h1, h2, by rw [← e2]; exact h3⟩, rfl⟩
    · rintro (h' | ⟨j', ⟨x, hx, h1, h2, h3⟩, hj⟩)
      · omega
      · have : j' = j := by omega
        subst this
        exact ⟨x, by rw [e1]; exact hx, h1, h2, by rw [e2]; exact h3⟩

/-- A piece that stays whole: balanced brackets (only needed before another piece) and no separator outside of them. -/
def Whole (seps : List Char) (close : Char → Option Char) (s : Str) : Prop := ∀ i, ¬ OutsideSep seps close s i

theorem outside_join (seps : List Char) (close : Char → Option Char) (c : Char) (hc : c ∈ seps) (hcl : close c = none) :
    ∀ ps : List Str, ps ≠ [] → (∀ p ∈ ps, Whole seps close p) → (∀ p ∈ ps.dropLast, Balanced close p) →
      ∃ cs, ps.length = cs.length + 1 ∧ weave ps cs = join c ps ∧
        ∀ i, i ∈ cutPositions ps ↔ OutsideSep seps close (join c ps) i := by
  intro ps
  induction ps with
  | nil => intro h; exact absurd rfl h
  | cons p t ih =>
    intro _ hw hb
    cases t with
    | nil =>
      refine ⟨[], rfl, by simp [weave, join], ?_⟩
      intro i
      simp only [cutPositions, List.not_mem_nil, join, false_iff]
      exact hw p (by simp) i
    | cons q r =>
      obtain ⟨cs, h1, h2, h3⟩ := ih (by simp) (fun x hx => hw x (by simp [hx])) (fun x hx => hb x (by
        simp only [List.dropLast_cons_cons, List.mem_cons]; exact Or.inr hx))
      refine ⟨c :: cs, by simp [h1], by simp only [weave, join, h2], ?_⟩
      intro i
      rw [cutPositions, join]
      · rw [outside_glue seps close p _ c hc hcl (hb p (by simp)) (hw p (by simp))]
        simp only [List.mem_cons, List.mem_map]
        constructor
        · rintro (h | ⟨j, hj, hi⟩)
          · exact Or.inl h
          · exact Or.inr ⟨j, (h3 j).1 hj, hi⟩
        · rintro (h | ⟨j, hj, hi⟩)
          · exact Or.inl h
          · exact Or.inr ⟨j, (h3 j).2 hj, hi⟩
      · simp

theorem sorted_ext (l1 l2 : List Nat) (h1 : l1.Pairwise (· < ·)) (h2 : l2.Pairwise (· < ·)) (h : ∀ i, i ∈ l1 ↔ i ∈ l2) :
    l1 = l2 := by
  have n1 : l1.Nodup := h1.imp (fun h => Nat.ne_of_lt h)
  have n2 : l2.Nodup := h2.imp (fun h => Nat.ne_of_lt h)
  exact ((List.perm_ext_iff_of_nodup n1 n2).2 h).eq_of_pairwise (by intros; omega) h1 h2

/-- **C30** (inverse). Pieces without separators outside of brackets, with balanced brackets (except that the last one need
not be), and a non-empty last piece, are given back when joined by a separator and split. -/
theorem split_outside_join (seps : List Char) (close : Char → Option Char) (c : Char) (hc : c ∈ seps) (hcl : close c = none)
    (ps : List Str) (hne : ps.getLast? ≠ some []) (hw : ∀ p ∈ ps, Whole seps close p)
    (hb : ∀ p ∈ ps.dropLast, Balanced close p) : splitOutside seps close (join c ps) = ps := by
  by_cases hnil : ps = []
  · subst hnil
    simp [join, splitOutside, bloop, slices]
  obtain ⟨cs, h1, h2, h3⟩ := outside_join seps close c hc hcl ps hnil hw hb
  obtain ⟨full, cs', h4, h5, h6, h7⟩ := split_outside seps close (join c ps)
  have := pieces_unique full ps cs' cs h4 h1 (by rw [h5, h2])
    (sorted_ext _ _ (cutPositions_sorted _) (cutPositions_sorted _) (fun i => by rw [h7, h3]))
  rw [h6, this, dropEmptyLast, if_neg hne]

/-! ### C61 -/

/-- A written option `key=value`: a key without '=' or opening brackets, a non-empty value whose brackets are balanced and
that has neither '=' nor ',' outside of brackets. -/
structure WellFormed (kv : Str × Str) : Prop where
  key : ∀ c ∈ kv.1, c ≠ '=' ∧ c ≠ ',' ∧ defaultClose c = none
  ne : kv.2 ≠ []
  eqs : Whole ['='] defaultClose kv.2
  commas : Whole [','] defaultClose kv.2
  balanced : Balanced defaultClose kv.2

/-- `key=value`. -/
def written (kv : Str × Str) : Str := kv.1 ++ '=' :: kv.2

theorem balanced_plain (close : Char → Option Char) (s : Str) (h : ∀ c ∈ s, close c = none) : Balanced close s := by
  unfold Balanced
  induction s using List.reverseRecOn with
  | nil => rfl
  | append_singleton t c ih =>
    rw [expected_append, ih (fun x hx => h x (by simp [hx]))]
    simp [expStep, h c (by simp)]

theorem whole_plain (seps : List Char) (close : Char → Option Char) (s : Str) (h : ∀ c ∈ s, c ∉ seps) :
    Whole seps close s := by
  rintro i ⟨c, hc, hs, -⟩
  exact h c (List.mem_of_getElem? hc) hs

theorem keyVal_written (kv : Str × Str) (h : WellFormed kv) : keyVal (written kv) = [kv.1, kv.2] := by
  have hj : written kv = join '=' [kv.1, kv.2] := by simp [written, join]
  rw [keyVal, hj]
  apply split_outside_join
  · simp
  · rfl
  · simpa using h.ne
  · intro p hp
    simp only [List.mem_cons, List.not_mem_nil, or_false] at hp
    rcases hp with rfl | rfl
    · exact whole_plain _ _ _ (fun c hc => by simpa using (h.key c hc).1)
    · exact h.eqs
  · intro p hp
    simp only [List.dropLast_cons_cons, List.dropLast_singleton, List.mem_cons, List.not_mem_nil, or_false] at hp
    subst hp
    exact balanced_plain _ _ (fun c hc => (h.key c hc).2.2)

theorem plain_bal_append (kv : Str × Str) (h : WellFormed kv) : Balanced defaultClose (written kv) := by
  unfold Balanced written
  rw [expected_append_balanced _ _ _ (balanced_plain _ _ (fun c hc => (h.key c hc).2.2))]
  have : Balanced defaultClose (['='] : Str) := by unfold Balanced; decide
  have e : '=' :: kv.2 = ['='] ++ kv.2 := rfl
  rw [e, expected_append_balanced _ _ _ this]
  exact h.balanced

theorem whole_append (seps : List Char) (close : Char → Option Char) (f t : Str) (hb : Balanced close f)
    (hf : Whole seps close f) (ht : Whole seps close t) : Whole seps close (f ++ t) := by
  rintro i ⟨x, hx, h1, h2, h3⟩
  rcases lt_or_ge i f.length with h | h
  · rw [List.getElem?_append_left h] at hx
    rw [List.take_append_of_le_length (le_of_lt h)] at h3
    exact hf i ⟨x, hx, h1, h2, h3⟩
  · rw [List.getElem?_append_right h] at hx
    rw [List.take_append, List.take_of_length_le h, expected_append_balanced _ _ _ hb] at h3
    exact ht _ ⟨x, hx, h1, h2, h3⟩

theorem written_whole (kv : Str × Str) (h : WellFormed kv) : Whole [','] defaultClose (written kv) := by
  have e : written kv = (kv.1 ++ ['=']) ++ kv.2 := by simp [written]
  have hp : ∀ c ∈ kv.1 ++ ['='], c ≠ ',' ∧ defaultClose c = none := by
    intro c hc
    rcases List.mem_append.1 hc with hc | hc
    · exact (h.key c hc).2
    · simp at hc; subst hc; decide
  rw [e]
  exact whole_append _ _ _ _ (balanced_plain _ _ (fun c hc => (hp c hc).2))
    (whole_plain _ _ _ (fun c hc => by simpa using (hp c hc).1)) h.commas

/-- The comma separated options are recovered. -/
theorem comma_options (kvs : List (Str × Str)) (h : ∀ kv ∈ kvs, WellFormed kv) :
    splitOutside [','] defaultClose (join ',' (kvs.map written)) = kvs.map written := by
  apply split_outside_join
  · simp
  · rfl
  · intro e
    have := List.mem_of_getLast? e
    obtain ⟨kv, _, hkv⟩ := List.mem_map.1 this
    simp [written] at hkv
  · intro p hp
    obtain ⟨kv, hkv, rfl⟩ := List.mem_map.1 hp
    exact written_whole kv (h kv hkv)
  · intro p hp
    obtain ⟨kv, hkv, rfl⟩ := List.mem_map.1 (List.dropLast_subset _ hp)
    exact plain_bal_append kv (h kv hkv)

variable {V : Type}

theorem innerLoop_none (o : Str) (chk : Str → Option V) (kvs : List (Str × Str)) (hwf : ∀ kv ∈ kvs, WellFormed kv)
    (d : List (Str × V)) : ∀ (fuel i : Nat), (∀ j kv, i ≤ j → kvs[j]? = some kv → kv.1 ≠ o) →
      innerLoop o chk fuel i (kvs.map written) d = some (kvs.map written, d) := by
  intro fuel
  induction fuel with
  | zero => intro i _; rfl
  | succ n ih =>
    intro i h
    rw [innerLoop]
    cases hk : kvs[i]? with
    | none => simp [hk]
    | some kv =>
      simp only [List.getElem?_map, hk, Option.map_some]
      rw [keyVal_written kv (hwf kv (List.mem_of_getElem? hk))]
      simp only [if_neg (h i kv le_rfl hk)]
      exact ih (i + 1) (fun j kv hj => h j kv (by omega))

theorem written_inj (a b : Str × Str) (ha : WellFormed a) (hb : WellFormed b) (h : written a = written b) : a = b := by
  have h1 := keyVal_written a ha
  have h2 := keyVal_written b hb
  rw [h, h2] at h1
  simp only [List.cons.injEq, and_true] at h1
  exact Prod.ext h1.1.symm h1.2.symm

/-- The inner loop for an option written once. -/
theorem innerLoop_hit (o : Str) (chk : Str → Option V) (pre post : List (Str × Str)) (v : Str)
    (hwf : ∀ kv ∈ pre ++ (o, v) :: post, WellFormed kv) (hpre : ∀ kv ∈ pre, kv.1 ≠ o) (hpost : ∀ kv ∈ post, kv.1 ≠ o)
    (d : List (Str × V)) : ∀ (fuel i : Nat), i ≤ pre.length → pre.length < i + fuel →
      innerLoop o chk fuel i ((pre ++ (o, v) :: post).map written) d =
        (chk v).map (fun x => ((pre ++ post).map written, (o, x) :: d)) := by
  intro fuel
  induction fuel with
  | zero => intro i h1 h2; omega
  | succ n ih =>
    intro i h1 h2
    rw [innerLoop]
    rcases Nat.lt_or_eq_of_le h1 with hi | hi
    · have hk : (pre ++ (o, v) :: post)[i]? = some pre[i] := by
        rw [List.getElem?_append_left hi, List.getElem?_eq_getElem hi]
      simp only [List.getElem?_map, hk, Option.map_some]
      rw [keyVal_written pre[i] (hwf _ (List.mem_of_getElem? hk))]
      simp only [if_neg (hpre _ (List.getElem_mem hi))]
      exact ih (i + 1) (by omega) (by omega)
    · subst hi
      have hk : (pre ++ (o, v) :: post)[pre.length]? = some (o, v) := by simp
      have hw : WellFormed (o, v) := hwf _ (by simp)
      simp only [List.getElem?_map, hk, Option.map_some]
      rw [keyVal_written (o, v) hw]
      simp only [if_true]
      cases hc : chk v with
      | none => rfl
      | some x =>
        dsimp only [Option.map_some]
        have he : ((pre ++ (o, v) :: post).map written).erase (written (o, v)) = (pre ++ post).map written := by
          rw [List.map_append, List.map_cons, List.erase_append_right]
          · simp
          · intro hm
            obtain ⟨kv, hkv, e⟩ := List.mem_map.1 hm
            have := written_inj kv (o, v) (hwf kv (by simp [hkv])) hw e
            exact hpre kv hkv (by rw [this])
        rw [he]
        apply innerLoop_none
        · intro kv hkv
          apply hwf
          simp only [List.mem_append, List.mem_cons] at hkv ⊢
          tauto
        · intro j kv hj hjk
          have := List.mem_of_getElem? hjk
          rcases List.mem_append.1 this with h | h
          · exact hpre kv h
          · exact hpost kv h

/-- What the loops compute: the options in order, each looked up among the written ones. -/
def assigned : Opts V → List (Str × Str) → List (Str × V) → Option (List (Str × Str) × List (Str × V))
  | [], kvs, d => some (kvs, d)
  | (o, chk) :: t, kvs, d =>
    match kvs.lookup o with
    | none => assigned t kvs d
    | some v => match chk v with
      | none => none
      | some x => assigned t (kvs.filter (fun kv => kv.1 ≠ o)) ((o, x) :: d)

theorem lookup_split (o v : Str) (kvs : List (Str × Str)) (h : kvs.lookup o = some v) :
    ∃ pre post, kvs = pre ++ (o, v) :: post ∧ ∀ kv ∈ pre, kv.1 ≠ o := by
  induction kvs with
  | nil => simp at h
  | cons a t ih =>
    obtain ⟨k, w⟩ := a
    rw [List.lookup_cons] at h
    split at h
    · next e =>
      simp at e h
      subst e; subst h
      exact ⟨[], t, rfl, by simp⟩
    · next e =>
      obtain ⟨pre, post, e1, e2⟩ := ih h
      refine ⟨(k, w) :: pre, post, by simp [e1], ?_⟩
      intro kv hkv
      rcases List.mem_cons.1 hkv with rfl | hkv
      · intro h'; simp at h'; simp [h'] at e
      · exact e2 kv hkv

theorem lookup_none (o : Str) (kvs : List (Str × Str)) (h : kvs.lookup o = none) : ∀ kv ∈ kvs, kv.1 ≠ o := by
  induction kvs with
  | nil => simp
  | cons a t ih =>
    obtain ⟨k, w⟩ := a
    rw [List.lookup_cons] at h
    split at h
    · simp at h
    · next e =>
      intro kv hkv
      rcases List.mem_cons.1 hkv with rfl | hkv
      · intro h'; simp at h'; simp [h'] at e
      · exact ih h kv hkv

theorem outerLoop_eq (opts : Opts V) : ∀ (kvs : List (Str × Str)) (d : List (Str × V)), (∀ kv ∈ kvs, WellFormed kv) →
    (kvs.map Prod.fst).Nodup →
    outerLoop opts (kvs.map written) d = (assigned opts kvs d).map (fun r => (r.1.map written, r.2)) := by
  induction opts with
  | nil => intro kvs d _ _; rfl
  | cons p t ih =>
    obtain ⟨o, chk⟩ := p
    intro kvs d hwf hn
    rw [outerLoop, assigned]
    cases hl : kvs.lookup o with
    | none =>
      rw [innerLoop_none o chk kvs hwf d _ 0 (fun j kv _ h => lookup_none o kvs hl kv (List.mem_of_getElem? h))]
      exact ih kvs d hwf hn
    | some v =>
      obtain ⟨pre, post, rfl, hp⟩ := lookup_split o v kvs hl
      have hpost : ∀ kv ∈ post, kv.1 ≠ o := by
        intro kv hkv e
        simp only [List.map_append, List.map_cons] at hn
        have := (List.nodup_append.1 hn).2.1
        exact (List.nodup_cons.1 this).1 (List.mem_map.2 ⟨kv, hkv, e⟩)
      rw [innerLoop_hit o chk pre post v hwf hp hpost d _ 0 (by omega) (by simp)]
      cases hc : chk v with
      | none => simp [hc]
      | some x =>
        have hf : (pre ++ (o, v) :: post).filter (fun kv => decide (kv.1 ≠ o)) = pre ++ post := by
          rw [List.filter_append, List.filter_cons_of_neg (by simp),
            List.filter_eq_self.2 (fun a ha => by simpa using hp a ha),
            List.filter_eq_self.2 (fun a ha => by simpa using hpost a ha)]
        simp only [Option.map_some, hc]
        rw [hf]
        apply ih
        · intro kv hkv
          apply hwf
          simp only [List.mem_append, List.mem_cons] at hkv ⊢
          tauto
        · refine hn.sublist ?_
          exact List.Sublist.map _ (List.Sublist.append_left (List.sublist_cons_self _ _) _)

/-- What is assigned, when the checks succeed. -/
theorem assigned_sound (opts : Opts V) : ∀ (kvs : List (Str × Str)) (d r : List (Str × V)), (opts.map Prod.fst).Nodup →
    (kvs.map Prod.fst).Nodup → ∀ kvs', assigned opts kvs d = some (kvs', r) →
      (∀ n, n ∉ opts.map Prod.fst ∨ n ∉ kvs.map Prod.fst → r.lookup n = d.lookup n) ∧
      (∀ kv ∈ kvs, kv ∉ kvs' → ∃ chk x, (kv.1, chk) ∈ opts ∧ chk kv.2 = some x ∧ r.lookup kv.1 = some x) := by
  intro kvs d r h1
  revert kvs d r
  induction opts with
  | nil => intro kvs d r _ kvs' e; simp [assigned] at e; obtain ⟨rfl, rfl⟩ := e
           exact ⟨fun _ _ => rfl, fun kv hk hn => absurd hk hn⟩
  | cons p t ih =>
    obtain ⟨o, chk⟩ := p
    intro kvs d r h2 kvs' e
    simp only [List.map_cons, List.nodup_cons] at h1
    rw [assigned] at e
    split at e
    · next hl =>
      obtain ⟨i1, i2⟩ := ih h1.2 kvs d r h2 kvs' e
      constructor
      · intro n hn
        by_cases hno : n ∉ t.map Prod.fst ∨ n ∉ kvs.map Prod.fst
        · exact i1 n hno
        · push Not at hno
          rcases hn with hn | hn
          · simp at hn; simp at hno; exact absurd hno.1 (by simpa using hn.2)
          · exact absurd hno.2 hn
      · intro kv hkv hk'
        obtain ⟨c, x, a1, a2, a3⟩ := i2 kv hkv hk'
        exact ⟨c, x, by simp [a1], a2, a3⟩
    · next v hl =>
      split at e
      · simp at e
      · next x hx =>
        obtain ⟨pre, post, rfl, hp⟩ := lookup_split o v kvs hl
        have h2' : ((List.filter (fun kv => decide (kv.1 ≠ o)) (pre ++ (o, v) :: post)).map Prod.fst).Nodup :=
          h2.sublist (List.Sublist.map _ List.filter_sublist)
        obtain ⟨i1, i2⟩ := ih h1.2 _ ((o, x) :: d) r h2' kvs' e
        have ho : r.lookup o = some x := by
          rw [i1 o (Or.inl h1.1)]; simp
        constructor
        · intro n hn
          have hno : n ≠ o := by
            rintro rfl
            simp at hn
          rw [i1 n (by
            rcases hn with hn | hn
            · left; intro hh; exact hn (by simp at hh ⊢; exact Or.inr hh)
            · right; intro hh; apply hn
              obtain ⟨a, ha, rfl⟩ := List.mem_map.1 hh
              exact List.mem_map.2 ⟨a, (List.mem_filter.1 ha).1, rfl⟩)]
          rw [List.lookup_cons]
          have : (n == o) = false := by simpa using hno
          rw [this]
        · intro kv hkv hk'
          by_cases hko : kv.1 = o
          · have hv : kv.2 = v := by
              have hn := List.nodup_append.1 (by simpa using h2)
              rcases List.mem_append.1 hkv with hm | hm
              · exact absurd hko (hp kv hm)
              · rcases List.mem_cons.1 hm with rfl | hm
                · rfl
                · have := (List.nodup_cons.1 hn.2.1).1
                  exact absurd (List.mem_map.2 ⟨kv, hm, hko⟩) (by simpa using this)
            exact ⟨chk, x, by simp [hko], by rw [hv]; exact hx, by rw [hko]; exact ho⟩
          · obtain ⟨c, y, a1, a2, a3⟩ := i2 kv (List.mem_filter.2 ⟨hkv, by simpa using hko⟩) hk'
            exact ⟨c, y, by simp [a1], a2, a3⟩


theorem lookup_mem (kvs : List (Str × Str)) (kv : Str × Str) (h : kv ∈ kvs) (hn : (kvs.map Prod.fst).Nodup) :
    kvs.lookup kv.1 = some kv.2 := by
  induction kvs with
  | nil => simp at h
  | cons a t ih =>
    obtain ⟨k, w⟩ := a
    rw [List.lookup_cons]
    simp only [List.map_cons, List.nodup_cons] at hn
    rcases List.mem_cons.1 h with rfl | h
    · simp
    · have : kv.1 ≠ k := by
        intro e
        exact hn.1 (List.mem_map.2 ⟨kv, h, e⟩)
      have h' : (kv.1 == k) = false := by simpa using this
      rw [h']
      exact ih h hn.2

/-- If all the written options exist and have valid values, all are assigned. -/
theorem assigned_complete (opts : Opts V) : ∀ (kvs : List (Str × Str)) (d : List (Str × V)),
    (opts.map Prod.fst).Nodup → (kvs.map Prod.fst).Nodup →
    (∀ kv ∈ kvs, ∃ chk x, (kv.1, chk) ∈ opts ∧ chk kv.2 = some x) → ∃ r, assigned opts kvs d = some ([], r) := by
  induction opts with
  | nil =>
    intro kvs d _ _ h
    cases kvs with
    | nil => exact ⟨d, rfl⟩
    | cons a t => obtain ⟨c, x, h1, _⟩ := h a (by simp); simp at h1
  | cons p t ih =>
    obtain ⟨o, chk⟩ := p
    intro kvs d h1 h2 h
    simp only [List.map_cons, List.nodup_cons] at h1
    rw [assigned]
    cases hl : kvs.lookup o with
    | none =>
      refine ih kvs d h1.2 h2 (fun kv hkv => ?_)
      obtain ⟨c, x, a1, a2⟩ := h kv hkv
      rcases List.mem_cons.1 a1 with e | e
      · exact absurd (Prod.mk.injEq .. ▸ e).1 (lookup_none o kvs hl kv hkv)
      · exact ⟨c, x, e, a2⟩
    | some v =>
      have hv : (o, v) ∈ kvs := by
        obtain ⟨pre, post, rfl, _⟩ := lookup_split o v kvs hl
        simp
      obtain ⟨c, x, a1, a2⟩ := h _ hv
      have hc : c = chk := by
        rcases List.mem_cons.1 a1 with e | e
        · simpa using e
        · exact absurd (List.mem_map.2 ⟨_, e, rfl⟩) h1.1
      subst hc
      dsimp only at a2 ⊢
      rw [a2]
      refine ih _ _ h1.2 (h2.sublist (List.Sublist.map _ List.filter_sublist)) (fun kv hkv => ?_)
      obtain ⟨hk1, hk2⟩ := List.mem_filter.1 hkv
      obtain ⟨c', x', b1, b2⟩ := h kv hk1
      rcases List.mem_cons.1 b1 with e | e
      · simp only [Prod.mk.injEq] at e
        simp [e.1] at hk2
      · exact ⟨c', x', e, b2⟩

theorem parseOptional_general (opts : Opts V) (raw : Str → V) (kvs : List (Str × Str)) (hwf : ∀ kv ∈ kvs, WellFormed kv)
    (hlen : kvs.length ≤ opts.length) (h1 : opts.length ≠ 1 ∨ kvs.length ≠ 1) :
    parseOptional opts raw (some (join ',' (kvs.map written))) =
      match outerLoop opts (kvs.map written) [] with
      | some ([], d) => some d
      | _ => none := by
  unfold parseOptional
  simp only [comma_options kvs hwf]
  rw [if_neg (by simpa using hlen)]
  split
  · next o chk seg ho hs =>
    have : kvs.length = 1 := by simpa using congrArg List.length hs
    rcases h1 with h | h
    · simp at h
    · exact absurd this h
  · rfl

/-- **C61** (condition: options written `key=value` with different keys; not the case of a datagroup with exactly one optional
argument and one given). The optional arguments are accepted iff every key is the name of an option whose check accepts the
value, and not more are given than there are options; then the option gets the checked value, and the other options are not
set. -/
theorem c61_options (opts : Opts V) (raw : Str → V) (hopts : (opts.map Prod.fst).Nodup) (kvs : List (Str × Str))
    (hwf : ∀ kv ∈ kvs, WellFormed kv) (hkeys : (kvs.map Prod.fst).Nodup) (h1 : opts.length ≠ 1 ∨ kvs.length ≠ 1) :
    ((∃ d, parseOptional opts raw (some (join ',' (kvs.map written))) = some d) ↔
      ∀ kv ∈ kvs, ∃ chk x, (kv.1, chk) ∈ opts ∧ chk kv.2 = some x) ∧
    ∀ d, parseOptional opts raw (some (join ',' (kvs.map written))) = some d →
      (∀ kv ∈ kvs, ∃ chk, (kv.1, chk) ∈ opts ∧ d.lookup kv.1 = chk kv.2) ∧
      ∀ n, n ∉ kvs.map Prod.fst → d.lookup n = none := by
  have hlen : (∀ kv ∈ kvs, ∃ chk x, (kv.1, chk) ∈ opts ∧ chk kv.2 = some x) → kvs.length ≤ opts.length := by
    intro h
    have hsub : kvs.map Prod.fst ⊆ opts.map Prod.fst := by
      intro k hk
      obtain ⟨kv, hkv, rfl⟩ := List.mem_map.1 hk
      obtain ⟨chk, x, hm, _⟩ := h kv hkv
      exact List.mem_map.2 ⟨_, hm, rfl⟩
    simpa using (List.Nodup.subperm hkeys hsub).length_le
  have hlen2 : ∀ d, parseOptional opts raw (some (join ',' (kvs.map written))) = some d → kvs.length ≤ opts.length := by
    intro d hd
    unfold parseOptional at hd
    simp only [comma_options kvs hwf] at hd
    by_contra hc
    rw [if_pos (by simpa using hc)] at hd
    simp at hd
  have key : ∀ d, parseOptional opts raw (some (join ',' (kvs.map written))) = some d →
      (∀ n, n ∉ kvs.map Prod.fst → d.lookup n = none) ∧
      ∀ kv ∈ kvs, ∃ chk x, (kv.1, chk) ∈ opts ∧ chk kv.2 = some x ∧ d.lookup kv.1 = some x := by
    intro d hd
    rw [parseOptional_general opts raw kvs hwf (hlen2 d hd) h1, outerLoop_eq opts kvs [] hwf hkeys] at hd
    cases ha : assigned opts kvs [] with
    | none => rw [ha] at hd; simp at hd
    | some r =>
      obtain ⟨kvs', d'⟩ := r
      rw [ha] at hd
      simp only [Option.map_some] at hd
      cases kvs' with
      | cons => simp at hd
      | nil =>
        simp at hd
        subst hd
        obtain ⟨i1, i2⟩ := assigned_sound opts kvs [] d' hopts hkeys [] ha
        exact ⟨fun n hn => by rw [i1 n (Or.inr hn)]; simp, fun kv hkv => i2 kv hkv (by simp)⟩
  refine ⟨⟨?_, ?_⟩, ?_⟩
  · rintro ⟨d, hd⟩ kv hkv
    obtain ⟨chk, x, a1, a2, _⟩ := (key d hd).2 kv hkv
    exact ⟨chk, x, a1, a2⟩
  · intro h
    obtain ⟨r, hr⟩ := assigned_complete opts kvs [] hopts hkeys h
    refine ⟨r, ?_⟩
    rw [parseOptional_general opts raw kvs hwf (hlen h) h1, outerLoop_eq opts kvs [] hwf hkeys, hr]
    rfl
  · intro d hd
    refine ⟨fun kv hkv => ?_, (key d hd).1⟩
    obtain ⟨chk, x, a1, a2, a3⟩ := (key d hd).2 kv hkv
    exact ⟨chk, a1, by rw [a2, a3]⟩

/-- Two options, `kernel` (any) and `product` (only `P`). -/
def exampleOpts : Opts Str :=
  [("product".toList, fun v => if v = "P".toList then some v else none), ("kernel".toList, some)]

example : parseOptional exampleOpts id (some "kernel=k[a=1,b=2],product=P".toList) =
    some [("kernel".toList, "k[a=1,b=2]".toList), ("product".toList, "P".toList)] := by decide +kernel
example : parseOptional exampleOpts id (some "product=Q".toList) = none := by decide +kernel
example : WellFormed ("kernel".toList, "k[a=1,b=2]".toList) where
  key := by decide
  ne := by decide
  eqs := by
    rintro i ⟨c, h1, h2, _, h3⟩
    have hi : i < 10 := (List.getElem?_eq_some_iff.1 h1).1
    have : ∀ j < 10, ("k[a=1,b=2]".toList)[j]? = some '=' → expected defaultClose ("k[a=1,b=2]".toList.take j) ≠ [] := by
      decide +kernel
    simp only [List.mem_singleton] at h2
    subst h2
    exact this i hi h1 h3
  commas := by
    rintro i ⟨c, h1, h2, _, h3⟩
    have hi : i < 10 := (List.getElem?_eq_some_iff.1 h1).1
    have : ∀ j < 10, ("k[a=1,b=2]".toList)[j]? = some ',' → expected defaultClose ("k[a=1,b=2]".toList.take j) ≠ [] := by
      decide +kernel
    simp only [List.mem_singleton] at h2
    subst h2
    exact this i hi h1 h3
  balanced := by unfold Balanced; decide +kernel

/-- **C61** is violated when there is only one optional argument (as for the product of a subset or evaluate datagroup): its
value is stored without being checked. -/
theorem single_option_unchecked_violated :
    parseOptional (exampleOpts.take 1) id (some "product=Q".toList) = some [("product".toList, "Q".toList)] ∧
      parseOptional exampleOpts id (some "product=Q".toList) = none := by decide +kernel

/-- With one optional argument, `key=value` is accepted iff the key is its name, and a value alone is accepted; in both cases the
value becomes that option's, unchecked. -/
theorem single_option (o : Str) (chk : Str → Option V) (raw : Str → V) :
    (∀ kv, WellFormed kv → parseOptional [(o, chk)] raw (some (written kv)) = if kv.1 = o then some [(o, raw kv.2)] else none) ∧
    (∀ v : Str, v ≠ [] → Whole [','] defaultClose v → Whole ['='] defaultClose v →
      parseOptional [(o, chk)] raw (some v) = some [(o, raw v)]) := by
  constructor
  · intro kv h
    have hc : splitOutside [','] defaultClose (written kv) = [written kv] := by
      have := comma_options [kv] (by simpa using h)
      simpa [join] using this
    unfold parseOptional
    simp only [hc, keyVal_written kv h]
    by_cases hk : kv.1 = o
    · rw [if_neg (by simp), if_pos hk.symm, if_pos hk]
    · rw [if_neg (by simp), if_neg (fun e => hk e.symm), if_neg hk]
      simp [outerLoop, innerLoop, keyVal_written kv h, hk]
  · intro v hne h1 h2
    have hs : ∀ c : Char, defaultClose c = none → Whole [c] defaultClose v → splitOutside [c] defaultClose v = [v] := by
      intro c hc hw
      have := split_outside_join [c] defaultClose c (by simp) hc [v] (by simpa using hne) (by simpa using hw) (by simp)
      simpa [join] using this
    have e1 := hs ',' rfl h1
    have e2 : keyVal v = [v] := hs '=' rfl h2
    unfold parseOptional
    simp [e1, e2]

/-- A repeated option is an error or not depending on where it stands. -/
theorem repeated_option :
    parseOptional exampleOpts id (some "kernel=a,kernel=b".toList) = none ∧
    parseOptional (exampleOpts ++ [("x".toList, some)]) id (some "kernel=a,x=1,kernel=b".toList) =
      some [("x".toList, "1".toList), ("kernel".toList, "b".toList), ("kernel".toList, "a".toList)] := by decide +kernel

end Cis.Parse
