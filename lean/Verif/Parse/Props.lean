import Verif.Parse.Spec
import Mathlib.Data.List.SplitOn
set_option linter.unusedSectionVars false
set_option linter.unusedSimpArgs false
/-!
Properties of command line parsing: escaped colons (C29), brackets (C30), several separators (C31), aliases (C32), output
files (C33).
-/
namespace Cis.Parse
open Cis.Str

/-! ### C29 -/

theorem splitColon_ne_nil (e : Bool) (s : Str) : splitColon e s ≠ [] := by
  cases s with
  | nil => simp [splitColon]
  | cons c t => rw [splitColon]; split
                · simp
                · split <;> simp

theorem splitColon_cons (e : Bool) (c : Char) (t : Str) (h : ¬(c = ':' ∧ e = false)) (f : Str) (fs : List Str)
    (ht : splitColon (c = '\\') t = f :: fs) : splitColon e (c :: t) = (c :: f) :: fs := by
  rw [splitColon, if_neg (by simpa using h), ht]

theorem escape_cons (c : Char) (t : Str) : escape (c :: t) = (if c = ':' then ['\\', ':'] else [c]) ++ escape t := by
  simp [escape]

theorem splitColon_escape (f rest : Str) : ∀ e : Bool, (f = [] → e = false) → f.getLast? ≠ some '\\' →
    splitColon e (escape f ++ ':' :: rest) = escape f :: splitColon false rest := by
  induction f with
  | nil => intro e he _; simp [escape, splitColon, he rfl]
  | cons c t ih =>
    intro e _ hl
    rw [escape_cons]
    have hlt : t.getLast? ≠ some '\\' := by
      cases t with
      | nil => simp
      | cons a b => simpa [List.getLast?_cons_cons] using hl
    by_cases hc : c = ':'
    · subst hc
      have := ih false (fun _ => rfl) hlt
      simp only [if_true, List.cons_append, List.nil_append]
      refine splitColon_cons _ _ _ (by simp) _ _ ?_
      refine splitColon_cons _ _ _ (by simp) _ _ ?_
      simpa using this
    · have := ih (decide (c = '\\')) (by
        rintro rfl
        simp at hl
        simpa using hl) hlt
      simp only [if_neg hc, List.cons_append, List.nil_append]
      exact splitColon_cons _ _ _ (by simp [hc]) _ _ this

theorem splitColon_escape_last (f : Str) : ∀ e : Bool, splitColon e (escape f) = [escape f] := by
  induction f with
  | nil => intro e; simp [escape, splitColon]
  | cons c t ih =>
    intro e
    rw [escape_cons]
    by_cases hc : c = ':'
    · subst hc
      simp only [if_true, List.cons_append, List.nil_append]
      refine splitColon_cons _ _ _ (by simp) _ _ ?_
      exact splitColon_cons _ _ _ (by simp) _ _ (ih _)
    · simp only [if_neg hc, List.cons_append, List.nil_append]
      exact splitColon_cons _ _ _ (by simp [hc]) _ _ (ih _)

theorem unescape_escape (f : Str) : unescape (escape f) = f := by
  induction f with
  | nil => rfl
  | cons c t ih =>
    rw [escape_cons]
    by_cases hc : c = ':'
    · subst hc
      simp only [if_true, List.cons_append, List.nil_append, unescape]
      simp [ih]
    · simp only [if_neg hc, List.cons_append, List.nil_append]
      cases he : escape t with
      | nil => rw [he] at ih; simp only [unescape] at ih ⊢; rw [← ih]
      | cons a b =>
        rw [he] at ih
        have : ¬(c = '\\' ∧ a = ':') := by
          rintro ⟨-, rfl⟩
          cases t with
          | nil => simp [escape] at he
          | cons x y =>
            rw [escape_cons] at he
            split at he
            · simp at he
            · next h => simp at he; exact h he.1
        rw [unescape, if_neg this, ih]

/-- **C29** (condition: every field but the last must not end in a backslash). Splitting at the unescaped colons and removing
the escapes is the inverse of escaping the colons of the fields and joining with colons: number, order and content of the
fields are preserved. -/
theorem colon_roundtrip (fs : List Str) (hne : fs ≠ []) (hl : ∀ f ∈ fs.dropLast, f.getLast? ≠ some '\\') :
    colonFields (join ':' (fs.map escape)) = fs := by
  unfold colonFields
  suffices h : splitColon false (join ':' (fs.map escape)) = fs.map escape by
    rw [h, List.map_map]
    conv_rhs => rw [← List.map_id fs]
    exact List.map_congr_left (fun f _ => unescape_escape f)
  induction fs with
  | nil => exact absurd rfl hne
  | cons f t ih =>
    cases t with
    | nil => simp [join, splitColon_escape_last]
    | cons g gs =>
      simp only [List.map_cons, join] at ih ⊢
      rw [splitColon_escape f _ false (fun _ => rfl) (hl f (by simp)), ih (by simp) (fun x hx => hl x (by
        simp only [List.dropLast_cons_cons, List.mem_cons] at hx ⊢; exact Or.inr hx))]

example : colonFields (join ':' (["a:b".toList, [], "c:\\".toList].map escape)) = ["a:b".toList, [], "c:\\".toList] :=
  colon_roundtrip _ (by simp) (by decide)

/-- **C29** is violated for a field ending in a backslash (a Windows directory name, say): it cannot be written. The escaped
fields `d\` and `v` come back as the one field `d:v`; and no string at all has those two fields. -/
theorem colon_backslash_violated :
    colonFields (join ':' (["d\\".toList, "v".toList].map escape)) = ["d:v".toList] := by decide +kernel

/-- No argument has a field, other than the last, ending in a backslash. -/
theorem splitColon_no_backslash_end (s : Str) : ∀ e, ∀ f ∈ (splitColon e s).dropLast, f.getLast? ≠ some '\\' := by
  induction s with
  | nil => intro e f hf; simp [splitColon] at hf
  | cons c t ih =>
    intro e f hf
    rw [splitColon] at hf
    split at hf
    · cases hs : splitColon false t with
      | nil => exact absurd hs (splitColon_ne_nil _ _)
      | cons a b =>
        rw [hs] at hf
        simp only [List.dropLast_cons_cons, List.mem_cons] at hf
        rcases hf with rfl | hf
        · simp
        · exact ih false f (by rw [hs]; exact hf)
    · cases hs : splitColon (decide (c = '\\')) t with
      | nil => exact absurd hs (splitColon_ne_nil _ _)
      | cons a b =>
        rw [hs] at hf
        dsimp only at hf
        cases b with
        | nil => simp at hf
        | cons b1 b2 =>
          simp only [List.dropLast_cons_cons, List.mem_cons] at hf
          rcases hf with rfl | hf
          · have h1 := ih (decide (c = '\\')) a (by rw [hs]; simp)
            cases a with
            | nil =>
              -- the first field of the rest is empty: the rest starts with an unescaped colon, so `c` is no backslash
              intro hc
              simp at hc
              subst hc
              cases t with
              | nil => simp [splitColon] at hs
              | cons x y =>
                rw [splitColon] at hs
                split at hs
                · next h => simp at h
                · split at hs <;> simp at hs
            | cons a1 a2 => simpa [List.getLast?_cons_cons] using h1
          · exact ih (decide (c = '\\')) f (by rw [hs]; simp [hf])

/-- Splitting loses nothing: the pieces joined by colons are the argument. -/
theorem splitColon_lossless (s : Str) : ∀ e, join ':' (splitColon e s) = s := by
  induction s with
  | nil => intro e; simp [splitColon, join]
  | cons c t ih =>
    intro e
    rw [splitColon]
    split
    · next h =>
      simp at h
      cases hs : splitColon false t with
      | nil => exact absurd hs (splitColon_ne_nil _ _)
      | cons a b => have := ih false; rw [hs] at this; simp [join, this, h.1]
    · cases hs : splitColon (decide (c = '\\')) t with
      | nil => exact absurd hs (splitColon_ne_nil _ _)
      | cons a b =>
        have := ih (decide (c = '\\')); rw [hs] at this
        cases b with
        | nil => simp [join] at this ⊢; exact this
        | cons b1 b2 => simp [join] at this ⊢; exact this

/-! ### C30 -/

def expStep (close : Char → Option Char) (st : List Char) (c : Char) : List Char :=
  match close c with
    | some b => b :: st
    | none => if st.head? = some c then st.tail else st

theorem expected_append (close : Char → Option Char) (s : Str) (c : Char) :
    expected close (s ++ [c]) = expStep close (expected close s) c := by
  unfold expected expStep; rw [List.foldl_append]; rfl

/-- The state of the loop represents the stack of the expected closing brackets. -/
def Rep (st : BState) (stack : List Char) : Prop :=
  st.inBrackets = stack.length ∧ (∀ b t, stack = b :: t → st.matchBracket = some b ∧ st.matchBrackets = t) ∧
    (stack = [] → st.matchBrackets = [])

theorem bstep_rep (seps : List Char) (close : Char → Option Char) (st : BState) (stack : List Char) (i : Nat) (c : Char)
    (h : Rep st stack) : Rep (bstep seps close st i c) (expStep close stack c) ∧
      (bstep seps close st i c).sepIdxs =
        if c ∈ seps ∧ close c = none ∧ stack = [] then i :: st.sepIdxs else st.sepIdxs := by
  obtain ⟨h1, h2, h3⟩ := h
  unfold bstep expStep
  cases hc : close c with
  | some b =>
    dsimp only
    refine ⟨⟨by simp [h1], ?_, by simp⟩, by simp⟩
    intro b' t' e
    simp only [List.cons.injEq] at e
    obtain ⟨rfl, rfl⟩ := e
    refine ⟨rfl, ?_⟩
    dsimp only
    cases stack with
    | nil => simp [h1, h3 rfl]
    | cons a l => simp [h1, (h2 a l rfl).1, (h2 a l rfl).2]
  | none =>
    dsimp only
    cases stack with
    | nil =>
      have h0 : st.inBrackets = 0 := by simpa using h1
      simp only [h0, gt_iff_lt, lt_irrefl, false_and, if_false, List.head?_nil, reduceCtorEq, and_true, true_and]
      split
      · next hs => exact ⟨⟨by simp, by simp, fun _ => h3 rfl⟩, rfl⟩
      · next hs => exact ⟨⟨by simp [h0], by simp, fun _ => h3 rfl⟩, rfl⟩
    | cons a l =>
      have hb := h2 a l rfl
      simp only [List.length_cons] at h1
      have hpos : st.inBrackets > 0 := by omega
      simp only [hpos, true_and, hb.1, Option.some.injEq, List.head?_cons, List.tail_cons, reduceCtorEq, and_false, if_false]
      by_cases hac : a = c
      · simp only [hac, if_true]
        cases l with
        | nil =>
          simp only [List.length_nil] at h1
          simp only [h1]
          refine ⟨⟨by simp, by simp, fun _ => by simpa using hb.2⟩, rfl⟩
        | cons l1 l2 =>
          simp only [List.length_cons] at h1
          rw [if_pos (by omega)]
          refine ⟨⟨by simp; omega, ?_, by simp⟩, rfl⟩
          intro b t e
          simp only [List.cons.injEq] at e
          obtain ⟨rfl, rfl⟩ := e
          simp [hb.2]
      · rw [if_neg hac, if_neg hac, if_neg (by omega)]
        exact ⟨⟨by simpa using h1, h2, h3⟩, rfl⟩

/-- The separators found so far are those outside of brackets. -/
theorem bloop_spec (seps : List Char) (close : Char → Option Char) (t : Str) : ∀ (pre : Str) (st : BState),
    Rep st (expected close pre) →
    (∀ i, i ∈ st.sepIdxs ↔ OutsideSep seps close pre i) → st.sepIdxs.Pairwise (· > ·) →
    (∀ i, i ∈ (bloop seps close st pre.length t).sepIdxs ↔ OutsideSep seps close (pre ++ t) i) ∧
      (bloop seps close st pre.length t).sepIdxs.Pairwise (· > ·) := by
  induction t with
  | nil => intro pre st _ hi hp; simp only [bloop, List.append_nil]; exact ⟨hi, hp⟩
  | cons c t ih =>
    intro pre st hr hi hp
    rw [bloop]
    obtain ⟨hr', hs'⟩ := bstep_rep seps close st (expected close pre) pre.length c hr
    rw [← expected_append] at hr'
    have hlt : ∀ i, OutsideSep seps close pre i → i < pre.length := by
      rintro i ⟨x, hx, -⟩
      exact (List.getElem?_eq_some_iff.1 hx).1
    have := ih (pre ++ [c]) _ hr' (by
      intro i
      rw [hs']
      have hpre : OutsideSep seps close (pre ++ [c]) i ↔
          OutsideSep seps close pre i ∨ (i = pre.length ∧ c ∈ seps ∧ close c = none ∧ expected close pre = []) := by
        constructor
        · rintro ⟨x, hx, h1, h2, h3⟩
          rcases lt_or_ge i pre.length with hl | hl
          · rw [List.getElem?_append_left hl] at hx
            rw [List.take_append_of_le_length (le_of_lt hl)] at h3
            exact Or.inl ⟨x, hx, h1, h2, h3⟩
          · have hil : i = pre.length := by
              have := (List.getElem?_eq_some_iff.1 hx).1
              simp at this; omega
            subst hil
            simp at hx h3
            subst hx
            exact Or.inr ⟨rfl, h1, h2, h3⟩
        · rintro (h | ⟨rfl, h1, h2, h3⟩)
          · have hl := hlt i h
            obtain ⟨x, hx, h1, h2, h3⟩ := h
            exact ⟨x, by rw [List.getElem?_append_left hl]; exact hx, h1, h2, by
              rw [List.take_append_of_le_length (le_of_lt hl)]; exact h3⟩
          · exact ⟨c, by simp, h1, h2, by simpa using h3⟩
      rw [hpre, ← hi i]
      split
      · next h => simp only [List.mem_cons]; grind
      · next h => grind) (by
      rw [hs']
      split
      · refine List.pairwise_cons.2 ⟨fun j hj => hlt j ((hi j).1 hj), hp⟩
      · exact hp)
    simpa using this

theorem cutPositions_cons (f : Str) (fs : List Str) (h : fs ≠ []) :
    cutPositions (f :: fs) = f.length :: (cutPositions fs).map (· + (f.length + 1)) := by
  cases fs with
  | nil => exact absurd rfl h
  | cons g gs => rfl

theorem slices_spec (s : Str) (idxs : List Nat) : ∀ start, start ≤ s.length → (∀ i ∈ idxs, start ≤ i ∧ i < s.length) →
    idxs.Pairwise (· < ·) →
    ∃ (full : List Str) (cs : List Char), full ≠ [] ∧ full.length = cs.length + 1 ∧ weave full cs = s.drop start ∧
      slices s start idxs = dropEmptyLast full ∧ (cutPositions full).map (· + start) = idxs := by
  induction idxs with
  | nil =>
    intro start hs _ _
    refine ⟨[s.drop start], [], by simp, by simp, by simp [weave], ?_, by simp [cutPositions]⟩
    simp only [slices, dropEmptyLast]
    by_cases h : start < s.length
    · simp [h]
    · simp [h]
      try omega
  | cons i t ih =>
    intro start hs hb hp
    obtain ⟨hi1, hi2⟩ := hb i (by simp)
    obtain ⟨full, cs, h0, h1, h2, h3, h4⟩ := ih (i + 1) (by omega) (fun j hj => ⟨by
      have := (List.pairwise_cons.1 hp).1 j hj; omega, (hb j (by simp [hj])).2⟩) (List.pairwise_cons.1 hp).2
    refine ⟨(s.take i).drop start :: full, s[i] :: cs, by simp, by simp [h1], ?_, ?_, ?_⟩
    · rw [weave, h2]
      have e1 : s.drop i = s[i] :: s.drop (i + 1) := List.drop_eq_getElem_cons hi2
      rw [← e1]
      have e2 : s.drop start = ((s.take i) ++ s.drop i).drop start := by rw [List.take_append_drop]
      rw [e2, List.drop_append_of_le_length (by simp; omega)]
    · rw [slices, h3]
      unfold dropEmptyLast
      obtain ⟨l, x, rfl⟩ : ∃ l x, full = l ++ [x] := by
        rcases List.eq_nil_or_concat' full with h | ⟨l, x, h⟩
        · exact absurd h h0
        · exact ⟨l, x, h⟩
      rw [← List.cons_append]
      simp only [List.getLast?_append_cons, List.dropLast_concat, List.getLast?_singleton]
      split <;> simp
    · rw [cutPositions_cons _ _ h0]
      have hlen : ((s.take i).drop start).length = i - start := by simp; omega
      simp only [List.map_cons, List.map_map, hlen]
      congr 1
      · omega
      · rw [← h4]
        apply List.map_congr_left
        intro a _
        simp only [Function.comp]
        omega

/-- **C30** (condition: a last empty piece is left out). The input is made of pieces glued by single characters, and it is cut
exactly at the separators outside of all brackets; these pieces are returned, without the last one if that is empty. -/
theorem split_outside (seps : List Char) (close : Char → Option Char) (s : Str) :
    ∃ (full : List Str) (cs : List Char), full.length = cs.length + 1 ∧ weave full cs = s ∧
      splitOutside seps close s = dropEmptyLast full ∧ ∀ i, i ∈ cutPositions full ↔ OutsideSep seps close s i := by
  have h := bloop_spec seps close s [] ⟨[], none, 0, []⟩ ⟨by simp [expected], by simp [expected], by simp⟩
    (by intro i; simp [OutsideSep]) (by simp)
  simp only [List.length_nil, List.nil_append] at h
  obtain ⟨h1, h2⟩ := h
  obtain ⟨full, cs, _, h4, h5, h6, h7⟩ := slices_spec s
    (bloop seps close ⟨[], none, 0, []⟩ 0 s).sepIdxs.reverse 0 (by omega) (by
      intro i hi
      rw [List.mem_reverse, h1] at hi
      obtain ⟨x, hx, -⟩ := hi
      exact ⟨by omega, (List.getElem?_eq_some_iff.1 hx).1⟩) (by
      rw [List.pairwise_reverse]; exact h2)
  refine ⟨full, cs, h4, by simpa using h5, h6, ?_⟩
  intro i
  have h7' : cutPositions full = (bloop seps close ⟨[], none, 0, []⟩ 0 s).sepIdxs.reverse := by simpa using h7
  rw [h7', List.mem_reverse, h1]

example : splitOutside [','] defaultClose "x=[1,(2,3],4),5],,y=2".toList =
    ["x=[1,(2,3],4),5]".toList, [], "y=2".toList] := by decide +kernel

example : OutsideSep [','] defaultClose "a(b,c),d".toList 6 ∧ ¬ OutsideSep [','] defaultClose "a(b,c),d".toList 3 := by
  constructor
  · exact ⟨',', by decide +kernel⟩
  · rintro ⟨c, _, _, _, h⟩
    revert h
    decide +kernel

/-- **C30** is violated when the input ends in a separator: the last (empty) piece is lost, so the pieces do not make up the
input; `a,` gives the same as `a`. -/
theorem split_outside_trailing_violated :
    splitOutside [','] defaultClose "a,".toList = ["a".toList] ∧ splitOutside [','] defaultClose "a".toList = ["a".toList] := by
  decide +kernel

/-! ### C31 -/

theorem splitOnP_cons' (p : Char → Bool) (x : Char) (t : Str) :
    (x :: t).splitOnP p = if p x then [] :: t.splitOnP p else (t.splitOnP p).modifyHead (x :: ·) :=
  List.splitOnP_cons_eq_if_modifyHead x t

theorem flatMap_split (p : Char → Bool) (a : Char) (s : Str) :
    (s.splitOnP p).flatMap (splitChar a) = s.splitOnP (fun c => p c || decide (c = a)) := by
  induction s with
  | nil => simp [List.splitOnP_nil, splitChar]
  | cons x t ih =>
    rw [splitOnP_cons', splitOnP_cons']
    by_cases hp : p x = true
    · simp [hp, splitChar, ih]
    · have hp' : p x = false := by simpa using hp
      cases hs : t.splitOnP p with
      | nil => exact absurd hs (List.splitOnP_ne_nil _ _)
      | cons f fs =>
        rw [hs, List.flatMap_cons] at ih
        simp only [hp', Bool.false_or, List.modifyHead_cons, List.flatMap_cons, Bool.false_eq_true, if_false]
        by_cases hx : x = a
        · subst hx
          simp [splitChar, ih]
        · obtain ⟨g, gs, h1, h2⟩ := splitChar_cons a x f hx
          rw [h2]
          rw [h1] at ih
          simp only [hx, decide_false, Bool.false_eq_true, if_false, ← ih]
          simp

theorem foldl_split (seps : List Char) : ∀ (p : Char → Bool) (s : Str),
    seps.foldl (fun res sep => res.flatMap (splitChar sep)) (s.splitOnP p) =
      s.splitOnP (fun c => p c || decide (c ∈ seps)) := by
  induction seps with
  | nil => intro p s; simp
  | cons a t ih =>
    intro p s
    rw [List.foldl_cons, flatMap_split, ih]
    congr 1
    funext c
    by_cases h : c = a <;> simp [h]

theorem splitOnP_false (s : Str) : s.splitOnP (fun _ => false) = [s] := by
  induction s with
  | nil => rfl
  | cons x t ih => rw [splitOnP_cons']; simp [ih]

/-- Splitting by one separator after the other is splitting at every separator. -/
theorem splitAll_eq (seps : List Char) (s : Str) : splitAll seps s = s.splitOnP (fun c => decide (c ∈ seps)) := by
  unfold splitAll
  have := foldl_split seps (fun _ => false) s
  rw [splitOnP_false] at this
  simpa using this

theorem erase_nil_filter (l : List Str) : (l.erase []).filter (fun f => !f.isEmpty) = l.filter (fun f => !f.isEmpty) := by
  induction l with
  | nil => rfl
  | cons a t ih =>
    by_cases h : a = []
    · subst h; simp
    · rw [List.erase_cons_tail (by simpa using h)]
      simp only [List.filter_cons, ih]

theorem removeBlanks_filter : ∀ (fuel i : Nat) (l : List Str),
    (removeBlanks fuel i l).filter (fun f => !f.isEmpty) = l.filter (fun f => !f.isEmpty) := by
  intro fuel
  induction fuel with
  | zero => intro i l; rfl
  | succ n ih =>
    intro i l
    rw [removeBlanks]
    split
    · rfl
    · split
      · rw [ih, erase_nil_filter]
      · rw [ih]

theorem erase_nil_prefix (pre r : List Str) (h : ∀ f ∈ pre, f ≠ []) : (pre ++ [] :: r).erase [] = pre ++ r := by
  induction pre with
  | nil => simp
  | cons a t ih =>
    have ha := h a (by simp)
    rw [List.cons_append, List.erase_cons_tail (by simpa using ha), ih (fun f hf => h f (by simp [hf])), List.cons_append]

theorem isChain_tail {R : Str → Str → Prop} {a : Str} {l : List Str} (h : (a :: l).IsChain R) : l.IsChain R := by
  cases l with
  | nil => simp
  | cons b t => exact (List.isChain_cons_cons.1 h).2

theorem removeBlanks_exact : ∀ (fuel : Nat) (pre rest : List Str), (∀ f ∈ pre, f ≠ []) → rest.length ≤ fuel →
    rest.IsChain (fun a b => a ≠ [] ∨ b ≠ []) →
    removeBlanks fuel pre.length (pre ++ rest) = pre ++ rest.filter (fun f => !f.isEmpty) := by
  intro fuel
  induction fuel with
  | zero => intro pre rest _ hf _; have : rest = [] := List.length_eq_zero_iff.1 (by omega)
            subst this; simp [removeBlanks]
  | succ n ih =>
    intro pre rest hp hf hc
    rw [removeBlanks]
    cases rest with
    | nil => simp
    | cons a r =>
      have ha : (pre ++ a :: r)[pre.length]? = some a := by simp
      rw [ha]
      dsimp only
      by_cases h : a = []
      · subst h
        rw [if_pos rfl, erase_nil_prefix pre r hp]
        cases r with
        | nil =>
          cases n with
          | zero => simp [removeBlanks]
          | succ m => simp [removeBlanks]
        | cons b r' =>
          have hb : b ≠ [] := by
            rcases (List.isChain_cons_cons.1 hc).1 with h | h
            · exact absurd rfl h
            · exact h
          have := ih (pre ++ [b]) r' (by
            intro f hf'
            rcases List.mem_append.1 hf' with h | h
            · exact hp f h
            · simp at h; exact h ▸ hb) (by simp at hf; omega) ((isChain_tail (List.isChain_cons_cons.1 hc).2))
          simp only [List.length_append, List.length_cons, List.length_nil, Nat.zero_add, List.append_assoc,
            List.cons_append, List.nil_append] at this
          rw [this]
          simp [hb]
      · rw [if_neg h]
        have := ih (pre ++ [a]) r (by
            intro f hf'
            rcases List.mem_append.1 hf' with h' | h'
            · exact hp f h'
            · simp at h'; exact h' ▸ h) (by simp at hf; omega) (isChain_tail hc)
        simp only [List.length_append, List.length_cons, List.length_nil, Nat.zero_add, List.append_assoc,
            List.cons_append, List.nil_append] at this
        rw [this]
        simp [h]

/-- **C31** (first part). The non-blank elements returned are exactly the non-empty runs between separators, in order. -/
theorem multi_split_fields (s : Str) (seps : List Char) :
    (multiSplit s seps).filter (fun f => !f.isEmpty) =
      (s.splitOnP (fun c => decide (c ∈ seps))).filter (fun f => !f.isEmpty) := by
  unfold multiSplit
  rw [removeBlanks_filter, splitAll_eq]

/-- **C31** (condition: no two consecutive runs are empty, i.e. no three adjacent separators, nor two at either end). Exactly
the non-empty runs between separators are returned, in order. -/
theorem c31_multi_split (s : Str) (seps : List Char)
    (h : (s.splitOnP (fun c => decide (c ∈ seps))).IsChain (fun a b => a ≠ [] ∨ b ≠ [])) :
    multiSplit s seps = (s.splitOnP (fun c => decide (c ∈ seps))).filter (fun f => !f.isEmpty) := by
  unfold multiSplit
  rw [splitAll_eq]
  exact removeBlanks_exact _ [] _ (by simp) le_rfl h

example : multiSplit "mean[a=1,b=2]".toList "[,]".toList = ["mean".toList, "a=1".toList, "b=2".toList] := by
  rw [c31_multi_split _ _ (by decide +kernel)]
  decide +kernel

/-- **C31** is violated for three adjacent separators: a blank element is returned. -/
theorem multi_split_blank_violated : [] ∈ multiSplit "a,,,b".toList [','] := by decide +kernel

/-! ### C32 -/

theorem splitChar_one (c : Char) (v a : Str) (h : splitChar c v = [a]) : v = a ∧ c ∉ a := by
  have h1 := join_splitChar c v
  rw [h] at h1
  exact ⟨h1.symm, splitChar_not_mem c v a (by simp [h])⟩

theorem parseAlias_iff (e v a : Str) : parseAlias e = some (v, a) ↔ Entry e v a := by
  constructor
  · intro h
    unfold parseAlias at h
    split at h
    · next x hx =>
      obtain ⟨rfl, hn⟩ := splitChar_one _ _ _ hx
      split at h
      · simp at h
      · next hne =>
        simp only [Option.some.injEq, Prod.mk.injEq] at h
        obtain ⟨rfl, rfl⟩ := h
        exact .plain _ hne hn
    · next x y hxy =>
      have h1 := join_splitChar '=' e
      rw [hxy] at h1
      simp only [join] at h1
      have hx := splitChar_not_mem '=' e x (by simp [hxy])
      have hy := splitChar_not_mem '=' e y (by simp [hxy])
      split at h
      · simp at h
      · next hne =>
        simp only [Option.some.injEq, Prod.mk.injEq] at h
        obtain ⟨rfl, rfl⟩ := h
        rw [← h1]
        exact .aliased _ _ (fun e => hne (Or.inl e)) hx (fun e => hne (Or.inr e)) hy
    · simp at h
  · intro h
    cases h with
    | plain _ h1 h2 =>
      unfold parseAlias
      rw [splitChar_single _ _ h2]
      simp [h1]
    | aliased _ _ h1 h2 h3 h4 =>
      unfold parseAlias
      rw [splitChar_append _ _ _ h2, splitChar_single _ _ h4]
      simp [h1, h3]

/-- `Entry` for a whole datagroup. -/
def Entries (es : List Str) (ps : List (Str × Str)) : Prop := List.Forall₂ (fun e p => Entry e p.1 p.2) es ps

theorem parseAliases_iff (es : List Str) : ∀ ps, parseAliases es = some ps ↔ Entries es ps := by
  unfold Entries
  induction es with
  | nil =>
    intro ps
    cases ps
    · simp [parseAliases]
    · simp only [parseAliases, Option.some.injEq, reduceCtorEq, false_iff]; intro h; cases h
  | cons e t ih =>
    intro ps
    rw [parseAliases]
    cases ps with
    | nil =>
      have : ∀ R : Str → Str × Str → Prop, ¬ List.Forall₂ R (e :: t) [] := by intro R h; cases h
      simp only [this, iff_false]
      split <;> simp
    | cons p l =>
      rw [List.forall₂_cons, ← ih l, ← parseAlias_iff]
      cases h1 : parseAlias e <;> cases h2 : parseAliases t <;> simp

theorem parseGroups_iff (gs : List (List Str)) : ∀ r, parseGroups gs = some r ↔ List.Forall₂ Entries gs r := by
  induction gs with
  | nil =>
    intro ps
    cases ps
    · simp [parseGroups]
    · simp only [parseGroups, Option.some.injEq, reduceCtorEq, false_iff]; intro h; cases h
  | cons e t ih =>
    intro ps
    rw [parseGroups]
    cases ps with
    | nil =>
      have : ∀ R : List Str → List (Str × Str) → Prop, ¬ List.Forall₂ R (e :: t) [] := by intro R h; cases h
      simp only [this, iff_false]
      split <;> simp
    | cons p l =>
      rw [List.forall₂_cons, ← ih l, ← parseAliases_iff]
      cases h1 : parseAliases e <;> cases h2 : parseGroups t <;> simp

/-- **C32**. Alias assignment gives the result `r` iff every entry of every datagroup is `name` or `name=alias` with the
variable and the alias in `r` (the name itself without an alias), and all the aliases, over all datagroups, are different. In
particular parsing fails iff some entry is malformed or an alias occurs twice. -/
theorem aliases_spec (gs : List (List Str)) (r : List (List (Str × Str))) :
    setAliases gs = some r ↔ List.Forall₂ Entries gs r ∧ (r.flatten.map Prod.snd).Nodup := by
  unfold setAliases
  rw [← parseGroups_iff]
  have e : ∀ r : List (List (Str × Str)), r.flatMap (fun g => g.map Prod.snd) = r.flatten.map Prod.snd := by
    intro r; rw [List.flatMap_def, List.map_flatten]
  cases h : parseGroups gs with
  | none => simp
  | some r' =>
    simp only [Option.some.injEq, e]
    split
    · next hn => simp only [Option.some.injEq]; constructor
                 · rintro rfl; exact ⟨rfl, hn⟩
                 · exact And.left
    · next hn => simp only [reduceCtorEq, false_iff]; rintro ⟨rfl, h2⟩; exact hn h2

/-- Failure, spelled out. -/
theorem aliases_fail_iff (gs : List (List Str)) :
    setAliases gs = none ↔ ∀ r, List.Forall₂ Entries gs r → ¬ (r.flatten.map Prod.snd).Nodup := by
  constructor
  · intro h r hr hn
    have := (aliases_spec gs r).2 ⟨hr, hn⟩
    rw [h] at this; simp at this
  · intro h
    cases hs : setAliases gs with
    | none => rfl
    | some r => exact absurd ((aliases_spec gs r).1 hs).2 (h r ((aliases_spec gs r).1 hs).1)

example : setAliases [["x".toList, "y=z".toList], ["y".toList]] =
    some [[("x".toList, "x".toList), ("y".toList, "z".toList)], [("y".toList, "y".toList)]] := by decide +kernel

example : setAliases [["x".toList, "y=x".toList]] = none ∧ setAliases [["y=".toList]] = none ∧
    setAliases [["a=b=c".toList]] = none := by decide +kernel

/-! ### C33 -/

/-- The first valid answer of the user. -/
def FirstAnswer (answers : List Str) (a : Str) : Prop :=
  a ∈ [['y'], ['n'], []] ∧ ∃ pre post, answers = pre ++ a :: post ∧ ∀ b ∈ pre, b ∉ [['y'], ['n'], []]

theorem prompt_iff (answers : List Str) (a : Str) : prompt answers = some a ↔ FirstAnswer answers a := by
  unfold FirstAnswer
  induction answers with
  | nil => simp [prompt]
  | cons x t ih =>
    rw [prompt]
    split
    · next h =>
      constructor
      · intro e
        simp only [Option.some.injEq] at e
        subst e
        exact ⟨by simpa using h, [], t, by simp, by simp⟩
      · rintro ⟨h1, pre, post, h2, h3⟩
        cases pre with
        | nil => simp at h2; simp [h2.1]
        | cons p q =>
          simp only [List.cons_append, List.cons.injEq] at h2
          exact absurd (by simpa [h2.1] using h) (h3 p (by simp))
    · next h =>
      rw [ih]
      constructor
      · rintro ⟨h1, pre, post, h2, h3⟩
        exact ⟨h1, x :: pre, post, by simp [h2], by
          intro b hb
          rcases List.mem_cons.1 hb with rfl | hb
          · simpa using h
          · exact h3 b hb⟩
      · rintro ⟨h1, pre, post, h2, h3⟩
        cases pre with
        | nil =>
          simp only [List.nil_append, List.cons.injEq] at h2
          exact absurd (by simpa [h2.1] using h1) h
        | cons p q =>
          simp only [List.cons_append, List.cons.injEq] at h2
          exact ⟨h1, q, post, h2.2, fun b hb => h3 b (by simp [hb])⟩

/-- Consent to writing the file: it does not exist, or `--force-overwrite`, or the environment variable is set to something
other than `false`, or (when it is not set) the first valid answer is `y`. -/
def Consent (os : OS) (file : Str) (force : Bool) (env : Str) (answers : List Str) : Prop :=
  os.isfile file = false ∨ force = true ∨ (env ≠ [] ∧ env ≠ "false".toList) ∨ (env = [] ∧ FirstAnswer answers ['y'])

theorem existsNoOverwrite_false (os : OS) (o : Str) (force : Bool) (env : Str) (answers : List Str) :
    existsNoOverwrite os o force env answers = some false ↔ Consent os o force env answers := by
  unfold existsNoOverwrite Consent
  rw [← prompt_iff]
  cases hi : os.isfile o <;> cases force <;> simp
  by_cases he : env = []
  · simp only [he, not_true_eq_false, false_and, true_and, false_or, ne_eq, if_true]
    cases hp : prompt answers with
    | none => simp
    | some a => simp
  · simp [he]

/-- The file denoted by the output argument: without the optional variable prefix, with the default extension. -/
def outputFile (os : OS) (ext arg : Str) : Option (Option Str × Str) :=
  (splitOutput arg).map (fun r => (r.1, withExt os ext r.2))

/-- **C33**. The command goes on to write `file` iff the output argument denotes `file`, there is consent to overwriting it if
it exists, and `file` is not the same file as one of the inputs. -/
theorem output_validation (os : OS) (ext arg : Str) (force : Bool) (env : Str) (answers inputs : List Str) (file : Str)
    (var : Option Str) :
    validateOutput os ext arg force env answers inputs = .proceed file var ↔
      outputFile os ext arg = some (var, file) ∧ Consent os file force env answers ∧
        ∀ i ∈ inputs, ¬(os.pathExists file = true ∧ os.samefile file i = true) := by
  unfold validateOutput outputFile
  have hm : ∀ f, matchesInput os f inputs = false ↔ ∀ i ∈ inputs, ¬(os.pathExists f = true ∧ os.samefile f i = true) := by
    intro f; simp [matchesInput]
  cases hs : splitOutput arg with
  | none => simp
  | some r =>
    obtain ⟨v, o⟩ := r
    simp only [Option.map_some, Option.some.injEq, Prod.mk.injEq]
    constructor
    · intro h
      split at h
      · simp at h
      · simp at h
      · next he =>
        split at h
        · simp at h
        · next hmm =>
          simp only [Outcome.proceed.injEq] at h
          obtain ⟨rfl, rfl⟩ := h
          exact ⟨⟨rfl, rfl⟩, (existsNoOverwrite_false _ _ _ _ _).1 he, (hm _).1 (by simpa using hmm)⟩
    · rintro ⟨⟨rfl, rfl⟩, hc, hi⟩
      rw [(existsNoOverwrite_false _ _ _ _ _).2 hc]
      simp [(hm _).2 hi]

/-- An output argument `variable:file`. -/
theorem splitOutput_spec (arg : Str) (v : Option Str) (o : Str) : splitOutput arg = some (v, o) ↔
    (v = none ∧ o = arg ∧ ':' ∉ arg) ∨ (∃ w, v = some w ∧ arg = w ++ ':' :: o ∧ ':' ∉ w ∧ ':' ∉ o) := by
  unfold splitOutput
  constructor
  · intro h
    split at h
    · split at h
      · next a b hab =>
        simp only [Option.some.injEq, Prod.mk.injEq] at h
        obtain ⟨rfl, rfl⟩ := h
        have h1 := join_splitChar ':' arg
        rw [hab] at h1
        exact Or.inr ⟨a, rfl, h1.symm, splitChar_not_mem ':' arg a (by simp [hab]), splitChar_not_mem ':' arg b (by simp [hab])⟩
      · simp at h
    · next hn => simp at h; exact Or.inl ⟨h.1.symm, h.2.symm, hn⟩
  · rintro (⟨rfl, rfl, h⟩ | ⟨w, rfl, rfl, h1, h2⟩)
    · simp [h]
    · rw [if_pos (by simp), splitChar_append _ _ _ h1, splitChar_single _ _ h2]

/-- Files as they are in the examples: `a.nc` and `in.nc` exist. -/
def exampleOS : OS where
  isfile f := f = "a.nc".toList ∨ f = "in.nc".toList
  pathExists f := f = "a.nc".toList ∨ f = "in.nc".toList
  samefile f g := f = g
  ext f := f.dropWhile (· ≠ '.')

example : validateOutput exampleOS ".nc".toList "v:a".toList false [] ["x".toList, "y".toList] ["in.nc".toList] =
    .proceed "a.nc".toList (some "v".toList) := by decide +kernel
example : validateOutput exampleOS ".nc".toList "a".toList false [] [[]] ["in.nc".toList] = .noOperation := by decide +kernel
example : validateOutput exampleOS ".nc".toList "in".toList true [] [] ["in.nc".toList] = .error := by decide +kernel

/-- The documentation allows overwriting with the variable set to TRUE; any other value than `false`, like `no`, allows it
as well. -/
theorem overwrite_env_no : validateOutput exampleOS ".nc".toList "a.nc".toList false "no".toList [] [] =
    .proceed "a.nc".toList none := by decide +kernel

end Cis.Parse
