import Verif.Parse.Limits
import Verif.Parse.Props
import Mathlib.Tactic
set_option linter.unusedSectionVars false
set_option linter.unusedSimpArgs false
/-!
Limits of the named dimensions, and whole arguments made of several segments: C30 (splitting is a left inverse of joining), C81, C82.
-/
namespace Cis.Parse
open Cis.Str

/-- A piece that may stand between separators: its brackets are closed, and it has no separator outside of them. -/
def Piece (seps : List Char) (close : Char → Option Char) (s : Str) : Prop :=
  expected close s = [] ∧ ∀ i, ¬ OutsideSep seps close s i

/-- Pieces joined by a separator. -/
def joinBy (c : Char) : List Str → Str
  | [] => []
  | [f] => f
  | f :: g :: fs => f ++ c :: joinBy c (g :: fs)

theorem joinBy_cons (c : Char) (f : Str) (fs : List Str) (h : fs ≠ []) : joinBy c (f :: fs) = f ++ c :: joinBy c fs := by
  cases fs with
  | nil => exact absurd rfl h
  | cons g gs => rfl

theorem bloop_append (seps : List Char) (close : Char → Option Char) (a b : Str) : ∀ (st : BState) (i : Nat),
    bloop seps close st i (a ++ b) = bloop seps close (bloop seps close st i a) (i + a.length) b := by
  induction a with
  | nil => intro st i; simp [bloop]
  | cons c t ih =>
    intro st i
    rw [List.cons_append, bloop, ih, bloop, List.length_cons]
    congr 1
    omega

/-- Reading (part of) a piece leaves the separators found so far as they are. -/
theorem bloop_piece (seps : List Char) (close : Char → Option Char) (t : Str) : ∀ (pre : Str) (st : BState) (i : Nat),
    Rep st (expected close pre) → (∀ j, ¬ OutsideSep seps close (pre ++ t) j) →
    Rep (bloop seps close st i t) (expected close (pre ++ t)) ∧ (bloop seps close st i t).sepIdxs = st.sepIdxs := by
  induction t with
  | nil => intro pre st i hr _; simpa [bloop] using hr
  | cons c t ih =>
    intro pre st i hr ho
    rw [bloop]
    obtain ⟨h1, h2⟩ := bstep_rep seps close st (expected close pre) i c hr
    rw [← expected_append] at h1
    have hn : ¬ (c ∈ seps ∧ close c = none ∧ expected close pre = []) := by
      rintro ⟨a, b, d⟩
      exact ho pre.length ⟨c, by simp, a, b, by simpa using d⟩
    rw [if_neg hn] at h2
    have := ih (pre ++ [c]) _ (i + 1) h1 (by simpa using ho)
    rw [h2] at this
    simpa using this

theorem bloop_join (seps : List Char) (close : Char → Option Char) (c : Char) (hc : c ∈ seps) (hcl : close c = none) (fs : List Str) :
    ∀ (st : BState) (i : Nat), fs ≠ [] → (∀ f ∈ fs, Piece seps close f) → Rep st [] →
      (bloop seps close st i (joinBy c fs)).sepIdxs = ((cutPositions fs).map (· + i)).reverse ++ st.sepIdxs := by
  induction fs with
  | nil => intro _ _ h; exact absurd rfl h
  | cons f fs ih =>
    intro st i _ hp hr
    obtain ⟨p1, p2⟩ := hp f (by simp)
    have hb := bloop_piece seps close f [] st i (by simpa [expected] using hr) (by simpa using p2)
    rw [List.nil_append, p1] at hb
    by_cases hfs : fs = []
    · subst hfs
      simp [joinBy, cutPositions, hb.2]
    · rw [joinBy_cons c f fs hfs, bloop_append, bloop, cutPositions_cons f fs hfs]
      obtain ⟨h1, h2⟩ := bstep_rep seps close (bloop seps close st i f) [] (i + f.length) c hb.1
      rw [if_pos ⟨hc, hcl, rfl⟩, hb.2] at h2
      have h3 : expStep close [] c = [] := by unfold expStep; rw [hcl]; simp
      rw [h3] at h1
      rw [ih _ _ hfs (fun x hx => hp x (by simp [hx])) h1, h2]
      simp only [List.map_cons, List.map_map, List.reverse_cons, List.append_assoc, List.singleton_append, List.cons_append,
        List.nil_append]
      have e1 : (fun x => x + (i + f.length + 1)) = (fun x => x + i) ∘ fun x => x + (f.length + 1) := by
        funext x
        simp only [Function.comp]
        omega
      rw [e1, Nat.add_comm i f.length]

theorem slices_join (c : Char) (fs : List Str) : ∀ (pre : Str), fs ≠ [] → fs.getLast? ≠ some [] →
    slices (pre ++ joinBy c fs) pre.length ((cutPositions fs).map (· + pre.length)) = fs := by
  induction fs with
  | nil => intro _ h; exact absurd rfl h
  | cons f fs ih =>
    intro pre _ hl
    by_cases hfs : fs = []
    · subst hfs
      have hf : f ≠ [] := by simpa using hl
      simp only [joinBy, cutPositions, List.map_nil, slices, List.length_append, List.drop_left]
      rw [if_pos (by have := List.length_pos_iff.2 hf; omega)]
    · rw [joinBy_cons c f fs hfs, cutPositions_cons f fs hfs]
      have := ih (pre ++ (f ++ [c])) hfs (by rwa [List.getLast?_cons_of_ne_nil hfs] at hl)
      simp only [List.map_cons, slices, List.map_map]
      have e1 : (pre ++ (f ++ c :: joinBy c fs)).take (f.length + pre.length) = pre ++ f := by
        rw [← List.append_assoc, List.take_left' (by simp; omega)]
      rw [e1, List.drop_left]
      congr 1
      have e2 : pre ++ (f ++ c :: joinBy c fs) = pre ++ (f ++ [c]) ++ joinBy c fs := by simp
      rw [e2]
      convert this using 2
      · simp; omega
      · apply List.map_congr_left
        intro x _
        simp only [Function.comp, List.length_append, List.length_singleton]
        omega

/-- **C30**: pieces whose brackets are closed and that have no separator outside of brackets, joined by a separator, are split into
these pieces again; the last one must not be empty (`split_outside_trailing_violated`). -/
theorem c30_join_roundtrip (seps : List Char) (close : Char → Option Char) (c : Char) (hc : c ∈ seps) (hcl : close c = none)
    (fs : List Str) (hne : fs ≠ []) (hl : fs.getLast? ≠ some []) (hp : ∀ f ∈ fs, Piece seps close f) :
    splitOutside seps close (joinBy c fs) = fs := by
  unfold splitOutside
  rw [bloop_join seps close c hc hcl fs _ 0 hne hp ⟨rfl, by simp, by simp⟩]
  have := slices_join c fs [] hne hl
  simpa using this

/-- A string without brackets and separators is a piece. -/
theorem Piece.plain (seps : List Char) (close : Char → Option Char) (s : Str) (h : ∀ x ∈ s, x ∉ seps ∧ close x = none) :
    Piece seps close s := by
  constructor
  · have : ∀ (s : Str), (∀ x ∈ s, close x = none) → expected close s = [] := by
      intro s
      induction s using List.reverseRecOn with
      | nil => intro _; rfl
      | append_singleton s c ih =>
        intro h
        rw [expected_append, ih (fun x hx => h x (by simp [hx]))]
        unfold expStep
        rw [h c (by simp)]
        simp
    exact this s (fun x hx => (h x hx).2)
  · rintro i ⟨x, hx, h1, -⟩
    exact (h x (List.mem_of_getElem? hx)).1 h1

/-- `name=[values]` is a piece, if the name has neither brackets nor separators and the values no brackets. -/
theorem Piece.bracketed (dim body : Str) (hd : ∀ x ∈ dim, x ∉ [',', '[', '(']) (hb : ∀ x ∈ body, x ∉ ['[', '(', ']']) :
    Piece [','] defaultClose (dim ++ "=[".toList ++ body ++ "]".toList) := by
  have hcl : ∀ x : Char, x ∉ ['[', '('] → defaultClose x = none := by
    intro x hx
    unfold defaultClose
    split <;> simp_all
  have e0 : expected defaultClose (dim ++ ['=']) = [] := by
    refine (Piece.plain [','] defaultClose (dim ++ ['=']) ?_).1
    intro x hx
    rcases List.mem_append.1 hx with hx | hx
    · have := hd x hx
      simp only [List.mem_cons, not_or, List.not_mem_nil] at this
      exact ⟨by simpa using this.1, hcl x (by simp [this.2.1, this.2.2.1])⟩
    · simp only [List.mem_singleton] at hx
      subst hx
      exact ⟨by decide, rfl⟩
  have e1 : expected defaultClose (dim ++ "=[".toList) = [']'] := by
    have : dim ++ "=[".toList = (dim ++ ['=']) ++ ['['] := by simp
    rw [this, expected_append, e0]
    rfl
  have e2 : ∀ b : Str, (∀ x ∈ b, x ∉ ['[', '(', ']']) → expected defaultClose (dim ++ "=[".toList ++ b) = [']'] := by
    intro b
    induction b using List.reverseRecOn with
    | nil => intro _; rw [List.append_nil, e1]
    | append_singleton b c ih =>
      intro h
      rw [← List.append_assoc, expected_append, ih (fun x hx => h x (by simp [hx]))]
      have hc := h c (by simp)
      simp only [List.mem_cons, not_or, List.not_mem_nil] at hc
      unfold expStep
      rw [hcl c (by simp [hc.1, hc.2.1])]
      simp only [List.head?_cons, Option.some.injEq]
      rw [if_neg (fun h => hc.2.2.1 h.symm)]
  constructor
  · rw [show "]".toList = [']'] from rfl, expected_append, e2 body hb]
    rfl
  · rintro i ⟨x, hx, h1, h2, h3⟩
    simp only [List.mem_singleton] at h1
    subst h1
    rw [List.append_assoc, List.append_assoc] at hx
    rcases lt_or_ge i dim.length with hi | hi
    · rw [List.getElem?_append_left hi] at hx
      have := hd _ (List.mem_of_getElem? hx)
      simp at this
    · rw [List.getElem?_append_right hi] at hx
      rcases lt_or_ge (i - dim.length) 2 with h4 | h4
      · have : i - dim.length = 0 ∨ i - dim.length = 1 := by omega
        rcases this with h5 | h5 <;> rw [h5] at hx <;> simp at hx
      · have h5 : i - dim.length = (i - dim.length - 2) + 2 := by omega
        rw [h5] at hx
        have hx' : (body ++ "]".toList)[i - dim.length - 2]? = some ',' := by simpa using hx
        rcases lt_or_ge (i - dim.length - 2) body.length with h6 | h6
        · have h7 : (dim ++ "=[".toList ++ body ++ "]".toList).take i = dim ++ "=[".toList ++ body.take (i - dim.length - 2) := by
            rw [List.take_append_of_le_length (by simp; omega)]
            rw [List.take_append, List.take_of_length_le (by simp; omega)]
            congr 2
            simp
            omega
          rw [h7, e2 _ (fun x hx => hb x (List.mem_of_mem_take hx))] at h3
          cases h3
        · rw [List.getElem?_append_right h6] at hx'
          have h7 := (List.getElem?_eq_some_iff.1 hx').1
          have h8 : i - dim.length - 2 - body.length = 0 := by simpa using h7
          rw [h8] at hx'
          simp at hx'

end Cis.Parse

namespace Cis.Limits
open Cis.Str Cis.Parse
variable {D : Type}

theorem render_not_shape (dim s : Str) (e : Option Str) (hsh : ¬ "shape".toList <+: dim) :
    ("shape".toList).isPrefixOf (Spec.render dim s e) = false := by
  rw [Bool.eq_false_iff]
  intro h
  rw [List.isPrefixOf_iff_prefix] at h
  have h2 : ∃ t, Spec.render dim s e = dim ++ '=' :: t :=
    ⟨'[' :: (s ++ ((match e with | none => [] | some e => ',' :: e) ++ "]".toList)), by cases e <;> simp [Spec.render]⟩
  obtain ⟨t, h2⟩ := h2
  rw [h2] at h
  rcases List.prefix_or_prefix_of_prefix h (List.prefix_append dim ('=' :: t)) with h3 | ⟨w, h3⟩
  · exact hsh h3
  · cases w with
    | nil => rw [List.append_nil] at h3; exact hsh (by rw [h3])
    | cons c w =>
      have h5 : c = '=' := by
        obtain ⟨z, hz⟩ := h
        rw [← h3, List.append_assoc] at hz
        have hz' := congrArg List.head? (List.append_cancel_left hz)
        simpa using hz'
      have : '=' ∈ "shape".toList := by rw [← h3, h5]; simp
      revert this
      decide

theorem subsetSeg_eq (dim s : Str) (e : Option Str) (hd : Spec.Word ['='] dim) (hs : Spec.Word [']', ','] s)
    (he : ∀ x, e = some x → Spec.Word [']', ','] x) (hsh : ¬ "shape".toList <+: dim) :
    ("shape".toList).isPrefixOf (Spec.render dim s e) = false ∧ matchLimits (Spec.render dim s e) = some (dim, s, e) :=
  ⟨render_not_shape dim s e hsh, (matchLimits_iff _ _ _ _).2 ⟨hd, hs, he, rfl⟩⟩

theorem lower_not_shape (dim : Str) (l : List Str) (h : lower dim ∈ l) (hl : ∀ w ∈ l, w.length < 5) : ¬ "shape".toList <+: dim := by
  intro hp
  have h1 := hp.length_le
  have h2 := hl _ h
  simp [lower] at h1 h2
  omega

/-- **C81**: a single limit of `t` or `time` stands for the interval it denotes, from its start to its end; text that denotes no
interval is refused. -/
theorem c81_time_interval (cv : Conv D) (dim s : Str) (hd : Spec.Word ['='] dim) (hs : Spec.Word [']', ','] s)
    (ht : lower dim = "t".toList ∨ lower dim = "time".toList) :
    (∀ a b, cv.interval s = some (a, b) → subsetSeg cv (Spec.render dim s none) = .ok (dim, .pair (.date a) (.date b))) ∧
      (cv.interval s = none → subsetSeg cv (Spec.render dim s none) = .error .parser) := by
  have hsh := lower_not_shape dim ["t".toList, "time".toList] (by simpa using ht) (by simp)
  obtain ⟨h0, hm⟩ := subsetSeg_eq dim s none hd hs (by simp) hsh
  constructor
  · intro a b hi
    unfold subsetSeg
    rw [h0, hm]
    simp only [Bool.false_eq_true, if_false]
    rw [if_pos ht]
    simp only [hi]
  · intro hi
    unfold subsetSeg
    rw [h0, hm]
    simp only [Bool.false_eq_true, if_false]
    rw [if_pos ht]
    simp only [hi]

/-- What a limit of the time dimension denotes: nothing for `None`, else a date. -/
def Spec.DateLimit (cv : Conv D) (s : Str) (v : Val D) : Prop :=
  (s = "None".toList ∧ v = .none) ∨ (s ≠ "None".toList ∧ ∃ d, cv.date s = some d ∧ v = .date d)

theorem parseDate_of (cv : Conv D) (s : Str) (v : Val D) (h : Spec.DateLimit cv s v) : parseDate cv s = .ok v := by
  unfold parseDate
  rcases h with ⟨rfl, rfl⟩ | ⟨h1, d, h2, rfl⟩
  · rfl
  · rw [if_neg h1, h2]

/-- **C81**: two limits of `t` or `time` are the dates they denote, in the order given. -/
theorem c81_time_pair (cv : Conv D) (dim s e : Str) (a b : Val D) (hd : Spec.Word ['='] dim) (hs : Spec.Word [']', ','] s)
    (he : Spec.Word [']', ','] e) (ht : lower dim = "t".toList ∨ lower dim = "time".toList) (ha : Spec.DateLimit cv s a)
    (hb : Spec.DateLimit cv e b) : subsetSeg cv (Spec.render dim s (some e)) = .ok (dim, .pair a b) := by
  have hsh := lower_not_shape dim ["t".toList, "time".toList] (by simpa using ht) (by simp)
  obtain ⟨h0, hm⟩ := subsetSeg_eq dim s (some e) hd hs (by rintro x ⟨⟩; exact he) hsh
  unfold subsetSeg
  rw [h0, hm]
  simp only [Bool.false_eq_true, if_false]
  rw [if_pos ht]
  simp only [parseDate_of cv s a ha, parseDate_of cv e b hb]

/-- What a numeric limit denotes: nothing when missing or `None`, else a number. -/
def Spec.NumLimit (cv : Conv D) (s : Option Str) (v : Val D) : Prop :=
  (s = none ∧ v = .none) ∨ (s = some "None".toList ∧ v = .none) ∨ ∃ t f, s = some t ∧ t ≠ "None".toList ∧ cv.flt t = some f ∧ v = .num f

theorem parseFloat_of (cv : Conv D) (s : Option Str) (v : Val D) (h : Spec.NumLimit cv s v) : parseFloat cv s = .ok v := by
  unfold parseFloat
  rcases h with ⟨rfl, rfl⟩ | ⟨rfl, rfl⟩ | ⟨t, f, rfl, h1, h2, rfl⟩
  · rfl
  · rfl
  · simp only [if_neg h1, h2]

/-- **C81**: the limits of `y` and `z` are the numbers they denote, in the order given; a missing second limit is open. -/
theorem c81_yz (cv : Conv D) (dim s : Str) (e : Option Str) (a b : Val D) (hd : Spec.Word ['='] dim) (hs : Spec.Word [']', ','] s)
    (he : ∀ x, e = some x → Spec.Word [']', ','] x) (ht : lower dim = "y".toList ∨ lower dim = "z".toList)
    (ha : Spec.NumLimit cv (some s) a) (hb : Spec.NumLimit cv e b) : subsetSeg cv (Spec.render dim s e) = .ok (dim, .pair a b) := by
  have hsh := lower_not_shape dim ["y".toList, "z".toList] (by simpa using ht) (by simp)
  obtain ⟨h0, hm⟩ := subsetSeg_eq dim s e hd hs he hsh
  have hx : lower dim ≠ "x".toList := by rcases ht with h | h <;> rw [h] <;> decide
  have ht' : ¬ (lower dim = "t".toList ∨ lower dim = "time".toList) := by rcases ht with h | h <;> rw [h] <;> decide
  unfold subsetSeg
  rw [h0, hm]
  simp only [Bool.false_eq_true, if_false]
  rw [if_neg ht', if_pos (Or.inr ht)]
  simp only [parseFloat_of cv (some s) a ha, parseFloat_of cv e b hb]
  rw [if_neg hx]

/-- **C81**: a whole argument. Segments `dim=[a]` or `dim=[a,b]`, with different names, joined by commas: the result has the limits
each segment has alone, in the order given; if one is refused, the whole argument is. -/
theorem c81_argument (cv : Conv D) (segs : List (Str × Str × Option Str)) (hne : segs ≠ [])
    (hw : ∀ x ∈ segs, Spec.Word ['=', ',', '[', '('] x.1 ∧ Spec.Word [']', ',', '[', '('] x.2.1 ∧
      ∀ e, x.2.2 = some e → Spec.Word [']', ',', '[', '('] e) :
    (∀ r, segs.map (fun x => subsetSeg cv (Spec.render x.1 x.2.1 x.2.2)) = r.map .ok → (r.map Prod.fst).Nodup →
        subsetLimits cv (joinBy ',' (segs.map (fun x => Spec.render x.1 x.2.1 x.2.2))) = .ok r) ∧
      ((∃ x ∈ segs, ∃ e, subsetSeg cv (Spec.render x.1 x.2.1 x.2.2) = .error e) →
        ∃ e, subsetLimits cv (joinBy ',' (segs.map (fun x => Spec.render x.1 x.2.1 x.2.2))) = .error e) := by
  have hpiece : ∀ f ∈ segs.map (fun x => Spec.render x.1 x.2.1 x.2.2), Piece [','] defaultClose f := by
    intro f hf
    obtain ⟨⟨d, s, e⟩, hx, rfl⟩ := List.mem_map.1 hf
    obtain ⟨w1, w2, w3⟩ := hw _ hx
    simp only at w1 w2 w3
    unfold Spec.render
    simp only
    rw [List.append_assoc (d ++ "=[".toList) s]
    apply Piece.bracketed
    · intro x hx
      have := w1.2 x hx
      simp only [List.mem_cons, not_or, List.not_mem_nil] at this ⊢
      tauto
    · intro x hx
      rcases List.mem_append.1 hx with hx | hx
      · have := w2.2 x hx
        simp only [List.mem_cons, not_or, List.not_mem_nil] at this ⊢
        tauto
      · cases e with
        | none => cases hx
        | some e =>
          simp only at hx
          rcases List.mem_cons.1 hx with rfl | hx
          · decide
          · have := (w3 e rfl).2 x hx
            simp only [List.mem_cons, not_or, List.not_mem_nil] at this ⊢
            tauto
  have hsplit := c30_join_roundtrip [','] defaultClose ',' (by simp) (by rfl) (segs.map (fun x => Spec.render x.1 x.2.1 x.2.2))
    (by simpa using hne) (by
      intro h
      have h2 := List.mem_of_mem_getLast? h
      obtain ⟨x, -, hx⟩ := List.mem_map.1 h2
      have := congrArg List.length hx
      simp [Spec.render] at this) hpiece
  have hsl : subsetLimits cv (joinBy ',' (segs.map (fun x => Spec.render x.1 x.2.1 x.2.2))) =
      segLoop (subsetSeg cv) (segs.map (fun x => Spec.render x.1 x.2.1 x.2.2)) [] := by
    unfold subsetLimits
    simp only [hsplit]
    rw [if_neg (by simpa using hne)]
  rw [hsl]
  have hall := c81_all_segments (subsetSeg cv) (segs.map (fun x => Spec.render x.1 x.2.1 x.2.2))
  constructor
  · intro r hr hn
    exact hall.1 r (by rw [List.map_map]; exact hr) hn
  · rintro ⟨x, hx, e, he⟩
    exact hall.2 ⟨_, List.mem_map.2 ⟨x, hx, rfl⟩, e, he⟩

/-- A dimension of a grid: its name alone, or with start, end and spacing. -/
def Spec.gridText (x : Str × Option (Str × Str × Str)) : Str :=
  match x.2 with
  | none => x.1
  | some (a, b, c) => Spec.renderGrid x.1 a b c

/-- **C82**: a whole argument. Names, alone or with `=[start,end,spacing]`, different and joined by commas: the result has the grid
each has alone, in the order given; if one is refused, the whole argument is. -/
theorem c82_argument (cv : Conv D) (segs : List (Str × Option (Str × Str × Str))) (hne : segs ≠ [])
    (hw : ∀ x ∈ segs, Spec.Word ['=', ',', '[', '('] x.1 ∧ ∀ a b c, x.2 = some (a, b, c) →
      Spec.Word [']', ',', '[', '('] a ∧ Spec.Word [']', ',', '[', '('] b ∧ Spec.Word [']', ',', '[', '('] c) :
    (∀ r, segs.map (fun x => gridSeg cv (Spec.gridText x)) = r.map .ok → (r.map Prod.fst).Nodup →
        aggregateGrid cv (joinBy ',' (segs.map Spec.gridText)) = .ok r) ∧
      ((∃ x ∈ segs, ∃ e, gridSeg cv (Spec.gridText x) = .error e) →
        ∃ e, aggregateGrid cv (joinBy ',' (segs.map Spec.gridText)) = .error e) := by
  have hclose : ∀ x : Char, x ≠ '[' → x ≠ '(' → defaultClose x = none := by
    intro x h1 h2
    unfold defaultClose
    split <;> simp_all
  have hpiece : ∀ f ∈ segs.map Spec.gridText, Piece [','] defaultClose f := by
    intro f hf
    obtain ⟨⟨d, g⟩, hx, rfl⟩ := List.mem_map.1 hf
    obtain ⟨w1, w2⟩ := hw _ hx
    simp only at w1 w2
    cases g with
    | none =>
      apply Piece.plain
      intro x hx
      have := w1.2 x hx
      simp only [List.mem_cons, not_or, List.not_mem_nil] at this
      exact ⟨by simpa using this.2.1, hclose x this.2.2.1 this.2.2.2.1⟩
    | some t =>
      obtain ⟨a, b, c⟩ := t
      obtain ⟨wa, wb, wc⟩ := w2 a b c rfl
      have e1 : Spec.gridText (d, some (a, b, c)) = d ++ "=[".toList ++ (a ++ ",".toList ++ b ++ ",".toList ++ c) ++ "]".toList := by
        simp [Spec.gridText, Spec.renderGrid]
      rw [e1]
      apply Piece.bracketed
      · intro x hx
        have := w1.2 x hx
        simp only [List.mem_cons, not_or, List.not_mem_nil] at this ⊢
        tauto
      · intro x hx
        simp only [List.mem_append] at hx
        rcases hx with (((hx | hx) | hx) | hx) | hx
        · have := wa.2 x hx
          simp only [List.mem_cons, not_or, List.not_mem_nil] at this ⊢
          tauto
        · have hx' : x = ',' := by simpa using hx
          subst hx'; decide
        · have := wb.2 x hx
          simp only [List.mem_cons, not_or, List.not_mem_nil] at this ⊢
          tauto
        · have hx' : x = ',' := by simpa using hx
          subst hx'; decide
        · have := wc.2 x hx
          simp only [List.mem_cons, not_or, List.not_mem_nil] at this ⊢
          tauto
  have hsplit := c30_join_roundtrip [','] defaultClose ',' (by simp) (by rfl) (segs.map Spec.gridText)
    (by simpa using hne) (by
      intro h
      have h2 := List.mem_of_mem_getLast? h
      obtain ⟨⟨d, g⟩, hm, hx⟩ := List.mem_map.1 h2
      cases g with
      | none => exact (hw _ hm).1.1 hx
      | some t =>
        have := congrArg List.length hx
        simp [Spec.gridText, Spec.renderGrid] at this) hpiece
  have hsl : aggregateGrid cv (joinBy ',' (segs.map Spec.gridText)) = segLoop (gridSeg cv) (segs.map Spec.gridText) [] := by
    unfold aggregateGrid
    simp only [hsplit]
    rw [if_neg (by simpa using hne)]
  rw [hsl]
  have hall := c81_all_segments (gridSeg cv) (segs.map Spec.gridText)
  constructor
  · intro r hr hn
    exact hall.1 r (by rw [List.map_map]; exact hr) hn
  · rintro ⟨x, hx, e, he⟩
    exact hall.2 ⟨_, List.mem_map.2 ⟨x, hx, rfl⟩, e, he⟩

example : Spec.DateLimit exConv "None".toList (.none : Val Unit) := Or.inl ⟨rfl, rfl⟩

example : Spec.NumLimit exConv (some "-10".toList) (.num (.fin (-10))) :=
  Or.inr (Or.inr ⟨_, _, rfl, by decide, by decide +kernel, rfl⟩)

example : joinBy ',' ([("x".toList, "-10".toList, some "20".toList), ("t".toList, "2010".toList, none)].map
    (fun x => Spec.render x.1 x.2.1 x.2.2)) = "x=[-10,20],t=[2010]".toList ∧
    ([("x".toList, "-10".toList, some "20".toList), ("t".toList, "2010".toList, none)].map
      (fun x => subsetSeg exConv (Spec.render x.1 x.2.1 x.2.2))) =
      [("x".toList, Lim.pair (.num (.fin (-10))) (.num (.fin 20))), ("t".toList, .pair (.date ()) (.date ()))].map .ok := by
  decide +kernel

end Cis.Limits
