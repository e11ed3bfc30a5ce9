import Verif.Masks.Model
import Mathlib.Tactic.Ring
import Mathlib.Tactic.Linarith
import Mathlib.Tactic.FieldSimp
import Mathlib.Tactic.NormNum
set_option linter.unusedSectionVars false
set_option linter.unusedSimpArgs false
/-!
Masks (C34), comparison statistics (C35), histogram edges (C55), equality with NaN (C56).
-/
namespace Cis.Masks

variable {α β : Type}

/-! ### C34 -/

/-- The array at position `i` shows the value `x` (it is not masked). -/
def Shows (a : MArr α) (i : Nat) (x : α) : Prop := a[i]? = some (x, false)

/-- Same values in the same order, masked or not. -/
def SameValues (a b : MArr α) : Prop := a.map Prod.fst = b.map Prod.fst

/-- **C34** (apply a mask). Values are unchanged; an element is visible iff it was and the mask does not mask it. -/
theorem apply_mask (a : MArr α) (mask : List Bool) (h : mask.length = a.length) :
    SameValues (applyMask a mask) a ∧
      ∀ i x, Shows (applyMask a mask) i x ↔ Shows a i x ∧ mask[i]? = some false := by
  unfold applyMask SameValues Shows
  split
  · constructor
    · apply List.ext_getElem
      · simp [h]
      · intro i h1 h2; simp
    · intro i x
      rw [List.getElem?_zipWith_eq_some]
      constructor
      · rintro ⟨p, m, hp, hm, e⟩
        obtain ⟨p1, p2⟩ := p
        simp only [Prod.mk.injEq, Bool.or_eq_false_iff] at e
        obtain ⟨rfl, rfl, rfl⟩ := e
        exact ⟨hp, hm⟩
      · rintro ⟨hp, hm⟩
        exact ⟨_, _, hp, hm, rfl⟩
  · next hn =>
    refine ⟨rfl, fun i x => ⟨fun hs => ⟨hs, ?_⟩, And.left⟩⟩
    have hi : i < mask.length := by rw [h]; exact (List.getElem?_eq_some_iff.1 hs).1
    have : mask[i] = false := by
      by_contra hc
      exact hn (List.any_eq_true.2 ⟨mask[i], List.getElem_mem hi, by simpa using hc⟩)
    rw [List.getElem?_eq_getElem hi, this]

/-- **C34** (two arrays). Values are unchanged; either result shows an element iff both arrays show one there. -/
theorem intersect_masks (a : MArr α) (b : MArr β) (h : a.length = b.length) :
    SameValues (intersect a b).1 a ∧ SameValues (intersect a b).2 b ∧
      (∀ i x, Shows (intersect a b).1 i x ↔ Shows a i x ∧ ∃ y, Shows b i y) ∧
      (∀ i y, Shows (intersect a b).2 i y ↔ Shows b i y ∧ ∃ x, Shows a i x) := by
  unfold intersect SameValues Shows
  refine ⟨?_, ?_, ?_, ?_⟩
  · apply List.ext_getElem
    · simp [h]
    · intro i h1 h2; simp
  · apply List.ext_getElem
    · simp [h]
    · intro i h1 h2; simp
  · intro i x
    rw [List.getElem?_zipWith_eq_some]
    constructor
    · rintro ⟨⟨p1, p2⟩, ⟨q1, q2⟩, hp, hq, e⟩
      simp only [Prod.mk.injEq, Bool.or_eq_false_iff] at e
      obtain ⟨rfl, rfl, rfl⟩ := e
      exact ⟨hp, _, hq⟩
    · rintro ⟨hp, y, hq⟩
      exact ⟨_, _, hp, hq, rfl⟩
  · intro i x
    rw [List.getElem?_zipWith_eq_some]
    constructor
    · rintro ⟨⟨p1, p2⟩, ⟨q1, q2⟩, hp, hq, e⟩
      simp only [Prod.mk.injEq, Bool.or_eq_false_iff] at e
      obtain ⟨rfl, rfl, rfl⟩ := e
      exact ⟨hq, _, hp⟩
    · rintro ⟨hq, y, hp⟩
      exact ⟨_, _, hp, hq, rfl⟩

theorem shows_map (f : α × Bool → Bool) (a : MArr α) (i : Nat) (x : α) :
    Shows (a.map (fun p => (p.1, f p))) i x ↔ ∃ m, a[i]? = some (x, m) ∧ f (x, m) = false := by
  unfold Shows
  rw [List.getElem?_map]
  cases h : a[i]? with
  | none => simp
  | some p => obtain ⟨p1, p2⟩ := p; simp only [Option.map_some, Option.some.injEq, Prod.mk.injEq]
              constructor
              · rintro ⟨rfl, h2⟩; exact ⟨p2, ⟨rfl, rfl⟩, h2⟩
              · rintro ⟨m, ⟨rfl, rfl⟩, h2⟩; exact ⟨rfl, h2⟩

/-- **C34** (missing values). Values are unchanged; an element is visible iff it was and it equals none of the given missing
values. -/
theorem mask_missing_values (eq : α → α → Bool) (missing : List (Option α)) : ∀ a : MArr α,
    SameValues (maskMissingValues eq a missing) a ∧
      ∀ i x, Shows (maskMissingValues eq a missing) i x ↔ Shows a i x ∧ ∀ v, some v ∈ missing → eq v x = false := by
  induction missing with
  | nil => intro a; exact ⟨rfl, by simp [maskMissingValues]⟩
  | cons v t ih =>
    intro a
    cases v with
    | none =>
      have e : maskMissingValues eq a (none :: t) = maskMissingValues eq a t := rfl
      rw [e]
      obtain ⟨h1, h2⟩ := ih a
      exact ⟨h1, fun i x => by rw [h2]; simp⟩
    | some m =>
      have e : maskMissingValues eq a (some m :: t) =
          maskMissingValues eq (a.map (fun p => (p.1, p.2 || (p.2 || eq m p.1)))) t := rfl
      rw [e]
      obtain ⟨h1, h2⟩ := ih (a.map (fun p => (p.1, p.2 || (p.2 || eq m p.1))))
      constructor
      · unfold SameValues at h1 ⊢
        rw [h1]; simp
      · intro i x
        rw [h2, shows_map (fun p => p.2 || (p.2 || eq m p.1))]
        simp only [Bool.or_eq_false_iff, List.mem_cons, Option.some.injEq, Shows]
        constructor
        · rintro ⟨⟨b, hb, rfl, _, hm⟩, h⟩
          exact ⟨hb, by rintro v (rfl | hv); exacts [hm, h v hv]⟩
        · rintro ⟨hb, h⟩
          exact ⟨⟨false, hb, rfl, rfl, h m (Or.inl rfl)⟩, fun v hv => h v (Or.inr hv)⟩

/-- **C34** (one missing value). -/
theorem mask_missing (eq : α → α → Bool) (a : MArr α) (m : α) :
    SameValues (maskMissing eq a m) a ∧ ∀ i x, Shows (maskMissing eq a m) i x ↔ Shows a i x ∧ eq x m = false := by
  constructor
  · simp [SameValues, maskMissing]
  · intro i x
    unfold maskMissing
    rw [shows_map (fun p => p.2 || eq p.1 m)]
    simp only [Bool.or_eq_false_iff, Shows]
    constructor
    · rintro ⟨b, hb, rfl, h⟩; exact ⟨hb, h⟩
    · rintro ⟨hb, h⟩; exact ⟨false, hb, rfl, h⟩

example : applyMask [(5, false), (6, true), (7, false)] [true, false, false] = [(5, true), (6, true), (7, false)] ∧
    maskMissingValues (fun a b => a == b) [(5, false), (6, true), (7, false)] [some 7, none, some 9] =
      [(5, false), (6, true), (7, true)] := by decide

/-! ### C35 -/

section Stats
variable {K : Type} [Field K] [DecidableEq K]

/-- The pairs of values at the positions valid in both arrays, in order. -/
def validPairs (a b : MArr K) : List (K × K) :=
  (a.zip b).filterMap (fun pq => if pq.1.2 = false ∧ pq.2.2 = false then some (pq.1.1, pq.2.1) else none)

/-- Mean of a list of numbers, if there are any. -/
def mean (l : List K) : Option K := if l = [] then none else some (l.sum / l.length)

/-- Corrected sample variance, if there are at least two numbers. -/
def variance (l : List K) : Option K :=
  if l.length ≤ 1 then none else some ((l.map (fun x => (x - l.sum / l.length) ^ 2)).sum / ((l.length - 1 : Nat) : K))

theorem maMean_eq (a : MArr K) : maMean a = mean (compressed a) := by
  unfold maMean mean
  by_cases h : compressed a = []
  · simp [h]
  · have : (compressed a).length ≠ 0 := by simpa using h
    simp [h, this]

theorem maVar_eq (a : MArr K) : maVar a = variance (compressed a) := by
  unfold maVar variance
  rw [maMean_eq, mean]
  by_cases h : compressed a = []
  · simp [h]
  · simp [h]

theorem compressed_op (f : K → K → K) (a : MArr K) : ∀ b : MArr K,
    compressed (maOp f a b) = (validPairs a b).map (fun p => f p.1 p.2) := by
  induction a with
  | nil => intro b; simp [maOp, compressed, validPairs]
  | cons p t ih =>
    intro b
    obtain ⟨x, m⟩ := p
    cases b with
    | nil => simp [maOp, compressed, validPairs]
    | cons q s =>
      obtain ⟨y, n⟩ := q
      have := ih s
      unfold maOp compressed validPairs at this ⊢
      simp only [List.zipWith_cons_cons, List.zip_cons_cons]
      cases m <;> cases n <;> simp_all [List.filterMap_cons]

theorem compressed_intersect (a : MArr K) : ∀ b : MArr K,
    compressed (intersect a b).1 = (validPairs a b).map Prod.fst ∧ compressed (intersect a b).2 = (validPairs a b).map Prod.snd := by
  induction a with
  | nil => intro b; simp [intersect, compressed, validPairs]
  | cons p t ih =>
    intro b
    obtain ⟨x, m⟩ := p
    cases b with
    | nil => simp [intersect, compressed, validPairs]
    | cons q s =>
      obtain ⟨y, n⟩ := q
      have := ih s
      unfold intersect compressed validPairs at this ⊢
      simp only [List.zipWith_cons_cons, List.zip_cons_cons]
      cases m <;> cases n <;> simp_all [List.filterMap_cons]

theorem compressed_rel (a : MArr K) : ∀ b : MArr K,
    compressed (maDiv (maOp (fun x y => y - x) a b) a) =
      ((validPairs a b).filter (fun p => decide (p.1 ≠ 0))).map (fun p => (p.2 - p.1) / p.1) := by
  induction a with
  | nil => intro b; simp [maOp, maDiv, compressed, validPairs]
  | cons p t ih =>
    intro b
    obtain ⟨x, m⟩ := p
    cases b with
    | nil => simp [maOp, maDiv, compressed, validPairs]
    | cons q s =>
      obtain ⟨y, n⟩ := q
      have := ih s
      unfold maOp maDiv compressed validPairs at this ⊢
      simp only [List.zipWith_cons_cons, List.zip_cons_cons]
      by_cases hx : x = 0 <;> cases m <;> cases n <;> simp_all [List.filterMap_cons]

/-- **C35**. The number of points, the means, the standard deviations (squared), and those of the difference are taken over
exactly the positions valid in both data sets; those of the relative difference over those of them where the first value is
not zero. -/
theorem stats_valid (a b : MArr K) :
    (analyze a b).count = (validPairs a b).length ∧
    (analyze a b).mean1 = mean ((validPairs a b).map Prod.fst) ∧
    (analyze a b).mean2 = mean ((validPairs a b).map Prod.snd) ∧
    (analyze a b).var1 = variance ((validPairs a b).map Prod.fst) ∧
    (analyze a b).var2 = variance ((validPairs a b).map Prod.snd) ∧
    (analyze a b).absMean = mean ((validPairs a b).map (fun p => p.2 - p.1)) ∧
    (analyze a b).absVar = variance ((validPairs a b).map (fun p => p.2 - p.1)) ∧
    (analyze a b).relMean = mean (((validPairs a b).filter (fun p => decide (p.1 ≠ 0))).map (fun p => (p.2 - p.1) / p.1)) ∧
    (analyze a b).relVar = variance (((validPairs a b).filter (fun p => decide (p.1 ≠ 0))).map (fun p => (p.2 - p.1) / p.1)) := by
  unfold analyze
  simp only [maMean_eq, maVar_eq, compressed_op, (compressed_intersect a b).1, (compressed_intersect a b).2, compressed_rel,
    List.length_map, and_self]

/-- **C35**. The mean difference is the difference of the means. -/
theorem abs_mean_eq (a b : MArr K) (m1 m2 : K) (h1 : (analyze a b).mean1 = some m1) (h2 : (analyze a b).mean2 = some m2) :
    (analyze a b).absMean = some (m2 - m1) := by
  obtain ⟨-, e1, e2, -, -, e3, -⟩ := stats_valid a b
  rw [e1] at h1
  rw [e2] at h2
  rw [e3]
  unfold mean at *
  have hs : ∀ l : List (K × K), (l.map (fun p => p.2 - p.1)).sum = (l.map Prod.snd).sum - (l.map Prod.fst).sum := by
    intro l
    induction l with
    | nil => simp
    | cons p t ih => simp only [List.map_cons, List.sum_cons, ih]; ring
  by_cases hv : validPairs a b = []
  · simp [hv] at h1
  · simp only [List.map_eq_nil_iff, hv, if_false, Option.some.injEq, List.length_map] at h1 h2 ⊢
    rw [← h1, ← h2, hs, sub_div]

/-- The results are missing exactly when there is no common valid point. -/
theorem means_missing_iff (a b : MArr K) :
    ((analyze a b).mean1 = none ↔ (analyze a b).count = 0) ∧ ((analyze a b).absMean = none ↔ (analyze a b).count = 0) := by
  obtain ⟨e0, e1, -, -, -, e3, -⟩ := stats_valid a b
  rw [e0, e1, e3]
  unfold mean
  by_cases hv : validPairs a b = [] <;> simp [hv]

example : (analyze (K := ℚ) [(1, false), (2, true), (0, false), (5, false)] [(3, false), (2, false), (4, false), (7, true)]).count = 2 ∧
    (analyze (K := ℚ) [(1, false), (2, true), (0, false), (5, false)] [(3, false), (2, false), (4, false), (7, true)]).absMean = some 3 ∧
    (analyze (K := ℚ) [(1, false), (2, true), (0, false), (5, false)] [(3, false), (2, false), (4, false), (7, true)]).relMean = some 2 := by
  decide +kernel

end Stats

/-! ### C55 -/

/-- The loop without a limit: all `start + k * step` below `stop`, given enough turns. -/
theorem edgeLoop_spec (step stop : ℚ) (N : Nat) : ∀ (fuel n : Nat) (i : ℚ), N < fuel → (∀ k, k < N → i + k * step < stop) →
    stop ≤ i + N * step → edgeLoop step stop none fuel n i = some ((List.range N).map (fun k : Nat => i + k * step)) := by
  induction N with
  | zero =>
    intro fuel n i hf _ hs
    obtain ⟨f, rfl⟩ : ∃ f, fuel = f + 1 := ⟨fuel - 1, by omega⟩
    rw [edgeLoop, if_neg (by simpa using hs)]; simp
  | succ m ih =>
    intro fuel n i hf hk hs
    obtain ⟨f, rfl⟩ : ∃ f, fuel = f + 1 := ⟨fuel - 1, by omega⟩
    have h0 : i < stop := by simpa using hk 0 (by omega)
    rw [edgeLoop, if_pos h0, if_neg (by simp), ih f (n + 1) (i + step) (by omega) (by
      intro k hk'
      have := hk (k + 1) (by omega)
      push_cast at this
      linarith) (by push_cast at hs; linarith)]
    rw [List.range_succ_eq_map]
    simp only [Option.map_some, List.map_cons, List.map_map, Nat.cast_zero, zero_mul, add_zero]
    congr 2
    apply List.map_congr_left
    intro k _
    simp only [Function.comp, Nat.succ_eq_add_one, Nat.cast_add, Nat.cast_one]
    ring

theorem edgeLoop_limit (step stop : ℚ) (limit N : Nat) : ∀ (fuel n : Nat) (i : ℚ), n + N = limit → N < fuel →
    (∀ k, k ≤ N → i + k * step < stop) →
    edgeLoop step stop (some limit) fuel n i = some ((List.range N).map (fun k : Nat => i + k * step)) := by
  induction N with
  | zero =>
    intro fuel n i hn hf hk
    obtain ⟨f, rfl⟩ : ∃ f, fuel = f + 1 := ⟨fuel - 1, by omega⟩
    have h0 : i < stop := by simpa using hk 0 (by omega)
    rw [edgeLoop, if_pos h0, if_pos (by simp; omega)]; simp
  | succ m ih =>
    intro fuel n i hn hf hk
    obtain ⟨f, rfl⟩ : ∃ f, fuel = f + 1 := ⟨fuel - 1, by omega⟩
    have h0 : i < stop := by simpa using hk 0 (by omega)
    rw [edgeLoop, if_pos h0, if_neg (by simp; omega), ih f (n + 1) (i + step) (by omega) (by omega) (by
      intro k hk'
      have := hk (k + 1) (by omega)
      push_cast at this
      linarith)]
    rw [List.range_succ_eq_map]
    simp only [Option.map_some, List.map_cons, List.map_map, Nat.cast_zero, zero_mul, add_zero]
    congr 2
    apply List.map_congr_left
    intro k _
    simp only [Function.comp, Nat.succ_eq_add_one, Nat.cast_add, Nat.cast_one]
    ring

theorem remainder_mul (s : ℚ) (n : Nat) (hs : s ≠ 0) : remainder (n * s) s = 0 := by
  unfold remainder
  have : (n * s : ℚ) / s = n := by field_simp
  rw [this, Int.floor_natCast]
  push_cast
  ring

/-- The limit used: what the user gave, else the data's. -/
def limitOf (user : Option ℚ) (data : ℚ) : ℚ := user.getD data

theorem orData_eq (user : Option ℚ) (data : ℚ) (h : user ≠ some 0) : orData user data = limitOf user data := by
  unfold orData limitOf
  cases user with
  | none => rfl
  | some u => simp at h; simp [h]

/-- **C55** (condition: limits given as 0 excluded, and the step must divide the range). On a linear axis the edges are the
`n + 1` evenly spaced values from the minimum to the maximum, both included. -/
theorem bin_edges (dataMin dataMax : ℚ) (userMin userMax : Option ℚ) (h1 : userMin ≠ some 0) (h2 : userMax ≠ some 0)
    (s : ℚ) (hs : 0 < s) (n : Nat) (hr : limitOf userMax dataMax - limitOf userMin dataMin = n * s) :
    ∀ fuel, n + 1 < fuel → binEdges fuel dataMin dataMax userMin userMax (some s) =
        some ((List.range (n + 1)).map (fun k : Nat => limitOf userMin dataMin + k * s)) ∧
      limitOf userMin dataMin + n * s = limitOf userMax dataMax := by
  intro fuel hf
  refine ⟨?_, by linarith⟩
  unfold binEdges
  simp only [orData_eq _ _ h1, orData_eq _ _ h2]
  have hst : stopAt (limitOf userMax dataMax) (limitOf userMax dataMax - limitOf userMin dataMin) s =
      limitOf userMax dataMax + s := by
    unfold stopAt
    rw [hr, remainder_mul s n hs.ne', if_pos (by norm_num)]
  rw [hst]
  apply edgeLoop_spec _ _ (n + 1) fuel 0 _ hf
  · intro k hk
    have : (k : ℚ) ≤ n := by exact_mod_cast Nat.lt_succ_iff.1 hk
    have := mul_le_mul_of_nonneg_right this hs.le
    linarith
  · push_cast
    linarith

/-- **C55** (default step). Eleven edges, from the minimum to the maximum. -/
theorem bin_edges_default (dataMin dataMax : ℚ) (userMin userMax : Option ℚ) (h1 : userMin ≠ some 0)
    (h2 : userMax ≠ some 0) (hr : limitOf userMin dataMin < limitOf userMax dataMax) :
    ∀ fuel, 11 < fuel → binEdges fuel dataMin dataMax userMin userMax none =
        some ((List.range 11).map (fun k : Nat => limitOf userMin dataMin +
          k * ((limitOf userMax dataMax - limitOf userMin dataMin) / 10))) := by
  intro fuel hf
  unfold binEdges
  simp only [orData_eq _ _ h1, orData_eq _ _ h2]
  set r := limitOf userMax dataMax - limitOf userMin dataMin with hrd
  have hrp : 0 < r := by linarith
  have hst : stopAt (limitOf userMax dataMax) r (r / 10) = limitOf userMax dataMax + r / 10 := by
    unfold stopAt
    have h := remainder_mul (r / 10) 10 (by positivity)
    have e : ((10 : Nat) : ℚ) * (r / 10) = r := by push_cast; ring
    rw [e] at h
    rw [h, if_pos (by norm_num)]
  rw [hst]
  obtain ⟨f, rfl⟩ : ∃ f, fuel = f + 12 := ⟨fuel - 12, by omega⟩
  -- the eleventh turn adds the maximum, the twelfth is not below `stop`
  have hno : ∀ (fuel n : Nat) (i : ℚ), n + 1 ≤ 11 → i = limitOf userMin dataMin + n * (r / 10) → (11 - n) < fuel →
      edgeLoop (r / 10) (limitOf userMax dataMax + r / 10) (some 11) fuel n i =
        edgeLoop (r / 10) (limitOf userMax dataMax + r / 10) none fuel n i := by
    intro fuel
    induction fuel with
    | zero => intro n i _ _ h; omega
    | succ g ih =>
      intro n i hn hi hg
      rw [edgeLoop, edgeLoop]
      split
      · rw [if_neg (by simp; omega), if_neg (by simp)]
        congr 1
        by_cases hn' : n + 1 + 1 ≤ 11
        · exact ih (n + 1) (i + r / 10) hn' (by rw [hi]; push_cast; ring) (by omega)
        · have : n = 10 := by omega
          subst this
          cases g with
          | zero => omega
          | succ g =>
            have : ¬ (i + r / 10 < limitOf userMax dataMax + r / 10) := by rw [hi]; push_cast; linarith
            rw [edgeLoop, edgeLoop, if_neg this, if_neg this]
      · rfl
  rw [hno _ 0 _ (by omega) (by simp) (by omega)]
  apply edgeLoop_spec _ _ 11 _ 0 _ (by omega)
  · intro k hk
    have : (k : ℚ) ≤ 10 := by exact_mod_cast Nat.lt_succ_iff.1 hk
    have := mul_le_mul_of_nonneg_right this (by positivity : 0 ≤ r / 10)
    linarith
  · push_cast
    linarith

example : binEdges 100 (-3) 8 (some (-2)) none (some 5) = some [-2, 3, 8] := by decide +kernel

/-- **C55** is violated for a minimum (or maximum) of 0, which is ignored. -/
theorem bin_edges_zero_violated : binEdges 100 (-3) 8 (some 0) none (some 4) ≠ binEdges 100 0 8 none none (some 4) ∧
    (binEdges 100 (-3) 8 (some 0) none (some 4)).bind List.head? = some (-3) := by decide +kernel

/-- **C55** is violated when the step does not divide the range: the last edge is below the maximum, so that the largest data
are in no bin. -/
theorem bin_edges_last_violated : binEdges 100 0 10 none none (some 4) = some [0, 4, 8] := by decide +kernel

/-- A step that is not positive never ends. -/
theorem bin_edges_nonterminating (dataMin dataMax s : ℚ) (hs : s ≤ 0) (hr : dataMin < dataMax + s) :
    ∀ fuel, binEdges fuel dataMin dataMax none none (some s) = none := by
  intro fuel
  unfold binEdges
  simp only [orData]
  have hst : dataMin < stopAt dataMax (dataMax - dataMin) s := by
    unfold stopAt; split <;> linarith
  generalize stopAt dataMax (dataMax - dataMin) s = stop at hst
  generalize 0 = n
  revert n
  generalize dataMin = i at hst
  clear hr
  induction fuel generalizing i with
  | zero => intro n; rfl
  | succ f ih =>
    intro n
    rw [edgeLoop, if_pos hst, if_neg (by simp), ih (i + s) (by linarith)]
    rfl

/-- **C55** is violated on a logarithmic axis: the last edge is a tenth of the range above the maximum. -/
theorem log_edges (minV maxV : ℚ) (h0 : 0 < minV) (h : minV < maxV) :
    logEdge minV maxV 0 = minV ∧ logEdge minV maxV 10 = (maxV + (maxV - minV) / 10 : ℚ) := by
  have hst : stopAt maxV (maxV - minV) ((maxV - minV) / 10) = maxV + (maxV - minV) / 10 := by
    unfold stopAt
    have h := remainder_mul ((maxV - minV) / 10) 10 (by have : 0 < maxV - minV := by linarith
                                                        positivity)
    have e : ((10 : Nat) : ℚ) * ((maxV - minV) / 10) = maxV - minV := by push_cast; ring
    rw [e] at h
    rw [h, if_pos (by norm_num)]
  have hmin : (0 : ℝ) < (minV : ℝ) := by exact_mod_cast h0
  have hstop : (0 : ℝ) < ((maxV + (maxV - minV) / 10 : ℚ) : ℝ) := by
    have : (0 : ℚ) < maxV + (maxV - minV) / 10 := by linarith
    exact_mod_cast this
  unfold logEdge
  rw [hst]
  constructor
  · simp only [Nat.cast_zero, zero_mul, zero_div, add_zero]
    exact Real.rpow_logb (by norm_num) (by norm_num) hmin
  · have e : Real.logb 10 minV + ((10 : Nat) : ℝ) * (Real.logb 10 ((maxV + (maxV - minV) / 10 : ℚ) : ℝ) - Real.logb 10 minV) / 10
        = Real.logb 10 ((maxV + (maxV - minV) / 10 : ℚ) : ℝ) := by push_cast; ring
    rw [e]
    exact Real.rpow_logb (by norm_num) (by norm_num) hstop

/-! ### C56 -/

/-- Elements equal, or both NaN. -/
def SameFloat (x y : Option ℚ) : Prop := x = y

theorem eqLoop_iff (l : List (Option ℚ × Option ℚ)) : eqLoop l = true ↔ ∀ p ∈ l, p.1 = none ∨ p.1 = p.2 := by
  induction l with
  | nil => simp [eqLoop]
  | cons p t ih =>
    obtain ⟨i, j⟩ := p
    rw [eqLoop]
    cases i with
    | none => simp [fne, ih]
    | some x =>
      cases j with
      | none => simp [fne]
      | some y => by_cases h : x = y <;> simp [fne, h, ih]

/-- What the function decides: NaN in the first array matches anything. -/
theorem array_equal_iff (s1 s2 : List Nat) (a1 a2 : List (Option ℚ)) (hl : s1 = s2 → a1.length = a2.length) :
    arrayEqual s1 s2 a1 a2 = true ↔ s1 = s2 ∧ List.Forall₂ (fun x y => x = none ∨ SameFloat x y) a1 a2 := by
  unfold arrayEqual
  by_cases h : s1 = s2
  · simp only [h, ne_eq, not_true_eq_false, if_false, true_and, eqLoop_iff]
    rw [List.forall₂_iff_zip]
    simp only [hl h, true_and]
    constructor
    · intro hp a b hab; exact hp (a, b) hab
    · rintro hp ⟨a, b⟩ hab; exact hp hab
  · simp [h]

/-- **C56** (condition: where the first array has NaN so has the second). True iff the shapes agree and each pair of elements is
equal or both are NaN. -/
theorem array_equal_partial (s1 s2 : List Nat) (a1 a2 : List (Option ℚ)) (hl : s1 = s2 → a1.length = a2.length)
    (hn : ∀ i : Nat, a1[i]? = some none → ∀ y, a2[i]? = some y → y = none) :
    arrayEqual s1 s2 a1 a2 = true ↔ s1 = s2 ∧ List.Forall₂ SameFloat a1 a2 := by
  rw [array_equal_iff s1 s2 a1 a2 hl]
  refine and_congr_right (fun _ => ?_)
  rw [List.forall₂_iff_get, List.forall₂_iff_get]
  refine and_congr_right (fun hlen => ?_)
  constructor
  · intro h i h1 h2
    rcases h i h1 h2 with e | e
    · have := hn i (by rw [List.getElem?_eq_getElem h1]; simpa using e) (a2[i]) (List.getElem?_eq_getElem h2)
      simp only [List.get_eq_getElem] at e ⊢
      rw [SameFloat, e, this]
    · exact e
  · intro h i h1 h2; exact Or.inr (h i h1 h2)

example : arrayEqual [2] [2] [none, some 1] [none, some 1] = true ∧ arrayEqual [2] [2] [none, some 1] [none, some 2] = false := by
  decide +kernel

/-- **C56** is violated, and symmetry too: NaN in the first array equals any number. -/
theorem array_equal_nan_violated : arrayEqual [1] [1] [none] [some 1] = true ∧ arrayEqual [1] [1] [some 1] [none] = false := by
  decide +kernel

end Cis.Masks
