import Verif.Time.Lemmas
import Mathlib.Tactic.FieldSimp
import Mathlib.Tactic.NormNum
set_option linter.unusedSectionVars false
set_option linter.unusedSimpArgs false
/-! Properties C24 (partial dates), C27 (standard time), C28 (changing the year, mid time). -/
namespace Cis.Time

/-- The possible forms of a partial date without gaps. -/
def ofPrefix : List Int → Partial
  | [] => ⟨none, none, none, none, none, none⟩
  | [a] => ⟨some a, none, none, none, none, none⟩
  | [a, b] => ⟨some a, some b, none, none, none, none⟩
  | [a, b, c] => ⟨some a, some b, some c, none, none, none⟩
  | [a, b, c, d] => ⟨some a, some b, some c, some d, none, none⟩
  | [a, b, c, d, e] => ⟨some a, some b, some c, some d, some e, none⟩
  | a :: b :: c :: d :: e :: f :: _ => ⟨some a, some b, some c, some d, some e, some f⟩

theorem gap_false_iff (p : Partial) : gap p.components = false ↔ ∃ l : List Int, l.length ≤ 6 ∧ p = ofPrefix l := by
  constructor
  · intro h
    obtain ⟨y, m, d, hh, mi, s⟩ := p
    rcases y with _ | y
    · rcases m with _ | m <;> rcases d with _ | d <;> rcases hh with _ | hh <;> rcases mi with _ | mi <;> rcases s with _ | s <;>
        simp [gap, Partial.components, List.dropWhile] at h
      exact ⟨[], by simp, rfl⟩
    rcases m with _ | m
    · rcases d with _ | d <;> rcases hh with _ | hh <;> rcases mi with _ | mi <;> rcases s with _ | s <;>
        simp [gap, Partial.components, List.dropWhile] at h
      exact ⟨[y], by simp, rfl⟩
    rcases d with _ | d
    · rcases hh with _ | hh <;> rcases mi with _ | mi <;> rcases s with _ | s <;>
        simp [gap, Partial.components, List.dropWhile] at h
      exact ⟨[y, m], by simp, rfl⟩
    rcases hh with _ | hh
    · rcases mi with _ | mi <;> rcases s with _ | s <;>
        simp [gap, Partial.components, List.dropWhile] at h
      exact ⟨[y, m, d], by simp, rfl⟩
    rcases mi with _ | mi
    · rcases s with _ | s <;>
        simp [gap, Partial.components, List.dropWhile] at h
      exact ⟨[y, m, d, hh], by simp, rfl⟩
    rcases s with _ | s
    · exact ⟨[y, m, d, hh, mi], by simp, rfl⟩
    · exact ⟨[y, m, d, hh, mi, s], by simp, rfl⟩
  · rintro ⟨l, hl, rfl⟩
    match l, hl with
    | [], _ => rfl
    | [_], _ => rfl
    | [_, _], _ => rfl
    | [_, _, _], _ => rfl
    | [_, _, _, _], _ => rfl
    | [_, _, _, _, _], _ => rfl
    | [_, _, _, _, _, _], _ => rfl
    | _ :: _ :: _ :: _ :: _ :: _ :: _ :: _, hl => simp at hl

theorem gap_iff (p : Partial) : gap p.components = true ↔ Spec.Gap p := by
  constructor
  · intro h
    unfold gap at h
    rw [List.any_eq_true] at h
    obtain ⟨x, hx, hs⟩ := h
    obtain ⟨a, rfl⟩ := Option.isSome_iff_exists.1 hs
    have hcases := List.takeWhile_append_dropWhile (p := Option.isSome) (l := p.components)
    cases hd : p.components.dropWhile Option.isSome with
    | nil => rw [hd] at hx; simp at hx
    | cons b t =>
      rw [hd] at hx hcases
      have hb : b = none := by
        have := List.head_dropWhile_not (p := Option.isSome) (l := p.components) (by rw [hd]; simp)
        simp only [hd, List.head_cons] at this
        cases b <;> simp at this ⊢
      subst hb
      rcases List.mem_cons.1 hx with e | hx
      · cases e
      · obtain ⟨k, hk⟩ := List.mem_iff_getElem?.1 hx
        refine ⟨(p.components.takeWhile Option.isSome).length, (p.components.takeWhile Option.isSome).length + 1 + k, a, by omega, ?_, ?_⟩
        · rw [← hcases, List.getElem?_append_right (by simp [hcases])]; simp [hcases]
        · rw [← hcases, List.getElem?_append_right (by simp [hcases]; omega)]
          simp only [hcases]
          have : (p.components.takeWhile Option.isSome).length + 1 + k - (p.components.takeWhile Option.isSome).length = k + 1 := by omega
          rw [this, List.getElem?_cons_succ]; exact hk
  · rintro ⟨i, j, a, hij, h1, h2⟩
    by_contra hc
    rw [Bool.not_eq_true, gap_false_iff] at hc
    obtain ⟨l, hl, rfl⟩ := hc
    have hlen : j < 6 := by
      have := (List.getElem?_eq_some_iff.1 h2).1
      simpa [Partial.components] using this
    match l, hl with
    | [], _ => interval_cases j <;> interval_cases i <;> simp [ofPrefix, Partial.components] at h1 h2
    | [_], _ => interval_cases j <;> interval_cases i <;> simp [ofPrefix, Partial.components] at h1 h2
    | [_, _], _ => interval_cases j <;> interval_cases i <;> simp [ofPrefix, Partial.components] at h1 h2
    | [_, _, _], _ => interval_cases j <;> interval_cases i <;> simp [ofPrefix, Partial.components] at h1 h2
    | [_, _, _, _], _ => interval_cases j <;> interval_cases i <;> simp [ofPrefix, Partial.components] at h1 h2
    | [_, _, _, _, _], _ => interval_cases j <;> interval_cases i <;> simp [ofPrefix, Partial.components] at h1 h2
    | [_, _, _, _, _, _], _ => interval_cases j <;> interval_cases i <;> simp [ofPrefix, Partial.components] at h1 h2
    | _ :: _ :: _ :: _ :: _ :: _ :: _ :: _, hl => simp at hl

/-- `datetime(...)` succeeds with exactly the real date-times. -/
theorem mkDatetime_ok_iff (y m d h mi s : Int) (t : DateTime) :
    mkDatetime [y, m, d, h, mi, s] = .ok t ↔ Spec.Real t ∧ (t.year : Int) = y ∧ (t.month : Int) = m ∧ (t.day : Int) = d ∧
      (t.hour : Int) = h ∧ (t.minute : Int) = mi ∧ (t.second : Int) = s ∧ t.microsecond = 0 := by
  rw [mkDatetime]
  constructor
  · intro hh
    split at hh
    · cases hh
    split at hh
    · split at hh
      · rename_i h1 h2
        simp only [Except.ok.injEq] at hh
        rw [valid_iff] at h2
        subst hh
        exact ⟨h2, by simp; omega⟩
      · cases hh
    · cases hh
  · rintro ⟨hr, rfl, rfl, rfl, rfl, rfl, rfl, hu⟩
    obtain ⟨Y, M, D, H, MI, S, U⟩ := t
    simp only at hu
    subst hu
    simp only [Int.toNat_natCast]
    have hr' := hr
    unfold Spec.Real at hr'
    simp only at hr'
    have := dim_bounds Y M
    rw [if_neg (by simp [isCInt]; omega), if_pos (by omega), if_pos ((valid_iff _).2 hr)]

/-- The lower limits. -/
theorem min_eq (l : List Int) (hl : l.length ≤ 6) (h1 : l ≠ []) :
    (ofPrefix l).min = mkDatetime (l ++ ([1, 1, 1, 0, 0, 0] : List Int).drop l.length) := by
  match l, hl with
  | [], _ => exact absurd rfl h1
  | [_], _ => rfl
  | [_, _], _ => rfl
  | [_, _, _], _ => rfl
  | [_, _, _, _], _ => rfl
  | [_, _, _, _, _], _ => rfl
  | [_, _, _, _, _, _], _ => rfl
  | _ :: _ :: _ :: _ :: _ :: _ :: _ :: _, hl => simp at hl

theorem newPartial_ok (p : Partial) (h : newPartial p = .ok p) : ∃ l : List Int, l.length ≤ 6 ∧ l ≠ [] ∧ p = ofPrefix l ∧ ∃ t, p.min = .ok t := by
  unfold newPartial at h
  split at h
  · cases h
  · rename_i hg
    rw [Bool.not_eq_true, gap_false_iff] at hg
    obtain ⟨l, hl, rfl⟩ := hg
    split at h
    · cases h
    · cases h
    · rename_i t ht
      refine ⟨l, hl, ?_, rfl, t, ht⟩
      rintro rfl
      simp [ofPrefix, Partial.min, Partial.given, Partial.components, fill, minStep, List.range_succ] at ht

/-- C24: the interval of a partial date. With the range computed: both ends are real, match, are ordered, and every real
date-time with whole seconds that matches lies between them. Missing: fractions of the last second
(`c24_last_second_violated`), the end of the year 9999 (`c24_overflow_violated`). -/
theorem c24_range (p : Partial) (hp : newPartial p = .ok p) (lo hi : DateTime) (h : p.range = .ok (lo, hi)) :
    (Spec.Real lo ∧ Spec.Matches p lo) ∧ (Spec.Real hi ∧ Spec.Matches p hi) ∧ Spec.instant lo ≤ Spec.instant hi ∧
    ∀ t, Spec.Real t → t.microsecond = 0 → Spec.Matches p t → Spec.instant lo ≤ Spec.instant t ∧ Spec.instant t ≤ Spec.instant hi := by
  obtain ⟨l, hl, hne, rfl, t0, ht0⟩ := newPartial_ok p hp
  have hmin : (ofPrefix l).min = .ok lo := by
    unfold Partial.range at h
    split at h
    · rename_i a b h1 h2
      simp only [Except.ok.injEq, Prod.mk.injEq] at h
      rw [h1, h.1]
    · cases h
    · cases h
  have hmax : (ofPrefix l).max = .ok hi := by
    unfold Partial.range at h
    split at h
    · rename_i a b h1 h2
      simp only [Except.ok.injEq, Prod.mk.injEq] at h
      rw [h2, h.2]
    · cases h
    · cases h
  rw [min_eq l hl hne] at hmin
  suffices hs : (Spec.Real lo ∧ lo.microsecond = 0 ∧ Spec.Matches (ofPrefix l) lo) ∧ (Spec.Real hi ∧ hi.microsecond = 0 ∧ Spec.Matches (ofPrefix l) hi) ∧
      ∀ t, Spec.Real t → t.microsecond = 0 → Spec.Matches (ofPrefix l) t → Lex lo t ∧ Lex t hi by
    obtain ⟨⟨a1, a2, a3⟩, ⟨b1, b2, b3⟩, c⟩ := hs
    refine ⟨⟨a1, a3⟩, ⟨b1, b3⟩, ?_, ?_⟩
    · exact instant_le_of_lex a1 b1 (c lo a1 a2 a3).2
    · intro t ht hu hm
      exact ⟨instant_le_of_lex a1 ht (c t ht hu hm).1, instant_le_of_lex ht b1 (c t ht hu hm).2⟩
  match l, hl, hne with
  | [], _, hne => exact absurd rfl hne
  | [a], _, _ =>
    simp only [List.cons_append, List.nil_append, List.length_cons, List.length_nil, List.drop] at hmin
    rw [mkDatetime_ok_iff] at hmin
    obtain ⟨r1, e1, e2, e3, e4, e5, e6, e7⟩ := hmin
    have hm : (ofPrefix [a]).max = mkDatetime [a, 12, 31, 23, 59, 59] ∨ (ofPrefix [a]).max = .error .overflow := by
      have := findLastDay_eq a 12 (by have := r1.1; have := r1.2.1; omega) (by omega)
      by_cases h9 : a = 9999
      · right; rw [if_pos ⟨h9, rfl⟩] at this
        show (match fill maxStep [1, 2, 3, 4, 5] [a] with | .error e => _ | .ok c => _) = _
        simp [fill, maxStep, this]
      · left; rw [if_neg (by omega)] at this
        have e : daysInMonth a.toNat (12 : Int).toNat = 31 := rfl
        rw [e] at this
        show (match fill maxStep [1, 2, 3, 4, 5] [a] with | .error e => _ | .ok c => _) = _
        simp [fill, maxStep, this]
    rcases hm with hm | hm <;> rw [hm] at hmax
    · rw [mkDatetime_ok_iff] at hmax
      obtain ⟨r2, f1, f2, f3, f4, f5, f6, f7⟩ := hmax
      refine ⟨⟨r1, e7, by simp [Spec.Matches, ofPrefix]; omega⟩, ⟨r2, f7, by simp [Spec.Matches, ofPrefix]; omega⟩, ?_⟩
      intro t ⟨t1, t2, t3, t4, t5, t6, t7, t8, t9, t10⟩ hu hmt
      simp [Spec.Matches, ofPrefix] at hmt
      have := dim_bounds t.year t.month
      unfold Lex; omega
    · cases hmax
  | [a, b], _, _ =>
    simp only [List.cons_append, List.nil_append, List.length_cons, List.length_nil, List.drop] at hmin
    rw [mkDatetime_ok_iff] at hmin
    obtain ⟨r1, e1, e2, e3, e4, e5, e6, e7⟩ := hmin
    have hm : (ofPrefix [a, b]).max = mkDatetime [a, b, daysInMonth a.toNat b.toNat, 23, 59, 59] ∨ (ofPrefix [a, b]).max = .error .overflow := by
      have := findLastDay_eq a b (by have := r1.1; have := r1.2.1; omega) (by have := r1.2.2.1; have := r1.2.2.2.1; omega)
      by_cases h9 : a = 9999 ∧ b = 12
      · right; rw [if_pos h9] at this
        show (match fill maxStep [2, 3, 4, 5] [a, b] with | .error e => _ | .ok c => _) = _
        simp [fill, maxStep, this]
      · left; rw [if_neg h9] at this
        show (match fill maxStep [2, 3, 4, 5] [a, b] with | .error e => _ | .ok c => _) = _
        simp [fill, maxStep, this]
    rcases hm with hm | hm <;> rw [hm] at hmax
    · rw [mkDatetime_ok_iff] at hmax
      obtain ⟨r2, f1, f2, f3, f4, f5, f6, f7⟩ := hmax
      refine ⟨⟨r1, e7, by simp [Spec.Matches, ofPrefix]; omega⟩, ⟨r2, f7, by simp [Spec.Matches, ofPrefix]; omega⟩, ?_⟩
      intro t ⟨t1, t2, t3, t4, t5, t6, t7, t8, t9, t10⟩ hu hmt
      simp [Spec.Matches, ofPrefix] at hmt
      have g1 : a.toNat = t.year := by omega
      have g2 : b.toNat = t.month := by omega
      rw [g1, g2] at f3
      unfold Lex; omega
    · cases hmax
  | [a, b, c], _, _ =>
    have hm : (ofPrefix [a, b, c]).max = mkDatetime [a, b, c, 23, 59, 59] := rfl
    simp only [List.cons_append, List.nil_append, List.length_cons, List.length_nil, List.drop] at hmin
    rw [hm, mkDatetime_ok_iff] at hmax
    rw [mkDatetime_ok_iff] at hmin
    obtain ⟨r1, e1, e2, e3, e4, e5, e6, e7⟩ := hmin
    obtain ⟨r2, f1, f2, f3, f4, f5, f6, f7⟩ := hmax
    refine ⟨⟨r1, e7, by simp [Spec.Matches, ofPrefix]; omega⟩, ⟨r2, f7, by simp [Spec.Matches, ofPrefix]; omega⟩, ?_⟩
    intro t ⟨t1, t2, t3, t4, t5, t6, t7, t8, t9, t10⟩ hu hmt
    simp [Spec.Matches, ofPrefix] at hmt
    unfold Lex; omega
  | [a, b, c, d], _, _ =>
    have hm : (ofPrefix [a, b, c, d]).max = mkDatetime [a, b, c, d, 59, 59] := rfl
    simp only [List.cons_append, List.nil_append, List.length_cons, List.length_nil, List.drop] at hmin
    rw [hm, mkDatetime_ok_iff] at hmax
    rw [mkDatetime_ok_iff] at hmin
    obtain ⟨r1, e1, e2, e3, e4, e5, e6, e7⟩ := hmin
    obtain ⟨r2, f1, f2, f3, f4, f5, f6, f7⟩ := hmax
    refine ⟨⟨r1, e7, by simp [Spec.Matches, ofPrefix]; omega⟩, ⟨r2, f7, by simp [Spec.Matches, ofPrefix]; omega⟩, ?_⟩
    intro t ⟨t1, t2, t3, t4, t5, t6, t7, t8, t9, t10⟩ hu hmt
    simp [Spec.Matches, ofPrefix] at hmt
    unfold Lex; omega
  | [a, b, c, d, e], _, _ =>
    have hm : (ofPrefix [a, b, c, d, e]).max = mkDatetime [a, b, c, d, e, 59] := rfl
    simp only [List.cons_append, List.nil_append, List.length_cons, List.length_nil, List.drop] at hmin
    rw [hm, mkDatetime_ok_iff] at hmax
    rw [mkDatetime_ok_iff] at hmin
    obtain ⟨r1, e1, e2, e3, e4, e5, e6, e7⟩ := hmin
    obtain ⟨r2, f1, f2, f3, f4, f5, f6, f7⟩ := hmax
    refine ⟨⟨r1, e7, by simp [Spec.Matches, ofPrefix]; omega⟩, ⟨r2, f7, by simp [Spec.Matches, ofPrefix]; omega⟩, ?_⟩
    intro t ⟨t1, t2, t3, t4, t5, t6, t7, t8, t9, t10⟩ hu hmt
    simp [Spec.Matches, ofPrefix] at hmt
    unfold Lex; omega
  | [a, b, c, d, e, f], _, _ =>
    have hm : (ofPrefix [a, b, c, d, e, f]).max = mkDatetime [a, b, c, d, e, f] := rfl
    simp only [List.cons_append, List.nil_append, List.length_cons, List.length_nil, List.drop] at hmin
    rw [hm, mkDatetime_ok_iff] at hmax
    rw [mkDatetime_ok_iff] at hmin
    obtain ⟨r1, e1, e2, e3, e4, e5, e6, e7⟩ := hmin
    obtain ⟨r2, f1, f2, f3, f4, f5, f6, f7⟩ := hmax
    refine ⟨⟨r1, e7, by simp [Spec.Matches, ofPrefix]; omega⟩, ⟨r2, f7, by simp [Spec.Matches, ofPrefix]; omega⟩, ?_⟩
    intro t ⟨t1, t2, t3, t4, t5, t6, t7, t8, t9, t10⟩ hu hmt
    simp [Spec.Matches, ofPrefix] at hmt
    unfold Lex; omega
  | _ :: _ :: _ :: _ :: _ :: _ :: _ :: _, hl, _ => simp at hl

theorem mkDatetime_error {l : List Int} {e : Err} (h : mkDatetime l = .error e) (hl : l.length = 6) (hc : ∀ v ∈ l, isCInt v = true) :
    e = .value := by
  match l, hl with
  | [a, b, c, d, e', f], _ =>
    rw [mkDatetime] at h
    split at h
    · rename_i hh
      rw [Bool.not_eq_true', List.all_eq_false] at hh
      obtain ⟨x, hx, hn⟩ := hh
      exact absurd (hc x hx) (by simpa using hn)
    · split at h
      · split at h
        · cases h
        · simpa using h.symm
      · simpa using h.symm

/-- C24: a partial date is accepted exactly when it has a year, no inner component missing and some real date-time matches;
otherwise it is rejected, with ValueError if the components fit into a C int. -/
theorem c24_accepted (p : Partial) :
    (newPartial p = .ok p ↔ p.year.isSome ∧ ¬ Spec.Gap p ∧ ∃ t, Spec.Real t ∧ Spec.Matches p t) ∧
    (newPartial p ≠ .ok p → ∃ e, newPartial p = .error e ∧ ((∀ v, some v ∈ p.components → isCInt v = true) → e = .value)) := by
  constructor
  · constructor
    · intro h
      obtain ⟨l, hl, hne, e, t, ht⟩ := newPartial_ok p h
      have hg : ¬ Spec.Gap p := by
        rw [← gap_iff, Bool.not_eq_true, gap_false_iff]; exact ⟨l, hl, e⟩
      rw [e, min_eq l hl hne] at ht
      subst e
      refine ⟨?_, hg, t, ?_⟩
      · match l, hne with
        | [], hne => exact absurd rfl hne
        | [_], _ => rfl
        | [_, _], _ => rfl
        | [_, _, _], _ => rfl
        | [_, _, _, _], _ => rfl
        | [_, _, _, _, _], _ => rfl
        | _ :: _ :: _ :: _ :: _ :: _ :: _, _ => rfl
      · match l, hl, hne with
        | [], _, hne => exact absurd rfl hne
        | [_], _, _ | [_, _], _, _ | [_, _, _], _, _ | [_, _, _, _], _, _ | [_, _, _, _, _], _, _ | [_, _, _, _, _, _], _, _ =>
          simp only [List.cons_append, List.nil_append, List.length_cons, List.length_nil, List.drop] at ht
          rw [mkDatetime_ok_iff] at ht
          obtain ⟨r1, e1, e2, e3, e4, e5, e6, e7⟩ := ht
          exact ⟨r1, by simp [Spec.Matches, ofPrefix]; omega⟩
        | _ :: _ :: _ :: _ :: _ :: _ :: _ :: _, hl, _ => simp at hl
    · rintro ⟨hy, hg, t, ⟨t1, t2, t3, t4, t5, t6, t7, t8, t9, t10⟩, hm⟩
      rw [← gap_iff, Bool.not_eq_true] at hg
      obtain ⟨l, hl, rfl⟩ := (gap_false_iff p).1 hg
      have hne : l ≠ [] := by rintro rfl; simp [ofPrefix] at hy
      unfold newPartial
      rw [hg, min_eq l hl hne]
      simp only [Bool.false_eq_true, if_false]
      have hb := dim_bounds t.year t.month
      have hb1 := dim_bounds t.year 1
      suffices hs : ∃ u, mkDatetime (l ++ ([1, 1, 1, 0, 0, 0] : List Int).drop l.length) = .ok u by
        obtain ⟨u, hu⟩ := hs; rw [hu]
      match l, hl, hne with
      | [], _, hne => exact absurd rfl hne
      | [_], _, _ =>
        refine ⟨⟨t.year, 1, 1, 0, 0, 0, 0⟩, ?_⟩
        simp [Spec.Matches, ofPrefix] at hm
        simp only [List.cons_append, List.nil_append, List.length_cons, List.length_nil, List.drop]
        rw [mkDatetime_ok_iff]; unfold Spec.Real; simp; omega
      | [_, _], _, _ =>
        refine ⟨⟨t.year, t.month, 1, 0, 0, 0, 0⟩, ?_⟩
        simp [Spec.Matches, ofPrefix] at hm
        simp only [List.cons_append, List.nil_append, List.length_cons, List.length_nil, List.drop]
        rw [mkDatetime_ok_iff]; unfold Spec.Real; simp; omega
      | [_, _, _], _, _ =>
        refine ⟨⟨t.year, t.month, t.day, 0, 0, 0, 0⟩, ?_⟩
        simp [Spec.Matches, ofPrefix] at hm
        simp only [List.cons_append, List.nil_append, List.length_cons, List.length_nil, List.drop]
        rw [mkDatetime_ok_iff]; unfold Spec.Real; simp; omega
      | [_, _, _, _], _, _ =>
        refine ⟨⟨t.year, t.month, t.day, t.hour, 0, 0, 0⟩, ?_⟩
        simp [Spec.Matches, ofPrefix] at hm
        simp only [List.cons_append, List.nil_append, List.length_cons, List.length_nil, List.drop]
        rw [mkDatetime_ok_iff]; unfold Spec.Real; simp; omega
      | [_, _, _, _, _], _, _ =>
        refine ⟨⟨t.year, t.month, t.day, t.hour, t.minute, 0, 0⟩, ?_⟩
        simp [Spec.Matches, ofPrefix] at hm
        simp only [List.cons_append, List.nil_append, List.length_cons, List.length_nil, List.drop]
        rw [mkDatetime_ok_iff]; unfold Spec.Real; simp; omega
      | [_, _, _, _, _, _], _, _ =>
        refine ⟨⟨t.year, t.month, t.day, t.hour, t.minute, t.second, 0⟩, ?_⟩
        simp [Spec.Matches, ofPrefix] at hm
        simp only [List.cons_append, List.nil_append, List.length_cons, List.length_nil, List.drop]
        rw [mkDatetime_ok_iff]; unfold Spec.Real; simp; omega
      | _ :: _ :: _ :: _ :: _ :: _ :: _ :: _, hl, _ => simp at hl
  · intro h
    unfold newPartial at h ⊢
    split
    · exact ⟨_, rfl, fun _ => rfl⟩
    · rename_i hg
      rw [if_neg hg] at h
      rw [Bool.not_eq_true, gap_false_iff] at hg
      obtain ⟨l, hl, rfl⟩ := hg
      split
      · exact ⟨_, rfl, fun _ => rfl⟩
      · rename_i e _ hm
        refine ⟨e, rfl, fun hc => ?_⟩
        by_cases hne : l = []
        · subst hne
          simp [ofPrefix, Partial.min, Partial.given, Partial.components, fill, minStep, List.range_succ] at hm
          rename_i h'
          exact absurd hm.symm (by simpa using h')
        · rw [min_eq l hl hne] at hm
          have hmem : ∀ v ∈ l, some v ∈ (ofPrefix l).components := by
            match l, hl with
            | [], _ | [_], _ | [_, _], _ | [_, _, _], _ | [_, _, _, _], _ | [_, _, _, _, _], _ | [_, _, _, _, _, _], _ =>
              simp [ofPrefix, Partial.components]
            | _ :: _ :: _ :: _ :: _ :: _ :: _ :: _, hl => simp at hl
          refine mkDatetime_error hm (by simp; omega) ?_
          intro v hv
          rcases List.mem_append.1 hv with hv | hv
          · exact hc v (hmem v hv)
          · have := List.mem_of_mem_drop hv
            simp at this
            rcases this with rfl | rfl <;> decide
      · rename_i hm
        rw [hm] at h; exact absurd rfl h

/-- C24: the range of an accepted partial date is computed unless it ends with the year 9999. -/
theorem c24_range_defined (p : Partial) (hp : newPartial p = .ok p)
    (h : ¬ (p.year = some 9999 ∧ p.day = none ∧ (p.month = none ∨ p.month = some 12))) : ∃ lo hi, p.range = .ok (lo, hi) := by
  obtain ⟨l, hl, hne, rfl, t, ht⟩ := newPartial_ok p hp
  suffices hs : ∃ hi, (ofPrefix l).max = .ok hi by
    obtain ⟨hi, hhi⟩ := hs
    exact ⟨t, hi, by unfold Partial.range; rw [ht, hhi]⟩
  rw [min_eq l hl hne] at ht
  match l, hl, hne with
  | [], _, hne => exact absurd rfl hne
  | [a], _, _ =>
    simp only [List.cons_append, List.nil_append, List.length_cons, List.length_nil, List.drop] at ht
    rw [mkDatetime_ok_iff] at ht
    obtain ⟨⟨t1, t2, t3, t4, t5, t6, t7, t8, t9, t10⟩, e1, e2, e3, e4, e5, e6, e7⟩ := ht
    simp [ofPrefix] at h
    refine ⟨⟨t.year, 12, 31, 23, 59, 59, 0⟩, ?_⟩
    have := findLastDay_eq a 12 (by omega) (by omega)
    rw [if_neg (by omega)] at this
    have e : daysInMonth a.toNat (12 : Int).toNat = 31 := rfl
    rw [e] at this
    show (match fill maxStep [1, 2, 3, 4, 5] [a] with | .error e => _ | .ok c => _) = _
    simp [fill, maxStep, this]
    rw [mkDatetime_ok_iff]
    have : daysInMonth t.year 12 = 31 := rfl
    unfold Spec.Real; simp [this]; omega
  | [a, b], _, _ =>
    simp only [List.cons_append, List.nil_append, List.length_cons, List.length_nil, List.drop] at ht
    rw [mkDatetime_ok_iff] at ht
    obtain ⟨⟨t1, t2, t3, t4, t5, t6, t7, t8, t9, t10⟩, e1, e2, e3, e4, e5, e6, e7⟩ := ht
    simp [ofPrefix] at h
    refine ⟨⟨t.year, t.month, daysInMonth t.year t.month, 23, 59, 59, 0⟩, ?_⟩
    have := findLastDay_eq a b (by omega) (by omega)
    rw [if_neg (by omega)] at this
    have g1 : a.toNat = t.year := by omega
    have g2 : b.toNat = t.month := by omega
    rw [g1, g2] at this
    have hb := dim_bounds t.year t.month
    show (match fill maxStep [2, 3, 4, 5] [a, b] with | .error e => _ | .ok c => _) = _
    simp only [fill, maxStep, this]
    simp
    rw [mkDatetime_ok_iff]
    unfold Spec.Real; simp; omega
  | [a, b, c], _, _ | [a, b, c, _], _, _ | [a, b, c, _, _], _, _ | [a, b, c, _, _, _], _, _ =>
    simp only [List.cons_append, List.nil_append, List.length_cons, List.length_nil, List.drop] at ht
    rw [mkDatetime_ok_iff] at ht
    obtain ⟨⟨t1, t2, t3, t4, t5, t6, t7, t8, t9, t10⟩, e1, e2, e3, e4, e5, e6, e7⟩ := ht
    first
    | refine ⟨⟨t.year, t.month, t.day, t.hour, t.minute, t.second, 0⟩, ?_⟩
      show mkDatetime [a, b, c, _, _, _] = _
      rw [mkDatetime_ok_iff]; unfold Spec.Real; simp; omega
    | refine ⟨⟨t.year, t.month, t.day, t.hour, t.minute, 59, 0⟩, ?_⟩
      show mkDatetime [a, b, c, _, _, 59] = _
      rw [mkDatetime_ok_iff]; unfold Spec.Real; simp; omega
    | refine ⟨⟨t.year, t.month, t.day, t.hour, 59, 59, 0⟩, ?_⟩
      show mkDatetime [a, b, c, _, 59, 59] = _
      rw [mkDatetime_ok_iff]; unfold Spec.Real; simp; omega
    | refine ⟨⟨t.year, t.month, t.day, 23, 59, 59, 0⟩, ?_⟩
      show mkDatetime [a, b, c, 23, 59, 59] = _
      rw [mkDatetime_ok_iff]; unfold Spec.Real; simp; omega
  | _ :: _ :: _ :: _ :: _ :: _ :: _ :: _, hl, _ => simp at hl

/-- C24 is violated in the last second: half a second before the new year matches 2008 but is after the end of its range. -/
theorem c24_last_second_violated : ∃ (p : Partial) (lo hi t : DateTime), newPartial p = .ok p ∧ p.range = .ok (lo, hi) ∧
    Spec.Real t ∧ Spec.Matches p t ∧ Spec.instant hi < Spec.instant t := by
  refine ⟨⟨some 2008, none, none, none, none, none⟩, ⟨2008, 1, 1, 0, 0, 0, 0⟩, ⟨2008, 12, 31, 23, 59, 59, 0⟩,
    ⟨2008, 12, 31, 23, 59, 59, 500000⟩, by decide +kernel, by decide +kernel, ?_, ?_, ?_⟩
  · rw [← valid_iff]; decide +kernel
  · simp [Spec.Matches]
  · unfold Spec.instant; simp

/-- C24 is violated for the last month of the calendar: the partial date is accepted but has no range. -/
theorem c24_overflow_violated : newPartial ⟨some 9999, none, none, none, none, none⟩ = .ok ⟨some 9999, none, none, none, none, none⟩ ∧
    (⟨some 9999, none, none, none, none, none⟩ : Partial).range = .error .overflow := by
  constructor <;> decide +kernel

/-- A February of a leap year. -/
example : newPartial ⟨some 2008, some 2, none, none, none, none⟩ = .ok ⟨some 2008, some 2, none, none, none, none⟩ ∧
    (⟨some 2008, some 2, none, none, none, none⟩ : Partial).range = .ok (⟨2008, 2, 1, 0, 0, 0, 0⟩, ⟨2008, 2, 29, 23, 59, 59, 0⟩) := by
  constructor <;> decide +kernel

/-! ### C27 -/

/-- C27: the standard time found and the true one (seconds after the epoch, divided by 86400) differ by the time of day of the
reference: they agree exactly for references at midnight. -/
theorem c27_std_time (seconds ref : ℚ) :
    secSinceToStdTime seconds ref = (ref + seconds) / 86400 ↔ ∃ n : Int, ref = 86400 * n := by
  unfold secSinceToStdTime
  constructor
  · intro h
    refine ⟨⌊ref / 86400⌋, ?_⟩
    have : ((⌊ref / 86400⌋ : Int) : ℚ) = ref / 86400 := by
      have e : (ref + seconds) / 86400 = ref / 86400 + seconds / 86400 := by ring
      rw [e] at h; linarith
    rw [this]; ring
  · rintro ⟨n, rfl⟩
    have : (86400 * (n : ℚ)) / 86400 = n := by field_simp
    rw [this, Int.floor_intCast]; field_simp

/-- C27 is violated for a reference with a time of day: noon of the first day. -/
theorem c27_time_of_day_violated : secSinceToStdTime 0 43200 ≠ (43200 + 0) / 86400 := by
  intro h
  rw [show (43200 : ℚ) + 0 = 43200 + (0 : ℚ) from rfl, c27_std_time] at h
  obtain ⟨n, hn⟩ := h
  have : (43200 : Int) = 86400 * n := by exact_mod_cast hn
  omega

example : ∃ n : Int, (2 * 86400 : ℚ) = 86400 * n := ⟨2, by norm_num⟩

/-! ### C28 -/

/-- C28: `set_year` replaces the year and nothing else; it gives nothing exactly for 29 February and a year that is not a
leap year (for the years 1 to 9999 that a date-time can have). -/
theorem c28_set_year (t : DateTime) (ht : Spec.Real t) (y : Int) (hy : 1 ≤ y ∧ y ≤ 9999) :
    (∀ u, setYear t y = some u → Spec.Real u ∧ (u.year : Int) = y ∧ u.month = t.month ∧ u.day = t.day ∧ u.hour = t.hour ∧
      u.minute = t.minute ∧ u.second = t.second ∧ u.microsecond = t.microsecond) ∧
    (setYear t y = none ↔ (t.month = 2 ∧ t.day = 29) ∧ ¬ (4 ∣ y ∧ (¬ 100 ∣ y ∨ 400 ∣ y))) := by
  unfold setYear
  constructor
  · intro u hu
    split at hu
    · rename_i h
      simp only [Option.some.injEq] at hu
      rw [valid_iff] at h
      subst hu
      exact ⟨h.2, by simp; omega, rfl, rfl, rfl, rfl, rfl, rfl⟩
    · cases hu
  · obtain ⟨t1, t2, t3, t4, t5, t6, t7, t8, t9, t10⟩ := ht
    have hleap : isLeap y.toNat = true ↔ (4 ∣ y ∧ (¬ 100 ∣ y ∨ 400 ∣ y)) := by
      unfold isLeap; simp; omega
    rw [ite_eq_right_iff, ← hleap]
    simp only [valid_iff, reduceCtorEq, imp_false, not_and]
    constructor
    · intro h
      have h := h (by omega)
      unfold Spec.Real at h
      simp only at h
      have hd : ¬ (t.day ≤ daysInMonth y.toNat t.month) := by
        intro hd; apply h; omega
      unfold daysInMonth at t6 hd
      by_cases h2 : t.month = 2
      · rw [if_pos h2] at t6 hd
        by_cases hl : isLeap y.toNat = true
        · rw [if_pos hl] at hd; split at t6 <;> omega
        · rw [if_neg hl] at hd
          refine ⟨⟨h2, ?_⟩, hl⟩
          split at t6 <;> omega
      · rw [if_neg h2] at t6 hd; omega
    · rintro ⟨⟨h1, h2⟩, h3⟩ _
      unfold Spec.Real
      simp only
      rw [h1, h2]
      unfold daysInMonth
      simp [h3]

/-- Years that a date-time cannot have give nothing. -/
theorem c28_out_of_range (t : DateTime) (y : Int) (hy : y < 1 ∨ 9999 < y) : setYear t y = none := by
  unfold setYear
  rw [if_neg]
  rw [valid_iff]
  rintro ⟨h0, h1, h2, -⟩
  simp only at h1 h2
  omega

/-- C28: the mid time is the midpoint. -/
theorem c28_mid_time (a b : ℚ) : midTime a b - a = b - midTime a b ∧ midTime a b = midTime b a ∧
    (a ≤ b → a ≤ midTime a b ∧ midTime a b ≤ b) := by
  unfold midTime
  refine ⟨by ring, by ring, fun h => ⟨by linarith, by linarith⟩⟩

example : Spec.Real ⟨2012, 2, 29, 12, 0, 0, 0⟩ ∧ setYear ⟨2012, 2, 29, 12, 0, 0, 0⟩ 2013 = none ∧
    setYear ⟨2012, 2, 29, 12, 0, 0, 0⟩ 2016 = some ⟨2016, 2, 29, 12, 0, 0, 0⟩ := by
  refine ⟨?_, by decide +kernel, by decide +kernel⟩
  rw [← valid_iff]; decide +kernel

end Cis.Time
