import Verif.Time.Props
set_option linter.unusedSectionVars false
set_option linter.unusedSimpArgs false

/-!
# The order of date-times

Python compares `datetime` objects component by component; that is the order of the instants. With it C24 in both directions: exactly the
date-times between the ends of the range of a partial date match it.
-/
namespace Cis.Time

theorem lex_total (a b : DateTime) : Lex a b ∨ Lex b a := by
  unfold Lex; omega

theorem lex_antisymm {a b : DateTime} (h : Lex a b) (h' : Lex b a) : a = b := by
  obtain ⟨a1, a2, a3, a4, a5, a6, a7⟩ := a
  obtain ⟨b1, b2, b3, b4, b5, b6, b7⟩ := b
  simp only [Lex, DateTime.mk.injEq] at *
  omega

/-- Components are determined by the instant. -/
theorem instant_lt_of_lex {a b : DateTime} (ha : Spec.Real a) (hb : Spec.Real b) (h : Lex a b) (hne : a ≠ b) : Spec.instant a < Spec.instant b := by
  have hda := day_in_year ha
  have hdb := day_in_year hb
  obtain ⟨a1, a2, a3, a4, a5, a6, a7, a8, a9, a10⟩ := ha
  obtain ⟨b1, b2, b3, b4, b5, b6, b7, b8, b9, b10⟩ := hb
  unfold Spec.instant
  have key : (Spec.daysBeforeYear a.year + Spec.daysBeforeMonth a.year a.month + (a.day - 1) <
      Spec.daysBeforeYear b.year + Spec.daysBeforeMonth b.year b.month + (b.day - 1)) ∨
      (Spec.daysBeforeYear a.year + Spec.daysBeforeMonth a.year a.month + (a.day - 1) =
      Spec.daysBeforeYear b.year + Spec.daysBeforeMonth b.year b.month + (b.day - 1) ∧
      (a.hour < b.hour ∨ (a.hour = b.hour ∧ (a.minute < b.minute ∨ (a.minute = b.minute ∧ (a.second < b.second ∨
      (a.second = b.second ∧ a.microsecond < b.microsecond))))))) := by
    rcases h with h | ⟨e, h⟩
    · left
      have := daysBeforeYear_mono a1 h
      omega
    · rw [e] at hda ⊢
      rcases h with h | ⟨e2, h⟩
      · left
        have := daysBeforeMonth_mono (y := b.year) a3 h
        rw [e] at a6
        omega
      · rw [e2]
        rcases h with h | ⟨e3, h⟩
        · left; omega
        · rw [e3]; refine Or.inr ⟨rfl, ?_⟩
          by_contra hc
          apply hne
          obtain ⟨a1, a2, a3, a4, a5, a6, a7⟩ := a
          obtain ⟨b1, b2, b3, b4, b5, b6, b7⟩ := b
          simp only [DateTime.mk.injEq] at *
          omega
  generalize Spec.daysBeforeYear a.year + Spec.daysBeforeMonth a.year a.month + (a.day - 1) = A at *
  generalize Spec.daysBeforeYear b.year + Spec.daysBeforeMonth b.year b.month + (b.day - 1) = B at *
  omega

/-- The comparison of components is that of the instants. -/
theorem lex_iff {a b : DateTime} (ha : Spec.Real a) (hb : Spec.Real b) : Lex a b ↔ Spec.instant a ≤ Spec.instant b := by
  constructor
  · exact instant_le_of_lex ha hb
  · intro h
    rcases lex_total a b with h' | h'
    · exact h'
    · by_cases e : b = a
      · rw [e]; rw [e] at h'; exact h'
      · have := instant_lt_of_lex hb ha h' e; omega

/-- **C24**, the other direction: every date-time (also with fractions of a second) from the start to the end of the range of a partial date
matches it. -/
theorem c24_between (p : Partial) (hp : newPartial p = .ok p) (lo hi : DateTime) (h : p.range = .ok (lo, hi)) (t : DateTime)
    (ht : Spec.Real t) (h1 : Spec.instant lo ≤ Spec.instant t) (h2 : Spec.instant t ≤ Spec.instant hi) : Spec.Matches p t := by
  obtain ⟨⟨hlo, mlo⟩, ⟨hhi, mhi⟩, -⟩ := c24_range p hp lo hi h
  have l1 := (lex_iff hlo ht).2 h1
  have l2 := (lex_iff ht hhi).2 h2
  obtain ⟨l, hl, hne, rfl, -⟩ := newPartial_ok p hp
  clear h1 h2 h hp hlo hhi ht
  unfold Lex at l1 l2
  match l, hl, hne with
  | [], _, hne => exact absurd rfl hne
  | [a], _, _ =>
    simp [ofPrefix, Spec.Matches] at mlo mhi ⊢; omega
  | [a, b], _, _ =>
    simp [ofPrefix, Spec.Matches] at mlo mhi ⊢; omega
  | [a, b, c], _, _ =>
    simp [ofPrefix, Spec.Matches] at mlo mhi ⊢; omega
  | [a, b, c, d], _, _ =>
    simp [ofPrefix, Spec.Matches] at mlo mhi ⊢; omega
  | [a, b, c, d, e], _, _ =>
    simp [ofPrefix, Spec.Matches] at mlo mhi ⊢; omega
  | [a, b, c, d, e, f], _, _ =>
    simp [ofPrefix, Spec.Matches] at mlo mhi ⊢; omega
  | _ :: _ :: _ :: _ :: _ :: _ :: _ :: _, hl, _ => simp at hl

/-- The hypotheses hold for February 2008 and noon of the 29th. -/
example : ∃ lo hi : DateTime, newPartial ⟨some 2008, some 2, none, none, none, none⟩ = .ok ⟨some 2008, some 2, none, none, none, none⟩ ∧
    (⟨some 2008, some 2, none, none, none, none⟩ : Partial).range = .ok (lo, hi) ∧ Spec.Real ⟨2008, 2, 29, 12, 0, 0, 5⟩ ∧
    Lex lo ⟨2008, 2, 29, 12, 0, 0, 5⟩ ∧ Lex ⟨2008, 2, 29, 12, 0, 0, 5⟩ hi :=
  ⟨⟨2008, 2, 1, 0, 0, 0, 0⟩, ⟨2008, 2, 29, 23, 59, 59, 0⟩, by decide +kernel, by decide +kernel, by unfold Spec.Real; decide, by unfold Lex; decide, by unfold Lex; decide⟩
end Cis.Time
