import Verif.Time.Spec
import Mathlib.Tactic.IntervalCases
import Mathlib.Tactic.Linarith
import Mathlib.Tactic.Ring
set_option linter.unusedSectionVars false
set_option linter.unusedSimpArgs false
namespace Cis.Time

theorem valid_iff (t : DateTime) : validDT t = true ↔ Spec.Real t := by
  unfold validDT Spec.Real; exact decide_eq_true_iff

theorem dim_bounds (y m : Nat) : 28 ≤ daysInMonth y m ∧ daysInMonth y m ≤ 31 := by
  unfold daysInMonth; split
  · split <;> omega
  · split <;> omega

theorem findLastDay_eq (y m : Int) (hy : 1 ≤ y ∧ y ≤ 9999) (hm : 1 ≤ m ∧ m ≤ 12) :
    findLastDayOfMonth y m = if y = 9999 ∧ m = 12 then .error .overflow else .ok (daysInMonth y.toNat m.toNat : Int) := by
  obtain ⟨Y, rfl⟩ := Int.eq_ofNat_of_zero_le (show 0 ≤ y by omega)
  obtain ⟨M, rfl⟩ := Int.eq_ofNat_of_zero_le (show 0 ≤ m by omega)
  have hb := dim_bounds Y M
  have hb1 := dim_bounds Y (M + 1)
  have hb2 := dim_bounds (Y + 1) 1
  unfold findLastDayOfMonth mkDatetime validDT
  simp only [Int.toNat_natCast]
  have h28 : ((28 : Int).toNat) = 28 := rfl
  have h0 : ((0 : Int).toNat) = 0 := rfl
  rw [if_neg (by simp [isCInt]; omega), if_pos (by refine ⟨?_, ?_, ?_, ?_, ?_, ?_⟩ <;> omega), if_pos (by
    rw [decide_eq_true_iff, h28, h0]; refine ⟨?_, ?_, ?_, ?_, ?_, ?_, ?_, ?_, ?_, ?_⟩ <;> (try simp) <;> omega)]
  simp only [h28]
  generalize hD : daysInMonth Y M = D at *
  have h1 : ∀ k, 28 ≤ k → k < D → nextDay (Y, M, k) = some (Y, M, k + 1) := by
    intro k _ hk; simp [nextDay, hD, hk]
  by_cases hc : Y = 9999 ∧ M = 12
  · obtain ⟨rfl, rfl⟩ := hc
    have : D = 31 := by rw [← hD]; rfl
    subst this
    have : addDays 4 (9999, 12, 28) = none := by decide +kernel
    simp [this]
  · rw [if_neg (by omega)]
    obtain ⟨Y', M', h2, h3, h4⟩ : ∃ Y' M', nextDay (Y, M, D) = some (Y', M', 1) ∧ prevDay (Y', M', 1) = some (Y, M, D) ∧
        28 ≤ daysInMonth Y' M' := by
      by_cases hm : M < 12
      · refine ⟨Y, M + 1, ?_, ?_, hb1.1⟩
        · simp [nextDay, hD, hm]
        · have : 1 < M + 1 := by omega
          simp [prevDay, hD, this]
      · have hM : M = 12 := by omega
        refine ⟨Y + 1, 1, ?_, ?_, hb2.1⟩
        · have : Y < 9999 := by omega
          simp [nextDay, hD, hm, this]
        · have e : D = 31 := by rw [← hD, hM]; rfl
          have : 1 < Y + 1 := by omega
          simp [prevDay, this, e, hM]
    have hn : ∀ k, k < 28 → nextDay (Y', M', k) = some (Y', M', k + 1) := by
      intro k hk; have : k < daysInMonth Y' M' := by omega
      simp [nextDay, this]
    have hp : ∀ k, 1 < k → prevDay (Y', M', k) = some (Y', M', k - 1) := by
      intro k hk; simp [prevDay, hk]
    obtain rfl | rfl | rfl | rfl : D = 28 ∨ D = 29 ∨ D = 30 ∨ D = 31 := by omega
    all_goals simp [addDays, subDays, h1, h2, h3, hn, hp]

/-! ### Chronological order -/

theorem daysBeforeYear_mono {a b : Nat} (h1 : 1 ≤ a) (h : a < b) :
    Spec.daysBeforeYear a + (if isLeap a then 366 else 365) ≤ Spec.daysBeforeYear b := by
  unfold Spec.daysBeforeYear
  obtain ⟨k, rfl⟩ := Nat.exists_eq_add_of_lt h
  have e : a + k + 1 - 1 = (a - 1 + 1) + k := by omega
  rw [e, List.range_add, List.map_append, List.sum_append, List.range_succ, List.map_append, List.sum_append]
  have : a - 1 + 1 = a := by omega
  simp [this]

theorem daysBeforeMonth_mono {y a b : Nat} (h1 : 1 ≤ a) (h : a < b) :
    Spec.daysBeforeMonth y a + daysInMonth y a ≤ Spec.daysBeforeMonth y b := by
  unfold Spec.daysBeforeMonth
  obtain ⟨k, rfl⟩ := Nat.exists_eq_add_of_lt h
  have e : a + k + 1 - 1 = (a - 1 + 1) + k := by omega
  rw [e, List.range_add, List.map_append, List.sum_append, List.range_succ, List.map_append, List.sum_append]
  have : a - 1 + 1 = a := by omega
  simp [this]

theorem daysBeforeMonth_13 (y : Nat) : Spec.daysBeforeMonth y 13 = if isLeap y then 366 else 365 := by
  unfold Spec.daysBeforeMonth
  simp [List.range_succ, daysInMonth]
  split <;> rfl

/-- The day in the year is below the length of the year. -/
theorem day_in_year {t : DateTime} (h : Spec.Real t) :
    Spec.daysBeforeMonth t.year t.month + t.day ≤ if isLeap t.year then 366 else 365 := by
  obtain ⟨-, -, h1, h2, h3, h4, -⟩ := h
  have := daysBeforeMonth_mono (y := t.year) (a := t.month) (b := 13) h1 (by omega)
  rw [daysBeforeMonth_13] at this
  omega

/-- Lexicographic comparison of the components. -/
def Lex (a b : DateTime) : Prop :=
  a.year < b.year ∨ (a.year = b.year ∧ (a.month < b.month ∨ (a.month = b.month ∧ (a.day < b.day ∨ (a.day = b.day ∧
    (a.hour < b.hour ∨ (a.hour = b.hour ∧ (a.minute < b.minute ∨ (a.minute = b.minute ∧ (a.second < b.second ∨
      (a.second = b.second ∧ a.microsecond ≤ b.microsecond)))))))))))

/-- Lexicographic order implies chronological order. -/
theorem instant_le_of_lex {a b : DateTime} (ha : Spec.Real a) (hb : Spec.Real b) (h : Lex a b) : Spec.instant a ≤ Spec.instant b := by
  have hda := day_in_year ha
  have hdb := day_in_year hb
  obtain ⟨a1, a2, a3, a4, a5, a6, a7, a8, a9, a10⟩ := ha
  obtain ⟨b1, b2, b3, b4, b5, b6, b7, b8, b9, b10⟩ := hb
  unfold Spec.instant
  have key : (Spec.daysBeforeYear a.year + Spec.daysBeforeMonth a.year a.month + (a.day - 1) <
      Spec.daysBeforeYear b.year + Spec.daysBeforeMonth b.year b.month + (b.day - 1)) ∨
      (Spec.daysBeforeYear a.year + Spec.daysBeforeMonth a.year a.month + (a.day - 1) =
      Spec.daysBeforeYear b.year + Spec.daysBeforeMonth b.year b.month + (b.day - 1) ∧
      (a.hour < b.hour ∨ (a.hour = b.hour ∧ (a.minute < b.minute ∨ (a.minute = b.minute ∧ (a.second < b.second ∨
      (a.second = b.second ∧ a.microsecond ≤ b.microsecond))))))) := by
    rcases h with h | ⟨e, h⟩
    · left
      have := daysBeforeYear_mono a1 h
      omega
    · rw [e] at hda ⊢
      rcases h with h | ⟨e2, h⟩
      · left
        have := daysBeforeMonth_mono (y := b.year) a3 h
        rw [e] at a6
        omega
      · rw [e2]
        rcases h with h | ⟨e3, h⟩
        · left; omega
        · rw [e3]; exact Or.inr ⟨rfl, h⟩
  generalize Spec.daysBeforeYear a.year + Spec.daysBeforeMonth a.year a.month + (a.day - 1) = A at *
  generalize Spec.daysBeforeYear b.year + Spec.daysBeforeMonth b.year b.month + (b.day - 1) = B at *
  omega
end Cis.Time
