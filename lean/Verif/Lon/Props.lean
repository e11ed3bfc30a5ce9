import Verif.Lon.Model
import Verif.Lon.Spec
import Mathlib.Tactic.Linarith
import Mathlib.Tactic.FieldSimp
import Mathlib.Tactic.Ring
import Mathlib.Tactic.Positivity
import Mathlib.Tactic.NormNum
import Mathlib.Data.Rat.Floor
set_option linter.unusedSectionVars false
set_option linter.unusedSimpArgs false
/-! Properties C21, C22: longitude wrapping. -/
namespace Cis.Lon
open Spec
variable {K : Type} [Field K] [LinearOrder K] [IsStrictOrderedRing K] [FloorRing K]

theorem pmod_range (x : K) : 0 ≤ pmod x 360 ∧ pmod x 360 < 360 := by
  have h1 := Int.floor_le (x / 360)
  have h2 := Int.lt_floor_add_one (x / 360)
  have e : x = 360 * (x / 360) := by field_simp
  unfold pmod
  constructor <;> linarith

theorem mem_right {A B : Type} {R : A → B → Prop} {l1 : List A} {l2 : List B} (h : List.Forall₂ R l1 l2) {b : B}
    (hb : b ∈ l2) : ∃ a ∈ l1, R a b := by
  induction h with
  | nil => simp at hb
  | cons hab _ ih =>
    rcases List.mem_cons.1 hb with rfl | hb
    · exact ⟨_, by simp, hab⟩
    · obtain ⟨a, ha, h⟩ := ih hb
      exact ⟨a, by simp [ha], h⟩

theorem same_refl (a : K) : Same a a := ⟨0, by simp⟩
theorem Spec.Same.symm {a b : K} (h : Same a b) : Same b a := by
  obtain ⟨k, rfl⟩ := h; exact ⟨-k, by push_cast; ring⟩
theorem Spec.Same.trans {a b c : K} (h1 : Same a b) (h2 : Same b c) : Same a c := by
  obtain ⟨k, rfl⟩ := h1; obtain ⟨j, rfl⟩ := h2; exact ⟨k + j, by push_cast; ring⟩

/-- Each meridian has exactly one longitude in a period. -/
theorem inRange_unique {s a b : K} (ha : InRange s a) (hb : InRange s b) (h : Same a b) : a = b := by
  obtain ⟨k, rfl⟩ := h
  obtain ⟨h1, h2⟩ := ha
  obtain ⟨h3, h4⟩ := hb
  have u : (k : K) < 1 := by linarith
  have l : (-1 : K) < k := by linarith
  have u' : k < 1 := by exact_mod_cast u
  have l' : -1 < k := by exact_mod_cast l
  have : k = 0 := by omega
  subst this; simp

/-- C21. Element by element, the result is the longitude of the same meridian in the period that starts at `s`. -/
theorem c21_fix_longitude_range (lons : List K) (s : K) :
    List.Forall₂ (fun lon out => InRange s out ∧ Same out lon ∧ ∀ b, InRange s b → Same b lon → b = out)
      lons (fixLongitudeRange lons s) := by
  unfold fixLongitudeRange wrapLons
  rw [List.forall₂_map_right_iff]
  rw [List.forall₂_same]
  intro lon _
  obtain ⟨h1, h2⟩ := pmod_range (lon - s + 360 * 2)
  have hr : InRange s (pmod (lon - s + 360 * 2) 360 + s) := ⟨by linarith, by linarith⟩
  have hs : Same (pmod (lon - s + 360 * 2) 360 + s) lon := by
    refine ⟨2 - ⌊(lon - s + 360 * 2) / 360⌋, ?_⟩
    unfold pmod; push_cast; ring
  exact ⟨hr, hs, fun b hb hsb => inRange_unique hb hr (hsb.trans hs.symm)⟩

/-- C21. Values in range are unchanged, so wrapping is idempotent. -/
theorem c21_fix_longitude_range_idempotent (lons : List K) (s : K) :
    ((∀ l ∈ lons, InRange s l) → fixLongitudeRange lons s = lons) ∧
      fixLongitudeRange (fixLongitudeRange lons s) s = fixLongitudeRange lons s := by
  have key : ∀ lons : List K, (∀ l ∈ lons, InRange s l) → fixLongitudeRange lons s = lons := by
    intro lons h
    have hc := c21_fix_longitude_range lons s
    unfold fixLongitudeRange wrapLons at hc ⊢
    rw [List.forall₂_map_right_iff, List.forall₂_same] at hc
    conv_rhs => rw [← List.map_id lons]
    apply List.map_congr_left
    intro l hl
    exact ((hc l hl).2.2 l (h l hl) (same_refl l)).symm
  refine ⟨key lons, key _ ?_⟩
  intro l hl
  obtain ⟨a, _, h⟩ := mem_right (c21_fix_longitude_range lons s) hl
  exact h.1

/-- One shift suffices within one period either side. -/
def Near (s a : K) : Prop := s - 360 ≤ a ∧ a < s + 720

theorem shift_ok {s l : K} (h : Near s l) :
    (let l1 := if l < s then l + 360 else l
     InRange s (if l1 ≥ s + 360 then l1 - 360 else l1) ∧ Same (if l1 ≥ s + 360 then l1 - 360 else l1) l) ∧
    (InRange s (if l < s then l + 360 else if l ≥ s + 360 then l - 360 else l) ∧
      Same (if l < s then l + 360 else if l ≥ s + 360 then l - 360 else l) l) := by
  obtain ⟨h1, h2⟩ := h
  have sp : Same (l + 360) l := ⟨1, by push_cast; ring⟩
  have sm : Same (l - 360) l := ⟨-1, by push_cast; ring⟩
  simp only
  by_cases c1 : l < s
  · rw [if_pos c1, if_neg (by intro h; linarith), if_pos c1]
    exact ⟨⟨⟨by linarith, by linarith⟩, sp⟩, ⟨⟨by linarith, by linarith⟩, sp⟩⟩
  · rw [if_neg c1, if_neg c1]
    by_cases c2 : l ≥ s + 360
    · rw [if_pos c2]
      exact ⟨⟨⟨by linarith, by linarith⟩, sm⟩, ⟨⟨by linarith, by linarith⟩, sm⟩⟩
    · rw [if_neg c2]
      have : InRange s l := ⟨not_lt.1 c1, not_le.1 c2⟩
      exact ⟨⟨this, same_refl l⟩, ⟨this, same_refl l⟩⟩

/-- C22, ungridded view. Longitudes end up in range on the same meridian; the other coordinates are untouched; a view
without longitudes is unchanged; a second call changes nothing. -/
theorem c22_ungridded_view (coords : Fin 5 → Option (List K)) (s : K)
    (hnear : ∀ lons, coords 1 = some lons → ∀ l ∈ lons, Near s l) :
    (∀ d, d ≠ 1 → ungriddedSetRange coords s d = coords d) ∧
    (coords 1 = none → ungriddedSetRange coords s = coords) ∧
    (∀ lons, coords 1 = some lons → ∃ out, ungriddedSetRange coords s 1 = some out ∧
      List.Forall₂ (fun lon o => InRange s o ∧ Same o lon) lons out) ∧
    ungriddedSetRange (ungriddedSetRange coords s) s = ungriddedSetRange coords s := by
  have main : ∀ lons : List K, (∀ l ∈ lons, Near s l) → List.Forall₂ (fun lon o => InRange s o ∧ Same o lon) lons
      ((lons.map (fun l => if l < s then l + 360 else l)).map (fun l => if l ≥ s + 360 then l - 360 else l)) := by
    intro lons h
    rw [List.map_map, List.forall₂_map_right_iff, List.forall₂_same]
    intro l hl
    exact (shift_ok (h l hl)).1
  have fixed : ∀ lons : List K, (∀ l ∈ lons, InRange s l) →
      ((lons.map (fun l => if l < s then l + 360 else l)).map (fun l => if l ≥ s + 360 then l - 360 else l)) = lons := by
    intro lons h
    rw [List.map_map]
    conv_rhs => rw [← List.map_id lons]
    apply List.map_congr_left
    intro l hl
    obtain ⟨h1, h2⟩ := h l hl
    simp only [Function.comp, id]
    rw [if_neg (not_lt.2 h1), if_neg (not_le.2 h2)]
  unfold ungriddedSetRange
  cases hc : coords 1 with
  | none => simp [hc]
  | some lons =>
    simp only [Function.update_self, Option.some.injEq, reduceCtorEq, false_implies, true_and]
    refine ⟨fun d hd => Function.update_of_ne hd _ _, ?_, ?_⟩
    · intro l hl; subst hl
      exact ⟨_, rfl, main lons (hnear lons hc)⟩
    · have hin := fun l hl => (mem_right (main lons (hnear lons hc)) (b := l) hl).choose_spec.2.1
      rw [fixed _ hin]
      simp

/-- C22, gridded view. -/
theorem c22_gridded_view {n : Nat} (coords : Fin n → List K) (lonDim : Option (Fin n)) (s : K)
    (hnear : ∀ d, lonDim = some d → ∀ l ∈ coords d, Near s l) :
    (∀ d, lonDim ≠ some d → griddedViewSetRange coords lonDim s d = coords d) ∧
    (∀ d, lonDim = some d → List.Forall₂ (fun lon o => InRange s o ∧ Same o lon) (coords d)
      (griddedViewSetRange coords lonDim s d)) ∧
    griddedViewSetRange (griddedViewSetRange coords lonDim s) lonDim s = griddedViewSetRange coords lonDim s := by
  unfold griddedViewSetRange
  cases lonDim with
  | none => simp
  | some e =>
    simp only [Option.some.injEq, ne_eq]
    have main : List.Forall₂ (fun lon o => InRange s o ∧ Same o lon) (coords e) ((coords e).map (fun lon =>
      if lon < s then lon + 360 else if lon ≥ s + 360 then lon - 360 else lon)) := by
      rw [List.forall₂_map_right_iff, List.forall₂_same]
      intro l hl
      exact (shift_ok (hnear e rfl l hl)).2
    refine ⟨fun d hd => Function.update_of_ne (Ne.symm hd) _ _, ?_, ?_⟩
    · rintro d rfl
      rw [Function.update_self]; exact main
    · rw [Function.update_self, Function.update_idem]
      congr 1
      conv_rhs => rw [← List.map_id ((coords e).map _)]
      apply List.map_congr_left
      intro l hl
      obtain ⟨a, _, h⟩ := mem_right main hl
      obtain ⟨⟨h1, h2⟩, -⟩ := h
      rw [if_neg (not_lt.2 h1), if_neg (not_le.2 h2)]; rfl

/-- C21. Before collocation, sample and data longitudes are brought into one common 360 degree window (`[-180, 180)` or
`[0, 360)`), whatever conventions they had, without moving any point. -/
theorem c21_common_window (sample data : List K) :
    ∃ w : K, (w = -180 ∨ w = 0) ∧ (∀ l ∈ (fixSampleAndData sample data).1, InRange w l) ∧
      (∀ l ∈ (fixSampleAndData sample data).2, InRange w l) ∧
      List.Forall₂ Same (fixSampleAndData sample data).1 sample ∧
      List.Forall₂ Same (fixSampleAndData sample data).2 data := by
  have hfix : ∀ (l : List K) (s : K), (∀ x ∈ fixLongitudeRange l s, InRange s x) ∧ List.Forall₂ Same (fixLongitudeRange l s) l := by
    intro l s
    have h := c21_fix_longitude_range l s
    refine ⟨?_, ?_⟩
    · intro x hx
      obtain ⟨a, _, h⟩ := mem_right h hx
      exact h.1
    · exact (h.imp (fun a b hab => hab.2.1)).flip
  unfold fixSampleAndData
  simp only
  set s0 := findLongitudeRange sample with hs0
  have hr : ∀ l : List K, findLongitudeRange l = -180 ∨ findLongitudeRange l = 0 := by
    intro l; unfold findLongitudeRange; split <;> simp
  refine ⟨findLongitudeRange (fixLongitudeRange sample s0), hr _, ?_, (hfix _ _).1, (hfix _ _).2, (hfix _ _).2⟩
  intro l hl
  have h0 := (hfix sample s0).1 l hl
  unfold findLongitudeRange
  split
  · rename_i hany
    rcases hr sample with h | h
    · rw [← hs0] at h; rw [← h]; exact h0
    · exfalso
      rw [← hs0] at h
      obtain ⟨x, hx, hneg⟩ := List.any_eq_true.1 hany
      have := ((hfix sample s0).1 x hx).1
      rw [h] at this
      exact absurd (of_decide_eq_true hneg) (not_lt.2 this)
  · rename_i hany
    have hpos : 0 ≤ l := by
      by_contra hc
      exact hany (List.any_eq_true.2 ⟨l, hl, by simpa using hc⟩)
    rcases hr sample with h | h
    · rw [← hs0] at h; rw [h] at h0; obtain ⟨a, b⟩ := h0; exact ⟨hpos, by linarith⟩
    · rw [← hs0] at h; rw [← h]; exact h0

/-! Concrete cases. -/
example : fixLongitudeRange [-170, 0, 359, 540] (0 : ℚ) = [190, 0, 359, 180] := by decide +kernel
example : fixLongitudeRange [(-1000 : ℚ)] 0 = [80] := by decide +kernel
example : ∀ l ∈ ([-350, 10, 700] : List ℚ), Near 0 l := by unfold Near; decide +kernel
example : fixSampleAndData ([-200, 10] : List ℚ) [350, 10] = (([160, 10], [350, 10]) : List ℚ × List ℚ) := by decide +kernel

end Cis.Lon
