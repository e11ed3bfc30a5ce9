import Verif.Colloc.Lemmas
import Mathlib.Algebra.BigOperators.Group.List.Basic
import Mathlib.Algebra.Order.BigOperators.Group.List
set_option linter.unusedSectionVars false
set_option linter.unusedSimpArgs false
/-! Properties C15 and C16: the kernels. -/
namespace Cis.Colloc
open Cis.Geo Cis.KDTree

/-- The kernels that only use the data values. -/
def Kernel.dataOnly : Kernel → Prop
  | .mean | .stddev | .min | .max | .sum | .moments => True
  | _ => False

theorem foldl_min_perm {l l' : List ℝ} (h : l.Perm l') : ∀ a, l.foldl min a = l'.foldl min a := by
  induction h with
  | nil => simp
  | cons x _ ih => intro a; simp [ih]
  | swap x y t => intro a; simp only [List.foldl_cons]; congr 1; rw [min_assoc, min_comm y x, ← min_assoc]
  | trans _ _ h1 h2 => intro a; rw [h1, h2]

theorem foldl_max_perm {l l' : List ℝ} (h : l.Perm l') : ∀ a, l.foldl max a = l'.foldl max a := by
  induction h with
  | nil => simp
  | cons x _ ih => intro a; simp [ih]
  | swap x y t => intro a; simp only [List.foldl_cons]; congr 1; rw [max_assoc, max_comm y x, ← max_assoc]
  | trans _ _ h1 h2 => intro a; rw [h1, h2]

theorem npMin_spec {l : List ℝ} {m : ℝ} (h : npMin l = some m) : m ∈ l ∧ ∀ x ∈ l, m ≤ x := by
  cases l with
  | nil => simp [npMin] at h
  | cons a t =>
    simp only [npMin, Option.some.injEq] at h
    subst h
    have : ∀ (t : List ℝ) (a : ℝ), t.foldl min a ∈ a :: t ∧ t.foldl min a ≤ a ∧ ∀ x ∈ t, t.foldl min a ≤ x := by
      intro t
      induction t with
      | nil => simp
      | cons b t ih =>
        intro a
        obtain ⟨h1, h2, h3⟩ := ih (min a b)
        rw [List.foldl_cons]
        refine ⟨?_, h2.trans (min_le_left _ _), ?_⟩
        · rcases List.mem_cons.1 h1 with h | h
          · rw [h]; rcases min_choice a b with h' | h' <;> rw [h'] <;> simp
          · simp [h]
        · intro x hx
          rcases List.mem_cons.1 hx with rfl | hx
          · exact h2.trans (min_le_right _ _)
          · exact h3 x hx
    obtain ⟨h1, h2, h3⟩ := this t a
    refine ⟨h1, ?_⟩
    intro x hx
    rcases List.mem_cons.1 hx with rfl | hx
    · exact h2
    · exact h3 x hx

theorem npMax_spec {l : List ℝ} {m : ℝ} (h : npMax l = some m) : m ∈ l ∧ ∀ x ∈ l, x ≤ m := by
  cases l with
  | nil => simp [npMax] at h
  | cons a t =>
    simp only [npMax, Option.some.injEq] at h
    subst h
    have : ∀ (t : List ℝ) (a : ℝ), t.foldl max a ∈ a :: t ∧ a ≤ t.foldl max a ∧ ∀ x ∈ t, x ≤ t.foldl max a := by
      intro t
      induction t with
      | nil => simp
      | cons b t ih =>
        intro a
        obtain ⟨h1, h2, h3⟩ := ih (max a b)
        rw [List.foldl_cons]
        refine ⟨?_, (le_max_left _ _).trans h2, ?_⟩
        · rcases List.mem_cons.1 h1 with h | h
          · rw [h]; rcases max_choice a b with h' | h' <;> rw [h'] <;> simp
          · simp [h]
        · intro x hx
          rcases List.mem_cons.1 hx with rfl | hx
          · exact (le_max_right _ _).trans h2
          · exact h3 x hx
    obtain ⟨h1, h2, h3⟩ := this t a
    refine ⟨h1, ?_⟩
    intro x hx
    rcases List.mem_cons.1 hx with rfl | hx
    · exact h2
    · exact h3 x hx

theorem npMin_perm {l l' : List ℝ} (h : l.Perm l') : npMin l = npMin l' := by
  cases h1 : npMin l with
  | none =>
    cases l with
    | nil => rw [h.nil_eq.symm]; rfl
    | cons => simp [npMin] at h1
  | some m =>
    cases h2 : npMin l' with
    | none =>
      cases l' with
      | nil => rw [h.eq_nil] at h1; simp [npMin] at h1
      | cons => simp [npMin] at h2
    | some m' =>
      obtain ⟨a, b⟩ := npMin_spec h1
      obtain ⟨c, d⟩ := npMin_spec h2
      rw [le_antisymm (b m' (h.mem_iff.2 c)) (d m (h.mem_iff.1 a))]

theorem npMax_perm {l l' : List ℝ} (h : l.Perm l') : npMax l = npMax l' := by
  cases h1 : npMax l with
  | none =>
    cases l with
    | nil => rw [h.nil_eq.symm]; rfl
    | cons => simp [npMax] at h1
  | some m =>
    cases h2 : npMax l' with
    | none =>
      cases l' with
      | nil => rw [h.eq_nil] at h1; simp [npMax] at h1
      | cons => simp [npMax] at h2
    | some m' =>
      obtain ⟨a, b⟩ := npMax_spec h1
      obtain ⟨c, d⟩ := npMax_spec h2
      rw [le_antisymm (d m (h.mem_iff.1 a)) (b m' (h.mem_iff.2 c))]

theorem npMean_perm {l l' : List ℝ} (h : l.Perm l') : npMean l = npMean l' := by
  unfold npMean; rw [h.sum_eq, h.length_eq]

theorem npStd_perm {l l' : List ℝ} (h : l.Perm l') : npStd l = npStd l' := by
  unfold npStd
  rw [h.length_eq, npMean_perm h, (h.map (fun x => (x - npMean l') ^ 2)).sum_eq]

/-- C15. The value does not depend on the order of the data, nor on the sample point or the order of the columns. -/
theorem c15_order_independent (k : Kernel) (hk : k.dataOnly) (cx cy cx' cy' : List Col) (ref ref' : Loc) (d d' : List DRow)
    (h : d.Perm d') : getValue k cx cy ref d = getValue k cx' cy' ref' d' := by
  have hv := h.map DRow.val
  cases k <;> simp only [Kernel.dataOnly] at hk <;>
    simp only [getValue, hv.length_eq, npMean_perm hv, npStd_perm hv, npMin_perm hv, npMax_perm hv, hv.sum_eq]

/-- C15. An empty selection gives no value; any other gives a value. -/
theorem c15_empty (k : Kernel) (cx cy : List Col) (ref : Loc) (d : List DRow) : getValue k cx cy ref d = none ↔ d = [] := by
  cases k <;> cases d <;> simp [getValue, nnLoop]

/-- C15. The minimum and maximum are attained, bound all values, and the mean lies between them; the sum is the mean times
the number of points. -/
theorem c15_bounds (cx cy : List Col) (ref : Loc) (d : List DRow) (hd : d ≠ []) :
    ∃ lo hi m s : ℝ, getValue .min cx cy ref d = some [some lo] ∧ getValue .max cx cy ref d = some [some hi] ∧
      getValue .mean cx cy ref d = some [some m] ∧ getValue .sum cx cy ref d = some [some s] ∧
      (∃ r ∈ d, r.val = lo) ∧ (∃ r ∈ d, r.val = hi) ∧ (∀ r ∈ d, lo ≤ r.val ∧ r.val ≤ hi) ∧ lo ≤ m ∧ m ≤ hi ∧
      s = (d.map DRow.val).sum ∧ s = m * d.length := by
  have hne : d.map DRow.val ≠ [] := by simpa using hd
  obtain ⟨lo, hlo⟩ : ∃ lo, npMin (d.map DRow.val) = some lo := by
    cases h : d.map DRow.val with
    | nil => exact absurd h hne
    | cons a t => exact ⟨_, rfl⟩
  obtain ⟨hi, hhi⟩ : ∃ hi, npMax (d.map DRow.val) = some hi := by
    cases h : d.map DRow.val with
    | nil => exact absurd h hne
    | cons a t => exact ⟨_, rfl⟩
  have hlen : d.length ≠ 0 := by simpa using hd
  have hpos : (0 : ℝ) < d.length := by
    have : 0 < d.length := Nat.pos_of_ne_zero hlen
    exact_mod_cast this
  obtain ⟨l1, l2⟩ := npMin_spec hlo
  obtain ⟨u1, u2⟩ := npMax_spec hhi
  have s1 : (d.length : ℝ) * lo ≤ (d.map DRow.val).sum := by
    have := List.card_nsmul_le_sum (d.map DRow.val) lo l2
    simpa using this
  have s2 : (d.map DRow.val).sum ≤ (d.length : ℝ) * hi := by
    have := List.sum_le_card_nsmul (d.map DRow.val) hi u2
    simpa using this
  refine ⟨lo, hi, npMean (d.map DRow.val), (d.map DRow.val).sum, ?_, ?_, ?_, ?_, ?_, ?_, ?_, ?_, ?_, rfl, ?_⟩
  · simp [getValue, hlo, hd]
  · simp [getValue, hhi, hd]
  · simp [getValue, hd]
  · simp [getValue, hd]
  · simpa using l1
  · simpa using u1
  · intro r hr
    exact ⟨l2 _ (List.mem_map_of_mem hr), u2 _ (List.mem_map_of_mem hr)⟩
  · unfold npMean; rw [List.length_map, le_div_iff₀ hpos]; linarith
  · unfold npMean; rw [List.length_map, div_le_iff₀ hpos]; linarith
  · unfold npMean; rw [List.length_map]; field_simp

/-- C15. `moments` gives the values of `mean` and `stddev` and the number of points. -/
theorem c15_moments (cx cy : List Col) (ref : Loc) (d : List DRow) (hd : d ≠ []) :
    ∃ m sd, getValue .mean cx cy ref d = some [m] ∧ getValue .stddev cx cy ref d = some [sd] ∧
      getValue .moments cx cy ref d = some [m, sd, some (d.length : ℝ)] := by
  refine ⟨some (npMean (d.map DRow.val)), npStd (d.map DRow.val), ?_, ?_, ?_⟩ <;> simp [getValue, hd]

/-- C15. The standard deviation is missing for one point; otherwise it is non-negative and its square is the sum of the squared
deviations from the mean divided by the number of points less one. -/
theorem c15_stddev (cx cy : List Col) (ref : Loc) (d : List DRow) (hd : d ≠ []) :
    ∃ sd, getValue .stddev cx cy ref d = some [sd] ∧ (sd = none ↔ d.length = 1) ∧
      ∀ x, sd = some x → 0 ≤ x ∧ ∀ m, getValue .mean cx cy ref d = some [some m] →
        x ^ 2 * (d.length - 1) = (d.map (fun r => (r.val - m) ^ 2)).sum := by
  have hlen : d.length ≠ 0 := by simpa using hd
  refine ⟨npStd (d.map DRow.val), by simp [getValue, hd], ?_, ?_⟩
  · unfold npStd
    rw [List.length_map]
    split
    · simp; omega
    · simp; omega
  · intro x hx
    unfold npStd at hx
    rw [List.length_map] at hx
    split at hx
    · simp at hx
    · rename_i h1
      simp only [Option.some.injEq] at hx
      subst hx
      refine ⟨Real.sqrt_nonneg _, ?_⟩
      intro m hm
      simp [getValue, hd] at hm
      have hpos : (0 : ℝ) < d.length - 1 := by
        have : 1 < d.length := by omega
        have : (1 : ℝ) < d.length := by exact_mod_cast this
        linarith
      rw [Real.sq_sqrt]
      · rw [div_mul_cancel₀ _ hpos.ne', List.map_map, hm]; rfl
      · apply div_nonneg _ hpos.le
        apply List.sum_nonneg
        intro y hy
        obtain ⟨z, -, rfl⟩ := List.mem_map.1 hy
        positivity

/-! ### Nearest neighbours -/

theorem nnLoop_spec (sep : Loc → ℝ) (d : List DRow) (r : DRow) (h : nnLoop sep d = some r) : Spec.FirstNearest sep d r := by
  cases d with
  | nil => simp [nnLoop] at h
  | cons a t =>
    simp only [nnLoop, Option.some.injEq] at h
    subst h
    have : ∀ (t pre : List DRow) (a : DRow), (∀ q ∈ pre, sep a.loc < sep q.loc) → ∀ (mid : List DRow), (∀ q ∈ mid, sep a.loc ≤ sep q.loc) →
        Spec.FirstNearest sep (pre ++ a :: mid ++ t)
          (t.foldl (fun near p => if sep near.loc > sep p.loc then p else near) a) := by
      intro t
      induction t with
      | nil => intro pre a hpre mid hmid; exact ⟨pre, mid, by simp, hpre, hmid⟩
      | cons b t ih =>
        intro pre a hpre mid hmid
        rw [List.foldl_cons]
        split
        · rename_i hlt
          have := ih (pre ++ a :: mid) b (by
            intro q hq
            rcases List.mem_append.1 hq with hq | hq
            · exact lt_trans hlt (hpre q hq)
            · rcases List.mem_cons.1 hq with rfl | hq
              · exact hlt
              · exact lt_of_lt_of_le hlt (hmid q hq)) [] (by simp)
          simpa using this
        · rename_i hge
          have := ih pre a hpre (mid ++ [b]) (by
            intro q hq
            rcases List.mem_append.1 hq with hq | hq
            · exact hmid q hq
            · simp at hq; subst hq; exact not_lt.1 hge)
          simpa using this
    simpa using this t [] a (by simp) [] (by simp)

theorem nnLoop_some (sep : Loc → ℝ) (d : List DRow) (hd : d ≠ []) : ∃ r, nnLoop sep d = some r := by
  cases d with
  | nil => exact absurd rfl hd
  | cons a t => exact ⟨_, rfl⟩

/-- C16, altitude, pressure and time: the value of the first point of least separation. -/
theorem c16_nearest (cx cy : List Col) (ref : Loc) (d : List DRow) (hd : d ≠ []) :
    (∃ r, Spec.FirstNearest (fun p => |ref.alt - p.alt|) d r ∧ getValue .nnAltitude cx cy ref d = some [some r.val]) ∧
    (∃ r, Spec.FirstNearest (fun p => |ref.time - p.time|) d r ∧ getValue .nnTime cx cy ref d = some [some r.val]) ∧
    ((0 < ref.pres ∧ ∀ r ∈ d, 0 < r.loc.pres) → ∃ r,
      Spec.FirstNearest (fun p => max (p.pres / ref.pres) (ref.pres / p.pres)) d r ∧
      getValue .nnPressure cx cy ref d = some [some r.val]) := by
  refine ⟨?_, ?_, ?_⟩
  · obtain ⟨r, hr⟩ := nnLoop_some (fun p => |ref.alt - p.alt|) d hd
    exact ⟨r, nnLoop_spec _ _ _ hr, by simp [getValue, hr]⟩
  · obtain ⟨r, hr⟩ := nnLoop_some (fun p => |ref.time - p.time|) d hd
    exact ⟨r, nnLoop_spec _ _ _ hr, by simp [getValue, hr]⟩
  · rintro ⟨hr0, hpos⟩
    obtain ⟨r, hr⟩ := nnLoop_some (fun p => nnPresSep ref p) d hd
    refine ⟨r, ?_, by simp [getValue, hr]⟩
    obtain ⟨pre, post, e, h1, h2⟩ := nnLoop_spec _ _ _ hr
    have conv : ∀ q ∈ d, nnPresSep ref q.loc = max (q.loc.pres / ref.pres) (ref.pres / q.loc.pres) := by
      intro q hq
      unfold nnPresSep
      rw [ratio_max hr0 (hpos q hq), max_comm]
    have hrd : r ∈ d := by rw [e]; simp
    refine ⟨pre, post, e, ?_, ?_⟩
    · intro q hq
      have := h1 q hq
      simp only at this
      rwa [conv q (by rw [e]; simp [hq]), conv r hrd] at this
    · intro q hq
      have := h2 q hq
      simp only at this
      rwa [conv q (by rw [e]; simp [hq]), conv r hrd] at this

/-- C16, horizontal: the value of the first point of least great-circle distance, if latitude and longitude are the first two
columns of both data sets in this order. Otherwise see `c16_horizontal_violated`. -/
theorem c16_nearest_horizontal (cx cy : List Col) (ref : Loc) (d : List DRow) (hd : d ≠ []) :
    ∃ r, Spec.FirstNearest (fun p => Geo.Spec.greatCircle 6378 ref.lat ref.lon p.lat p.lon) d r ∧
      getValue .nnHorizontal (.lat :: .lon :: cx) (.lat :: .lon :: cy) ref d = some [some r.val] := by
  obtain ⟨r, hr⟩ := nnLoop_some (fun p => Geo.Spec.greatCircle 6378 ref.lat ref.lon p.lat p.lon) d hd
  refine ⟨r, nnLoop_spec _ _ _ hr, ?_⟩
  have : (fun p : Loc => (rowHaversine (.lat :: .lon :: cx) (.lat :: .lon :: cy) ref p).getD 0)
      = fun p => Geo.Spec.greatCircle 6378 ref.lat ref.lon p.lat p.lon := by
    funext p
    simp only [rowHaversine, Option.getD_some, Loc.get]
    exact (c58_haversine_great_circle _ _ _ _).2
  simp only [getValue, this, hr, Option.map_some]

theorem hav_lat60 : kdHaversine 0 60 90 60 = Real.pi / 2 * 6378 := by
  have hpi := Real.pi_pos
  have : kdHaversine 0 60 90 60 = 2 * Real.arcsin (√(Real.sin (Real.pi / 4) ^ 2)) * 6378 := by
    unfold kdHaversine radiusEarth
    simp only
    rw [show (90 * Real.pi / 180 - 0 * Real.pi / 180) / 2 = Real.pi / 4 by ring,
      show (60 * Real.pi / 180 - 60 * Real.pi / 180) / 2 = 0 by ring, Real.sin_zero]
    simp
  rw [this, Real.sqrt_sq (by rw [Real.sin_pi_div_four]; positivity), Real.arcsin_sin (by linarith) (by linarith)]
  ring

theorem hav_lon60 : kdHaversine 0 60 0 0 = Real.pi / 3 * 6378 := by
  have hpi := Real.pi_pos
  have : kdHaversine 0 60 0 0 = 2 * Real.arcsin (√(Real.sin (Real.pi / 6) ^ 2)) * 6378 := by
    unfold kdHaversine radiusEarth
    simp only
    rw [show (0 * Real.pi / 180 - 0 * Real.pi / 180) / 2 = 0 by ring,
      show (0 * Real.pi / 180 - 60 * Real.pi / 180) / 2 = -(Real.pi / 6) by ring, Real.sin_zero, Real.sin_neg]
    simp
  rw [this, Real.sqrt_sq (by rw [Real.sin_pi_div_six]; norm_num), Real.arcsin_sin (by linarith) (by linarith)]
  ring

/-- C16 is violated for data with longitude before latitude: the kernel takes the entries by position. Around 60 N 0 E it prefers a
point on the equator, 60 degrees of arc away, to one at 60 N 90 E, 41 degrees of arc away. -/
theorem c16_horizontal_violated : ∃ (cx cy : List Col) (ref : Loc) (d : List DRow) (v : ℝ),
    cx.Perm [.lat, .lon, .alt, .pres, .time] ∧ cy.Perm [.lat, .lon, .alt, .pres, .time] ∧
    getValue .nnHorizontal cx cy ref d = some [some v] ∧
    ∀ r, Spec.FirstNearest (fun p => Geo.Spec.greatCircle 6378 ref.lat ref.lon p.lat p.lon) d r → r.val ≠ v := by
  have hpi := Real.pi_pos
  refine ⟨[.lon, .lat, .alt, .pres, .time], [.lon, .lat, .alt, .pres, .time], ⟨60, 0, 0, 1, 0⟩,
    [⟨⟨60, 90, 0, 1, 0⟩, 1⟩, ⟨⟨0, 0, 0, 1, 0⟩, 2⟩], 2, List.Perm.swap _ _ _, List.Perm.swap _ _ _, ?_, ?_⟩
  · simp only [getValue, nnLoop, rowHaversine, Loc.get, List.foldl_cons, List.foldl_nil, Option.getD_some, hav_lat60, hav_lon60]
    rw [if_pos (by nlinarith)]
    simp
  · intro r hr hv
    obtain ⟨pre, post, e, h1, h2⟩ := hr
    have hd2 : Geo.Spec.greatCircle 6378 60 0 0 0 = Real.pi / 3 * 6378 := by
      rw [← (c58_haversine_great_circle _ _ _ _).2, kdHaversine, radiusEarth]
      rw [show (0 * Real.pi / 180 - 60 * Real.pi / 180) / 2 = -(Real.pi / 6) by ring,
        show (0 * Real.pi / 180 - 0 * Real.pi / 180) / 2 = 0 by ring, Real.sin_zero, Real.sin_neg]
      simp only [neg_sq, zero_pow, ne_eq, OfNat.ofNat_ne_zero, not_false_eq_true, mul_zero, add_zero]
      rw [Real.sqrt_sq (by rw [Real.sin_pi_div_six]; norm_num), Real.arcsin_sin (by linarith) (by linarith)]
      ring
    have hd1 : Geo.Spec.greatCircle 6378 60 0 60 90 < Real.pi / 3 * 6378 := by
      rw [← (c58_haversine_great_circle _ _ _ _).2, kdHaversine, radiusEarth]
      rw [show (60 * Real.pi / 180 - 60 * Real.pi / 180) / 2 = 0 by ring,
        show (90 * Real.pi / 180 - 0 * Real.pi / 180) / 2 = Real.pi / 4 by ring, Real.sin_zero,
        show 60 * Real.pi / 180 = Real.pi / 3 by ring, Real.cos_pi_div_three, Real.sin_pi_div_four]
      have h8 : √((0 : ℝ) ^ 2 + 1 / 2 * (1 / 2) * (√2 / 2) ^ 2) < 1 / 2 := by
        rw [Real.sqrt_lt' (by norm_num), div_pow, Real.sq_sqrt (by norm_num)]; norm_num
      have h0 : 0 ≤ √((0 : ℝ) ^ 2 + 1 / 2 * (1 / 2) * (√2 / 2) ^ 2) := Real.sqrt_nonneg _
      have : Real.arcsin (√((0 : ℝ) ^ 2 + 1 / 2 * (1 / 2) * (√2 / 2) ^ 2)) < Real.pi / 6 := by
        rw [Real.arcsin_lt_iff_lt_sin ⟨by linarith, by linarith⟩ ⟨by linarith, by linarith⟩, Real.sin_pi_div_six]
        exact h8
      nlinarith
    -- the row with value 2 is the second one
    match pre, e with
    | [], e =>
      simp at e
      rw [← e.1] at hv; norm_num at hv
    | [a], e =>
      simp at e
      obtain ⟨rfl, rfl, -⟩ := e
      have := h1 _ (by simp : (⟨⟨60, 90, 0, 1, 0⟩, 1⟩ : DRow) ∈ [⟨⟨60, 90, 0, 1, 0⟩, 1⟩])
      simp only at this
      rw [hd2] at this; linarith
    | a :: b :: t, e => simp at e

/-- Concrete data: values 1 and 3 at altitudes 10 and 7 around altitude 8. -/
example : getValue .nnAltitude [] [] ⟨0, 0, 8, 1, 0⟩ [⟨⟨0, 0, 10, 1, 0⟩, 1⟩, ⟨⟨0, 0, 7, 1, 0⟩, 3⟩] = some [some 3] := by
  have h : |(8 : ℝ) - 10| > |8 - 7| := by norm_num [abs_of_nonneg, abs_of_neg]
  simp only [getValue, nnLoop, List.foldl_cons, List.foldl_nil, if_pos h, Option.map_some]

example : getValue .mean [] [] ⟨0, 0, 8, 1, 0⟩ [⟨⟨0, 0, 10, 1, 0⟩, 1⟩, ⟨⟨0, 0, 7, 1, 0⟩, 3⟩] = some [some 2] := by
  norm_num [getValue, npMean]

end Cis.Colloc
