import Verif.Plot.TaylorDraw
import Mathlib.Order.Bounds.Basic
/-!
Property C126, continued: the automatic limits of a Taylor diagram (cis/plotting/taylor.py:94, 134-148) and the exact sizes of
its markers (taylor.py:204-207), for the model of `TaylorDraw.lean`.
-/
set_option linter.unusedSectionVars false
set_option linter.unusedSimpArgs false
namespace Cis.Plot.TaylorDraw
open Cis.Plot Cis.Masks

/-! ### Specification -/

namespace Spec

/-- The dataset counts for the automatic limits: it has a standard deviation, which is within the radius asked for unless points
beyond are folded; and, when biases are shown, a bias not beyond the greatest asked for. -/
def Considered (o : Opts) (p : Point) : Prop :=
  (∃ g, p.gamma = some g ∧ ∀ m, o.gammamax = some m → m ≠ 0 → o.fold = false → g ≤ m) ∧
  (o.bias ≠ none → ∃ b, p.bias = some b ∧ ∀ m, o.stdbiasmax = some m → m ≠ 0 → |b| ≤ m)

/-- An option that was not given, or given as zero. -/
def NotGiven (x : Option ℝ) : Prop := x = none ∨ x = some 0

/-- The standard deviations, in units of the reference's, that count. -/
def gammas (o : Opts) (items : List Item) : Set ℝ := {g | ∃ it ∈ items, Considered o it.p ∧ it.p.gamma = some g}

/-- The magnitudes of the biases that count. -/
def biases (o : Opts) (items : List Item) : Set ℝ := {x | ∃ it ∈ items, Considered o it.p ∧ ∃ b, it.p.bias = some b ∧ x = |b|}

/-- The bias shown by the largest markers. -/
def Largest (o : Opts) (items : List Item) (M : ℝ) : Prop :=
  (o.stdbiasmax = some M ∧ M ≠ 0) ∨ (NotGiven o.stdbiasmax ∧ IsGreatest (biases o items) M)

/-- The width of the markers. -/
def Width (o : Opts) (w : ℝ) : Prop := (o.itemwidth = some w ∧ w ≠ 0) ∨ (NotGiven o.itemwidth ∧ w = 6)

end Spec

/-! ### Lemmas -/

theorem amax_iff {l : List ℝ} {m : ℝ} : amax l = some m ↔ m ∈ l ∧ ∀ y ∈ l, y ≤ m := by
  have mem : ∀ (t : List ℝ) (x : ℝ), t.foldl max x = x ∨ t.foldl max x ∈ t := by
    intro t
    induction t with
    | nil => intro x; simp
    | cons a t ih =>
      intro x
      simp only [List.foldl_cons, List.mem_cons]
      rcases ih (max x a) with h | h
      · rw [h]
        rcases max_choice x a with e | e <;> simp [e]
      · exact Or.inr (Or.inr h)
  have fwd : ∀ m, amax l = some m → m ∈ l ∧ ∀ y ∈ l, y ≤ m := by
    intro m h
    refine ⟨?_, amax_ge h⟩
    cases l with
    | nil => cases h
    | cons x t =>
      simp only [amax, Option.some.injEq] at h
      subst h
      rcases mem t x with e | e
      · rw [e]; simp
      · exact List.mem_cons_of_mem _ e
  refine ⟨fwd m, fun ⟨h1, h2⟩ => ?_⟩
  cases e : amax l with
  | none => cases l with
    | nil => simp at h1
    | cons x t => cases e
  | some m' =>
    obtain ⟨h3, h4⟩ := fwd m' e
    rw [le_antisymm (h2 _ h3) (h4 _ h1)]

theorem amin_iff {l : List ℝ} {m : ℝ} : amin l = some m ↔ m ∈ l ∧ ∀ y ∈ l, m ≤ y := by
  have key : ∀ (t : List ℝ) (x : ℝ), (t.foldl min x = x ∨ t.foldl min x ∈ t) ∧ t.foldl min x ≤ x ∧ ∀ y ∈ t, t.foldl min x ≤ y := by
    intro t
    induction t with
    | nil => intro x; simp
    | cons a t ih =>
      intro x
      simp only [List.foldl_cons, List.mem_cons]
      obtain ⟨h1, h2, h3⟩ := ih (min x a)
      refine ⟨?_, le_trans h2 (min_le_left _ _), ?_⟩
      · rcases h1 with h | h
        · rw [h]
          rcases min_choice x a with e | e <;> simp [e]
        · exact Or.inr (Or.inr h)
      · rintro y (rfl | hy)
        · exact le_trans h2 (min_le_right _ _)
        · exact h3 y hy
  have fwd : ∀ m, amin l = some m → m ∈ l ∧ ∀ y ∈ l, m ≤ y := by
    intro m h
    cases l with
    | nil => cases h
    | cons x t =>
      simp only [amin, Option.some.injEq] at h
      subst h
      obtain ⟨h1, h2, h3⟩ := key t x
      refine ⟨?_, ?_⟩
      · rcases h1 with e | e
        · rw [e]; simp
        · exact List.mem_cons_of_mem _ e
      · intro y hy
        rcases List.mem_cons.1 hy with rfl | hy
        · exact h2
        · exact h3 y hy
  refine ⟨fwd m, fun ⟨h1, h2⟩ => ?_⟩
  cases e : amin l with
  | none => cases l with
    | nil => simp at h1
    | cons x t => cases e
  | some m' =>
    obtain ⟨h3, h4⟩ := fwd m' e
    rw [le_antisymm (h4 _ h1) (h2 _ h3)]

theorem gt_truthy {x m : Option ℝ} : gt x (truthy m) = false ↔ ∀ a b, x = some a → m = some b → b ≠ 0 → a ≤ b := by
  rw [← Bool.not_eq_true, gt_iff]
  constructor
  · intro h a b ha hb h0
    by_contra hlt
    exact h ⟨a, b, ha, truthy_some.2 ⟨hb, h0⟩, not_le.1 hlt⟩
  · rintro h ⟨a, b, ha, hb, hlt⟩
    rw [truthy_some] at hb
    exact absurd (h a b ha hb.1 hb.2) (not_le.2 hlt)

theorem considered_iff (o : Opts) (p : Point) : excluded o p = false ↔ Spec.Considered o p := by
  unfold excluded Spec.Considered
  rw [Bool.or_eq_false_iff, Bool.or_eq_false_iff, Bool.and_eq_false_iff, Bool.and_eq_false_iff, Bool.or_eq_false_iff, gt_truthy, gt_truthy]
  constructor
  · rintro ⟨⟨h1, h2⟩, h3⟩
    constructor
    · cases hg : p.gamma with
      | none => rw [hg] at h1; cases h1
      | some g =>
        refine ⟨g, rfl, fun m hm h0 hf => ?_⟩
        rw [hf] at h2
        exact h2.resolve_left (by simp) g m hg hm h0
    · intro hb
      obtain ⟨h4, h5⟩ := h3.resolve_left (by rw [Option.isSome_iff_ne_none.2 hb]; simp)
      cases hp : p.bias with
      | none => rw [hp] at h4; cases h4
      | some b => exact ⟨b, rfl, fun m hm h0 => h5 |b| m (by rw [hp]; rfl) hm h0⟩
  · rintro ⟨⟨g, hg, h1⟩, h2⟩
    refine ⟨⟨by rw [hg]; rfl, ?_⟩, ?_⟩
    · cases hf : o.fold with
      | true => left; rfl
      | false => right; intro a b ha hb h0; rw [hg] at ha; cases ha; exact h1 b hb h0 hf
    · by_cases hb : o.bias = none
      · left; simp [hb]
      · right
        obtain ⟨b, e, h3⟩ := h2 hb
        refine ⟨by rw [e]; rfl, ?_⟩
        intro a m ha hm h0
        rw [e] at ha; cases ha
        exact h3 m hm h0

theorem mem_gammas (o : Opts) (items : List Item) (g : ℝ) :
    g ∈ ((items.map Item.p).filter (fun p => !excluded o p)).filterMap Point.gamma ↔ g ∈ Spec.gammas o items := by
  simp only [List.mem_filterMap, List.mem_filter, List.mem_map, Bool.not_eq_true', considered_iff, Spec.gammas, Set.mem_setOf_eq]
  constructor
  · rintro ⟨p, ⟨⟨it, hi, rfl⟩, hc⟩, hg⟩; exact ⟨it, hi, hc, hg⟩
  · rintro ⟨it, hi, hc, hg⟩; exact ⟨_, ⟨⟨it, hi, rfl⟩, hc⟩, hg⟩

theorem mem_biases (o : Opts) (items : List Item) (x : ℝ) :
    x ∈ ((items.map Item.p).filter (fun p => !excluded o p)).filterMap (fun p => p.bias.map abs) ↔ x ∈ Spec.biases o items := by
  simp only [List.mem_filterMap, List.mem_filter, List.mem_map, Bool.not_eq_true', considered_iff, Spec.biases, Set.mem_setOf_eq,
    Option.map_eq_some_iff]
  constructor
  · rintro ⟨p, ⟨⟨it, hi, rfl⟩, hc⟩, b, hb, rfl⟩; exact ⟨it, hi, hc, b, hb, rfl⟩
  · rintro ⟨it, hi, hc, b, hb, rfl⟩; exact ⟨_, ⟨⟨it, hi, rfl⟩, hc⟩, b, hb, rfl⟩

theorem maxBias_iff (o : Opts) (items : List Item) (M : ℝ) : maxBias o (items.map Item.p) = some M ↔ Spec.Largest o items M := by
  unfold maxBias Spec.Largest Spec.NotGiven
  cases e : truthy o.stdbiasmax with
  | some m =>
    rw [truthy_some] at e
    simp only [Option.some.injEq]
    constructor
    · rintro rfl; exact Or.inl e
    · rintro (⟨h, -⟩ | ⟨h | h, -⟩)
      · rw [e.1] at h; exact Option.some.inj h
      · rw [e.1] at h; cases h
      · rw [e.1] at h; exact absurd (Option.some.inj h) e.2
  | none =>
    rw [truthy_none] at e
    simp only [amax_iff, mem_biases]
    constructor
    · intro h; exact Or.inr ⟨e, h⟩
    · rintro (⟨h, h0⟩ | ⟨-, h⟩)
      · rcases e with e | e <;> rw [e] at h <;> cases h; exact absurd rfl h0
      · exact h

theorem width_iff (o : Opts) (w : ℝ) : width o = w ↔ Spec.Width o w := by
  unfold width Spec.Width Spec.NotGiven
  cases e : truthy o.itemwidth with
  | some m =>
    rw [truthy_some] at e
    simp only [Option.getD_some]
    constructor
    · rintro rfl; exact Or.inl e
    · rintro (⟨h, -⟩ | ⟨h | h, -⟩)
      · rw [e.1] at h; exact Option.some.inj h
      · rw [e.1] at h; cases h
      · rw [e.1] at h; exact absurd (Option.some.inj h) e.2
  | none =>
    rw [truthy_none] at e
    simp only [Option.getD_none]
    constructor
    · intro h; exact Or.inr ⟨e, h.symm⟩
    · rintro (⟨h, h0⟩ | ⟨-, h⟩)
      · rcases e with e | e <;> rw [e] at h <;> cases h; exact absurd rfl h0
      · exact h.symm

/-! ### Theorems -/

/-- C126, radius: the radius of the diagram is the one asked for; or else the greatest standard deviation that counts, if there is
one. -/
theorem c126_radius (o : Opts) (items : List Item) (r : Option ℝ) (ds : List Drawn) (h : draw o items = .ok (r, ds)) :
    (∀ m, o.gammamax = some m → m ≠ 0 → r = some m) ∧
    (Spec.NotGiven o.gammamax → ∀ m, r = some m ↔ IsGreatest (Spec.gammas o items) m) := by
  obtain ⟨rfl, -⟩ := draw_cases h
  unfold radius
  constructor
  · intro m hm h0
    rw [truthy_some.2 ⟨hm, h0⟩]
  · intro hn m
    rw [truthy_none.2 hn]
    simp only [amax_iff, mem_gammas]
    rfl

/-- C126, sizes: unless biases are shown as sizes all markers have the width asked for, or 6; and if they are, the marker of a
bias has its size on the scale from the least of the other datasets' biases (or an eighth of the greatest) to the greatest. -/
theorem c126_size (o : Opts) (items : List Item) (r : Option ℝ) (ds : List Drawn) (h : draw o items = .ok (r, ds)) (w : ℝ)
    (hw : Spec.Width o w) :
    (o.bias ≠ some .size → ∀ d ∈ ds, d.size = some w) ∧
    (o.bias = some .size → ∀ M l, Spec.Largest o items M → IsLeast (Spec.biases o items.tail) l → ∀ d ∈ ds,
      ∃ b, d.bias = some b ∧ d.size =
        if M = min l (M / 8) then none
        else some (w * (1 / 4 + 7 / 4 * min (max ((|b| - min l (M / 8)) / (M - min l (M / 8))) 0) 1))) := by
  rw [← width_iff] at hw
  obtain ⟨-, mn, range, hlim, h2⟩ := draw_cases h
  obtain ⟨hl, hg⟩ := drawAll_get items 0 ds h2
  have hd : ∀ d ∈ ds, ∃ (k : Nat) (it : Item), drawOne o r mn range k it = .ok d := by
    intro d hd
    obtain ⟨k, hk⟩ := List.getElem?_of_mem hd
    have hk' : k < items.length := by rw [← hl]; exact (List.getElem?_eq_some_iff.1 hk).1
    obtain ⟨d', e1, e2⟩ := hg k _ (List.getElem?_eq_getElem hk')
    rw [hk] at e1; cases e1
    exact ⟨_, _, e2⟩
  constructor
  · intro hb d hdm
    obtain ⟨k, it, e⟩ := hd d hdm
    rw [((drawOne_fields e).2.2.2.2.2 hb).1, hw]
  · intro hb M l hM hleast d hdm
    obtain ⟨k, it, e⟩ := hd d hdm
    obtain ⟨⟨b, eb, -⟩, esz⟩ := (drawOne_fields e).2.2.2.2.1 hb
    obtain ⟨hmn, hrange⟩ := hlim (by rw [hb]; simp)
    rw [← maxBias_iff] at hM
    have hamin : amin (((items.map Item.p).tail.filter (fun p => !excluded o p)).filterMap (fun p => p.bias.map abs)) = some l := by
      rw [amin_iff, ← List.map_tail]
      simp only [mem_biases]
      exact hleast
    unfold minBias at hmn
    rw [hamin, hM] at hmn
    split at hmn
    · cases hmn
    · simp only [Except.ok.injEq] at hmn
      subst hmn
      rw [hM] at hrange
      subst hrange
      refine ⟨b, eb, ?_⟩
      rw [esz, eb, hw]
      simp only [biasSize, msub, sub_eq_zero]

/-! ### The hypotheses are met -/

example : ∃ (o : Opts) (items : List Item) (r : Option ℝ) (ds : List Drawn), draw o items = .ok (r, ds) ∧ Spec.Width o 6 ∧
    o.bias = some .size ∧ Spec.Largest o items 2 ∧ IsLeast (Spec.biases o items.tail) 1 := by
  obtain ⟨ds, hd⟩ := c126_draws ⟨0, false, none, none, some .size, none, none, false⟩
    [mkItem "a" 1 1 0, mkItem "b" (1/2) 3 2, mkItem "c" (1/2) 3 (-1)] (by simp) (by
      intro _; refine ⟨?_, Or.inl rfl⟩
      intro it hi; simp [mkItem] at hi; rcases hi with rfl | rfl | rfl <;> rfl)
  refine ⟨_, _, _, ds, hd, Or.inr ⟨Or.inl rfl, rfl⟩, rfl, Or.inr ⟨Or.inl rfl, ?_⟩, ?_⟩
  · constructor
    · exact ⟨mkItem "b" (1/2) 3 2, by simp, ⟨⟨3, rfl, by simp⟩, fun _ => ⟨2, rfl, by simp⟩⟩, 2, rfl, by norm_num⟩
    · rintro x ⟨it, hi, -, b, hb, rfl⟩
      simp only [List.mem_cons, List.not_mem_nil, or_false] at hi
      rcases hi with rfl | rfl | rfl <;> · simp only [mkItem, Option.some.injEq] at hb; subst hb; norm_num
  · constructor
    · exact ⟨mkItem "c" (1/2) 3 (-1), by simp, ⟨⟨3, rfl, by simp⟩, fun _ => ⟨-1, rfl, by simp⟩⟩, -1, rfl, by norm_num⟩
    · rintro x ⟨it, hi, -, b, hb, rfl⟩
      simp only [List.tail_cons, List.mem_cons, List.not_mem_nil, or_false] at hi
      rcases hi with rfl | rfl <;> · simp only [mkItem, Option.some.injEq] at hb; subst hb; norm_num

end Cis.Plot.TaylorDraw
