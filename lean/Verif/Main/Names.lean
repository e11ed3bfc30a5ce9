import Verif.Main.SubsetCommand
set_option linter.unusedSectionVars false
set_option linter.unusedSimpArgs false
/-! Property C66: which coordinate a name on the command line stands for. -/
namespace Cis.SubsetCmd
open Cis.Coords
variable {V : Type}

/-- The letters for the usual coordinates. -/
def Spec.letters : List (String × String) :=
  [("x", "longitude"), ("X", "longitude"), ("y", "latitude"), ("Y", "latitude"), ("z", "altitude"), ("Z", "altitude"), ("t", "time"), ("T", "time"),
   ("p", "air_pressure"), ("P", "air_pressure")]

/-- The coordinate that a name stands for: the only one with this standard name; or, for a letter that is the standard, long or variable name of
none, the only one with the standard name that belongs to the letter; or, if it is not the standard or long name of any and has several characters,
the only one of several coordinates with this variable name. -/
inductive Spec.StandsFor (l : List (Coord V)) (n : String) (c : Coord V) : Prop
  | standard : n ≠ "" → c ∈ l → c.stdName = some n → l.countP (fun d => d.stdName = some n) = 1 → Spec.StandsFor l n c
  | letter (s : String) : (n, s) ∈ Spec.letters → c ∈ l → c.stdName = some s → l.countP (fun d => d.stdName = some s) = 1 →
      (∀ d ∈ l, d.stdName ≠ some n ∧ d.longName ≠ some n ∧ d.varName ≠ some n) → Spec.StandsFor l n c
  | variableName : n ≠ "unknown" → n.length ≠ 1 → 2 ≤ l.length → c ∈ l → c.varName = some n → l.countP (fun d => d.varName = some n) = 1 →
      (∀ d ∈ l, d.stdName ≠ some n ∧ d.longName ≠ some n) → Spec.StandsFor l n c

theorem letters_axes (n s : String) (h : (n, s) ∈ Spec.letters) : standardAxes n.toUpper = some s := by
  unfold Spec.letters at h
  simp only [List.mem_cons, Prod.mk.injEq, List.not_mem_nil, or_false] at h
  rcases h with ⟨rfl, rfl⟩ | ⟨rfl, rfl⟩ | ⟨rfl, rfl⟩ | ⟨rfl, rfl⟩ | ⟨rfl, rfl⟩ | ⟨rfl, rfl⟩ | ⟨rfl, rfl⟩ | ⟨rfl, rfl⟩ | ⟨rfl, rfl⟩ | ⟨rfl, rfl⟩ <;>
    with_unfolding_all rfl

theorem axes_long (n : String) (h : n.length ≠ 1) : standardAxes n.toUpper = none := by
  have hl : n.toUpper.length = n.length := by simp [String.toUpper]
  unfold standardAxes
  split <;> rename_i e <;> first | rfl | (exfalso; apply h; rw [← hl, e]; rfl)

theorem filter_one {l : List (Coord V)} {p : Coord V → Bool} {c : Coord V} (hc : c ∈ l) (hp : p c = true)
    (h1 : l.countP p = 1) : l.filter p = [c] := by
  rw [List.countP_eq_length_filter] at h1
  obtain ⟨x, hx⟩ := List.length_eq_one_iff.1 h1
  have : c ∈ l.filter p := List.mem_filter.2 ⟨hc, hp⟩
  rw [hx] at this ⊢
  simp at this
  rw [this]

theorem try_some {l : List (Coord V)} {c : Criteria V} {x : Coord V} (h : getCoords l c = [x]) : tryCoord l c = some x := by
  rw [tryCoord, (c45_get_coord_exact l c x).2 (Or.inl h)]

theorem name_cases {d : Coord V} {n : String} (h : Coords.name d = some n) :
    d.stdName = some n ∨ d.longName = some n ∨ d.varName = some n ∨ n = "unknown" := by
  unfold Coords.name Coords.orElse at h
  split at h
  · exact Or.inl h
  · split at h
    · exact Or.inr (Or.inl h)
    · split at h
      · exact Or.inr (Or.inr (Or.inl h))
      · simp at h; exact Or.inr (Or.inr (Or.inr h.symm))

/-- The search by name finds nothing, or only what the fallback finds. -/
theorem byName_some {l : List (Coord V)} {n : String} {c y : Coord V} (h : tryCoord l { sel := .byName n } = some y)
    (hs : l.filter (fun d => d.stdName == some n) = [c]) (hn : n ≠ "") : y = c := by
  have h2 : getCoord l { sel := .byName n } = .ok y := by
    unfold tryCoord at h
    cases hg : getCoord l ({ sel := .byName n } : Criteria V) with
    | ok z => rw [hg] at h; cases h; rfl
    | error e => rw [hg] at h; cases h
  have hc : c ∈ l ∧ c.stdName = some n := by
    have : c ∈ l.filter (fun d => d.stdName == some n) := by rw [hs]; simp
    simpa [List.mem_filter] using this
  rw [c45_get_coord_exact] at h2
  rcases h2 with h2 | ⟨-, h2 | ⟨m, hm, h2⟩⟩
  · have : c ∈ getCoords l ({ sel := .byName n } : Criteria V) := by
      simp only [getCoords, filterBy, Sel.name?, Sel.coord?, List.mem_filter, Option.map_none]
      refine ⟨hc.1, ?_⟩
      simp [Coords.name, Coords.orElse, truthy, hc.2, hn]
    rw [h2] at this
    exact (List.mem_singleton.1 this).symm
  · simp at h2
  · simp at hm
    subst hm
    rw [hs] at h2
    simpa using h2.symm

theorem or_eq {α : Type} {a b : Option α} {x : α} (ha : ∀ y, a = some y → y = x) (hb : b = some x) : (a <|> b) = some x := by
  cases h : a with
  | none => simpa using hb
  | some y => rw [ha y h]; rfl

theorem try_empty {l : List (Coord V)} {c : Criteria V} {y : Coord V} (he : getCoords l c = []) (hs : c.sel = .none)
    (h : tryCoord l c = some y) : l = [y] := by
  have h2 : getCoord l c = .ok y := by
    unfold tryCoord at h
    cases hg : getCoord l c with
    | ok z => rw [hg] at h; cases h; rfl
    | error e => rw [hg] at h; cases h
  rw [c45_get_coord_exact, he] at h2
  rcases h2 with h2 | ⟨-, h2 | ⟨m, hm, -⟩⟩
  · simp at h2
  · exact h2.2
  · rw [hs] at hm; cases hm

theorem byName_none {l : List (Coord V)} {n : String} (h1 : getCoords l ({ sel := .byName n } : Criteria V) = [])
    (h2 : l.filter (fun d => d.stdName == some n) = []) : tryCoord l { sel := .byName n } = none := by
  cases h : tryCoord l ({ sel := .byName n } : Criteria V) with
  | none => rfl
  | some y =>
    exfalso
    have h3 : getCoord l { sel := .byName n } = .ok y := by
      unfold tryCoord at h
      cases hg : getCoord l ({ sel := .byName n } : Criteria V) with
      | ok z => rw [hg] at h; cases h; rfl
      | error e => rw [hg] at h; cases h
    rw [c45_get_coord_exact] at h3
    rcases h3 with h3 | ⟨-, h3 | ⟨m, hm, h3⟩⟩
    · rw [h1] at h3; cases h3
    · simp at h3
    · simp at hm; subst hm; rw [h2] at h3; cases h3

/-- C66. The coordinate a name stands for is the one found. -/
theorem c66_lookup_stands_for (l : List (Coord V)) (n : String) (c : Coord V) (h : Spec.StandsFor l n c) :
    lookupCoord standardAxes l n = some c := by
  unfold lookupCoord
  cases h with
  | standard hn hc hs h1 =>
    have hf : l.filter (fun d => d.stdName == some n) = [c] := filter_one hc (by simpa using hs) (by simpa [beq_eq_decide] using h1)
    apply or_eq
    · intro y hy; exact byName_some hy hf hn
    · rw [try_some (x := c) (by rw [getCoords_std]; exact hf)]; rfl
  | letter s h0 hc hs h1 hno =>
    have hf : l.filter (fun d => d.stdName == some s) = [c] := filter_one hc (by simpa using hs) (by simpa [beq_eq_decide] using h1)
    have e1 : l.filter (fun d => d.stdName == some n) = [] := by
      rw [List.filter_eq_nil_iff]; intro d hd; simpa using (hno d hd).1
    have hunk : n ≠ "unknown" := by
      rintro rfl
      have : ∀ p ∈ Spec.letters, p.1 ≠ "unknown" := by decide
      exact this _ h0 rfl
    have e2 : getCoords l ({ sel := .byName n } : Criteria V) = [] := by
      simp only [getCoords, filterBy, Sel.name?, Sel.coord?, Option.map_none, List.filter_eq_nil_iff]
      intro d hd hname
      rcases name_cases (by simpa using hname) with h | h | h | h
      · exact (hno d hd).1 h
      · exact (hno d hd).2.1 h
      · exact (hno d hd).2.2 h
      · exact hunk h
    rw [byName_none e2 e1]
    simp only [Option.orElse_eq_orElse, Option.orElse_none, Option.none_or, ← Option.or_eq_orElse]
    rw [letters_axes n s h0, try_some (x := c) (c := { stdName := some s }) (by rw [getCoords_std]; exact hf)]
    have key : ∀ y, tryCoord l { stdName := some n } = some y → y = c := by
      intro y hy
      have := try_empty (by rw [getCoords_std]; exact e1) rfl hy
      rw [this] at hc
      exact (List.mem_singleton.1 hc).symm
    cases h : tryCoord l ({ stdName := some n } : Criteria V) with
    | none => rfl
    | some y => rw [key y h]; rfl
  | variableName hunk hlen h2 hc hv h1 hno =>
    have hf : l.filter (fun d => d.varName == some n) = [c] := filter_one hc (by simpa using hv) (by simpa [beq_eq_decide] using h1)
    have e1 : l.filter (fun d => d.stdName == some n) = [] := by
      rw [List.filter_eq_nil_iff]; intro d hd; simpa using (hno d hd).1
    have hne1 : ∀ y, l ≠ [y] := by rintro y rfl; simp at h2
    have t2 : tryCoord l ({ stdName := some n } : Criteria V) = none := by
      cases h : tryCoord l ({ stdName := some n } : Criteria V) with
      | none => rfl
      | some y => exact absurd (try_empty (by rw [getCoords_std]; exact e1) rfl h) (hne1 y)
    have t3 : tryCoord l ({ stdName := standardAxes n.toUpper } : Criteria V) = none := by
      rw [axes_long n hlen]
      cases h : tryCoord l ({ stdName := none } : Criteria V) with
      | none => rfl
      | some y =>
        exfalso
        have h3 : getCoord l ({} : Criteria V) = .ok y := by
          unfold tryCoord at h
          cases hg : getCoord l ({ stdName := none } : Criteria V) with
          | ok z => rw [hg] at h; cases h; rfl
          | error e => rw [hg] at h; cases h
        rw [c45_get_coord_exact, getCoords_none] at h3
        rcases h3 with h3 | ⟨h3, -⟩
        · exact hne1 y h3
        · rw [h3] at h2; simp at h2
    have t4 : tryCoord l ({ varName := some n } : Criteria V) = some c := try_some (by
      simpa [getCoords, filterBy, Sel.name?, Sel.coord?] using hf)
    rw [t2, t3, t4]
    apply or_eq
    · intro y hy
      have h3 : getCoord l { sel := .byName n } = .ok y := by
        unfold tryCoord at hy
        cases hg : getCoord l ({ sel := .byName n } : Criteria V) with
        | ok z => rw [hg] at hy; cases hy; rfl
        | error e => rw [hg] at hy; cases hy
      rw [c45_get_coord_exact] at h3
      rcases h3 with h3 | ⟨-, h3 | ⟨m, hm, h3⟩⟩
      · have hy' : y ∈ getCoords l ({ sel := .byName n } : Criteria V) := by rw [h3]; simp
        simp only [getCoords, filterBy, Sel.name?, Sel.coord?, Option.map_none, List.mem_filter] at hy'
        have hyv : y ∈ l.filter (fun d => d.varName == some n) := by
          refine List.mem_filter.2 ⟨hy'.1, ?_⟩
          rcases name_cases (by simpa using hy'.2) with h | h | h | h
          · exact absurd h (hno y hy'.1).1
          · exact absurd h (hno y hy'.1).2
          · simpa using h
          · exact absurd h hunk
        rw [hf] at hyv
        simpa using hyv
      · simp at h3
      · simp at hm; subst hm; rw [e1] at h3; cases h3
    · rfl

/-- Letters, standard names and variable names on the example. -/
example : Spec.StandsFor exData.coords "t" (exTime [31, 167, 366]) ∧ Spec.StandsFor exData.coords "y" (exLat [1, 5, 7]) ∧
    Spec.StandsFor exData.coords "latitude" (exLat [1, 5, 7]) ∧ Spec.StandsFor exData.coords "lat" (exLat [1, 5, 7]) := by
  refine ⟨.letter "time" ?_ ?_ ?_ ?_ ?_, .letter "latitude" ?_ ?_ ?_ ?_ ?_, .standard ?_ ?_ ?_ ?_, .variableName ?_ ?_ ?_ ?_ ?_ ?_ ?_⟩ <;>
    first | decide +kernel | simp [exData]

end Cis.SubsetCmd
