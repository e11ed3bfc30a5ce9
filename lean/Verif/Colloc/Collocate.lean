import Verif.Colloc.Constraint
import Verif.Colloc.Kernels
import Verif.Lon.Props
set_option linter.unusedSectionVars false
set_option linter.unusedSimpArgs false
/-! Property C17: collocation onto an ungridded sample. -/
namespace Cis.Colloc
open Cis.Geo Cis.KDTree

/-! ### Longitudes -/

/-- The row with its longitude replaced. -/
def Loc.withLon (p : Loc) (f : ℝ → ℝ) : Loc := { p with lon := f p.lon }
def Row.withLon (r : Row) (f : ℝ → ℝ) : Row := { r with loc := r.loc.withLon f }
def DRow.withLon (r : DRow) (f : ℝ → ℝ) : DRow := { r with loc := r.loc.withLon f }

theorem setLongitudeRange_eq (rows : List Row) (start : ℝ) :
    ∃ f : ℝ → ℝ, (∀ x, Lon.Spec.Same (f x) x) ∧ setLongitudeRange rows start = rows.map (fun r => r.withLon f) ∧
      ∀ x, start ≤ f x ∧ f x < start + 360 := by
  refine ⟨fun lon => Lon.pmod (lon - start + 360 * 2) 360 + start, ?_, ?_, ?_⟩
  · intro x
    refine ⟨2 - ⌊(x - start + 360 * 2) / 360⌋, ?_⟩
    unfold Lon.pmod; push_cast; ring
  · unfold setLongitudeRange Lon.fixLongitudeRange Lon.wrapLons
    induction rows with
    | nil => rfl
    | cons r t ih =>
      simp only [List.map_cons, List.zipWith_cons_cons, List.cons.injEq]
      exact ⟨rfl, ih⟩
  · intro x
    have h1 := Int.floor_le ((x - start + 360 * 2) / 360)
    have h2 := Int.lt_floor_add_one ((x - start + 360 * 2) / 360)
    rw [le_div_iff₀ (by norm_num)] at h1
    rw [div_lt_iff₀ (by norm_num)] at h2
    constructor <;> (simp only [Lon.pmod]; linarith)

theorem dropna_withLon (f : ℝ → ℝ) (rows : List Row) :
    dropna (rows.map (fun r => r.withLon f)) = (dropna rows).map (fun r => r.withLon f) := by
  unfold dropna
  induction rows with
  | nil => rfl
  | cons r t ih =>
    rw [List.map_cons, List.filterMap_cons, List.filterMap_cons]
    cases h : r.val with
    | none => simp only [Row.withLon, h, Option.map_none]; exact ih
    | some v => simp only [Row.withLon, h, Option.map_some, List.map_cons]; rw [← ih]; rfl

theorem hdist_withLon {f g : ℝ → ℝ} (hf : ∀ x, Lon.Spec.Same (f x) x) (hg : ∀ x, Lon.Spec.Same (g x) x) (ref p : Loc) :
    hdist (ref.withLon f) (p.withLon g) = hdist ref p := by
  unfold hdist Loc.withLon
  obtain ⟨k, hk⟩ := hf ref.lon
  obtain ⟨l, hl⟩ := hg p.lon
  rw [← (c58_haversine_great_circle _ _ _ _).1, ← (c58_haversine_great_circle _ _ _ _).1, hk, hl]
  exact c58_haversine_longitude_convention _ _ _ _ _ _

theorem within_withLon {f g : ℝ → ℝ} (hf : ∀ x, Lon.Spec.Same (f x) x) (hg : ∀ x, Lon.Spec.Same (g x) x) (s : Seps) (ref p : Loc) :
    Spec.Within s (ref.withLon f) (p.withLon g) ↔ Spec.Within s ref p := by
  rw [within_iff, within_iff, hdist_withLon hf hg]; rfl

open Classical in
theorem selected_withLon {f g : ℝ → ℝ} (hf : ∀ x, Lon.Spec.Same (f x) x) (hg : ∀ x, Lon.Spec.Same (g x) x) (s : Seps) (ref : Loc)
    (data : List DRow) :
    Spec.selected s (ref.withLon f) (data.map (fun r => r.withLon g)) = (Spec.selected s ref data).map (fun r => r.withLon g) := by
  unfold Spec.selected
  rw [List.filter_map]
  congr 1
  apply List.filter_congr
  intro r _
  rw [Bool.eq_iff_iff, decide_eq_true_eq]
  simp only [Function.comp_apply, decide_eq_true_eq, DRow.withLon]
  exact within_withLon hf hg s ref r.loc

theorem nnLoop_map (sep sep' : Loc → ℝ) (g : ℝ → ℝ) (h : ∀ p : Loc, sep (p.withLon g) = sep' p) (d : List DRow) :
    nnLoop sep (d.map (fun r => r.withLon g)) = (nnLoop sep' d).map (fun r => r.withLon g) := by
  cases d with
  | nil => rfl
  | cons a t =>
    simp only [List.map_cons, nnLoop, Option.map_some, Option.some.injEq]
    induction t generalizing a with
    | nil => rfl
    | cons b t ih =>
      simp only [List.map_cons, List.foldl_cons]
      have : (if sep (a.withLon g).loc > sep (b.withLon g).loc then b.withLon g else a.withLon g)
          = (if sep' a.loc > sep' b.loc then b else a).withLon g := by
        have e : ∀ c : DRow, sep (c.withLon g).loc = sep' c.loc := fun c => h c.loc
        rw [e, e]; split <;> rfl
      rw [this]; exact ih _

/-- The kernel reads positions as latitude and longitude. -/
def ColsOK (k : Kernel) (cx cy : List Col) : Prop :=
  k = .nnHorizontal → (∃ t, cx = .lat :: .lon :: t) ∧ ∃ t, cy = .lat :: .lon :: t

theorem getValue_withLon {f g : ℝ → ℝ} (hf : ∀ x, Lon.Spec.Same (f x) x) (hg : ∀ x, Lon.Spec.Same (g x) x) (k : Kernel)
    (cx cy : List Col) (hc : ColsOK k cx cy) (ref : Loc) (d : List DRow) :
    getValue k cx cy (ref.withLon f) (d.map (fun r => r.withLon g)) = getValue k cx cy ref d := by
  have hv : (d.map (fun r => r.withLon g)).map DRow.val = d.map DRow.val := by rw [List.map_map]; rfl
  have hmap : ∀ o : Option DRow, (o.map (fun r => r.withLon g)).map (fun r => [some r.val]) = o.map (fun r => [some r.val]) := by
    intro o; cases o <;> rfl
  cases k <;> simp only [getValue, hv]
  case nnHorizontal =>
    obtain ⟨⟨t, rfl⟩, ⟨u, rfl⟩⟩ := hc rfl
    rw [nnLoop_map _ (fun p => (rowHaversine (.lat :: .lon :: t) (.lat :: .lon :: u) ref p).getD 0) g ?_ d, hmap]
    intro p
    have h := hdist_withLon hg hf p ref
    unfold hdist at h
    rw [← (c58_haversine_great_circle _ _ _ _).2, ← (c58_haversine_great_circle _ _ _ _).2] at h
    simpa [rowHaversine, Loc.get] using h
  case nnAltitude => rw [nnLoop_map _ (fun p => |ref.alt - p.alt|) g (fun p => rfl) d, hmap]
  case nnPressure => rw [nnLoop_map _ (fun p => nnPresSep ref p) g (fun p => rfl) d, hmap]
  case nnTime => rw [nnLoop_map _ (fun p => |ref.time - p.time|) g (fun p => rfl) d, hmap]

/-! ### The loop over the sample -/

theorem getValue_length (k : Kernel) (cx cy : List Col) (ref : Loc) (d : List DRow) (v : List (Option ℝ))
    (h : getValue k cx cy ref d = some v) : v.length = k.size := by
  have nn : ∀ sep, (nnLoop sep d).map (fun r => [some r.val]) = some v → v.length = 1 := by
    intro sep h
    cases h1 : nnLoop sep d with
    | none => rw [h1] at h; simp at h
    | some r => rw [h1] at h; simp at h; rw [← h]; rfl
  cases k <;> simp only [getValue] at h <;> first
    | exact nn _ h
    | (split at h
       · simp at h
       · simp only [Option.some.injEq] at h; rw [← h]; rfl)

/-- The column for a sample point. -/
noncomputable def colOf (k : Kernel) (o : Option (List (Option ℝ))) : List (Option ℝ) := o.getD (List.replicate k.size none)

theorem fillValues_acc (k : Kernel) (cx cy : List Col) (items : List (Nat × Loc × List DRow)) :
    ∀ (acc : Nat → List (Option ℝ)) (i : Nat), i ∉ items.map Prod.fst →
    (items.foldl (fillStep k cx cy) acc) i = acc i := by
  induction items with
  | nil => intro acc i _; rfl
  | cons a t ih =>
    intro acc i hi
    simp only [List.map_cons, List.mem_cons, not_or] at hi
    rw [List.foldl_cons, ih _ _ hi.2]
    unfold fillStep
    cases getValue k cx cy a.2.1 a.2.2 with
    | none => rfl
    | some v => simp only; rw [Function.update_of_ne hi.1]

theorem fillValues_not_mem (k : Kernel) (cx cy : List Col) (items : List (Nat × Loc × List DRow)) (i : Nat)
    (hi : i ∉ items.map Prod.fst) : fillValues k cx cy items i = List.replicate k.size none :=
  fillValues_acc k cx cy items _ i hi

theorem fillValues_mem (k : Kernel) (cx cy : List Col) (items : List (Nat × Loc × List DRow)) (hn : (items.map Prod.fst).Nodup)
    (i : Nat) (ref : Loc) (d : List DRow) (hi : (i, ref, d) ∈ items) :
    fillValues k cx cy items i = colOf k (getValue k cx cy ref d) := by
  obtain ⟨pre, post, rfl⟩ := List.append_of_mem hi
  have hpre : i ∉ pre.map Prod.fst := by
    intro h
    rw [List.map_append, List.nodup_append] at hn
    exact hn.2.2 i h i (by simp) rfl
  have hpost : i ∉ post.map Prod.fst := by
    intro h
    rw [List.map_append, List.nodup_append] at hn
    have := hn.2.1
    simp only [List.map_cons, List.nodup_cons] at this
    exact this.1 h
  unfold fillValues
  rw [List.foldl_append, List.foldl_cons, fillValues_acc k cx cy post _ i hpost]
  have h0 := fillValues_acc k cx cy pre (fun _ => List.replicate k.size none) i hpre
  rw [fillStep]
  cases getValue k cx cy ref d with
  | none => simp only [colOf, Option.getD_none]; exact h0
  | some v => simp [colOf]

theorem mapM_some {A B : Type} (l : List A) (f : A → Option B) (h : ∀ a ∈ l, ∃ b, f a = some b) :
    ∃ bs, l.mapM f = some bs ∧ List.Forall₂ (fun a b => f a = some b) l bs := by
  induction l with
  | nil => exact ⟨[], rfl, .nil⟩
  | cons a t ih =>
    obtain ⟨b, hb⟩ := h a (by simp)
    obtain ⟨bs, hbs, hf⟩ := ih (fun x hx => h x (by simp [hx]))
    exact ⟨b :: bs, by rw [List.mapM_cons, hb, hbs]; rfl, .cons hb hf⟩

/-- A search that is exact for every indexed frame and every sample. -/
def ExactSearch (search : KD 2 ℝ → List Row → ℝ → Nat → List Nat) : Prop :=
  ∀ (data : List DRow) (T : KD 2 ℝ), treeOf data = .ok T → ∀ (sample : List Row) (h : ℝ) (i : Nat) (r : Row),
    sample[i]? = some r → SearchExact data r.loc h (search T sample h i)

/-- The item computed for one sample point. -/
noncomputable def itemOf (s : Seps) (search : ℝ → Nat → List Nat) (data : List DRow) (ri : Row × Nat) :
    Option (Nat × Loc × List DRow) :=
  (kdConstrain s (fun _ h => search h ri.2) ri.1.loc data).map (fun f => (ri.2, ri.1.loc, f))

/-- The sample points that are not skipped. -/
def kept (missing hasVals : Bool) (ri : Row × Nat) : Bool := !(missing && (hasVals && ri.1.val.isNone))

theorem kdIterator_eq (s : Seps) (search : ℝ → Nat → List Nat) (missing hasVals : Bool) (data : List DRow) (sample : List Row) :
    kdIterator s search missing hasVals data sample
      = (sample.zipIdx.filter (kept missing hasVals)).mapM (itemOf s search data) := by
  unfold kdIterator kept
  congr 1
  funext ri
  unfold itemOf kdConstrain
  cases horizontal s <;> simp

theorem items_fst {s : Seps} {search : ℝ → Nat → List Nat} {data : List DRow} {l : List (Row × Nat)}
    {items : List (Nat × Loc × List DRow)} (h : List.Forall₂ (fun a b => itemOf s search data a = some b) l items) :
    items.map Prod.fst = l.map Prod.snd := by
  induction h with
  | nil => rfl
  | cons h _ ih =>
    rw [List.map_cons, List.map_cons, ih]
    congr 1
    unfold itemOf at h
    rw [Option.map_eq_some_iff] at h
    obtain ⟨_, _, rfl⟩ := h
    rfl

theorem perm_map_right {A B : Type} {f : A → B} {l : List B} {m : List A} (h : l.Perm (m.map f)) :
    ∃ m' : List A, m'.Perm m ∧ l = m'.map f := by
  have := List.eq_map_comp_perm f
  have h2 := congrFun (congrFun this l) m
  simp only [eq_iff_iff] at h2
  obtain ⟨m', e, hp⟩ := h2.2 h
  exact ⟨m', hp, e⟩

/-- The values of all output variables at sample position `i`. -/
def column (out : List (List (Option ℝ))) (i : Nat) : List (Option ℝ) := out.map (fun v => v[i]?.join)

/-- The full statement of C17 for a search function: for every sample point the values are those of the kernel on the valid
data points within the separations (in some order); all missing where that is undefined or where the sample value is missing
and this is asked for. -/
def Statement (search : KD 2 ℝ → List Row → ℝ → Nat → List Nat) (s : Seps) (k : Kernel) (missing hasVals : Bool)
    (cx cy : List Col) (sample data : List Row) : Prop :=
  ∃ out, collocateWith search s k missing hasVals cx cy sample data = .ok out ∧
    out.length = k.size ∧ (∀ v ∈ out, v.length = sample.length) ∧
    ∀ i r, sample[i]? = some r →
      if missing = true ∧ hasVals = true ∧ r.val = none then column out i = List.replicate k.size none
      else ∃ sel : List DRow, sel.Perm (Spec.selected s r.loc (dropna data)) ∧
        column out i = (getValue k cx cy r.loc sel).getD (List.replicate k.size none)

/-- The collocator in terms of the selections of its constraint: with some valid data and a constraint that gives a selection `P` for every
sample point, each column of the output is the kernel's value on that selection. -/
theorem collocate_core (search : KD 2 ℝ → List Row → ℝ → Nat → List Nat) (s : Seps) (k : Kernel) (missing hasVals : Bool)
    (cx cy : List Col) (sample data : List Row) (hne : dropna data ≠ []) (P : Nat → List DRow → Prop)
    (hitem : ∀ T,
      let s1 := setLongitudeRange sample (Lon.findLongitudeRange (sample.map (fun r => r.loc.lon)))
      let d1 := dropna (setLongitudeRange data (Lon.findLongitudeRange (s1.map (fun r => r.loc.lon))))
      treeOf d1 = .ok T → ∀ (i : Nat) (r1 : Row), s1[i]? = some r1 → kept missing hasVals (r1, i) = true →
        ∃ sel, kdConstrain s (fun _ h => search T s1 h i) r1.loc d1 = some sel ∧ P i sel) :
    ∃ out, collocateWith search s k missing hasVals cx cy sample data = .ok out ∧
      out.length = k.size ∧ (∀ v ∈ out, v.length = sample.length) ∧
      ∀ (i : Nat) (r1 : Row), (setLongitudeRange sample (Lon.findLongitudeRange (sample.map (fun r => r.loc.lon))))[i]? = some r1 →
        if missing = true ∧ hasVals = true ∧ r1.val = none then column out i = List.replicate k.size none
        else ∃ sel : List DRow, P i sel ∧ column out i = (getValue k cx cy r1.loc sel).getD (List.replicate k.size none) := by
  unfold collocateWith
  simp only at hitem ⊢
  obtain ⟨f, hf, ef, -⟩ := setLongitudeRange_eq sample (Lon.findLongitudeRange (sample.map (fun r => r.loc.lon)))
  rw [ef] at hitem ⊢
  obtain ⟨g, hg, eg, -⟩ := setLongitudeRange_eq data (Lon.findLongitudeRange ((sample.map (fun r : Row => r.withLon f)).map (fun r => r.loc.lon)))
  rw [eg, dropna_withLon] at hitem ⊢
  set d0 := dropna data with hd0
  set d1 := d0.map (fun r : DRow => r.withLon g) with hd1
  set s1 := sample.map (fun r : Row => r.withLon f) with hs1
  have hlen : 0 < d1.length := by rw [hd1, List.length_map]; exact List.length_pos_iff.2 hne
  obtain ⟨T, hT, -⟩ := c06_build d1.length (latLon d1) 10 (by norm_num) hlen (by norm_num)
  have hT' : treeOf d1 = .ok T := hT
  rw [hT']
  simp only
  rw [kdIterator_eq]
  have item := hitem T hT'
  obtain ⟨items, hitems, hall⟩ := mapM_some (s1.zipIdx.filter (kept missing hasVals)) (itemOf s (search T s1) d1) (by
    rintro ⟨r1, i⟩ hri
    rw [List.mem_filter] at hri
    have h := List.mem_zipIdx_iff_getElem?.1 hri.1
    simp only at h
    obtain ⟨sel, h1, -⟩ := item i r1 h hri.2
    exact ⟨_, by unfold itemOf; simp only; rw [h1]; rfl⟩)
  rw [hitems]
  have hfst : items.map Prod.fst = (s1.zipIdx.filter (kept missing hasVals)).map Prod.snd := by
    exact items_fst hall
  have hnodup : (items.map Prod.fst).Nodup := by
    rw [hfst]
    refine List.Nodup.sublist (List.Sublist.map _ List.filter_sublist) ?_
    rw [List.zipIdx_map_snd]; exact List.nodup_range'
  have hcol : ∀ i, i < sample.length → column ((List.range k.size).map (fun v => (List.range sample.length).map (fun i =>
        ((fillValues k cx cy items i)[v]?).join))) i = (List.range k.size).map (fun v => ((fillValues k cx cy items i)[v]?).join) := by
    intro i hi
    unfold column
    rw [List.map_map]
    apply List.map_congr_left
    intro v _
    simp [List.getElem?_map, List.getElem?_range hi]
  have hcolLen : ∀ l : List (Option ℝ), l.length = k.size → (List.range k.size).map (fun v => (l[v]?).join) = l := by
    intro l hl
    apply List.ext_getElem
    · simp [hl]
    · intro n h1 h2
      simp [List.getElem?_eq_getElem h2]
  refine ⟨_, rfl, by simp, ?_, ?_⟩
  · intro v hv
    rw [List.mem_map] at hv
    obtain ⟨_, _, rfl⟩ := hv
    simp
  · intro i r1 hr1
    have hi : i < sample.length := by
      have := (List.getElem?_eq_some_iff.1 hr1).1
      rw [hs1, List.length_map] at this; exact this
    rw [hcol i hi]
    split
    · rename_i hm
      rw [fillValues_not_mem, hcolLen _ (by simp)]
      rw [hfst, List.mem_map]
      rintro ⟨⟨r2, j⟩, hm1, rfl⟩
      rw [List.mem_filter] at hm1
      have h := List.mem_zipIdx_iff_getElem?.1 hm1.1
      simp only at h
      rw [hr1] at h
      have : r1 = r2 := by simpa using h
      subst this
      have := hm1.2
      simp [kept, hm.1, hm.2.1, hm.2.2] at this
    · rename_i hm
      have hk : kept missing hasVals (r1, i) = true := by
        unfold kept
        cases missing <;> cases hasVals <;> simp at hm ⊢
        exact Option.isSome_iff_ne_none.2 hm
      obtain ⟨sel1, h1, h2⟩ := item i _ hr1 hk
      have hmem : (i, r1.loc, sel1) ∈ items := by
        have hin : (r1, i) ∈ s1.zipIdx.filter (kept missing hasVals) :=
          List.mem_filter.2 ⟨List.mem_zipIdx_iff_getElem?.2 hr1, hk⟩
        have : ∀ {l : List (Row × Nat)} {bs}, List.Forall₂ (fun a b => itemOf s (search T s1) d1 a = some b) l bs →
            ∀ a ∈ l, ∃ b ∈ bs, itemOf s (search T s1) d1 a = some b := by
          intro l bs h
          induction h with
          | nil => simp
          | cons h _ ih =>
            intro a ha
            rcases List.mem_cons.1 ha with rfl | ha
            · exact ⟨_, by simp, h⟩
            · obtain ⟨b, hb, e⟩ := ih a ha
              exact ⟨b, by simp [hb], e⟩
        obtain ⟨b, hb, e⟩ := this hall _ hin
        unfold itemOf at e
        simp only at e
        rw [h1, Option.map_some, Option.some.injEq] at e
        rw [e]; exact hb
      refine ⟨sel1, h2, ?_⟩
      rw [fillValues_mem k cx cy items hnodup i _ _ hmem]
      rw [hcolLen]
      · rfl
      · unfold colOf
        cases hv : getValue k cx cy r1.loc sel1 with
        | none => simp
        | some v => exact getValue_length k cx cy r1.loc sel1 v hv

theorem c17_core (search : KD 2 ℝ → List Row → ℝ → Nat → List Nat) (s : Seps) (k : Kernel) (missing hasVals : Bool)
    (cx cy : List Col) (hc : ColsOK k cx cy) (sample data : List Row) (hne : dropna data ≠ [])
    (hpos : ∀ r ∈ sample, PresOK s r.loc (dropna data)) (hzero : s.h ≠ some 0)
    (hedge : ∀ h, s.h = some h → ∀ r ∈ sample, ∀ q ∈ dropna data, hdist r.loc q.loc ≠ h)
    (hsearch : ∀ h, s.h = some h → ∀ T,
      let s1 := setLongitudeRange sample (Lon.findLongitudeRange (sample.map (fun r => r.loc.lon)))
      let d1 := dropna (setLongitudeRange data (Lon.findLongitudeRange (s1.map (fun r => r.loc.lon))))
      treeOf d1 = .ok T → ∀ i r, s1[i]? = some r → SearchExact d1 r.loc h (search T s1 h i)) :
    Statement search s k missing hasVals cx cy sample data := by
  obtain ⟨f, hf, ef, -⟩ := setLongitudeRange_eq sample (Lon.findLongitudeRange (sample.map (fun r => r.loc.lon)))
  obtain ⟨g, hg, eg, -⟩ := setLongitudeRange_eq data (Lon.findLongitudeRange ((sample.map (fun r : Row => r.withLon f)).map (fun r => r.loc.lon)))
  simp only at hsearch
  rw [ef, eg, dropna_withLon] at hsearch
  have key := collocate_core search s k missing hasVals cx cy sample data hne
    (fun i sel1 => ∀ r : Row, sample[i]? = some r → sel1.Perm ((Spec.selected s r.loc (dropna data)).map (fun q => q.withLon g))) (by
      intro T
      simp only
      rw [ef, eg, dropna_withLon]
      intro hT i r1 h _
      have hsearch := hsearch
      have hget : ∃ r : Row, sample[i]? = some r ∧ r1 = r.withLon f := by
        rw [List.getElem?_map] at h
        cases hr : sample[i]? with
        | none => rw [hr] at h; simp at h
        | some r => rw [hr] at h; simp at h; exact ⟨r, rfl, h.symm⟩
      obtain ⟨r, hr, rfl⟩ := hget
      have hmem : r ∈ sample := List.mem_of_getElem? hr
      obtain ⟨sel, h1, h2⟩ := c14_indexed s (r.withLon f).loc ((dropna data).map (fun q => q.withLon g))
        (fun _ h => search T (sample.map (fun r : Row => r.withLon f)) h i) (by
          intro hp
          refine ⟨(hpos r hmem hp).1, ?_⟩
          intro q hq
          rw [List.mem_map] at hq
          obtain ⟨q0, h0, rfl⟩ := hq
          exact (hpos r hmem hp).2 q0 h0) (fun hh ehh => hsearch hh ehh T hT i _ h) hzero (by
          intro hh ehh q hq
          rw [List.mem_map] at hq
          obtain ⟨q0, h0, rfl⟩ := hq
          have := hedge hh ehh r hmem q0 h0
          rw [← hdist_withLon hf hg] at this
          exact this)
      refine ⟨sel, h1, ?_⟩
      intro r' hr'
      rw [hr] at hr'
      cases hr'
      rw [← selected_withLon hf hg]; exact h2)
  obtain ⟨out, h1, h2, h3, h4⟩ := key
  refine ⟨out, h1, h2, h3, ?_⟩
  intro i r hr
  have h5 := h4 i (r.withLon f) (by rw [ef, List.getElem?_map, hr]; rfl)
  have hv : (r.withLon f).val = r.val := rfl
  rw [hv] at h5
  split
  · rename_i hm
    rw [if_pos hm] at h5; exact h5
  · rename_i hm
    rw [if_neg hm] at h5
    obtain ⟨sel1, h6, h7⟩ := h5
    obtain ⟨sel, hp, rfl⟩ := perm_map_right (h6 r hr)
    refine ⟨sel, hp, ?_⟩
    have e : getValue k cx cy (r.withLon f).loc (sel.map (fun q => q.withLon g)) = getValue k cx cy r.loc sel :=
      getValue_withLon hf hg k cx cy hc r.loc sel
    rw [h7, e]

/-- C17 with a horizontal separation, for any exact search. What is missing: the search that the code uses is not exact
(C13: `c13_high_latitude_violated` and others); a separation of zero is ignored and the boundary is included (C14); with no
valid data the call fails (`c17_empty_data_violated`); `nn_horizontal` needs latitude and longitude to be the first columns
(C16). -/
theorem c17_values_partial (search : KD 2 ℝ → List Row → ℝ → Nat → List Nat) (hsearch : ExactSearch search) (s : Seps)
    (k : Kernel) (missing hasVals : Bool) (cx cy : List Col) (hc : ColsOK k cx cy) (sample data : List Row)
    (hne : dropna data ≠ []) (hpos : ∀ r ∈ sample, PresOK s r.loc (dropna data)) (hzero : s.h ≠ some 0)
    (hedge : ∀ h, s.h = some h → ∀ r ∈ sample, ∀ q ∈ dropna data, hdist r.loc q.loc ≠ h) :
    Statement search s k missing hasVals cx cy sample data :=
  c17_core search s k missing hasVals cx cy hc sample data hne hpos hzero hedge
    (fun h _ T hT i r hr => hsearch _ T hT _ h i r hr)

/-- C17 for the collocator as it is, without a horizontal separation and with some valid data. -/
theorem c17_no_horizontal (s : Seps) (hs : s.h = none) (k : Kernel) (missing hasVals : Bool) (cx cy : List Col)
    (hc : ColsOK k cx cy) (sample data : List Row) (hne : dropna data ≠ [])
    (hpos : ∀ r ∈ sample, PresOK s r.loc (dropna data)) : Statement treeSearch s k missing hasVals cx cy sample data :=
  c17_core treeSearch s k missing hasVals cx cy hc sample data hne hpos (by rw [hs]; simp)
    (by rw [hs]; simp) (fun h e => by rw [hs] at e; cases e)

/-- For the statistics kernels the values are those of the selected data in their original order. -/
theorem c17_statistics (search : KD 2 ℝ → List Row → ℝ → Nat → List Nat) (s : Seps) (k : Kernel) (hk : k.dataOnly)
    (missing hasVals : Bool) (cx cy : List Col) (sample data : List Row)
    (h : Statement search s k missing hasVals cx cy sample data) :
    ∃ out, collocateWith search s k missing hasVals cx cy sample data = .ok out ∧ ∀ i r, sample[i]? = some r →
      column out i = if missing = true ∧ hasVals = true ∧ r.val = none then List.replicate k.size none
        else (getValue k cx cy r.loc (Spec.selected s r.loc (dropna data))).getD (List.replicate k.size none) := by
  obtain ⟨out, h1, -, -, h4⟩ := h
  refine ⟨out, h1, fun i r hr => ?_⟩
  have := h4 i r hr
  split at this
  · rw [if_pos (by assumption)]; exact this
  · rw [if_neg (by assumption)]
    obtain ⟨sel, hp, e⟩ := this
    rw [e, c15_order_independent k hk cx cy cx cy r.loc r.loc _ _ hp]

/-- C17 is violated when no data value is valid: the collocation fails, with or without a horizontal separation, instead of
giving missing values. -/
theorem c17_empty_data_violated (search : KD 2 ℝ → List Row → ℝ → Nat → List Nat) (s : Seps) (k : Kernel)
    (missing hasVals : Bool) (cx cy : List Col) (sample data : List Row) (hall : ∀ r ∈ data, r.val = none) :
    collocateWith search s k missing hasVals cx cy sample data = .error .index := by
  unfold collocateWith
  simp only
  obtain ⟨f, -, ef, -⟩ := setLongitudeRange_eq sample (Lon.findLongitudeRange (sample.map (fun r => r.loc.lon)))
  rw [ef]
  obtain ⟨g, -, eg, -⟩ := setLongitudeRange_eq data (Lon.findLongitudeRange ((sample.map (fun r : Row => r.withLon f)).map (fun r => r.loc.lon)))
  rw [eg, dropna_withLon]
  have : dropna data = [] := by
    unfold dropna
    rw [List.filterMap_eq_nil_iff]
    intro r hr; rw [hall r hr]; rfl
  rw [this]
  simp [treeOf, mkTree]

open Classical in
/-- Exhaustive search on the indexed points. -/
noncomputable def exhaustive (T : KD 2 ℝ) (sample : List Row) (h : ℝ) (i : Nat) : List Nat :=
  match sample[i]? with
  | some r => (List.range T.n).filter (fun j => decide (Geo.Spec.greatCircle 6378 (T.data j 0) (T.data j 1) r.loc.lat r.loc.lon ≤ h))
  | none => []

/-- An exact search exists. -/
theorem exhaustive_exact : ExactSearch exhaustive := by
  intro data T hT sample h i r hr
  obtain ⟨hn, hd, -⟩ := ok_of_mkTree (by norm_num) hT
  unfold exhaustive
  rw [hr]
  simp only
  refine ⟨List.Nodup.filter _ List.nodup_range, fun j => ?_⟩
  rw [List.mem_filter, List.mem_range, hn, hd, decide_eq_true_eq]
  unfold hdist latLon
  constructor
  · rintro ⟨hj, hd⟩
    rw [List.getElem?_eq_getElem hj] at hd
    exact ⟨data[j], List.getElem?_eq_getElem hj, by simpa using hd⟩
  · rintro ⟨q, hq, hd⟩
    refine ⟨(List.getElem?_eq_some_iff.1 hq).1, ?_⟩
    rw [hq]; simpa using hd

/-- The hypotheses of the theorems are met by two sample points (one with a missing value) and data of which one is
missing, with an altitude separation. -/
example : Statement treeSearch ⟨none, some 100, none, none⟩ .mean true true [.lat, .lon] [.lat, .lon]
    [⟨⟨10, 350, 1000, 1, 0⟩, some 1⟩, ⟨⟨10, 20, 1000, 1, 0⟩, none⟩]
    [⟨⟨10, -10, 1050, 1, 0⟩, some 3⟩, ⟨⟨10, -10, 1050, 1, 0⟩, none⟩, ⟨⟨50, 120, 0, 1, 0⟩, some 7⟩] := by
  apply c17_no_horizontal
  · rfl
  · intro h; cases h
  · simp [dropna]
  · intro r _ h; exact absurd rfl h

/-- With a horizontal separation. -/
example : Statement exhaustive ⟨some 1000, none, none, none⟩ .max false false [.lat, .lon] [.lat, .lon]
    [⟨⟨10, 350, 1000, 1, 0⟩, some 1⟩] [⟨⟨10, -10, 1050, 1, 0⟩, some 3⟩, ⟨⟨10, -10, 1050, 1, 0⟩, none⟩] := by
  apply c17_values_partial _ exhaustive_exact
  · intro h; cases h
  · simp [dropna]
  · intro r _ h; exact absurd rfl h
  · simp
  · rintro h ⟨⟩ r hr q hq
    simp only [List.mem_singleton] at hr
    simp only [dropna, List.filterMap_cons, Option.map_some, Option.map_none, List.filterMap_nil, List.mem_singleton] at hq
    subst hr hq
    have e : hdist ⟨10, 350, 1000, 1, 0⟩ ⟨10, -10, 1050, 1, 0⟩ = 0 := by
      unfold hdist
      have := c58_haversine_longitude_convention 10 (-10) 10 (-10) 0 1
      rw [(c58_haversine_metric 10 (-10) 10 (-10) 0 0).1, (c58_haversine_great_circle _ _ _ _).1] at this
      norm_num at this
      exact this
    rw [e]; norm_num

end Cis.Colloc
