import Verif.Write.ColGridFile
import Verif.Write.ColSubset
set_option linter.unusedSectionVars false
set_option linter.unusedSimpArgs false

/-!
# `cis subset` of the sample and `cis col` of gridded data, one after the other

Nothing new is modelled: the subset of `Write/SubsetFile.lean` and the collocation of `Write/ColGridFile.lean`. To take a subset of the sample first is
the same as to take that subset of the result.
-/
namespace Cis.RoundTrip
open Cis.Str
open Cis.ColOpts hiding Err
open Cis.Interp (Val Axis Pts)
open Cis.Subset (select select_map select_length select_nil select_cons Limit)
open Cis.Evaluate (select_map' select_zipWith)

/-! ### Proofs -/

theorem select_zip {α β : Type} (m : List Bool) (l : List α) (k : List β) (h : l.length = k.length) :
    select m (l.zip k) = (select m l).zip (select m k) := by
  exact select_zipWith _ m l k h

theorem mapM_select {α β ε : Type} (f : α → Except ε β) : ∀ (m : List Bool) (l : List α) (r : List β), l.mapM f = .ok r →
    (select m l).mapM f = .ok (select m r)
  | [], l, r, _ => by simp [select]; rfl
  | b :: m, [], r, h => by
    simp [pure, Except.pure] at h
    subst h
    simp [select]; rfl
  | b :: m, a :: l, r, h => by
    rw [List.mapM_cons] at h
    cases ha : f a with
    | error e => rw [ha] at h; cases h
    | ok x =>
      rw [ha] at h
      cases hl : l.mapM f with
      | error e => rw [hl] at h; cases h
      | ok t =>
        rw [hl] at h
        have h : Except.ok (x :: t) = (Except.ok r : Except ε (List β)) := h
        injection h with h
        subst h
        have ih := mapM_select f m l t hl
        rw [select_cons, select_cons]
        cases b
        · simpa using ih
        · simp only [if_true]
          rw [List.mapM_cons, ha, ih]
          rfl

section
open Cis.Interp hiding Obj

/-- The interpolator with a part of its points. -/
def fewer (m : List Bool) (p : Prepared ℚ) : Prepared ℚ := { p with pts := select m p.pts }

theorem call_select (o : Interp.Opts) (m : List Bool) (p : Prepared ℚ) (vals : List Nat → Val ℚ) (r : List (Val ℚ)) (h : p.call o vals = .ok r) :
    (fewer m p).call o vals = .ok (select m r) := mapM_select _ m p.pts r h

theorem prepare_select (m : List Bool) (v : Interp.Var ℚ) (pts : Pts ℚ) (mt : Interp.Method) (p : Prepared ℚ) (h : prepare v pts mt = .ok p) :
    prepare v (select m pts) mt = .ok (fewer m p) := by
  unfold prepare at *
  split at h
  · rename_i hc
    injection h with h
    subst h
    rw [if_pos]
    · rfl
    · rw [Bool.and_eq_true] at hc ⊢
      refine ⟨?_, hc.2⟩
      rw [List.all_eq_true] at hc ⊢
      exact fun q hq => hc.1 q (select_sub q m pts hq)
  · cases h

theorem collocateVars_select (o : Interp.Opts) (m : List Bool) (pts : Pts ℚ) (mt : Interp.Method) (vs : List (Interp.Var ℚ)) :
    ∀ (s : Interp.Obj ℚ) (rs : List (List (Val ℚ))), (collocateVars o s pts mt vs).2 = .ok rs →
      (collocateVars o (s.map (fewer m)) (select m pts) mt vs).2 = .ok (rs.map (select m)) := by
  induction vs with
  | nil =>
    intro s rs h
    simp only [collocateVars] at h ⊢
    injection h with h
    subst h
    rfl
  | cons v vs ih =>
    have one : ∀ (s : Interp.Obj ℚ) r, (collocateOne o s v pts mt).2 = .ok r →
        (collocateOne o (s.map (fewer m)) v (select m pts) mt).2 = .ok (select m r) ∧
        (collocateOne o (s.map (fewer m)) v (select m pts) mt).1 = (collocateOne o s v pts mt).1.map (fewer m) := by
      intro s r h
      cases s with
      | some p => exact ⟨call_select o m p v.vals r h, rfl⟩
      | none =>
        simp only [collocateOne, Option.map_none] at h ⊢
        cases hp : prepare v pts mt with
        | error e => rw [hp] at h; cases h
        | ok p =>
          rw [hp] at h
          rw [prepare_select m v pts mt p hp]
          exact ⟨call_select o m p v.vals r h, rfl⟩
    intro s rs h
    simp only [collocateVars] at h ⊢
    rcases hc : collocateOne o s v pts mt with ⟨s1, _ | r⟩
    · rw [hc] at h; cases h
    · rw [hc] at h
      dsimp only at h
      obtain ⟨h1, h2⟩ := one s r (by rw [hc])
      rw [hc] at h2
      have e : collocateOne o (s.map (fewer m)) v (select m pts) mt = (s1.map (fewer m), .ok (select m r)) := Prod.ext h2 h1
      rw [e]
      dsimp only
      rcases hv : collocateVars o s1 pts mt vs with ⟨s2, _ | rt⟩
      · rw [hv] at h; cases h
      · rw [hv] at h
        dsimp only at h
        injection h with h
        subst h
        have := ih s1 rt (by rw [hv])
        rcases hv' : collocateVars o (s1.map (fewer m)) (select m pts) mt vs with ⟨s3, _ | r3⟩
        · rw [hv'] at this; cases this
        · rw [hv'] at this
          dsimp only at this ⊢
          injection this with this
          subst this
          rfl

theorem mapM_length {α β ε : Type} (f : α → Except ε β) : ∀ (l : List α) (r : List β), l.mapM f = .ok r → r.length = l.length
  | [], r, h => by
    simp [pure, Except.pure] at h
    subst h; rfl
  | a :: l, r, h => by
    rw [List.mapM_cons] at h
    cases ha : f a with
    | error e => rw [ha] at h; cases h
    | ok x =>
      rw [ha] at h
      cases hl : l.mapM f with
      | error e => rw [hl] at h; cases h
      | ok t =>
        rw [hl] at h
        have h : Except.ok (x :: t) = (Except.ok r : Except ε (List β)) := h
        injection h with h
        subst h
        simp [mapM_length f l t hl]

theorem collocateVars_length (o : Interp.Opts) (pts : Pts ℚ) (mt : Interp.Method) (vs : List (Interp.Var ℚ)) :
    ∀ (s : Interp.Obj ℚ) (rs : List (List (Val ℚ))), (∀ p, s = some p → p.pts.length = pts.length) → (collocateVars o s pts mt vs).2 = .ok rs →
      rs.length = vs.length ∧ ∀ r ∈ rs, r.length = pts.length := by
  induction vs with
  | nil =>
    intro s rs _ h
    simp only [collocateVars] at h
    injection h with h
    subst h
    simp
  | cons v vs ih =>
    intro s rs hs h
    have one : ∀ r, (collocateOne o s v pts mt).2 = .ok r →
        r.length = pts.length ∧ ∀ p, (collocateOne o s v pts mt).1 = some p → p.pts.length = pts.length := by
      intro r h
      cases s with
      | some p =>
        refine ⟨(mapM_length _ _ _ h).trans (hs p rfl), fun q hq => ?_⟩
        have hq : some p = some q := hq
        injection hq with hq
        subst hq
        exact hs p rfl
      | none =>
        simp only [collocateOne] at h ⊢
        cases hp : prepare v pts mt with
        | error e => rw [hp] at h; cases h
        | ok p =>
          rw [hp] at h
          have hpp : p.pts = pts := by
            unfold prepare at hp
            split at hp
            · injection hp with hp; subst hp; rfl
            · cases hp
          refine ⟨(mapM_length _ _ _ h).trans (by rw [hpp]), fun q hq => ?_⟩
          dsimp only at hq
          injection hq with hq
          subst hq
          rw [hpp]
    simp only [collocateVars] at h
    rcases hc : collocateOne o s v pts mt with ⟨s1, _ | r⟩
    · rw [hc] at h; cases h
    · rw [hc] at h
      dsimp only at h
      obtain ⟨h1, h2⟩ := one r (by rw [hc])
      rw [hc] at h2
      rcases hv : collocateVars o s1 pts mt vs with ⟨s2, _ | rt⟩
      · rw [hv] at h; cases h
      · rw [hv] at h
        dsimp only at h
        injection h with h
        subst h
        obtain ⟨g1, g2⟩ := ih s1 rt h2 (by rw [hv])
        refine ⟨by simp [g1], ?_⟩
        intro x hx
        rcases List.mem_cons.1 hx with rfl | hx
        · exact h1
        · exact g2 x hx
end

/-- The sample without some of its points. -/
def fewerPoints (m : List Bool) (s : InterpCmd.Sample ℚ) : InterpCmd.Sample ℚ :=
  ⟨select m s.points, match s.values with | .mask b => .mask (select m b) | v => v⟩

theorem missingMask_select (m : List Bool) (missing : Bool) (s : InterpCmd.Sample ℚ) (hm : m.length = s.points.length) (hn : s.values ≠ .nomask) (b : List Bool)
    (h : InterpCmd.missingMask missing s = .ok b) :
    b.length = s.points.length ∧ InterpCmd.missingMask missing (fewerPoints m s) = .ok (select m b) := by
  have hno : ∀ b, (.ok (s.points.map (fun _ => false)) : Except InterpCmd.Err (List Bool)) = .ok b →
      b.length = s.points.length ∧ (.ok ((select m s.points).map (fun _ => false)) : Except InterpCmd.Err (List Bool)) = .ok (select m b) := by
    intro b h
    injection h with h
    subst h
    exact ⟨by simp, by rw [select_map']⟩
  unfold InterpCmd.missingMask fewerPoints at *
  cases missing with
  | false => simp only [Bool.false_eq_true, if_false] at h ⊢; exact hno b h
  | true =>
    simp only [if_true] at h ⊢
    cases hv : s.values with
    | coordinates => rw [hv] at h; cases h
    | plain => rw [hv] at h; simp only at h ⊢; exact hno b h
    | nomask => exact absurd hv hn
    | mask c =>
      rw [hv] at h
      simp only at h ⊢
      split at h
      · rename_i hl
        injection h with h
        subst h
        refine ⟨hl, ?_⟩
        rw [if_pos (by rw [select_length m _ (by rw [hl, hm]), select_length m _ hm.symm])]
      · cases h

theorem run_select (num : Str → Option ℚ) (kernels : List Str) (flag : Option Nat) (col kern : Option (Str × Opts)) (m : List Bool)
    (s : InterpCmd.Sample ℚ) (hm : m.length = s.points.length) (hn : s.values ≠ .nomask) (vars : List (InterpCmd.Var ℚ)) (r)
    (h : InterpCmd.run num kernels flag col kern s vars = .ok r) :
    InterpCmd.run num kernels flag col kern (fewerPoints m s) vars = .ok (r.map (fun o => (o.1, select m o.2))) ∧
      (∀ o ∈ r, o.2.length = s.points.length) ∧ (vars ≠ [] → r ≠ []) := by
  have hval : decide ((fewerPoints m s).values ≠ .coordinates) = decide (s.values ≠ .coordinates) := by
    unfold fewerPoints
    cases s.values <;> rfl
  unfold InterpCmd.run at *
  rw [hval]
  cases hp : colCommand num kernels (decide (s.values ≠ .coordinates)) false true col kern with
  | error e => rw [hp] at h; cases h
  | ok p =>
    rw [hp] at h
    dsimp only at h ⊢
    cases hw : p.work with
    | interpPoints nearest ex =>
      rw [hw] at h
      dsimp only at h ⊢
      cases vars with
      | nil =>
        simp only [InterpCmd.collocate] at h ⊢
        injection h with h
        subst h
        exact ⟨rfl, by simp, by simp⟩
      | cons v t =>
        simp only [InterpCmd.collocate] at h ⊢
        cases hb : InterpCmd.missingMask p.missing s with
        | error e => rw [hb] at h; cases h
        | ok b =>
          rw [hb] at h
          obtain ⟨hbl, hb'⟩ := missingMask_select m p.missing s hm hn b hb
          rw [hb']
          dsimp only at h ⊢
          generalize hvs : (v :: t).map (fun v => (⟨v.axes, v.vals⟩ : Interp.Var ℚ)) = vs at h ⊢
          have hvl : vs.length = (v :: t).length := by rw [← hvs, List.length_map]
          cases hc : (Interp.collocateVars ⟨flag, ex, p.missing⟩ none (s.points.zip b) (if nearest then .nn else .lin) vs).2 with
          | error e => rw [hc] at h; cases h
          | ok rs =>
            rw [hc] at h
            dsimp only at h
            injection h with h
            subst h
            have h1 := collocateVars_select _ m _ _ vs none rs hc
            obtain ⟨h2, h3⟩ := collocateVars_length _ _ _ vs none rs (by simp) hc
            rw [select_zip m _ _ hbl.symm] at h1
            have hz : ((fewerPoints m s).points.zip (select m b)) = (select m s.points).zip (select m b) := rfl
            rw [hz]
            simp only [Option.map_none] at h1
            rw [h1]
            refine ⟨?_, ?_, ?_⟩
            · dsimp only
              rw [List.zip_map_right]
              congr 2
            · intro o ho
              rw [h3 _ (List.of_mem_zip ho).2, List.length_zip, hbl, Nat.min_self]
            · intro _ h0
              have := congrArg List.length h0
              rw [List.length_zip, List.length_map, h2, hvl] at this
              simp at this
    | boxPoints _ _ => rw [hw] at h; cases h
    | binGrid _ => rw [hw] at h; cases h
    | boxGrid _ _ => rw [hw] at h; cases h
    | interpGrid _ _ => rw [hw] at h; cases h

theorem gridPoints_part (dims : List String) (m : List Bool) (coords : List Obj) (n : Nat) (hm : m.length = n) (hl : ∀ c ∈ coords, c.values.length = n) :
    gridPoints dims (part m coords) (m.count true) = select m (gridPoints dims coords n) := by
  unfold gridPoints
  rw [select_map']
  have hc : m.count true = (select m (List.range n)).length := (select_length m _ (by simp [hm])).symm
  rw [hc]
  refine map_range_get _ _ _ fun j p hp => List.map_congr_left fun s _ => ?_
  rw [find_part]
  cases hf : coords.find? (fun c => c.info.std == s) with
  | none => rfl
  | some c =>
    simp only [Option.map_some, Option.bind_some, Obj.withValues]
    rw [select_get, hl c (List.mem_of_find?_eq_some hf), hp]
    rfl

/-- **C219.** `cis subset` of a sample of points before `cis col` of gridded data onto it is the same as `cis subset` of the result: whenever the
command succeeds for the whole sample (its longitudes in one range, and of a range with negative longitudes some left by the limits), it succeeds for the
part, and gives the part of the results that is within the same limits, with all their metadata. -/
theorem c219_subset_sample (valid : String → Bool) (store : ℚ → ℚ) (history : String) (num : Str → Option ℚ) (kernels : List Str) (flag : Option Nat)
    (col kern : Option (Str × Opts)) (dims : List String) (sample : List Obj) (sv : Obj) (part' : List Obj × List Obj) (useVar : Bool)
    (vars : List (InterpCmd.Var ℚ)) (n : Nat) (y : List Obj × List Obj) (hvars : vars ≠ [])
    (start : Option ℚ) (hstart : Spec.Start sample start) (hsc : Spec.InOneRange start sample sample)
    (hn : sample ≠ [] ∧ (∀ c ∈ sample, c.values.length = n ∧ none ∉ c.values) ∧ sv.values.length = n)
    (lon lat : Nat) (limits : List Limit) (hlim : ∀ t ∈ limits, t.coord < sample.length)
    (hconv : ∀ t ∈ limits, t.coord = lon → Cis.Subset.newRange ((sample.map (fun c => c.values.filterMap id)).getD lon []) t.start t.stop = none)
    (hsub : subsetObjs lon lat limits sample [sv] = some part')
    (hneg : (∃ x, some x ∈ Spec.coordinate sample "longitude" ∧ x < 0) → ∃ x, some x ∈ Spec.coordinate part'.1 "longitude" ∧ x < 0)
    (hy : gridStep valid store history num kernels flag col kern dims (sample, if useVar then some sv.values else none) vars = some y) :
    ∃ sv' y', part'.2 = [sv'] ∧
      gridStep valid store history num kernels flag col kern dims (part'.1, if useVar then some sv'.values else none) vars = some y' ∧
      subsetObjs lon lat limits y.1 y.2 = some y' := by
  obtain ⟨hs0, hnc, hnv⟩ := hn
  obtain ⟨m, hm, hmask, hres⟩ := subsetObjs_eq lon lat limits sample [sv] (by simp) n (fun c hc => (hnc c hc).2) (fun c hc => (hnc c hc).1)
    (by simpa using hnv) hlim hconv
  rw [hres] at hsub
  have hcnt : m.count true ≠ 0 := fun h => by rw [if_pos h] at hsub; cases hsub
  rw [if_neg hcnt] at hsub
  have hp' : part' = (part m sample, [sv.withValues (select m sv.values)]) := by injection hsub with h; exact h.symm
  subst hp'
  dsimp only at hneg ⊢
  have e1 := start_eq hstart
  have e3 := inOneRange_eq hsc
  have e1' : rangeOf (part m sample) = start := by rw [rangeOf_part m sample hneg, e1]
  have e3' : setRange start (part m sample) = part m sample := by rw [setRange_part m _ _ (fun c hc => (hnc c hc).2), ← e3]
  have hhead : ((sample.head?.map (fun c => c.values.length)).getD 0) = n := by
    cases h0 : sample with
    | nil => exact absurd h0 hs0
    | cons c t => simpa using (hnc c (by rw [h0]; simp)).1
  have hhead' : (((part m sample).head?.map (fun c => c.values.length)).getD 0) = m.count true := by
    unfold part
    cases h0 : sample with
    | nil => exact absurd h0 hs0
    | cons c t => simpa [Obj.withValues] using select_length m c.values (by rw [(hnc c (by rw [h0]; simp)).1, hm])
  set s : InterpCmd.Sample ℚ := ⟨gridPoints dims sample n, sampleValues (if useVar then some sv.values else none)⟩ with hs
  have hsl : m.length = s.points.length := by rw [hs, gridPoints]; simp [hm]
  have hs' : (⟨gridPoints dims (part m sample) (m.count true),
      sampleValues (if useVar then some (sv.withValues (select m sv.values)).values else none)⟩ : InterpCmd.Sample ℚ) = fewerPoints m s := by
    unfold fewerPoints
    rw [gridPoints_part dims m sample n hm (fun c hc => (hnc c hc).1), hs]
    cases useVar
    · rfl
    · simp only [if_true, sampleValues, Obj.withValues, select_map']
  unfold gridStep at hy
  simp only [] at hy
  split at hy
  · cases hy
  rename_i hc2
  split at hy
  · cases hy
  rename_i hc3
  rw [hhead, e1, ← e3, ← hs] at hy
  cases hr : InterpCmd.run num kernels flag col kern s vars with
  | error e => rw [hr] at hy; cases hy
  | ok r =>
    rw [hr] at hy
    injection hy with hy
    subst hy
    obtain ⟨r1, r2, r3⟩ := run_select num kernels flag col kern m s hsl (by rw [hs]; cases useVar <;> simp [sampleValues]) vars r hr
    have hc2' : ¬ ((part m sample).any (fun c => c.info.std == "longitude" && c.values.isEmpty) = true) := by
      rw [List.any_eq_true]
      rintro ⟨c, hc, h⟩
      obtain ⟨c0, hc0, rfl⟩ := List.mem_map.1 hc
      have h0 := select_length m c0.values (by rw [(hnc c0 hc0).1, hm])
      simp only [Bool.and_eq_true, List.isEmpty_iff, Obj.withValues] at h
      rw [h.2] at h0
      simp at h0
      omega
    have hc3' : ¬ (dims.all (fun s => (part m sample).any (fun c => c.info.std == s)) = false) := by
      have : (fun s : String => (part m sample).any (fun c => c.info.std == s)) = fun s => sample.any (fun c => c.info.std == s) := by
        funext s
        unfold part
        rw [List.any_map]
        rfl
      rw [this]
      exact hc3
    refine ⟨_, (part m sample, (r.map (fun o => (o.1, select m o.2))).map (fun o => outObj valid store history (o.1, o.2.map numOf))), rfl, ?_, ?_⟩
    · unfold gridStep
      simp only []
      rw [if_neg hc2', if_neg hc3', hhead', e1', e3', hs', r1]
    · dsimp only
      obtain ⟨m2, hm2, hmask2, hres2⟩ := subsetObjs_eq lon lat limits sample (r.map (fun o => outObj valid store history (o.1, o.2.map numOf)))
        (by simpa using r3 hvars) n (fun c hc => (hnc c hc).2) (fun c hc => (hnc c hc).1)
        (by
          intro o ho
          obtain ⟨x, hx, rfl⟩ := List.mem_map.1 ho
          simp [outObj, r2 x hx, ← hsl, hm]) hlim hconv
      have hmm : m2 = m := by
        obtain ⟨x, t, hr0⟩ := List.exists_cons_of_ne_nil (r3 hvars)
        rw [hmask sv (by simp), hmask2 (outObj valid store history (x.1, x.2.map numOf)) (by rw [hr0]; simp)]
        exact within_rows _ _ _ _ (by simp [outObj, r2 x (by rw [hr0]; simp), ← hsl, hm, hnv])
      subst hmm
      rw [hres2, if_neg hcnt]
      simp only [Option.some.injEq, Prod.mk.injEq, List.map_map]
      refine ⟨rfl, ?_⟩
      refine List.map_congr_left fun x _ => ?_
      simp only [Function.comp, outObj, Obj.withValues, select_map']

/-! ### The hypotheses can be met: the second of two points is outside the limits -/

example : ∃ part' sv' y y', subsetObjs 0 9 exLimits exSampleMoved [plainObj "s" "" [some 4, some 8]] = some part' ∧ part'.2 = [sv'] ∧
    sv'.values = [some 4] ∧
    gridStep (fun _ => true) id "h" exNum [] none (some (Method.methodArgs (Method.Spec.method "nn".toList exGridOpts))) (some ([], []))
      ["longitude", "time"] (exSampleMoved, some [some 4, some 8]) [exGridVar] = some y ∧
    gridStep (fun _ => true) id "h" exNum [] none (some (Method.methodArgs (Method.Spec.method "nn".toList exGridOpts))) (some ([], []))
      ["longitude", "time"] (part'.1, some sv'.values) [exGridVar] = some y' ∧ subsetObjs 0 9 exLimits y.1 y.2 = some y' := by
  have hsub : subsetObjs 0 9 exLimits exSampleMoved [plainObj "s" "" [some 4, some 8]] =
      some ([plainObj "lon" "longitude" [some 160], plainObj "t" "time" [some 0]], [plainObj "s" "" [some 4]]) := by rfl
  have hok : (gridStep (fun _ => true) id "h" exNum [] none (some (Method.methodArgs (Method.Spec.method "nn".toList exGridOpts))) (some ([], []))
      ["longitude", "time"] (exSampleMoved, some [some 4, some 8]) [exGridVar]).isSome = true := by decide +kernel
  obtain ⟨y, hy⟩ := Option.isSome_iff_exists.1 hok
  obtain ⟨sv', y', h1, h2, h3⟩ := c219_subset_sample (fun _ => true) id "h" exNum [] none _ _ ["longitude", "time"] exSampleMoved
    (plainObj "s" "" [some 4, some 8]) _ true [exGridVar] 2 y (by simp) (some 0) ex_dstart ex_same
    ⟨by simp [exSampleMoved], by decide +kernel, rfl⟩ 0 9 exLimits (by decide) (by decide +kernel) hsub
    (by
      rintro ⟨x, hx, h0⟩
      simp [Spec.coordinate, exSampleMoved, plainObj] at hx
      rcases hx with rfl | rfl <;> norm_num at h0) hy
  refine ⟨_, sv', y, y', hsub, h1, ?_, hy, h2, h3⟩
  have : sv' = plainObj "s" "" [some 4] := by simpa using h1.symm
  rw [this]; rfl

end Cis.RoundTrip
