import Verif.Interp.Cached
import Verif.Colloc.Options
set_option linter.unusedSectionVars false
set_option linter.unusedSimpArgs false

/-!
# `cis col` of gridded data onto points: from the text of the options to the values

The plan that the options make (C178) carried out by the interpolator (C18 to C20, C72) for a list of variables on one grid, with the mask of the sample
as numpy has it. Longitudes of sample and grid are in one range already (`_fix_longitude_range`, C21, C113, has nothing to do), no vertical coordinate is
hybrid, and the coordinates of the sample are those of the dimensions of the grid, in their order.
-/
namespace Cis.InterpCmd
open Cis.Str
open Cis.ColOpts hiding Err
open Cis.Interp hiding Opts Err Var

variable {K : Type} [Field K] [LinearOrder K] [IsStrictOrderedRing K]

/-! ### Model -/

/-- What a sample has besides coordinates: nothing (`UngriddedCoordinates`, made if no sample variable is given, cis_main.py:79-87), a plain array, a
masked array whose mask is `numpy.ma.nomask` (what `numpy.ma.concatenate` makes of arrays without masks, ungridded_data.py:278-281), or a masked array
with a mask for each point. -/
inductive Values
  | coordinates | plain | nomask | mask (b : List Bool)
deriving DecidableEq

structure Sample (K : Type) where
  points : List (List K)
  values : Values

/-- A variable to be collocated: its metadata, axes and values. -/
structure Var (K : Type) where
  names : Names
  axes : List (Axis K)
  vals : List Nat → Val K

inductive Err
  | options (e : ColOpts.Err)
  | attr    -- AttributeError: `UngriddedCoordinates` have no data
  | index   -- IndexError: boolean index of another length
  | work (e : Interp.Err)
  | notModelled
deriving DecidableEq

/-- `sample.data.mask.flatten()` and the points without the masked ones (gridded_interpolation.py:125-128): for each point whether it is left out. The
mask `nomask` is a scalar, and flat an array of one element, which indexes arrays of one element only. -/
def missingMask (missing : Bool) (s : Sample K) : Except Err (List Bool) :=
  let nothing := s.points.map (fun _ => false)
  if missing then
    match s.values with
    | .coordinates => .error .attr
    | .plain => .ok nothing
    | .nomask => if s.points.length = 1 then .ok nothing else .error .index
    | .mask b => if b.length = s.points.length then .ok b else .error .index
  else .ok nothing

/-- `GriddedUngriddedCollocator.collocate` for a list of variables (col_implementations.py:127-182), with the names of the results (175-177). The mask is
looked at when the interpolator is made, that is for the first variable (col_implementations.py:167-169). `flag` is the dimension that the numpy in use
takes `True` for (C18). -/
def collocate (flag : Option Nat) (p : Plan) (nearest extrapolate : Bool) (s : Sample K) (vars : List (Var K)) :
    Except Err (List (Out × List (Val K))) :=
  match vars with
  | [] => .ok []
  | _ :: _ =>
    match missingMask p.missing s with
    | .error e => .error e
    | .ok b =>
      match (collocateVars ⟨flag, extrapolate, p.missing⟩ none (s.points.zip b) (if nearest then .nn else .lin) (vars.map (fun v => ⟨v.axes, v.vals⟩))).2 with
      | .error e => .error (.work e)
      | .ok rs => .ok ((vars.map (fun v => (⟨override p v.names, some p.fill⟩ : Out))).zip rs)

/-- `col_cmd` (cis_main.py:67-101) up to the save, for gridded data and an ungridded sample. -/
def run (num : Str → Option ℚ) (kernels : List Str) (flag : Option Nat) (col kern : Option (Str × Opts)) (s : Sample K) (vars : List (Var K)) :
    Except Err (List (Out × List (Val K))) :=
  match colCommand num kernels (decide (s.values ≠ .coordinates)) false true col kern with
  | .error e => .error (.options e)
  | .ok p =>
    match p.work with
    | .interpPoints nearest extrapolate => collocate flag p nearest extrapolate s vars
    | _ => .error .notModelled

/-! ### Specification -/

/-- What is written for a method and its options: nothing, or the method with its options in brackets. -/
def Spec.Text (how : Str) (l : Opts) (col : Option (Str × Opts)) : Prop :=
  (col = none ∧ how = [] ∧ l = []) ∨ (col = some (Method.methodArgs (Method.Spec.method how l)) ∧ Method.Spec.Plain how l)

/-- Whether missing values of the sample matter: what the option says, and otherwise whether the sample is a variable. -/
def Spec.Matter (l : Opts) (s : Sample K) (m : Bool) : Prop :=
  ((∀ v, (kMissing, v) ∉ l) → (m = true ↔ s.values ≠ .coordinates)) ∧ ((kMissing, none) ∈ l → m = true) ∧
    ∀ v, (kMissing, some v) ∈ l → (m = true ↔ v.map Char.toLower = "true".toList)

/-- The sample is missing at the point with this number. -/
def Spec.Missing (s : Sample K) (i : Nat) : Prop := ∃ b, s.values = .mask b ∧ b[i]? = some true

/-- A property of the result: what is given as an option, if it is not empty, and otherwise what the variable has. -/
def Spec.Named (l : Opts) (k : Str) (own r : Option Str) : Prop :=
  (∃ v, (k, some v) ∈ l ∧ v ≠ [] ∧ r = some v) ∨ ((∀ v, (k, some v) ∈ l → v = []) ∧ r = own)

/-- Linear interpolation: in each dimension there are two nodes next to each other with the point between them, and the value is the multilinear
combination of the values at the corners, or missing if one of these is. -/
def Spec.Linear (axes : List (Axis K)) (vals : List Nat → Val K) (x : List K) (v : Val K) : Prop :=
  ∃ cells : List ((K × Nat) × (K × Nat) × K),
    List.Forall₂ (fun (ax : Axis K × K) (c : (K × Nat) × (K × Nat) × K) =>
      c.1 ∈ Spec.nodes ax.1 ∧ c.2.1 ∈ Spec.nodes ax.1 ∧ c.1.1 ≤ ax.2 ∧ ax.2 ≤ c.2.1.1 ∧ c.1.1 < c.2.1.1 ∧
        (∀ b ∈ Spec.nodes ax.1, ¬ (c.1.1 < b.1 ∧ b.1 < c.2.1.1)) ∧ c.2.2 = (ax.2 - c.1.1) / (c.2.1.1 - c.1.1)) (axes.zip x) cells ∧
    (∀ f : List Nat → K, (∀ idx, List.Forall₂ (fun c k => k = c.1.2 ∨ k = c.2.1.2) cells idx → vals idx = .num (f idx)) →
      v = .num (Spec.multilinear (cells.map (fun c => (c.1.2, c.2.1.2, c.2.2))) f)) ∧
    ((∃ idx, List.Forall₂ (fun c k => k = c.1.2 ∨ k = c.2.1.2) cells idx ∧ vals idx = .masked) → v = .masked)

/-- Nearest neighbour interpolation: the value at the node nearest in every dimension (of two at the same distance the lower). -/
def Spec.NearestTo (axes : List (Axis K)) (vals : List Nat → Val K) (x : List K) (v : Val K) : Prop :=
  ∃ idx, List.Forall₂ (fun (ax : Axis K × K) (k : Nat) => ∃ q, Spec.Nearest (Spec.nodes ax.1) ax.2 (q, k)) (axes.zip x) idx ∧ v = vals idx

/-! ### Proofs -/

theorem lookup_mem {l : Opts} (hd : (l.map Prod.fst).Nodup) {k : Str} {v : Option Str} : (k, v) ∈ l ↔ l.lookup k = some v := by
  induction l with
  | nil => simp
  | cons a t ih =>
    rw [List.map_cons, List.nodup_cons] at hd
    obtain ⟨k', v'⟩ := a
    rw [List.lookup_cons, List.mem_cons, Prod.mk.injEq]
    by_cases h : k = k'
    · subst h
      rw [beq_self_eq_true]
      constructor
      · rintro (⟨-, rfl⟩ | h)
        · rfl
        · exact absurd (List.mem_map_of_mem (f := Prod.fst) h) hd.1
      · intro h; injection h with h; exact .inl ⟨rfl, h.symm⟩
    · rw [beq_eq_false_iff_ne.2 h]
      constructor
      · rintro (⟨e, -⟩ | h')
        · exact absurd e h
        · exact (ih hd.2).1 h'
      · intro h'; exact .inr ((ih hd.2).2 h')

theorem missing_matter {l : Opts} (hd : (l.map Prod.fst).Nodup) (s : Sample K) :
    Spec.Matter l s (missingFlag (decide (s.values ≠ .coordinates)) l) := by
  refine ⟨fun h => ?_, fun h => ?_, fun v h => ?_⟩
  · rw [missingFlag]
    cases e : l.lookup kMissing with
    | some v => exact absurd ((lookup_mem hd).2 e) (h v)
    | none => simp
  · rw [missingFlag, (lookup_mem hd).1 h]; rfl
  · rw [missingFlag, (lookup_mem hd).1 h]
    simp [checkBoolean]

theorem matter_unique {l : Opts} (hd : (l.map Prod.fst).Nodup) {s : Sample K} {m m' : Bool} (h : Spec.Matter l s m) (h' : Spec.Matter l s m') : m = m' := by
  cases e : l.lookup kMissing with
  | none =>
    have hn : ∀ v, (kMissing, v) ∉ l := fun v hv => by rw [(lookup_mem hd).1 hv] at e; cases e
    exact Bool.eq_iff_iff.2 ((h.1 hn).trans (h'.1 hn).symm)
  | some v =>
    have hm := (lookup_mem hd).2 e
    cases v with
    | none => rw [h.2.1 hm, h'.2.1 hm]
    | some v => exact Bool.eq_iff_iff.2 ((h.2.2 v hm).trans (h'.2.2 v hm).symm)

theorem handled_monotonic {flag : Option Nat} {axes : List (Axis K)} (h : Handled flag axes) : ∀ a ∈ axes, Monotonic a := by
  intro a ha
  obtain ⟨d, hd⟩ := List.mem_iff_getElem?.1 ha
  obtain ⟨h1, h2⟩ := h d a hd
  exact ⟨h1, h2.imp id (fun h => h.2.2)⟩

theorem arg_filter {l : Opts} (hd : (l.map Prod.fst).Nodup) {k : Str} (hk : k ≠ kMissing) :
    (∃ v, (k, some v) ∈ l ∧ arg (l.filter (fun kv => kv.1 ≠ kMissing)) k = some v) ∨
      ((∀ v, (k, some v) ∉ l) ∧ arg (l.filter (fun kv => kv.1 ≠ kMissing)) k = none) := by
  have hd' : ((l.filter (fun kv => kv.1 ≠ kMissing)).map Prod.fst).Nodup := hd.sublist ((List.filter_sublist).map _)
  have hm : ∀ v, (k, v) ∈ l.filter (fun kv => kv.1 ≠ kMissing) ↔ (k, v) ∈ l := by
    intro v; simp [hk]
  rw [arg]
  cases e : (l.filter (fun kv => kv.1 ≠ kMissing)).lookup k with
  | none =>
    right
    refine ⟨fun v h => ?_, rfl⟩
    rw [(lookup_mem hd').1 ((hm _).2 h)] at e
    cases e
  | some v =>
    cases v with
    | none =>
      right
      refine ⟨fun w h => ?_, rfl⟩
      rw [(lookup_mem hd').1 ((hm _).2 h)] at e
      cases e
    | some v => exact .inl ⟨v, (hm _).1 ((lookup_mem hd').2 e), rfl⟩

theorem named {l : Opts} (hd : (l.map Prod.fst).Nodup) {k : Str} (hk : k ≠ kMissing) (own : Option Str) :
    Spec.Named l k own (orElse (arg (l.filter (fun kv => kv.1 ≠ kMissing)) k) own) := by
  rcases arg_filter hd hk with ⟨v, hv, e⟩ | ⟨hn, e⟩
  · rw [e, orElse]
    by_cases h : v = []
    · subst h
      right
      refine ⟨fun w hw => ?_, by simp⟩
      have := (lookup_mem hd).1 hw
      rw [(lookup_mem hd).1 hv] at this
      injection this with this; injection this with this; exact this.symm
    · exact .inl ⟨v, hv, h, by simp [h]⟩
  · rw [e]
    exact .inr ⟨fun v hv => absurd hv (hn v), by simp [orElse]⟩

theorem linear_spec (flag : Option Nat) (axes : List (Axis K)) (h : Handled flag axes) (h2 : ∀ a ∈ axes, 2 ≤ (Spec.nodes a).length)
    (vals : List Nat → Val K) (x : List K) (hx : x.length = axes.length) (hr : AllInRange axes x) (v : Val K)
    (hv : interpolate flag .lin axes vals x false false = .ok v) : Spec.Linear axes vals x v := by
  obtain ⟨cells, h3, h4, h5⟩ := lin_main flag axes h h2 vals x hx false (.inr hr)
  refine ⟨cells, ?_, ?_, ?_⟩
  · have : List.Forall₂ (fun (ax : Axis K × K) c => ax ∈ axes.zip x ∧ Cell (Spec.nodes ax.1) ax.2 c) (axes.zip x) cells := by
      rw [List.forall₂_iff_get] at h3 ⊢
      exact ⟨h3.1, fun i hi hj => ⟨List.get_mem _ _, h3.2 i hi hj⟩⟩
    refine this.imp ?_
    rintro ax c ⟨ha, hc⟩
    obtain ⟨-, -, b1, b2, -, -⟩ := hc.inRange (hr ax ha)
    refine ⟨hc.mem0, hc.mem1, b1, b2, hc.lt, hc.gap, ?_⟩
    have hne : c.2.1.1 - c.1.1 ≠ 0 := (sub_pos.2 hc.lt).ne'
    rw [eq_div_iff hne]
    have := hc.reproduces
    linear_combination this
  · intro f hf
    have := h4 f hf
    rw [hv] at this
    injection this
  · intro hm
    have := h5 hm
    rw [hv] at this
    injection this

theorem plan {num : Str → Option ℚ} {kernels : List Str} {how : Str} {l : Opts} {col : Option (Str × Opts)} {kern : Str} (s : Sample K)
    (ht : Spec.Text how l col) (hhow : how ∈ ["".toList, "lin".toList, "nn".toList]) (hkeys : ∀ kv ∈ l, kv.1 ∉ ColOpts.Spec.given)
    (hF : ∀ v, (kFill, some v) ∈ l → ∃ x, num v = some x) (hk : kern = [] ∨ kern ∈ kernels) :
    ∃ p m fill, colCommand num kernels (decide (s.values ≠ .coordinates)) false true col (some (kern, [])) = .ok p ∧ Spec.Matter l s m ∧
      ColOpts.Spec.Says (fun v x => num v = some x) l kFill fill ∧ p.work = .interpPoints (how = "nn".toList) false ∧ p.missing = m ∧ p.fill = fill ∧
      (∀ own, Spec.Named l kName own (orElse p.name own)) ∧ (∀ own, Spec.Named l kLong own (orElse p.long own)) ∧
      (∀ own, Spec.Named l kUnits own (orElse p.units own)) := by
  have hd : (l.map Prod.fst).Nodup := by
    rcases ht with ⟨-, -, rfl⟩ | ⟨-, h⟩
    · simp
    · exact h.different
  have hcol : col.getD ([], []) = (how, l) := by
    rcases ht with ⟨rfl, rfl, rfl⟩ | ⟨rfl, h⟩
    · rfl
    · rw [Method.c85_method _ _ h]; rfl
  have harg := arg_filter hd (k := kFill) (by decide)
  have hacc : ∃ p, colCommand num kernels (decide (s.values ≠ .coordinates)) false true (some (how, l)) (some (kern, [])) = .ok p := by
    rw [c178_kernel]
    refine ⟨hk.imp id (fun h => ⟨h, by simp⟩), hhow, fun kv hkv => .inl (hkeys kv hkv), fun v hv => ?_, by simp, by simp⟩
    rcases harg with ⟨w, hw, e⟩ | ⟨-, e⟩
    · rw [e] at hv; injection hv with hv; subst hv; exact hF _ hw
    · rw [e] at hv; cases hv
  obtain ⟨p, hp⟩ := hacc
  have hp' := hp
  rw [colCommand] at hp'
  dsimp only [Option.getD_some] at hp'
  cases e : kernelOf kernels kern [] with
  | error x => rw [e] at hp'; simp at hp'
  | ok kn =>
    rw [e] at hp'
    dsimp only at hp'
    obtain ⟨w1, w2, w3, w4, w5, w6⟩ := c178_work _ _ _ _ _ _ _ _ hp'
    refine ⟨p, _, p.fill, ?_, missing_matter hd s, ?_, w6, w1, rfl, fun own => ?_, fun own => ?_, fun own => ?_⟩
    · rw [← hp, colCommand, colCommand, hcol]
      rfl
    · rcases harg with ⟨v, hv, e⟩ | ⟨hn, e⟩
      · obtain ⟨x, hx⟩ := hF v hv
        exact .inl ⟨v, x, hv, hx, by rw [w5, e]; exact hx⟩
      · exact .inr ⟨hn, by rw [w5, e]; rfl⟩
    · rw [w2]; exact named hd (by decide) own
    · rw [w3]; exact named hd (by decide) own
    · rw [w4]; exact named hd (by decide) own

theorem grid_ascending {flag : Option Nat} {axes : List (Axis K)} (h : Handled flag axes) {a : Axis K} (ha : a ∈ axes) : ascending a.grid = true := by
  rw [ascending, decide_eq_true_eq, (grid_eq_proc h ha).1]
  exact (grid_eq_proc h ha).2.1

/-- With one grid every variable gets its own values. -/
theorem collocate_each (o : Interp.Opts) (axes : List (Axis K)) (h : Handled o.flag axes) (pts : Pts K) (m : Method)
    (hlen : ∀ q ∈ pts, q.1.length = axes.length) (vs : List (Interp.Var K)) (hv : ∀ v ∈ vs, v.axes = axes) :
    ∃ rs, (collocateVars o none pts m vs).2 = .ok rs ∧
      List.Forall₂ (fun (v : Interp.Var K) r => List.Forall₂ (fun q x =>
        interpolate o.flag m axes v.vals q.1 o.extrapolate (o.missingForMissing && q.2) = .ok x) pts r) vs rs := by
  have hcall : ∀ vals : List Nat → Val K, ∃ r, Prepared.call o ⟨axes, pts, m⟩ vals = .ok r := by
    intro vals
    unfold Prepared.call
    simp only
    induction pts with
    | nil => exact ⟨[], rfl⟩
    | cons q t ih =>
      obtain ⟨r, hr⟩ := ih (fun p hp => hlen p (by simp [hp]))
      obtain ⟨values, hx, -⟩ := interpolate_eq o.flag m axes h vals q.1 (hlen q (by simp)) o.extrapolate (o.missingForMissing && q.2)
      exact ⟨_, by rw [List.mapM_cons, hx, hr]; rfl⟩
  have hall : ∀ s : Obj K, For axes pts m s → ∃ rs, (collocateVars o s pts m vs).2 = .ok rs := by
    induction vs with
    | nil => intro s _; exact ⟨[], rfl⟩
    | cons v vs ih =>
      intro s hs
      have hva := hv v (by simp)
      have h1 : ∃ r, collocateOne o s v pts m = (some ⟨axes, pts, m⟩, .ok r) := by
        obtain ⟨r, hr⟩ := hcall v.vals
        refine ⟨r, ?_⟩
        unfold collocateOne
        cases s with
        | some p => rw [hs p rfl]; simp [hr]
        | none =>
          have : prepare v pts m = .ok ⟨axes, pts, m⟩ := by
            unfold prepare
            rw [hva, if_pos]
            rw [Bool.and_eq_true, List.all_eq_true, List.all_eq_true]
            exact ⟨fun p hp => by simpa using hlen p hp, fun a ha => grid_ascending h ha⟩
          simp [this, hr]
      obtain ⟨r, hr⟩ := h1
      obtain ⟨rs, hrs⟩ := ih (fun w hw => hv w (by simp [hw])) (some ⟨axes, pts, m⟩) (fun p hp => by cases hp; rfl)
      refine ⟨r :: rs, ?_⟩
      rw [collocateVars, hr]
      simp only
      rcases hc2 : collocateVars o (some ⟨axes, pts, m⟩) pts m vs with ⟨s2, x | x⟩
      · rw [hc2] at hrs; cases hrs
      · rw [hc2] at hrs; cases hrs; rfl
  obtain ⟨rs, hrs⟩ := hall none (fun p hp => by cases hp)
  refine ⟨rs, hrs, ?_⟩
  have := c72_same_grid o axes pts m [] ⟨vs, pts, m⟩ (by
    intro d hd
    simp only [List.nil_append, List.mem_singleton] at hd
    subst hd
    exact ⟨hv, rfl, rfl⟩) rs hrs
  have h2 : List.Forall₂ (fun v r => v ∈ vs ∧ ownValues o ⟨vs, pts, m⟩ v r) vs rs := by
    rw [List.forall₂_iff_get] at this ⊢
    exact ⟨this.1, fun i hi hj => ⟨List.get_mem _ _, this.2 i hi hj⟩⟩
  refine h2.imp ?_
  rintro v r ⟨hm, hr⟩
  rw [ownValues, hv v hm] at hr
  exact hr

/-- **C191.** `cis col` of gridded data onto points with `lin` (also if no method is given) or `nn`, any general options in any order, for any number of
variables on one grid whose axes the interpolator handles (C18) and a sample with coordinates for each dimension, whose mask, if missing values of the
sample matter, has an entry for each point (C192): each variable yields one result, in order, under the name, long name and units given as options or else
its own, with the fill value; its values are, for each point of the sample in order, missing if the sample is missing there and this matters, or if the
point is out of range of some axis, and otherwise the linear interpolation of this variable at this point, or its value at the nearest node. -/
theorem c191_collocate (num : Str → Option ℚ) (kernels : List Str) (flag : Option Nat) (how : Str) (l : Opts) (col : Option (Str × Opts)) (kern : Str)
    (s : Sample K) (axes : List (Axis K)) (vars : List (Var K))
    (ht : Spec.Text how l col) (hhow : how ∈ ["".toList, "lin".toList, "nn".toList]) (hkeys : ∀ kv ∈ l, kv.1 ∉ ColOpts.Spec.given)
    (hF : ∀ v, (kFill, some v) ∈ l → ∃ x, num v = some x) (hk : kern = [] ∨ kern ∈ kernels)
    (hax : Handled flag axes) (h2 : ∀ a ∈ axes, 2 ≤ (Interp.Spec.nodes a).length) (hgrid : ∀ v ∈ vars, v.axes = axes)
    (hpts : ∀ x ∈ s.points, x.length = axes.length)
    (hmask : Spec.Matter l s false ∨ s.values = .plain ∨ ∃ b, s.values = .mask b ∧ b.length = s.points.length) :
    ∃ (m : Bool) (fill : Option ℚ) (res : List (Out × List (Val K))), Spec.Matter l s m ∧ ColOpts.Spec.Says (fun v x => num v = some x) l kFill fill ∧
      run num kernels flag col (some (kern, [])) s vars = .ok res ∧
      List.Forall₂ (fun (v : Var K) (r : Out × List (Val K)) =>
        Spec.Named l kName (some v.names.name) (some r.1.names.name) ∧ Spec.Named l kLong v.names.long r.1.names.long ∧
        Spec.Named l kUnits v.names.units r.1.names.units ∧ r.1.names.standard = v.names.standard ∧ r.1.missing = some fill ∧
        r.2.length = s.points.length ∧
        ∀ (i : Nat) (x : List K), s.points[i]? = some x → ∃ y, r.2[i]? = some y ∧
          ((m = true ∧ Spec.Missing s i) ∨ ¬ AllInRange axes x → y = .masked) ∧
          (¬ (m = true ∧ Spec.Missing s i) → AllInRange axes x →
            (how = "nn".toList → Spec.NearestTo axes v.vals x y) ∧ (how ≠ "nn".toList → Spec.Linear axes v.vals x y))) vars res := by
  obtain ⟨p, m, fill, hp, hm, hfill, hwork, hpm, hpf, hn, hlo, hu⟩ := plan s ht hhow hkeys hF hk
  have hd : (l.map Prod.fst).Nodup := by
    rcases ht with ⟨-, -, rfl⟩ | ⟨-, h⟩
    · simp
    · exact h.different
  have huniq : Spec.Matter l s false → m = false := fun h => matter_unique hd hm h
  have hb : ∃ b, missingMask m s = .ok b ∧ b.length = s.points.length ∧
      ∀ i, i < s.points.length → ((m && b[i]?.getD false) = true ↔ (m = true ∧ Spec.Missing s i)) := by
    rw [missingMask]
    have hno : ∀ i : Nat, ((s.points.map (fun _ => false))[i]?).getD false = false := by
      intro i
      rw [List.getElem?_map]
      cases s.points[i]? <;> rfl
    cases m with
    | false => exact ⟨_, rfl, by simp, fun i hi => by simp⟩
    | true =>
      rw [if_pos rfl]
      rcases hmask with h | h | ⟨b, h, hlen⟩
      · exact absurd (huniq h) (by simp)
      · rw [h]
        refine ⟨_, rfl, by simp, fun i hi => ?_⟩
        rw [hno i]
        simp only [Bool.and_false, Bool.false_eq_true, false_iff, not_and]
        rintro - ⟨b, hb, -⟩
        rw [h] at hb; cases hb
      · rw [h]
        dsimp only
        rw [if_pos hlen]
        refine ⟨b, rfl, hlen, fun i hi => ?_⟩
        rw [Bool.true_and]
        constructor
        · intro hi'
          refine ⟨rfl, b, h, ?_⟩
          rw [List.getElem?_eq_getElem (by omega)] at hi' ⊢
          exact congrArg some hi'
        · rintro ⟨-, b', hb', hi'⟩
          rw [h] at hb'
          injection hb' with hb'
          subst hb'
          rw [hi']; rfl
  obtain ⟨b, hb1, hb2, hb3⟩ := hb
  set mth : Method := if how = "nn".toList then .nn else .lin with hmth
  have hpl : ∀ q ∈ s.points.zip b, q.1.length = axes.length := fun q hq => hpts _ (List.of_mem_zip hq).1
  obtain ⟨rs, hrs, hown⟩ := collocate_each ⟨flag, false, m⟩ axes hax (s.points.zip b) mth hpl (vars.map (fun v => ⟨v.axes, v.vals⟩))
    (by intro v hv; obtain ⟨w, hw, rfl⟩ := List.mem_map.1 hv; exact hgrid w hw)
  rw [List.forall₂_map_left_iff] at hown
  refine ⟨m, fill, (vars.map (fun v => (⟨override p v.names, some p.fill⟩ : Out))).zip rs, hm, hfill, ?_, ?_⟩
  · rw [run, hp]
    dsimp only
    rw [hwork]
    dsimp only
    have hme : (if decide (how = "nn".toList) = true then Method.nn else Method.lin) = mth := by
      rw [hmth]; by_cases h : how = "nn".toList <;> simp [h]
    cases vars with
    | nil => rfl
    | cons v t =>
      rw [collocate, hpm, hb1]
      dsimp only
      rw [hme, hrs]
  · have hz : (vars.map (fun v => (⟨override p v.names, some p.fill⟩ : Out))).zip rs = List.zipWith (fun (v : Var K) (r : List (Val K)) => ((⟨override p v.names, some p.fill⟩ : Out), r)) vars rs := by
      rw [List.zip_map_left, List.zip, List.map_zipWith]
      rfl
    rw [hz]
    have step : ∀ (vs : List (Var K)) (rr : List (List (Val K))), List.Forall₂ (fun (v : Var K) (r : List (Val K)) => List.Forall₂ (fun q x =>
        interpolate flag mth axes v.vals q.1 false (m && q.2) = .ok x) (s.points.zip b) r) vs rr →
        List.Forall₂ (fun (v : Var K) (r : Out × List (Val K)) =>
        Spec.Named l kName (some v.names.name) (some r.1.names.name) ∧ Spec.Named l kLong v.names.long r.1.names.long ∧
        Spec.Named l kUnits v.names.units r.1.names.units ∧ r.1.names.standard = v.names.standard ∧ r.1.missing = some fill ∧
        r.2.length = s.points.length ∧
        ∀ (i : Nat) (x : List K), s.points[i]? = some x → ∃ y, r.2[i]? = some y ∧
          ((m = true ∧ Spec.Missing s i) ∨ ¬ AllInRange axes x → y = .masked) ∧
          (¬ (m = true ∧ Spec.Missing s i) → AllInRange axes x →
            (how = "nn".toList → Spec.NearestTo axes v.vals x y) ∧ (how ≠ "nn".toList → Spec.Linear axes v.vals x y))) vs
        (List.zipWith (fun (v : Var K) (r : List (Val K)) => ((⟨override p v.names, some p.fill⟩ : Out), r)) vs rr) := by
      intro vs rr h
      induction h with
      | nil => exact .nil
      | @cons v r vs rr hv _ ih =>
        refine .cons ⟨?_, hlo _, hu _, rfl, by rw [hpf], ?_, ?_⟩ ih
        · have := hn (some v.names.name)
          have e : orElse p.name (some v.names.name) = some (override p v.names).name := by
            rw [override]
            dsimp only
            rw [orElse]
            split
            · rfl
            · rename_i h
              cases e : p.name with
              | none => exact absurd (.inl e) h
              | some x => rfl
          rw [e] at this
          exact this
        · have := hv.length_eq
          rw [List.length_zip, hb2, min_self] at this
          exact this.symm
        · intro i x hx
          have hi : i < s.points.length := by
            rw [List.getElem?_eq_some_iff] at hx; exact hx.1
          have hib : i < b.length := by omega
          have hq : (s.points.zip b)[i]? = some (x, b[i]) := by
            rw [List.getElem?_zip_eq_some]
            exact ⟨hx, List.getElem?_eq_getElem hib⟩
          have hl' : i < r.length := by
            have := hv.length_eq
            rw [List.length_zip, hb2, min_self] at this
            omega
          have hint : interpolate flag mth axes v.vals x false (m && b[i]) = .ok r[i] := by
            rw [List.forall₂_iff_get] at hv
            have := hv.2 i (by rw [List.length_zip, hb2, min_self]; exact hi) hl'
            rw [List.getElem?_eq_some_iff] at hq
            obtain ⟨h1, h2⟩ := hq
            simp only [List.get_eq_getElem] at this
            rw [h2] at this
            exact this
          have hxl : x.length = axes.length := hpts x (List.mem_of_getElem? hx)
          have hbi := hb3 i hi
          rw [List.getElem?_eq_getElem hib] at hbi
          simp only [Option.getD_some] at hbi
          refine ⟨r[i], List.getElem?_eq_getElem hl', ?_, ?_⟩
          · intro hor
            by_cases hmi : (m && b[i]) = true
            · rw [hmi] at hint
              exact c20_missing_sample _ _ _ _ _ _ _ hint
            · rw [Bool.not_eq_true] at hmi
              rw [hmi] at hint
              rcases hor with h | h
              · rw [← hbi, hmi] at h; cases h
              · exact (c20_no_extrapolation flag mth axes (handled_monotonic hax) v.vals x _ hint).1 h
          · intro hno hr
            have hmi : (m && b[i]) = false := by
              rw [← Bool.not_eq_true, hbi]; exact hno
            rw [hmi] at hint
            constructor
            · intro hh
              rw [hmth, if_pos hh] at hint
              obtain ⟨idx, hidx, e⟩ := c19_nearest flag axes hax v.vals x hxl false (.inr hr)
              rw [e] at hint
              injection hint with hint
              exact ⟨idx, hidx, hint.symm⟩
            · intro hh
              rw [hmth, if_neg hh] at hint
              exact linear_spec flag axes hax h2 v.vals x hxl hr _ hint
    exact step vars rs hown

/-! ### C192: missing values of the sample -/

/-- C192, full statement: a sample without missing values is treated as one whose missing values do not matter. -/
def MissingOnly (K : Type) [Field K] [LinearOrder K] [IsStrictOrderedRing K] : Prop :=
  ∀ (flag : Option Nat) (p : Plan) (nearest extrapolate : Bool) (s : Sample K) (vars : List (Var K)), (∀ i, ¬ Spec.Missing s i) →
    collocate flag p nearest extrapolate s vars = collocate flag { p with missing := false } nearest extrapolate s vars

/-- C192 holds for plain arrays and for masked arrays with an entry for each point. -/
theorem c192_missing_partial (flag : Option Nat) (p : Plan) (nearest extrapolate : Bool) (s : Sample K) (vars : List (Var K))
    (hs : s.values = .plain ∨ ∃ b, s.values = .mask b ∧ b.length = s.points.length) (hno : ∀ i, ¬ Spec.Missing s i) :
    collocate flag p nearest extrapolate s vars = collocate flag { p with missing := false } nearest extrapolate s vars := by
  cases vars with
  | nil => rfl
  | cons v t =>
    have key : missingMask p.missing s = .ok (s.points.map (fun _ => false)) := by
      rw [missingMask]
      cases p.missing with
      | false => rfl
      | true =>
        rw [if_pos rfl]
        rcases hs with h | ⟨b, h, hl⟩
        · rw [h]
        · rw [h]
          dsimp only
          rw [if_pos hl]
          congr 1
          refine List.ext_getElem (by simp [hl]) fun i h1 h2 => ?_
          rw [List.getElem_map]
          by_contra hc
          rw [Bool.not_eq_false] at hc
          exact hno i ⟨b, h, by rw [List.getElem?_eq_getElem h1, hc]⟩
    have hcall : ∀ (q : Pts K) (pr : Prepared K) (vals : List Nat → Val K), (∀ x ∈ pr.pts, x.2 = false) →
        pr.call ⟨flag, extrapolate, p.missing⟩ vals = pr.call ⟨flag, extrapolate, false⟩ vals := by
      intro q pr vals hx
      rw [Prepared.call, Prepared.call]
      have : ∀ l : Pts K, (∀ x ∈ l, x.2 = false) →
          l.mapM (fun q => interpolate flag pr.method pr.axes vals q.1 extrapolate (p.missing && q.2)) =
          l.mapM (fun q => interpolate flag pr.method pr.axes vals q.1 extrapolate (false && q.2)) := by
        intro l hl
        induction l with
        | nil => rfl
        | cons a t ih =>
          rw [List.mapM_cons, List.mapM_cons, ih (fun x hx => hl x (by simp [hx])), hl a (by simp), Bool.and_false, Bool.false_and]
      exact this pr.pts hx
    have hpts : ∀ x ∈ s.points.zip (s.points.map (fun _ => false)), x.2 = false := by
      intro x hx
      obtain ⟨y, -, e⟩ := List.mem_map.1 (List.of_mem_zip hx).2
      exact e.symm
    have hvars : ∀ (m : Method) (vs : List (Interp.Var K)) (o : Obj K),
        (∀ pr, o = some pr → pr.pts = s.points.zip (s.points.map (fun _ => false))) →
        collocateVars ⟨flag, extrapolate, p.missing⟩ o (s.points.zip (s.points.map (fun _ => false))) m vs =
        collocateVars ⟨flag, extrapolate, false⟩ o (s.points.zip (s.points.map (fun _ => false))) m vs := by
      intro m vs
      induction vs with
      | nil => intro o _; rfl
      | cons v vs ih =>
        intro o ho
        have hone : collocateOne ⟨flag, extrapolate, p.missing⟩ o v (s.points.zip (s.points.map (fun _ => false))) m =
            collocateOne ⟨flag, extrapolate, false⟩ o v (s.points.zip (s.points.map (fun _ => false))) m ∧
            ∀ pr, (collocateOne ⟨flag, extrapolate, false⟩ o v (s.points.zip (s.points.map (fun _ => false))) m).1 = some pr →
              pr.pts = s.points.zip (s.points.map (fun _ => false)) := by
          cases o with
          | some pr =>
            rw [collocateOne, collocateOne]
            dsimp only
            rw [hcall [] pr v.vals (by rw [ho pr rfl]; exact hpts)]
            exact ⟨rfl, fun q hq => ho q hq⟩
          | none =>
            rw [collocateOne, collocateOne]
            cases e : prepare v (s.points.zip (s.points.map (fun _ => false))) m with
            | error x => exact ⟨rfl, fun q hq => by cases hq⟩
            | ok pr =>
              have hpr : pr.pts = s.points.zip (s.points.map (fun _ => false)) := by
                rw [prepare] at e
                split at e
                · injection e with e; rw [← e]
                · cases e
              dsimp only
              rw [hcall [] pr v.vals (by rw [hpr]; exact hpts)]
              exact ⟨rfl, fun q hq => by cases hq; exact hpr⟩
        rw [collocateVars, collocateVars, hone.1]
        rcases hc : collocateOne ⟨flag, extrapolate, false⟩ o v (s.points.zip (s.points.map (fun _ => false))) m with ⟨o1, r⟩
        have h1 := hone.2
        rw [hc] at h1
        cases r with
        | error x => rfl
        | ok r => dsimp only; rw [ih o1 h1]
    have hf : missingMask false s = .ok (s.points.map (fun _ => false)) := rfl
    rw [collocate, collocate, key]
    dsimp only
    rw [hf]
    dsimp only
    rw [hvars _ _ none (fun pr h => by cases h)]
    rfl

/-- C192 is violated by every masked array without mask, of other than one point: nothing is collocated at all, whatever the data are. Without
the flag the data of C191 are. -/
theorem c192_nomask_violated (flag : Option Nat) (p : Plan) (nearest extrapolate : Bool) (pts : List (List K)) (v : Var K) (vars : List (Var K))
    (hm : p.missing = true) (hl : pts.length ≠ 1) :
    (∀ i, ¬ Spec.Missing (⟨pts, .nomask⟩ : Sample K) i) ∧ collocate flag p nearest extrapolate ⟨pts, .nomask⟩ (v :: vars) = .error .index := by
  refine ⟨?_, ?_⟩
  · rintro i ⟨b, h, -⟩; cases h
  · rw [collocate, hm, missingMask, if_pos rfl]
    dsimp only
    rw [if_neg hl]

/-- C192 is violated by coordinates without data: `missing_data_for_missing_sample=True`, which is what `collocated_onto` passes if nothing is said
(common_data.py:159-178), fails. -/
theorem c192_coordinates_violated (flag : Option Nat) (p : Plan) (nearest extrapolate : Bool) (pts : List (List K)) (v : Var K) (vars : List (Var K))
    (hm : p.missing = true) :
    (∀ i, ¬ Spec.Missing (⟨pts, .coordinates⟩ : Sample K) i) ∧ collocate flag p nearest extrapolate ⟨pts, .coordinates⟩ (v :: vars) = .error .attr := by
  refine ⟨?_, ?_⟩
  · rintro i ⟨b, h, -⟩; cases h
  · rw [collocate, hm, missingMask, if_pos rfl]

/-! ### Non-vacuity: two variables on a grid of latitude and longitude, `nn[var_name=x,fill_value=-999]`, a sample with a missing value -/

def exSample : Sample ℚ := ⟨[[30, 300], [0, 0], [80, 0]], .mask [false, true, false]⟩

def exVars : List (Var ℚ) :=
  [⟨⟨"a".toList, none, none, none⟩, demoAxes, fun i => .num (i.sum : ℚ)⟩, ⟨⟨"b".toList, none, none, none⟩, demoAxes, fun i => .num (2 * i.sum : ℚ)⟩]

def exOpts' : Opts := [(kName, some "x".toList), (kFill, some "-999".toList)]

example : ∃ res, run exNum [] none (some (Method.methodArgs (Method.Spec.method "nn".toList exOpts'))) (some ([], [])) exSample exVars = .ok res ∧
    res.length = 2 := by
  obtain ⟨m, f, res, -, -, h3, h4⟩ := c191_collocate exNum [] none "nn".toList exOpts' _ [] exSample demoAxes exVars
    (.inr ⟨rfl, by decide, by decide, by decide, by decide +kernel, by decide⟩) (by decide) (by decide +kernel)
    (by
      intro v hv
      simp only [exOpts', List.mem_cons, List.not_mem_nil, or_false, Prod.mk.injEq] at hv
      rcases hv with ⟨h, -⟩ | ⟨-, h⟩
      · exact absurd h (by decide)
      · injection h with h; subst h; exact ⟨-999, by decide +kernel⟩)
    (.inl rfl) (demo_handled none) (by simp [demoAxes, Interp.Spec.nodes]) (by simp [exVars]) (by simp [exSample, demoAxes])
    (.inr (.inr ⟨_, rfl, rfl⟩))
  exact ⟨res, h3, by simpa [exVars] using h4.length_eq.symm⟩

/-- The values: the nearest node, missing where the sample is, and missing beyond the range. -/
example : run exNum [] none (some ("nn".toList, exOpts')) (some ([], [])) exSample exVars =
    .ok [(⟨⟨"x".toList, none, none, none⟩, some (some (-999))⟩, [.num 4, .masked, .masked]),
      (⟨⟨"x".toList, none, none, none⟩, some (some (-999))⟩, [.num 8, .masked, .masked])] := by
  decide +kernel

/-- The violation is met by a sample read from several files without missing values, and the flag that the command sets for a sample variable. -/
example : run exNum [] none none (some ([], [])) (⟨[[30, 300], [0, 0]], .nomask⟩ : Sample ℚ) exVars = .error .index ∧
    run exNum [] none (some ("lin".toList, [(kMissing, some "False".toList)])) (some ([], [])) (⟨[[30, 300], [0, 0]], .nomask⟩ : Sample ℚ) exVars ≠ .error .index := by
  decide +kernel

theorem c192_missing_violated : ¬ MissingOnly ℚ := by
  intro h
  have := h none ⟨.interpPoints false false, none, none, none, none, true⟩ false false ⟨[[30, 300], [0, 0]], .nomask⟩ exVars
    (by rintro i ⟨b, hb, -⟩; cases hb)
  revert this
  decide +kernel

end Cis.InterpCmd
