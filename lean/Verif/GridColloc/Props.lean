import Verif.GridColloc.Lemmas
set_option linter.unusedSectionVars false
set_option linter.unusedSimpArgs false
/-! Properties C73 and C74: collocation of gridded data onto a grid. -/
namespace Cis.GridColloc
open Spec
variable {K V : Type}

/-- Whether the sample is masked at a multi-index. -/
def Sample.maskedAt (s : Sample K) (i : List Nat) : Bool :=
  match s.mask with
  | some m => m i
  | none => false

/-- C73: the output lies on the coordinates of the sample (in the order of the sample) followed by the dimensions of the data
that the sample does not have, and each value is the interpolation of the data at the coordinates of its own place, coordinates
being matched by name. -/
theorem c73_output_on_sample (interp : Cube K V → List (Target K) → Option V) (s : Sample K) (data : Cube K V)
    (hs : Distinct (s.dims ++ s.aux)) (hd : Distinct data.dims) :
    ∃ r, collocate interp true false s data = .ok r ∧ r.dims = outDims s data ∧
      ∀ idx, r.get idx = interp data (data.dims.map (target s r.dims idx)) := by
  rw [collocate_eq interp false s data hs hd]
  obtain ⟨r, h1, h2, h3⟩ := irisInterpolate_eq interp s data hs hd none
  refine ⟨r, by simpa using h1, h2, ?_⟩
  intro idx
  rw [h3, h2]
  rfl

/-- C73: at a valid index every dimension that the sample has is interpolated to a coordinate value of the sample. -/
theorem c73_targets (s : Sample K) (data : Cube K V) (hs : Distinct (s.dims ++ s.aux)) (hd : Distinct data.dims) (idx : List Nat)
    (hidx : Valid (outDims s data) idx) (d : Coord K) (hdm : d ∈ data.dims) :
    (∀ c ∈ s.dims ++ s.aux, c.name = d.name → ∃ x, c.pts[along (outDims s data) idx d.name]? = some x ∧
      target s (outDims s data) idx d = .value x) ∧
    ((∀ c ∈ s.dims ++ s.aux, c.name ≠ d.name) → along (outDims s data) idx d.name < d.pts.length ∧
      target s (outDims s data) idx d = .index (along (outDims s data) idx d.name)) := by
  have hin : ∀ c ∈ outDims s data, c.name = d.name → along (outDims s data) idx d.name < c.pts.length := by
    intro c hc hn
    obtain ⟨i, hi⟩ := List.mem_iff_getElem?.1 hc
    obtain ⟨hlt, he⟩ := List.getElem?_eq_some_iff.1 hi
    have hf := findIdx_of_getElem (outDims_distinct s data hs hd) hi
    unfold along
    rw [← hn, hf]
    have hl := hidx.length_eq
    rw [List.getD_eq_getElem?_getD, List.getElem?_eq_getElem (by omega), Option.getD_some]
    have := List.forall₂_iff_get.1 hidx
    have := this.2 i hlt (by omega)
    simp only [List.get_eq_getElem, he] at this
    exact this
  constructor
  · intro c hc hn
    have hf : (s.dims ++ s.aux).find? (fun x => x.name == d.name) = some c := by rw [← hn]; exact find_of_mem hs hc
    have hc' : c ∈ outDims s data := by
      refine (mem_outDims_iff hs).2 ⟨d, hdm, ?_⟩
      unfold newDim Sample.find Sample.coords
      rw [hf]; rfl
    refine ⟨_, List.getElem?_eq_getElem (hin c hc' hn), ?_⟩
    unfold target
    rw [hf]
    simp only
    rw [List.getElem?_eq_getElem (hin c hc' hn)]
  · intro h
    have hf : (s.dims ++ s.aux).find? (fun x => x.name == d.name) = none := by
      rw [List.find?_eq_none]; intro c hc; simpa using h c hc
    have hc' : d ∈ outDims s data := by
      refine (mem_outDims_iff hs).2 ⟨d, hdm, ?_⟩
      unfold newDim Sample.find Sample.coords
      rw [hf]; rfl
    refine ⟨hin d hc' rfl, ?_⟩
    unfold target
    rw [hf]

/-- C73: a kernel that is not one for gridded data is refused. -/
theorem c73_kernel_refused (interp : Cube K V → List (Target K) → Option V) (missing : Bool) (s : Sample K) (data : Cube K V) :
    collocate interp false missing s data = .error .classNotFound := rfl

/-- The shared coordinates when every dimension of the sample is one of the data. -/
theorem shared_all (s : Sample K) (dims : List (Coord K)) (hall : ∀ c ∈ s.dims, ∃ d ∈ dims, d.name = c.name) :
    sharedCoords s dims = s.dims ++ s.aux.filter (fun c => dims.any (fun d => d.name == c.name)) := by
  unfold sharedCoords Sample.coords
  rw [List.filter_append, List.filter_eq_self.2]
  intro c hc
  obtain ⟨d, hd, he⟩ := hall c hc
  rw [List.any_eq_true]
  exact ⟨d, hd, by simpa using he⟩

theorem mask_eq (s : Sample K) (data : Cube K V) (hall : ∀ c ∈ s.dims, ∃ d ∈ data.dims, d.name = c.name)
    (haux : ∀ c ∈ s.aux, (∃ d ∈ data.dims, d.name = c.name) → c.pts.length = 1) :
    ∃ mask, makeOutputMask s ((sharedCoords s data.dims).map (fun c => (c.name, c.pts.length)))
        ((outDims s data).map (fun c => c.pts.length)) ((extraCoords s data.dims).map (fun c => c.pts.length)).prod = .ok mask ∧
      ∀ (get : List Nat → Option V) (idx : List Nat), Valid (outDims s data) idx →
        applyMask get mask idx = if s.maskedAt (idx.take s.dims.length) then none else get idx := by
  have hsh := shared_all s data.dims hall
  have hlen : ¬ ((sharedCoords s data.dims).map (fun c => (c.name, c.pts.length))).length < s.dims.length := by
    rw [hsh]; simp
  unfold makeOutputMask
  rw [if_neg hlen]
  cases hm : s.mask with
  | none => exact ⟨none, rfl, fun get idx _ => by simp [applyMask, Sample.maskedAt, hm]⟩
  | some m =>
    simp only
    have hones : ∀ n ∈ (s.aux.filter (fun c => data.dims.any (fun d => d.name == c.name))).map (fun c => c.pts.length), n = 1 := by
      intro n hn
      obtain ⟨c, hc, rfl⟩ := List.mem_map.1 hn
      obtain ⟨h1, h2⟩ := List.mem_filter.1 hc
      rw [List.any_eq_true] at h2
      obtain ⟨d, hd, he⟩ := h2
      exact haux c h1 ⟨d, hd, by simpa using he⟩
    have hshape : (outDims s data).map (fun c => c.pts.length) = s.shape ++
        ((s.aux.filter (fun c => data.dims.any (fun d => d.name == c.name))).map (fun c => c.pts.length) ++
          (extraCoords s data.dims).map (fun c => c.pts.length)) := by
      rw [outDims_eq, hsh]
      simp [Sample.shape]
    rw [hshape]
    have hp : (s.shape ++ ((s.aux.filter (fun c => data.dims.any (fun d => d.name == c.name))).map (fun c => c.pts.length) ++
          (extraCoords s data.dims).map (fun c => c.pts.length))).prod =
        s.shape.prod * ((extraCoords s data.dims).map (fun c => c.pts.length)).prod := by
      rw [List.prod_append, List.prod_append, List.prod_eq_one hones, one_mul]
    rw [if_pos hp]
    refine ⟨_, rfl, ?_⟩
    intro get idx hidx
    have hv : InShape (s.shape ++ ((s.aux.filter (fun c => data.dims.any (fun d => d.name == c.name))).map (fun c => c.pts.length) ++
          (extraCoords s data.dims).map (fun c => c.pts.length))) idx := by
      rw [← hshape]
      unfold InShape
      rw [List.forall₂_map_left_iff]
      exact hidx
    set k := s.shape.length
    have hk : k = s.dims.length := by simp [k, Sample.shape]
    have h1 : InShape s.shape (idx.take k) := by
      have := List.forall₂_take k hv
      rwa [List.take_left'] at this
      rfl
    have h2 : InShape ((s.aux.filter (fun c => data.dims.any (fun d => d.name == c.name))).map (fun c => c.pts.length) ++
          (extraCoords s data.dims).map (fun c => c.pts.length)) (idx.drop k) := by
      have := List.forall₂_drop k hv
      rwa [List.drop_left'] at this
      rfl
    have h3 := ravel_lt h2
    rw [List.prod_append, List.prod_eq_one hones, one_mul] at h3
    have : ravel (s.shape ++ ((s.aux.filter (fun c => data.dims.any (fun d => d.name == c.name))).map (fun c => c.pts.length) ++
          (extraCoords s data.dims).map (fun c => c.pts.length))) idx / ((extraCoords s data.dims).map (fun c => c.pts.length)).prod
        = ravel s.shape (idx.take k) := by
      conv_lhs => rw [← List.take_append_drop k idx]
      rw [ravel_append _ _ h1, List.prod_append, List.prod_eq_one hones, one_mul, Nat.add_comm,
        Nat.add_mul_div_right _ _ (by omega), Nat.div_eq_of_lt h3, Nat.zero_add]
    have h4 : s.maskedAt (idx.take s.dims.length) = m (unravel s.shape (ravel s.shape (idx.take k))) := by
      rw [unravel_ravel h1, hk]
      simp [Sample.maskedAt, hm]
    rw [h4, ← this]
    rfl

/-- C74: when missing data are wanted for missing samples and every dimension of the sample is one of the data (other
coordinates shared with the data being scalar), a value is missing iff it is missing in the interpolation or the sample is
masked at its place, for all values of the additional dimensions. -/
theorem c74_missing_for_missing (interp : Cube K V → List (Target K) → Option V) (s : Sample K) (data : Cube K V)
    (hs : Distinct (s.dims ++ s.aux)) (hd : Distinct data.dims) (hall : ∀ c ∈ s.dims, ∃ d ∈ data.dims, d.name = c.name)
    (haux : ∀ c ∈ s.aux, (∃ d ∈ data.dims, d.name = c.name) → c.pts.length = 1) :
    ∃ r, collocate interp true true s data = .ok r ∧ r.dims = outDims s data ∧
      ∀ idx, Valid r.dims idx → r.get idx =
        if s.maskedAt (idx.take s.dims.length) then none else interp data (data.dims.map (target s r.dims idx)) := by
  rw [collocate_eq interp true s data hs hd, if_pos rfl]
  obtain ⟨mask, hm, hget⟩ := mask_eq s data hall haux
  rw [hm]
  obtain ⟨r, h1, h2, h3⟩ := irisInterpolate_eq interp s data hs hd mask
  refine ⟨r, h1, h2, ?_⟩
  intro idx hidx
  rw [h2] at hidx
  rw [h3, hget _ _ hidx, h2]

/-- C74, documented exception: with fewer shared coordinates than sample dimensions the mask of the sample is not used. -/
theorem c74_dimensions_dropped (interp : Cube K V → List (Target K) → Option V) (s : Sample K) (data : Cube K V)
    (hs : Distinct (s.dims ++ s.aux)) (hd : Distinct data.dims)
    (hlt : ((s.dims ++ s.aux).filter (fun c => data.dims.any (fun d => d.name == c.name))).length < s.dims.length) :
    collocate interp true true s data = collocate interp true false s data := by
  rw [collocate_eq interp true s data hs hd, collocate_eq interp false s data hs hd, if_pos rfl]
  have : makeOutputMask s ((sharedCoords s data.dims).map (fun c => (c.name, c.pts.length)))
        ((outDims s data).map (fun c => c.pts.length)) ((extraCoords s data.dims).map (fun c => c.pts.length)).prod = .ok none := by
    unfold makeOutputMask
    rw [if_pos]
    rw [List.length_map]
    exact hlt
  rw [this]
  rfl

/-- C74 is violated when a dimension of the sample is not in the data but a scalar coordinate of the sample is a dimension of
the data: the call fails, though without the option it succeeds. -/
theorem c74_scalar_coordinate_violated : ∃ (s : Sample ℚ) (data : Cube ℚ ℚ) (r : Cube ℚ ℚ),
    Distinct (s.dims ++ s.aux) ∧ Distinct data.dims ∧
    (∀ interp, collocate interp true true s data = .error .value) ∧
    collocate (fun _ _ => some 0) true false s data = .ok r := by
  obtain ⟨r, hr, -⟩ := c73_output_on_sample (fun _ _ => some 0)
    (⟨[⟨"latitude", [0, 10]⟩, ⟨"altitude", [0, 100, 200]⟩], [⟨"time", [5]⟩], some (fun _ => true)⟩ : Sample ℚ)
    (⟨[⟨"time", [0, 10]⟩, ⟨"latitude", [0, 20]⟩], fun _ => some 1⟩ : Cube ℚ ℚ) (by decide +kernel) (by decide +kernel)
  refine ⟨_, _, r, by decide +kernel, by decide +kernel, ?_, hr⟩
  intro interp
  rw [collocate_eq _ _ _ _ (by decide +kernel) (by decide +kernel)]
  have : makeOutputMask (⟨[⟨"latitude", [0, 10]⟩, ⟨"altitude", [0, 100, 200]⟩], [⟨"time", [5]⟩], some (fun _ => true)⟩ : Sample ℚ)
      [("latitude", 2), ("time", 1)] [2, 1] 1 = .error .value := by
    rfl
  rw [if_pos rfl]
  split
  · rename_i e he
    rw [show e = Err.value from (Except.error.inj (this.symm.trans he)).symm]
  · rename_i m hm
    exact absurd (this.symm.trans hm) (by simp)

/-- A sample with latitude, longitude and scalar time, and data with additional altitude: the hypotheses are met, and a masked
sample cell is masked at all altitudes. -/
example : ∃ r, collocate (fun _ t => some t.length) true true
    (⟨[⟨"latitude", [0, 10]⟩, ⟨"longitude", [0, 10, 20]⟩], [⟨"time", [5]⟩], some (fun i => i == [1, 2])⟩ : Sample ℚ)
    (⟨[⟨"time", [0, 10]⟩, ⟨"altitude", [0, 5]⟩, ⟨"longitude", [0, 20]⟩, ⟨"latitude", [0, 20]⟩], fun _ => some 1⟩ : Cube ℚ Nat) = .ok r ∧
    r.dims.map Coord.name = ["latitude", "longitude", "time", "altitude"] ∧
    r.get [1, 2, 0, 1] = none ∧ r.get [1, 1, 0, 1] = some 4 := by
  obtain ⟨r, h1, h2, h3⟩ := c74_missing_for_missing (fun _ t => some t.length)
    (⟨[⟨"latitude", [0, 10]⟩, ⟨"longitude", [0, 10, 20]⟩], [⟨"time", [5]⟩], some (fun i => i == [1, 2])⟩ : Sample ℚ)
    (⟨[⟨"time", [0, 10]⟩, ⟨"altitude", [0, 5]⟩, ⟨"longitude", [0, 20]⟩, ⟨"latitude", [0, 20]⟩], fun _ => some 1⟩ : Cube ℚ Nat)
    (by decide +kernel) (by decide +kernel) (by simp) (by simp)
  have hd : r.dims = [⟨"latitude", [0, 10]⟩, ⟨"longitude", [0, 10, 20]⟩, ⟨"time", [5]⟩, ⟨"altitude", [0, 5]⟩] := by rw [h2]; rfl
  refine ⟨r, h1, by rw [hd]; rfl, ?_, ?_⟩
  · rw [h3 _ (by rw [hd]; simp [Valid])]; rfl
  · rw [h3 _ (by rw [hd]; simp [Valid])]; rfl

end Cis.GridColloc
