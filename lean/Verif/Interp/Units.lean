import Verif.Interp.Props
set_option linter.unusedSectionVars false
set_option linter.unusedSimpArgs false
/-!
Property C202 for the interpolation of gridded data: a change of units of the data before has the same effect as after. The model
is that of `Interp/Model.lean` (gridded_interpolation.py).
-/
namespace Cis.Interp
variable {K : Type} [Field K] [LinearOrder K] [IsStrictOrderedRing K]

/-- A value in other units: what is missing stays missing. -/
def Spec.converted (a b : K) : Val K → Val K
  | .num x => .num (a * x + b)
  | .masked => .masked
  | .nan => .nan

theorem sum_weights (is : List Int) (ys : List K) (hl : is.length = ys.length) : ((edges is).map (fun e => wt e is ys)).sum = 1 := by
  induction is generalizing ys with
  | nil => cases ys <;> simp [edges, wt]
  | cons i is ih =>
    cases ys with
    | nil => simp at hl
    | cons y ys =>
      have h := sum_edges (i :: is) (y :: ys) hl (fun _ => (1 : K))
      simp only [one_mul] at h
      rw [h, ih ys (by simpa using hl)]
      ring

/-- The fold of a sum of values. -/
theorem foldl_add_cases {A : Type} (l : List A) (v : A → Val K) (hm : ¬ ∃ a ∈ l, v a = .masked) (hn : ∃ a ∈ l, v a = .nan) :
    ∀ z : Val K, z ≠ .masked → l.foldl (fun acc a => Val.add acc (v a)) z = .nan := by
  have stay : ∀ l : List A, (¬ ∃ a ∈ l, v a = .masked) → l.foldl (fun acc a => Val.add acc (v a)) .nan = .nan := by
    intro l hm
    induction l with
    | nil => rfl
    | cons a t ih =>
      rw [List.foldl_cons]
      have : Val.add .nan (v a) = .nan := by
        cases h : v a with
        | masked => exact absurd ⟨a, by simp, h⟩ hm
        | num x => rfl
        | nan => rfl
      rw [this]
      exact ih (fun ⟨x, hx, e⟩ => hm ⟨x, by simp [hx], e⟩)
  induction l with
  | nil => simp at hn
  | cons a t ih =>
    intro z hz
    rw [List.foldl_cons]
    have hm' : ¬ ∃ a ∈ t, v a = .masked := fun ⟨x, hx, e⟩ => hm ⟨x, by simp [hx], e⟩
    by_cases ha : v a = .nan
    · rw [ha]
      have : Val.add z .nan = .nan := by cases z <;> simp_all [Val.add]
      rw [this]; exact stay t hm'
    · obtain ⟨x, hx, e⟩ := hn
      rcases List.mem_cons.1 hx with rfl | hx
      · exact absurd e ha
      · refine ih hm' ⟨x, hx, e⟩ _ ?_
        cases h : v a with
        | masked => exact absurd ⟨a, by simp, h⟩ hm
        | nan => exact absurd h ha
        | num y => cases z <;> simp_all [Val.add]

/-- A weight that is a number has only numbers for factors. -/
theorem weight_isNum (es is : List Int) (ys : List (Val K)) (hl : is.length = ys.length) (he : es.length = is.length) :
    ∀ w x : Val K, (∀ v, x = .num v → weight es is ys w = x → ∃ zs : List K, ys = zs.map Val.num) := by
  intro w x v hx
  subst hx
  induction es generalizing is ys w with
  | nil =>
    intro _
    have : is = [] := List.length_eq_zero_iff.1 (by simpa using he.symm)
    subst this
    have : ys = [] := List.length_eq_zero_iff.1 (by simpa using hl.symm)
    subst this
    exact ⟨[], rfl⟩
  | cons e es ih =>
    cases is with
    | nil => simp at he
    | cons i is =>
      cases ys with
      | nil => simp at hl
      | cons y ys =>
        intro h
        simp only [weight] at h
        have hy : ∃ z, y = .num z := by
          cases y with
          | num z => exact ⟨z, rfl⟩
          | _ =>
            exfalso
            have bad : ∀ (es is : List Int) (ys : List (Val K)) (w : Val K), (∀ z, w ≠ .num z) → ∀ z, weight es is ys w ≠ .num z := by
              intro es
              induction es with
              | nil => intro is ys w hw z; simpa [weight] using hw z
              | cons e es ih2 =>
                intro is ys w hw z
                cases is with
                | nil => simpa [weight] using hw z
                | cons i is =>
                  cases ys with
                  | nil => simpa [weight] using hw z
                  | cons y ys =>
                    simp only [weight]
                    refine ih2 is ys _ ?_ z
                    intro z
                    cases w with
                    | num q => exact absurd rfl (hw q)
                    | masked => simp [Val.mul]
                    | nan => cases factor e i y <;> simp [Val.mul]
            refine bad es is ys _ ?_ v h
            intro z
            unfold factor
            split <;> cases w <;> simp [Val.add, Val.mul]
        obtain ⟨z, rfl⟩ := hy
        obtain ⟨zs, rfl⟩ := ih is ys (by simpa using hl) (by simpa using he) _ h
        exact ⟨z :: zs, rfl⟩

theorem edges_length {is e : List Int} (h : e ∈ edges is) : e.length = is.length := (mem_edges h).length_eq.symm

theorem edges_ne (is : List Int) : edges is ≠ [] := by
  intro h
  have := edges_mem (is := is) (e := is) (by
    clear h
    induction is with
    | nil => exact .nil
    | cons i t ih => exact .cons (Or.inl rfl) ih)
  rw [h] at this; simp at this

theorem mul_status (v w : Val K) (a b : K) :
    (Val.mul (Spec.converted a b v) w = .masked ↔ Val.mul v w = .masked) ∧ (Val.mul (Spec.converted a b v) w = .nan ↔ Val.mul v w = .nan) := by
  cases v <;> cases w <;> simp [Spec.converted, Val.mul]

theorem evaluateLinear_converted (a b : K) (shape : List Nat) (values : List Nat → Val K) (indices : List Int) (norms : List (Val K))
    (hl : indices.length = norms.length) :
    evaluateLinear shape (fun idx => Spec.converted a b (values idx)) indices norms =
      Spec.converted a b (evaluateLinear shape values indices norms) := by
  unfold evaluateLinear
  set v := fun e => Val.mul (indexArray shape values e) (weight e indices norms (.num 1)) with hv
  have e' : (fun value e => Val.add value (Val.mul (indexArray shape (fun idx => Spec.converted a b (values idx)) e) (weight e indices norms (.num 1))))
      = fun value e => Val.add value (Val.mul (Spec.converted a b (indexArray shape values e)) (weight e indices norms (.num 1))) := rfl
  rw [e']
  by_cases hm : ∃ e ∈ edges indices, v e = .masked
  · rw [foldl_add_has_masked (edges indices) v hm,
      foldl_add_has_masked (edges indices) (fun e => Val.mul (Spec.converted a b (indexArray shape values e)) (weight e indices norms (.num 1)))]
    · rfl
    · obtain ⟨e, he, h⟩ := hm
      exact ⟨e, he, (mul_status _ _ a b).1.2 h⟩
  · by_cases hn : ∃ e ∈ edges indices, v e = .nan
    · rw [foldl_add_cases (edges indices) v hm hn _ (by simp),
        foldl_add_cases (edges indices) (fun e => Val.mul (Spec.converted a b (indexArray shape values e)) (weight e indices norms (.num 1))) _ _ _
          (by simp)]
      · rfl
      · rintro ⟨e, he, h⟩; exact hm ⟨e, he, (mul_status _ _ a b).1.1 h⟩
      · obtain ⟨e, he, h⟩ := hn; exact ⟨e, he, (mul_status _ _ a b).2.2 h⟩
    · have hnum : ∀ e ∈ edges indices, ∃ x w, indexArray shape values e = .num x ∧ weight e indices norms (.num 1) = .num w := by
        intro e he
        have h1 : v e ≠ .masked := fun h => hm ⟨e, he, h⟩
        have h2 : v e ≠ .nan := fun h => hn ⟨e, he, h⟩
        simp only [hv] at h1 h2
        cases h3 : indexArray shape values e <;> cases h4 : weight e indices norms (.num 1) <;> rw [h3, h4] at h1 h2 <;>
          first | exact ⟨_, _, rfl, rfl⟩ | simp [Val.mul] at h1 h2
      obtain ⟨e0, he0⟩ := List.exists_mem_of_ne_nil _ (edges_ne indices)
      obtain ⟨-, w0, -, hw0⟩ := hnum e0 he0
      obtain ⟨ys, rfl⟩ := weight_isNum e0 indices norms hl (edges_length he0) (.num 1) (.num w0) w0 rfl hw0
      have hl' : indices.length = ys.length := by simpa using hl
      have hW : ∀ e, weight e indices (ys.map Val.num) (.num 1) = .num (wt e indices ys) := by
        intro e; rw [weight_num, one_mul]
      choose! x hx using hnum
      have hx' : ∀ e ∈ edges indices, indexArray shape values e = .num (x e) := by
        intro e he; obtain ⟨w, h, -⟩ := hx e he; exact h
      rw [foldl_add_num (edges indices) v (fun e => x e * wt e indices ys) (by
          intro e he; simp only [hv, hx' e he, hW, Val.mul]) 0,
        foldl_add_num (edges indices) (fun e => Val.mul (Spec.converted a b (indexArray shape values e)) (weight e indices (ys.map Val.num) (.num 1)))
          (fun e => (a * x e + b) * wt e indices ys) (by
          intro e he; simp only [hx' e he, hW, Val.mul, Spec.converted]) 0]
      simp only [Spec.converted, zero_add, Val.num.injEq]
      have hs := sum_weights indices ys hl'
      have : (fun e => (a * x e + b) * wt e indices ys) = fun e => a * (x e * wt e indices ys) + b * wt e indices ys := by
        funext e; ring
      rw [this, List.sum_map_add, sum_mul_left, sum_mul_left, hs, mul_one]

theorem regularGrid_converted (a b : K) (m : Method) (grid : List (List K)) (xs : List K) (shape : List Nat) (values : List Nat → Val K)
    (extrapolate : Bool) :
    regularGrid m grid xs shape (fun idx => Spec.converted a b (values idx)) extrapolate =
      Spec.converted a b (regularGrid m grid xs shape values extrapolate) := by
  unfold regularGrid
  simp only
  split
  · rfl
  · cases m with
    | lin => exact evaluateLinear_converted a b shape values _ _ (by simp)
    | nn => rfl

/-- **C202**. Interpolating gridded data in changed units, linearly or to the nearest point, gives the interpolated value in the
changed units; what is missing, outside the grid or refused is so in both cases. -/
theorem c202_interpolate (a b : K) (flag : Option Nat) (m : Method) (axes : List (Axis K)) (data : List Nat → Val K) (xs : List K)
    (extrapolate missing : Bool) :
    interpolate flag m axes (fun idx => Spec.converted a b (data idx)) xs extrapolate missing =
      (interpolate flag m axes data xs extrapolate missing).map (Spec.converted a b) := by
  unfold interpolate
  split
  · rfl
  split
  · rfl
  have h : ∀ dims, accountForInverted dims (extendShape axes) (extendData axes (fun idx => Spec.converted a b (data idx))) =
      (accountForInverted dims (extendShape axes) (extendData axes data)).map (fun f idx => Spec.converted a b (f idx)) := by
    intro dims
    unfold accountForInverted
    split <;> rfl
  rw [h]
  cases accountForInverted (decreasingDims flag axes) (extendShape axes) (extendData axes data) with
  | none => rfl
  | some values =>
    simp only [Option.map_some, Except.map]
    congr 1
    split
    · rfl
    · exact regularGrid_converted a b m _ xs _ values extrapolate

theorem hybridGrid_converted (a b : K) (m : Method) (grid : List (List K)) (xs : List K) (z : K) (shape : List Nat) (values : List Nat → Val K)
    (hybridShape : List Nat) (hybrid : List Nat → Val K) (hybridDims : List Nat) (levels : Nat) (extrapolate : Bool) :
    hybridGrid m grid xs z shape (fun idx => Spec.converted a b (values idx)) hybridShape hybrid hybridDims levels extrapolate =
      Spec.converted a b (hybridGrid m grid xs z shape values hybridShape hybrid hybridDims levels extrapolate) := by
  unfold hybridGrid
  simp only
  cases columnNums (vColumn m hybridShape hybrid hybridDims levels (List.zipWith findIndex grid xs) (List.zipWith normDistance grid xs)) with
  | none => rfl
  | some col =>
    simp only
    split
    · rfl
    · cases m with
      | lin => exact evaluateLinear_converted a b shape values _ _ (by simp)
      | nn => rfl

/-- **C202**. The same on a grid whose vertical coordinate varies (hybrid heights or pressures). -/
theorem c202_hybrid (a b : K) (m : Method) (grid : List (List K)) (xs : List K) (z : K) (shape : List Nat) (values : List Nat → Val K)
    (hybridShape : List Nat) (hybrid : List Nat → Val K) (hybridDims : List Nat) (levels : Nat) (extrapolate : Bool) :
    hybridGrid m grid xs z shape (fun idx => Spec.converted a b (values idx)) hybridShape hybrid hybridDims levels extrapolate =
      Spec.converted a b (hybridGrid m grid xs z shape values hybridShape hybrid hybridDims levels extrapolate) :=
  hybridGrid_converted a b m grid xs z shape values hybridShape hybrid hybridDims levels extrapolate

/-- Half way between 10 and 20 degrees Celsius. -/
example : interpolate none .lin [(⟨[0, 10], none⟩ : Axis ℚ)] (fun idx => Spec.converted (9 / 5) 32 (.num (if idx = [0] then 10 else 20))) [5] false false
    = .ok (.num 59) := by decide +kernel

end Cis.Interp
