import Verif.Maths.Spec
set_option linter.unusedSectionVars false
set_option linter.unusedSimpArgs false
namespace Cis.Maths

variable {U V R C : Type}

theorem bcastRev_self_iff (a b : List Nat) :
    bcastRev a b = some a ↔ ∀ (k : Nat) (d : Nat), b[k]? = some d → ∃ e, a[k]? = some e ∧ (d = e ∨ d = 1) := by
  induction a generalizing b with
  | nil =>
    cases b with
    | nil => simp [bcastRev]
    | cons y ys => 
      simp only [bcastRev, Option.some.injEq, List.cons_ne_nil, false_iff]
      intro h
      simpa using h 0 y (by simp)
  | cons x xs ih =>
    cases b with
    | nil => simp [bcastRev]
    | cons y ys =>
      have hs : (∀ (k : Nat) (d : Nat), (y :: ys)[k]? = some d → ∃ e, (x :: xs)[k]? = some e ∧ (d = e ∨ d = 1)) ↔
          (y = x ∨ y = 1) ∧ (∀ (k : Nat) (d : Nat), ys[k]? = some d → ∃ e, xs[k]? = some e ∧ (d = e ∨ d = 1)) := by
        constructor
        · intro h
          refine ⟨by simpa using h 0 y (by simp), fun k d hd => by simpa using h (k+1) d (by simpa using hd)⟩
        · rintro ⟨h0, h⟩ k d hd
          cases k with
          | zero => simp at hd; subst hd; exact ⟨x, by simp, h0⟩
          | succ k => simpa using h k d (by simpa using hd)
      rw [hs, ← ih]
      rw [bcastRev]
      cases hr : bcastRev xs ys with
      | none => simp
      | some rest => 
        simp only [Option.some.injEq]
        split
        · rename_i hxy; subst hxy; simp
        · split
          · rename_i h1 h2; subst h2; simp; try omega
          · split
            · rename_i h3; subst h3; simp
            · simp; omega

/-- Arrays can be combined without growing the first operand exactly if the second fits. -/
theorem bcast_self_iff (own other : List Nat) : bcast own other = some own ↔ Fits own other := by
  unfold bcast Fits
  rw [← bcastRev_self_iff]
  cases bcastRev own.reverse other.reverse with
  | none => simp
  | some l => simp [List.reverse_eq_iff]

theorem bindexRev_length (s i : List Nat) (h : s.length ≤ i.length) : (bindexRev s i).length = s.length := by
  induction s generalizing i with
  | nil => simp [bindexRev]
  | cons x xs ih => cases i with
    | nil => simp at h
    | cons y ys => simp [bindexRev, ih ys (by simpa using h)]

theorem bindexRev_get (s i : List Nat) (k d n m : Nat) (hs : s[k]? = some d) (hi : i[k]? = some n) (hm : (bindexRev s i)[k]? = some m) :
    m = if d = 1 then 0 else n := by
  induction s generalizing i k with
  | nil => simp at hs
  | cons x xs ih => cases i with
    | nil => simp at hi
    | cons y ys =>
      cases k with
      | zero => simp [bindexRev] at hs hi hm; subst hs hi; exact hm.symm
      | succ k => simp [bindexRev] at hs hi hm; exact ih ys k hs hi hm

theorem fits_length {own other : List Nat} (h : Fits own other) : other.length ≤ own.length := by
  by_contra hc
  have := h own.length (other.reverse[own.length]'(by simp; omega)) (List.getElem?_eq_getElem _)
  obtain ⟨e, he, _⟩ := this
  have := (List.getElem?_eq_some_iff.1 he).1
  simp at this

theorem stretch_bindex (s i : List Nat) (h : s.length ≤ i.length) : Stretch s i (bindex s i) := by
  refine ⟨by simp [bindex, bindexRev_length s.reverse i.reverse (by simpa using h)], ?_⟩
  intro k d n m hs hi hm
  simp only [bindex, List.reverse_reverse] at hm
  exact bindexRev_get _ _ k d n m hs hi hm

theorem elementwise_binArr (env : Env U V R C) (op : BinOp) (a b : Arr V) (h : Fits a.shape b.shape) :
    Elementwise (env.bin op) a b (binArr env op a b) := by
  refine ⟨rfl, fun i hi => ⟨bindex b.shape i, stretch_bindex _ _ (by rw [hi.1]; exact fits_length h), ?_, ?_⟩⟩
  · intro x y hx hy; simp [binArr, lift2, hx, hy]
  · rintro (hx | hy)
    · simp [binArr, lift2, hx]
    · cases hx : a.get i <;> simp [binArr, lift2, hx, hy]

/-- Setting the dtype does not matter for the elements. -/
theorem Elementwise.retype {f : V → V → Option V} {a b r : Arr V} (h : Elementwise f a b r) (i : Bool) :
    Elementwise f a b { r with isInt := i } := h

theorem assertCompatible_ok_iff {env : Env U V R C} {h : Heap U V R C} {x : Nat} (hg : Good env (h.obj x)) (other : Operand V) :
    assertCompatible h x other = .ok () ↔ Fits (h.obj x).data.shape (operandArr h other).shape := by
  rw [← bcast_self_iff]
  unfold assertCompatible
  rw [hg.1]
  cases hb : bcast (h.obj x).data.shape (operandArr h other).shape with
  | none => cases other <;> simp
  | some s => simp only [Option.some.injEq]; split <;> simp_all [eq_comm]

theorem assertMatchingUnits_ok_iff (env : Env U V R C) (u : Units U) (o : Option (Units U)) :
    assertMatchingUnits env u o = .ok () ↔ SameUnits env u o := by
  unfold assertMatchingUnits SameUnits
  cases o with
  | none => simp
  | some o => cases u <;> cases o <;> simp <;> grind

/-- The units computed before the operation. -/
def newUnits (env : Env U V R C) (op : BinOp) (u : Units U) (o : Option (Units U)) : Except Err (Units U) :=
  match op with
  | .mul => combineUnits env.uMul env.uOne u o
  | .div => combineUnits env.uDiv env.uOne u o
  | _ => match assertMatchingUnits env u o with
    | .ok () => .ok u
    | .error e => .error e

theorem arith_eq (env : Env U V R C) (h : Heap U V R C) (op : BinOp) (x : Nat) (other : Operand V) (ip : Bool) :
    arith env h op x other ip = match newUnits env op (h.obj x).units (operandUnits h other) with
      | .error e => (h, .error e)
      | .ok u => binaryOpCommon env h op x other u ip := by
  cases op <;> simp only [arith, newUnits, add, subtract, multiply, divide, addSubtract]
  all_goals
    cases assertMatchingUnits env (h.obj x).units (operandUnits h other) <;> rfl

theorem combineUnits_ok_iff (f : U → U → Option U) (one : U) (u : Units U) (o : Option (Units U)) (u' : Units U) :
    combineUnits f one u o = .ok u' ↔
      ∃ a b c, u = .cf a ∧ (o = some (.cf b) ∨ o = none ∧ b = one) ∧ f a b = some c ∧ u' = .cf c := by
  unfold combineUnits
  cases u with
  | raw s => cases o with
    | none => simp
    | some o => cases o <;> simp
  | cf a => cases o with
    | none => cases hf : f a one <;> simp [hf]; exact eq_comm
    | some o => cases o with
      | raw s => simp
      | cf b => cases hf : f a b <;> simp [hf]; exact eq_comm

theorem newUnits_ok_iff (env : Env U V R C) (op : BinOp) (u : Units U) (o : Option (Units U)) (u' : Units U) :
    newUnits env op u o = .ok u' ↔ ResultUnits env op u o u' := by
  cases op <;> simp only [newUnits, ResultUnits]
  case mul => exact combineUnits_ok_iff _ _ _ _ _
  case div => exact combineUnits_ok_iff _ _ _ _ _
  all_goals
    rw [← assertMatchingUnits_ok_iff]
    cases assertMatchingUnits env u o with
    | error e => simp
    | ok a => simp; exact eq_comm

theorem binaryOpCommon_fail (env : Env U V R C) (h : Heap U V R C) (op : BinOp) (x : Nat) (other : Operand V) (u : Units U)
    (ip : Bool) (e : Err) (he : (binaryOpCommon env h op x other u ip).2 = .error e) : (binaryOpCommon env h op x other u ip).1 = h := by
  unfold binaryOpCommon at *
  cases hc : assertCompatible h x other with
  | error e' => simp
  | ok a =>
    rw [hc] at he
    simp only [mathOpCommon] at he ⊢
    grind

theorem binary_new_eq (env : Env U V R C) (h : Heap U V R C) (op : BinOp) (x : Nat) (other : Operand V) (u : Units U)
    (hc : assertCompatible h x other = .ok ()) :
    binaryOpCommon env h op x other u false =
      (⟨fun m => if m = h.next then
        finish (copyWith env (h.obj x) (binArr env op (h.obj x).data (operandArr h other))) u "unary_func" else h.obj m, h.next + 1⟩,
        .ok h.next) := by
  simp only [binaryOpCommon, hc]; rfl

theorem binary_in_place_eq (env : Env U V R C) (h : Heap U V R C) (op : BinOp) (x : Nat) (other : Operand V) (u : Units U)
    (hc : assertCompatible h x other = .ok ()) :
    binaryOpCommon env h op x other u true =
      if (h.obj x).data.isInt && !binInt op (h.obj x).data.isInt (operandArr h other).isInt then (h, .error .type)
      else (h.set x (finish { h.obj x with data :=
        { binArr env op (h.obj x).data (operandArr h other) with isInt := (h.obj x).data.isInt } } u "unary_func"), .ok x) := by
  simp only [binaryOpCommon, hc, mathOpCommon, if_true]
  by_cases hi : ((h.obj x).data.isInt && !binInt op (h.obj x).data.isInt (operandArr h other).isInt) = true
  · rw [if_pos hi, if_pos (by exact hi)]
  · rw [if_neg hi, if_neg (by exact hi)]

theorem copyWith_good (env : Env U V R C) (o : Obj U V R C) (a : Arr V) (hg : Good env o) (ha : a.shape = o.data.shape) :
    (copyWith env o a).data = a ∧ (copyWith env o a).shape = some o.data.shape ∧ (copyWith env o a).coords = o.coords ∧
      (copyWith env o a).history = o.history := by
  unfold copyWith
  cases hco : o.coords with
  | none => exact ⟨rfl, hg.1, rfl, rfl⟩
  | some c =>
    have := hg.2 c hco a ha
    simp only [this, ha, and_self]

/-- C47: an operation that fails leaves every object as it was. -/
theorem c47_fail_unchanged (env : Env U V R C) (h : Heap U V R C) (op : BinOp) (x : Nat) (other : Operand V) (ip : Bool) (e : Err)
    (he : (arith env h op x other ip).2 = .error e) : (arith env h op x other ip).1 = h := by
  rw [arith_eq] at *
  cases hu : newUnits env op (h.obj x).units (operandUnits h other) with
  | error e' => rfl
  | ok u => rw [hu] at he; exact binaryOpCommon_fail _ _ _ _ _ _ _ _ he

/-- C47: when `+`, `-`, `*`, `/` succeed: the units can be combined and the second operand fits the shape of the first. -/
theorem c47_ok_iff (env : Env U V R C) (h : Heap U V R C) (op : BinOp) (x : Nat) (other : Operand V) (hg : Good env (h.obj x)) :
    (∃ r, (arith env h op x other false).2 = .ok r) ↔
      (∃ u, ResultUnits env op (h.obj x).units (operandUnits h other) u) ∧
        Fits (h.obj x).data.shape (operandArr h other).shape := by
  rw [arith_eq, ← assertCompatible_ok_iff hg]
  simp only [← newUnits_ok_iff]
  cases hu : newUnits env op (h.obj x).units (operandUnits h other) with
  | error e => simp
  | ok u =>
    simp only [binaryOpCommon]
    cases hc : assertCompatible h x other with
    | error e => simp
    | ok a => simp [mathOpCommon]

/-- C47: in place it must moreover be possible to store the result: an integer array takes integer results only. -/
theorem c47_in_place_ok_iff (env : Env U V R C) (h : Heap U V R C) (op : BinOp) (x : Nat) (other : Operand V)
    (hg : Good env (h.obj x)) :
    (∃ r, (arith env h op x other true).2 = .ok r) ↔
      (∃ u, ResultUnits env op (h.obj x).units (operandUnits h other) u) ∧
        Fits (h.obj x).data.shape (operandArr h other).shape ∧
        ((h.obj x).data.isInt = true → op ≠ .div ∧ (operandArr h other).isInt = true) := by
  rw [arith_eq, ← assertCompatible_ok_iff hg]
  simp only [← newUnits_ok_iff]
  cases hu : newUnits env op (h.obj x).units (operandUnits h other) with
  | error e => simp
  | ok u =>
    simp only [binaryOpCommon]
    cases hc : assertCompatible h x other with
    | error e => simp
    | ok a =>
      cases hi : (h.obj x).data.isInt <;> cases ho : (operandArr h other).isInt <;> cases op <;>
        simp [mathOpCommon, binArr, binInt, hi, ho]

/-- C47: a successful operation without `in_place` makes a new object and leaves all others alone; the new object holds, element by
element, the result of the operation on the first operand and the stretched second one, has the shape and coordinates of the first
operand, the units required and one more line of history. -/
theorem c47_new (env : Env U V R C) (h : Heap U V R C) (op : BinOp) (x : Nat) (other : Operand V) (r : Nat) (hg : Good env (h.obj x))
    (hr : (arith env h op x other false).2 = .ok r) :
    r = h.next ∧ (∀ m, m ≠ r → (arith env h op x other false).1.obj m = h.obj m) ∧
      Elementwise (env.bin op) (h.obj x).data (operandArr h other) ((arith env h op x other false).1.obj r).data ∧
      ((arith env h op x other false).1.obj r).shape = some (h.obj x).data.shape ∧
      ((arith env h op x other false).1.obj r).coords = (h.obj x).coords ∧
      ResultUnits env op (h.obj x).units (operandUnits h other) ((arith env h op x other false).1.obj r).units ∧
      (∃ line, ((arith env h op x other false).1.obj r).history = (h.obj x).history ++ [line]) := by
  rw [arith_eq] at *
  cases hu : newUnits env op (h.obj x).units (operandUnits h other) with
  | error e => rw [hu] at hr; simp at hr
  | ok u =>
    rw [hu] at hr
    have hru := (newUnits_ok_iff ..).1 hu
    simp only at hr ⊢
    cases hc : assertCompatible h x other with
    | error e => simp [binaryOpCommon, hc] at hr
    | ok a =>
      have hf := (assertCompatible_ok_iff hg other).1 hc
      have he := elementwise_binArr env op _ _ hf
      obtain ⟨h1, h2, h3, h4⟩ := copyWith_good env (h.obj x) (binArr env op (h.obj x).data (operandArr h other)) hg rfl
      rw [binary_new_eq _ _ _ _ _ _ hc] at hr ⊢
      simp only [Except.ok.injEq] at hr
      subst hr
      simp only [if_true, finish]
      exact ⟨trivial, fun m hm => if_neg hm, by rw [h1]; exact he, h2, h3, hru, _, by rw [h4]⟩

/-- C47: a successful operation with `in_place` returns the first operand itself, leaves all other objects alone, and the operand then
holds, element by element, the result of the operation on what the operands held before - even if both operands are the same
object. -/
theorem c47_in_place (env : Env U V R C) (h : Heap U V R C) (op : BinOp) (x : Nat) (other : Operand V) (r : Nat)
    (hg : Good env (h.obj x)) (hr : (arith env h op x other true).2 = .ok r) :
    r = x ∧ (∀ m, m ≠ x → (arith env h op x other true).1.obj m = h.obj m) ∧
      Elementwise (env.bin op) (h.obj x).data (operandArr h other) ((arith env h op x other true).1.obj x).data ∧
      ((arith env h op x other true).1.obj x).shape = some (h.obj x).data.shape ∧
      ((arith env h op x other true).1.obj x).coords = (h.obj x).coords ∧
      ((arith env h op x other true).1.obj x).attrs = (h.obj x).attrs ∧
      ResultUnits env op (h.obj x).units (operandUnits h other) ((arith env h op x other true).1.obj x).units ∧
      (∃ line, ((arith env h op x other true).1.obj x).history = (h.obj x).history ++ [line]) := by
  rw [arith_eq] at *
  cases hu : newUnits env op (h.obj x).units (operandUnits h other) with
  | error e => rw [hu] at hr; simp at hr
  | ok u =>
    rw [hu] at hr
    have hru := (newUnits_ok_iff ..).1 hu
    simp only at hr ⊢
    cases hc : assertCompatible h x other with
    | error e => simp [binaryOpCommon, hc] at hr
    | ok a =>
      have hf := (assertCompatible_ok_iff hg other).1 hc
      have he := elementwise_binArr env op _ _ hf
      rw [binary_in_place_eq _ _ _ _ _ _ hc] at hr ⊢
      by_cases hi : ((h.obj x).data.isInt && !binInt op (h.obj x).data.isInt (operandArr h other).isInt) = true
      · rw [if_pos hi] at hr; simp at hr
      · rw [if_neg hi] at hr ⊢
        simp only [Except.ok.injEq] at hr
        subst hr
        simp only [if_true, finish, Heap.set]
        exact ⟨trivial, fun m hm => if_neg hm, he.retype _, hg.1, trivial, trivial, hru, _, rfl⟩

/-- C47: which error: differing units are reported before anything else, as NotImplementedError. -/
theorem c47_units_error (env : Env U V R C) (h : Heap U V R C) (op : BinOp) (hop : op = .add ∨ op = .sub) (x n : Nat) (ip : Bool) :
    (arith env h op x (.ref n) ip).2 = .error .notImplemented ↔
      (∃ a b, (h.obj x).units = .cf a ∧ (h.obj n).units = .cf b ∧ env.uEq a b = false) ∨
      (∃ a b, (h.obj x).units = .raw a ∧ (h.obj n).units = .raw b ∧ a ≠ b) := by
  have key : ∀ u, (binaryOpCommon env h op x (.ref n) u ip).2 ≠ .error .notImplemented := by
    intro u
    simp only [binaryOpCommon, assertCompatible, mathOpCommon]
    grind
  rw [arith_eq]
  rcases hop with rfl | rfl <;> simp only [newUnits, operandUnits, assertMatchingUnits]
  all_goals
    cases (h.obj x).units <;> cases (h.obj n).units <;> simp
    case cf.cf a b => cases hab : env.uEq a b <;> simp [key]
    case raw.raw a b => by_cases hab : a = b <;> simp [hab, key]

/-- Numbers and arrays never cause a units error of `+` and `-`. -/
theorem c47_plain_operand (env : Env U V R C) (h : Heap U V R C) (op : BinOp) (hop : op = .add ∨ op = .sub) (x : Nat) (other : Operand V)
    (hn : ∀ n, other ≠ .ref n) (hg : Good env (h.obj x)) :
    (∃ r, (arith env h op x other false).2 = .ok r) ↔ Fits (h.obj x).data.shape (operandArr h other).shape := by
  rw [c47_ok_iff env h op x other hg]
  have : operandUnits h other = none := by cases other <;> simp_all [operandUnits]
  rw [this]
  simp only [and_iff_right_iff_imp]
  rintro -
  rcases hop with rfl | rfl <;> exact ⟨_, Or.inl rfl, rfl⟩

/-- `number + data` is `data + number` (`__radd__ = __add__`), and a number always fits. -/
theorem scalar_fits (env : Env U V R C) (h : Heap U V R C) (x : Nat) (v : V) (i : Bool) :
    Fits (h.obj x).data.shape (operandArr h (.scalar v i)).shape := by
  intro k d hd; simp [operandArr] at hd

/-! ### Unary functions and powers -/

/-- C47: a unary function without `in_place`. -/
theorem c47_unary_new (env : Env U V R C) (h : Heap U V R C) (f : UnOp) (x r : Nat) (hg : Good env (h.obj x))
    (hr : (unary env h f x false).2 = .ok r) :
    r = h.next ∧ (∀ m, m ≠ r → (unary env h f x false).1.obj m = h.obj m) ∧
      Pointwise (env.un f) (h.obj x).data ((unary env h f x false).1.obj r).data ∧
      ((unary env h f x false).1.obj r).shape = some (h.obj x).data.shape ∧
      ((unary env h f x false).1.obj r).coords = (h.obj x).coords ∧
      unUnits env f (h.obj x).units = .ok ((unary env h f x false).1.obj r).units := by
  unfold unary at *
  cases hu : unUnits env f (h.obj x).units with
  | error e => rw [hu] at hr; simp at hr
  | ok u =>
    rw [hu] at hr
    simp only [mathOpCommon, finish, Bool.false_eq_true, if_false, Except.ok.injEq] at hr ⊢
    subst hr
    refine ⟨rfl, fun m hm => by simp [hm], ?_⟩
    simp only [if_true]
    generalize hm : mapArr (env.un f) (unInt f (h.obj x).data.isInt) (h.obj x).data = mr
    have hp : Pointwise (env.un f) (h.obj x).data mr := by
      subst hm
      refine ⟨rfl, fun i => ⟨fun y hy => by simp [mapArr, lift1, hy], fun hy => by simp [mapArr, lift1, hy]⟩⟩
    unfold copyWith
    cases hco : (h.obj x).coords with
    | none => exact ⟨hp, hg.1, rfl, trivial⟩
    | some c =>
      have := hg.2 c hco mr hp.1
      simp only [this]
      exact ⟨hp, by rw [hp.1], trivial, trivial⟩

/-- C47 in place, for arrays of a float type (and for `abs` always): the operand holds the values of the function. -/
theorem c47_unary_in_place (env : Env U V R C) (h : Heap U V R C) (f : UnOp) (x r : Nat)
    (hf : (h.obj x).data.isInt = false ∨ f = .abs) (hr : (unary env h f x true).2 = .ok r) :
    r = x ∧ (∀ m, m ≠ x → (unary env h f x true).1.obj m = h.obj m) ∧
      Pointwise (env.un f) (h.obj x).data ((unary env h f x true).1.obj x).data ∧
      unUnits env f (h.obj x).units = .ok ((unary env h f x true).1.obj x).units := by
  unfold unary at *
  cases hu : unUnits env f (h.obj x).units with
  | error e => rw [hu] at hr; simp at hr
  | ok u =>
    rw [hu] at hr
    have ho : ufuncOut (h.obj x).data (mapArr (env.un f) (unInt f (h.obj x).data.isInt) (h.obj x).data) =
        .fits { mapArr (env.un f) (unInt f (h.obj x).data.isInt) (h.obj x).data with isInt := (h.obj x).data.isInt } := by
      unfold ufuncOut
      rcases hf with hf | rfl
      · simp [hf]
      · simp [mapArr, unInt]
    simp only [mathOpCommon, finish, if_true, ho, Except.ok.injEq] at hr ⊢
    subst hr
    refine ⟨rfl, fun m hm => by simp [Heap.set, hm], ?_, by simp [Heap.set]⟩
    simp only [Heap.set, if_true]
    exact ⟨rfl, fun i => ⟨fun y hy => by simp [mapArr, lift1, hy], fun hy => by simp [mapArr, lift1, hy]⟩⟩

/-- C47, violated: `exp` and the logarithms in place on integer data compute the values, throw them away and only change the units -
for every integer array and every units for which they do not fail. -/
theorem c47_unary_in_place_violated (env : Env U V R C) (h : Heap U V R C) (f : UnOp) (x : Nat) (hf : f ≠ .abs)
    (hi : (h.obj x).data.isInt = true) (u : Units U) (hu : unUnits env f (h.obj x).units = .ok u) :
    (unary env h f x true).2 = .ok x ∧ ((unary env h f x true).1.obj x).data = (h.obj x).data ∧
      ((unary env h f x true).1.obj x).units = u := by
  unfold unary
  rw [hu]
  have hn : unInt f (h.obj x).data.isInt = false := by cases f <;> simp_all [unInt]
  rw [hi] at hn
  simp [mathOpCommon, finish, ufuncOut, mapArr, hn, hi, Heap.set]

/-- C47: powers without `in_place`. -/
theorem c47_power_new (env : Env U V R C) (h : Heap U V R C) (x r : Nat) (e : V) (ei : Bool) (hg : Good env (h.obj x))
    (hr : (exponentiate env h x e ei false).2 = .ok r) :
    r = h.next ∧ (∀ m, m ≠ r → (exponentiate env h x e ei false).1.obj m = h.obj m) ∧
      Pointwise (fun v => env.pow v e) (h.obj x).data ((exponentiate env h x e ei false).1.obj r).data ∧
      (∃ a b, (h.obj x).units = .cf a ∧ env.uPow a e = some b ∧ ((exponentiate env h x e ei false).1.obj r).units = .cf b) := by
  unfold exponentiate at *
  cases hu : (h.obj x).units with
  | raw s => rw [hu] at hr; simp at hr
  | cf a =>
    rw [hu] at hr
    cases hp : env.uPow a e with
    | none => simp [hp] at hr
    | some b =>
      simp only [hp] at hr ⊢
      by_cases hpe : env.powErr (h.obj x).data e ei = true
      · simp [hpe] at hr
      · rw [if_neg hpe] at hr ⊢
        simp only [mathOpCommon, finish, Bool.false_eq_true, if_false, Except.ok.injEq] at hr ⊢
        subst hr
        refine ⟨rfl, fun m hm => by simp [hm], ?_, a, b, rfl, hp, by simp⟩
        simp only [if_true]
        generalize hm : mapArr (fun v => env.pow v e) ((h.obj x).data.isInt && ei) (h.obj x).data = mr
        have hpt : Pointwise (fun v => env.pow v e) (h.obj x).data mr := by
          subst hm
          refine ⟨rfl, fun i => ⟨fun y hy => by simp [mapArr, lift1, hy], fun hy => by simp [mapArr, lift1, hy]⟩⟩
        unfold copyWith
        cases hco : (h.obj x).coords with
        | none => exact hpt
        | some c =>
          have := hg.2 c hco mr hpt.1
          simp only [this]
          exact hpt

/-- C47: powers in place on data of a float type, or with an integer exponent. -/
theorem c47_power_in_place (env : Env U V R C) (h : Heap U V R C) (x r : Nat) (e : V) (ei : Bool)
    (hf : (h.obj x).data.isInt = false ∨ ei = true) (hr : (exponentiate env h x e ei true).2 = .ok r) :
    r = x ∧ (∀ m, m ≠ x → (exponentiate env h x e ei true).1.obj m = h.obj m) ∧
      Pointwise (fun v => env.pow v e) (h.obj x).data ((exponentiate env h x e ei true).1.obj x).data ∧
      (∃ a b, (h.obj x).units = .cf a ∧ env.uPow a e = some b ∧ ((exponentiate env h x e ei true).1.obj x).units = .cf b) := by
  unfold exponentiate at *
  cases hu : (h.obj x).units with
  | raw s => rw [hu] at hr; simp at hr
  | cf a =>
    rw [hu] at hr
    cases hp : env.uPow a e with
    | none => simp [hp] at hr
    | some b =>
      simp only [hp] at hr ⊢
      by_cases hpe : env.powErr (h.obj x).data e ei = true
      · simp [hpe] at hr
      · rw [if_neg hpe] at hr ⊢
        have ho : ufuncOut (h.obj x).data (mapArr (fun v => env.pow v e) ((h.obj x).data.isInt && ei) (h.obj x).data) =
            .fits { mapArr (fun v => env.pow v e) ((h.obj x).data.isInt && ei) (h.obj x).data with
              isInt := (h.obj x).data.isInt } := by
          unfold ufuncOut
          rcases hf with hf | hf <;> simp [hf, mapArr]
        simp only [mathOpCommon, finish, if_true, ho, Except.ok.injEq] at hr ⊢
        subst hr
        simp only [Heap.set, if_true]
        refine ⟨trivial, fun m hm => if_neg hm, ?_, a, b, rfl, hp, rfl⟩
        exact ⟨rfl, fun i => ⟨fun y hy => by simp [mapArr, lift1, hy], fun hy => by simp [mapArr, lift1, hy]⟩⟩

/-- C47, violated: a non-integer power of integer data in place leaves the data as they were and changes the units. -/
theorem c47_power_in_place_violated (env : Env U V R C) (h : Heap U V R C) (x : Nat) (e : V) (a b : U)
    (hi : (h.obj x).data.isInt = true) (hu : (h.obj x).units = .cf a) (hp : env.uPow a e = some b)
    (hpe : env.powErr (h.obj x).data e false = false) :
    (exponentiate env h x e false true).2 = .ok x ∧
      ((exponentiate env h x e false true).1.obj x).data = (h.obj x).data ∧
      ((exponentiate env h x e false true).1.obj x).units = .cf b := by
  unfold exponentiate
  rw [hu]
  simp [hp, hpe, mathOpCommon, finish, ufuncOut, mapArr, hi, Heap.set]

/-- C71, violated: after an operation in place the recorded range is still that of the old data. -/
theorem c71_in_place_range_violated (env : Env U V R C) (h : Heap U V R C) (op : BinOp) (x : Nat) (other : Operand V) :
    ((arith env h op x other true).1.obj x).range = (h.obj x).range := by
  rw [arith_eq]
  cases newUnits env op (h.obj x).units (operandUnits h other) with
  | error e => rfl
  | ok u =>
    simp only [binaryOpCommon, mathOpCommon]
    cases assertCompatible h x other with
    | error e => rfl
    | ok a => simp only [if_true]; split <;> grind [Heap.set, finish]

/-- C71: a new ungridded object has the range of its own data. -/
theorem c71_range_partial (env : Env U V R C) (h : Heap U V R C) (op : BinOp) (x r : Nat) (other : Operand V) (c : C) (hc : (h.obj x).coords = some c)
    (hr : (arith env h op x other false).2 = .ok r) :
    ((arith env h op x other false).1.obj r).range =
      some (env.rangeOf ((arith env h op x other false).1.obj r).data (h.obj x).units) := by
  rw [arith_eq] at *
  cases hu : newUnits env op (h.obj x).units (operandUnits h other) with
  | error e => rw [hu] at hr; simp at hr
  | ok u =>
    rw [hu] at hr
    simp only [binaryOpCommon, mathOpCommon] at hr ⊢
    cases hca : assertCompatible h x other with
    | error e => rw [hca] at hr; simp at hr
    | ok a => rw [hca] at hr; simp at hr; subst hr; simp [finish, copyWith, hc]

/-- C71, violated: a coordinate computed from a coordinate has the range of the latter. -/
theorem c71_coord_range_violated (env : Env U V R C) (h : Heap U V R C) (op : BinOp) (x r : Nat) (other : Operand V)
    (hc : (h.obj x).coords = none) (hr : (arith env h op x other false).2 = .ok r) :
    ((arith env h op x other false).1.obj r).range = (h.obj x).range := by
  rw [arith_eq] at *
  cases hu : newUnits env op (h.obj x).units (operandUnits h other) with
  | error e => rw [hu] at hr; simp at hr
  | ok u =>
    rw [hu] at hr
    simp only [binaryOpCommon, mathOpCommon] at hr ⊢
    cases hca : assertCompatible h x other with
    | error e => rw [hca] at hr; simp at hr
    | ok a => rw [hca] at hr; simp at hr; subst hr; simp [finish, copyWith, hc]

/-- C71, violated: no arithmetic is possible on a coordinate whose metadata have no shape - which is every coordinate made from an
array that has not been attached to data. -/
theorem c71_no_shape_violated (env : Env U V R C) (h : Heap U V R C) (op : BinOp) (x : Nat) (other : Operand V) (ip : Bool)
    (hs : (h.obj x).shape = none) : ∀ r, (arith env h op x other ip).2 ≠ .ok r := by
  intro r hr
  rw [arith_eq] at hr
  cases hu : newUnits env op (h.obj x).units (operandUnits h other) with
  | error e => rw [hu] at hr; simp at hr
  | ok u =>
    rw [hu] at hr
    simp only [binaryOpCommon, assertCompatible, hs] at hr
    grind

/-- C71, violated: the history of a result does not tell which operation it was - it is the same line for all four. -/
theorem c71_history_violated (env : Env U V R C) (h : Heap U V R C) (op : BinOp) (x r : Nat) (other : Operand V)
    (hr : (arith env h op x other false).2 = .ok r) :
    ((arith env h op x other false).1.obj r).history = (h.obj x).history ++ ["Performed unary_func operation"] := by
  rw [arith_eq] at *
  cases hu : newUnits env op (h.obj x).units (operandUnits h other) with
  | error e => rw [hu] at hr; simp at hr
  | ok u =>
    rw [hu] at hr
    simp only [binaryOpCommon, mathOpCommon] at hr ⊢
    cases hca : assertCompatible h x other with
    | error e => rw [hca] at hr; simp at hr
    | ok a =>
      rw [hca] at hr; simp at hr; subst hr
      simp only [Bool.false_eq_true, if_false, if_true, finish, copyWith]
      cases (h.obj x).coords <;> simp

/-- C47: the history of the result of a unary function tells which one it was. -/
theorem c47_unary_history (env : Env U V R C) (h : Heap U V R C) (f : UnOp) (x r : Nat) (hr : (unary env h f x false).2 = .ok r) :
    ((unary env h f x false).1.obj r).history = (h.obj x).history ++
      [match f with
        | .abs => "Performed absolute operation"
        | .exp => "Performed exp operation"
        | .log => "Performed log operation"
        | .log2 => "Performed log2 operation"
        | .log10 => "Performed log10 operation"] := by
  unfold unary at *
  cases hu : unUnits env f (h.obj x).units with
  | error e => rw [hu] at hr; simp at hr
  | ok u =>
    rw [hu] at hr
    simp only [mathOpCommon, Bool.false_eq_true, if_false, Except.ok.injEq] at hr ⊢
    subst hr
    simp only [Bool.false_eq_true, if_false, if_true, finish, copyWith]
    cases (h.obj x).coords <;> cases f <;> rfl

/-- C71, violated: attributes the user has added are lost in every result. -/
theorem c71_attributes_violated (env : Env U V R C) (h : Heap U V R C) (op : BinOp) (x r : Nat) (other : Operand V)
    (hr : (arith env h op x other false).2 = .ok r) : ((arith env h op x other false).1.obj r).attrs = [] := by
  rw [arith_eq] at *
  cases hu : newUnits env op (h.obj x).units (operandUnits h other) with
  | error e => rw [hu] at hr; simp at hr
  | ok u =>
    rw [hu] at hr
    simp only [binaryOpCommon, mathOpCommon] at hr ⊢
    cases hca : assertCompatible h x other with
    | error e => rw [hca] at hr; simp at hr
    | ok a =>
      rw [hca] at hr; simp at hr; subst hr
      simp only [Bool.false_eq_true, if_false, if_true, finish, copyWith]
      cases (h.obj x).coords <;> rfl

/-! ### A concrete world: integers, units are powers of the metre -/

/-- Integers with the usual operations; units are exponents of the metre. -/
def exEnv : Env Int Int Nat Unit where
  bin | .add, a, b => some (a + b) | .sub, a, b => some (a - b) | .mul, a, b => some (a * b)
      | .div, a, b => if b = 0 then none else some (a / b)
  un | .abs, a => some (a.natAbs : Int) | _, a => some a
  pow a b := some (a ^ b.toNat)
  powErr _ b i := i && decide (b < 0)
  uEq a b := a == b
  uMul a b := some (a + b)
  uDiv a b := some (a - b)
  uPow a b := some (a * b)
  uLog a _ := some a
  uOne := 0
  rangeOf _ _ := 0
  post a c := (a, c)

/-- A `2 × 3` array of metres and a row of `3` metres. -/
def exHeap : Heap Int Int Nat Unit where
  obj n := if n = 0 then
      ⟨⟨[2, 3], false, fun i => if i = [1, 2] then none else some ((i.headD 0 : Nat) * 10 + (i.getLastD 0 : Nat))⟩, .cf 1, ["made"], some [2, 3],
        none, [("a", "b")], some ()⟩
    else ⟨⟨[3], true, fun i => some ((i.headD 0 : Nat) + 100)⟩, .cf 1, [], some [3], none, [], none⟩
  next := 2

example : Good exEnv (exHeap.obj 0) := ⟨rfl, fun _ _ _ _ => rfl⟩
example : Fits [2, 3] [3] ∧ ¬ Fits [3] [2, 3] ∧ ¬ Fits [2, 3] [2] ∧ Fits [2, 3] [2, 1] ∧ ¬ Fits [1, 3] [2, 3] := by
  simp only [← bcast_self_iff]; decide
example : (arith exEnv exHeap .sub 0 (.ref 1) false).2 = .ok 2 ∧
    ((arith exEnv exHeap .sub 0 (.ref 1) false).1.obj 2).data.get [1, 1] = some (-90) ∧
    ((arith exEnv exHeap .sub 0 (.ref 1) false).1.obj 2).data.get [1, 2] = none ∧
    ((arith exEnv exHeap .mul 0 (.ref 1) true).1.obj 0).units = .cf 2 ∧
    (arith exEnv exHeap .sub 1 (.ref 0) false).2 = .error .value ∧
    (arith exEnv exHeap .div 1 (.scalar 2 true) true).2 = .error .type ∧
    ((unary exEnv exHeap .exp 1 true).1.obj 1).units = .cf 0 := by decide +kernel

end Cis.Maths
