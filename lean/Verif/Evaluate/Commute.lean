import Verif.Evaluate.Props
import Verif.Subset.Props
set_option linter.unusedSectionVars false
set_option linter.unusedSimpArgs false
/-!
Evaluating and subsetting ungridded data (C155): `Calculator.evaluate` (cis/evaluate.py, modelled in Evaluate/Model.lean) on expressions made of names, numbers,
operators and functions of numpy that work element by element, and functions that reduce an array to a number; subsetting as modelled in
Subset/Model.lean (cis/subsetting/subset.py).
-/
namespace Cis.Evaluate
open Cis.Subset (UData Limit CState select select_nil select_nil' select_cons select_length)

variable {V : Type}

/-! ### Expressions -/

/-- An expression. `reduce` is a function such as `numpy.mean` or `max`. Everything else Python allows in an expression is left out. -/
inductive Expr (V : Type)
  | name (s : String)
  | number (v : V)
  | unary (f : V → V) (e : Expr V)
  | binary (f : V → V → V) (e1 e2 : Expr V)
  | reduce (f : List V → V) (e : Expr V)

/-- What the value of an expression can be: a number or an array of one dimension. -/
inductive Value (V : Type)
  | number (v : V)
  | array (l : List V)

/-- The ways evaluation can fail (evaluate.py:51-56 tells apart the first two from all others). -/
inductive Failure
  | nameError | valueError | otherError

/-- The operation of numpy on two operands: numbers and arrays of length one are repeated, other lengths have to agree. -/
def broadcast (f : V → V → V) : Value V → Value V → Except Failure (Value V)
  | .number a, .number b => .ok (.number (f a b))
  | .number a, .array l => .ok (.array (l.map (f a)))
  | .array l, .number b => .ok (.array (l.map (fun a => f a b)))
  | .array l, .array k =>
    if l.length = k.length then .ok (.array (List.zipWith f l k))
    else
      match l, k with
      | [a], k => .ok (.array (k.map (f a)))
      | l, [b] => .ok (.array (l.map (fun a => f a b)))
      | _, _ => .error .valueError

/-- The value of an expression: what `eval(expr, safe_globals, safe_locals)` (evaluate.py:50) does for it. -/
def valueOf (env : String → Option (Binding V)) : Expr V → Except Failure (Value V)
  | .name s =>
    match env s with
    | some (.data a) => .ok (.array a.vals)
    | some _ => .error .otherError
    | none => .error .nameError
  | .number v => .ok (.number v)
  | .unary f e =>
    match valueOf env e with
    | .ok (.number v) => .ok (.number (f v))
    | .ok (.array l) => .ok (.array (l.map f))
    | .error x => .error x
  | .binary f e1 e2 =>
    match valueOf env e1 with
    | .error x => .error x
    | .ok a =>
      match valueOf env e2 with
      | .error x => .error x
      | .ok b => broadcast f a b
  | .reduce f e =>
    match valueOf env e with
    | .ok (.number v) => .ok (.number (f [v]))
    | .ok (.array l) => .ok (.number (f l))
    | .error x => .error x

/-- The value as `Calculator.evaluate` sees it (evaluate.py:50-57): a number has no shape. -/
def outcome : Except Failure (Value V) → Outcome V
  | .ok (.number _) => .scalar
  | .ok (.array l) => .array ⟨[l.length], l⟩
  | .error .nameError => .nameError
  | .error .valueError => .valueError
  | .error .otherError => .otherError

/-- Evaluation of ungridded data by an expression: `evaluate` with Python's `eval` being the function above. -/
def evaluateExpr (repr : List String → String) (version : String) (data : List (Var ℚ V)) (e : Expr V) (text : String) (out units : Option String)
    (attrs : Option (List (String × String))) : Except Err (Result ℚ V) :=
  (evaluate repr version (fun _ env => outcome (valueOf env e)) data text out units attrs).2

/-! ### Subsets of variables -/

/-- The points of an object. -/
def Var.points (v : Var ℚ V) : UData V := ⟨v.coords.map Coord.vals, v.vals⟩

/-- Coordinates with new values, which are flattened (Coord.copy and indexing, ungridded_data.py:533-564). -/
def setCoords (cs : List (Coord ℚ)) (vals : List (List ℚ)) : List (Coord ℚ) :=
  List.zipWith (fun c x => { c with vals := x, metaShape := [x.length] }) cs vals

/-- The object with other points; the result of indexing with a mask has one dimension (ungridded_data.py:533-564). -/
def Var.withPoints (v : Var ℚ V) (u : UData V) : Var ℚ V :=
  { v with shape := [u.values.length], vals := u.values, coords := setCoords v.coords u.coords }

/-- `UngriddedDataList.subset` (ungridded_data.py:1124-1126, subset.py:12-76) with limits: `none` if nothing is selected, which for a list is an exception. -/
def subsetVars (lon lat : Nat) (limits : List Limit) (data : List (Var ℚ V)) : Option (List (Var ℚ V)) :=
  (Cis.Subset.constrainList lon lat ⟨limits, none, none, none⟩ (data.map Var.points)).map (List.zipWith Var.withPoints data)

/-- `UngriddedData.subset` (ungridded_data.py:756-781) with limits of what `evaluate` returned. -/
def subsetResult (lon lat : Nat) (limits : List Limit) (r : Result ℚ V) : Option (Result ℚ V) :=
  ((Cis.Subset.constrain lon lat ⟨limits, none, none, none⟩ ⟨r.coords.map Coord.vals, r.vals⟩).2).map
    (fun u => { r with shape := [u.values.length], vals := u.values, coords := setCoords r.coords u.coords })

/-! ### Specification -/

namespace Spec

/-- No function that reduces an array to a number. -/
def Elementwise : Expr V → Prop
  | .name _ => True
  | .number _ => True
  | .unary _ e => Elementwise e
  | .binary _ e1 e2 => Elementwise e1 ∧ Elementwise e2
  | .reduce _ _ => False

/-- The value of an expression at one point, where every variable has one value. -/
def at' (x : String → Option V) : Expr V → Option V
  | .name s => x s
  | .number v => some v
  | .unary f e => (at' x e).map f
  | .binary f e1 e2 => (at' x e1).bind (fun a => (at' x e2).map (f a))
  | .reduce _ _ => none

/-- The value of the variable called `s` (the last one of that name) at point number `i`. -/
def valueAt (data : List (Var ℚ V)) (i : Nat) (s : String) : Option V :=
  (data.reverse.find? (fun v => v.aliasName = s)).bind (fun v => v.vals[i]?)

/-- Ungridded variables on the same points, any number of dimensions. -/
structure SamePoints (data : List (Var ℚ V)) (n : Nat) (coords : List (List ℚ)) : Prop where
  ungridded : ∀ v ∈ data, v.gridded = false
  shape : ∀ v ∈ data, v.shape ≠ [] ∧ v.shape.prod = n
  length : ∀ v ∈ data, v.vals.length = n
  coords_eq : ∀ v ∈ data, v.coords.map Coord.vals = coords
  coords_length : ∀ c ∈ coords, c.length = n

/-- Every name in the expression is that of a variable. -/
def Known (data : List (Var ℚ V)) : Expr V → Prop
  | .name s => ∃ v ∈ data, v.aliasName = s
  | .number _ => True
  | .unary _ e => Known data e
  | .binary _ e1 e2 => Known data e1 ∧ Known data e2
  | .reduce _ e => Known data e

/-- Some name occurs in the expression. -/
def Named : Expr V → Prop
  | .name _ => True
  | .number _ => False
  | .unary _ e => Named e
  | .binary _ e1 e2 => Named e1 ∨ Named e2
  | .reduce _ e => Named e

end Spec

/-! ### Proofs -/

theorem localsOf_eq (data : List (Var ℚ V)) (s : String) :
    localsOf data s = (data.reverse.find? (fun v => v.aliasName = s)).map varArr := by
  unfold localsOf
  induction data using List.reverseRecOn with
  | nil => rfl
  | append_singleton l v ih =>
    rw [List.foldl_append, List.reverse_append]
    simp only [List.foldl_cons, List.foldl_nil, List.reverse_cons, List.reverse_nil, List.nil_append, List.cons_append, List.find?_cons]
    by_cases h : s = v.aliasName
    · simp [h]
    · have h' : ¬ v.aliasName = s := fun e => h e.symm
      simp [h, h', ih]

/-- The values of an elementwise expression. -/
theorem valueOf_pointwise (data : List (Var ℚ V)) (n : Nat) (coords : List (List ℚ)) (hd : Spec.SamePoints data n coords) (e : Expr V)
    (he : Spec.Elementwise e) (hk : Spec.Known data e) :
    (Spec.Named e → ∃ l, valueOf (lookup data) e = .ok (.array l) ∧ l.length = n ∧ ∀ i < n, l[i]? = Spec.at' (Spec.valueAt data i) e) ∧
    (¬ Spec.Named e → ∃ v, valueOf (lookup data) e = .ok (.number v) ∧ ∀ i, Spec.at' (Spec.valueAt data i) e = some v) := by
  induction e with
  | name s =>
    refine ⟨fun _ => ?_, fun h => absurd trivial h⟩
    obtain ⟨v, hv, hs⟩ := hk
    have hf : ∃ w, data.reverse.find? (fun v => v.aliasName = s) = some w := by
      rw [← Option.isSome_iff_exists, List.find?_isSome]
      exact ⟨v, by simpa using hv, by simpa using hs⟩
    obtain ⟨w, hw⟩ := hf
    have hwd : w ∈ data := by simpa using List.mem_of_find?_eq_some hw
    refine ⟨w.vals, ?_, hd.length w hwd, fun i _ => ?_⟩
    · simp [valueOf, lookup, localsOf_eq, hw, varArr, hd.ungridded w hwd]
    · simp [Spec.at', Spec.valueAt, hw]
  | number v => exact ⟨fun h => absurd h (by simp [Spec.Named]), fun _ => ⟨v, rfl, fun i => rfl⟩⟩
  | unary f e ih =>
    obtain ⟨h1, h2⟩ := ih he hk
    constructor
    · intro hn
      obtain ⟨l, hl, hn', hi⟩ := h1 hn
      refine ⟨l.map f, by simp [valueOf, hl], by simpa using hn', fun i h => ?_⟩
      rw [List.getElem?_map, hi i h]; rfl
    · intro hn
      obtain ⟨v, hv, hi⟩ := h2 hn
      exact ⟨f v, by simp [valueOf, hv], fun i => by simp [Spec.at', hi i]⟩
  | binary f e1 e2 ih1 ih2 =>
    obtain ⟨a1, a2⟩ := ih1 he.1 hk.1
    obtain ⟨b1, b2⟩ := ih2 he.2 hk.2
    by_cases n1 : Spec.Named e1 <;> by_cases n2 : Spec.Named e2
    · refine ⟨fun _ => ?_, fun h => absurd (Or.inl n1) h⟩
      obtain ⟨l, hl, hln, hli⟩ := a1 n1
      obtain ⟨k, hk', hkn, hki⟩ := b1 n2
      refine ⟨List.zipWith f l k, by simp [valueOf, hl, hk', broadcast, hln, hkn], by simp [hln, hkn], fun i h => ?_⟩
      rw [Spec.at', ← hli i h, ← hki i h, List.getElem?_zipWith, List.getElem?_eq_getElem (by omega), List.getElem?_eq_getElem (by omega)]
      rfl
    · refine ⟨fun _ => ?_, fun h => absurd (Or.inl n1) h⟩
      obtain ⟨l, hl, hln, hli⟩ := a1 n1
      obtain ⟨v, hv, hvi⟩ := b2 n2
      refine ⟨l.map (fun a => f a v), by simp [valueOf, hl, hv, broadcast], by simp [hln], fun i h => ?_⟩
      rw [Spec.at', ← hli i h, hvi i, List.getElem?_map]
      cases l[i]? <;> rfl
    · refine ⟨fun _ => ?_, fun h => absurd (Or.inr n2) h⟩
      obtain ⟨v, hv, hvi⟩ := a2 n1
      obtain ⟨k, hk', hkn, hki⟩ := b1 n2
      refine ⟨k.map (f v), by simp [valueOf, hv, hk', broadcast], by simp [hkn], fun i h => ?_⟩
      rw [Spec.at', ← hki i h, hvi i, List.getElem?_map]
      rfl
    · refine ⟨fun h => (h.elim n1 n2).elim, fun _ => ?_⟩
      obtain ⟨v, hv, hvi⟩ := a2 n1
      obtain ⟨w, hw, hwi⟩ := b2 n2
      exact ⟨f v w, by simp [valueOf, hv, hw, broadcast], fun i => by simp [Spec.at', hvi i, hwi i]⟩
  | reduce f e => exact he.elim

/-- The result of `evaluate` with the values `l`. -/
def resultOf (repr : List String → String) (version : String) (data : List (Var ℚ V)) (v : Var ℚ V) (l : List V) (text : String) (out units : Option String)
    (attrs : Option (List (String × String))) : Result ℚ V where
  varName := out.getD "calculated_variable"
  longName := "Calculated value for expression \"" ++ text ++ "\""
  units := units.getD "unknown"
  history := makeHistory repr version data text
  attrs := attrs.getD []
  gridded := v.gridded
  shape := [l.length]
  vals := l
  coords := newCoords v

theorem evaluateExpr_eq (repr : List String → String) (version : String) (v : Var ℚ V) (rest : List (Var ℚ V)) (hu : v.gridded = false) (hs : v.shape ≠ [])
    (e : Expr V) (hlen : ∀ l, valueOf (lookup (v :: rest)) e = .ok (.array l) → v.shape.prod = l.length)
    (text : String) (out units : Option String) (attrs : Option (List (String × String))) :
    evaluateExpr repr version (v :: rest) e text out units attrs =
      if hasDunder text.toList then .error .evaluation
      else
        match valueOf (lookup (v :: rest)) e with
        | .error .nameError => .error .evaluation
        | .error .valueError => .error .evaluation
        | .error .otherError => .error .other
        | .ok (.number _) => .error .attribute
        | .ok (.array l) => .ok (resultOf repr version (v :: rest) v l text out units attrs) := by
  unfold evaluateExpr evaluate
  cases hd : hasDunder text.toList with
  | true => simp
  | false =>
    simp only [Bool.false_eq_true, if_false]
    cases hx : valueOf (lookup (v :: rest)) e with
    | error x => cases x <;> simp [outcome]
    | ok a =>
      cases a with
      | number w => simp [outcome, hs]
      | array l =>
        have h1 := hlen l hx
        simp [outcome, hu, hs, h1, resultOf]

/-- **C155**. An elementwise expression on variables on the same points gives, at every point, the value of the expression on the values there, on the
coordinates of the first variable. -/
theorem c155_pointwise (repr : List String → String) (version : String) (v : Var ℚ V) (rest : List (Var ℚ V)) (n : Nat) (coords : List (List ℚ))
    (hd : Spec.SamePoints (v :: rest) n coords) (e : Expr V) (he : Spec.Elementwise e) (hk : Spec.Known (v :: rest) e) (hn : Spec.Named e)
    (text : String) (ht : hasDunder text.toList = false) (out units : Option String) (attrs : Option (List (String × String))) :
    ∃ r, evaluateExpr repr version (v :: rest) e text out units attrs = .ok r ∧ r.vals.length = n ∧ r.shape = [n] ∧ r.gridded = false ∧
      r.coords.map (fun c => (c.name, c.vals)) = v.coords.map (fun c => (c.name, c.vals)) ∧
      ∀ i < n, r.vals[i]? = Spec.at' (Spec.valueAt (v :: rest) i) e := by
  obtain ⟨l, hl, hln, hli⟩ := (valueOf_pointwise _ n coords hd e he hk).1 hn
  have hu := hd.ungridded v (by simp)
  have hs := hd.shape v (by simp)
  refine ⟨resultOf repr version (v :: rest) v l text out units attrs, ?_, hln, by simp [resultOf, hln], hu, c48_coords v, hli⟩
  rw [evaluateExpr_eq repr version v rest hu hs.1 e (fun k hk' => by rw [hl] at hk'; cases hk'; rw [hs.2, hln]), ht, hl]
  simp

/-! #### Subsetting -/

/-- Selection of an array in a value. -/
def Value.sel (m : List Bool) : Value V → Value V
  | .number v => .number v
  | .array l => .array (select m l)

theorem select_map' {α β : Type} (f : α → β) : ∀ (m : List Bool) (l : List α), select m (l.map f) = (select m l).map f
  | [], l => by simp
  | b :: m, [] => by simp
  | b :: m, a :: l => by
    rw [List.map_cons, select_cons, select_cons, select_map' f m l]
    cases b <;> simp

theorem select_zipWith {α β γ : Type} (f : α → β → γ) : ∀ (m : List Bool) (l : List α) (k : List β), l.length = k.length →
    select m (List.zipWith f l k) = List.zipWith f (select m l) (select m k)
  | [], l, k, _ => by simp
  | b :: m, [], k, h => by
    cases k with
    | nil => simp
    | cons => simp at h
  | b :: m, a :: l, [], h => by simp at h
  | b :: m, a :: l, c :: k, h => by
    rw [List.zipWith_cons_cons, select_cons, select_cons, select_cons, select_zipWith f m l k (by simpa using h)]
    cases b <;> simp

/-- The meaning of names before and after the selection. -/
def EnvSel (m : List Bool) (env1 env2 : String → Option (Binding V)) : Prop :=
  ∀ s, (∃ a : Arr V, env1 s = some (.data a) ∧ a.vals.length = m.length ∧ ∃ b : Arr V, env2 s = some (.data b) ∧ b.vals = select m a.vals) ∨
    ((∀ a, env1 s ≠ some (.data a)) ∧ env2 s = env1 s)

theorem valueOf_select (m : List Bool) (env1 env2 : String → Option (Binding V)) (h : EnvSel m env1 env2) (e : Expr V) (he : Spec.Elementwise e) :
    valueOf env2 e = (valueOf env1 e).map (Value.sel m) ∧ ∀ l, valueOf env1 e = .ok (.array l) → l.length = m.length := by
  induction e with
  | name s =>
    rcases h s with ⟨a, h1, h2, b, h3, h4⟩ | ⟨h1, h2⟩
    · simp [valueOf, h1, h3, h4, h2, Except.map, Value.sel]
    · unfold valueOf
      rw [h2]
      cases hx : env1 s with
      | none => simp [Except.map]
      | some b =>
        cases b with
        | data a => exact absurd hx (h1 a)
        | _ => simp [Except.map]
  | number v => simp [valueOf, Except.map, Value.sel]
  | unary f e ih =>
    obtain ⟨h1, h2⟩ := ih he
    simp only [valueOf, h1]
    cases hx : valueOf env1 e with
    | error x => simp [Except.map]
    | ok a =>
      cases a with
      | number v => simp [Except.map, Value.sel]
      | array l => simp [Except.map, Value.sel, select_map', h2 l hx]
  | binary f e1 e2 ih1 ih2 =>
    obtain ⟨a1, a2⟩ := ih1 he.1
    obtain ⟨b1, b2⟩ := ih2 he.2
    simp only [valueOf, a1, b1]
    cases hx : valueOf env1 e1 with
    | error x => simp [Except.map]
    | ok a =>
      cases hy : valueOf env1 e2 with
      | error x => simp [Except.map]
      | ok b =>
        cases a with
        | number v =>
          cases b with
          | number w => simp [Except.map, Value.sel, broadcast]
          | array l => simp [Except.map, Value.sel, broadcast, select_map', b2 l hy]
        | array k =>
          cases b with
          | number w => simp [Except.map, Value.sel, broadcast, select_map', a2 k hx]
          | array l =>
            have e1' := a2 k hx
            have e2' := b2 l hy
            simp [Except.map, Value.sel, broadcast, e1', e2', select_zipWith, select_length m k e1', select_length m l e2']
  | reduce f e => exact he.elim

/-- What limits select of variables on the same points. -/
theorem constrain_values (lon lat : Nat) (limits : List Limit) (hn : (limits.map Limit.coord).Nodup) (cs : List (List ℚ)) (n : Nat)
    (hl : ∀ l ∈ limits, l.coord < cs.length) (hc : ∀ c ∈ cs, c.length = n) :
    ∃ (m : List Bool) (cs' : List (List ℚ)), cs'.length = cs.length ∧ m.length = n ∧ (∀ c ∈ cs', c.length = n) ∧
      (∀ v : List V, v.length = n → (Cis.Subset.constrain lon lat ⟨limits, none, none, none⟩ ⟨cs, v⟩).2 =
        if (select m v).length = 0 then none else some ⟨cs'.map (select m), select m v⟩) ∧
      ∀ (vars : List (List V)) (st : Option (List Bool)), (∀ v ∈ vars, v.length = n) → (st = none ∨ st = some m) →
        Cis.Subset.constrainList lon lat ⟨limits, none, st, none⟩ (vars.map (fun v => ⟨cs, v⟩)) =
          if vars ≠ [] ∧ m.count true = 0 then none else some (vars.map (fun v => ⟨cs'.map (select m), select m v⟩)) := by
  obtain ⟨cs', hcd⟩ := Cis.Subset.createData_values (V := V) (some lon) limits cs
  have hcd2 : ∀ w : List V, w.length = n → (⟨cs, w⟩ : UData V).WF := fun w hw c h => by rw [hc c h]; exact hw.symm
  by_cases hex : ∃ w : List V, w.length = n
  · obtain ⟨w, hw⟩ := hex
    obtain ⟨f, -, -, -, -, hwf, -, hcm⟩ := Cis.Subset.createData_rows lon limits hn ⟨cs, w⟩ (hcd2 w hw)
    rw [hcd w] at hwf hcm
    have hlen : cs'.length = cs.length := by
      have : cs' = cs.modify lon (List.map f) := hcm
      rw [this, List.length_modify]
    have hm : (Cis.Subset.combinedMask limits (⟨cs', w⟩ : UData V)).length = n := by
      rw [Cis.Subset.combinedMask_length _ hwf limits (fun l h => by rw [show (⟨cs', w⟩ : UData V).coords = cs' from rfl, hlen]; exact hl l h)]
      exact hw
    have hmv : ∀ v : List V, v.length = n → Cis.Subset.combinedMask limits (⟨cs', v⟩ : UData V) = Cis.Subset.combinedMask limits (⟨cs', w⟩ : UData V) :=
      fun v hv => Cis.Subset.combinedMask_values limits cs' v w (by rw [hv, hw])
    have hone : ∀ (st : Option (List Bool)) (v : List V), v.length = n → (st = none ∨ st = some (Cis.Subset.combinedMask limits (⟨cs', w⟩ : UData V))) →
        Cis.Subset.constrain lon lat ⟨limits, none, st, none⟩ ⟨cs, v⟩ =
          (⟨limits, none, some (Cis.Subset.combinedMask limits (⟨cs', w⟩ : UData V)), none⟩,
            if (select (Cis.Subset.combinedMask limits (⟨cs', w⟩ : UData V)) v).length = 0 then none
            else some ⟨cs'.map (select (Cis.Subset.combinedMask limits (⟨cs', w⟩ : UData V))), select (Cis.Subset.combinedMask limits (⟨cs', w⟩ : UData V)) v⟩) := by
      intro st v hv hst
      rcases hst with rfl | rfl
      · simp only [Cis.Subset.constrain, hcd, Option.getD_none, hmv v hv, UData.select]
      · simp only [Cis.Subset.constrain, hcd, Option.getD_some, UData.select]
    refine ⟨Cis.Subset.combinedMask limits (⟨cs', w⟩ : UData V), cs', hlen, hm, fun c h => (hwf c h).trans hw, fun v hv => by rw [hone none v hv (Or.inl rfl)], ?_⟩
    intro vars
    induction vars with
    | nil => intro st _ _; simp [Cis.Subset.constrainList]
    | cons v t ih =>
      intro st hv hst
      have h1 := hone st v (hv v (by simp)) hst
      have hsl := select_length (Cis.Subset.combinedMask limits (⟨cs', w⟩ : UData V)) v (by rw [hm]; exact hv v (by simp))
      have h2 := ih (some (Cis.Subset.combinedMask limits (⟨cs', w⟩ : UData V))) (fun u hu => hv u (by simp [hu])) (Or.inr rfl)
      rw [List.map_cons, Cis.Subset.constrainList, h1, hsl]
      by_cases h0 : (Cis.Subset.combinedMask limits (⟨cs', w⟩ : UData V)).count true = 0
      · simp [h0]
      · simp only [if_neg h0, h2]
        simp [h0]
  · have hno : ∀ w : List V, w.length ≠ n := fun w h => hex ⟨w, h⟩
    refine ⟨List.replicate n false, cs, rfl, by simp, hc, fun v hv => absurd hv (hno v), ?_⟩
    intro vars st hv _
    cases vars with
    | nil => simp [Cis.Subset.constrainList]
    | cons v t => exact absurd (hv v (by simp)) (hno v)

/-- A selection of a variable. -/
def Var.selected (m : List Bool) (cs' : List (List ℚ)) (v : Var ℚ V) : Var ℚ V := v.withPoints ⟨cs'.map (select m), select m v.vals⟩

theorem setCoords_newCoords (v : Var ℚ V) (hu : v.gridded = false) (vals : List (List ℚ)) :
    setCoords (newCoords v) vals = setCoords v.coords vals := by
  unfold setCoords newCoords
  simp [hu, List.zipWith_map_left]

theorem newCoords_setCoords (v : Var ℚ V) (hu : v.gridded = false) (vals : List (List ℚ)) (shape : List Nat) (x : List V) :
    newCoords { v with shape := shape, vals := x, coords := setCoords v.coords vals } = setCoords v.coords vals := by
  unfold setCoords newCoords
  simp only [hu, Bool.false_eq_true, if_false]
  rw [List.map_zipWith]

theorem lookup_selected (m : List Bool) (cs' : List (List ℚ)) (data : List (Var ℚ V)) (hu : ∀ v ∈ data, v.gridded = false)
    (hl : ∀ v ∈ data, v.vals.length = m.length) : EnvSel m (lookup data) (lookup (data.map (Var.selected m cs'))) := by
  intro s
  have hf : ((data.map (Var.selected m cs')).reverse.find? (fun v => v.aliasName = s)) =
      (data.reverse.find? (fun v => v.aliasName = s)).map (Var.selected m cs') := by
    rw [← List.map_reverse, List.find?_map]
    rfl
  cases hx : data.reverse.find? (fun v => v.aliasName = s) with
  | none =>
    right
    have h1 : localsOf data s = none := by rw [localsOf_eq, hx]; rfl
    have h2 : localsOf (data.map (Var.selected m cs')) s = none := by rw [localsOf_eq, hf, hx]; rfl
    constructor
    · intro a
      unfold lookup
      rw [h1]
      simp only
      split_ifs <;> simp
    · unfold lookup
      rw [h1, h2]
  | some v =>
    left
    have hv : v ∈ data := by simpa using List.mem_of_find?_eq_some hx
    have h1 : localsOf data s = some (varArr v) := by rw [localsOf_eq, hx]; rfl
    have h2 : localsOf (data.map (Var.selected m cs')) s = some (varArr (v.selected m cs')) := by rw [localsOf_eq, hf, hx]; rfl
    refine ⟨varArr v, by unfold lookup; rw [h1], ?_, varArr (v.selected m cs'), by unfold lookup; rw [h2], ?_⟩
    · simp [varArr, hu v hv, hl v hv]
    · simp [varArr, hu v hv, Var.selected, Var.withPoints]

/-- **C155**. An elementwise expression evaluated on the subset is the subset of the expression evaluated on everything: same values, coordinates, names and
history, or the same error. Nothing is selected of the variables iff nothing is selected of the result. -/
theorem c155_commute (repr : List String → String) (version : String) (v : Var ℚ V) (rest : List (Var ℚ V)) (n : Nat) (coords : List (List ℚ))
    (hd : Spec.SamePoints (v :: rest) n coords) (e : Expr V) (he : Spec.Elementwise e) (text : String) (out units : Option String)
    (attrs : Option (List (String × String))) (lon lat : Nat) (limits : List Limit) (hn : (limits.map Limit.coord).Nodup)
    (hl : ∀ l ∈ limits, l.coord < coords.length) :
    (∀ sub, subsetVars lon lat limits (v :: rest) = some sub →
      (∀ r, evaluateExpr repr version (v :: rest) e text out units attrs = .ok r →
        ∃ r', subsetResult lon lat limits r = some r' ∧ evaluateExpr repr version sub e text out units attrs = .ok r') ∧
      (∀ x, evaluateExpr repr version (v :: rest) e text out units attrs = .error x → evaluateExpr repr version sub e text out units attrs = .error x)) ∧
    (subsetVars lon lat limits (v :: rest) = none →
      ∀ r, evaluateExpr repr version (v :: rest) e text out units attrs = .ok r → subsetResult lon lat limits r = none) := by
  obtain ⟨m, cs', hcs, hm, hcl, hone, hlist⟩ := constrain_values (V := V) lon lat limits hn coords n hl hd.coords_length
  have hpts : (v :: rest).map Var.points = ((v :: rest).map Var.vals).map (fun x => (⟨coords, x⟩ : UData V)) := by
    rw [List.map_map]
    apply List.map_congr_left
    intro w hw
    simp [Var.points, hd.coords_eq w hw]
  have hsubv : subsetVars lon lat limits (v :: rest) = if m.count true = 0 then none else some ((v :: rest).map (Var.selected m cs')) := by
    unfold subsetVars
    rw [hpts, hlist _ none (by intro x hx; rw [List.mem_map] at hx; obtain ⟨w, hw, rfl⟩ := hx; exact hd.length w hw) (Or.inl rfl)]
    by_cases h0 : m.count true = 0
    · rw [if_pos ⟨by simp, h0⟩, if_pos h0]; rfl
    · rw [if_neg (fun h => h0 h.2), if_neg h0, Option.map_some, List.map_map]
      congr 1
      generalize v :: rest = data
      induction data with
      | nil => rfl
      | cons a t ih => simp only [List.map_cons, List.zipWith_cons_cons, ih]; rfl
  have hu := hd.ungridded v (by simp)
  have hs := hd.shape v (by simp)
  have henv := lookup_selected m cs' (v :: rest) hd.ungridded (fun w hw => by rw [hd.length w hw, hm])
  obtain ⟨hval, hlenv⟩ := valueOf_select m _ _ henv e he
  have hev := evaluateExpr_eq repr version v rest hu hs.1 e (fun l h => by rw [hs.2, hlenv l h, hm]) text out units attrs
  have hevs := evaluateExpr_eq repr version (v.selected m cs') (rest.map (Var.selected m cs')) (by simp [Var.selected, Var.withPoints, hu])
    (by simp [Var.selected, Var.withPoints]) e (fun l h => by
      rw [← List.map_cons, hval] at h
      cases hx : valueOf (lookup (v :: rest)) e with
      | error x => rw [hx] at h; cases h
      | ok a =>
        cases a with
        | number w => rw [hx] at h; cases h
        | array k =>
          rw [hx] at h
          simp only [Except.map, Value.sel, Except.ok.injEq, Value.array.injEq] at h
          have e1 := select_length m k (hlenv k hx)
          have e2 := select_length m v.vals (by rw [hd.length v (by simp), hm])
          simp [Var.selected, Var.withPoints, ← h, e1, e2]) text out units attrs
  rw [← List.map_cons, hval] at hevs
  have hhist : makeHistory repr version ((v :: rest).map (Var.selected m cs')) text = makeHistory repr version (v :: rest) text := by
    unfold makeHistory
    rw [List.map_map]
    rfl
  have hres : ∀ l, l.length = n → subsetResult lon lat limits (resultOf repr version (v :: rest) v l text out units attrs) =
      if m.count true = 0 then none
      else some (resultOf repr version ((v :: rest).map (Var.selected m cs')) (v.selected m cs') (select m l) text out units attrs) := by
    intro l hll
    have e0 : (newCoords v).map Coord.vals = coords := by
      rw [← hd.coords_eq v (by simp)]
      have := congrArg (List.map Prod.snd) (c48_coords v)
      simpa [Function.comp_def] using this
    unfold subsetResult
    rw [show (resultOf repr version (v :: rest) v l text out units attrs).coords = newCoords v from rfl,
      show (resultOf repr version (v :: rest) v l text out units attrs).vals = l from rfl, e0, hone l hll, select_length m l (by rw [hll, hm])]
    by_cases h0 : m.count true = 0
    · rw [if_pos h0, if_pos h0]; rfl
    · rw [if_neg h0, if_neg h0, Option.map_some]
      congr 1
      unfold resultOf
      rw [hhist]
      simp only [setCoords_newCoords v hu]
      rw [Var.selected, Var.withPoints, newCoords_setCoords v hu]
  constructor
  · intro sub hsub
    rw [hsubv] at hsub
    by_cases h0 : m.count true = 0
    · rw [if_pos h0] at hsub; cases hsub
    · rw [if_neg h0, Option.some.injEq] at hsub
      subst hsub
      rw [hev, hevs]
      constructor
      · intro r hr
        cases hd' : hasDunder text.toList with
        | true => rw [hd'] at hr; cases hr
        | false =>
          rw [hd'] at hr
          simp only [Bool.false_eq_true, if_false] at hr ⊢
          cases hx : valueOf (lookup (v :: rest)) e with
          | error x => rw [hx] at hr; cases x <;> cases hr
          | ok a =>
            cases a with
            | number w => rw [hx] at hr; cases hr
            | array l =>
              rw [hx] at hr
              cases hr
              exact ⟨_, by rw [hres l (by rw [hlenv l hx, hm]), if_neg h0], rfl⟩
      · intro x hr
        cases hd' : hasDunder text.toList with
        | true => rw [hd'] at hr; exact hr
        | false =>
          rw [hd'] at hr
          simp only [Bool.false_eq_true, if_false] at hr ⊢
          cases hx : valueOf (lookup (v :: rest)) e with
          | error x => rw [hx] at hr; cases x <;> exact hr
          | ok a =>
            cases a with
            | number w => rw [hx] at hr; exact hr
            | array l => rw [hx] at hr; cases hr
  · intro hsub r hr
    rw [hsubv] at hsub
    by_cases h0 : m.count true = 0
    · rw [hev] at hr
      cases hd' : hasDunder text.toList with
      | true => rw [hd'] at hr; cases hr
      | false =>
        rw [hd'] at hr
        simp only [Bool.false_eq_true, if_false] at hr
        cases hx : valueOf (lookup (v :: rest)) e with
        | error x => rw [hx] at hr; cases x <;> cases hr
        | ok a =>
          cases a with
          | number w => rw [hx] at hr; cases hr
          | array l =>
            rw [hx] at hr
            cases hr
            rw [hres l (by rw [hlenv l hx, hm]), if_pos h0]
    · rw [if_neg h0] at hsub; cases hsub

/-! ### Examples -/

/-- Two variables of two dimensions on the same four points. -/
def exVars : List (Var ℚ ℚ) :=
  [⟨"a", "a", ["f.nc"], false, [2, 2], [1, 2, 3, 4], [⟨"longitude", [0, 1, 2, 3], [2, 2]⟩, ⟨"latitude", [10, 20, 30, 40], [2, 2]⟩]⟩,
   ⟨"b", "od550", ["g.nc"], false, [2, 2], [5, 6, 7, 8], [⟨"longitude", [0, 1, 2, 3], [2, 2]⟩, ⟨"latitude", [10, 20, 30, 40], [2, 2]⟩]⟩]

/-- `2 * a + b`. -/
def exExpr : Expr ℚ := .binary (· + ·) (.binary (· * ·) (.number 2) (.name "a")) (.name "b")

example : Spec.SamePoints exVars 4 [[0, 1, 2, 3], [10, 20, 30, 40]] ∧ Spec.Elementwise exExpr ∧ Spec.Known exVars exExpr ∧ Spec.Named exExpr ∧
    hasDunder "2 * a + b".toList = false ∧
    (subsetVars 0 1 [⟨1, 15, 35⟩] exVars).map (List.map Var.vals) = some [[2, 3], [6, 7]] ∧
    ((evaluateExpr (fun _ => "") "1" exVars exExpr "2 * a + b" none none none).toOption.map Result.vals) = some [7, 10, 13, 16] := by
  refine ⟨⟨?_, ?_, ?_, ?_, ?_⟩, ?_, ?_, ?_, ?_, ?_, ?_⟩
  · decide +kernel
  · decide +kernel
  · decide +kernel
  · decide +kernel
  · decide +kernel
  · simp [exExpr, Spec.Elementwise]
  · simp [exExpr, Spec.Known, exVars]
  · simp [exExpr, Spec.Named]
  · decide +kernel
  · decide +kernel
  · decide +kernel

/-- The condition of C155 is needed: the difference to the greatest value is another one in a subset. -/
theorem c155_reduction_differs :
    let e : Expr ℚ := .binary (· - ·) (.name "a") (.reduce (fun l => l.foldl max 0) (.name "a"))
    ((subsetVars 0 1 [⟨1, 15, 35⟩] exVars).map (fun sub => (evaluateExpr (fun _ => "") "1" sub e "a - max(a)" none none none).toOption.map Result.vals)) =
        some (some [-1, 0]) ∧
      ((evaluateExpr (fun _ => "") "1" exVars e "a - max(a)" none none none).toOption.map (fun r => (subsetResult 0 1 [⟨1, 15, 35⟩] r).map Result.vals)) =
        some (some [-2, -1]) := by
  decide +kernel

end Cis.Evaluate
