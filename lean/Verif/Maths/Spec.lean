import Verif.Maths.Model
/-! What arithmetic on ungridded data is to do. -/
namespace Cis.Maths

variable {U V R C : Type}

/-- An array of shape `other` can be stretched to shape `own`: counted from the last dimension, each of its dimensions is there in
`own` with the same size, or has size one. -/
def Fits (own other : List Nat) : Prop :=
  ∀ (k : Nat) (d : Nat), other.reverse[k]? = some d → ∃ e, own.reverse[k]? = some e ∧ (d = e ∨ d = 1)

/-- `i` is an index of an array of shape `s`. -/
def IsIndex (s i : List Nat) : Prop := i.length = s.length ∧ ∀ (k d j : Nat), s[k]? = some d → i[k]? = some j → j < d

/-- `j` is the index in an array of shape `s` that numpy's stretching uses for index `i` of the large array: counted from the last
dimension, `j` agrees with `i` except in the dimensions of size one, where it is zero. -/
def Stretch (s i j : List Nat) : Prop :=
  j.length = s.length ∧
  ∀ (k d n m : Nat), s.reverse[k]? = some d → i.reverse[k]? = some n → j.reverse[k]? = some m → m = if d = 1 then 0 else n

/-- Every element of `r` is the operation applied to the element of `a` and the corresponding element of `b`; masked elements give
masked results. -/
def Elementwise (op : V → V → Option V) (a b r : Arr V) : Prop :=
  r.shape = a.shape ∧
  ∀ i, IsIndex a.shape i → ∃ j, Stretch b.shape i j ∧
    (∀ x y, a.get i = some x → b.get j = some y → r.get i = op x y) ∧
    (a.get i = none ∨ b.get j = none → r.get i = none)

/-- Every element of `r` is the function applied to the element of `a`. -/
def Pointwise (f : V → Option V) (a r : Arr V) : Prop :=
  r.shape = a.shape ∧ ∀ i, (∀ x, a.get i = some x → r.get i = f x) ∧ (a.get i = none → r.get i = none)

/-- The units allow `+` and `-`: the second operand has no units or equal ones. -/
def SameUnits (env : Env U V R C) (u : Units U) (other : Option (Units U)) : Prop :=
  other = none ∨ (∃ a b, u = .cf a ∧ other = some (.cf b) ∧ env.uEq a b = true) ∨ (∃ s, u = .raw s ∧ other = some (.raw s))

/-- The metadata of an object tell the shape of its data, and its coordinates have no missing values (which is what
`_post_process` establishes). -/
def Good (env : Env U V R C) (o : Obj U V R C) : Prop :=
  o.shape = some o.data.shape ∧ ∀ c, o.coords = some c → ∀ a : Arr V, a.shape = o.data.shape → env.post a c = (a, c)

/-- The operators `+`, `-`, `*`, `/` of `LazyData` (ungridded_data.py:321-330), with `in_place`. -/
def arith (env : Env U V R C) (h : Heap U V R C) (op : BinOp) (x : Nat) (other : Operand V) (inPlace : Bool) :
    Heap U V R C × Except Err Nat :=
  match op with
  | .add => add env h x other inPlace
  | .sub => subtract env h x other inPlace
  | .mul => multiply env h x other inPlace
  | .div => divide env h x other inPlace

/-- The units of a result: of a sum or difference those of the operands, of a product or quotient the product or quotient, numbers
and plain arrays having unit one. -/
def ResultUnits (env : Env U V R C) (op : BinOp) (u : Units U) (other : Option (Units U)) (u' : Units U) : Prop :=
  match op with
  | .add => SameUnits env u other ∧ u' = u
  | .sub => SameUnits env u other ∧ u' = u
  | .mul => ∃ a b c, u = .cf a ∧ (other = some (.cf b) ∨ other = none ∧ b = env.uOne) ∧ env.uMul a b = some c ∧ u' = .cf c
  | .div => ∃ a b c, u = .cf a ∧ (other = some (.cf b) ∨ other = none ∧ b = env.uOne) ∧ env.uDiv a b = some c ∧ u' = .cf c

end Cis.Maths
