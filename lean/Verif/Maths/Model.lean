import Mathlib.Data.List.Basic
import Mathlib.Tactic.Basic
/-!
Model of arithmetic on ungridded data and coordinates (cis/maths.py and the operators of `LazyData`, ungridded_data.py:321-330), over
a store of objects, so that sharing and in-place changes are visible. Arrays are functions of their index; numbers, units and ranges
are abstract. All data are loaded (loading is modelled in `Verif.Lazy`).
-/
namespace Cis.Maths

/-- Python exceptions. -/
inductive Err
  | notImplemented | value | type | attribute | zeroDiv
  deriving DecidableEq

/-- `LazyData.units`: a `cf_units.Unit`, or a string that could not be parsed (ungridded_data.py:131-148). -/
inductive Units (U : Type)
  | cf (u : U)
  | raw (s : String)
  deriving DecidableEq

/-- A numpy array: shape, whether its dtype is an integer type, and the element at each index (`none`: masked). -/
structure Arr (V : Type) where
  shape : List Nat
  isInt : Bool
  get : List Nat → Option V

/-- Binary operators: `operator.add`, `sub`, `mul`, `truediv` (maths.py:82, 114, 160, 183-186). -/
inductive BinOp
  | add | sub | mul | div
  deriving DecidableEq

/-- Unary functions: `np.abs`, `np.exp`, `np.log`, `np.log2`, `np.log10` (maths.py:33, 246, 267, 288, 309). -/
inductive UnOp
  | abs | exp | log | log2 | log10
  deriving DecidableEq

/-- What numpy and cf_units provide. `bin`, `un`, `pow` on elements may give `none`: numpy masks elements outside the domain.
`uEq` is `==` of units, `uMul`, `uDiv`, `uPow`, `uLog` may raise ValueError (`none`). `powErr`: numpy refuses the power (integers
to negative integer powers). `rangeOf` is what `update_range` computes, `post` what `_post_process` makes of data and coordinates. -/
structure Env (U V R C : Type) where
  bin : BinOp → V → V → Option V
  un : UnOp → V → Option V
  pow : V → V → Option V
  powErr : Arr V → V → Bool → Bool
  uEq : U → U → Bool
  uMul : U → U → Option U
  uDiv : U → U → Option U
  uPow : U → V → Option U
  uLog : U → UnOp → Option U
  uOne : U
  rangeOf : Arr V → Units U → R
  post : Arr V → C → Arr V × C

/-- An `UngriddedData` (`coords = some c`) or `Coord` (`coords = none`) object: `data`, `metadata.units`, `metadata.history`,
`metadata.shape`, `metadata.range` and `attributes`. -/
structure Obj (U V R C : Type) where
  data : Arr V
  units : Units U
  history : List String
  shape : Option (List Nat)
  range : Option R
  attrs : List (String × String)
  coords : Option C

/-- All objects, and the name of the next new one. -/
structure Heap (U V R C : Type) where
  obj : Nat → Obj U V R C
  next : Nat

/-- The second operand: one of the objects, a Python number, a numpy array or a list. -/
inductive Operand (V : Type)
  | ref (n : Nat)
  | scalar (v : V) (isInt : Bool)
  | arr (a : Arr V)
  | pyList (a : Arr V)

variable {U V R C : Type}

/-- `numpy.broadcast_arrays` on reversed shapes. -/
def bcastRev : List Nat → List Nat → Option (List Nat)
  | [], bs => some bs
  | as, [] => some as
  | a :: as, b :: bs =>
    match bcastRev as bs with
    | none => none
    | some rest => if a = b then some (a :: rest) else if a = 1 then some (b :: rest) else if b = 1 then some (a :: rest) else none

/-- The shape of the broadcast arrays; `none` is numpy's ValueError. -/
def bcast (a b : List Nat) : Option (List Nat) := (bcastRev a.reverse b.reverse).map List.reverse

/-- The index of the element of an array of reversed shape `s` used at (reversed) index `i` of the broadcast array. -/
def bindexRev : List Nat → List Nat → List Nat
  | [], _ => []
  | _ :: _, [] => []
  | s :: ss, i :: is => (if s = 1 then 0 else i) :: bindexRev ss is

/-- The index of the element of an array of shape `s` used at index `i` of the broadcast array. -/
def bindex (s i : List Nat) : List Nat := (bindexRev s.reverse i.reverse).reverse

/-- Masked elements give masked results. -/
def lift2 (f : V → V → Option V) (a b : Option V) : Option V :=
  match a, b with
  | some x, some y => f x y
  | _, _ => none

/-- Masked elements stay masked. -/
def lift1 (f : V → Option V) (a : Option V) : Option V :=
  match a with
  | some x => f x
  | none => none

/-- `np.asarray(other)` after `other = other.data` for objects (maths.py:359-360). -/
def operandArr (h : Heap U V R C) : Operand V → Arr V
  | .ref n => (h.obj n).data
  | .scalar v i => ⟨[], i, fun _ => some v⟩
  | .arr a => a
  | .pyList a => a

/-- The dtype of a result is an integer type: for `+`, `-`, `*` if both are, for `/` never. -/
def binInt (op : BinOp) (a b : Bool) : Bool :=
  match op with
  | .div => false
  | _ => a && b

/-- The elementwise result of `operator.op(a, b)` for arrays, of the shape of `a` (the shapes have been checked). -/
def binArr (env : Env U V R C) (op : BinOp) (a b : Arr V) : Arr V :=
  ⟨a.shape, binInt op a.isInt b.isInt, fun i => lift2 (env.bin op) (a.get i) (b.get (bindex b.shape i))⟩

/-- `getattr(other, 'units', ...)`: only objects have units (maths.py:48, 158, 180). -/
def operandUnits (h : Heap U V R C) : Operand V → Option (Units U)
  | .ref n => some (h.obj n).units
  | _ => none

/-- `_assert_matching_units` (maths.py:43-51). Comparing a `Unit` with a string that is not a unit raises ValueError. -/
def assertMatchingUnits (env : Env U V R C) (u : Units U) (other : Option (Units U)) : Except Err Unit :=
  match other with
  | none => .ok ()
  | some o =>
    match u, o with
    | .cf a, .cf b => if env.uEq a b then .ok () else .error .notImplemented
    | .raw a, .raw b => if a = b then .ok () else .error .notImplemented
    | _, _ => .error .value

/-- `ungridded_data.units * other_unit` and `/` (maths.py:157-159, 179-181); `other_unit` is `'1'` if there is none. A string
cannot be multiplied (TypeError), and `Unit * 'garbage'` is a ValueError. -/
def combineUnits (f : U → U → Option U) (one : U) (u : Units U) (other : Option (Units U)) : Except Err (Units U) :=
  match u, other with
  | .cf a, none => match f a one with
    | some c => .ok (.cf c)
    | none => .error .value
  | .cf a, some (.cf b) => match f a b with
    | some c => .ok (.cf c)
    | none => .error .value
  | .cf _, some (.raw _) => .error .value
  | .raw _, some (.cf _) => .error .value
  | .raw _, _ => .error .type

/-- `_assert_compatible` (maths.py:312-338). The message for arrays that cannot be broadcast reads `other.shape`, which lists do
not have. -/
def assertCompatible (h : Heap U V R C) (x : Nat) (other : Operand V) : Except Err Unit :=
  match bcast (h.obj x).data.shape (operandArr h other).shape with
  | none => match other with
    | .pyList _ => .error .attribute
    | _ => .error .value
  | some s => if (h.obj x).shape = some s then .ok () else .error .value

/-- `ungridded_data.copy(data=a)`: `UngriddedData.copy` (ungridded_data.py:549-562) copies the metadata and coordinates and
post-processes the new object (shape and range are brought up to date); `Coord.copy` (Coord.py:115-124) does not. The
`attributes` are not copied. -/
def copyWith (env : Env U V R C) (o : Obj U V R C) (a : Arr V) : Obj U V R C :=
  match o.coords with
  | some c =>
    { data := (env.post a c).1, units := o.units, history := o.history, shape := some (env.post a c).1.shape,
      range := some (env.rangeOf (env.post a c).1 o.units), attrs := [], coords := some (env.post a c).2 }
  | none => { data := a, units := o.units, history := o.history, shape := o.shape, range := o.range, attrs := [], coords := none }

/-- Setting one object. -/
def Heap.set (h : Heap U V R C) (n : Nat) (o : Obj U V R C) : Heap U V R C :=
  { h with obj := fun m => if m = n then o else h.obj m }

/-- `new.units = new_unit; new.add_history(...)` (maths.py:391-392); the time stamp is left out. -/
def finish (o : Obj U V R C) (u : Units U) (fname : String) : Obj U V R C :=
  { o with units := u, history := o.history ++ ["Performed " ++ fname ++ " operation"] }

/-- What `operation_function(data, out=data)` does: `fits`: it writes its result to `data`; `typeErr`: it raises TypeError (it
takes no `out`, or the result cannot be stored in an array of this type); `err`: another exception. -/
inductive OutCall (V : Type)
  | fits (a : Arr V)
  | typeErr
  | err (e : Err)

/-- `_math_op_common` (maths.py:380-393). `outCall` is the call with `out=`; `plain` the call without: its result and, if it
changes the array it is given (in-place operators), the changed array. -/
def mathOpCommon (env : Env U V R C) (h : Heap U V R C) (x : Nat) (outCall : OutCall V) (plain : Except Err (Arr V × Option (Arr V)))
    (fname : String) (u : Units U) (inPlace : Bool) : Heap U V R C × Except Err Nat :=
  if inPlace then
    match outCall with
    | .fits a => (h.set x (finish { h.obj x with data := a } u fname), .ok x)
    | .err e => (h, .error e)
    | .typeErr =>
      match plain with
      | .error e => (h, .error e)
      | .ok (_, some a) => (h.set x (finish { h.obj x with data := a } u fname), .ok x)
      | .ok (_, none) => (h.set x (finish (h.obj x) u fname), .ok x)
  else
    match plain with
    | .error e => (h, .error e)
    | .ok (r, _) =>
      ({ obj := fun m => if m = h.next then finish (copyWith env (h.obj x) r) u fname else h.obj m, next := h.next + 1 }, .ok h.next)

/-- `_binary_op_common` (maths.py:341-377). `unary_func` takes no `out`. In place, `operator.iadd` etc. store the result in the
array, which raises TypeError if it is of an integer type and the result is not. For a non-integer array the type is kept. -/
def binaryOpCommon (env : Env U V R C) (h : Heap U V R C) (op : BinOp) (x : Nat) (other : Operand V) (u : Units U)
    (inPlace : Bool) : Heap U V R C × Except Err Nat :=
  match assertCompatible h x other with
  | .error e => (h, .error e)
  | .ok () =>
    let a := (h.obj x).data
    let r := binArr env op a (operandArr h other)
    mathOpCommon env h x .typeErr
      (if inPlace then
        if a.isInt && !r.isInt then .error .type else .ok (r, some { r with isInt := a.isInt })
       else .ok (r, none))
      "unary_func" u inPlace

/-- `add` and `subtract` (maths.py:54-138). -/
def addSubtract (env : Env U V R C) (h : Heap U V R C) (op : BinOp) (x : Nat) (other : Operand V) (inPlace : Bool) :
    Heap U V R C × Except Err Nat :=
  match assertMatchingUnits env (h.obj x).units (operandUnits h other) with
  | .error e => (h, .error e)
  | .ok () => binaryOpCommon env h op x other (h.obj x).units inPlace

/-- `add` (maths.py:54-83). -/
def add (env : Env U V R C) (h : Heap U V R C) (x : Nat) (other : Operand V) (inPlace : Bool) := addSubtract env h .add x other inPlace

/-- `subtract` (maths.py:86-115). -/
def subtract (env : Env U V R C) (h : Heap U V R C) (x : Nat) (other : Operand V) (inPlace : Bool) :=
  addSubtract env h .sub x other inPlace

/-- `multiply` (maths.py:141-161). -/
def multiply (env : Env U V R C) (h : Heap U V R C) (x : Nat) (other : Operand V) (inPlace : Bool) : Heap U V R C × Except Err Nat :=
  match combineUnits env.uMul env.uOne (h.obj x).units (operandUnits h other) with
  | .error e => (h, .error e)
  | .ok u => binaryOpCommon env h .mul x other u inPlace

/-- `divide` (maths.py:164-187). -/
def divide (env : Env U V R C) (h : Heap U V R C) (x : Nat) (other : Operand V) (inPlace : Bool) : Heap U V R C × Except Err Nat :=
  match combineUnits env.uDiv env.uOne (h.obj x).units (operandUnits h other) with
  | .error e => (h, .error e)
  | .ok u => binaryOpCommon env h .div x other u inPlace

/-- The elementwise result of a unary function; `isInt` of the result is given. -/
def mapArr (f : V → Option V) (isInt : Bool) (a : Arr V) : Arr V := ⟨a.shape, isInt, fun i => lift1 f (a.get i)⟩

/-- `ufunc(data, out=data)` for a function with result `r`: numpy raises TypeError when the result type cannot be cast to the type
of `data`; a non-integer array keeps its type. -/
def ufuncOut (a r : Arr V) : OutCall V := if a.isInt && !r.isInt then .typeErr else .fits { r with isInt := a.isInt }

/-- The result type of `np.abs` is that of its argument, of `np.exp` and the logarithms a float type. -/
def unInt (f : UnOp) (a : Bool) : Bool :=
  match f with
  | .abs => a
  | _ => false

/-- The names of the numpy functions (`operation_function.__name__`). -/
def unName : UnOp → String
  | .abs => "absolute"
  | .exp => "exp"
  | .log => "log"
  | .log2 => "log2"
  | .log10 => "log10"

/-- The units of the result: `abs` keeps them, `exp` gives `'1'`, the logarithms ask cf_units; a string has no `log`
(maths.py:33, 246, 267, 288, 309). -/
def unUnits (env : Env U V R C) (f : UnOp) (u : Units U) : Except Err (Units U) :=
  match f with
  | .abs => .ok u
  | .exp => .ok (.cf env.uOne)
  | g => match u with
    | .cf a => match env.uLog a g with
      | some c => .ok (.cf c)
      | none => .error .value
    | .raw _ => .error .attribute

/-- `abs`, `exp`, `log`, `log2`, `log10` (maths.py:15-33, 224-309). -/
def unary (env : Env U V R C) (h : Heap U V R C) (f : UnOp) (x : Nat) (inPlace : Bool) : Heap U V R C × Except Err Nat :=
  match unUnits env f (h.obj x).units with
  | .error e => (h, .error e)
  | .ok u =>
    let a := (h.obj x).data
    let r := mapArr (env.un f) (unInt f a.isInt) a
    mathOpCommon env h x (ufuncOut a r) (.ok (r, none)) (unName f) u inPlace

/-- `exponentiate` (maths.py:190-221); `expInt`: the exponent is an integer. -/
def exponentiate (env : Env U V R C) (h : Heap U V R C) (x : Nat) (e : V) (expInt : Bool) (inPlace : Bool) :
    Heap U V R C × Except Err Nat :=
  match (h.obj x).units with
  | .raw _ => (h, .error .type)
  | .cf u =>
    match env.uPow u e with
    | none => (h, .error .value)
    | some u' =>
      let a := (h.obj x).data
      let r := mapArr (fun v => env.pow v e) (a.isInt && expInt) a
      if env.powErr a e expInt then (h, .error .value)
      else mathOpCommon env h x (ufuncOut a r) (.ok (r, none)) "power" (.cf u') inPlace

end Cis.Maths
