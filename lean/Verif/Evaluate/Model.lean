import Mathlib.Data.List.Basic
import Mathlib.Tactic.Basic
/-!
Model of `Calculator.evaluate` (cis/evaluate.py). Python's `eval` is a parameter: it is given the expression and the meaning of
names, and may do anything with them but change the objects. Data are loaded, coordinates have no missing values.
-/
namespace Cis.Evaluate

/-- A coordinate: its name, its values (flattened) and the shape recorded in its metadata. -/
structure Coord (K : Type) where
  name : String
  vals : List K
  metaShape : List Nat
  deriving DecidableEq

/-- A data object. `vals` are the elements in C order. -/
structure Var (K V : Type) where
  aliasName : String
  varName : String
  files : List String
  gridded : Bool
  shape : List Nat
  vals : List V
  coords : List (Coord K)
  deriving DecidableEq

/-- An array. -/
structure Arr (V : Type) where
  shape : List Nat
  vals : List V
  deriving DecidableEq

/-- What a name can mean in the expression. -/
inductive Binding (V : Type)
  | data (a : Arr V)
  | modul (name : String)
  | builtin (name : String)
  | builtinsDict
  deriving DecidableEq

/-- What `eval` does. `scalar`: the value has no attribute `shape`. -/
inductive Outcome (V : Type)
  | array (a : Arr V)
  | scalar
  | nameError
  | valueError
  | otherError

/-- Exceptions of `evaluate`. -/
inductive Err
  | evaluation | index | type | attribute | other
  deriving DecidableEq

/-- The new data object. -/
structure Result (K V : Type) where
  varName : String
  longName : String
  units : String
  history : String
  attrs : List (String × String)
  gridded : Bool
  shape : List Nat
  vals : List V
  coords : List (Coord K)

variable {K V : Type}

/-- `'__' in expr` (evaluate.py:35). -/
def hasDunder : List Char → Bool
  | a :: b :: r => (a == '_' && b == '_') || hasDunder (b :: r)
  | _ => false

/-- `SAFE_BUILTINS` (evaluate.py:19-20). -/
def safeBuiltins : List String := ["abs", "all", "any", "bool", "divmod", "enumerate", "filter", "int", "len", "map", "max", "min",
  "pow", "range", "reversed", "round", "sorted", "sum", "zip"]

/-- `SAFE_MODULES` (evaluate.py:21). -/
def safeModules : List String := ["numpy"]

/-- `var.data_flattened` for ungridded data, `var.data` for gridded data (evaluate.py:45-48). -/
def varArr (v : Var K V) : Arr V := if v.gridded then ⟨v.shape, v.vals⟩ else ⟨[v.vals.length], v.vals⟩

/-- `safe_locals` (evaluate.py:41-48): a dictionary, later entries replace earlier ones. -/
def localsOf (data : List (Var K V)) : String → Option (Arr V) :=
  data.foldl (fun d v => fun n => if n = v.aliasName then some (varArr v) else d n) (fun _ => none)

/-- The meaning of a name: locals, then globals (`safe_globals`, evaluate.py:38-40), then builtins. -/
def lookup (data : List (Var K V)) (n : String) : Option (Binding V) :=
  match localsOf data n with
  | some a => some (.data a)
  | none =>
    if n ∈ safeModules then some (.modul n)
    else if n = "__builtins__" then some .builtinsDict
    else if n ∈ safeBuiltins then some (.builtin n)
    else none

/-- `_make_var_info` (evaluate.py:109-126) for one variable; `repr` is the text of a list of files. -/
def varInfo (repr : List String → String) (v : Var K V) : String :=
  "'" ++ v.varName ++ "'" ++ (if v.aliasName ≠ v.varName then " (as '" ++ v.aliasName ++ "')" else "") ++ " from files " ++ repr v.files

/-- `sep.join(l)`. -/
def joinWith (sep : String) : List String → String
  | [] => ""
  | [a] => a
  | a :: b :: r => a ++ sep ++ joinWith sep (b :: r)

/-- `_make_history` (evaluate.py:96-107). -/
def makeHistory (repr : List String → String) (version : String) (data : List (Var K V)) (expr : String) : String :=
  "Evaluated using CIS version " ++ version ++ "\nExpression evaluated: '" ++ expr ++ "'\nwith variables: " ++
    joinWith ",\n" (data.map (varInfo repr)) ++ "."

/-- `make_new_with_same_coordinates(..., flatten=True)`: gridded data keep their coordinates (gridded_data.py:84-104); for ungridded
data (ungridded_data.py:503-531) the coordinates are flattened. -/
def newCoords (s : Var K V) : List (Coord K) :=
  if s.gridded then s.coords else s.coords.map (fun c => { c with metaShape := [c.vals.length] })

/-- The new coordinates share the metadata objects of the sample's coordinates (ungridded_data.py:526), and `update_shape`
(ungridded_data.py:480) writes the flattened shape there: what becomes of the sample. -/
def sampleAfter (s : Var K V) : Var K V := { s with coords := newCoords s }

/-- `Calculator.evaluate` (evaluate.py:23-94): the data list afterwards and the result. -/
def evaluate (repr : List String → String) (version : String) (pyEval : String → (String → Option (Binding V)) → Outcome V)
    (data : List (Var K V)) (expr : String) (outputVar units : Option String) (attrs : Option (List (String × String))) :
    List (Var K V) × Except Err (Result K V) :=
  if hasDunder expr.toList then (data, .error .evaluation)
  else
    match pyEval expr (lookup data) with
    | .nameError => (data, .error .evaluation)
    | .valueError => (data, .error .evaluation)
    | .otherError => (data, .error .other)
    | r =>
      match data with
      | [] => ([], .error .index)
      | s :: rest =>
        if s.gridded = false ∧ s.shape = [] then (data, .error .type)
        else
          match r with
          | .array a =>
            if (if s.gridded then s.shape else [s.shape.prod]) = a.shape then
              (sampleAfter s :: rest, .ok {
                varName := outputVar.getD "calculated_variable"
                longName := "Calculated value for expression \"" ++ expr ++ "\""
                units := units.getD "unknown"
                history := makeHistory repr version data expr
                attrs := attrs.getD []
                gridded := s.gridded
                shape := a.shape
                vals := a.vals
                coords := newCoords s })
            else (data, .error .evaluation)
          | _ => (data, .error .attribute)

end Cis.Evaluate
