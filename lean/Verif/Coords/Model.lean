import Mathlib.Data.List.Basic
import Mathlib.Tactic.Basic
/-!
Model of coordinate lists (data_io/Coord.py) as far as metadata matter: the values of the coordinates are carried along as an
arbitrary payload.
-/
namespace Cis.Coords

/-- The metadata a coordinate is looked up by (Coord.py:24-36, ungridded_data.py:26-48). `stdName = none` is Python's `None`,
which `Metadata.guess_standard_name` gives for unknown names, `some ""` is the default. The axis is upper case (Coord.py:33).
`attrs` are the items of the dictionary `attributes` (keys are unique, so `k in d and d[k] == v`
is membership of the pair). -/
structure Coord (V : Type) where
  stdName : Option String
  longName : Option String
  varName : Option String
  axis : String
  attrs : List (String × String)
  payload : V
  deriving DecidableEq

variable {V : Type}

/-- Python's truth value of a string or `None`. -/
def truthy : Option String → Bool
  | none => false
  | some s => s != ""

/-- `a or b`. -/
def orElse (a b : Option String) : Option String := if truthy a then a else b

/-- `LazyData.name()` (ungridded_data.py:214-220). -/
def name (c : Coord V) : Option String := orElse c.stdName (orElse c.longName (orElse c.varName (some "unknown")))

/-- `Coord.__eq__` (Coord.py:57-58). -/
def coordEq (self other : Coord V) : Bool := other.stdName == self.stdName && self.stdName != some ""

/-- The argument `name_or_coord` (Coord.py:184-189). -/
inductive Sel (V : Type)
  | none
  | byName (n : String)
  | byCoord (c : Coord V)

/-- The criteria of `get_coords` (Coord.py:155-156); `none` is `None`. -/
structure Criteria (V : Type) where
  sel : Sel V := .none
  stdName : Option String := none
  longName : Option String := none
  attributes : Option (List (String × String)) := none
  axis : Option String := none
  varName : Option String := none

/-- `if x is not None: coords = [c for c in coords if p x c]`. -/
def filterBy {β : Type} (x : Option β) (p : β → Coord V → Bool) (l : List (Coord V)) : List (Coord V) :=
  match x with
  | none => l
  | some b => l.filter (p b)

/-- The name, if `name_or_coord` is a string. -/
def Sel.name? : Sel V → Option String
  | .byName n => some n
  | _ => Option.none

/-- The coordinate, if `name_or_coord` is one. -/
def Sel.coord? : Sel V → Option (Coord V)
  | .byCoord c => some c
  | _ => Option.none

/-- `CoordList.get_coords` (Coord.py:155-221), the filters in the order of the code. -/
def getCoords (l : List (Coord V)) (c : Criteria V) : List (Coord V) :=
  let l := filterBy c.sel.name? (fun n x => name x == some n) l
  let l := filterBy c.stdName (fun n x => x.stdName == some n) l
  let l := filterBy c.longName (fun n x => x.longName == some n) l
  let l := filterBy (c.axis.map String.toUpper) (fun n x => x.axis == n) l
  let l := filterBy c.varName (fun n x => x.varName == some n) l
  let l := filterBy c.attributes (fun a x => a.all (fun kv => x.attrs.contains kv)) l
  filterBy c.sel.coord? (fun o x => coordEq x o) l

/-- What is raised. -/
inductive Err
  | notFound
  | attributeError
  | duplicate
  deriving DecidableEq, Repr

/-- The second search of `get_coord`, `self.get_coords(standard_name=name_or_coord)` (Coord.py:251-252). With `None` nothing is
compared; comparing a name with a `Coord` object calls `Coord.__eq__` with a string, which has no metadata. -/
def fallback (l : List (Coord V)) : Sel V → Except Err (List (Coord V))
  | .none => .ok l
  | .byName n => .ok (getCoords l { stdName := some n })
  | .byCoord _ => if l.isEmpty then .ok [] else .error .attributeError

/-- The end of `get_coord` (Coord.py:254-263). -/
def exactlyOne : List (Coord V) → Except Err (Coord V)
  | [x] => .ok x
  | _ => .error .notFound

/-- `CoordList.get_coord` (Coord.py:223-263). -/
def getCoord (l : List (Coord V)) (c : Criteria V) : Except Err (Coord V) :=
  match getCoords l c with
  | [] => match fallback l c.sel with
    | .ok m => exactlyOne m
    | .error e => .error e
  | m => exactlyOne m

/-- `HyperPoint.standard_names` (hyperpoint.py:11). -/
def standardNames : List String := ["latitude", "longitude", "altitude", "air_pressure", "time"]

/-- `try: get_coord(standard_name=name) except CoordinateNotFoundError: None` (Coord.py:284-287); no other error can occur as no
coordinate is given. -/
def tryStandard (l : List (Coord V)) (n : String) : Option (Coord V) :=
  match getCoord l { stdName := some n } with
  | .ok x => some x
  | .error _ => none

/-- `CoordList.find_standard_coords` (Coord.py:270-290). -/
def findStandardCoords (l : List (Coord V)) : List (Option (Coord V)) := standardNames.map (tryStandard l)

/-- `CoordList.append` (Coord.py:142-152). -/
def append (l : List (Coord V)) (other : Coord V) : Except Err (List (Coord V)) :=
  if l.any (fun item => coordEq other item) then .error .duplicate else .ok (l ++ [other])

/-- A history of `append`s, each of which may have failed (the list is then as before). -/
def appends (l : List (Coord V)) : List (Coord V) → List (Coord V)
  | [] => l
  | c :: cs => match append l c with
    | .ok l' => appends l' cs
    | .error _ => appends l cs

/-- `CoordList.copy` (Coord.py:292-303): the copies are appended one by one to an empty list; the first failure is raised. -/
def copyLoop (acc : List (Coord V)) : List (Coord V) → Except Err (List (Coord V))
  | [] => .ok acc
  | c :: cs => match append acc c with
    | .ok a => copyLoop a cs
    | .error e => .error e

def copy (l : List (Coord V)) : Except Err (List (Coord V)) := copyLoop [] l

/-- `CommonData._get_coord` (common_data.py:207-222) on an ungridded data object: `coord(**d)` for the name, the standard name,
the standard name of a standard axis, the variable name and the axis, the first one found. `axes` is `standard_axes.get`.
(Coordinate objects are truthy.) -/
def tryCoord (l : List (Coord V)) (c : Criteria V) : Option (Coord V) :=
  match getCoord l c with
  | .ok x => some x
  | .error _ => none

def lookupCoord (axes : String → Option String) (l : List (Coord V)) (n : String) : Option (Coord V) :=
  tryCoord l { sel := .byName n } <|> tryCoord l { stdName := some n } <|> tryCoord l { stdName := axes n.toUpper }
    <|> tryCoord l { varName := some n } <|> tryCoord l { axis := some n }

end Cis.Coords
