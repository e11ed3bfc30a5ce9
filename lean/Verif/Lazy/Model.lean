import Mathlib.Data.List.Basic
import Mathlib.Tactic.Basic
/-!
Model of lazily loaded data (`LazyData`, ungridded_data.py:172-345) and of the conversions of coordinates (Coord.py:60-113) as a
state machine. Arrays are abstract; reading a file may fail at any point (MemoryError), which the operations take as a schedule.
-/
namespace Cis.Lazy

/-- What a lazy object is made of: the data managers (files), the function reading one of them, the concatenation of arrays, the
post-processing and the flattening (`ravel`). `isView a`: `a.ravel()` is a view of `a`, not a copy (it is a copy for
non-contiguous arrays). -/
structure Cfg (M A F : Type) where
  first : M
  rest : List M
  retrieve : M → A
  concat : A → A → A
  post : A → A
  ravel : A → F
  isView : A → Bool

/-- `_data`, `_data_flattened`, and (not in the code) the record of all calls of `retrieve_raw_data`. -/
structure St (M A F : Type) where
  data : Option A
  flat : Option F
  calls : List M

variable {M A F : Type}

/-- A newly made object (ungridded_data.py:186-205). -/
def fresh : St M A F := ⟨none, none, []⟩

/-- An object made from an array (ungridded_data.py:193-197); the array is post-processed at once. -/
def ofArray (cfg : Cfg M A F) (a : A) : St M A F := ⟨some (cfg.post a), none, []⟩

/-- `for manager in self._data_manager[1:]` (ungridded_data.py:279-281) from manager number `i` on; `crash i`: reading number `i`
raises MemoryError. What has been read so far is in `_data`. -/
def loadLoop (cfg : Cfg M A F) (crash : Nat → Bool) : Nat → List M → A → St M A F → St M A F × Option A
  | _, [], a, s => (s, some a)
  | i, m :: ms, a, s =>
    if crash i then ({ s with calls := s.calls ++ [m] }, none)
    else loadLoop cfg crash (i + 1) ms (cfg.concat a (cfg.retrieve m))
      { s with data := some (cfg.concat a (cfg.retrieve m)), calls := s.calls ++ [m] }

/-- The getter of `data` (ungridded_data.py:266-289); `none` is the MemoryError. -/
def getData (cfg : Cfg M A F) (crash : Nat → Bool) (s : St M A F) : St M A F × Option A :=
  match s.data with
  | some a => (s, some a)
  | none =>
    if crash 0 then ({ s with calls := s.calls ++ [cfg.first] }, none)
    else
      match loadLoop cfg crash 1 cfg.rest (cfg.retrieve cfg.first)
        { s with data := some (cfg.retrieve cfg.first), calls := s.calls ++ [cfg.first] } with
      | (s', some a) => ({ s' with data := some (cfg.post a) }, some (cfg.post a))
      | (s', none) => (s', none)

/-- `data_flattened` (ungridded_data.py:338-345). -/
def getFlat (cfg : Cfg M A F) (crash : Nat → Bool) (s : St M A F) : St M A F × Option F :=
  match s.flat with
  | some f => (s, some f)
  | none => match getData cfg crash s with
    | (s', some a) => ({ s' with flat := some (cfg.ravel a) }, some (cfg.ravel a))
    | (s', none) => (s', none)

/-- The operations. -/
inductive Op (A : Type)
  /-- reading `data` -/
  | read (crash : Nat → Bool)
  /-- reading `data_flattened` -/
  | readFlat (crash : Nat → Bool)
  /-- `x.data = a` (ungridded_data.py:333-336) -/
  | assign (a : A)
  /-- `self._data = f(self.data)`: convert_julian_to_std_time, convert_TAI_time_to_std_time, convert_to_std_time,
  convert_datetime_to_standard_time (Coord.py:60-98) -/
  | convert (f : A → A) (crash : Nat → Bool)
  /-- `self.data = f(self.data)`: convert_standard_time_to_datetime (Coord.py:100-104), UngriddedData.set_longitude_range
  (ungridded_data.py:738-746) -/
  | convertSet (f : A → A) (crash : Nat → Bool)
  /-- `self._data = f(self._data); self._data_flattened = None`: Coord.set_longitude_range (Coord.py:106-113) -/
  | lonRange (f : A → A)
  /-- the array is changed in place: convert_units (ungridded_data.py:407-421) -/
  | inPlace (f : A → A) (crash : Nat → Bool)

/-- What an operation shows to the user. -/
inductive Out (A F : Type)
  | data (a : A)
  | flat (f : F)
  | done
  | error
  deriving DecidableEq

/-- One operation. -/
def step (cfg : Cfg M A F) (op : Op A) (s : St M A F) : St M A F × Out A F :=
  match op with
  | .read crash => match getData cfg crash s with
    | (s', some a) => (s', .data a)
    | (s', none) => (s', .error)
  | .readFlat crash => match getFlat cfg crash s with
    | (s', some f) => (s', .flat f)
    | (s', none) => (s', .error)
  | .assign a => ({ s with data := some a, flat := none }, .done)
  | .convert f crash => match getData cfg crash s with
    | (s', some a) => ({ s' with data := some (f a) }, .done)
    | (s', none) => (s', .error)
  | .convertSet f crash => match getData cfg crash s with
    | (s', some a) => ({ s' with data := some (f a), flat := none }, .done)
    | (s', none) => (s', .error)
  | .lonRange f => match s.data with
    | some a => ({ s with data := some (f a), flat := none }, .done)
    | none => (s, .error)
  | .inPlace f crash => match getData cfg crash s with
    | (s', some a) =>
      ({ s' with data := some (f a), flat := s'.flat.map (fun old => if cfg.isView a then cfg.ravel (f a) else old) }, .done)
    | (s', none) => (s', .error)

/-- A history of operations: the final state and what was shown. -/
def run (cfg : Cfg M A F) : List (Op A) → St M A F → St M A F × List (Out A F)
  | [], s => (s, [])
  | op :: ops, s =>
    let r := step cfg op s
    let t := run cfg ops r.1
    (t.1, r.2 :: t.2)

end Cis.Lazy
