import Mathlib.Data.List.Basic
/-!
Model of writing ungridded data to NetCDF (data_io/write_netcdf.py) and of the loop over datagroups of the `col` command
(cis_main.py). A file is the length of its one dimension and the list of its variables. Attributes, data types and disk space
are not modelled; values are stored as they are (no packing, masked elements are values).
-/
namespace Cis.Write

variable {α : Type}

/-- A coordinate or data object: `metadata._name`, `metadata.standard_name`, `data.flatten()`. -/
structure Obj (α : Type) where
  name : Option String
  standardName : Option String
  values : List α

/-- An open NetCDF file. -/
structure File (α : Type) where
  length : Nat
  vars : List (String × List α)
deriving DecidableEq

/-- A name that is not None and not empty (write_netcdf.py:98, 101). -/
def given (n : Option String) : Option String :=
  match n with
  | none => none
  | some s => if s.isEmpty then none else some s

/-- The name under which an object is written (write_netcdf.py:97-102). -/
def varName (preferStandard : Bool) (o : Obj α) : Option String :=
  match given o.name with
  | none => given o.standardName
  | some n => if preferStandard then (given o.standardName).getD n else some n

/-- `__create_variable` (write_netcdf.py:85-122): `none` is an exception (no name, or the length differs from that of the
dimension; the broadcast of a single value by netCDF4 is left out). An existing variable is left as it is. -/
def createVariable (preferStandard : Bool) (f : File α) (o : Obj α) : Option (File α) :=
  match varName preferStandard o with
  | none => none
  | some n =>
    if n ∈ f.vars.map Prod.fst then some f
    else if o.values.length = f.length then some { f with vars := f.vars ++ [(n, o.values)] }
    else none

/-- Creating one variable after the other. -/
def createAll (preferStandard : Bool) : File α → List (Obj α) → Option (File α)
  | f, [] => some f
  | f, o :: t => match createVariable preferStandard f o with
    | none => none
    | some f' => createAll preferStandard f' t

/-- `write_coordinate_list` (write_netcdf.py:146-161): a new file, whatever was there. `none`: no coordinate (IndexError). -/
def writeCoordinateList : List (Obj α) → Option (File α)
  | [] => none
  | c :: t => createAll true ⟨c.values.length, []⟩ (c :: t)

/-- `add_data_to_file` (write_netcdf.py:164-175), and the loop of `UngriddedDataList.save_data` (ungridded_data.py:1057-1059;
for a single data object ungridded_data.py:375-378): the coordinates of the first data object, then all the data. -/
def saveData (coords data : List (Obj α)) : Option (File α) :=
  match writeCoordinateList coords with
  | none => none
  | some f => createAll false f data

/-- The loop of `col_cmd` (cis_main.py:94-99): the output of each datagroup is saved to the same file. `before` is the file
there before. -/
def saveGroups : Option (File α) → List (List (Obj α) × List (Obj α)) → Option (Option (File α))
  | before, [] => some before
  | _, (c, d) :: t => match saveData c d with
    | none => none
    | some f => saveGroups (some f) t

end Cis.Write
