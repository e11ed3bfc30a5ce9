import Verif.OrderedSet.Model
import Mathlib.Data.List.Lex
import Mathlib.Data.Char
import Mathlib.Data.List.Sort
/-
Model of cis.data_io.data_reader.expand_filelist (cis/data_io/data_reader.py:10-46) and of the two callers' argument
forms. The file system is a parameter (`FS`): nothing is assumed about it.
Strings are lists of characters ordered lexicographically by code point, as in Python.
-/
namespace Cis.FileList

abbrev Str := List Char

/-- What the code asks of the operating system: `glob.glob`, `os.path.isdir`, `os.listdir`, `os.path.join`,
`os.path.isfile` (data_reader.py:17-19). -/
structure FS where
  glob : Str → List Str
  isdir : Str → Bool
  listdir : Str → List Str
  join : Str → Str → Str
  isfile : Str → Bool

/-- The argument: a string or a list (data_reader.py:22-25; `listify`, utils.py:655-667, makes a list of a tuple,
generator or list; other single elements are not modelled, they are not paths). -/
inductive Arg where
  | str (s : Str)
  | list (l : List Str)

/-- `s.split(',')`. -/
def splitComma : Str → List Str
  | [] => [[]]
  | c :: t =>
    if c = ',' then [] :: splitComma t
    else match splitComma t with
      | [] => [[c]]
      | h :: r => (c :: h) :: r

/-- data_reader.py:22-25. -/
def inputList : Arg → List Str
  | .str s => splitComma s
  | .list l => l

/-- `any(wildcard in element for wildcard in ['*', '?', ']', '}'])` (data_reader.py:30). -/
def hasWildcard (e : Str) : Bool := ['*', '?', ']', '}'].any (fun w => e.contains w)

/-- `list.sort()` on strings, by code point order (any sorting algorithm gives the same list, see
`c02_expands_unique`; insertion sort is used here). -/
def sortStrs (l : List Str) : List Str := l.insertionSort (· ≤ ·)

/-- `for filename in ...: file_set.add(filename)`. -/
def addAll (s : OrderedSet.St Str) (l : List Str) : OrderedSet.St Str := l.foldl OrderedSet.add s

/-- The body of the main loop (data_reader.py:30-45); `Except.error e` is `ValueError` for element `e`. -/
def expandElement (fs : FS) (s : OrderedSet.St Str) (e : Str) : Except Str (OrderedSet.St Str) :=
  if hasWildcard e then .ok (addAll s (sortStrs (fs.glob e)))
  else if fs.isdir e then
    .ok ((sortStrs (fs.listdir e)).foldl
      (fun s f => let full := fs.join e f; if fs.isfile full then OrderedSet.add s full else s) s)
  else if fs.isfile e then .ok (OrderedSet.add s e)
  else .error e

/-- The main loop (data_reader.py:29-45). -/
def expandLoop (fs : FS) (s : OrderedSet.St Str) : List Str → Except Str (OrderedSet.St Str)
  | [] => .ok s
  | e :: t =>
    match expandElement fs s e with
    | .ok s' => expandLoop fs s' t
    | .error x => .error x

/-- `expand_filelist` (data_reader.py:10-46). `Except.ok none` would be a non-terminating `list(file_set)`. -/
def expandFilelist (fs : FS) (a : Arg) : Except Str (Option (List Str)) :=
  match expandLoop fs OrderedSet.init (inputList a) with
  | .ok s => .ok (OrderedSet.iter s)
  | .error e => .error e

end Cis.FileList
