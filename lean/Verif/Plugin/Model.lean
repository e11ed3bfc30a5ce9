import Mathlib.Data.List.Sort
import Mathlib.Data.String.Basic
/-!
Model of plugin discovery (cis/plugin.py), of the choice of the data product for a file (cis/data_io/products/AProduct.py:133-188),
of the kernel of a given name (col_framework.py:244-288, col.py:48-64) and of the choice of the collocator by `sampled_from`
(gridded_data.py:345-400, ungridded_data.py:1213-1255).
-/
namespace Cis.Plugin

/-- A class: an identity (classes of the same name can differ), `__name__`, `priority`, `str(cls.__bases__[0])`, and
`get_file_signature()`. -/
structure Cls where
  id : Nat
  name : String
  priority : Int
  base : String
  patterns : List String
  deriving DecidableEq

/-- A class with its direct subclasses (`__subclasses__()`); a class with two parents is in the tree of each. -/
inductive Tree
  | node (c : Cls) (kids : List Tree)

/-- The class at the root. -/
def Tree.root : Tree → Cls
  | .node c _ => c

mutual
/-- `get_all_subclasses` of one subclass (plugin.py:4-22). -/
def allSubsOf : Tree → List Cls
  | .node _ kids => allSubsDeep kids ++ kids.map Tree.root
/-- The loop over the direct subclasses (plugin.py:19-20). -/
def allSubsDeep : List Tree → List Cls
  | [] => []
  | t :: ts => allSubsOf t ++ allSubsDeep ts
end

/-- `get_all_subclasses(parent_class, mod)` (plugin.py:4-22) for a parent with these direct subclasses, after all imports. -/
def getAllSubclasses (direct : List Tree) : List Cls := allSubsDeep direct ++ direct.map Tree.root

/-- `sub in s` for strings. -/
def occursIn (sub : List Char) : List Char → Bool
  | [] => sub.isEmpty
  | c :: cs => sub.isPrefixOf (c :: cs) || occursIn sub cs

/-- `find_plugins` (plugin.py:25-60) for the classes in each plugin file: `product_classes` is assigned anew for every file. -/
def findPlugins (parentName : String) (files : List (List Cls)) : List Cls :=
  files.foldl (fun _ classes => classes.filter (fun c => occursIn parentName.toList c.base.toList)) []

/-- The name marks the class as abstract (plugin.py:75). -/
def isAbstract (c : Cls) : Bool := "abstract".toList.isPrefixOf c.name.toList || "Abstract".toList.isPrefixOf c.name.toList

/-- `for subclass in all_classes: if ...: all_classes.remove(subclass)` (plugin.py:74-76): the loop goes on with the next index of
the shortened list; `remove` takes the first equal element. -/
def removeLoop {α : Type} [DecidableEq α] (p : α → Bool) (i : Nat) (l : List α) : List α :=
  if h : i < l.length then
    if p l[i] then removeLoop p (i + 1) (l.erase l[i]) else removeLoop p (i + 1) l
  else l
termination_by l.length - i
decreasing_by
  · have := List.length_erase_le (a := l[i]) (l := l); omega
  · omega

/-- `find_plugin_classes` (plugin.py:63-83). -/
def findPluginClasses (parentName : String) (files : List (List Cls)) (direct : List Tree) : List Cls :=
  (removeLoop isAbstract 0 (findPlugins parentName files ++ getAllSubclasses direct)).insertionSort (fun a b => a.name ≤ b.name)

/-- `os.path.basename`. -/
def basename (f : List Char) : List Char := (f.reverse.takeWhile (· ≠ '/')).reverse

/-- `sorted(product_classes, key=priority, reverse=True)` (AProduct.py:157): stable. -/
def byPriority (l : List Cls) : List Cls := l.insertionSort (fun a b => b.priority ≤ a.priority)

/-- A class is right for a file (AProduct.py:161-174): some pattern with `$` appended matches the base name and
`get_file_type_error` (`typeErr`) finds nothing. -/
def accepts (reMatch : String → List Char → Bool) (typeErr : Cls → List Char → Bool) (filename : List Char) (c : Cls) : Bool :=
  c.patterns.any (fun p => reMatch (p ++ "$") (basename filename) && !typeErr c filename)

/-- `__get_class(filename, product)` (AProduct.py:133-188); `none` is ClassNotFoundError. -/
def getClass (reMatch : String → List Char → Bool) (typeErr : Cls → List Char → Bool) (classes : List Cls) (filename : List Char)
    (product : Option String) : Option Cls :=
  match product with
  | none => (byPriority classes).find? (accepts reMatch typeErr filename)
  | some p => (byPriority classes).find? (fun c => p == c.name)

/-! ### Kernels and collocators -/

/-- The argument `kernel`. `other`: something that is not a string or kernel; `falsy`: it counts as false. -/
inductive KernelArg
  | none
  | str (s : String)
  | inst (k : String)
  | other (falsy : Bool)
  deriving DecidableEq

/-- A chosen kernel: an instance given by the user, a new one of a class, or (for ungridded sampling of gridded data) a method name. -/
inductive KernelOut
  | user (k : String)
  | new (c : String)
  | method (m : String)
  deriving DecidableEq

/-- `get_kernel` (col.py:48-64, col_framework.py:274-288); `none` is ValueError. `kernels` are the names of the kernel classes. -/
def getKernel (kernels : List String) (k : KernelArg) : Option KernelOut :=
  match k with
  | .none => some (.new "moments")
  | .other true => some (.new "moments")
  | .str s => if s = "" then some (.new "moments") else if s ∈ kernels then some (.new s) else none
  | .inst k => some (.user k)
  | .other false => none

/-- What kind of object the data are. -/
inductive DataKind
  | gridded | griddedList | ungridded | ungriddedList | other
  deriving DecidableEq

/-- A collocator, constraint and kernel. -/
structure Choice where
  collocator : String
  constraint : Option String
  kernel : KernelOut
  deriving DecidableEq

/-- `GriddedData.sampled_from` (gridded_data.py:345-400); `none` is ValueError. -/
def griddedSampledFrom (kernels : List String) (data : DataKind) (how : String) (kernel : KernelArg) : Option Choice :=
  if data = .ungridded ∨ data = .ungriddedList then
    if how = "" ∨ how = "bin" then
      (getKernel kernels kernel).map (fun k => ⟨"GeneralGriddedCollocator", some "BinnedCubeCellOnlyConstraint", k⟩)
    else if how = "box" then
      (getKernel kernels kernel).map (fun k => ⟨"GeneralGriddedCollocator", some "SepConstraintKdtree", k⟩)
    else none
  else if data = .gridded ∨ data = .griddedList then
    if kernel ≠ .none then none
    else if how = "" ∨ how = "lin" then some ⟨"GriddedCollocator", none, .new "gridded_gridded_li"⟩
    else if how = "nn" then some ⟨"GriddedCollocator", none, .new "gridded_gridded_nn"⟩
    else none
  else none

/-- `_ungridded_sampled_from` (ungridded_data.py:1213-1255); `none` is ValueError. -/
def ungriddedSampledFrom (kernels : List String) (data : DataKind) (how : String) (kernel : KernelArg) : Option Choice :=
  if data = .ungridded ∨ data = .ungriddedList then
    if how ∉ ["", "box"] then none
    else (getKernel kernels kernel).map (fun k => ⟨"GeneralUngriddedCollocator", some "SepConstraintKdtree", k⟩)
  else if data = .gridded ∨ data = .griddedList then
    if how ∉ ["", "lin", "nn"] then none
    else some ⟨"GriddedUngriddedCollocator", none, .method (if how = "" then "lin" else how)⟩
  else none

/-- `sample.sampled_from(data, how, kernel)`, and `data.collocated_onto(sample, how, kernel)` (common_data.py:159-178). -/
def sampledFrom (sampleGridded : Bool) (kernels : List String) (data : DataKind) (how : String) (kernel : KernelArg) : Option Choice :=
  if sampleGridded then griddedSampledFrom kernels data how kernel else ungriddedSampledFrom kernels data how kernel

end Cis.Plugin
