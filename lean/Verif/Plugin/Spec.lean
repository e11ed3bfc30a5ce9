import Verif.Plugin.Model
/-! What discovery of plugins, choice of products and of collocators are to do. -/
namespace Cis.Plugin

/-- `c` is a direct or indirect subclass, given the direct ones. -/
inductive IsSub : List Tree → Cls → Prop
  | direct {ts : List Tree} {c : Cls} {kids : List Tree} : Tree.node c kids ∈ ts → IsSub ts c
  | deeper {ts : List Tree} {c d : Cls} {kids : List Tree} : Tree.node d kids ∈ ts → IsSub kids c → IsSub ts c

/-- Its name begins with "abstract" or "Abstract". -/
def Abstract (c : Cls) : Prop := ∃ rest, c.name = "abstract" ++ rest ∨ c.name = "Abstract" ++ rest

/-- The class is right for the file: one of its patterns matches the name without directories, and it finds no error in the file. -/
def Right (reMatch : String → List Char → Bool) (typeErr : Cls → List Char → Bool) (dir base : List Char) (c : Cls) : Prop :=
  (∃ p ∈ c.patterns, reMatch (p ++ "$") base = true) ∧ typeErr c (dir ++ base) = false

/-- One line of the documented table of collocation methods. -/
structure Row where
  sampleGridded : Bool
  dataGridded : Bool
  how : String
  collocator : String
  constraint : Option String
  /-- `none`: the user may choose a kernel; `some k`: it is this one -/
  fixed : Option KernelOut

/-- The documented table. -/
def table : List Row := [
  ⟨true, false, "", "GeneralGriddedCollocator", some "BinnedCubeCellOnlyConstraint", none⟩,
  ⟨true, false, "bin", "GeneralGriddedCollocator", some "BinnedCubeCellOnlyConstraint", none⟩,
  ⟨true, false, "box", "GeneralGriddedCollocator", some "SepConstraintKdtree", none⟩,
  ⟨true, true, "", "GriddedCollocator", none, some (.new "gridded_gridded_li")⟩,
  ⟨true, true, "lin", "GriddedCollocator", none, some (.new "gridded_gridded_li")⟩,
  ⟨true, true, "nn", "GriddedCollocator", none, some (.new "gridded_gridded_nn")⟩,
  ⟨false, false, "", "GeneralUngriddedCollocator", some "SepConstraintKdtree", none⟩,
  ⟨false, false, "box", "GeneralUngriddedCollocator", some "SepConstraintKdtree", none⟩,
  ⟨false, true, "", "GriddedUngriddedCollocator", none, some (.method "lin")⟩,
  ⟨false, true, "lin", "GriddedUngriddedCollocator", none, some (.method "lin")⟩,
  ⟨false, true, "nn", "GriddedUngriddedCollocator", none, some (.method "nn")⟩]

/-- The kernel a user means: the default, the class of this name, or the given object. -/
def MeansKernel (kernels : List String) (arg : KernelArg) (out : KernelOut) : Prop :=
  (arg = .none ∧ out = .new "moments") ∨ (arg = .str "" ∧ out = .new "moments") ∨ (arg = .other true ∧ out = .new "moments") ∨
  (∃ s ∈ kernels, s ≠ "" ∧ arg = .str s ∧ out = .new s) ∨ (∃ k, arg = .inst k ∧ out = .user k)

/-- Whether data count as gridded; `none` for anything else. -/
def kindGridded : DataKind → Option Bool
  | .gridded => some true
  | .griddedList => some true
  | .ungridded => some false
  | .ungriddedList => some false
  | .other => none

end Cis.Plugin
