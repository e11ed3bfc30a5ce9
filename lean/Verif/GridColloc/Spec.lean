import Verif.GridColloc.Model
/-! Specification of gridded collocation, by names of coordinates. -/
namespace Cis.GridColloc.Spec
variable {K V : Type}

/-- The dimensions of the output: the coordinates of the sample that are dimensions of the data, in the order of the sample,
then the dimensions of the data that are not in the sample, in the order of the data. -/
def outDims (s : Sample K) (data : Cube K V) : List (Coord K) :=
  (s.dims ++ s.aux).filter (fun c => data.dims.any (fun d => d.name == c.name)) ++
    data.dims.filter (fun d => !(s.dims ++ s.aux).any (fun c => c.name == d.name))

/-- The index along the dimension of the output called `name`. -/
def along (dims : List (Coord K)) (idx : List Nat) (name : String) : Nat := idx.getD (dims.findIdx (fun c => c.name == name)) 0

/-- What should be asked of the data along dimension `d` for the output index `idx`: the value of the sample coordinate of
this name, or the same index where the sample has none. -/
def target (s : Sample K) (out : List (Coord K)) (idx : List Nat) (d : Coord K) : Target K :=
  match (s.dims ++ s.aux).find? (fun c => c.name == d.name) with
  | none => .index (along out idx d.name)
  | some c =>
    match c.pts[along out idx d.name]? with
    | some x => .value x
    | none => .index (along out idx d.name)

/-- Distinct names. -/
def Distinct (l : List (Coord K)) : Prop := (l.map Coord.name).Nodup

instance (l : List (Coord K)) : Decidable (Distinct l) := inferInstanceAs (Decidable (l.map Coord.name).Nodup)

/-- A valid index into an array of these dimensions. -/
def Valid (dims : List (Coord K)) (idx : List Nat) : Prop := List.Forall₂ (fun (c : Coord K) i => i < c.pts.length) dims idx

end Cis.GridColloc.Spec
