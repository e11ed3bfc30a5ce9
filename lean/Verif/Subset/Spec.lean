import Verif.Subset.Model
import Verif.Lon.Spec
/-! Specification of subsetting: data as a list of points. -/
namespace Cis.Subset

variable {V : Type}

/-- Arrays of the same length. -/
def UData.WF (d : UData V) : Prop := ∀ c ∈ d.coords, c.length = d.values.length

/-- The points of the data, in order: the coordinates and the value. -/
def rowsOf : List (List ℚ) → List V → List (List ℚ × V)
  | _, [] => []
  | cs, v :: vs => (cs.filterMap List.head?, v) :: rowsOf (cs.map List.tail) vs

def UData.rows (d : UData V) : List (List ℚ × V) := rowsOf d.coords d.values

/-- The point lies in the closed limits. -/
def Inside (l : Limit) (p : List ℚ × V) : Bool :=
  match p.1[l.coord]? with
  | some x => decide (l.start ≤ x) && decide (x ≤ l.stop)
  | none => false

/-- The point lies in limits of coordinate `o.1` that may be open at either end. -/
def InsideOpen (o : Nat × Option ℚ × Option ℚ) (p : List ℚ × V) : Bool :=
  match p.1[o.1]? with
  | some x => o.2.1.all (fun a => decide (a ≤ x)) && o.2.2.all (fun b => decide (x ≤ b))
  | none => false

/-- The point lies in the shape. -/
def InShape (lon lat : Nat) (s : Shape) (p : List ℚ × V) : Bool :=
  match p.1[lon]?, p.1[lat]? with
  | some x, some y => s.contains x y
  | _, _ => false

/-- The bounding box contains the shape. -/
def Shape.Bounded (s : Shape) : Prop :=
  ∀ x y, s.contains x y = true → s.minX ≤ x ∧ x ≤ s.maxX ∧ s.minY ≤ y ∧ y ≤ s.maxY

/-- The longitudes of a kept convention: the coordinate is converted only where needed. -/
def convertPoint (lon : Nat) (f : ℚ → ℚ) (p : List ℚ × V) : List ℚ × V := (p.1.modify lon f, p.2)

end Cis.Subset
