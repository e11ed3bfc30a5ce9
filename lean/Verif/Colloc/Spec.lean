import Verif.Colloc.Model
import Verif.Geo.Spec
/-! Specification of the separation constraint. -/
namespace Cis.Colloc.Spec

/-- `p` is closer to `ref` than every separation that is given. The pressure separation is the ratio of the larger to the
smaller pressure. -/
def Within (s : Seps) (ref p : Loc) : Prop :=
  (∀ h, s.h = some h → Geo.Spec.greatCircle 6378 p.lat p.lon ref.lat ref.lon < h) ∧
  (∀ a, s.a = some a → |p.alt - ref.alt| < a) ∧
  (∀ q, s.p = some q → max (p.pres / ref.pres) (ref.pres / p.pres) < q) ∧
  (∀ t, s.t = some t → |p.time - ref.time| < t)

open Classical in
/-- The rows within the separations, in order. -/
noncomputable def selected (s : Seps) (ref : Loc) (data : List DRow) : List DRow :=
  data.filter (fun r => decide (Within s ref r.loc))

/-- `r` is the first of the rows with least separation. -/
def FirstNearest (sep : Loc → ℝ) (data : List DRow) (r : DRow) : Prop :=
  ∃ before after, data = before ++ r :: after ∧ (∀ q ∈ before, sep r.loc < sep q.loc) ∧ ∀ q ∈ after, sep r.loc ≤ sep q.loc

end Cis.Colloc.Spec
