import Mathlib.Algebra.Order.Field.Basic
/-! Specification: longitudes modulo 360 degrees. -/
namespace Cis.Lon.Spec
variable {K : Type} [Field K] [LinearOrder K]

/-- The two longitudes denote the same meridian. -/
def Same (a b : K) : Prop := ∃ k : ℤ, a = b + 360 * k

/-- In the period that starts at `s`. -/
def InRange (s a : K) : Prop := s ≤ a ∧ a < s + 360

end Cis.Lon.Spec
