import Mathlib.Analysis.Convex.Basic
import Mathlib.Data.Real.Sqrt
/-! # Specification: the point of a simplex closest to a given point -/
namespace Tandem.Spec
variable {D V : ℕ}

/-- Barycentric coordinates. -/
def Bary (mu : Fin V → ℝ) : Prop := (∀ i, 0 ≤ mu i) ∧ ∑ i, mu i = 1

/-- The point with barycentric coordinates `mu` in the simplex with vertices `v`. -/
def baryPoint (v : Fin V → Fin D → ℝ) (mu : Fin V → ℝ) : Fin D → ℝ := fun d => ∑ i, mu i * v i d

/-- Euclidean distance. -/
noncomputable def euclid (x y : Fin D → ℝ) : ℝ := Real.sqrt (∑ d, (x d - y d) ^ 2)

end Tandem.Spec
