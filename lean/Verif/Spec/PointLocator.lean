import Verif.Spec.SimplexDistance
/-! # Specification: points of the reference simplex -/
namespace Tandem.Spec

/-- `xi` lies in the reference simplex. -/
def InRefSimplex {D : ℕ} (xi : Fin D → ℝ) : Prop := (∀ d, 0 ≤ xi d) ∧ ∑ d, xi d ≤ 1

end Tandem.Spec
