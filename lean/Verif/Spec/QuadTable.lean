import Verif.Spec.RefElement
import Verif.Spec.PointLocator
/-! # Specification of approximate quadrature (C84) -/
namespace Tandem.Spec

/-- The sum of the absolute values of the coefficients of a polynomial. -/
noncomputable def coeffSum {D : ℕ} (p : MvPolynomial (Fin D) ℝ) : ℝ := ∑ t ∈ p.support, |p.coeff t|

/-- The rule integrates every polynomial of degree at most `N` over the reference simplex up to an
error of `ε` times the sum of the absolute values of the coefficients. -/
def AlmostExact (D N : ℕ) (ε : ℝ) (points : List (Fin D → ℝ)) (weights : List ℝ) : Prop :=
  points.length = weights.length ∧ ∀ p : MvPolynomial (Fin D) ℝ, p.totalDegree ≤ N →
    |((points.zip weights).map fun pw => pw.2 * MvPolynomial.eval pw.1 p).sum
      - simplexIntegral D (fun x => MvPolynomial.eval x p)| ≤ ε * coeffSum p

end Tandem.Spec
