import Mathlib.Algebra.MvPolynomial.Eval
import Mathlib.Algebra.MvPolynomial.Degrees
import Mathlib.MeasureTheory.Integral.IntervalIntegral.Basic
/-! # Specification of polynomial spaces on the reference simplex (C57, C78, C82, C83) -/
namespace Tandem.Spec

/-- `f` is a polynomial in `D` variables of total degree at most `N`. -/
def IsPoly (D N : ℕ) (f : (Fin D → ℝ) → ℝ) : Prop :=
  ∃ p : MvPolynomial (Fin D) ℝ, p.totalDegree ≤ N ∧ ∀ x, f x = MvPolynomial.eval x p

/-- The nodes determine the polynomials of degree at most `N`: a polynomial that vanishes at all
nodes is zero. -/
def Unisolvent (D N : ℕ) (nodes : List (Fin D → ℝ)) : Prop :=
  ∀ f, IsPoly D N f → (∀ x ∈ nodes, f x = 0) → ∀ x, f x = 0

/-- The integral over the reference simplex of dimension 1, 2 or 3, as an iterated integral. -/
noncomputable def simplexIntegral : (D : ℕ) → ((Fin D → ℝ) → ℝ) → ℝ
  | 1, f => ∫ x in (0:ℝ)..1, f ![x]
  | 2, f => ∫ y in (0:ℝ)..1, ∫ x in (0:ℝ)..(1 - y), f ![x, y]
  | 3, f => ∫ z in (0:ℝ)..1, ∫ y in (0:ℝ)..(1 - z), ∫ x in (0:ℝ)..(1 - y - z), f ![x, y, z]
  | _, _ => 0

/-- The quadrature with these points and weights is exact for all polynomials of degree at most `N`. -/
def ExactQuadrature (D N : ℕ) (points : List (Fin D → ℝ)) (weights : List ℝ) : Prop :=
  points.length = weights.length ∧ ∀ f, IsPoly D N f →
    ((points.zip weights).map fun pw => pw.2 * f pw.1).sum = simplexIntegral D f

end Tandem.Spec
