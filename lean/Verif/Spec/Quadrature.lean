import Verif.Spec.Functions
import Verif.Spec.RefElement
import Mathlib.Algebra.Polynomial.Eval.Degree
/-! # Specification of quadrature rules on intervals and of tabulated rules (C57, C63) -/
namespace Tandem.Spec
open Polynomial

/-- The points are the `n` different roots of the Jacobi polynomial `P_n^{(a,b)}`. -/
def JacobiNodes (n a b : ℕ) (points : List ℝ) : Prop :=
  points.Nodup ∧ points.length = n ∧ ∀ x ∈ points, jacobi n a b x = 0

/-- The quadrature is exact on `[-1,1]` with weight function `(1-x)^a (1+x)^b` for polynomials of degree
at most `N`. -/
def ExactWeighted (N a b : ℕ) (points weights : List ℝ) : Prop :=
  points.length = weights.length ∧ ∀ p : ℝ[X], p.natDegree ≤ N →
    ((points.zip weights).map fun pw => pw.2 * p.eval pw.1).sum
      = ∫ x in (-1:ℝ)..1, (1 - x) ^ a * (1 + x) ^ b * p.eval x

/-- The classical weight of the Gauss-Jacobi rule with `n` points that belongs to the point `x`. -/
noncomputable def gaussWeight (n a b : ℕ) (x : ℝ) : ℝ :=
  -(2 * n + a + b + 2) / (n + a + b + 1) * (((n + a).factorial * (n + b).factorial : ℝ)
    / ((n + a + b).factorial * (n + 1).factorial)) * 2 ^ (a + b)
    / (jacobi (n + 1) a b x * deriv (jacobi n a b) x)

/-- The points are, one by one, within `δ` of the `n` different roots of the Jacobi polynomial. -/
def NearRoots (n a b : ℕ) (δ : ℝ) (points : List ℝ) : Prop :=
  ∃ roots, JacobiNodes n a b roots ∧ List.Forall₂ (fun x r => |x - r| ≤ δ) points roots

/-- As `ExactWeighted`, up to an error of `ε` times the sum of the absolute values of the
coefficients. -/
def AlmostWeighted (N a b : ℕ) (ε : ℝ) (points weights : List ℝ) : Prop :=
  points.length = weights.length ∧ ∀ p : ℝ[X], p.natDegree ≤ N →
    |((points.zip weights).map fun pw => pw.2 * p.eval pw.1).sum
      - ∫ x in (-1:ℝ)..1, (1 - x) ^ a * (1 + x) ^ b * p.eval x| ≤ ε * ∑ k ∈ p.support, |p.coeff k|

/-- Exactness on the simplex with vertices at `-1` and `1` (the reference simplex under
`x ↦ 2x - 1`). -/
def ExactBiunit (D N : ℕ) (points : List (Fin D → ℝ)) (weights : List ℝ) : Prop :=
  points.length = weights.length ∧ ∀ f, IsPoly D N f →
    ((points.zip weights).map fun pw => pw.2 * f pw.1).sum
      = 2 ^ D * simplexIntegral D (fun x => f fun d => 2 * x d - 1)

/-- Exactness for the mean value over the reference tetrahedron (weights that sum up to one). -/
def ExactMean (N : ℕ) (points : List (Fin 3 → ℝ)) (weights : List ℝ) : Prop :=
  points.length = weights.length ∧ ∀ f, IsPoly 3 N f →
    ((points.zip weights).map fun pw => pw.2 * f pw.1).sum = 6 * simplexIntegral 3 f

end Tandem.Spec
