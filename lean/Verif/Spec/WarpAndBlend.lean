import Mathlib.Algebra.BigOperators.Fin
import Mathlib.Data.Real.Basic
/-!
# Specification: interpolation nodes on simplices

The nodes of degree `N` in a simplex are numbered by the tuples `b` of `D + 1` natural numbers with sum
`N`: the node number of vertex `k`, of an edge and of a face can be read off the tuple (`b m = 0`: the
node lies in the face without vertex `m`).
-/
namespace Tandem.Spec

/-- The tuple with sum `N` whose last `D` components are `i`. -/
def baryIndex {D : ℕ} (N : ℕ) (i : Fin D → ℕ) : Fin (D + 1) → ℕ := Fin.cons (N - ∑ d, i d) i

/-- Barycentric coordinates of a point of the reference simplex. -/
noncomputable def baryCoord {D : ℕ} (xi : Fin D → ℝ) : Fin (D + 1) → ℝ := Fin.cons (1 - ∑ d, xi d) xi

/-- The point of the simplex with vertices `v` and barycentric coordinates `lam`. -/
noncomputable def simplexPoint {n D : ℕ} (v : Fin n → Fin D → ℝ) (lam : Fin n → ℝ) : Fin D → ℝ :=
  fun i => ∑ k, lam k * v k i

end Tandem.Spec
