import Verif.Spec.RefElement
/-! # Specification of the material of an element (C98) -/
namespace Tandem.Spec

/-- The square of the distance between the values `u` and `K` at the quadrature points of an element. -/
noncomputable def fitError {n : ℕ} (W J u K : Fin n → ℝ) : ℝ := ∑ q, W q * J q * (u q - K q) ^ 2

/-- `u` is the best approximation, among the polynomials of degree at most `N` on the reference element, of the values `K` at the
quadrature points, and the only one. -/
def BestFit (D N : ℕ) {n : ℕ} (xi : Fin n → Fin D → ℝ) (W J K : Fin n → ℝ) (u : (Fin D → ℝ) → ℝ) : Prop :=
  IsPoly D N u ∧ ∀ p, IsPoly D N p → fitError W J (fun q => u (xi q)) K ≤ fitError W J (fun q => p (xi q)) K ∧
    (fitError W J (fun q => p (xi q)) K = fitError W J (fun q => u (xi q)) K → ∀ x, p x = u x)

end Tandem.Spec
