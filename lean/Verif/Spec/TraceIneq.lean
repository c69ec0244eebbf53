import Verif.Spec.RefElement
import Verif.Spec.Functions
import Verif.Spec.DGAssembly
import Verif.Model.Curvilinear
/-! # Specification of exact tables and straight meshes (C75) -/
namespace Tandem.Spec
open DGTopo

/-- `W` and `w` are the weights of quadratures on the reference element and on the reference facet that are exact for degree
`2 N`; `Dxi_Q` and `Dxi_q` are the gradients, at the points in the element and at the points mapped to facet `l`, of basis functions
that are polynomials of degree at most `N + 1`. -/
def GradientTables (D N : ℕ) {Nbf Nq nq : ℕ} (W : Fin Nq → ℝ) (w : Fin nq → ℝ) (Dxi_Q : Fin Nbf → Fin (D + 1) → Fin Nq → ℝ)
    (Dxi_q : ℕ → Fin Nbf → Fin (D + 1) → Fin nq → ℝ) : Prop :=
  ∃ (xi : Fin Nq → Fin (D + 1) → ℝ) (chi : Fin nq → Fin D → ℝ) (phi : Fin Nbf → (Fin (D + 1) → ℝ) → ℝ)
    (dphi : Fin Nbf → (Fin (D + 1) → ℝ) → Fin (D + 1) → ℝ),
    (∀ f, IsPoly (D + 1) (2 * N) f → ∑ q, W q * f (xi q) = simplexIntegral (D + 1) f) ∧
    (∀ f, IsPoly D (2 * N) f → ∑ q, w q * f (chi q) = simplexIntegral D f) ∧
    (∀ k, IsPoly (D + 1) (N + 1) (phi k)) ∧ (∀ k x, IsGradient (phi k) (dphi k x) x) ∧
    (∀ k e q, Dxi_Q k e q = dphi k (xi q) e) ∧
    (∀ (l : Fin (D + 2)) k e q, Dxi_q l k e q = dphi k (Curvilinear.facetParam l (chi q)) e)

/-- All elements are straight: the Jacobian of an element and the normal of each of its facets are constant. -/
structure Straight (P : ℕ) {D Nq nq : ℕ} (elems : ℕ → List (List ℕ)) (g : Geometry (D + 1) Nq nq) : Prop where
  detJ : ∀ e, InElems P elems e → ∃ J, 0 < J ∧ ∀ q, g.absDetJ e q = J
  jInv : ∀ e, InElems P elems e → ∃ A : Fin (D + 1) → Fin (D + 1) → ℝ, (∀ i j q, g.jInv e i j q = A i j) ∧
    ∀ f, IsFacet e f → ∀ i j q, g.jInvFacet f e i j q = A i j
  normal : ∀ e f, InElems P elems e → IsFacet e f → ∃ n : Fin (D + 1) → ℝ, n ≠ 0 ∧ ∀ r q, g.normal f e r q = n r
  localNo : ∀ e f, InElems P elems e → IsFacet e f → g.localNo e f < D + 2

end Tandem.Spec
