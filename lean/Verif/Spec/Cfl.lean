import Verif.Spec.DGAssembly
import Verif.Model.Cfl
import Verif.Spec.TraceIneq
/-! # Specification of the bound of the spectrum behind the time step (C97) -/
namespace Tandem.Spec
open DGTopo

variable {Nbm : ℕ}

open Classical in
/-- Number of elements that share facet `f` of element `e`. -/
noncomputable def sides (P : ℕ) (elems : ℕ → List (List ℕ)) (e f : List ℕ) : ℝ :=
  if ∃ a, InElems P elems a ∧ a ≠ e ∧ IsFacet a f then 2 else 1

/-- The part of the bound of an element that comes from the penalty of its facets: number of sides times penalty times trace
constant times area over volume, summed over the facets. -/
noncomputable def penaltyPart (P dim p : ℕ) (elems : ℕ → List (List ℕ)) (pen area volume : List ℕ → ℝ) (e : List ℕ) : ℝ :=
  ((Ghosts.facets dim e).map (fun f => sides P elems e f * pen f * Poisson.traceConstant dim p * (area f / volume e))).sum

/-- The part that comes from the elastic energy: greatest stiffness times gradient constant times the square of the surface over
the volume. -/
noncomputable def energyPart (dim : ℕ) (C_N : ℝ) (lam mu : List ℕ → Fin Nbm → ℝ) (area volume : List ℕ → ℝ) (e : List ℕ) : ℝ :=
  (⨆ t, (dim * lam e t + 2 * mu e t)) * C_N * (((Ghosts.facets dim e).map area).sum / volume e) ^ 2

/-- `W` and `w` are the weights of quadratures on the reference element and on the reference facet that are exact for degree
`2 (N + 1)`; `E_Q`, `E_q` are the values and `Dxi_Q`, `Dxi_q` the gradients, at the points in the element and at the points mapped to
facet `l`, of basis functions that are polynomials of degree at most `N + 1`. -/
def BasisTables (D N : ℕ) {Nbf Nq nq : ℕ} (W : Fin Nq → ℝ) (w : Fin nq → ℝ) (E_Q : Fin Nbf → Fin Nq → ℝ) (E_q : ℕ → Fin Nbf → Fin nq → ℝ)
    (Dxi_Q : Fin Nbf → Fin (D + 1) → Fin Nq → ℝ) (Dxi_q : ℕ → Fin Nbf → Fin (D + 1) → Fin nq → ℝ) : Prop :=
  ∃ (xi : Fin Nq → Fin (D + 1) → ℝ) (chi : Fin nq → Fin D → ℝ) (phi : Fin Nbf → (Fin (D + 1) → ℝ) → ℝ)
    (dphi : Fin Nbf → (Fin (D + 1) → ℝ) → Fin (D + 1) → ℝ),
    (∀ f, IsPoly (D + 1) (2 * (N + 1)) f → ∑ q, W q * f (xi q) = simplexIntegral (D + 1) f) ∧
    (∀ f, IsPoly D (2 * (N + 1)) f → ∑ q, w q * f (chi q) = simplexIntegral D f) ∧
    (∀ k, IsPoly (D + 1) (N + 1) (phi k)) ∧ (∀ k x, IsGradient (phi k) (dphi k x) x) ∧
    (∀ k q, E_Q k q = phi k (xi q)) ∧ (∀ (l : Fin (D + 2)) k q, E_q l k q = phi k (Curvilinear.facetParam l (chi q))) ∧
    (∀ k e q, Dxi_Q k e q = dphi k (xi q) e) ∧
    (∀ (l : Fin (D + 2)) k e q, Dxi_q l k e q = dphi k (Curvilinear.facetParam l (chi q)) e)

/-- Every element is the image of the reference element under an affine map: there is one matrix `J` with the determinant, the
inverse and, up to the sign, the normals of all facets (in the sense of `Curvilinear.normal`); different facets have different
local numbers. -/
structure AffineElements (P : ℕ) {D Nq nq : ℕ} (elems : ℕ → List (List ℕ)) (g : Geometry (D + 1) Nq nq) : Prop where
  map : ∀ e, InElems P elems e → ∃ J : Matrix (Fin (D + 1)) (Fin (D + 1)) ℝ, J.det ≠ 0 ∧ (∀ q, g.absDetJ e q = |J.det|) ∧
    (∀ i j q, g.jInv e i j q = J⁻¹ i j) ∧ ∀ f, IsFacet e f → (∀ i j q, g.jInvFacet f e i j q = J⁻¹ i j) ∧
      ∃ l : Fin (D + 2), g.localNo e f = l ∧ ∃ s : ℝ, |s| = 1 ∧ ∀ r q, g.normal f e r q = s * Curvilinear.normal l J r
  localNo : ∀ e f f', InElems P elems e → IsFacet e f → IsFacet e f' → g.localNo e f = g.localNo e f' → f = f'

end Tandem.Spec
