import Verif.Spec.Functions
import Verif.Spec.RefElement
import Mathlib.LinearAlgebra.Matrix.Determinant.Basic
import Mathlib.LinearAlgebra.CrossProduct
import Mathlib.Analysis.Calculus.FDeriv.Pi
/-! # Specification of finite element functions on curved elements and of error norms (C62) -/
namespace Tandem.Spec

/-- `u` is the polynomial of degree at most `N` that takes the value `c k` at node `k`. -/
def Interpolates (D N : ℕ) (nodes : List (Fin D → ℝ)) (c : ℕ → ℝ) (u : (Fin D → ℝ) → ℝ) : Prop :=
  IsPoly D N u ∧ ∀ (k : ℕ) (hk : k < nodes.length), u nodes[k] = c k

/-- The element map `F` with its Jacobian: `F` interpolates the vertices in the nodes, and `DF ξ` is the
matrix of its partial derivatives. -/
def ElementMap (D N : ℕ) (nodes : List (Fin D → ℝ)) (verts : ℕ → Fin D → ℝ)
    (F : (Fin D → ℝ) → Fin D → ℝ) (DF : (Fin D → ℝ) → Matrix (Fin D) (Fin D) ℝ) : Prop :=
  ∀ i, Interpolates D N nodes (fun k => verts k i) (fun ξ => F ξ i) ∧
    ∀ ξ, IsGradient (fun x => F x i) (DF ξ i) ξ

/-- A function with several components on a curved element: the element map `F`, its Jacobian, and the
components as functions of the reference coordinates. -/
structure Piece (D : ℕ) where
  F : (Fin D → ℝ) → Fin D → ℝ
  DF : (Fin D → ℝ) → Matrix (Fin D) (Fin D) ℝ
  u : ℕ → (Fin D → ℝ) → ℝ

/-- The integrand of the squared L2 error over a piece, in reference coordinates: volume element times
the squared distance to the reference solution. -/
noncomputable def errorDensity {D : ℕ} (Q : ℕ) (P : Piece D) (reference : (Fin D → ℝ) → ℕ → ℝ) (ξ : Fin D → ℝ) : ℝ :=
  |(P.DF ξ).det| * ∑ j ∈ Finset.range Q, (reference (P.F ξ) j - P.u j ξ) ^ 2

/-- `γ` is the gradient with respect to the physical coordinates, at the image of `ξ`, of component `j`:
near `ξ` the component is the pull-back of a function `w` on the physical element, and `γ` consists of
the partial derivatives of `w`. -/
def PhysicalGradient {D : ℕ} (P : Piece D) (j : ℕ) (ξ : Fin D → ℝ) (γ : Fin D → ℝ) : Prop :=
  ∃ (w : (Fin D → ℝ) → ℝ) (w' : (Fin D → ℝ) →L[ℝ] ℝ), (∀ᶠ η in nhds ξ, w (P.F η) = P.u j η) ∧
    HasFDerivAt w w' (P.F ξ) ∧ ∀ d, γ d = w' (Pi.single d 1)

/-- The integrand of the squared error in the H1 semi-norm over a piece: volume element times the
squared distance of the gradients; the reference lists the derivatives row by row, that is, the
derivative of component `i` with respect to coordinate `d` has number `i * D + d`. -/
noncomputable def gradientErrorDensity {D : ℕ} (Q : ℕ) (P : Piece D) (γ : ℕ → (Fin D → ℝ) → Fin D → ℝ)
    (reference : (Fin D → ℝ) → ℕ → ℝ) (ξ : Fin D → ℝ) : ℝ :=
  |(P.DF ξ).det| * ∑ i ∈ Finset.range Q, ∑ d : Fin D, (reference (P.F ξ) (i * D + d) - γ i ξ d) ^ 2

/-- The length (curve in the plane) or area (surface in space) of a parametrised facet per unit of the
parameter domain, from the derivatives of the parametrisation. -/
noncomputable def areaElement : (D : ℕ) → (Fin D → Fin (D + 1) → ℝ) → ℝ
  | 1, t => Real.sqrt (∑ i, t 0 i ^ 2)
  | 2, t => Real.sqrt (∑ i, (crossProduct (t 0) (t 1)) i ^ 2)
  | _, _ => 0

/-- A function with several components on a curved facet: the parametrisation `G` over the reference
simplex, its partial derivatives `T χ k`, and the components as functions of the parameters. -/
structure FacetPiece (D : ℕ) where
  G : (Fin D → ℝ) → Fin (D + 1) → ℝ
  T : (Fin D → ℝ) → Fin D → Fin (D + 1) → ℝ
  u : ℕ → (Fin D → ℝ) → ℝ

/-- The integrand of the squared L2 error over a facet, in parameters. -/
noncomputable def facetErrorDensity {D : ℕ} (Q : ℕ) (P : FacetPiece D)
    (reference : (Fin (D + 1) → ℝ) → ℕ → ℝ) (χ : Fin D → ℝ) : ℝ :=
  areaElement D (P.T χ) * ∑ j ∈ Finset.range Q, (reference (P.G χ) j - P.u j χ) ^ 2

end Tandem.Spec
