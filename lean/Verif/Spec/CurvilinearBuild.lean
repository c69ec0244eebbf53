import Verif.Spec.Error
import Verif.Spec.WarpAndBlend
/-! # Specification of conforming curved meshes (C89) -/
namespace Tandem.Spec

/-- The nodes of the reference element in `D + 1` dimensions look the same on every facet: there is one
list of `binom(N + D, D)` distinct facet nodes such that, on every facet, the points with these parameters
are nodes.  `param f χ` is the point of facet `f` with parameters `χ`. -/
def SharedFacetNodes (D N : ℕ) (param : Fin (D + 2) → (Fin D → ℝ) → Fin (D + 1) → ℝ)
    (nodes : List (Fin (D + 1) → ℝ)) : Prop :=
  ∃ fnodes : List (Fin D → ℝ), fnodes.Nodup ∧ fnodes.length = (N + D).choose D ∧
    ∀ f, ∀ χ ∈ fnodes, param f χ ∈ nodes

/-- Reference elements with which curved meshes can be built: `binom(N + D, D)` nodes that determine the
polynomials of degree at most `N ≥ 1` and look the same on every facet. -/
structure ConformingElement (D N : ℕ) (param : Fin (D + 2) → (Fin D → ℝ) → Fin (D + 1) → ℝ)
    (nodes : List (Fin (D + 1) → ℝ)) : Prop where
  degree : 0 < N
  length : nodes.length = (N + (D + 1)).choose (D + 1)
  unisolvent : Unisolvent (D + 1) N nodes
  shared : SharedFacetNodes D N param nodes

/-- The nodes of a curved element of a mesh file: the vertices first, then the others. -/
def elementNode {n D : ℕ} (verts : Fin n → Fin D → ℝ) (others : ℕ → Fin D → ℝ) (k : ℕ) : Fin D → ℝ :=
  if h : k < n then verts ⟨k, h⟩ else others (k - n)

end Tandem.Spec
