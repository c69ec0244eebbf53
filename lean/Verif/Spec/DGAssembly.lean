import Verif.Spec.DGTopo
import Mathlib.Data.Real.Basic
/-! # Specification of boundary conditions on a mesh and of vectors (C70) -/
namespace Tandem.Spec
open Tandem.DGTopo (View)

/-- The numbers of the boundary conditions are None 0, Natural 1, Fault 3, Dirichlet 5.  A facet between two elements
carries none of them or a fault or displacement condition; a facet on the boundary carries one. -/
structure BCsFit (P : Nat) (elems : Nat → List (List Nat)) (tag : List Nat → Nat) : Prop where
  interior : ∀ f e e', InElems P elems e → InElems P elems e' → e ≠ e' → IsFacet e f → IsFacet e' f →
    tag f = 0 ∨ tag f = 3 ∨ tag f = 5
  boundary : ∀ f e, InElems P elems e → IsFacet e f → (∀ e', InElems P elems e' → IsFacet e' f → e' = e) →
    tag f = 1 ∨ tag f = 3 ∨ tag f = 5

/-- A block of a vector as a function of the index. -/
def toVec (n : Nat) (l : List ℝ) : Fin n → ℝ := fun i => l.getD i 0

/-- The geometry at the quadrature points (`Nq` in an element, `nq` on a facet) by element and facet: absolute value of the
determinant of the Jacobian, inverse Jacobian, inverse Jacobian at a facet seen from one of its elements, normal of a
facet pointing out of one of its elements (scaled with the surface element), local number of a facet in an element. -/
structure Geometry (dim Nq nq : Nat) where
  absDetJ : List Nat → Fin Nq → ℝ
  jInv : List Nat → Fin dim → Fin dim → Fin Nq → ℝ
  jInvFacet : List Nat → List Nat → Fin dim → Fin dim → Fin nq → ℝ
  normal : List Nat → List Nat → Fin dim → Fin nq → ℝ
  localNo : List Nat → List Nat → Nat

/-- The two normals of a facet are opposite. -/
def Geometry.Opposite {dim Nq nq : Nat} (g : Geometry dim Nq nq) (P : Nat) (elems : Nat → List (List Nat)) : Prop :=
  ∀ f e e', InElems P elems e → InElems P elems e' → e ≠ e' → IsFacet e f → IsFacet e' f →
    g.normal f e' = fun i q => - g.normal f e i q

/-- Facets have the local numbers of `g` in the view of a rank. -/
def Geometry.Numbers {dim Nq nq : Nat} (g : Geometry dim Nq nq) (v : View) : Prop :=
  ∀ (u : Nat) (e : List Nat) (ds : List Nat) (l i : Nat) (f : List Nat), v.elems[u]? = some e → v.down[u]? = some ds →
    ds[l]? = some i → v.facets[i]? = some f → g.localNo e f = l

end Tandem.Spec
