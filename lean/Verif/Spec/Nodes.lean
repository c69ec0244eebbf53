import Mathlib.Data.Real.Basic
import Mathlib.Algebra.BigOperators.Fin
import Mathlib.Data.Fin.VecNotation
import Mathlib.Data.Nat.Choose.Basic
/-! # Specification of node sets on the reference simplex (C61, C77) -/
namespace Tandem.Spec

/-- The lattice points of the reference simplex of dimension `D` with spacing `1/n`. -/
def IsLatticePoint (D n : ℕ) (x : Fin D → ℝ) : Prop :=
  ∃ α : Fin D → ℕ, ∑ d, α d ≤ n ∧ ∀ d, x d = (α d : ℝ) / n

/-- The vertices of the reference simplex: the origin and the unit vectors. -/
def refVertex (D : ℕ) (k : Fin (D + 1)) : Fin D → ℝ := fun d => if k.val = d.val + 1 then 1 else 0

/-- The affine map of the reference simplex onto itself that sends vertex `k` to vertex `p k`. -/
noncomputable def vertexMap {D : ℕ} (p : Fin (D + 1) → Fin (D + 1)) (x : Fin D → ℝ) : Fin D → ℝ :=
  fun d => (1 - ∑ e, x e) * refVertex D (p 0) d + ∑ e : Fin D, x e * refVertex D (p e.succ) d

/-- Edges of the tetrahedron in the order in which VTK and GMSH number the nodes on edges; the nodes
run from the first to the second vertex (documentation of `vtkLagrangeTetra` and GMSH reference
manual, node ordering). -/
def vtkTetEdge : Fin 6 → Fin 4 × Fin 4 := ![(0, 1), (1, 2), (2, 0), (0, 3), (1, 3), (2, 3)]
@[inherit_doc vtkTetEdge]
def gmshTetEdge : Fin 6 → Fin 4 × Fin 4 := ![(0, 1), (1, 2), (2, 0), (3, 0), (3, 2), (3, 1)]

/-- Faces of the tetrahedron in the order in which VTK and GMSH number the nodes inside faces; the
numbering inside a face starts with the nodes closest to the three vertices in this order. -/
def vtkTetFace : Fin 4 → Fin 3 → Fin 4 := ![![0, 1, 3], ![2, 3, 1], ![0, 3, 2], ![0, 2, 1]]
@[inherit_doc vtkTetFace]
def gmshTetFace : Fin 4 → Fin 3 → Fin 4 := ![![0, 2, 1], ![0, 1, 3], ![0, 3, 2], ![3, 1, 2]]

end Tandem.Spec
