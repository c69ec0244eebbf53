import Mathlib.Data.Real.Basic
import Mathlib.Data.Fin.VecNotation
import Mathlib.Algebra.BigOperators.Fin
import Mathlib.Algebra.Module.Pi
/-!
# Model of `src/basis/Equidistant.cpp` and `src/basis/NumberingConvention.h`

Exact real arithmetic in place of `double`.  A point is a `Fin D → ℝ`; the vector `result` that the
functions append to is the list they return.  `int n` is a natural number: the functions are never
called with a negative `n` except `edge` with `n = -1`, where the loop does not run, as for 0.
-/
namespace Tandem.Equidistant

/-- `NumberingConvention`, src/basis/NumberingConvention.h line 16. -/
inductive Convention | VTK | GMSH
  deriving DecidableEq

/-- `TetEdgeConventions`, src/basis/NumberingConvention.h lines 18-21. -/
def tetEdges : Convention → List (Fin 4 × Fin 4)
  | .VTK => [(0, 1), (1, 2), (2, 0), (0, 3), (1, 3), (2, 3)]
  | .GMSH => [(0, 1), (1, 2), (2, 0), (3, 0), (3, 2), (3, 1)]

/-- `TetFaceConventions`, src/basis/NumberingConvention.h lines 23-26. -/
def tetFaces : Convention → List (Fin 4 × Fin 4 × Fin 4)
  | .VTK => [(0, 1, 3), (2, 3, 1), (0, 3, 2), (0, 2, 1)]
  | .GMSH => [(0, 2, 1), (0, 1, 3), (0, 3, 2), (3, 1, 2)]

noncomputable section
variable {D : ℕ}

/-- `shrinkAndShift<DD>`, src/basis/Equidistant.cpp lines 9-25. -/
def shrinkAndShift {DD : ℕ} (factor : ℝ) (verts : Fin (DD + 1) → Fin D → ℝ) :
    Fin (DD + 1) → Fin D → ℝ :=
  fun i => ∑ j, (if i = j then 1 - DD * factor else factor) • verts j

/-- `edge`, src/basis/Equidistant.cpp lines 27-35. -/
def edge (n : ℕ) (v0 v1 : Fin D → ℝ) : List (Fin D → ℝ) :=
  let h : ℝ := 1 / (n + 1)
  (List.range' 1 n).map fun nn : ℕ => (1 - nn * h) • v0 + (nn * h) • v1

/-- `triangle`, src/basis/Equidistant.cpp lines 37-56; one call per iteration of the `while` loop. -/
def triangle (n : ℕ) (verts : Fin 3 → Fin D → ℝ) : List (Fin D → ℝ) :=
  verts 0 :: (if n = 0 then [] else
    [verts 1, verts 2] ++ edge (n - 1) (verts 0) (verts 1) ++ edge (n - 1) (verts 1) (verts 2)
      ++ edge (n - 1) (verts 2) (verts 0)
      ++ (if 3 ≤ n then triangle (n - 3) (shrinkAndShift (1 / n) verts) else []))
termination_by n

/-- `tet`, src/basis/Equidistant.cpp lines 58-88; one call per iteration of the `while` loop. -/
def tet (conv : Convention) (n : ℕ) (verts : Fin 4 → Fin D → ℝ) : List (Fin D → ℝ) :=
  verts 0 :: (if n = 0 then [] else
    [verts 1, verts 2, verts 3]
      ++ (tetEdges conv).flatMap (fun e => edge (n - 1) (verts e.1) (verts e.2))
      ++ (if 3 ≤ n then (tetFaces conv).flatMap (fun f =>
            triangle (n - 3) (shrinkAndShift (1 / n) ![verts f.1, verts f.2.1, verts f.2.2]))
          else [])
      ++ (if 4 ≤ n then tet conv (n - 4) (shrinkAndShift (1 / n) verts) else []))
termination_by n

/-- `Simplex<D>::referenceSimplexVertices`, src/mesh/Simplex.h lines 56-64. -/
def refVertices (D : ℕ) : Fin (D + 1) → Fin D → ℝ :=
  fun k d => if k.val = d.val + 1 then 1 else 0

/-- `EquidistantNodesFactory<D>::operator()`, src/basis/Equidistant.cpp lines 90-108 (the assertion
on the number of nodes is not modelled; other `D` are not instantiated: no nodes). -/
def nodes (conv : Convention) : (D : ℕ) → (degree : ℕ) → List (Fin D → ℝ)
  | 1, degree => [refVertices 1 0, refVertices 1 1]
      ++ edge (degree - 1) (refVertices 1 0) (refVertices 1 1)
  | 2, degree => triangle degree (refVertices 2)
  | 3, degree => tet conv degree (refVertices 3)
  | _, _ => []

end
end Tandem.Equidistant
