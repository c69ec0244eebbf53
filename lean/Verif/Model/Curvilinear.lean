import Verif.Model.Equidistant
import Mathlib.LinearAlgebra.Matrix.NonsingularInverse
import Mathlib.Data.Real.Sqrt
import Mathlib.LinearAlgebra.CrossProduct
import Mathlib.Data.Sign.Basic
/-!
# Model of `src/geometry/Affine.h`, `Vector.h` and `Curvilinear.cpp`

Exact real arithmetic; Eigen's `inverse`, `determinant` and `solve` are the mathematical ones (for a
singular matrix `inverse` is whatever Mathlib's inverse is: the theorems assume a non-zero
determinant).  The functions of `Curvilinear` work point by point; they are modelled at one point.
-/
namespace Tandem.Curvilinear
open Equidistant Matrix

noncomputable section
variable {D : ℕ}

/-- `dot`, src/geometry/Vector.h lines 42-49. -/
def dot (a b : Fin D → ℝ) : ℝ := ∑ d, a d * b d

/-- `norm`, src/geometry/Vector.h lines 51-57 (for one dimension `fabs`, the same value). -/
def norm (x : Fin D → ℝ) : ℝ := Real.sqrt (dot x x)

/-- `cross`, src/geometry/Vector.h lines 64-71. -/
def cross (a b : Fin 3 → ℝ) : Fin 3 → ℝ :=
  fun d => a (d + 1) * b (d + 2) - a (d + 2) * b (d + 1)

/-- Eigen's `normalized`: the vector itself if it is zero (used in src/geometry/Curvilinear.cpp
lines 272, 293, 309, 313, 333, 342, 348). -/
def normalized (x : Fin D → ℝ) : Fin D → ℝ :=
  if 0 < dot x x then fun d => x d / Real.sqrt (dot x x) else x

/-- `RefPlexToGeneralPlex<D>::operator()`, src/geometry/Affine.h lines 19-26. -/
def refToGeneral (verts : Fin (D + 1) → Fin D → ℝ) (xi : Fin D → ℝ) : Fin D → ℝ :=
  fun i => (1 - ∑ d, xi d) * verts 0 i + ∑ d : Fin D, xi d * verts d.succ i

/-- The matrix `A` of `GeneralPlexToRefPlex<D>`, src/geometry/Affine.h lines 35-41. -/
def edgeMatrix (verts : Fin (D + 1) → Fin D → ℝ) : Matrix (Fin D) (Fin D) ℝ :=
  Matrix.of fun i j => verts j.succ i - verts 0 i

/-- `GeneralPlexToRefPlex<D>::operator()`, src/geometry/Affine.h lines 45-51; the QR solve of an
invertible system is its solution. -/
def generalToRef (verts : Fin (D + 1) → Fin D → ℝ) (x : Fin D → ℝ) : Fin D → ℝ :=
  (edgeMatrix verts)⁻¹ *ᵥ (fun i => x i - verts 0 i)

/-- `f2v = refPlex.downward()`, src/geometry/Curvilinear.cpp lines 126-127: face `f` has all vertices
but `D - f`, in ascending order (`C58_faces` relates this to the model of `downward`). -/
def f2v (f : Fin (D + 2)) (k : Fin (D + 1)) : Fin (D + 2) := f.rev.succAbove k

/-- The vertex that is not in face `f`: `missingVertex[0]`, src/geometry/Curvilinear.cpp
lines 149-152. -/
def missing (f : Fin (D + 2)) : Fin (D + 2) := f.rev

/-- The normal before its sign is chosen, src/geometry/Curvilinear.cpp lines 132-145. -/
def rawNormal : (D : ℕ) → Fin (D + 2) → Fin (D + 1) → ℝ
  | 0, _ => fun _ => 1
  | 1, f =>
    let e := refVertices 2 (f2v f 1) - refVertices 2 (f2v f 0)
    ![-e 1, e 0]
  | 2, f => cross (refVertices 3 (f2v f 1) - refVertices 3 (f2v f 0))
      (refVertices 3 (f2v f 2) - refVertices 3 (f2v f 0))
  | _, _ => fun _ => 0

/-- `refNormals[f]`, src/geometry/Curvilinear.cpp lines 147-157. -/
def refNormal (D : ℕ) (f : Fin (D + 2)) : Fin (D + 1) → ℝ :=
  let edge := refVertices (D + 1) (missing f) - refVertices (D + 1) (f2v f 0)
  if 0 < dot (rawNormal D f) edge then -rawNormal D f else rawNormal D f

/-- `Curvilinear<D>::normal` at a point, src/geometry/Curvilinear.cpp lines 255-267. -/
def normal (f : Fin (D + 2)) (J : Matrix (Fin (D + 1)) (Fin (D + 1)) ℝ) : Fin (D + 1) → ℝ :=
  |J.det| • (J⁻¹ᵀ *ᵥ refNormal D f)

/-- `Curvilinear<D>::facetParam`, src/geometry/Curvilinear.cpp lines 354-368, in `D + 1`
dimensions. -/
def facetParam (f : Fin (D + 2)) (chi : Fin D → ℝ) : Fin (D + 1) → ℝ :=
  fun i => (1 - ∑ d, chi d) * refVertices (D + 1) (f2v f 0) i
    + ∑ d : Fin D, chi d * refVertices (D + 1) (f2v f d.succ) i

/-- `Curvilinear<D>::facetBasis` at a point for two dimensions, src/geometry/Curvilinear.cpp
lines 293-302: the columns of the result; `none`: throws. -/
def facetBasis2 (tol : ℝ) (up normal : Fin 2 → ℝ) : Option (Fin 2 → Fin 2 → ℝ) :=
  let n := normalized normal
  let s : ℝ := (SignType.sign (up 0 * n 1 - up 1 * n 0) : ℤ)
  if |s| < tol then none else some ![n, ![-s * n 1, s * n 0]]

/-- `Curvilinear<D>::facetBasis` at a point for three dimensions, src/geometry/Curvilinear.cpp
lines 293-313. -/
def facetBasis3 (tol : ℝ) (up normal : Fin 3 → ℝ) : Option (Fin 3 → Fin 3 → ℝ) :=
  let n := normalized normal
  let s := normalized (cross up n)
  if norm s < tol then none else some ![n, normalized (cross s n), s]

/-- `Curvilinear<D>::facetBasisFromPlexTangents` at a point for two dimensions,
src/geometry/Curvilinear.cpp lines 326-342. -/
def plexBasis2 (f : Fin 3) (J : Matrix (Fin 2) (Fin 2) ℝ) (normal : Fin 2 → ℝ) : Fin 2 → Fin 2 → ℝ :=
  ![normalized normal, normalized (J *ᵥ (refVertices 2 (f2v f 1) - refVertices 2 (f2v f 0)))]

/-- `Curvilinear<D>::facetBasisFromPlexTangents` at a point for three dimensions,
src/geometry/Curvilinear.cpp lines 326-348. -/
def plexBasis3 (f : Fin 4) (J : Matrix (Fin 3) (Fin 3) ℝ) (normal : Fin 3 → ℝ) : Fin 3 → Fin 3 → ℝ :=
  let n := normalized normal
  let t1 := normalized (J *ᵥ (refVertices 3 (f2v f 1) - refVertices 3 (f2v f 0)))
  ![n, t1, normalized (cross n t1)]

end
end Tandem.Curvilinear
