import Verif.Model.Curvilinear
import Verif.Model.RefElement
/-!
# Model of `src/form/FiniteElementFunction.{h,cpp}`, of `src/form/Error.{h,cpp}` and of the parts of
`src/geometry/Curvilinear.cpp` they use

Exact real arithmetic in place of `double`.  Finite element functions are modelled with a nodal
reference element (all spaces of the program are nodal; the class accepts modal ones, too).  Eigen's
matrix products are sums.
-/
namespace Tandem.Error
open RefElement

noncomputable section

/-- `{1, 0}` of src/form/FiniteElementFunction.cpp line 15. -/
def perm10 : Equiv.Perm (Fin 2) := ⟨![1, 0], ![1, 0], by decide, by decide⟩

/-- `{2, 0, 1}` of src/form/FiniteElementFunction.cpp line 21. -/
def perm201 : Equiv.Perm (Fin 3) := ⟨![2, 0, 1], ![1, 2, 0], by decide, by decide⟩

/-- `FiniteElementFunction<D>`, src/form/FiniteElementFunction.h lines 18-62: degree and nodes of the
reference element, names, and the values `data_(k, q, elNo)`. -/
structure FEF (D : ℕ) where
  degree : ℕ
  nodes : List (Fin D → ℝ)
  names : List String
  numQuantities : ℕ
  numElements : ℕ
  data : ℕ → ℕ → ℕ → ℝ

variable {D : ℕ}

/-- `evaluationMatrix`, src/form/FiniteElementFunction.cpp lines 12-16. -/
def evaluationMatrix (f : FEF D) (points : List (Fin D → ℝ)) : Ten 2 :=
  nodalBasis f.degree f.nodes points perm10

/-- `gradientEvaluationTensor`, src/form/FiniteElementFunction.cpp lines 18-22. -/
def gradientEvaluationTensor (f : FEF D) (points : List (Fin D → ℝ)) : Ten 3 :=
  nodalGradient f.degree f.nodes points perm201

/-- `FiniteElementFunction<D>::map`, src/form/FiniteElementFunction.cpp lines 29-39: entry `(q, j)`. -/
def map (f : FEF D) (elNo : ℕ) (E : Ten 2) (q j : ℕ) : ℝ :=
  ∑ k ∈ Finset.range (nbf D f.degree), E.val ![q, k] * f.data k j elNo

/-- The first loop of `FiniteElementFunction<D>::gradient`, src/form/FiniteElementFunction.cpp
lines 62-67: derivatives with respect to the reference coordinates. -/
def refGradient (f : FEF D) (elNo : ℕ) (T : Ten 3) (q i j : ℕ) : ℝ :=
  ∑ k ∈ Finset.range (nbf D f.degree), T.val ![q, k, j] * f.data k i elNo

/-- `FiniteElementFunction<D>::gradient`, src/form/FiniteElementFunction.cpp lines 47-74: entry
`(q, i, j)`; `Jinv q` is the inverse of the Jacobian at point `q`. -/
def gradient (f : FEF D) (elNo : ℕ) (T : Ten 3) (Jinv : ℕ → Matrix (Fin D) (Fin D) ℝ)
    (q i : ℕ) (j : Fin D) : ℝ :=
  ∑ d : Fin D, refGradient f elNo T q i d * Jinv q d j

/-- `FiniteElementFunction<D>::name`, src/form/FiniteElementFunction.cpp lines 76-84; `none`: the index
is out of bounds. -/
def name (f : FEF D) (q : ℕ) : Option String :=
  if f.names.isEmpty then some ("q" ++ toString q) else f.names[q]?

/-- The two constructors, src/form/FiniteElementFunction.h lines 20-30 (all values zero; `Managed`
leaves them undefined). -/
def ofNames (degree : ℕ) (nodes : List (Fin D → ℝ)) (names : List String) (numElements : ℕ) : FEF D :=
  ⟨degree, nodes, names, names.length, numElements, fun _ _ _ => 0⟩

/-- See `ofNames`, src/form/FiniteElementFunction.h lines 26-30. -/
def ofNumber (degree : ℕ) (nodes : List (Fin D → ℝ)) (numQuantities numElements : ℕ) : FEF D :=
  ⟨degree, nodes, [], numQuantities, numElements, fun _ _ _ => 0⟩

/-- The data of `Curvilinear<D>` used here, src/geometry/Curvilinear.h: degree and nodes of its
reference element and the positions of the nodes of every element.
There: lines 23-95. -/
structure Geo (D : ℕ) where
  degree : ℕ
  nodes : List (Fin D → ℝ)
  verts : ℕ → ℕ → Fin D → ℝ

/-- `evaluateBasisAt`, src/geometry/Curvilinear.h (`refElement_.evaluateBasisAt(points)`, the default
permutation is the identity);
src/geometry/Curvilinear.h lines 33-35. -/
def geoBasis (g : Geo D) (points : List (Fin D → ℝ)) : Ten 2 := nodalBasis g.degree g.nodes points 1

/-- `evaluateGradientAt`, src/geometry/Curvilinear.h;
src/geometry/Curvilinear.h lines 36-38. -/
def geoGrad (g : Geo D) (points : List (Fin D → ℝ)) : Ten 3 := nodalGradient g.degree g.nodes points 1

/-- `Curvilinear<D>::map`, src/geometry/Curvilinear.cpp lines 174-188: column `q`. -/
def geoMap (g : Geo D) (elNo : ℕ) (E : Ten 2) (q : ℕ) : Fin D → ℝ := fun d =>
  ∑ k ∈ Finset.range (nbf D g.degree), g.verts elNo k d * E.val ![k, q]

/-- `Curvilinear<D>::jacobian`, src/geometry/Curvilinear.cpp lines 195-216, at point `q` (the reshaped
views have the columns of all points side by side). -/
def jacobian (g : Geo D) (elNo : ℕ) (G : Ten 3) (q : ℕ) : Matrix (Fin D) (Fin D) ℝ :=
  Matrix.of fun i j => ∑ k ∈ Finset.range (nbf D g.degree), g.verts elNo k i * G.val ![k, j.val, q]

/-- The body of the element loop of the volume `Error<D>::L2`, src/form/Error.cpp lines 31-44.
`reference x j` is entry `j` of the reference solution at `x` (src/form/Error.h lines 42-67). -/
def l2Element (rule : Rule D) (g : Geo D) (f : FEF D) (reference : (Fin D → ℝ) → ℕ → ℝ) (elNo : ℕ) : ℝ :=
  let J := jacobian g elNo (geoGrad g rule.points)
  let coords := geoMap g elNo (geoBasis g rule.points)
  let num := map f elNo (evaluationMatrix f rule.points)
  ∑ j ∈ Finset.range f.numQuantities, ∑ q ∈ Finset.range rule.points.length,
    rule.weights.getD q 0 * |(J q).det| * (reference (coords q) j - num q j)
      * (reference (coords q) j - num q j)

/-- `MPI_Reduce` of the contributions of all ranks and the square root, src/form/Error.cpp
lines 48-51, 111-114, 157-160; `none`: the result on the other ranks is not defined (the program takes
the root of an uninitialised variable there). -/
def reduce (contributions : List ℝ) (targetRank rank : ℕ) : Option ℝ :=
  if rank = targetRank then some (Real.sqrt contributions.sum) else none

/-- `Error<D>::L2` on the volume, src/form/Error.cpp lines 13-52, on all ranks together: each has its
own elements. -/
def l2 (rule : Rule D) (ranks : List (Geo D × FEF D)) (reference : (Fin D → ℝ) → ℕ → ℝ)
    (targetRank rank : ℕ) : Option ℝ :=
  reduce (ranks.map fun r => ∑ elNo ∈ Finset.range r.2.numElements, l2Element rule r.1 r.2 reference elNo)
    targetRank rank

/-- The index of the derivative with respect to coordinate `j` of quantity `i` in the reference,
`i * Q + j` in src/form/Error.cpp line 149. -/
def h1Index (Q i j : ℕ) : ℕ := i * Q + j

/-- The body of the element loop of `Error<D>::H1_semi`, src/form/Error.cpp lines 139-154. -/
def h1Element (rule : Rule D) (g : Geo D) (f : FEF D) (reference : (Fin D → ℝ) → ℕ → ℝ) (elNo : ℕ) : ℝ :=
  let J := jacobian g elNo (geoGrad g rule.points)
  let coords := geoMap g elNo (geoBasis g rule.points)
  let num := gradient f elNo (gradientEvaluationTensor f rule.points) (fun q => (J q)⁻¹)
  let Q := f.numQuantities
  ∑ i ∈ Finset.range Q, ∑ j : Fin D, ∑ q ∈ Finset.range rule.points.length,
    rule.weights.getD q 0 * |(J q).det| * (reference (coords q) (h1Index Q i j) - num q i j)
      * (reference (coords q) (h1Index Q i j) - num q i j)

/-- `Error<D>::H1_semi`, src/form/Error.cpp lines 117-161. -/
def h1 (rule : Rule D) (ranks : List (Geo D × FEF D)) (reference : (Fin D → ℝ) → ℕ → ℝ)
    (targetRank rank : ℕ) : Option ℝ :=
  reduce (ranks.map fun r => ∑ elNo ∈ Finset.range r.2.numElements, h1Element rule r.1 r.2 reference elNo)
    targetRank rank

/-- The queries of the mesh used by the facet version of `Error<D>::L2`, src/form/Error.cpp lines 84, 88:
elements next to a facet and facets of an element (C21). -/
structure MeshView where
  upward : ℕ → List ℕ
  downward : ℕ → List ℕ

/-- The body of the facet loop of the facet version of `Error<D>::L2`, src/form/Error.cpp lines 82-108,
in `D + 1` dimensions; `none`: the facet is in no element, or not among the facets of its element. -/
def l2Facet (rule : Rule D) (mesh : MeshView) (g : Geo (D + 1)) (f : FEF D) (fctNos : List ℕ)
    (reference : (Fin (D + 1) → ℝ) → ℕ → ℝ) (bndNo : ℕ) : Option ℝ := do
  let fctNo ← fctNos[bndNo]?
  let elNo ← (mesh.upward fctNo)[0]?
  let localFaceNo := (mesh.downward elNo).idxOf fctNo
  if h : localFaceNo < D + 2 then
    let points := rule.points.map (Curvilinear.facetParam ⟨localFaceNo, h⟩)
    let J := jacobian g elNo (geoGrad g points)
    let coords := geoMap g elNo (geoBasis g points)
    let num := map f bndNo (evaluationMatrix f rule.points)
    let nl := fun q => Curvilinear.norm (Curvilinear.normal ⟨localFaceNo, h⟩ (J q))
    some (∑ q ∈ Finset.range rule.points.length, ∑ j ∈ Finset.range f.numQuantities,
      rule.weights.getD q 0 * nl q * (reference (coords q) j - num q j) * (reference (coords q) j - num q j))
  else none

/-- A rank's part of the facet version of `Error<D>::L2`: its mesh, geometry, finite element function
and list of facets, src/form/Error.cpp lines 54-58. -/
structure FacetRank (D : ℕ) where
  mesh : MeshView
  geo : Geo (D + 1)
  fun_ : FEF D
  fctNos : List ℕ

/-- The loop over the facets, src/form/Error.cpp lines 81-110. -/
def l2FacetLocal (rule : Rule D) (r : FacetRank D) (reference : (Fin (D + 1) → ℝ) → ℕ → ℝ) : Option ℝ :=
  ((List.range r.fun_.numElements).mapM (l2Facet rule r.mesh r.geo r.fun_ r.fctNos reference)).map List.sum

/-- `Error<D>::L2` on facets, src/form/Error.cpp lines 54-115, on all ranks together. -/
def l2Facets (rule : Rule D) (ranks : List (FacetRank D)) (reference : (Fin (D + 1) → ℝ) → ℕ → ℝ)
    (targetRank rank : ℕ) : Option ℝ :=
  (ranks.mapM fun r => l2FacetLocal rule r reference).bind fun c => reduce c targetRank rank

end
end Tandem.Error
