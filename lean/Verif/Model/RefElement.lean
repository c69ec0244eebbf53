import Verif.Model.Functions
import Mathlib.LinearAlgebra.Matrix.NonsingularInverse
import Mathlib.Data.Fintype.Perm
/-!
# Model of `src/form/RefElement.cpp`, of `Vandermonde` in `src/basis/Nodal.cpp`, of
`app/localoperator/NodalInterpolation.cpp` and of `app/localoperator/ModalInterpolation.h`

Exact real arithmetic in place of `double`.  `MatrixXd::inverse()` is the matrix inverse (for a
singular matrix Eigen divides by zero; here the inverse is then the zero matrix).  Tensors are packed
and column-major; `alignment` only concerns the address of the first entry and is left out.
-/
namespace Tandem.RefElement
open Functions
noncomputable section

/-- `RefElement<D>::numBasisFunctions`, src/form/RefElement.h line 85 (`binom` is the binomial
coefficient, C05). -/
def nbf (D N : ℕ) : ℕ := (N + D).choose D

/-- The tuples visited by `for (auto j : AllIntegerSums<D>(degree))`, in order, as in
src/basis/Nodal.cpp line 38 and src/form/RefElement.cpp line 56 (`AllIntegerSums` is modelled in
`Combinatorics`; the bound on the number of iterations suffices by C06). -/
def indices (D N : ℕ) : List (Fin D → ℕ) :=
  ((Combinatorics.sumsVisit D true N (nbf D N)).getD []).map fun l d => l.getD d.val 0

/-- The tuple of basis function number `bf`: the counter `bf` of src/basis/Nodal.cpp line 37-39. -/
def index (D N bf : ℕ) : Fin D → ℕ := (indices D N).getD bf 0

/-- `Vandermonde`, src/basis/Nodal.cpp lines 30-44, for a list of `nbf D N` points (asserted in
line 32; missing points are read as 0 here). -/
def vandermonde {D : ℕ} (N : ℕ) (points : List (Fin D → ℝ)) : Matrix (Fin (nbf D N)) (Fin (nbf D N)) ℝ :=
  Matrix.of fun i bf => dubinerP D (index D N bf) (points.getD i.val 0)

/-- A packed tensor of rank `r`: shape and entries, src/tensor/Tensor.h.
There: lines 17-61. -/
structure Ten (r : ℕ) where
  shape : Fin r → ℕ
  val : (Fin r → ℕ) → ℝ

/-- `permute`, src/util/MultiIndex.h lines 36-44, for a permutation (other arrays fail the assertions
of the callers). -/
def permute {r : ℕ} (p : Equiv.Perm (Fin r)) (idx : Fin r → ℕ) : Fin r → ℕ := fun d => idx (p d)

/-- Entry of an Eigen matrix (0 outside of its shape; the models never read there).
Used for the products in src/form/RefElement.cpp lines 30-160. -/
def entry {m n : ℕ} (A : Matrix (Fin m) (Fin n) ℝ) (i j : ℕ) : ℝ :=
  if h : i < m ∧ j < n then A ⟨i, h.1⟩ ⟨j, h.2⟩ else 0

/-- `ModalRefElement<D>::evaluateBasisAt`, src/form/RefElement.cpp lines 48-62.  The loop writes the
value of function `bf` at point `p` at the index `permute(permutation, (bf, p))`; stated as the
resulting entries. -/
def modalBasis {D : ℕ} (N : ℕ) (points : List (Fin D → ℝ)) (perm : Equiv.Perm (Fin 2)) : Ten 2 :=
  ⟨permute perm ![nbf D N, points.length],
    fun idx =>
      let t := permute perm.symm idx
      dubinerP D (index D N (t 0)) (points.getD (t 1) 0)⟩

/-- `ModalRefElement<D>::evaluateGradientAt`, src/form/RefElement.cpp lines 64-82, stated as
`modalBasis`. -/
def modalGradient {D : ℕ} (N : ℕ) (points : List (Fin D → ℝ)) (perm : Equiv.Perm (Fin 3)) : Ten 3 :=
  ⟨permute perm ![nbf D N, D, points.length],
    fun idx =>
      let t := permute perm.symm idx
      if h : t 1 < D then gradDubinerP D (index D N (t 0)) (points.getD (t 2) 0) ⟨t 1, h⟩ else 0⟩

/-- A quadrature rule on the reference simplex: points and weights,
src/quadrules/SimplexQuadratureRule.h lines 13-32. -/
structure Rule (D : ℕ) where
  points : List (Fin D → ℝ)
  weights : List ℝ

/-- `ModalRefElement<D>::massMatrix`, src/form/RefElement.cpp lines 20-38; `rule` is
`simplexQuadratureRule<D>(2 * degree)`. -/
def modalMass {D : ℕ} (N : ℕ) (rule : Rule D) : Matrix (Fin (nbf D N)) (Fin (nbf D N)) ℝ :=
  let E := modalBasis N rule.points 1
  Matrix.of fun i j =>
    if i = j then ∑ q ∈ Finset.range rule.points.length,
      rule.weights.getD q 0 * E.val ![i.val, q] * E.val ![j.val, q]
    else 0

/-- `ModalRefElement<D>::inverseMassMatrix`, src/form/RefElement.cpp lines 40-46. -/
def modalInvMass {D : ℕ} (N : ℕ) (rule : Rule D) : Matrix (Fin (nbf D N)) (Fin (nbf D N)) ℝ :=
  Matrix.of fun i j => if i = j then 1 / modalMass N rule i i else modalMass N rule i j

/-- The member `vandermondeInv_` of `NodalRefElement<D>`, src/form/RefElement.cpp lines 84-91; `nodes`
is the member `refNodes_`. -/
def vInv {D : ℕ} (N : ℕ) (nodes : List (Fin D → ℝ)) : Matrix (Fin (nbf D N)) (Fin (nbf D N)) ℝ :=
  (vandermonde N nodes)⁻¹

/-- `NodalRefElement<D>::massMatrix`, src/form/RefElement.cpp lines 93-103. -/
def nodalMass {D : ℕ} (N : ℕ) (nodes : List (Fin D → ℝ)) (rule : Rule D) :
    Matrix (Fin (nbf D N)) (Fin (nbf D N)) ℝ :=
  (vInv N nodes).transpose * modalMass N rule * vInv N nodes

/-- `NodalRefElement<D>::inverseMassMatrix`, src/form/RefElement.cpp lines 105-115. -/
def nodalInvMass {D : ℕ} (N : ℕ) (nodes : List (Fin D → ℝ)) (rule : Rule D) :
    Matrix (Fin (nbf D N)) (Fin (nbf D N)) ℝ :=
  vandermonde N nodes * modalInvMass N rule * (vandermonde N nodes).transpose

/-- `NodalRefElement<D>::evaluateBasisAt`, src/form/RefElement.cpp lines 117-132. -/
def nodalBasis {D : ℕ} (N : ℕ) (nodes points : List (Fin D → ℝ)) (perm : Equiv.Perm (Fin 2)) : Ten 2 :=
  let E := modalBasis N points perm
  let n := nbf D N
  ⟨E.shape, fun idx =>
    if perm 0 = 0 then
      ∑ k ∈ Finset.range n, entry (vInv N nodes) k (idx 0) * E.val ![k, idx 1]
    else ∑ k ∈ Finset.range n, E.val ![idx 0, k] * entry (vInv N nodes) k (idx 1)⟩

/-- Memory of a packed tensor of rank 3: the entry at offset `pos`, src/tensor/Tensor.h
(`computeStride`, `operator()`);
src/tensor/Tensor.h lines 60 and 107-112. -/
def store (T : Ten 3) (pos : ℕ) : ℝ :=
  T.val ![pos % T.shape 0, pos / T.shape 0 % T.shape 1, pos / T.shape 0 / T.shape 1]

/-- The tensor of rank 3 with given shape over a memory block, src/tensor/Tensor.h;
src/tensor/Tensor.h lines 60 and 107-112. -/
def ofStore (shape : Fin 3 → ℕ) (st : ℕ → ℝ) : Ten 3 :=
  ⟨shape, fun idx => st (idx 0 + shape 0 * (idx 1 + shape 1 * idx 2))⟩

/-- `NodalRefElement<D>::evaluateGradientAt`, src/form/RefElement.cpp lines 134-173.  `reshape` views
the same memory as a matrix: entry `(r, c)` of a matrix with `R` rows is at offset `r + R c`. -/
def nodalGradient {D : ℕ} (N : ℕ) (nodes points : List (Fin D → ℝ)) (perm : Equiv.Perm (Fin 3)) :
    Ten 3 :=
  let G := modalGradient N points perm
  let n := nbf D N
  let V := entry (vInv N nodes)
  if perm 0 = 0 then
    ofStore G.shape fun pos =>
      ∑ k ∈ Finset.range n, V k (pos % n) * store G (k + n * (pos / n))
  else if perm 2 = 0 then
    let R := D * points.length
    ofStore G.shape fun pos => ∑ k ∈ Finset.range n, store G (pos % R + R * k) * V k (pos / R)
  else
    ⟨G.shape, fun idx => ∑ k ∈ Finset.range n, G.val ![idx 0, k, idx 2] * V k (idx 1)⟩

/-- `NodalInterpolation<D>::assemble`, app/localoperator/NodalInterpolation.cpp lines 8-37: entry
`(row, col)` of the prolongation matrix for `Q` quantities from degree `from_` to degree `to_`;
`nodes` are the nodes of the two spaces. -/
def nodalInterpolation {D : ℕ} (to_ from_ : ℕ) (nodesTo nodesFrom : List (Fin D → ℝ)) (Q row col : ℕ) : ℝ :=
  let N1 := nbf D to_
  let N2 := nbf D from_
  let tmp : ℕ → ℕ → ℝ := fun k l =>
    ∑ m ∈ Finset.range N2, entry (vandermonde to_ nodesTo) k m * entry (vInv from_ nodesFrom) m l
  ∑ l ∈ Finset.range N2, ∑ p ∈ Finset.range Q, ∑ k ∈ Finset.range N1,
    if row = k + p * N1 ∧ col = l + p * N2 then tmp k l else 0

/-- `ModalInterpolation<D>::assemble`, app/localoperator/ModalInterpolation.h lines 32-47: entry
`(row, col)`.  -/
def modalInterpolation (D to_ from_ Q row col : ℕ) : ℝ :=
  let N1 := nbf D to_
  let N2 := nbf D from_
  if ∃ l < N2, ∃ p < Q, row = l + p * N1 ∧ col = l + p * N2 then 1 else 0

end
end Tandem.RefElement
