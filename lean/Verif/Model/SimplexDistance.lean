import Verif.Model.Combinatorics
import Verif.Model.Curvilinear
/-!
# Model of `src/geometry/SimplexDistance.h`

Exact real arithmetic.  `std::numeric_limits<double>::max()` is the parameter `big`.  The LU solve is
multiplication with Mathlib's inverse, which is the inverse whenever the matrix is regular.
-/
namespace Tandem.SimplexDistance
open Combinatorics Curvilinear Matrix

noncomputable section
variable {D V : ℕ}

/-- `SimplexDistanceResult<D, V>`, src/geometry/SimplexDistance.h lines 17-21. -/
structure Result (D V : ℕ) where
  dist : ℝ
  xi : Fin D → ℝ
  bary : Fin V → ℝ

/-- `vertices_[i]` with the `unsigned` index `i`, src/geometry/SimplexDistance.h lines 71-74, 107 and 127
(the index is always in bounds, `C05_choose_enumerates`; out of bounds the model reads zero). -/
def vert (v : Fin V → Fin D → ℝ) (i : ℕ) : Fin D → ℝ := if h : i < V then v ⟨i, h⟩ else 0

/-- `is_` of a solver as a function, from the tuple of `Choose`, src/geometry/SimplexDistance.h
lines 28-30 and 91-97. -/
def isOf (DD : ℕ) (c : List ℕ) : Fin (DD + 1) → ℕ := fun j => c.getD j 0

/-- The matrix `A` of `BarycentricSolver`, src/geometry/SimplexDistance.h lines 31-37, with
`dot_products` of lines 71-75. -/
def solverMatrix (v : Fin V → Fin D → ℝ) (DD : ℕ) (is : Fin (DD + 1) → ℕ) :
    Matrix (Fin (DD + 1)) (Fin (DD + 1)) ℝ :=
  Matrix.of fun i j =>
    if h : (i : ℕ) < DD then
      dot (vert v (is ⟨i + 1, by omega⟩)) (vert v (is j)) - dot (vert v (is 0)) (vert v (is j))
    else 1

/-- The right-hand side `b` of `BarycentricSolver::solve`, src/geometry/SimplexDistance.h lines 41-46,
with `dot_rhs` of lines 80-83. -/
def solverRhs (v : Fin V → Fin D → ℝ) (p : Fin D → ℝ) (DD : ℕ) (is : Fin (DD + 1) → ℕ) :
    Fin (DD + 1) → ℝ :=
  fun i =>
    if h : (i : ℕ) < DD then
      dot p (vert v (is ⟨i + 1, by omega⟩)) - dot p (vert v (is 0))
    else 1

/-- `BarycentricSolver::solve`, src/geometry/SimplexDistance.h lines 41-50. -/
def solve (v : Fin V → Fin D → ℝ) (p : Fin D → ℝ) (DD : ℕ) (is : Fin (DD + 1) → ℕ) :
    Fin (DD + 1) → ℝ :=
  (solverMatrix v DD is)⁻¹ *ᵥ solverRhs v p DD is

/-- The point with the given barycentric coordinates, src/geometry/SimplexDistance.h lines 108-111. -/
def combine (v : Fin V → Fin D → ℝ) (DD : ℕ) (is : Fin (DD + 1) → ℕ) (lambda : Fin (DD + 1) → ℝ) :
    Fin D → ℝ :=
  fun d => (List.finRange (DD + 1)).foldl (fun x j => x + lambda j * vert v (is j) d) 0

/-- `result.bary`, src/geometry/SimplexDistance.h lines 117-120. -/
def scatter (DD : ℕ) (is : Fin (DD + 1) → ℕ) (lambda : Fin (DD + 1) → ℝ) : Fin V → ℝ :=
  (List.finRange (DD + 1)).foldl
    (fun b j => if h : is j < V then Function.update b ⟨is j, h⟩ (lambda j) else b) (fun _ => 0)

/-- One iteration of the loop over the solvers of one dimension, src/geometry/SimplexDistance.h
lines 105-123. -/
def consider (v : Fin V → Fin D → ℝ) (p : Fin D → ℝ) (DD : ℕ) (result : Result D V) (c : List ℕ) :
    Result D V :=
  let is := isOf DD c
  let lambda := solve v p DD is
  open Classical in
  if ∀ j, lambda j ≥ 0 then
    let x := combine v DD is lambda
    let diff := x - p
    let dist2 := dot diff diff
    if dist2 < result.dist then ⟨dist2, x, scatter DD is lambda⟩ else result
  else result

/-- `init_solvers<DD>`, src/geometry/SimplexDistance.h lines 89-98: the index tuples of the solvers, in
the order of `Choose<DD + 1>(V)`; `none`: the array of `binom(V, DD + 1)` solvers is not exactly
filled. -/
def solvers (V DD : ℕ) : Option (List (List ℕ)) :=
  match chooseVisit V (DD + 1) (2 ^ V), binom V (DD + 1) with
  | some cs, some size => if cs.length = size then some cs else none
  | _, _ => none

/-- `closest2<PlexDs...>`, src/geometry/SimplexDistance.h lines 100-131. -/
def closest2 (big : ℝ) (v : Fin V → Fin D → ℝ) (p : Fin D → ℝ) : List ℕ → Option (Result D V)
  | [] => none
  | head :: tail => do
    let cs ← solvers V head
    let result := cs.foldl (consider v p head) ⟨big, fun _ => 0, fun _ => 0⟩
    if tail = [] then return result
    let other ← closest2 big v p tail
    return if other.dist < result.dist then other else result

/-- `SimplexDistance<D, V>::closest`, src/geometry/SimplexDistance.h lines 79-87 and 155-162: the
dimensions are `0, ..., V - 1`. -/
def closest (big : ℝ) (v : Fin V → Fin D → ℝ) (p : Fin D → ℝ) : Option (Result D V) :=
  (closest2 big v p (List.range V)).map fun c2 => ⟨Real.sqrt c2.dist, c2.xi, c2.bary⟩

end
end Tandem.SimplexDistance
