import Verif.Model.MGConfig
import Mathlib.Data.Real.Basic
import Mathlib.Algebra.BigOperators.Group.Finset.Basic
/-!
Model of `app/common/PetscLinearSolver.cpp`, `src/form/InterpolationOperator.h` and `app/common/PetscInterplMatrix.cpp`: operators,
p-multigrid hierarchy and warm-up of the linear solver.  A matrix is the function from global row and column to entry, with exact
real entries; PETSc's `MatMatMult`, `MatTranspose` and the addition of blocks through the local-to-global mapping are modelled by
their documented effect.  Sizes are natural numbers.  PETSc's solver itself (Krylov iteration, smoothers) is not modelled.
-/
namespace Tandem.LinearSolver
open Finset

/-- A PETSc matrix: entry at (row, column); app/common/PetscDGMatrix.h and app/common/PetscInterplMatrix.h, set up in
`app/common/PetscLinearSolver.cpp` lines 30-60. -/
abbrev Mat := ℕ → ℕ → ℝ

/-- The global numbers of all elements on all ranks, in the order rank by rank: `topo.gids()` for `elNo < numLocalElements`,
`app/common/PetscInterplMatrix.cpp` lines 22-27. -/
def allGids (P : ℕ) (numLocal : ℕ → ℕ) (gid : ℕ → ℕ → ℕ) : List ℕ :=
  (List.range P).flatMap fun r => (List.range (numLocal r)).map (gid r)

/-- `InterpolationOperator::assemble` on all ranks, `src/form/InterpolationOperator.h` lines 29-49: every element adds its block
`(elNo, elNo)`, which the local-to-global mapping of `PetscInterplMatrix` (`app/common/PetscInterplMatrix.cpp` lines 22-35) sends to
block row and block column `gid`.  `none`: throws `std::logic_error` (lines 30-32). -/
def assembleInterpl (gids : List ℕ) (bs : ℕ → ℕ) (lop : ℕ → ℕ → Mat) (to_ from_ : ℕ) : Option Mat :=
  if to_ ≤ from_ then none else
  some fun row col => (gids.map fun g =>
    if row / bs to_ = g ∧ col / bs from_ = g then lop to_ from_ (row % bs to_) (col % bs from_) else 0).sum

/-- `MatMatMult` with inner size `n`, `app/common/PetscLinearSolver.cpp` lines 97 and 99. -/
def matMatMult (n : ℕ) (A B : Mat) : Mat := fun i j => ∑ k ∈ range n, A i k * B k j
/-- `MatTranspose`, `app/common/PetscLinearSolver.cpp` line 98. -/
def matTranspose (A : Mat) : Mat := fun i j => A j i

/-- What `setup_mg` configures: the operators (system matrix, preconditioning matrix) of the smoother of each level, the
interpolation to each level, and the matrices to destroy later, `app/common/PetscLinearSolver.cpp` lines 53-114. -/
structure MG where
  operators : ℕ → Option (Mat × Mat)
  interpolation : ℕ → Option Mat
  cleanup : List Mat

/-- The loop over the coarse levels, `app/common/PetscLinearSolver.cpp` lines 79-113; the first number is `l + 1`, `A_lp1` the
matrix of the level above, `n` the global number of elements. `none`: an exception. -/
def levelLoop (n : ℕ) (gids : List ℕ) (bs : ℕ → ℕ) (lop : ℕ → ℕ → Mat) (deg : List ℕ) : ℕ → Mat → MG → Option MG
  | 0, _, st => some st
  | l + 1, A_lp1, st =>
    match assembleInterpl gids bs lop (deg.getD (l + 1) 0) (deg.getD l 0) with
    | none => none
    | some I =>
      let A_l := matMatMult (n * bs (deg.getD (l + 1) 0)) (matTranspose I) (matMatMult (n * bs (deg.getD (l + 1) 0)) A_lp1 I)
      levelLoop n gids bs lop deg l A_l
        ⟨fun k => if k = l then some (A_l, A_l) else st.operators k,
         fun k => if k = l + 1 then some I else st.interpolation k, st.cleanup ++ [A_l]⟩

/-- `PetscLinearSolver::setup_mg`, `app/common/PetscLinearSolver.cpp` lines 53-114.  `shell`: the matrix-free operator, if there is
one.  With no level `PCMGSetLevels` and `PCMGGetSmoother` are called with invalid arguments, which is taken as an error. -/
def setupMG (n : ℕ) (gids : List ℕ) (bs : ℕ → ℕ) (lop : ℕ → ℕ → Mat) (shell : Option Mat) (P : Mat) (deg : List ℕ) : Option MG :=
  if deg.length = 0 then none else
  levelLoop n gids bs lop deg (deg.length - 1) P
    ⟨fun k => if k = deg.length - 1 then some (shell.getD P, P) else none, fun _ => none, []⟩

/-- The operators of the outer Krylov solver, `app/common/PetscLinearSolver.cpp` lines 10-27. -/
def kspOperators (matrixFree : Bool) (shell P : Mat) : Mat × Mat := if matrixFree then (shell, P) else (P, P)

/-- The solver after construction (`app/common/PetscLinearSolver.cpp` lines 7-44): outer operators and, if the preconditioner
chosen in the options is multigrid, the hierarchy. -/
def construct (n : ℕ) (gids : List ℕ) (bs : ℕ → ℕ) (lop : ℕ → ℕ → Mat) (s : MGConfig.Strategy) (coarse maxDegree : ℕ)
    (matrixFree pcIsMG : Bool) (shell P : Mat) : Option ((Mat × Mat) × Option MG) :=
  if pcIsMG then
    match setupMG n gids bs lop (if matrixFree then some shell else none) P (MGConfig.levels s coarse maxDegree) with
    | none => none
    | some mg => some (kspOperators matrixFree shell P, some mg)
  else some (kspOperators matrixFree shell P, none)

/-- A preconditioner as `warmup` sees it: composite of preconditioners, multigrid with one Krylov solver and its preconditioner per
level, or anything else, `app/common/PetscLinearSolver.cpp` lines 126-139. -/
inductive PC where
  | composite (subs : List PC)
  | mg (smoothers : List PC)
  | other

/-- The calls of the warm-up, with the path from the outermost solver, `app/common/PetscLinearSolver.cpp` lines
110-165. -/
inductive Call where
  | kspSetUp (path : List ℕ) | kspSetUpOnBlocks (path : List ℕ) | pcSetUp (path : List ℕ) | pcSetUpOnBlocks (path : List ℕ)
deriving DecidableEq

mutual
/-- `warmup_sub_pcs`, `app/common/PetscLinearSolver.cpp` lines 126-139. -/
def warmupSubPcs : PC → List ℕ → List Call
  | .composite subs, path => warmupComposite subs path 0
  | .mg smoothers, path => warmupMG smoothers path 0
  | .other, _ => []
/-- `warmup_composite`, `app/common/PetscLinearSolver.cpp` lines 141-151. -/
def warmupComposite : List PC → List ℕ → ℕ → List Call
  | [], _, _ => []
  | sub :: subs, path, k => Call.pcSetUp (path ++ [k]) :: Call.pcSetUpOnBlocks (path ++ [k]) :: warmupSubPcs sub (path ++ [k])
      ++ warmupComposite subs path (k + 1)
/-- `warmup_mg` and `warmup_ksp`, `app/common/PetscLinearSolver.cpp` lines 153-161 and 118-124. -/
def warmupMG : List PC → List ℕ → ℕ → List Call
  | [], _, _ => []
  | pc :: pcs, path, k => Call.kspSetUp (path ++ [k]) :: Call.kspSetUpOnBlocks (path ++ [k]) :: warmupSubPcs pc (path ++ [k])
      ++ warmupMG pcs path (k + 1)
end

/-- `warmup`, `app/common/PetscLinearSolver.cpp` lines 116-124. -/
def warmup (pc : PC) : List Call := Call.kspSetUp [] :: Call.kspSetUpOnBlocks [] :: warmupSubPcs pc []

/-- Preallocated entries per row of the interpolation matrix: in the columns of the same rank and in the other columns,
`app/common/PetscInterplMatrix.cpp` lines 38-39. -/
def preallocation (columnBlockSize : ℕ) : ℕ × ℕ := (columnBlockSize, 0)

end Tandem.LinearSolver
