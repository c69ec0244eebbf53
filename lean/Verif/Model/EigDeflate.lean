import Mathlib.Data.Matrix.Mul
import Mathlib.Data.Matrix.Diagonal
import Mathlib.Data.Real.Sqrt
import Mathlib.Algebra.BigOperators.Fin
/-!
# Model of `app/pc/reig_aux.c` and `app/pc/eigdeflate.c`

Exact real arithmetic.  A dense matrix is a function of row and column.  The functions of `reig_aux.c`
are collective operations of PETSc on distributed matrices and are modelled on the global matrix; in
`PCApply_eigdeflate`, which exchanges data itself, the ranks are modelled.  `KSPSolve` is a parameter
(a function of right-hand side and initial guess), LAPACK's `dsyev` a parameter that returns eigenvalues
and eigenvectors.  Error codes are not modelled.
-/
namespace Tandem.EigDeflate
noncomputable section

variable {M n : ℕ}

/-- A matrix of type MATDENSE with `n` columns of length `M`: `X j` is column `j`
(`_MatDenseSetColumnVec`, app/pc/reig_aux.c lines 166-192). -/
abbrev Cols (M n : ℕ) := Fin n → Fin M → ℝ

/-- `VecDot`. Used in app/pc/reig_aux.c line 19. -/
def vdot (x y : Fin M → ℝ) : ℝ := ∑ i, x i * y i

/-- The body of the loop over `j` in `VecOrthonormalize_ModifiedGramSchmidt`, app/pc/reig_aux.c
lines 11-23: normalise column `j`, remove it from the later ones.  (The inner loop changes only column
`k` in iteration `k`, so the iterations are modelled at once.  A column of norm zero divides by zero: here the
result is zero, in the code it is not a number; the theorems assume independent columns.) -/
def mgsStep (X : Cols M n) (j : Fin n) : Cols M n :=
  let nrm := Real.sqrt (vdot (X j) (X j))
  let q := (1 / nrm) • X j
  fun k => if k = j then q else if j < k then X k + (-vdot q (X k)) • q else X k

/-- `VecOrthonormalize_ModifiedGramSchmidt`, app/pc/reig_aux.c lines 4-26. -/
def orthonormalize (X : Cols M n) : Cols M n := (List.finRange n).foldl mgsStep X

/-- `MatMatMult_MatDense_InPlace` (app/pc/reig_aux.c lines 613-661) with `op = MatMult`, and
`KSPMatMult_MatDense_InPlace` (lines 667-732) with `op = KSPSolve`. -/
def applyCols (op : (Fin M → ℝ) → Fin M → ℝ) (X : Cols M n) : Cols M n := fun j => op (X j)

/-- `MatPtAP_MatDense` (app/pc/reig_aux.c lines 739-840) and `MatPtInvAP_MatDense` (lines 847-949):
column `j` of the result is `P^T op(P_j)`; the result is indexed by row and column. -/
def ptap (op : (Fin M → ℝ) → Fin M → ℝ) (P : Cols M n) : Fin n → Fin n → ℝ :=
  fun i j => vdot (P i) (op (P j))

/-- Assignment to entry `(i, j)` of an array.
The array accesses of app/pc/reig_aux.c lines 977-986. -/
def assign (A : Fin n → Fin n → ℝ) (i j : Fin n) (v : ℝ) : Fin n → Fin n → ℝ :=
  fun a b => if a = i ∧ b = j then v else A a b

/-- The body of the loops of `MatDenseSymmetrizeSEQ`, app/pc/reig_aux.c lines 977-986. -/
def symStep (A : Fin n → Fin n → ℝ) (ij : Fin n × Fin n) : Fin n → Fin n → ℝ :=
  let At := 0.5 * (A ij.1 ij.2 + A ij.2 ij.1)
  assign (assign A ij.1 ij.2 At) ij.2 ij.1 At

/-- `MatDenseSymmetrizeSEQ`, app/pc/reig_aux.c lines 955-991: `for i, for j ≥ i`. -/
def symmetrize (A : Fin n → Fin n → ℝ) : Fin n → Fin n → ℝ :=
  ((List.finRange n).flatMap fun i =>
    ((List.finRange n).filter fun j => decide (i ≤ j)).map fun j => (i, j)).foldl symStep A

/-- The random subspace: app/pc/reig_aux.c lines 1086-1106 and 1256-1276; `X` is the random matrix. -/
def subspace (op : (Fin M → ℝ) → Fin M → ℝ) (power_its : ℕ) (X : Cols M n) : Cols M n :=
  let X := applyCols op X
  if power_its = 0 then orthonormalize X
  else
    let X := orthonormalize (applyCols op X)
    (List.range (power_its - 1)).foldl (fun X _ => orthonormalize (applyCols op X)) X

/-- What `lapackeigs` (app/pc/reig_aux.c lines 993-1044) returns: eigenvalues and, in the columns,
eigenvectors. -/
structure Eig (n : ℕ) where
  w : Fin n → ℝ
  vec : Fin n → Fin n → ℝ

/-- `MatMultRedundant_MatDenseVecSeq`, app/pc/reig_aux.c lines 349-393: `Q x`. -/
def multRedundant (Q : Cols M n) (x : Fin n → ℝ) : Fin M → ℝ := fun i => ∑ k, Q k i * x k

/-- What `RandEigsMax` and `RandEigsMin` return: `k` values and `k` vectors;
app/pc/reig_aux.c lines 1456-1512. -/
structure Result (M k : ℕ) where
  eigs : Fin k → ℝ
  V : Cols M k

/-- `RandEigsMax_3_InPlace`, app/pc/reig_aux.c lines 1046-1211. -/
def randEigsMax (A : (Fin M → ℝ) → Fin M → ℝ) (k o power_its : ℕ) (X : Cols M (k + o))
    (eigh : (Fin (k + o) → Fin (k + o) → ℝ) → Eig (k + o)) : Result M k :=
  let Q := subspace A power_its X
  let R := symmetrize (ptap A Q)
  let E := eigh R
  { eigs := fun i => E.w ⟨i.val + o, by omega⟩
    V := fun j => multRedundant Q fun l => E.vec l ⟨j.val + o, by omega⟩ }

/-- One swap of the loops that reverse eigenvalues and eigenvectors, app/pc/reig_aux.c lines 1319-1324
and 1360-1375. -/
def swapStep {α : Type} (f : Fin n → α) (i : Fin n) : Fin n → α :=
  fun j => if j = i then f i.rev else if j = i.rev then f i else f j

/-- The loops that reverse eigenvalues and eigenvectors, app/pc/reig_aux.c lines 1316-1325 and
1350-1375: `for i < n / 2`. -/
def reverse {α : Type} (f : Fin n → α) : Fin n → α :=
  ((List.finRange n).filter fun i => decide (i.val < n / 2)).foldl swapStep f

/-- `RandEigsMin_3_InPlace`, app/pc/reig_aux.c lines 1213-1454; `solve` is `KSPSolve`. -/
def randEigsMin (solve : (Fin M → ℝ) → Fin M → ℝ) (k o power_its : ℕ) (X : Cols M (k + o))
    (eigh : (Fin (k + o) → Fin (k + o) → ℝ) → Eig (k + o)) : Result M k :=
  let Q := subspace solve power_its X
  let R := symmetrize (ptap solve Q)
  let E := eigh R
  let eko := reverse fun i => 1 / E.w i
  let vecs := reverse fun j l => E.vec l j
  { eigs := fun i => eko ⟨i.val, by omega⟩
    V := fun j => multRedundant Q (vecs ⟨j.val, by omega⟩) }

/-- The refusal of `RandEigsMax` and `RandEigsMin`, app/pc/reig_aux.c lines 1468-1478, 1499-1509: more
columns than rows. -/
def refused (M k o : ℕ) : Bool := decide (M < k + o)

/-! ### `PCApply_eigdeflate` -/

/-- `MatMultTranspose(Q_local, r_local, rc)` on one rank, app/pc/eigdeflate.c line 58: rank `p` has
the rows `i` with `owner i = p`. -/
def rcLocal {p : ℕ} (owner : Fin M → Fin p) (Q : Cols M n) (r : Fin M → ℝ) (rank : Fin p) : Fin n → ℝ :=
  fun k => ∑ i ∈ Finset.univ.filter fun i => owner i = rank, Q k i * r i

/-- The coarse correction, app/pc/eigdeflate.c lines 55-66: sum over the ranks, division by the
eigenvalues, multiplication by `Q` (which overwrites `y`). -/
def coarse {p : ℕ} (owner : Fin M → Fin p) (Q : Cols M n) (eigs : Fin n → ℝ) (r : Fin M → ℝ) :
    Fin M → ℝ :=
  let rc := fun k => ∑ rank, rcLocal owner Q r rank k
  multRedundant Q fun k => rc k / eigs k

/-- `PCApply_eigdeflate`, app/pc/eigdeflate.c lines 22-79; `smooth its x y` is `KSPSolve` with
non-zero initial guess `y` and at most `its` iterations. -/
def apply {p : ℕ} (owner : Fin M → Fin p) (A : (Fin M → ℝ) → Fin M → ℝ)
    (smooth : ℕ → (Fin M → ℝ) → (Fin M → ℝ) → Fin M → ℝ) (npre npost : ℕ) (Q : Cols M n)
    (eigs : Fin n → ℝ) (x : Fin M → ℝ) : Fin M → ℝ :=
  let y : Fin M → ℝ := 0
  let r := if 0 < npre then x + (-1 : ℝ) • A (smooth npre x y) else x
  let y := coarse owner Q eigs r
  if 0 < npost then smooth npost x y else y

/-- `alpha`, app/pc/eigdeflate.c line 123. -/
def alpha (factor e_min e_max : ℝ) : ℝ := 2 * factor / (e_min + e_max)

/-- `its` iterations of KSPRICHARDSON with scale `alpha` and no preconditioner, as configured in
app/pc/eigdeflate.c line 141. -/
def richardson (A : (Fin M → ℝ) → Fin M → ℝ) (alpha : ℝ) :
    ℕ → (Fin M → ℝ) → (Fin M → ℝ) → Fin M → ℝ
  | 0, _, y => y
  | its + 1, x, y => richardson A alpha its x (y + alpha • (x - A y))

end
end Tandem.EigDeflate
