import Mathlib.Data.Matrix.Mul
import Mathlib.Data.Real.Basic
import Mathlib.LinearAlgebra.Span.Basic
/-! # Specification: orthonormal vectors, eigenpairs of a symmetric matrix, Ritz pairs -/
namespace Tandem.Spec
open Matrix

/-- The vectors are orthonormal. -/
def Orthonormal' {M n : ℕ} (V : Fin n → Fin M → ℝ) : Prop :=
  ∀ i j, V i ⬝ᵥ V j = if i = j then 1 else 0

/-- `w`, `vec` are eigenvalues in ascending order and orthonormal eigenvectors (in the columns) of `R`:
what LAPACK's `dsyev` computes. -/
def IsEigh {n : ℕ} (R : Fin n → Fin n → ℝ) (w : Fin n → ℝ) (vec : Fin n → Fin n → ℝ) : Prop :=
  Monotone w ∧ Orthonormal' (fun j l => vec l j) ∧ ∀ a j, ∑ l, R a l * vec l j = w j * vec a j

/-- The pairs `(e j, V j)` are Ritz pairs of the symmetric matrix `A` in the subspace `S`. -/
def RitzPairs {M k : ℕ} (A : Matrix (Fin M) (Fin M) ℝ) (S : Submodule ℝ (Fin M → ℝ))
    (e : Fin k → ℝ) (V : Fin k → Fin M → ℝ) : Prop :=
  Orthonormal' V ∧ (∀ j, V j ∈ S) ∧ ∀ j, ∀ u ∈ S, u ⬝ᵥ A *ᵥ V j = e j * (u ⬝ᵥ V j)

end Tandem.Spec
