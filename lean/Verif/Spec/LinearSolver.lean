import Verif.Model.LinearSolver
/-! # Specification for the multigrid hierarchy (C91) -/
namespace Tandem.Spec
open Finset

/-- `x` holds, element by element and quantity by quantity, the coefficients of the functions `f` in the basis `b` with `nb`
functions: element `g` and quantity `p` of the `Q` quantities have the function `f g p`. -/
def Represents {X : Type} (n Q nb : ℕ) (b : ℕ → X → ℝ) (f : ℕ → ℕ → X → ℝ) (x : ℕ → ℝ) : Prop :=
  ∀ g < n, ∀ p < Q, ∀ ξ, f g p ξ = ∑ l ∈ range nb, x (g * (nb * Q) + (l + p * nb)) * b l ξ

/-- The bilinear form of the matrix with `N` rows and columns. -/
def form (N : ℕ) (A : ℕ → ℕ → ℝ) (x y : ℕ → ℝ) : ℝ := ∑ i ∈ range N, ∑ j ∈ range N, x i * A i j * y j

/-- The matrix with `N` rows and columns is symmetric and positive definite. -/
def IsSPD (N : ℕ) (A : ℕ → ℕ → ℝ) : Prop :=
  (∀ i < N, ∀ j < N, A i j = A j i) ∧ ∀ x : ℕ → ℝ, (∃ i < N, x i ≠ 0) → 0 < form N A x x

/-- The preconditioner at a path of a tree of preconditioners: `true` if it belongs to the smoother of a multigrid level,
`false` if it is a part of a composite. -/
inductive PartOf : LinearSolver.PC → List ℕ → Bool → LinearSolver.PC → Prop where
  | composite {subs k pc} : subs[k]? = some pc → PartOf (.composite subs) [k] false pc
  | mg {subs k pc} : subs[k]? = some pc → PartOf (.mg subs) [k] true pc
  | inComposite {subs k pc path b q} : subs[k]? = some pc → PartOf pc path b q → PartOf (.composite subs) (k :: path) b q
  | inMG {subs k pc path b q} : subs[k]? = some pc → PartOf pc path b q → PartOf (.mg subs) (k :: path) b q

end Tandem.Spec
