import Mathlib.Analysis.Calculus.Deriv.Add
import Mathlib.Analysis.Calculus.Deriv.Mul
import Mathlib.Data.Nat.Choose.Basic
/-! # Specification of the polynomial bases (C54, C55) -/
namespace Tandem.Spec
open Finset

/-- The Jacobi polynomial `P_n^{(a,b)}` by its explicit formula
`Σ_s C(n+a, n-s) C(n+b, s) ((x-1)/2)^s ((x+1)/2)^(n-s)`. -/
noncomputable def jacobi (n a b : ℕ) (x : ℝ) : ℝ :=
  ∑ s ∈ range (n + 1), ((n + a).choose (n - s) : ℝ) * ((n + b).choose s : ℝ)
    * ((x - 1) / 2) ^ s * ((x + 1) / 2) ^ (n - s)

/-- Its homogenisation: a form of degree `n` in the two variables `x`, `y`. -/
noncomputable def homJacobi (n a b : ℕ) (x y : ℝ) : ℝ :=
  ∑ s ∈ range (n + 1), ((n + a).choose (n - s) : ℝ) * ((n + b).choose s : ℝ)
    * ((x - y) / 2) ^ s * ((x + y) / 2) ^ (n - s)

/-- The Dubiner polynomial of the reference triangle in collapsed coordinates, for points other than
the vertex `(0,1)`. -/
noncomputable def dubinerTri (i j : ℕ) (x y : ℝ) : ℝ :=
  jacobi i 0 0 (2 * x / (1 - y) - 1) * (1 - y) ^ i * jacobi j (2 * i + 1) 0 (2 * y - 1)

/-- The Dubiner polynomial of the reference tetrahedron in collapsed coordinates, for points off the
edge `y + z = 1`. -/
noncomputable def dubinerTet (i j k : ℕ) (x y z : ℝ) : ℝ :=
  jacobi i 0 0 (2 * x / (1 - y - z) - 1) * (1 - y - z) ^ i
    * (jacobi j (2 * i + 1) 0 (2 * y / (1 - z) - 1) * (1 - z) ^ j)
    * jacobi k (2 * i + 2 * j + 2) 0 (2 * z - 1)

/-- `g` is the gradient of `f` at `p`: in every direction `v` the derivative of `f` is `g · v`. -/
def IsGradient {D : ℕ} (f : (Fin D → ℝ) → ℝ) (g : Fin D → ℝ) (p : Fin D → ℝ) : Prop :=
  ∀ v : Fin D → ℝ, HasDerivAt (fun t : ℝ => f (fun d => p d + t * v d)) (∑ d, g d * v d) 0

end Tandem.Spec
