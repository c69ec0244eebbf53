import Mathlib.Analysis.SpecialFunctions.Pow.Real
import Mathlib.MeasureTheory.Integral.IntervalIntegral.Basic
import Mathlib.Algebra.Polynomial.Degree.Definitions
import Mathlib.Algebra.Polynomial.Eval.Defs
/-! # Specification of the least-squares residual polynomial (C85) -/
namespace Tandem.Spec
open Polynomial

/-- The weighted square norm `∫_0^e w(2λ/e - 1) p(λ)² dλ` with the weight
`w(x) = (1-x)^α (1+x)^β`. -/
noncomputable def lsNorm (α β e : ℝ) (p : ℝ[X]) : ℝ :=
  ∫ l in (0:ℝ)..e, (1 - (2 * l / e - 1)) ^ α * (1 + (2 * l / e - 1)) ^ β * p.eval l ^ 2

/-- `R` is the residual polynomial (value one at zero) of degree at most `n` with the smallest
weighted square norm; every other one has a larger norm. -/
def IsLeastSquares (α β e : ℝ) (n : ℕ) (R : ℝ[X]) : Prop :=
  R.natDegree ≤ n ∧ R.eval 0 = 1 ∧
    ∀ S : ℝ[X], S.natDegree ≤ n → S.eval 0 = 1 → S ≠ R → lsNorm α β e R < lsNorm α β e S

end Tandem.Spec
