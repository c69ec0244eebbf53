import Mathlib.Analysis.SpecialFunctions.Exponential
import Mathlib.Analysis.Calculus.Deriv.Comp
import Mathlib.Analysis.Calculus.FDeriv.Linear
import Mathlib.Topology.Algebra.Module.FiniteDimension
import Mathlib.Analysis.Normed.Module.FiniteDimension
/-! # Linear ordinary differential equations have solutions (C104) -/
namespace Tandem

theorem linear_ode {E : Type} [NormedAddCommGroup E] [NormedSpace ℝ E] [FiniteDimensional ℝ E] (L : E →ₗ[ℝ] E) (x0 : E) :
    ∃ x : ℝ → E, x 0 = x0 ∧ ∀ t, HasDerivAt x (L (x t)) t := by
  haveI : CompleteSpace E := FiniteDimensional.complete ℝ E
  let A : E →L[ℝ] E := LinearMap.toContinuousLinearMap L
  refine ⟨fun t => NormedSpace.exp (t • A) x0, by simp [NormedSpace.exp_zero], fun t => ?_⟩
  have h := hasDerivAt_exp_smul_const' (𝕂 := ℝ) A t
  have h2 := (ContinuousLinearMap.apply ℝ E x0).hasFDerivAt.comp_hasDerivAt t h
  exact h2

end Tandem
