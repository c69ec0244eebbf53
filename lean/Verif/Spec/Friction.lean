import Mathlib.Analysis.SpecialFunctions.Arsinh
import Mathlib.Analysis.SpecialFunctions.Log.Base
/-! # Specification of the rate-and-state slip-rate problem -/
namespace Tandem.Spec
noncomputable section

/-- Regularised rate-and-state friction coefficient. -/
def frictionCoefficient (V0 a V psi : ℝ) : ℝ := a * Real.arsinh (V / (2 * V0) * Real.exp (psi / a))

/-- Shear stress `tau` is balanced by friction under normal stress `sn` and radiation damping at slip rate `V`. -/
def InBalance (V0 a sn eta tau psi V : ℝ) : Prop := tau = sn * frictionCoefficient V0 a V psi + eta * V

/-- Parameters for which the slip-rate problem is well posed. -/
structure Admissible (V0 a sn eta : ℝ) : Prop where
  V0 : 0 < V0
  a : 0 < a
  sn : 0 < sn
  eta : 0 ≤ eta

end
end Tandem.Spec
