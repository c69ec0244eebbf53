import Mathlib.Data.Real.Basic
import Mathlib.Algebra.BigOperators.Fin
/-! # Specification of mass matrices (C81) -/
namespace Tandem.Spec

/-- The mass matrix with weight `c` at the quadrature points (weights `W`, basis functions `E`). -/
noncomputable def massWith {Nbf Nq : Nat} (E : Fin Nbf → Fin Nq → ℝ) (W c : Fin Nq → ℝ) (k l : Fin Nbf) : ℝ :=
  ∑ q, E k q * (W q * c q) * E l q

/-- `A` is a left inverse of `M`. -/
def IsInverse {n : Nat} (A M : Fin n → Fin n → ℝ) : Prop := ∀ k l, ∑ m, A k m * M m l = if k = l then 1 else 0

/-- The weight-adjusted approximation of the inverse mass matrix of weight `1 / c`: the mass matrix of weight `c` between two
inverse mass matrices of weight one. -/
noncomputable def weightAdjusted {Nbf Nq : Nat} (Minv : Fin Nbf → Fin Nbf → ℝ) (E : Fin Nbf → Fin Nq → ℝ) (W c : Fin Nq → ℝ) (k l : Fin Nbf) : ℝ :=
  ∑ r, ∑ s, Minv k r * massWith E W c r s * Minv s l

end Tandem.Spec
