import Verif.Props.Elasticity
import Verif.Spec.Wave
import Mathlib.Analysis.Calculus.Deriv.Basic
/-! # The energy of the fully dynamic problem (C104) -/
namespace Tandem.Spec
open Tandem.DGTopo (View)
open Finset
variable {dim Nbf Nbm Nq nq : ℕ}

/-- The sum over the ranks and the elements that they own of `F rank number element`. -/
noncomputable def overElements (P : ℕ) (elems : ℕ → List (List ℕ)) (views : ℕ → View) (F : ℕ → ℕ → List ℕ → ℝ) : ℝ :=
  ∑ r ∈ range P, ∑ u ∈ range (elems r).length, F r u ((views r).elems.getD u [])

/-- One half of the integral of density times the square of the velocity. -/
noncomputable def kineticEnergy (P : ℕ) (elems : ℕ → List (List ℕ)) (views : ℕ → View) (op : ℕ → Elasticity.Op dim Nbf Nbm Nq nq) (rho : List ℕ → ℝ)
    (V : List ℕ → Fin Nbf → Fin dim → ℝ) : ℝ :=
  1 / 2 * overElements P elems views fun r u e =>
    ∑ p, ∑ q, (op r).ref.W q * (rho e * (op r).J_Q u q) * (∑ k, (op r).ref.E_Q k q * V e k p) ^ 2

/-- One half of the quadratic form of the assembled matrix. -/
noncomputable def elasticEnergy (P : ℕ) (elems : ℕ → List (List ℕ)) (views : ℕ → View)
    (blocks : ℕ → List (ℕ × ℕ × (Fin Nbf → Fin dim → Fin Nbf → Fin dim → ℝ))) (U : List ℕ → Fin Nbf → Fin dim → ℝ) : ℝ :=
  1 / 2 * overElements P elems views fun r u e =>
    ∑ k, ∑ p, U e k p * DGAssembly.rowApply Elasticity.mulVec (blocks r) (fun j => U ((views r).elems.getD j [])) u k p

/-- The power of the loads: velocity times the right-hand side of the quasi-static system. -/
noncomputable def power (P : ℕ) (elems : ℕ → List (List ℕ)) (views : ℕ → View) (load : ℕ → ℕ → Fin Nbf → Fin dim → ℝ)
    (V : List ℕ → Fin Nbf → Fin dim → ℝ) : ℝ :=
  overElements P elems views fun r u e => ∑ k, ∑ p, V e k p * load r u k p

/-- Displacement `U` and velocity `V` solve the ordinary differential equation of the fully dynamic mode, app/form/SeasFDOperator.cpp lines 54-89: the
derivative of the displacement is the velocity (lines 61-68), that of the velocity is what `wave_rhs` (line 79) computes: by C81 (`C81_wave_rhs`), minus the
weight-adjusted inverse mass matrix times the residual of the system assembled by all ranks, whose right-hand side `load` comes from
the slip and the displacement at the boundary of that time. -/
structure WaveSolution (P : ℕ) (elems : ℕ → List (List ℕ)) (views : ℕ → View) (op : ℕ → Elasticity.Op dim Nbf Nbm Nq nq)
    (blocks : ℕ → List (ℕ × ℕ × (Fin Nbf → Fin dim → Fin Nbf → Fin dim → ℝ))) (data : ℝ → ℕ → Elasticity.Data dim Nq nq)
    (load : ℝ → ℕ → ℕ → Fin Nbf → Fin dim → ℝ) (U V : ℝ → List ℕ → Fin Nbf → Fin dim → ℝ) : Prop where
  rightHandSide : ∀ t r, r < P → DGAssembly.rhs (views r) ((op r).localRhs ⟨none, (data t r).dirichlet, (data t r).slip⟩) 0 = some (load t r)
  displacement : ∀ t e, InElems P elems e → ∀ k p, HasDerivAt (fun τ => U τ e k p) (V t e k p) t
  velocity : ∀ t r, r < P → ∀ u, u < (elems r).length → ∀ k p, HasDerivAt (fun τ => V τ ((views r).elems.getD u []) k p)
    (- ∑ l, weightAdjusted (op r).ref.MinvRef (op r).ref.E_Q (op r).ref.W (fun q => (op r).rhoInvQ u q / (op r).J_Q u q) k l *
      (DGAssembly.rowApply Elasticity.mulVec (blocks r) (fun j => U t ((views r).elems.getD j [])) u l p - load t r u l p)) t

end Tandem.Spec
