import Verif.Model.DirectTraction
import Verif.Lemmas.Elasticity
import Verif.Props.Poisson
/-! # The direct computation of the traction on the fault: solve the linear system of all ranks, then evaluate (C103) -/
namespace Tandem.Direct
open Tandem.DGTopo (View FacetInfo facetInfo)
variable {D n Nbf Nbm Nq nq : ℕ}

/-- `SeasQDOperator::solve` and `update_traction`, app/form/SeasQDOperator.cpp lines 55-77, on all ranks: `T` holds the traction
block of every fault facet after the linear system was solved for the given boundary data and slip.  `faults r`
lists the facets that the fault map of rank `r` numbers as local ones. -/
def ElasticityDirect (P : ℕ) (elems : ℕ → List (List ℕ)) (views : ℕ → View) (op : ℕ → Elasticity.Op (D + 1) Nbf Nbm Nq nq)
    (blocks : ℕ → List (ℕ × ℕ × (Fin Nbf → Fin (D + 1) → Fin Nbf → Fin (D + 1) → ℝ))) (a : ℕ → Adapter (D + 1) n nq)
    (faults : ℕ → List ℕ) (g : ℕ → Option (ℕ → Bool → Fin (D + 1) → Fin nq → ℝ)) (slip T : List ℕ → ℕ → ℝ) : Prop :=
  ∃ (rhs : ℕ → ℕ → Fin Nbf → Fin (D + 1) → ℝ) (X : List ℕ → Fin Nbf → Fin (D + 1) → ℝ),
    (∀ r, r < P → DGAssembly.rhs (views r) ((op r).localRhs (elasticityData (views r) (a r) (g r) slip)) 0 = some (rhs r)) ∧
    (∀ r, r < P → ∀ u, u < (elems r).length →
      DGAssembly.rowApply Elasticity.mulVec (blocks r) (fun j => X ((views r).elems.getD j [])) u = rhs r u) ∧
    ∀ r, r < P → ∀ f ∈ faults r, ∀ i, facetInfo (views r) f = some i → ∃ junk,
      T (label (views r) f) = elasticityTraction (op r) (a r) (elasticityData (views r) (a r) (g r) slip) junk f i
        (fun j => X ((views r).elems.getD j []))

/-- `SeasQDOperator::solve` and `update_traction`, app/form/SeasQDOperator.cpp lines 55-77, on all ranks for Poisson's
equation. -/
def PoissonDirect (P : ℕ) (elems : ℕ → List (List ℕ)) (views : ℕ → View) (op : ℕ → Poisson.Op D Nbf Nbm Nq nq)
    (blocks : ℕ → List (ℕ × ℕ × (Fin Nbf → Fin Nbf → ℝ))) (a : ℕ → Adapter D n nq)
    (faults : ℕ → List ℕ) (g : ℕ → ℕ → Bool → Fin nq → ℝ) (slip T : List ℕ → ℕ → ℝ) : Prop :=
  ∃ (rhs : ℕ → ℕ → Fin Nbf → ℝ) (X : List ℕ → Fin Nbf → ℝ),
    (∀ r, r < P → DGAssembly.rhs (views r) ((op r).localRhs (poissonData (views r) (a r) (g r) slip)) 0 = some (rhs r)) ∧
    (∀ r, r < P → ∀ u, u < (elems r).length →
      DGAssembly.rowApply Poisson.mulVec (blocks r) (fun j => X ((views r).elems.getD j [])) u = rhs r u) ∧
    ∀ r, r < P → ∀ f ∈ faults r, ∀ i, facetInfo (views r) f = some i → ∃ junk,
      T (label (views r) f) = poissonTraction (op r) (a r) (poissonData (views r) (a r) (g r) slip) junk f i
        (fun j => X ((views r).elems.getD j []))

end Tandem.Direct
