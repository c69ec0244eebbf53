import Verif.Model.GreenOp
import Verif.Model.Adapter
import Verif.Model.Elasticity
/-! # The two ways of computing the traction on the fault: the direct solve and the discrete Green's function

Simplifications: the linear solver is exact; the state that a rank reads for a facet is the slip of that facet
(ghost exchange: C18, numbering: C31); real arithmetic. -/
namespace Tandem.GreenOp
variable {K : Type} [Semiring K] {L : Type} [DecidableEq L]

/-- The vector `S_` after `insert_block` of the slip of every local fault facet of every rank,
`app/form/SeasQDDiscreteGreenOperator.cpp` lines 115-123. -/
def slipVec (env : Env K L) (p : Nat) (slip : L → Nat → K) : Nat → K :=
  (globalBlocks (env.ranks p)).foldl
    (fun v b => fun I => if env.bc * b.2 ≤ I ∧ I < env.bc * b.2 + env.bc then slip b.1 (I - env.bc * b.2) else v I)
    (fun _ => 0)

/-- `update_traction`, `app/form/SeasQDDiscreteGreenOperator.cpp` lines 115-127: `MatMult` and `VecAXPY`. -/
def updateTraction (env : Env K L) (p : Nat) (G : Mat K) (tBoundary : Nat → K) (time : K) (slip : L → Nat → K) : Nat → K :=
  fun I => matVec (env.nGf p) G (slipVec env p slip) I + time * tBoundary I

end Tandem.GreenOp

namespace Tandem.Direct
noncomputable section
open Tandem.DGTopo (View FacetInfo facetInfo)
variable {D n Nbf Nbm Nq nq : ℕ}

/-- The vertices of a local facet (the label of `write_facet_labels_IS`),
`app/form/SeasQDDiscreteGreenOperator.cpp` lines 250-258. -/
def label (v : View) (f : ℕ) : List ℕ := v.facets.getD f []

/-- Whether a facet is a local facet on the fault; for others `slip_bc` is not called (bc_skeleton and bc_boundary,
app/localoperator/Elasticity.cpp lines 545-573 and app/localoperator/Poisson.cpp lines 406-432). -/
def isFault (v : View) (f : ℕ) : Bool := decide (f < v.numLocalFacets) && decide (v.bc[f]? = some DGAssembly.bcFault)

/-- What the adapter of one rank has: the prepared geometry of the fault facets and the basis on the reference facet,
app/localoperator/AdapterBase.h lines 45-80 (members `fault_`, `e_q`, `quad_rule_`). -/
structure Adapter (D n nq : ℕ) where
  fault : ℕ → Tandem.Adapter.Fault D nq
  w : Fin nq → ℝ
  e_q : Fin n → Fin nq → ℝ

/-- The boundary data during `SeasQDOperator::solve` and `update_traction`, app/form/SeasQDOperator.cpp lines 55-77: the slip
is `slip_bc` of the state (app/form/AdapterOperator.h lines 50-57), the displacement at the boundary is set if there is a
functional; the operator of a SEAS problem has no body force. -/
def elasticityData (v : View) (a : Adapter (D + 1) n nq) (g : Option (ℕ → Bool → Fin (D + 1) → Fin nq → ℝ))
    (slip : List ℕ → ℕ → ℝ) : Elasticity.Data (D + 1) Nq nq :=
  ⟨none, g, some fun f _ => if isFault v f then
    Tandem.Adapter.elSlip (a.fault f) a.e_q fun l m => slip (label v f) (l.val + m.val * n) else 0⟩

/-- One pass of the loop of `AdapterOperator::traction`, app/form/AdapterOperator.h lines 65-78, for the facet `f`: the block of
the result (a matrix of `n` rows stored by columns). -/
def elasticityTraction (op : Elasticity.Op (D + 1) Nbf Nbm Nq nq) (a : Adapter (D + 1) n nq) (d : Elasticity.Data (D + 1) Nq nq)
    (junk : Fin (D + 1) → Fin nq → ℝ) (f : ℕ) (i : FacetInfo) (u : ℕ → Fin Nbf → Fin (D + 1) → ℝ) (j : ℕ) : ℝ :=
  let traction_q := if i.up0 = i.up1 then op.tractionBoundary d junk f i (u i.up0)
    else op.tractionSkeleton d junk f i (u i.up0) (u i.up1)
  if h : 0 < n ∧ j / n < D + 1 then
    Tandem.Adapter.elTraction (a.fault f) a.w a.e_q traction_q ⟨j % n, Nat.mod_lt _ h.1⟩ ⟨j / n, h.2⟩
  else 0

/-- The boundary data for Poisson's equation, app/form/SeasQDOperator.cpp lines 55-77; without a functional the displacement at
the boundary is that of the constructor, zero (app/localoperator/Poisson.cpp lines 32-33). -/
def poissonData (v : View) (a : Adapter D n nq) (g : ℕ → Bool → Fin nq → ℝ) (slip : List ℕ → ℕ → ℝ) : Poisson.Data Nq nq :=
  ⟨0, fun f _ => if isFault v f then Tandem.Adapter.poSlip (a.fault f) a.e_q fun l => slip (label v f) l.val else 0, g⟩

/-- One pass of the loop of `AdapterOperator::traction`, app/form/AdapterOperator.h lines 65-78, for Poisson's equation. -/
def poissonTraction (op : Poisson.Op D Nbf Nbm Nq nq) (a : Adapter D n nq) (d : Poisson.Data Nq nq)
    (junk : Fin nq → ℝ) (f : ℕ) (i : FacetInfo) (u : ℕ → Fin Nbf → ℝ) : ℕ → ℝ :=
  Tandem.Adapter.poTractionBlock (a.fault f) a.w a.e_q
    (if i.up0 = i.up1 then op.tractionBoundary d junk f i (u i.up0) else op.tractionSkeleton d junk f i (u i.up0) (u i.up1))

end

end Tandem.Direct
