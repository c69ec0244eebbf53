import Verif.Model.SeasOp
import Verif.Spec.DGTopo
import Verif.Props.ScatterPlan
/-! # Specification of a distributed set-up of the SEAS operators (C90) -/
namespace Tandem.Spec
open Tandem.DGTopo (View boundaryMap numInterior neighbourInfo elemFaces)
open Tandem.ScatterPlan (Plan IsPlan setup)
open Tandem.SeasOp (Rank Comm bcFault)

/-- All ranks have built their operators: `views` are the local meshes, `ranks` what the operators hold,
`plansU`, `plansS` the scatter plans for the displacement and the fault state. -/
structure IsSetup (P D : Nat) (elems : Nat → List (List Nat)) (num fnum tag : List Nat → Nat)
    (views : Nat → View) (ranks : Nat → Rank) (plansU plansS : List Plan) (bsU bsS : Nat) : Prop where
  mesh : IsDistributed P D elems num fnum tag views
  small : ∀ r, r < P → (views r).numLocalFacets ≤ 2 ^ 64 - 1
  view : ∀ r, r < P → (ranks r).view = views r
  map : ∀ r, r < P → boundaryMap (views r) bcFault = some (ranks r).map
  interior : ∀ r, r < P → numInterior (views r) = some (ranks r).interior
  nb : ∀ r, r < P → neighbourInfo (views r) (D + 1) = some (ranks r).nb
  bsU : ∀ r, r < P → (ranks r).bsU = bsU
  bsS : ∀ r, r < P → (ranks r).bsS = bsS
  planU : ∀ r, r < P → ∃ p, plansU[r]? = some p ∧ IsPlan r (elemFaces (views r)) p ∧
    (ranks r).dispIdx = p.recvIdx ∧ p.recvIdx.length ≤ 2 ^ 64 - 1
  planS : ∀ r, r < P → ∃ s t, s.Perm (ranks r).map.sendMap ∧ t.Perm (ranks r).map.recvMap ∧
    plansS[r]? = some (setup s t) ∧ (ranks r).stateIdx = (setup s t).recvIdx ∧
    (setup s t).recvIdx.length ≤ 2 ^ 64 - 1

/-- The receives of rank `r` complete in some order, into a ghost vector `y` of the right size. -/
def Completes {α : Type} (plans : List Plan) (bs r : Nat) (c : Comm) (y : List α) : Prop :=
  c.plans = plans ∧ ∃ p, plans[r]? = some p ∧ c.arrival.Perm p.recvBlocks ∧ y.length = p.recvIdx.length * bs

/-- The distributed vector `xs` holds block `X e` for every element `e`. -/
def HoldsField {α : Type} (P : Nat) (elems : Nat → List (List Nat)) (views : Nat → View) (bs : Nat)
    (X : List Nat → List α) (xs : List (List α)) : Prop :=
  (∀ e, InElems P elems e → (X e).length = bs) ∧
  ∀ r, r < P → xs[r]? = some (((views r).elems.take (elems r).length).flatMap X)

/-- The distributed vector `ss` holds block `S f` for every fault facet `f`. -/
def HoldsState {α : Type} (P : Nat) (views : Nat → View) (ranks : Nat → Rank) (bs : Nat)
    (S : List Nat → List α) (ss : List (List α)) : Prop :=
  (∀ f, (S f).length = bs) ∧
  ∀ r, r < P → ss[r]? = some ((ranks r).map.localFctNos.flatMap (fun i => S ((views r).facets.getD i [])))

/-- `t` are the arguments of the traction at facet `f`: the blocks `Y` of the elements at `f` (one at the
boundary of the domain, else two) and the slip `S f`. -/
def IsTraction {α : Type} (P : Nat) (elems : Nat → List (List Nat)) (v : View) (Y S : List Nat → List α)
    (f : List Nat) (t : SeasOp.Traction α) : Prop :=
  v.facets[t.fctNo]? = some f ∧ t.slip = some (S f) ∧
  ∃ e0 e1, InElems P elems e0 ∧ InElems P elems e1 ∧ IsFacet e0 f ∧ IsFacet e1 f ∧
    (∀ e, InElems P elems e → IsFacet e f → e = e0 ∨ e = e1) ∧
    t.u0 = Y e0 ∧ t.u1 = (if e0 = e1 then none else some (Y e1))

/-- Facet `f` is the `b`-th local fault facet of the rank. -/
def LocalFault (v : View) (R : Rank) (b : Nat) (f : List Nat) : Prop :=
  b < R.map.localSize ∧ ∃ i, R.map.fctNo b = some i ∧ v.facets[i]? = some f

end Tandem.Spec
