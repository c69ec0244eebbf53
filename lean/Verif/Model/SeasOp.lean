import Verif.Model.DGTopo
/-!
# Model of `app/form/SeasFDOperator.{h,cpp}`, `app/form/SeasQDOperator.{h,cpp}` and the loops of
`app/form/AdapterOperator.h`

What the local kernels compute is abstract: the model returns the *arguments* they are called with.  A
program that reads a block which does not exist, calls the slip callback while it is the throwing one, or
never receives a message gives `none`.  MPI semantics as in `Model/ScatterPlan.lean`.
-/
namespace Tandem.SeasOp
open Tandem.ScatterPlan (Plan Block scatter viewGetBlock)
open Tandem.DGTopo (View BMap SideInfo facetInfo apply)
open Tandem.CommPattern (slice)

variable {K α : Type}

/-- `BC::Fault`, src/form/BC.h line 6. -/
def bcFault : Nat := 3

/-- What one rank's operators hold: the topology and the fault map (app/form/SeasFDOperator.h lines
104-117), the received block indices of the two scatters and the block sizes (app/form/SeasFDOperator.cpp
lines 12-16; app/form/SeasQDOperator.cpp lines 13-16). -/
structure Rank where
  view : View
  map : BMap
  interior : Nat
  nb : List (List (Option SideInfo))
  dispIdx : List Nat
  stateIdx : List Nat
  bsU : Nat
  bsS : Nat

/-- The slip callback and the time of the Dirichlet data stored in the local operator,
`set_slip`/`set_dirichlet` (src/form/DGOperator.h lines 350-355).  `slip = none` is the callback
`invalid_slip_bc()` that throws (app/form/SeasFDOperator.h lines 90-94). -/
structure DG (K α : Type) where
  slip : Option (Nat → Option (List α))
  dirichlet : Option K

/-- A call of the stored slip callback for a facet; `none`: exception or missing block.
The calls in app/localoperator/Elasticity.cpp lines 548-549, 560-561 and 917. -/
def DG.callSlip (dg : DG K α) (fctNo : Nat) : Option (List α) := dg.slip.bind (fun f => f fctNo)

/-- The slip a kernel asks for at a facet: only fault facets do (app/localoperator/Elasticity.cpp lines
548-549, 560-561 and 917; app/localoperator/Poisson.cpp lines 409-410, 421-422 and 650). -/
def DG.slipAt (dg : DG K α) (bc fctNo : Nat) : Option (Option (List α)) :=
  if bc = bcFault then (dg.callSlip fctNo).map some else some none

/-- `make_state_view(s)`, app/form/SeasFDOperator.h lines 96-98 (app/form/SeasQDOperator.h lines 84-86);
src/parallel/LocalGhostCompositeView.h lines 49-55. -/
def stateView (R : Rank) (s ghost : List α) (i : Nat) : Option (List α) :=
  viewGetBlock R.map.localSize R.bsS s R.stateIdx ghost i

/-- The displacement view, app/form/SeasFDOperator.cpp line 90, app/form/SeasQDOperator.cpp line 70. -/
def dispView (R : Rank) (u ghost : List α) (i : Nat) : Option (List α) :=
  viewGetBlock R.view.numLocal R.bsU u R.dispIdx ghost i

/-- `AdapterOperator::slip_bc`, app/form/AdapterOperator.h lines 53-60: the callback's state block. -/
def slipBc (R : Rank) (state : Nat → Option (List α)) (fctNo : Nat) : Option (List α) := do
  let faultNo ← R.map.bndNo fctNo
  state faultNo

/-- Arguments of `traction_boundary` (`u1 = none`) or `traction_skeleton` and the slip it asks for.
The calls in app/form/AdapterOperator.h lines 68-82. -/
structure Traction (α : Type) where
  fctNo : Nat
  u0 : List α
  u1 : Option (List α)
  slip : Option (List α)

/-- One iteration of `AdapterOperator::traction`, app/form/AdapterOperator.h lines 68-82. -/
def tractionAt (R : Rank) (dg : DG K α) (disp : Nat → Option (List α)) (faultNo : Nat) :
    Option (Traction α) := do
  let f ← R.map.fctNo faultNo
  let i ← facetInfo R.view f
  let u0 ← disp i.up0
  let u1 ← disp i.up1
  let sl ← dg.slipAt i.bc f
  return ⟨f, u0, if i.up0 = i.up1 then none else some u1, sl⟩

/-- `AdapterOperator::traction`, app/form/AdapterOperator.h lines 62-84. -/
def traction (R : Rank) (dg : DG K α) (disp : Nat → Option (List α)) : Option (List (Traction α)) :=
  (List.range R.map.localSize).mapM (tractionAt R dg disp)

/-- `update_traction`, app/form/SeasFDOperator.cpp lines 89-95, app/form/SeasQDOperator.cpp lines 69-74. -/
def updateTraction (R : Rank) (dg : DG K α) (disp state : Nat → Option (List α)) :
    Option (List (Traction α) × DG K α) := do
  let dg1 := { dg with slip := some (slipBc R state) }
  let t ← traction R dg1 disp
  return (t, { dg1 with slip := none })

/-- The slips asked for by one `wave_rhs` of an element (app/localoperator/Elasticity.cpp lines 905-935). -/
def waveSlips (dg : DG K α) (a : Nat × List α × List (SideInfo × List α)) :
    Option (Nat × List α × List (SideInfo × List α × Option (List α))) := do
  let xn ← a.2.2.mapM (fun p => (dg.slipAt p.1.bc p.1.fctNo).map (fun s => (p.1, p.2, s)))
  return (a.1, a.2.1, xn)

/-- Blocks of a local vector for elements `0 .. n-1`.
`get_block` of app/common/PetscVector.h, used in app/form/SeasFDOperator.cpp lines 61-69. -/
def blocks (bs n : Nat) (x : List α) : List (List α) := (List.range n).map (fun i => slice x (i * bs) bs)

/-- The block-wise copy `du = v`, app/form/SeasFDOperator.cpp lines 61-69. -/
def copyBlocks (bs n : Nat) (v du : List α) : List α :=
  (List.range n).foldl (fun d i => CommPattern.writeAt d (i * bs) (slice v (i * bs) bs)) du

/-- Result of `SeasFDOperator::rhs` on one rank: the vector `du`, the arguments of the wave kernels, the
time of the boundary data they use, and for the friction law the time, the arguments of the traction and
the state block of each local fault facet;
app/form/SeasFDOperator.cpp lines 55-87. -/
structure FDResult (K α : Type) where
  du : List α
  wave : List (Nat × List α × List (SideInfo × List α × Option (List α)))
  waveDirichlet : Option K
  friction : List (Traction α × List α)
  frictionTime : K
  dg : DG K α

/-- The scatters of one operator evaluation: plans of all ranks and the order in which the receives
complete on this rank (src/parallel/Scatter.h lines 34-78). -/
structure Comm where
  plans : List Plan
  arrival : List Block

/-- The friction law is evaluated on all local fault facets with their traction and state block,
app/form/FrictionOperator.h lines 95-110. -/
def frictionArgs (R : Rank) (t : List (Traction α)) (s : List α) : List (Traction α × List α) :=
  t.zip (blocks R.bsS R.map.localSize s)

/-- `SeasFDOperator::rhs` on rank `r`, app/form/SeasFDOperator.cpp lines 55-87.  `us`, `ss` are the vectors
of all ranks; `yU`, `yS`, `yD` the old contents of the ghost vectors; `during` the content of the operator's
ghost vector while interior elements are processed (src/form/DGOperator.h lines 382-393). -/
def fdRhs (R : Rank) (r : Nat) (hasBoundary : Bool) (time : K) (v : List α) (us ss : List (List α))
    (du : List α) (cS cU cD : Comm) (yS yU yD : List α) (during : Nat → List α) (dg : DG K α) :
    Option (FDResult K α) := do
  let u ← us[r]?
  let s ← ss[r]?
  let du' := copyBlocks R.bsU R.view.numLocal v du
  let stateGhost ← scatter R.bsS cS.plans ss r yS cS.arrival
  let dg1 := { dg with slip := some (slipBc R (stateView R s stateGhost)) }
  let dg2 := if hasBoundary then { dg1 with dirichlet := some time } else dg1
  let opGhost ← scatter R.bsU cD.plans us r yD cD.arrival
  let args ← apply R.bsU R.view.numLocal R.interior R.dispIdx R.nb u during opGhost
  let wave ← args.mapM (waveSlips dg2)
  let dg3 := { dg2 with slip := none }
  let dispGhost ← scatter R.bsU cU.plans us r yU cU.arrival
  let (t, dg4) ← updateTraction R dg3 (dispView R u dispGhost) (stateView R s stateGhost)
  return ⟨du', wave, dg2.dirichlet, frictionArgs R t s, time, dg4⟩

/-- `SeasFDOperator::initial_condition` on rank `r`, app/form/SeasFDOperator.cpp lines 33-53: `begin_scatter`
packs and sends the *old* vectors `usOld`, `ssOld` (src/parallel/Scatter.h lines 58-69); then `u` and `s` are
overwritten by the projected initial displacement (or zero) and by `pre_init`.  Result: the arguments of
`friction_->init`. -/
def fdInitial (R : Rank) (r : Nat) (usOld ssOld : List (List α)) (u s : List α) (cS cU : Comm)
    (yS yU : List α) (dg : DG K α) : Option (List (Traction α × List α) × DG K α) := do
  let stateGhost ← scatter R.bsS cS.plans ssOld r yS cS.arrival
  let dispGhost ← scatter R.bsU cU.plans usOld r yU cU.arrival
  let (t, dg') ← updateTraction R dg (dispView R u dispGhost) (stateView R s stateGhost)
  return (frictionArgs R t s, dg')

/-- First half of `SeasQDOperator::rhs` (also of `initial_condition` after `pre_init`, with `time = 0`) on
rank `r`: `update_ghost_state` and the right-hand side in `solve`, app/form/SeasQDOperator.cpp lines 35-36,
57-62, app/form/SeasQDOperator.h lines 79-82.  Result: the ghost vector, the slips the assembly asks for,
facet by facet (src/form/DGOperator.h lines 208-229), and the operator when the system is assembled. -/
def qdAssemble (R : Rank) (r : Nat) (hasBoundary : Bool) (time : K) (ss : List (List α)) (cS : Comm)
    (yS : List α) (dg : DG K α) :
    Option (List α × List (Nat × Option (List α)) × DG K α) := do
  let s ← ss[r]?
  let stateGhost ← scatter R.bsS cS.plans ss r yS cS.arrival
  let dg1 := { dg with slip := some (slipBc R (stateView R s stateGhost)) }
  let dg2 := if hasBoundary then { dg1 with dirichlet := some time } else dg1
  let slips ← (List.range R.view.numLocalFacets).mapM (fun f => do
    let i ← facetInfo R.view f
    let sl ← dg2.slipAt i.bc f
    return (f, sl))
  return (stateGhost, slips, dg2)

/-- Second half: `xs` is the solution of the linear system on all ranks; scatter it, update the traction
and call the friction law; app/form/SeasQDOperator.cpp lines 64-66, 69-74 and 37-39 (29-31). -/
def qdFinish (R : Rank) (r : Nat) (time : K) (ss xs : List (List α)) (stateGhost : List α) (cU : Comm)
    (yU : List α) (dg : DG K α) : Option (List (Traction α × List α) × K × DG K α) := do
  let s ← ss[r]?
  let x ← xs[r]?
  let dg1 := { dg with slip := none }
  let dispGhost ← scatter R.bsU cU.plans xs r yU cU.arrival
  let (t, dg2) ← updateTraction R dg1 (dispView R x dispGhost) (stateView R s stateGhost)
  return (frictionArgs R t s, time, dg2)

/-- `DGOperator::local_cfl_time_step`, src/form/DGOperator.h lines 262-270 (`huge` is the largest double). -/
def localCfl [LinearOrder K] (huge : K) (dts : List K) : K := dts.foldl min huge

/-- `SeasFDOperator::cfl_time_step`, app/form/SeasFDOperator.cpp lines 26-31: minimum over the ranks. -/
def cflTimeStep [LinearOrder K] (huge : K) (dts : Nat → List K) (P : Nat) : K :=
  ((List.range P).map (fun r => localCfl huge (dts r))).foldl min huge

end Tandem.SeasOp
