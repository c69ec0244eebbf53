import Verif.Model.DGTopo
import Verif.Model.Error
import Verif.Model.RateAndState
import Verif.Model.VTU
import Verif.Model.Probes
/-!
# Model of the fault operator's loops and of the path from its values to the output files

`app/localoperator/RateAndStateBase.{h,cpp}`, `app/form/FrictionOperator.h`, `src/io/VTUAdapter.h`, the
use of `src/io/VTUWriter.cpp` by `app/tandem/Writer.h`, and the values recorded by
`src/io/BoundaryProbeWriter.cpp`, `src/io/ProbeWriter.cpp` and `src/io/HDF5ProbeWriter.cpp`.

Exact real arithmetic.  `D` is the dimension of the fault, `D + 1` that of the domain.  Block vectors are
flat memory (`ℕ → ℝ`), block `f` starts at `f * blockSize` (C13, C14).
-/
namespace Tandem.FaultOutput
open RefElement Error DGTopo

noncomputable section

variable {D : ℕ}

/-! ## RateAndStateBase: where the nodes of the fault are -/

/-- `geoE_q`, the constructor of `RateAndStateBase`, app/localoperator/RateAndStateBase.cpp lines 15-22;
`refNodes` are the nodes of `Space()` (lines 10-13). -/
def geoE (g : Geo (D + 1)) (refNodes : List (Fin D → ℝ)) : List (Ten 2) :=
  (List.finRange (D + 2)).map fun f => geoBasis g (refNodes.map (Curvilinear.facetParam f))

/-- `prepare`, app/localoperator/RateAndStateBase.cpp lines 29-35: the coordinates of the `nbf` nodes of
a fault face; `none`: `localNo` out of bounds. -/
def prepare (g : Geo (D + 1)) (refNodes : List (Fin D → ℝ)) (nbf : ℕ) (info : FacetInfo) :
    Option (List (Fin (D + 1) → ℝ)) := do
  let E ← (geoE g refNodes)[info.localNo0]?
  some ((List.range nbf).map fun node => geoMap g info.up0 E node)

/-- The constructor of `FrictionOperator`, app/form/FrictionOperator.h lines 32-37: the coordinates of
all local fault faces, in the order of their numbers (`fault_`, allocated by `begin_preparation`,
app/localoperator/RateAndStateBase.cpp lines 24-27). -/
def faultStorage (v : View) (bm : BMap) (g : Geo (D + 1)) (refNodes : List (Fin D → ℝ)) (nbf : ℕ) :
    Option (List (List (Fin (D + 1) → ℝ))) :=
  (List.range bm.localSize).mapM fun faultNo => do
    let fctNo ← bm.fctNo faultNo
    let info ← facetInfo v fctNo
    prepare g refNodes nbf info

/-- `set_params`, app/localoperator/RateAndState.h lines 36-43: entry `index` of the law's parameters is
the value at entry `index` of the storage. -/
def setParams {P : Type} (pfun : (Fin (D + 1) → ℝ) → P) (fault : List (List (Fin (D + 1) → ℝ))) : List P :=
  let storage := fault.flatten
  (List.range storage.length).filterMap fun index => storage[index]?.map pfun

/-! ## FrictionOperator: loops over the fault faces -/

variable {R X : Type}

/-- `handle.subtensor(slice{}, faultNo)`: app/form/FrictionOperator.h lines 54, 67-68, 98-100. -/
def block (bs : ℕ) (v : ℕ → R) (f : ℕ) : ℕ → R := fun i => v (f * bs + i)

/-- The effect on the vector of writing to the block `f` of a vector (the subtensors are views into the
vector, C13): app/form/FrictionOperator.h lines 54, 67-68, 98-100. -/
def putBlock (bs : ℕ) (v : ℕ → R) (f : ℕ) (b : ℕ → R) : ℕ → R :=
  fun j => if f * bs ≤ j ∧ j < (f + 1) * bs then b (j - f * bs) else v j


/-- `block_size()`, app/localoperator/RateAndStateBase.h line 35: `D - 1` slip components and the state
(line 31). -/
def blockSize (o : RateAndState.Op R X) : ℕ := o.nbf * (o.T + 1)

/-- `slip_block_size()`, app/localoperator/RateAndStateBase.h lines 36-38. -/
def slipBlockSize (o : RateAndState.Op R X) : ℕ := o.nbf * o.T

/-- The block size of the traction vector: `domainDimension` components at every node, app/localoperator/RateAndState.h
lines 73-76. -/
def tractionBlockSize (o : RateAndState.Op R X) : ℕ := o.nbf * (o.T + 1)

/-- `FrictionOperator::pre_init`, app/form/FrictionOperator.h lines 51-58; `num` is
`num_local_elements()`. -/
def preInit (o : RateAndState.Op R X) (num : ℕ) (state : ℕ → R) : ℕ → R :=
  (List.range num).foldl (fun s f =>
    putBlock (blockSize o) s f (RateAndState.preInit o f (block (blockSize o) s f))) state

/-- The loop of `FrictionOperator::init`, app/form/FrictionOperator.h lines 63-76: the state vector,
`VMax_` and `init_success`. -/
def initLoop (o : RateAndState.Op R X) (num : ℕ) (time : R) (traction state : ℕ → R) : (ℕ → R) × R × Bool :=
  (List.range num).foldl (fun acc f =>
    let r := RateAndState.init o time f (block (tractionBlockSize o) traction f) (block (blockSize o) acc.1 f)
    (putBlock (blockSize o) acc.1 f r.1, RateAndState.maxR o.ar acc.2.1 r.2.1,
      if r.2.2 = 2 then false else acc.2.2)) (state, o.ar.zero, true)

/-- `FrictionOperator::init`, app/form/FrictionOperator.h lines 60-87; `none`: the program ends
(`throw;` without an exception calls `std::terminate`). -/
def init (o : RateAndState.Op R X) (num : ℕ) (time : R) (traction state : ℕ → R) : Option ((ℕ → R) × R) :=
  let r := initLoop o num time traction state
  if r.2.2 = false then none else some (r.1, r.2.1)

/-- The loop of `FrictionOperator::rhs`, app/form/FrictionOperator.h lines 94-109: the result vector,
`VMax_` and `rhs_success`. -/
def rhsLoop (o : RateAndState.Op R X) (num : ℕ) (time : R) (traction state result : ℕ → R) :
    (ℕ → R) × R × Bool :=
  (List.range num).foldl (fun acc f =>
    let r := RateAndState.rhs o time f (block (tractionBlockSize o) traction f) (block (blockSize o) state f)
      (block (blockSize o) acc.1 f)
    (putBlock (blockSize o) acc.1 f r.1, RateAndState.maxR o.ar acc.2.1 r.2.1,
      if r.2.2 = 2 then false else acc.2.2)) (result, o.ar.zero, true)

/-- `FrictionOperator::rhs`, app/form/FrictionOperator.h lines 89-128 (without the moment rates, C80);
`none`: the program ends. -/
def rhs (o : RateAndState.Op R X) (num : ℕ) (time : R) (traction state result : ℕ → R) :
    Option ((ℕ → R) × R) :=
  let r := rhsLoop o num time traction state result
  if r.2.2 = false then none else some (r.1, r.2.1)

/-- `raw_state`, app/form/FrictionOperator.h lines 130-151: slip and state of the faces in the list, as
a finite element function without names. -/
def rawState (degree : ℕ) (refNodes : List (Fin D → ℝ)) (o : RateAndState.Op ℝ X) (state : ℕ → ℝ)
    (subset : List ℕ) : FEF D :=
  { ofNumber degree refNodes (o.T + 1) subset.length with
    data := fun k q j => block (blockSize o) state (subset.getD j 0) (RateAndState.pos o.nbf k q) }

/-- `state`, app/form/FrictionOperator.h lines 159-183: the output quantities of the faces in the list.
The values start undefined (here 0); `stateOut` writes all of them. -/
def state (degree : ℕ) (refNodes : List (Fin D → ℝ)) (o : RateAndState.Op ℝ X) (time : ℝ)
    (traction st : ℕ → ℝ) (subset : List ℕ) : FEF D :=
  { ofNames degree refNodes (RateAndState.stateNames o.T) subset.length with
    data := fun k q j =>
      RateAndState.stateOut o time (subset.getD j 0) (block (tractionBlockSize o) traction (subset.getD j 0))
        (block (blockSize o) st (subset.getD j 0)) (fun _ => 0) (RateAndState.pos o.nbf k q) }

/-- `state` without list of faces, app/form/FrictionOperator.h lines 191-198: all local faces.  (Line
195 assigns through an empty `std::optional`, which is undefined; taken as what the usual
implementations do, that is, the range is stored.) -/
def stateAll (degree : ℕ) (refNodes : List (Fin D → ℝ)) (o : RateAndState.Op ℝ X) (num : ℕ) (time : ℝ)
    (traction st : ℕ → ℝ) : FEF D :=
  state degree refNodes o time traction st (List.range num)

/-- `params`, app/form/FrictionOperator.h lines 200-219, with `RateAndState::params`,
app/localoperator/RateAndState.h lines 271-281: quantity `q` of node `k`; `lawParams index q` is what
`law_.params` puts into a row. -/
def params (degree : ℕ) (refNodes : List (Fin D → ℝ)) (nbf : ℕ) (names : List String)
    (lawParams : ℕ → ℕ → ℝ) (subset : List ℕ) : FEF D :=
  { ofNames degree refNodes names subset.length with
    data := fun k q j => lawParams (subset.getD j 0 * nbf + k) q }

/-! ## The VTU adapters -/

/-- `bnds_`: the constructor of `CurvilinearBoundaryVTUAdapter`, src/io/VTUAdapter.h lines 74-88;
`none`: a facet without element. -/
def bnds (v : View) (fctNos : List ℕ) : Option (List (ℕ × ℕ)) :=
  fctNos.mapM fun fctNo => do
    let elNos ← v.up[fctNo]?
    let elNo ← elNos[0]?
    let dws ← v.down[elNo]?
    some (elNo, dws.idxOf fctNo)

/-- `E_`: `CurvilinearBoundaryVTUAdapter::setRefNodes`, src/io/VTUAdapter.h lines 92-101. -/
def adapterE (g : Geo (D + 1)) (points : List (Fin D → ℝ)) : List (Ten 2) :=
  (List.finRange (D + 2)).map fun f => geoBasis g (points.map (Curvilinear.facetParam f))

/-- `CurvilinearBoundaryVTUAdapter::map`, src/io/VTUAdapter.h lines 102-106: the positions of all
points of face `no`. -/
def adapterMap (g : Geo (D + 1)) (points : List (Fin D → ℝ)) (bs : List (ℕ × ℕ)) (no : ℕ) :
    Option (ℕ → Fin (D + 1) → ℝ) := do
  let bnd ← bs[no]?
  let E ← (adapterE g points)[bnd.2]?
  some (geoMap g bnd.1 E)

/-- `CurvilinearVTUAdapter::map`, src/io/VTUAdapter.h lines 48-50. -/
def volumeMap (g : Geo D) (points : List (Fin D → ℝ)) (from_ elNo : ℕ) : ℕ → Fin D → ℝ :=
  geoMap g (elNo + from_) (geoBasis g points)

/-- `CurvilinearVTUAdapter::jacobianInv`, src/io/VTUAdapter.h lines 58-63. (`jacobianInv` of the matrix
is the inverse, src/geometry/Curvilinear.cpp lines 230-245; here without the offset of the range.) -/
def volumeJacobianInv (g : Geo D) (points : List (Fin D → ℝ)) (elNo : ℕ) : ℕ → Matrix (Fin D) (Fin D) ℝ :=
  fun q => (jacobian g elNo (geoGrad g points) q)⁻¹

/-! ## A VTU piece -/

/-- The memory `adapter.map` fills: a `pointDim × pointsPerElement` matrix, column by column,
src/io/VTUWriter.cpp lines 124-126. -/
def columns (dim n : ℕ) (x : ℕ → Fin dim → ℝ) : List ℝ :=
  (List.range (n * dim)).map fun j => if h : j % dim < dim then x (j / dim) ⟨j % dim, h⟩ else 0

/-- The points of a fault output file of one rank: `FaultWriter`'s adapter
(app/tandem/Writer.h lines 125-126) in the constructor of `VTUPiece`, src/io/VTUWriter.cpp
lines 115-139. -/
def faultPoints (v : View) (bm : BMap) (g : Geo (D + 1)) (points : List (Fin D → ℝ)) : Option (List ℝ) := do
  let bs ← bnds v bm.localFctNos
  let maps ← (List.range bs.length).mapM (adapterMap g points bs)
  VTU.vertices 0 bs.length points.length (D + 1)
    (fun e => columns (D + 1) points.length (maps.getD e fun _ _ => 0))

/-- The points of a volume output file of one rank: `DomainWriter`, app/tandem/Writer.h lines 195-196, with the range
`0, ..., localSize - 1`; src/io/VTUWriter.cpp lines 115-139. -/
def domainPoints (g : Geo D) (numLocal : ℕ) (points : List (Fin D → ℝ)) : Option (List ℝ) :=
  VTU.vertices 0 numLocal points.length D
    (fun e => columns D points.length (volumeMap g points 0 e))

/-- `addPointData`, src/io/VTUWriter.cpp lines 164-189: name and values of every quantity. -/
def pointData (points : List (Fin D → ℝ)) (f : FEF D) : List (Option String × List ℝ) :=
  (List.range f.numQuantities).map fun p =>
    (name f p, VTU.pointDataOf f.numElements points.length
      (fun el i => map f el (evaluationMatrix f points) i p))

/-- Position of `(d, p)` in the third dimension of `data` in `addJacobianData`,
src/io/VTUWriter.cpp lines 204-211 and 218. -/
def jacIndex (D d p : ℕ) : ℕ := d + p * D

/-- The array with third index `k` of `data` in `addJacobianData`, src/io/VTUWriter.cpp lines
199-213: `data(i, elNo, d + p * D) = result(i, p, d)`. -/
def jacobianArray (g : Geo D) (points : List (Fin D → ℝ)) (f : FEF D) (k : ℕ) : List ℝ :=
  VTU.pointDataOf f.numElements points.length fun el i =>
    if h : k % D < D then
      gradient f el (gradientEvaluationTensor f points) (volumeJacobianInv g points el) i (k / D) ⟨k % D, h⟩
    else 0

/-- `addJacobianData`, src/io/VTUWriter.cpp lines 191-227: the arrays in the order of the file. -/
def jacobianData (g : Geo D) (points : List (Fin D → ℝ)) (f : FEF D) : List (Option String × List ℝ) :=
  (List.range D).flatMap fun d => (List.range f.numQuantities).map fun p =>
    ((name f p).map (fun n => "d" ++ n ++ "_d" ++ toString d), jacobianArray g points f (jacIndex D d p))

/-! ## Probes -/

/-- A probe of a writer: `ProbeMeta`, src/io/BoundaryProbeWriter.h lines 41-47, src/io/HDF5ProbeWriter.h
lines 40-45: number in the list of faces (or elements) and reference coordinates. -/
structure ProbeMeta (D : ℕ) where
  no : ℕ
  chi : Fin D → ℝ

/-- The probes of a rank: src/io/BoundaryProbeWriter.cpp lines 49-57, src/io/ProbeWriter.cpp
lines 48-56, src/io/HDF5ProbeWriter.cpp lines 64-81; `located` are number of facet or element and
reference coordinates from the locator, `order` the iteration order of the `unordered_set`. -/
def probeMetas (toNo : ℕ → ℕ) (order : List ℕ) (located : List (ℕ × (Fin D → ℝ))) : List (ProbeMeta D) :=
  located.map fun p => ⟨Probes.probeNo toNo order p.1, p.2⟩

/-- The numbers after the time in a row of the table of a probe, src/io/BoundaryProbeWriter.cpp
lines 95-104, src/io/ProbeWriter.cpp lines 94-103. -/
def probeRow (functions : List (FEF D)) (p : ProbeMeta D) : List ℝ :=
  functions.flatMap fun f => (List.range f.numQuantities).map fun q =>
    map f p.no (evaluationMatrix f [p.chi]) 0 q

/-- The buffer of `HDF5ProbeWriter::write`, src/io/HDF5ProbeWriter.cpp lines 203-214. -/
def hdf5Values (functions : List (FEF D)) (probes : List (ProbeMeta D)) : List ℝ :=
  functions.flatMap fun f => probes.flatMap fun p => (List.range f.numQuantities).map fun q =>
    map f p.no (evaluationMatrix f [p.chi]) 0 q

/-- The block of a rank that `writeToDataset` takes from the buffer, src/io/HDF5ProbeWriter.cpp lines
168-169 and 215-216: `numProbes * numQuantities` values with the number of quantities of the first
function. -/
def hdf5Written (functions : List (FEF D)) (probes : List (ProbeMeta D)) : List ℝ :=
  (hdf5Values functions probes).take (probes.length * (functions.head?.elim 0 (·.numQuantities)))

end
end Tandem.FaultOutput
