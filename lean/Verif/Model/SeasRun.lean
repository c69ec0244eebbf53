import Verif.Model.Monitor
import Verif.Model.DGTopo
import Verif.Model.Main
/-!
# Model of the run of the program tandem

`app/tandem/SEAS.cpp` (`operator_specifics`, `solve_seas_problem`, `solveSEASProblem`), the fully dynamic
monitor and the static output (`app/tandem/Monitor.{h,cpp}`), `DGOperator::solution` and `params`
(`src/form/DGOperator.h`), the number of unknowns and the mesh size.
-/
namespace Tandem.SeasRun
open Tandem.Monitor (Level Writer OpKind)
open Tandem.DGTopo (View BMap)
open Tandem.Main (WriterKind TableType)

variable {K : Type} [Field K] [LinearOrder K] {U S R M B : Type}

/-! ## The fully dynamic monitor -/

/-- What the fully dynamic operator computes: `trac` is `update_traction`, app/form/SeasFDOperator.cpp
lines 89-95; `vmax`, `moment` what `FrictionOperator::rhs` stores (app/form/FrictionOperator.h lines 89-127);
`fault` is `FrictionOperator::state` (lines 158-181). Ghost exchange is the identity here (C18, C90). -/
structure Physics (K U S R M B : Type) where
  trac : U → S → R
  vmax : K → R → S → K
  moment : K → R → S → M
  fault : K → R → S → B

/-- Fields kept between calls: `traction_` (app/form/SeasFDOperator.h line 101), `VMax_` and
`moment_rate_` (app/form/FrictionOperator.h lines 234-235). -/
structure Cache (K R M : Type) where
  traction : R
  vmax : K
  moment : M

/-- The effect of `SeasFDOperator::rhs` on the members, app/form/SeasFDOperator.cpp lines 54-87. -/
def rhs (P : Physics K U S R M B) (t : K) (u : U) (s : S) : Cache K R M :=
  ⟨P.trac u s, P.vmax t (P.trac u s) s, P.moment t (P.trac u s) s⟩

/-- The two local operators, app/tandem/SEAS.cpp lines 354-363. -/
inductive Problem where
  | poisson | elasticity
deriving DecidableEq

/-- `NumQuantities`: 1 for Poisson, the dimension for Elasticity; app/localoperator/Poisson.h line 37,
app/localoperator/Elasticity.h line 38. -/
def numQuantities (D : Nat) : Problem → Nat
  | .poisson => 1
  | .elasticity => D

/-- Names of the quantities of `solution_prototype`, app/localoperator/Poisson.h lines 82-84,
app/localoperator/Elasticity.h lines 91-99. The buffer of 100 characters always suffices. -/
def solutionNames (D : Nat) : Problem → List String
  | .poisson => ["u"]
  | .elasticity => (List.range D).map (fun q => "u" ++ toString q)

/-- `MonitorFD::velocity_names`, app/tandem/Monitor.cpp lines 150-158. -/
def velocityNames (n : Nat) : List String := (List.range n).map (fun q => "v" ++ toString q)

/-- The data handed to `Writer::write` by `MonitorFD::monitor`, app/tandem/Monitor.cpp lines 94-118; volume
data are functions with the names of their quantities. -/
inductive Payload (K U B M : Type) where
  | scalar (v : K)
  | fault (b : B)
  | volume (fs : List (List String × U))
  | moment (m : M)

/-- The switch over `DataLevel`, app/tandem/Monitor.cpp lines 94-118, with `boundary_data` and
`volume_data`, app/tandem/Monitor.h lines 139-167: velocity first, with its own names. -/
def payload (P : Physics K U S R M B) (D : Nat) (p : Problem) (c : Cache K R M) (t : K) (v u : U) (s : S)
    (V : K) : Level → Payload K U B M
  | .scalar => .scalar V
  | .boundary => .fault (P.fault t c.traction s)
  | .volume => .volume [(velocityNames (numQuantities D p), v), (solutionNames D p, u)]
  | .momentRate => .moment c.moment

/-- One call of `write`, app/tandem/Monitor.cpp lines 94-118: which writer, which step number, which time
and what data. -/
structure Record (K U B M : Type) where
  writer : Nat
  step : Nat
  time : K
  data : Payload K U B M

/-- The loop over the writers, app/tandem/Monitor.cpp lines 92-121. -/
def writeAll (P : Physics K U S R M B) (D : Nat) (p : Problem) (c : Cache K R M) (t : K) (v u : U) (s : S)
    (V : K) : Nat → List (Writer K) → List (Record K U B M) × List (Writer K)
  | _, [] => ([], [])
  | i, w :: ws =>
    let (o, ws') := writeAll P D p c t v u s V (i + 1) ws
    match w.visit t V with
    | (some k, w') => (⟨i, k, t, payload P D p c t v u s V w.level⟩ :: o, w' :: ws')
    | (none, w') => (o, w' :: ws')

/-- `MonitorFD::monitor` without `update_dt_limits`, app/tandem/Monitor.cpp lines 87-122. `fsal_` is not
used. -/
def monitor (P : Physics K U S R M B) (D : Nat) (p : Problem) (c : Cache K R M) (ws : List (Writer K))
    (t : K) (v u : U) (s : S) : List (Record K U B M) × List (Writer K) :=
  if ws.isEmpty then ([], ws) else writeAll P D p c t v u s c.vmax 0 ws

/-- What the time integrator does with the operator, app/common/PetscTimeSolver.h lines 116-151: evaluations
of the right-hand side and monitor calls, both with time, velocity, displacement and fault state. -/
inductive Event (K U S : Type) where
  | rhs (t : K) (v u : U) (s : S)
  | monitor (t : K) (v u : U) (s : S)

/-- A run of the integrator (app/common/PetscTimeSolver.h lines 116-151): the records written. -/
def run (P : Physics K U S R M B) (D : Nat) (p : Problem) :
    Cache K R M → List (Writer K) → List (Event K U S) → List (Record K U B M)
  | _, _, [] => []
  | _, ws, .rhs t _ u s :: es => run P D p (rhs P t u s) ws es
  | c, ws, .monitor t v u s :: es =>
    (monitor P D p c ws t v u s).1 ++ run P D p c (monitor P D p c ws t v u s).2 es

/-! ## Static output -/

/-- The two monitors, app/tandem/SEAS.cpp lines 164 and 221. -/
inductive Mon where
  | qd | fd
deriving DecidableEq

/-- `level()` of a writer, app/tandem/Writer.h lines 96, 120, 143, 191, 213, 281 and 364-370. -/
def levelOf : WriterKind → Level
  | .faultProbe => .boundary
  | .domainProbe => .volume
  | .fault => .boundary
  | .faultScalar => .scalar
  | .domain => .volume
  | .momentRate => .momentRate

/-- `subset()`: probe writers ask for the faces or elements with probes, the others for everything;
app/tandem/Writer.h lines 46, 97, 121, 374. -/
def subsetOf (probes : List Nat) : WriterKind → Option (List Nat)
  | .faultProbe => some probes
  | .domainProbe => some probes
  | _ => none

/-- Data of `write_static`, app/tandem/Monitor.h lines 84-107 and 147-175: parameters of the fault or of the
domain for a subset (`none`: everything), or nothing. -/
inductive StaticData where
  | fault (subset : Option (List Nat))
  | domain (subset : Option (List Nat))
  | nothing
deriving DecidableEq

/-- `MonitorQD::write_static` and `MonitorFD::write_static` for one writer, app/tandem/Monitor.cpp lines 65-85
and 127-148, with `static_boundary_data` and `static_volume_data`, app/tandem/Monitor.h lines 84-91, 100-107,
147-154, 168-175; `none`: no call of `write_static`. -/
def writeStatic (m : Mon) (hdf5 : Bool) (l : Level) (subset : Option (List Nat)) : Option StaticData :=
  match l with
  | .scalar => none
  | .boundary => some (.fault subset)
  | .volume => some (.domain subset)
  | .momentRate =>
    match m with
    | .qd => if hdf5 then some .nothing else none
    | .fd => none

/-- What appears on disk, app/tandem/Writer.h lines 166-173, 224-231, 319-344, 371-373. -/
inductive StaticFile where
  /-- `<prefix>-static`: parameters on all faces or elements of the rank -/
  | vtu (name : List Char) (what : StaticData)
  /-- positions and names of the probes in `<prefix>.h5` -/
  | probes (pre : List Char)
  /-- vertices and numbers of the fault facets in `<prefix>.h5` -/
  | facets (pre : List Char)
deriving DecidableEq

/-- `write_static` of the writers: app/tandem/Writer.h lines 166-173 (`FaultWriter`), 224-231
(`DomainWriter`), 319-344 (`MomentRateWriter`), 371-373 (`HDF5CommonProbeWriter`); the other classes inherit
the empty functions of lines 66-70. -/
def onStatic (w : Main.Writer) (d : StaticData) : List StaticFile :=
  match w.kind with
  | .fault => [.vtu (w.pre ++ "-static".toList) d]
  | .domain => [.vtu (w.pre ++ "-static".toList) d]
  | .momentRate => [.facets w.pre]
  | .faultProbe => if w.format = some .hdf5 then [.probes w.pre] else []
  | .domainProbe => if w.format = some .hdf5 then [.probes w.pre] else []
  | .faultScalar => []

/-- `monitor->write_static()`, app/tandem/SEAS.cpp line 264; `probes` gives the subset of a probe writer. -/
def staticOutput (m : Mon) (hdf5 : Bool) (probes : Main.Writer → List Nat) (ws : List Main.Writer) :
    List StaticFile :=
  ws.flatMap (fun w =>
    match writeStatic m hdf5 (levelOf w.kind) (subsetOf (probes w) w.kind) with
    | none => []
    | some d => onStatic w d)

/-! ## `DGOperator::solution` and `params` -/

/-- `DGOperator::solution` with iterators, src/form/DGOperator.h lines 281-302: the `i`-th element of the
function gets the block of the element `first[i]`; an element that is not local would violate the assertion of
line 292. The function with `n` nodes and `q` quantities per element keeps the order of the block. -/
def solution {α : Type} (bs : Nat) (x : List α) (nLocal : Nat) (subset : List Nat) : Option (List (List α)) :=
  subset.mapM (fun e => if e < nLocal then some ((x.drop (e * bs)).take bs) else none)

/-- `DGOperator::solution` for a subset or for all local elements, src/form/DGOperator.h lines 304-315 (the
assignment to the empty `optional` is taken as giving it the value). -/
def solutionOf {α : Type} (bs : Nat) (x : List α) (nLocal : Nat) : Option (List Nat) → Option (List (List α))
  | some l => solution bs x nLocal l
  | none => solution bs x nLocal (List.range nLocal)

/-- `DGOperator::params`, src/form/DGOperator.h lines 317-347; `coeff` is `coefficients_volume`. -/
def params {α : Type} (coeff : Nat → List α) (nLocal : Nat) (subset : Option (List Nat)) :
    Option (List (List α)) :=
  (subset.getD (List.range nLocal)).mapM (fun e => if e < nLocal then some (coeff e) else none)

/-! ## Numbers in the report -/

/-- `AbstractDGOperator::number_of_local_dofs`, src/form/AbstractDGOperator.h line 28. -/
def dofsDomain (bs : Nat) (v : View) : Nat := bs * v.numLocal

/-- `AbstractFrictionOperator::number_of_local_dofs`, app/form/AbstractFrictionOperator.h line 23, with
`num_local_elements` the number of local fault facets. -/
def dofsFault (bs : Nat) (m : BMap) : Nat := m.localSize * bs

/-- `MPI_Reduce` with `MPI_SUM` (`reduce_number`), app/tandem/SEAS.cpp lines 273-279; overflow of 64 bits is
left out. -/
def reduceSum (l : List Nat) : Nat := l.foldl (· + ·) 0

/-- `local_mesh_size_`, src/geometry/Curvilinear.cpp lines 78 and 113-124: over all elements the rank holds,
`pos` gives the transformed position of a vertex and `dist` the norm of the difference. -/
def localMeshSize {X : Type} (pos : Nat → X) (dist : X → X → K) (v : View) : K :=
  v.elems.foldl (fun h e =>
    e.foldl (fun h a => e.foldl (fun h b => max h (dist (pos a) (pos b))) h) h) 0

/-- `MPI_Reduce` with `MPI_MAX`, app/tandem/SEAS.cpp lines 281-283; `none` without ranks. -/
def reduceMax : List K → Option K
  | [] => none
  | a :: l => some (l.foldl max a)

/-! ## The run -/

/-- `SeasMode`, app/tandem/SEAS.cpp lines 367-381. -/
inductive Mode where
  | green | qd | fd | unknown
deriving DecidableEq

/-- The part of `Config` that `solve_seas_problem` reads itself, app/tandem/SEAS.cpp lines 166-342. -/
structure Cfg (K : Type) where
  problem : Option Problem
  mode : Mode
  matrixFree : Bool
  coarse : Nat
  strategy : Main.MG
  cfl : K
  finalTime : K
  /-- prefix and minutes of the checkpoint section of the Green's functions -/
  gf : Option (List Char × K)
  out : Main.Outputs

/-- The functions the scenario defines, app/tandem/Context.h lines 98-125. -/
structure Scn where
  boundary : Bool
  iniDisp : Bool
  iniVel : Bool
  domainSol : Bool
  faultSol : Bool

/-- Operations of a run in which all ranks take part, app/tandem/SEAS.cpp lines 248-348. -/
inductive Call (K : Type) where
  /-- `make_context`, app/tandem/SEAS.cpp lines 354-363 -/
  | context (p : Problem)
  /-- construction of the operator, lines 168-170, 208-210, 225-226 -/
  | operatorQD (matrixFree : Bool) (coarse : Nat) (strategy : Main.MG)
  | operatorGreen (gf : Option (List Char)) (minutes : K) (matrixFree : Bool) (coarse : Nat)
      (strategy : Main.MG)
  | operatorFD
  /-- `set_boundary`, `set_initial_displacement`, `set_initial_velocity`, app/tandem/Context.h lines 98-119 -/
  | setBoundary | setInitialDisplacement | setInitialVelocity
  /-- `warmup`, lines 172, 212 -/
  | warmup
  /-- `PetscTimeSolver` with `n` state vectors: `initial_condition` -/
  | timeSolver (n : Nat)
  /-- `cfl_time_step()`, `set_max_time_step`, lines 256-259 -/
  | cflStep | stepLimit (cfl : K)
  /-- the monitor and its writers, lines 261-266 -/
  | monitor (m : Mon) (ws : List Main.Writer)
  | writeStatic | setMonitor
  /-- reductions, lines 278-283 -/
  | reduceDofsDomain | reduceDofsFault | reduceSize
  /-- `ts.solve`, line 297 -/
  | solve (t : K)
  /-- `update_internal_state(t, state, true, false, true)`, line 179 -/
  | updateDisplacement (t : K)
  /-- `Error::L2` of the displacement, of the fault state, lines 305-306 and 312-314; the argument is the time
  of the reference and the index of the state vector -/
  | l2Domain (t : K) (vec : Nat) | l2Fault (t : K) (vec : Nat)
  /-- `print_profile`, line 322 -/
  | profile

/-- Lines of text on the standard output, app/tandem/SEAS.cpp lines 285-347. -/
inductive Line where
  | dofsDomain | dofsFault | meshSize | cflTimeStep
  | summary | dateTime | version | solveTime | timeSteps | rejections | minStep | maxStep
  | sDofsDomain | sDofsFault | sMeshSize | dtCfl | l2Domain | l2Fault | endSummary
deriving DecidableEq

/-- Something a rank does, app/tandem/SEAS.cpp lines 248-348. -/
inductive Ev (K : Type) where
  | call (c : Call K)
  | print (l : Line)

/-- A block `if (rank == 0)`, app/tandem/SEAS.cpp lines 285-292, 317-347; empty lines are left out. -/
def onRoot (rank : Nat) (l : List Line) : List (Ev K) := if rank = 0 then l.map .print else []

/-- `setup_seasop`, app/tandem/Context.h lines 98-119. -/
def setup (sc : Scn) : Mon → List (Call K)
  | .qd => if sc.boundary then [.setBoundary] else []
  | .fd => (if sc.boundary then [.setBoundary] else []) ++
      (if sc.iniDisp then [.setInitialDisplacement] else []) ++
      (if sc.iniVel then [.setInitialVelocity] else [])

/-- `operator_specifics::make`, app/tandem/SEAS.cpp lines 166-175, 194-216, 223-229; `none` is the mode
without a class. Without checkpoint section the Green's functions are saved every `big` (1e10) minutes, that
is never. -/
def make (big : K) (cfg : Cfg K) (sc : Scn) : Mode → List (Call K)
  | .qd => [.operatorQD cfg.matrixFree cfg.coarse cfg.strategy] ++ setup sc .qd ++ [.warmup]
  | .green =>
    match cfg.gf with
    | none => [.operatorGreen none big cfg.matrixFree cfg.coarse cfg.strategy] ++ setup sc .qd ++ [.warmup]
    | some (p, m) =>
      [.operatorGreen (some p) m cfg.matrixFree cfg.coarse cfg.strategy] ++ setup sc .qd ++ [.warmup]
  | .fd => [.operatorFD] ++ setup sc .fd
  | .unknown => []

/-- `monitor_t`, app/tandem/SEAS.cpp lines 164 and 221. -/
def monOf : Mode → Mon
  | .fd => .fd
  | _ => .qd

/-- Number of state vectors, app/form/SeasQDOperator.h lines 53-58, app/form/SeasFDOperator.h lines 52-58. -/
def numStates : Mode → Nat
  | .fd => 3
  | _ => 1

/-- Displacement of the final error, app/tandem/SEAS.cpp lines 178-181 and 235-237: a further solve in
quasi-dynamic modes, the state vector 1 in the fully dynamic mode. -/
def displacement (t : K) : Mode → List (Call K)
  | .fd => [.l2Domain t 1]
  | _ => [.updateDisplacement t, .l2Domain t 0]

/-- State vector with the fault state, app/tandem/SEAS.cpp lines 183-185 and 240-242. -/
def faultVec : Mode → Nat
  | .fd => 2
  | _ => 0

/-- `solve_seas_problem`, app/tandem/SEAS.cpp lines 248-348; `none` is an exception of `add_writers`. -/
def solveSeas (big : K) (hdf5 : Bool) (cfg : Cfg K) (sc : Scn) (rank : Nat) : Option (List (Ev K)) := do
  let ws ← Main.addWriters hdf5 cfg.out
  let fd : Bool := cfg.mode = .fd
  return ((make big cfg sc cfg.mode).map .call) ++
    [.call (.timeSolver (numStates cfg.mode))] ++
    (if fd then [.call .cflStep, .call (.stepLimit cfg.cfl)] else []) ++
    [.call (.monitor (monOf cfg.mode) ws), .call .writeStatic, .call .setMonitor,
      .call .reduceDofsDomain, .call .reduceDofsFault, .call .reduceSize] ++
    onRoot rank ([.dofsDomain, .dofsFault, .meshSize] ++ (if fd then [.cflTimeStep] else [])) ++
    [.call (.solve cfg.finalTime)] ++
    (if sc.domainSol then (displacement cfg.finalTime cfg.mode).map .call else []) ++
    (if sc.faultSol then [.call (.l2Fault cfg.finalTime (faultVec cfg.mode))] else []) ++
    (if fd then [.call .profile] else []) ++
    onRoot rank ([.summary, .dateTime, .version, .solveTime, .timeSteps, .rejections, .minStep, .maxStep,
      .sDofsDomain, .sDofsFault, .sMeshSize] ++ (if fd then [.dtCfl] else []) ++
      (if sc.domainSol then [.l2Domain] else []) ++ (if sc.faultSol then [.l2Fault] else []) ++ [.endSummary])

/-- `solveSEASProblem`, app/tandem/SEAS.cpp lines 352-382: `none` is an exception ("Unknown seas type", or of
`add_writers`); an unknown mode does nothing. -/
def solveSEASProblem (big : K) (hdf5 : Bool) (cfg : Cfg K) (sc : Scn) (rank : Nat) : Option (List (Ev K)) :=
  match cfg.problem with
  | none => none
  | some p =>
    match cfg.mode with
    | .unknown => some [.call (.context p)]
    | _ => (solveSeas big hdf5 cfg sc rank).map (.call (.context p) :: ·)

end Tandem.SeasRun
