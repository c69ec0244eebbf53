/-
Model of app/common/PetscTimeSolver.h and app/common/PetscTimeSolver.cpp: how the operator, its state vectors and
PETSc's time integrator are wired together.

Vectors live in a store addressed by handles (`Vec` is a pointer in PETSc); a nested vector is a list of handles, so
whoever writes through the nested vector writes the state vectors and vice versa. `V` is the type of the content of
one vector, `K` the type of times. Error codes of PETSc (`CHKERRTHROW`) are not modelled.
-/
namespace Tandem.TimeSolver

/-- The content of all vectors by handle; `state_` and the work vectors of the integrator,
app/common/PetscTimeSolver.h lines 48-51 and 120-124. -/
abbrev Store (V : Type) := Nat → V

/-- Assign a vector, `PetscVectorView::end_access` etc. on the views of app/common/PetscTimeSolver.h lines
125-131. -/
def Store.set {V : Type} (σ : Store V) (h : Nat) (v : V) : Store V := fun k => if k = h then v else σ k

/-- Assign several vectors one after the other, app/common/PetscTimeSolver.h lines 56 and 131. -/
def Store.setAll {V : Type} (σ : Store V) : List Nat → List V → Store V
  | h :: hs, v :: vs => (σ.set h v).setAll hs vs
  | _, _ => σ

/-- An operator with `N` state vectors: the initial condition (from whatever the vectors contain) and the right-hand
side, which fills the result vectors; `timeop.initial_condition((*x)...)` and `self->rhs(t, xv...)`,
app/common/PetscTimeSolver.h lines 56 and 131. -/
structure TimeOp (K V : Type) where
  initial : List V → List V
  rhs : K → List V → List V

variable {K V : Type}

/-- The loop that fills `x[n]` and `x[NumStateVecs + n]`, app/common/PetscTimeSolver.h lines 120-124, as a list of
assignments to the array; `none` is an entry not yet assigned. -/
def fillArgs (N : Nat) (u F : List Nat) : Nat → (Nat → Option Nat)
  | 0 => fun _ => none
  | n + 1 => fun k =>
    if k = N + n then F[n]? else if k = n then u[n]? else fillArgs N u F n k

/-- The `2 * NumStateVecs` arguments of `rhs` after the time, app/common/PetscTimeSolver.h lines 120-131. -/
def rhsArgs (N : Nat) (u F : List Nat) : List (Option Nat) := (List.range (2 * N)).map (fillArgs N u F N)

/-- `RHSFunction`, app/common/PetscTimeSolver.h lines 116-133: the first `N` arguments are read, the last `N`
written. -/
def rhsFunction (op : TimeOp K V) (N : Nat) (σ : Store V) (t : K) (u F : List Nat) : Store V :=
  let args := (rhsArgs N u F).filterMap id
  σ.setAll (args.drop N) (op.rhs t ((args.take N).map σ))

/-- `MonitorFunction`: the arguments of `monitor` after the time, app/common/PetscTimeSolver.h lines 135-151. -/
def monitorArgs (N : Nat) (σ : Store V) (u : List Nat) : List V :=
  ((List.range N).filterMap (fun n => u[n]?)).map σ

/-- The constructor, app/common/PetscTimeSolver.h lines 48-59: the nested vector is made of the handles of the state
vectors; then the initial condition fills the state vectors; then the nested vector becomes the solution of the
integrator. Result: the store and the solution vector. -/
def construct (op : TimeOp K V) (N : Nat) (σ : Store V) (state : List Nat) : Store V × List Nat :=
  let nest := (List.range N).filterMap (fun n => state[n]?)
  (σ.setAll state (op.initial (state.map σ)), nest)

/-- Time integrators, as far as they are distinguished: app/common/PetscTimeSolver.cpp lines 23-34. -/
inductive Scheme where
  | rk (tableauFSAL : Bool)
  | other
deriving DecidableEq

/-- `fsal_`, app/common/PetscTimeSolver.cpp lines 22-34. -/
def fsal : Scheme → Bool
  | .rk b => b
  | .other => false

/-- Who is called after a time step: app/common/PetscTimeSolver.cpp lines 39-48 (the log line), PETSc's own monitor
of `-ts_monitor` (`TSSetFromOptions`, line 10), and `set_monitor`, app/common/PetscTimeSolver.h lines 111-113. -/
inductive Mon where
  | petsc
  | log
  | user
deriving DecidableEq

/-- The monitors in the order of registration: `TSSetFromOptions` (app/common/PetscTimeSolver.cpp line 10), then the
log (lines 39-48), then `set_monitor` (app/tandem/SEAS.cpp line 266). -/
def monitors (tsMonitor disableCustom : Bool) : List Mon :=
  (if tsMonitor then [.petsc] else []) ++ (if !disableCustom && !tsMonitor then [.log] else []) ++ [.user]

/-- Step size limits of the controller and the current step size. `set_max_time_step`,
app/common/PetscTimeSolver.cpp lines 81-86. -/
structure Steps (K : Type) where
  dtMin : K
  dtMax : K
  dt : K

/-- `PetscTimeSolverBase::set_max_time_step`, app/common/PetscTimeSolver.cpp lines 81-86; `PETSC_DEFAULT` leaves the
lower limit. -/
def setMaxTimeStep (s : Steps K) (dt : K) : Steps K := { s with dtMax := dt, dt := dt }

/-- `solve_seas_problem`, app/tandem/SEAS.cpp lines 256-259: the limit is the stability limit times `cfl` for the
fully dynamic operator, and none for the others. -/
def limitSteps [Mul K] (s : Steps K) (cflTimeStep : Option K) (cfl : K) : Steps K :=
  match cflTimeStep with
  | some c => setMaxTimeStep s (c * cfl)
  | none => s

/-- What the file system says about a path, app/common/PetscTimeSolver.h lines 72-90: the lines of a regular file (if
it is one and it can be opened), and whether it is a directory. -/
structure Disk where
  regular : String → Bool
  lines : String → Option (List String)
  directory : String → Bool

/-- The exceptions of app/common/PetscTimeSolver.h lines 79-89. -/
inductive LoadError where
  | notDirectory | emptyFile | cannotOpen
deriving DecidableEq, Repr

/-- Rank 0: the directory to load, app/common/PetscTimeSolver.h lines 70-91. -/
def rootDirectory (d : Disk) (path : String) : Except LoadError String :=
  if d.regular path then
    match d.lines path with
    | none => .error .cannotOpen
    | some [] => .error .emptyFile
    | some (l :: _) => if d.directory l then .ok l else .error .notDirectory
  else .ok path

/-- Collective operations in the load branch of `solve`, app/common/PetscTimeSolver.h lines 92-96. -/
inductive Call where
  | bcast (bytes : Nat)
  | restart (dir : String)
deriving DecidableEq, Repr

/-- The load branch of `solve` on one rank, app/common/PetscTimeSolver.h lines 66-97: rank 0 does not take part in the
broadcast; the others broadcast into an empty string, whose size is zero, and keep it. -/
def loadCalls (d : Disk) (loadDirectory : Option String) (rank : Nat) : Except LoadError (List Call) :=
  match loadDirectory with
  | none => .ok []
  | some path =>
    if rank = 0 then (rootDirectory d path).map (fun dir => [.restart dir])
    else .ok [.bcast 0, .restart ""]

end Tandem.TimeSolver
