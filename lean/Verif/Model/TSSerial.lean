/-
Model of the content of a time-stepper checkpoint: app/common/ts_util.c (`_TSView`, `_TSLoad`, `_TSImplView_RK`,
`_TSImplLoad_RK`, `_TSAdaptMembersView`, `_TSAdaptMembersLoad`, the three files of `ts_checkpoint_write` and
`ts_checkpoint_load`, `ts_checkpoint_restart`) and app/common/vecnest_util.c.

A binary file is a list of tagged values. PETSc writes untagged bytes; reading a value of another kind than the one
written is an error here (in PETSc garbage, or an error if the value read is a class id). What PETSc itself
contributes is modelled as follows: `TSAdaptView`/`TSAdaptLoad` write and read the type name, `DMView`/`DMLoad` and
`DMTSView`/`DMTSLoad` write and read one opaque value each, `VecView`/`VecLoad` of a plain vector write and read its
entries and `VecLoad` insists on the size. `R` is the type of the floating point numbers.
-/
namespace Tandem.TSSerial

/-- One value in a binary file. `PetscViewerBinaryWrite` with `PETSC_INT`, `PETSC_DOUBLE`, `PETSC_BOOL` and 256
times `PETSC_CHAR`, `VecView` of a plain vector, `DMView`, `DMTSView`; app/common/ts_util.c lines 214-325. -/
inductive Tok (R : Type) where
  | int (n : Int)
  | real (x : R)
  | bool (b : Bool)
  | str (s : String)
  | vec (xs : List R)
  | dm
  | dmts
deriving DecidableEq, Repr

/-- Reading from a file: the rest of the file is the state, an error is `none` (`CHKERRQ`, app/common/ts_util.c
lines 486-652). -/
abbrev Rd (R : Type) (α : Type) := List (Tok R) → Option (α × List (Tok R))

variable {R : Type}

/-- `PetscViewerBinaryRead(..., PETSC_INT)`, app/common/ts_util.c line 531. -/
def rdInt : Rd R Int
  | .int n :: r => some (n, r)
  | _ => none

/-- `PetscViewerBinaryRead(..., PETSC_DOUBLE)`, app/common/ts_util.c line 542. -/
def rdReal : Rd R R
  | .real x :: r => some (x, r)
  | _ => none

/-- `PetscViewerBinaryRead(..., PETSC_BOOL)`, app/common/ts_util.c line 486. -/
def rdBool : Rd R Bool
  | .bool b :: r => some (b, r)
  | _ => none

/-- `PetscViewerBinaryRead(..., 256, PETSC_CHAR)`, app/common/ts_util.c line 535. -/
def rdStr : Rd R String
  | .str s :: r => some (s, r)
  | _ => none

/-- `DMLoad`, app/common/ts_util.c line 584. -/
def rdDM : Rd R Unit
  | .dm :: r => some ((), r)
  | _ => none

/-- `DMTSLoad`, app/common/ts_util.c line 596. -/
def rdDMTS : Rd R Unit
  | .dmts :: r => some ((), r)
  | _ => none

/-- A PETSc vector: plain, or nested with a flag telling whether `VecNestUpgradeOperations` was applied;
app/common/vecnest_util.c lines 93-102. -/
inductive PVec (R : Type) where
  | plain (xs : List R)
  | nest (upgraded : Bool) (subs : List (List R))
deriving DecidableEq, Repr

/-- `VecNestUpgradeOperations`, app/common/vecnest_util.c lines 93-102. -/
def PVec.upgrade : PVec R → PVec R
  | .plain xs => .plain xs
  | .nest _ subs => .nest true subs

/-- `VecView` into a binary file: `_VecView_Nest`, app/common/vecnest_util.c lines 62-68, for upgraded nested
vectors; the original operation of PETSc writes nothing into binary files. -/
def vecView : PVec R → List (Tok R)
  | .plain xs => [.vec xs]
  | .nest true subs => subs.map .vec
  | .nest false _ => []

/-- `VecLoad` of a plain vector with the given entries: the size must be the same (PETSc); called in
app/common/vecnest_util.c line 87. -/
def plainLoad (old : List R) : Rd R (List R)
  | .vec xs :: r => if xs.length = old.length then some (xs, r) else none
  | _ => none

/-- The loop of `_VecLoad_Nest`, app/common/vecnest_util.c lines 86-89. -/
def subsLoad : List (List R) → Rd R (List (List R))
  | [], f => some ([], f)
  | o :: os, f =>
    match plainLoad o f with
    | none => none
    | some (x, f') =>
      match subsLoad os f' with
      | none => none
      | some (xs, f'') => some (x :: xs, f'')

/-- `VecLoad`: `_VecLoad_Nest`, app/common/vecnest_util.c lines 72-91, for upgraded nested vectors; the original
nested vector cannot be loaded. -/
def vecLoad : PVec R → Rd R (PVec R)
  | .plain xs, f =>
    match plainLoad xs f with
    | none => none
    | some (ys, f') => some (.plain ys, f')
  | .nest true subs, f =>
    match subsLoad subs f with
    | none => none
    | some (ys, f') => some (.nest true ys, f')
  | .nest false _, _ => none

/-- `TSAdapt`: its type and the members stored by `_TSAdaptMembersView`, app/common/ts_util.c lines 214-237. -/
structure Adapt (R : Type) where
  type : String
  alwaysAccept : Bool
  safety : R
  rejectSafety : R
  clip0 : R
  clip1 : R
  dtMin : R
  dtMax : R
  ignoreMax : R
  gleeUseLocal : Bool
  scaleSolveFailed : R
  matchFac0 : R
  matchFac1 : R
  delay : Int
  justDecreased : Int
deriving DecidableEq

/-- `_TSAdaptMembersView`, app/common/ts_util.c lines 195-240. -/
def membersView (a : Adapt R) : List (Tok R) :=
  [.bool a.alwaysAccept, .real a.safety, .real a.rejectSafety, .real a.clip0, .real a.clip1, .real a.dtMin,
    .real a.dtMax, .real a.ignoreMax, .bool a.gleeUseLocal, .real a.scaleSolveFailed, .real a.matchFac0,
    .real a.matchFac1, .int a.delay, .int a.justDecreased]

/-- `_TSAdaptMembersLoad`, app/common/ts_util.c lines 471-512; the type is not touched. -/
def membersLoad (a : Adapt R) : Rd R (Adapt R) := fun f => do
  let (alwaysAccept, f) ← rdBool f
  let (safety, f) ← rdReal f
  let (rejectSafety, f) ← rdReal f
  let (clip0, f) ← rdReal f
  let (clip1, f) ← rdReal f
  let (dtMin, f) ← rdReal f
  let (dtMax, f) ← rdReal f
  let (ignoreMax, f) ← rdReal f
  let (gleeUseLocal, f) ← rdBool f
  let (scaleSolveFailed, f) ← rdReal f
  let (matchFac0, f) ← rdReal f
  let (matchFac1, f) ← rdReal f
  let (delay, f) ← rdInt f
  let (justDecreased, f) ← rdInt f
  some (⟨a.type, alwaysAccept, safety, rejectSafety, clip0, clip1, dtMin, dtMax, ignoreMax, gleeUseLocal,
    scaleSolveFailed, matchFac0, matchFac1, delay, justDecreased⟩, f)

/-- The time stepper: the members that `_TSView` and `_TSImplView_RK` store (app/common/ts_util.c lines 279-299,
316-322, 462), what `SNESView` writes if the scheme uses a nonlinear solver (line 336), and everything else
(callbacks, final time, tableau, options) as `cfg`. `stages` are the vectors `YdotRHS` of a Runge-Kutta scheme, which
exist after `TSSetUp`. -/
structure TS (R γ : Type) where
  typeName : String
  steps : Int
  ptime : R
  timeStep : R
  ptimePrev : R
  ptimePrevRollback : R
  solvetime : R
  adapt : Option (Adapt R)
  sol : PVec R
  stages : Option (List (PVec R))
  snes : List (Tok R)
  cfg : γ

/-- What PETSc brings along: the adaptivity object `TSAdaptCreate` makes (app/common/ts_util.c lines 310 and 571),
which schemes have a function `ops->load`, which then loads the adaptivity object (line 557, `TSLoad_RK`), and
`TSSetFromOptions` (line 995). -/
structure Env (R γ : Type) where
  newAdapt : Adapt R
  implLoads : String → Bool
  fromOptions : TS R γ → TS R γ

variable {γ : Type}

/-- `TS_FILE_CLASSID` of PETSc, app/common/ts_util.c lines 279 and 533. -/
def tsClassId : Int := 1211225

/-- The adaptivity object at the end of `_TSView`: it is created if it does not exist,
app/common/ts_util.c lines 309-317. -/
def adaptOf (e : Env R γ) (ts : TS R γ) : Adapt R := ts.adapt.getD { e.newAdapt with type := "none" }

/-- `_TSView`, app/common/ts_util.c lines 242-345: the content of `ts.bin`. -/
def tsView (e : Env R γ) (ts : TS R γ) : List (Tok R) :=
  [.int tsClassId, .str ts.typeName, .int ts.steps, .real ts.ptime, .real ts.timeStep, .real ts.ptimePrev,
    .real ts.ptimePrevRollback, .real ts.solvetime, .str (adaptOf e ts).type, .dm] ++
    vecView ts.sol ++ [.dmts] ++ membersView (adaptOf e ts) ++ ts.snes

/-- `TSSetType`: nothing if the type is the same, otherwise the data of the old scheme are destroyed (PETSc);
app/common/ts_util.c line 554. -/
def setType (t : String) (ts : TS R γ) : TS R γ :=
  if ts.typeName = t then ts else { ts with typeName := t, stages := none }

/-- `TSAdaptLoad` into an existing or a new object; app/common/ts_util.c lines 571-577. -/
def adaptLoad (e : Env R γ) (a : Option (Adapt R)) : Rd R (Adapt R) := fun f => do
  let (t, f) ← rdStr f
  some ({ (a.getD e.newAdapt) with type := t }, f)

/-- Load the adaptivity object under a condition, app/common/ts_util.c lines 556-579. -/
def adaptLoadIf (c : Bool) (e : Env R γ) (a : Option (Adapt R)) : Rd R (Option (Adapt R)) := fun f =>
  if c then (adaptLoad e a f).map (fun p => (some p.1, p.2)) else some (a, f)

/-- The three conditional loads of the adaptivity object: `ops->load`, then a new object if there is none, then
again if there is no `ops->load`; app/common/ts_util.c lines 556-579. -/
def adaptLoads (e : Env R γ) (t : String) (a : Option (Adapt R)) : Rd R (Option (Adapt R)) := fun f =>
  (adaptLoadIf (e.implLoads t) e a f).bind fun p =>
    (adaptLoadIf p.1.isNone e p.1 p.2).bind fun q => adaptLoadIf (!e.implLoads t) e q.1 q.2

/-- `_TSLoad`, app/common/ts_util.c lines 514-603. The solution vector exists (`TSSetSolution`,
app/common/PetscTimeSolver.h line 58). -/
def tsLoad (e : Env R γ) (ts : TS R γ) : Rd R (TS R γ) := fun f => do
  let (classid, f) ← rdInt f
  if classid ≠ tsClassId then none
  let (type, f) ← rdStr f
  let (steps, f) ← rdInt f
  let (ptime, f) ← rdReal f
  let (timeStep, f) ← rdReal f
  let (ptimePrev, f) ← rdReal f
  let (ptimePrevRollback, f) ← rdReal f
  let (solvetime, f) ← rdReal f
  let ts := setType type { ts with
    steps := steps, ptime := ptime, timeStep := timeStep, ptimePrev := ptimePrev,
    ptimePrevRollback := ptimePrevRollback, solvetime := solvetime }
  let (a, f) ← adaptLoads e type ts.adapt f
  let (_, f) ← rdDM f
  let (sol, f) ← vecLoad ts.sol f
  let (_, f) ← rdDMTS f
  let (a, f) ← membersLoad (a.getD e.newAdapt) f
  some ({ ts with adapt := some a, sol := sol }, f)

/-- `_TSImplView_RK`, app/common/ts_util.c lines 394-469: the content of `ts_impl.bin`; the stage vectors are
upgraded first. Without `TSSetUp` there are no stage vectors and the loop follows a null pointer (`none`). -/
def implView (ts : TS R γ) : Option (List (Tok R)) :=
  if ts.typeName = "rk" then
    match ts.stages with
    | none => none
    | some vs => some ([.int tsClassId, .str ts.typeName] ++ vs.flatMap (fun v => vecView v.upgrade))
  else some [.int tsClassId, .str ts.typeName]

/-- The loop over the stages in `_TSImplLoad_RK`, app/common/ts_util.c lines 637-648. -/
def stagesLoad : List (PVec R) → Rd R (List (PVec R))
  | [], f => some ([], f)
  | v :: vs, f =>
    match vecLoad v.upgrade f with
    | none => none
    | some (x, f') =>
      match stagesLoad vs f' with
      | none => none
      | some (xs, f'') => some (x :: xs, f'')

/-- `_TSImplLoad_RK`, app/common/ts_util.c lines 605-652. The type name is read but not compared. -/
def implLoad (ts : TS R γ) : Rd R (TS R γ) := fun f => do
  let (classid, f) ← rdInt f
  if classid ≠ tsClassId then none
  let (_, f) ← rdStr f
  if ts.typeName = "rk" then
    let vs ← ts.stages
    let (xs, f) ← stagesLoad vs f
    some ({ ts with stages := some xs }, f)
  else some (ts, f)

/-- The three binary files of one checkpoint, app/common/ts_util.c lines 771-796. -/
structure Files (R : Type) where
  ts : List (Tok R)
  impl : List (Tok R)
  vec : List (Tok R)

/-- `ts_checkpoint_write`, app/common/ts_util.c lines 771-796. -/
def write (e : Env R γ) (ts : TS R γ) : Option (Files R) := do
  let impl ← implView ts
  some ⟨tsView e ts, impl, vecView ts.sol⟩

/-- `ts_checkpoint_load`, app/common/ts_util.c lines 851-888. Whatever follows in a file is ignored. -/
def load (e : Env R γ) (ts : TS R γ) (fs : Files R) : Option (TS R γ) := do
  let (ts, _) ← tsLoad e ts fs.ts
  let (ts, _) ← implLoad ts fs.impl
  let (v, _) ← vecLoad ts.sol fs.vec
  some { ts with sol := v }

/-- `ts_checkpoint_restart`, app/common/ts_util.c lines 985-998: load, then apply the command line options
again. -/
def restart (e : Env R γ) (ts : TS R γ) (fs : Files R) : Option (TS R γ) := do
  let ts ← load e ts fs
  some (e.fromOptions ts)

end Tandem.TSSerial
