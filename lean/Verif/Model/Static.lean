import Verif.Model.Main
/-!
# Model of the program `static`

`app/static.cpp`: the schema of the configuration, the decisions in `main` and the sequence of collective
operations and messages of `static_problem`.  Numerical results (times, norms, errors) and failures of
PETSc are left out, except that the times of profile mode are the arguments of `profileStats`.
-/
namespace Tandem.Static
open Tandem.Schema Tandem.Main

variable {α : Type}

/-- Converter of `method`, app/static.cpp lines 251-259. -/
def methodConv (v : List Char) : DG :=
  if ieq v "ip" then .ip else if ieq v "br2" then .br2 else .unknown

/-- The default of `ref_normal`, app/static.cpp lines 278-279. -/
def defaultNormal (D : Nat) : Val Leaf :=
  .arr ((List.range D).map (fun i => .leaf (.real (if i = 0 then 1 else 0))))

/-- The schema, app/static.cpp lines 246-310; `D` is `DomainDimension`. -/
def staticFields (e : Env α) (D : Nat) : Fields α Leaf :=
  .cons "resolution" .optional (realV e (fun x => decide (0 < x))) <|
  .cons "method" (dflt (.dg .ip)) (enumV e (fun s => some (.dg (methodConv s)))
    (fun l => match l with | .dg m => m != .unknown | _ => false)) <|
  .cons "type" .required (enumV e (fun s => some (.op (opConv s)))
    (fun l => match l with | .op m => m != .unknown | _ => false)) <|
  .cons "lib" .required (strV e (makeRelative e.config) e.exist) <|
  .cons "scenario" .required (strV e id (fun _ => true)) <|
  .cons "ref_normal" (.default (defaultNormal D)) (arrOf (realV e (fun _ => true)) D) <|
  .cons "matrix_free" (dflt (.bool false)) (boolV e) <|
  .cons "test_matrix_free" (dflt (.bool false)) (boolV e) <|
  .cons "mg_coarse_level" (dflt (.int 1)) (intV e (fun _ => true)) <|
  .cons "mg_strategy" (dflt (.mg .twoLevel)) (enumV e (fun s => some (.mg (mgConv s)))
    (fun l => match l with | .mg m => m != .unknown | _ => false)) <|
  .cons "profile" (dflt (.int 0)) (intV e (fun x => decide (0 ≤ x))) <|
  .cons "output" .optional (strV e id (fun _ => true)) <|
  .cons "mesh_file" .optional (strV e (makeRelative e.config) e.exist) <|
  .cons "generate_mesh" .optional (tableOf (genMeshFields e D)) .nil

/-! ## `static_problem` -/

/-- The members of `Config` used by `static_problem` and `main`, app/static.cpp lines 52-67. -/
structure Cfg where
  resolution : Option ℚ
  method : DG
  type : OpType
  matrixFree : Bool
  testMatrixFree : Bool
  mgStrategy : MG
  mgCoarseLevel : Nat
  profile : Nat
  output : Option (List Char)
  meshFile : Option (List Char)
  generateMesh : Bool

/-- Operations in which all ranks take part, app/static.cpp lines 81-222. -/
inductive Call where
  /-- construction of the operator, lines 84-86 -/
  | operator (type : OpType) (method : DG)
  /-- `MatMult` with the matrix-free operator, line 110 -/
  | matMult
  /-- `MPI_Reduce` of the number of operations (line 104), of the number of unknowns (line 123) and of
  the mesh size (line 127) to rank 0 -/
  | reduceFlops | reduceDofs | reduceSize
  /-- construction of the linear solver, lines 135-136 -/
  | assemble (matrixFree : Bool) (coarse : Nat) (strategy : MG)
  /-- `solver.warmup()`, line 146 -/
  | warmup
  /-- `solver.solve()`, lines 144, 160, 174 -/
  | solve
  /-- `Error::L2` (line 199) and `Error::H1_semi` (line 206) with their reductions -/
  | l2 | h1
  /-- writing the VTU file, lines 213-222 -/
  | write (file : List Char)
deriving DecidableEq

/-- Lines of text on the standard output, app/static.cpp lines 115-209. -/
inductive Line where
  | shellTime | shellFlops | shellGflops | dofs | meshSize | assembly | solverWarmup
  | solveMin | solveAvg | solveMax | solve | notConverged | residual | iterations | l2 | h1
deriving DecidableEq, Repr

/-- Something a rank does, app/static.cpp lines 69-223. -/
inductive Ev where
  | call (c : Call)
  | print (l : Line)
deriving DecidableEq

/-- A block `if (rank == 0)` that prints, app/static.cpp lines 113-118, 129-132, 138-140, 149-151,
167-171, 176-178, 190-193, 200-202, 208-210. -/
def onRoot (rank : Nat) (l : List Line) : List Ev := if rank = 0 then l.map .print else []

/-- The test of the matrix-free operator, app/static.cpp lines 94-121. -/
def testShell (cfg : Cfg) (rank : Nat) : List Ev :=
  if cfg.testMatrixFree then
    .call .reduceFlops :: List.replicate 100 (.call .matMult) ++
      onRoot rank [.shellTime, .shellFlops, .shellGflops]
  else []

/-- The first, untimed solution or warm-up, app/static.cpp lines 142-151. -/
def warm (cfg : Cfg) (rank : Nat) : List Ev :=
  (if 0 < cfg.profile then [.call .solve] else [.call .warmup]) ++ onRoot rank [.solverWarmup]

/-- The timed solutions, app/static.cpp lines 153-179. -/
def timed (cfg : Cfg) (rank : Nat) : List Ev :=
  if 0 < cfg.profile then
    List.replicate cfg.profile (.call .solve) ++ onRoot rank [.solveMin, .solveAvg, .solveMax]
  else .call .solve :: onRoot rank [.solve]

/-- The reported errors, app/static.cpp lines 195-211; `sol` and `jac` tell whether the scenario has a
solution and its derivative. -/
def errors (sol jac : Bool) (rank : Nat) : List Ev :=
  (if sol then .call .l2 :: onRoot rank [.l2] else []) ++
  (if jac then .call .h1 :: onRoot rank [.h1] else [])

/-- The output, app/static.cpp lines 213-222. -/
def output (cfg : Cfg) : List Ev :=
  match cfg.output with
  | none => []
  | some f => [.call (.write f)]

/-- What follows the solution, app/static.cpp lines 181-222; `conv` is `solver.is_converged()`, which is
tested without regard to the rank. -/
def finish (cfg : Cfg) (sol jac conv : Bool) (rank : Nat) : List Ev :=
  if conv = false then [.print .notConverged]
  else onRoot rank [.residual, .iterations] ++ errors sol jac rank ++ output cfg

/-- `static_problem`, app/static.cpp lines 69-223. -/
def staticProblem (cfg : Cfg) (sol jac conv : Bool) (rank : Nat) : List Ev :=
  .call (.operator cfg.type cfg.method) :: testShell cfg rank ++
    [.call .reduceDofs, .call .reduceSize] ++ onRoot rank [.dofs, .meshSize] ++
    [.call (.assemble cfg.matrixFree cfg.mgCoarseLevel cfg.mgStrategy)] ++
    onRoot rank [.assembly] ++ warm cfg rank ++ timed cfg rank ++ finish cfg sol jac conv rank

/-- The loop over the repetitions, app/static.cpp lines 158-165: `(avg, max, min)`. -/
def profileLoop : List ℚ → ℚ × ℚ × ℚ → ℚ × ℚ × ℚ
  | [], r => r
  | t :: ts, (avg, mx, mn) => profileLoop ts (avg + t, max mx t, min mn t)

/-- Average, maximum and minimum in profile mode, app/static.cpp lines 155-166; `big` is
`std::numeric_limits<double>::max()`, `ts` the times of the `cfg.profile` repetitions.  Rounding is left
out. -/
def profileStats (big : ℚ) (ts : List ℚ) : ℚ × ℚ × ℚ :=
  let r := profileLoop ts (0, 0, big)
  (r.1 / ts.length, r.2.1, r.2.2)

/-! ## `main` -/

/-- Lines on the standard error output of `main`, app/static.cpp lines 350, 367-370, 389. -/
inductive ErrLine where
  | meshError | noMesh | unknownType
deriving DecidableEq, Repr

/-- The mesh, app/static.cpp lines 330-365: from the file, after redistribution by `repartitionByHash` if
`hash`, or generated with resolution `h`. -/
inductive Mesh where
  | file (name : List Char) (hash : Bool)
  | generated (h : ℚ)
deriving DecidableEq

/-- The end of `main` on a rank, app/static.cpp lines 312-396: return value, mesh, events and messages. -/
structure Exit where
  code : Int
  mesh : Option Mesh
  events : List Ev
  errors : List ErrLine
deriving DecidableEq

/-- The `switch`, app/static.cpp lines 377-391, and the return value `fin` of `PetscFinalize`, lines
393-395. -/
def solveWith (cfg : Cfg) (m : Mesh) (sol jac conv : Bool) (fin : Int) (rank : Nat) : Exit :=
  match cfg.type with
  | .poisson => ⟨fin, some m, staticProblem cfg sol jac conv rank, []⟩
  | .elasticity => ⟨fin, some m, staticProblem cfg sol jac conv rank, []⟩
  | .unknown => ⟨fin, some m, [], [.unknownType]⟩

/-- `main` on one of `procs` ranks, app/static.cpp lines 312-396; `parse` tells whether rank 0 finds a
parser and parses the file.  Failures of PETSc, `builder.create` and `uniformMesh` and exceptions are
left out. -/
def mainRank (parse : List Char → Bool) (cfg : Option Cfg) (sol jac conv : Bool) (fin : Int)
    (procs rank : Nat) : Exit :=
  match cfg with
  | none => ⟨-1, none, [], []⟩
  | some c =>
    match c.meshFile with
    | some f =>
      if bcast (localOk parse f) rank then
        solveWith c (.file f (decide (1 < procs))) sol jac conv fin rank
      else ⟨-1, none, [], if rank = 0 then [.meshError] else []⟩
    | none =>
      match c.generateMesh, c.resolution with
      | true, some h => solveWith c (.generated h) sol jac conv fin rank
      | _, _ => ⟨-1, none, [], [.noMesh]⟩

end Tandem.Static
