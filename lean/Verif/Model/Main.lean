import Mathlib.Data.Rat.Defs
import Mathlib.Algebra.Order.Ring.Unbundled.Rat
import Verif.Model.Schema
/-!
# Model of the start-up of the tandem program

`app/tandem.cpp`, `app/common/CmdLine.h`, `app/tandem/SeasConfig.cpp`, `app/common/MeshConfig.cpp`,
the path helpers of `src/util/SchemaHelper.h`, `src/io/MeshParser.cpp` and the choice of writers in
`app/tandem/SEAS.cpp`.

The argument parser (argparse), the TOML parser and the conversions of TOML scalars and strings to
numbers are parameters.  Numbers are rational: the TOML values `inf` and `nan` are left out.
-/
namespace Tandem.Main
open Tandem.Schema

/-! ## Command line -/

/-- The loop over `argv`, app/tandem.cpp lines 39-48: the first component is what remains in
`argc, argv` for tandem, the second is `pArgc, pArgv` for PETSc. -/
def splitArgs : List String → List String × List String
  | [] => ([], [])
  | a :: r => if a = "--petsc" then ([], a :: r) else (a :: (splitArgs r).1, (splitArgs r).2)

/-! ## Keywords -/

/-- `iEquals(value, "literal")`, src/util/SchemaHelper.h lines 50-53: the literal is terminated by a
NUL.  Reading behind the NUL, which needs a value that contains a NUL itself, counts as `false`. -/
def ieq (v : List Char) (lit : String) : Bool := iEquals v lit.toList ['\x00'] == some true

/-- `SeasMode`, app/common/Type.h / app/tandem/SeasConfig.cpp lines 199-211. -/
inductive Mode where
  | quasiDynamic | quasiDynamicDiscreteGreen | fullyDynamic | unknown
deriving DecidableEq, Repr

/-- `LocalOpType`, app/common/Type.h / app/tandem/SeasConfig.cpp lines 216-226. -/
inductive OpType where
  | poisson | elasticity | unknown
deriving DecidableEq, Repr

/-- `MGStrategy`, app/common/MGConfig.h / app/tandem/SeasConfig.cpp lines 256-268. -/
inductive MG where
  | twoLevel | logarithmic | full | unknown
deriving DecidableEq, Repr

/-- `TsCheckpointStorageType`, app/tandem/SeasConfig.h line 87. -/
inductive Storage where
  | none | unlimited | limited | unknown
deriving DecidableEq, Repr

/-- `TableWriterType`, app/tandem/SeasConfig.h line 23. -/
inductive TableType where
  | tecplot | csv | hdf5 | unknown
deriving DecidableEq, Repr

/-- `DGMethod`, src/form/DGCurvilinearCommon.h line 25. -/
inductive DG where
  | ip | br2 | unknown
deriving DecidableEq, Repr

/-- `BC`, src/form/BC.h;
src/form/BC.h line 6. -/
inductive BC where
  | none | natural | fault | dirichlet
deriving DecidableEq, Repr

/-- Converter of `mode`, app/tandem/SeasConfig.cpp lines 200-210. -/
def modeConv (v : List Char) : Mode :=
  if ieq v "QuasiDynamic" || ieq v "QD" then .quasiDynamic
  else if ieq v "QuasiDynamicDiscreteGreen" || ieq v "QDGreen" then .quasiDynamicDiscreteGreen
  else if ieq v "FullyDynamic" || ieq v "FD" then .fullyDynamic
  else .unknown

/-- Converter of `type`, app/tandem/SeasConfig.cpp lines 215-223. -/
def opConv (v : List Char) : OpType :=
  if ieq v "poisson" then .poisson
  else if ieq v "elastic" || ieq v "elasticity" then .elasticity
  else .unknown

/-- Converter of `mg_strategy`, app/tandem/SeasConfig.cpp lines 253-263. -/
def mgConv (v : List Char) : MG :=
  if ieq v "TwoLevel" then .twoLevel
  else if ieq v "Logarithmic" then .logarithmic
  else if ieq v "Full" then .full
  else .unknown

/-- Converter of `storage_type`, app/tandem/SeasConfig.cpp lines 79-89. -/
def storageConv (v : List Char) : Storage :=
  if ieq v "none" then .none
  else if ieq v "limited" then .limited
  else if ieq v "unlimited" then .unlimited
  else .unknown

/-- Converter of `type` of `fault_scalar_output`, app/tandem/SeasConfig.cpp lines 117-125. -/
def tableConv (v : List Char) : TableType :=
  if ieq v "Tecplot" then .tecplot
  else if ieq v "CSV" then .csv
  else .unknown

/-- Converter of `type` of the probe outputs, app/tandem/SeasConfig.cpp lines 134-150; `hdf5` is the
build option `ENABLE_HDF5`, `none` an exception. -/
def probeConv (hdf5 : Bool) (v : List Char) : Option TableType :=
  if ieq v "Tecplot" then some .tecplot
  else if ieq v "CSV" then some .csv
  else if ieq v "HDF5" then if hdf5 then some .hdf5 else none
  else some .unknown

/-- Converter of `bc`, app/common/MeshConfig.cpp lines 33-50; `none` is `std::invalid_argument`. -/
def bcConv : List Char → Option BC
  | [] => none
  | c :: _ =>
    if c = 'd' ∨ c = 'D' then some .dirichlet
    else if c = 'n' ∨ c = 'N' then some .natural
    else if c = 'f' ∨ c = 'F' then some .fault
    else none

/-! ## Boundary conditions of generated meshes -/

/-- `BCConfig<D>`, app/common/MeshConfig.h lines 19-23. -/
structure BCEntry where
  bc : BC
  plane : Nat
  region : Option (List Nat)

/-- The function `BCs[d]`, app/common/MeshConfig.cpp lines 18-25. -/
def bcFun : List BCEntry → Nat → List Nat → BC
  | [], _, _ => .none
  | e :: l, plane, region =>
    if e.plane = plane ∧ (e.region = none ∨ e.region = some region) then e.bc
    else bcFun l plane region

/-! ## Paths -/

/-- The part of a path before the last `/`, with the `/`, and the part behind it; used by
`std::filesystem::path::parent_path`, `filename` and `extension` (src/util/SchemaHelper.h lines 26,
39; src/io/MeshParser.cpp lines 12, 16). -/
def splitLast : List Char → List Char × List Char
  | [] => ([], [])
  | c :: r =>
    if c = '/' then (c :: (splitLast r).1, (splitLast r).2)
    else if (splitLast r).1 = [] then ([], c :: (splitLast r).2)
    else (c :: (splitLast r).1, (splitLast r).2)

/-- Removes trailing slashes, part of `std::filesystem::path::parent_path` (src/util/SchemaHelper.h
lines 26, 39). -/
def stripSlashes (l : List Char) : List Char := (l.reverse.dropWhile (· = '/')).reverse

/-- `std::filesystem::path::parent_path` on POSIX for paths that have a file name or a relative part,
used at src/util/SchemaHelper.h lines 26-29, 39. -/
def parentPath (p : List Char) : List Char :=
  if (splitLast p).1 = [] then []
  else if stripSlashes (splitLast p).1 = [] then ['/']
  else stripSlashes (splitLast p).1

/-- `std::filesystem::path::is_relative` on POSIX, src/util/SchemaHelper.h line 38. -/
def isRelative (p : List Char) : Bool := p.head? != some '/'

/-- `std::filesystem::path::operator/=` on POSIX, src/util/SchemaHelper.h line 40: a separator is
inserted if the left side has a file name. -/
def append (a b : List Char) : List Char :=
  if isRelative b = false then b
  else if a = [] ∨ a.getLast? = some '/' then a ++ b
  else a ++ '/' :: b

/-- `MakePathRelativeToOtherPath::operator()`, src/util/SchemaHelper.h lines 36-44; `other` is the
path of the configuration file. -/
def makeRelative (other p : List Char) : List Char :=
  if isRelative p then append (parentPath other) p else p

/-- `ParentPathExists::operator()`, src/util/SchemaHelper.h lines 24-31. -/
def parentPathExists (exist : List Char → Bool) (p : List Char) : Bool :=
  if parentPath p = [] then true else exist (parentPath p)

/-- `std::filesystem::path::extension`, used at src/io/MeshParser.cpp lines 11-17: from the last dot of
the file name on, unless that dot is its first character or the file name is `..`. -/
def extension (p : List Char) : List Char :=
  let f := (splitLast p).2
  let e := (f.reverse.takeWhile (· ≠ '.')).reverse
  if '.' ∉ f ∨ f = ['.', '.'] ∨ f.length = e.length + 1 then [] else '.' :: e

/-- The parsers, src/io/MeshParser.cpp lines 19-31. -/
inductive Parser where
  | gmsh | h5
deriving DecidableEq, Repr

/-- `MeshParser::createWithValidation<D>` with `MeshParser::create`, src/io/MeshParser.cpp lines 19-50;
`hdf5` is `ENABLE_HDF5`; `none` is the null pointer with an error message. -/
def createParser (hdf5 : Bool) (D : Nat) (file : List Char) : Option Parser :=
  if extension file = ".h5".toList ∧ (hdf5 = false ∨ D ≠ 3) then none
  else if extension file = ".msh".toList then some .gmsh
  else if extension file = ".h5".toList then (if hdf5 then some .h5 else none)
  else none

/-! ## The configuration -/

/-- Scalars of the configuration, types of the members of `Config`, app/tandem/SeasConfig.h lines
25-126, and app/static.cpp lines 52-67. -/
inductive Leaf where
  | real (x : ℚ)
  | int (n : Int)
  | str (s : List Char)
  | bool (b : Bool)
  | mode (m : Mode)
  | op (m : OpType)
  | mg (m : MG)
  | storage (m : Storage)
  | table (m : TableType)
  | bc (m : BC)
  | dg (m : DG)
deriving DecidableEq

/-- `node.value<T>()` for the types used (src/util/Schema.h lines 77-102) and the conversion of command
line strings (lines 104-144), left abstract; `exist` is `std::filesystem::exists`, `config` the path
of the configuration file, `hdf5` the build option. -/
structure Env (α : Type) where
  real : α → Option ℚ
  int : α → Option Int
  str : α → Option (List Char)
  bool : α → Option Bool
  sReal : List Char → Option ℚ
  sInt : List Char → Option Int
  sBool : List Char → Option Bool
  exist : List Char → Bool
  config : List Char
  hdf5 : Bool

variable {α : Type}

/-- `add_value` of a floating point member, src/util/Schema.h lines 77-144 without converter. -/
def realV (e : Env α) (valid : ℚ → Bool) : Schema α Leaf :=
  .value (fun a => (e.real a).map .real) (fun s => (e.sReal s).map .real)
    (fun l => match l with | .real x => valid x | _ => false)

/-- `add_value` of an integer member, src/util/Schema.h lines 77-144 without converter. -/
def intV (e : Env α) (valid : Int → Bool) : Schema α Leaf :=
  .value (fun a => (e.int a).map .int) (fun s => (e.sInt s).map .int)
    (fun l => match l with | .int x => valid x | _ => false)

/-- `add_value` of a Boolean member, src/util/Schema.h lines 77-144 without converter. -/
def boolV (e : Env α) : Schema α Leaf :=
  .value (fun a => (e.bool a).map .bool) (fun s => (e.sBool s).map .bool) (fun _ => true)

/-- `add_value` of a string member with converter `c`, src/util/Schema.h lines 77-144. -/
def strV (e : Env α) (c : List Char → List Char) (valid : List Char → Bool) : Schema α Leaf :=
  .value (fun a => (e.str a).map (fun s => .str (c s))) (fun s => some (.str (c s)))
    (fun l => match l with | .str x => valid x | _ => false)

/-- `add_value` of an enumeration member with converter `c` from strings, src/util/Schema.h lines
77-144; `none` is an exception thrown by the converter. -/
def enumV (e : Env α) (c : List Char → Option Leaf) (valid : Leaf → Bool) : Schema α Leaf :=
  .value (fun a => (e.str a).bind c) c valid

/-- An unvalidated array of any length, `add_array(..).of_...()` for a `std::vector`,
src/util/Schema.h lines 270-292; `bound` stands for the largest `std::size_t`. -/
def vecOf (s : Schema α Leaf) (min : Nat) : Schema α Leaf :=
  .array s min (2 ^ 64 - 1) (fun _ => true)

/-- An unvalidated array of fixed length, `std::array<T, N>`, src/util/Schema.h lines 294-303. -/
def arrOf (s : Schema α Leaf) (n : Nat) : Schema α Leaf := .array s n n (fun _ => true)

/-- A table without validator, src/util/Schema.h lines 305-340. -/
def tableOf (fs : Fields α Leaf) : Schema α Leaf := .table fs (fun _ => true)

/-- A default value of a scalar member, `SchemaCommon::default_value`, src/util/Schema.h lines
30-66. -/
def dflt (x : Leaf) : Kind Leaf := .default (.leaf x)

/-- `detail::setOutputConfigSchema`, app/tandem/SeasConfig.cpp lines 14-35, followed by `rest`. -/
def outputFields (e : Env α) (rest : Fields α Leaf) : Fields α Leaf :=
  .cons "prefix" .required (strV e id (parentPathExists e.exist)) <|
  .cons "atol" (dflt (.real (1 / 10 ^ 50))) (realV e (fun x => decide (0 ≤ x))) <|
  .cons "rtol" (dflt (.real (1 / 100))) (realV e (fun x => decide (0 ≤ x))) <|
  .cons "t_min" (dflt (.real 0)) (realV e (fun x => decide (0 ≤ x))) <|
  .cons "t_max" (dflt (.real (365 * 24 * 3600))) (realV e (fun x => decide (0 < x))) rest

/-- `detail::setGfCheckpointConfigSchema`, app/tandem/SeasConfig.cpp lines 37-47. -/
def gfFields (e : Env α) : Fields α Leaf :=
  .cons "prefix" (dflt (.str "gf_checkpoint".toList)) (strV e id (fun _ => true)) <|
  .cons "freq_cputime" (dflt (.real 30)) (realV e (fun _ => true)) .nil

/-- `detail::setTsCheckpointConfigSchema`, app/tandem/SeasConfig.cpp lines 49-103. -/
def tsFields (e : Env α) : Fields α Leaf :=
  .cons "load_directory" .optional (strV e id e.exist) <|
  .cons "save_directory" (dflt (.str "checkpoint".toList))
    (strV e id (parentPathExists e.exist)) <|
  .cons "freq_step" (dflt (.int 1000)) (intV e (fun x => decide (0 < x))) <|
  .cons "freq_cputime" (dflt (.real 30)) (realV e (fun x => decide (0 < x))) <|
  .cons "freq_physical_time" (dflt (.real (10 ^ 10))) (realV e (fun x => decide (0 < x))) <|
  .cons "storage_type" (dflt (.storage .limited))
    (enumV e (fun s => some (.storage (storageConv s)))
      (fun l => match l with | .storage m => m != .unknown | _ => false)) <|
  .cons "storage_limited_size" (dflt (.int 2)) (intV e (fun x => decide (0 < x))) .nil

/-- `detail::setDomainOutputConfigSchema`, app/tandem/SeasConfig.cpp lines 105-111. -/
def domainFields (e : Env α) : Fields α Leaf :=
  outputFields e <| .cons "jacobian" (dflt (.bool false)) (boolV e) .nil

/-- `detail::setTabularOutputConfigSchema`, app/tandem/SeasConfig.cpp lines 113-128. -/
def tabularFields (e : Env α) : Fields α Leaf :=
  outputFields e <| .cons "type" (dflt (.table .csv))
    (enumV e (fun s => some (.table (tableConv s)))
      (fun l => match l with | .table m => m != .unknown | _ => false)) .nil

/-- The schema of a probe, app/tandem/SeasConfig.cpp lines 156-159; `D` is `DomainDimension`. -/
def probeTable (e : Env α) (D : Nat) : Schema α Leaf :=
  tableOf <| .cons "name" .required (strV e id (fun _ => true)) <|
    .cons "x" .required (arrOf (realV e (fun _ => true)) D) .nil

/-- `detail::setProbeOutputConfigSchema`, app/tandem/SeasConfig.cpp lines 130-160. -/
def probeFields (e : Env α) (D : Nat) : Fields α Leaf :=
  outputFields e <|
  .cons "type" (dflt (.table .csv))
    (enumV e (fun s => (probeConv e.hdf5 s).map .table)
      (fun l => match l with | .table m => m != .unknown | _ => false)) <|
  .cons "probes" .required (vecOf (probeTable e D) 0) .nil

/-- The schema of a boundary condition, app/common/MeshConfig.cpp lines 32-53. -/
def bcTable (e : Env α) (D : Nat) : Schema α Leaf :=
  tableOf <| .cons "bc" .required
      (enumV e (fun s => (bcConv s).map .bc) (fun _ => true)) <|
    .cons "plane" .required (intV e (fun _ => true)) <|
    .cons "region" .optional (arrOf (intV e (fun _ => true)) (D - 1)) .nil

/-- `GenMeshConfig<D>::setSchema`, app/common/MeshConfig.cpp lines 30-54. -/
def genMeshFields (e : Env α) (D : Nat) : Fields α Leaf :=
  .cons "intercepts" .required (arrOf (vecOf (realV e (fun _ => true)) 2) D) <|
  .cons "bcs" .required (arrOf (vecOf (bcTable e D) 0) D) .nil

/-- The default of `up`, app/tandem/SeasConfig.cpp lines 234-235. -/
def defaultUp (D : Nat) : Val Leaf :=
  .arr ((List.range D).map (fun i => .leaf (.real (if i + 1 = D then 1 else 0))))

/-- `setConfigSchema`, app/tandem/SeasConfig.cpp lines 164-302; `D` is `DomainDimension`. -/
def configFields (e : Env α) (D : Nat) : Fields α Leaf :=
  .cons "resolution" .optional (realV e (fun x => decide (0 < x))) <|
  .cons "final_time" .required (realV e (fun x => decide (0 ≤ x))) <|
  .cons "mesh_file" .optional (strV e (makeRelative e.config) e.exist) <|
  .cons "cfl" (dflt (.real 1)) (realV e (fun x => decide (0 < x))) <|
  .cons "mode" .required (enumV e (fun s => some (.mode (modeConv s)))
    (fun l => match l with | .mode m => m != .unknown | _ => false)) <|
  .cons "type" .required (enumV e (fun s => some (.op (opConv s)))
    (fun l => match l with | .op m => m != .unknown | _ => false)) <|
  .cons "lib" .required (strV e (makeRelative e.config) e.exist) <|
  .cons "scenario" .required (strV e id (fun _ => true)) <|
  .cons "up" (.default (defaultUp D)) (arrOf (realV e (fun _ => true)) D) <|
  .cons "ref_normal" .required (arrOf (realV e (fun _ => true)) D) <|
  .cons "boundary_linear" (dflt (.bool false)) (boolV e) <|
  .cons "matrix_free" (dflt (.bool false)) (boolV e) <|
  .cons "mg_coarse_level" (dflt (.int 1)) (intV e (fun _ => true)) <|
  .cons "mg_strategy" (dflt (.mg .twoLevel)) (enumV e (fun s => some (.mg (mgConv s)))
    (fun l => match l with | .mg m => m != .unknown | _ => false)) <|
  .cons "generate_mesh" .optional (tableOf (genMeshFields e D)) <|
  .cons "fault_output" .optional (tableOf (outputFields e .nil)) <|
  .cons "fault_scalar_output" .optional (tableOf (tabularFields e)) <|
  .cons "domain_output" .optional (tableOf (domainFields e)) <|
  .cons "fault_probe_output" .optional (tableOf (probeFields e D)) <|
  .cons "domain_probe_output" .optional (tableOf (probeFields e D)) <|
  .cons "moment_rate_output" .optional (tableOf (outputFields e .nil)) <|
  .cons "gf_checkpoint" .optional (tableOf (gfFields e)) <|
  .cons "ts_checkpoint" .required (tableOf (tsFields e)) .nil

/-! ## Reading file and command line -/

/-- The keys passed to the callback of `cmd_line_args`, src/util/Schema.h lines 376-380 and 404-410:
those of value schemas of the outermost table. -/
def cmdKeys {L : Type} : Fields α L → List String
  | .nil => []
  | .cons k _ (.value _ _ _) r => k :: cmdKeys r
  | .cons _ _ _ r => cmdKeys r

/-- The callback that overrides values, app/common/CmdLine.h lines 48-53, over the keys in order;
`present k` is `program.present("--k")`. -/
def applyCmd {L : Type} (fs : Fields α L) (present : String → Option (List Char)) :
    List String → List (Option (Val L)) → Except Err (List (Option (Val L)))
  | [], vs => .ok vs
  | k :: ks, vs =>
    match present k with
    | none => applyCmd fs present ks vs
    | some s =>
      match set fs vs k s with
      | .error x => .error x
      | .ok ws => applyCmd fs present ks ws

/-- Adding the missing section, app/common/CmdLine.h lines 38-42. -/
def addTs (l : List (String × Node α)) : Node α :=
  if (Node.tbl l).get "ts_checkpoint" = none then .tbl (l ++ [("ts_checkpoint", .arr [])])
  else .tbl l

/-- The members of a translated table, `T` of src/util/Schema.h line 328. -/
def members {L : Type} : Val L → List (Option (Val L))
  | .recd vs => vs
  | _ => []

/-- `readFromConfigurationFileAndCmdLine`, app/common/CmdLine.h lines 15-71.  `args` is the outcome of
`parse_args` (`none`: exception, otherwise the values present), `file` that of `toml::parse_file`. -/
def readConfig {L : Type} (fs : Fields α L) (valid : List (Option (Val L)) → Bool)
    (args : Option (String → Option (List Char))) (file : Option (List (String × Node α))) :
    Option (List (Option (Val L))) :=
  match args with
  | none => none
  | some present =>
    match file with
    | none => none
    | some l =>
      match translate (.table fs valid) (addTs l) with
      | .error _ => none
      | .ok v =>
        match applyCmd fs present (cmdKeys fs) (members v) with
        | .error _ => none
        | .ok vs => some vs

/-! ## `main` -/

/-- The members of `Config` that `main` looks at, app/tandem/SeasConfig.h lines 99-126. -/
structure Cfg where
  green : Bool
  boundaryLinear : Bool
  meshFile : Option (List Char)
  generateMesh : Bool
  resolution : Option ℚ

/-- What a rank does at the end of `main`, app/tandem.cpp lines 60-139. -/
inductive Action where
  /-- return -1 before MPI is initialised (lines 61-69) -/
  | refused
  /-- return -1 because the mesh file was not read (lines 101-107) -/
  | meshError
  /-- return -1 because there is no mesh (lines 121-128) -/
  | noMesh
  /-- `solveSEASProblem` with a mesh from the file; `hash` tells whether elements were redistributed
  before partitioning (lines 108-115, 130-133) -/
  | solveFile (hash : Bool)
  /-- `solveSEASProblem` with a generated mesh (lines 116-119, 130-133) -/
  | solveGenerated (h : ℚ)
deriving DecidableEq

/-- `ok` on a rank before the broadcast, app/tandem.cpp lines 88-100: only rank 0 reads the file. -/
def localOk (parse : List Char → Bool) (file : List Char) (rank : Nat) : Bool :=
  if rank = 0 then parse file else false

/-- `MPI_Bcast` from rank 0, app/tandem.cpp line 101. -/
def bcast (v : Nat → Bool) (_rank : Nat) : Bool := v 0

/-- `main` on one of `procs` ranks, app/tandem.cpp lines 59-139; `parse` tells whether rank 0 finds a
parser and parses the file.  Failures of PETSc, `builder.create` and `uniformMesh` are left out. -/
def mainRank (parse : List Char → Bool) (cfg : Option Cfg) (procs rank : Nat) : Action :=
  match cfg with
  | none => .refused
  | some c =>
    if c.green = true ∧ c.boundaryLinear = false then .refused
    else
      match c.meshFile with
      | some f =>
        if bcast (localOk parse f) rank then .solveFile (decide (1 < procs)) else .meshError
      | none =>
        match c.generateMesh, c.resolution with
        | true, some h => .solveGenerated h
        | _, _ => .noMesh

/-! ## Writers -/

/-- Kinds of writers, app/tandem/SEAS.cpp lines 83-155. -/
inductive WriterKind where
  | faultProbe | domainProbe | fault | faultScalar | domain | momentRate
deriving DecidableEq, Repr

/-- A writer: kind, prefix and file format (`none` for formats that cannot be chosen),
app/tandem/SEAS.cpp lines 83-155. -/
structure Writer where
  kind : WriterKind
  pre : List Char
  format : Option TableType
deriving DecidableEq

/-- The output sections of `Config`, app/tandem/SeasConfig.h lines 117-122: prefix, and for probe
outputs format and number of probes, for scalar output the format. -/
structure Outputs where
  fault : Option (List Char)
  faultScalar : Option (List Char × TableType)
  domain : Option (List Char)
  faultProbe : Option (List Char × TableType × Nat)
  domainProbe : Option (List Char × TableType × Nat)
  momentRate : Option (List Char)

/-- `ProbeOutputConfig::make_writer`, app/tandem/SeasConfig.h lines 62-75; `none` is
`std::logic_error`. -/
def makeProbeWriter : TableType → Option TableType
  | .tecplot => some .tecplot
  | .csv => some .csv
  | _ => none

/-- The blocks for probe outputs, app/tandem/SEAS.cpp lines 83-101 and 102-121; `none` is an
exception. -/
def probeWriter (hdf5 : Bool) (kind : WriterKind) :
    Option (List Char × TableType × Nat) → Option (List Writer)
  | none => some []
  | some (p, t, n) =>
    if n = 0 then some []
    else if hdf5 ∧ t = .hdf5 then some [⟨kind, p, some .hdf5⟩]
    else (makeProbeWriter t).map (fun t => [⟨kind, p, some t⟩])

/-- The block for scalar output with `TabularOutputConfig::make_writer`, app/tandem/SEAS.cpp lines
128-132, app/tandem/SeasConfig.h lines 43-55: `HDF5` would give a null pointer, `Unknown` throws
(both `none` here). -/
def scalarWriter : Option (List Char × TableType) → Option (List Writer)
  | none => some []
  | some (p, t) => (makeProbeWriter t).map (fun t => [⟨.faultScalar, p, some t⟩])

/-- The check of prefixes, app/tandem/SEAS.cpp lines 77-82. -/
def prefixClash (o : Outputs) : Bool :=
  match o.fault, o.domain with
  | some a, some b => a == b
  | _, _ => false

/-- A block without choice of format, app/tandem/SEAS.cpp lines 122-127, 133-138, 140-145. -/
def plainWriter (kind : WriterKind) : Option (List Char) → List Writer
  | none => []
  | some p => [⟨kind, p, none⟩]

/-- `add_writers`, app/tandem/SEAS.cpp lines 70-156: the writers in the order in which they are added;
`none` is an exception. -/
def addWriters (hdf5 : Bool) (o : Outputs) : Option (List Writer) :=
  if prefixClash o then none
  else
    match probeWriter hdf5 .faultProbe o.faultProbe, probeWriter hdf5 .domainProbe o.domainProbe,
      scalarWriter o.faultScalar with
    | some a, some b, some c =>
      some (a ++ b ++ plainWriter .fault o.fault ++ c ++ plainWriter .domain o.domain ++
        (if hdf5 then plainWriter .momentRate o.momentRate else []))
    | _, _, _ => none

end Tandem.Main
