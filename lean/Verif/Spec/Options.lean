import Verif.Spec.Main
/-!
# The documented options (properties C53 and C93)
-/
namespace Tandem.Spec
open Tandem.Schema Tandem.Main

/-- What happens if an option is not given: it is an error, the option stays empty, or it has this
value. -/
inductive IfMissing (β : Type) where
  | required
  | optional
  | otherwise (x : β)

def IfMissing.map {β γ : Type} (f : β → γ) : IfMissing β → IfMissing γ
  | .required => .required
  | .optional => .optional
  | .otherwise x => .otherwise (f x)

/-- A scalar option of the configuration: its key, how a TOML scalar and how a command line argument is
understood, and what happens if it is not given. -/
structure ScalarOption (α : Type) where
  key : String
  fromFile : α → Option Leaf
  fromArg : List Char → Option Leaf
  missing : IfMissing Leaf

/-- Options that are numbers, Boolean values and strings. -/
def realOption (e : Env α) (k : String) (d : IfMissing ℚ) : ScalarOption α :=
  ⟨k, fun a => (e.real a).map .real, fun s => (e.sReal s).map .real, d.map .real⟩
def intOption (e : Env α) (k : String) (d : IfMissing Int) : ScalarOption α :=
  ⟨k, fun a => (e.int a).map .int, fun s => (e.sInt s).map .int, d.map .int⟩
def boolOption (e : Env α) (k : String) (d : IfMissing Bool) : ScalarOption α :=
  ⟨k, fun a => (e.bool a).map .bool, fun s => (e.sBool s).map .bool, d.map .bool⟩
def textOption (e : Env α) (k : String) (d : IfMissing (List Char)) : ScalarOption α :=
  ⟨k, fun a => (e.str a).map .str, fun s => some (.str s), d.map .str⟩
/-- File names are relative to the configuration file, see `C53_relative_path`. -/
def fileOption (e : Env α) (k : String) (d : IfMissing (List Char)) : ScalarOption α :=
  ⟨k, fun a => (e.str a).map (fun s => .str (makeRelative e.config s)),
    fun s => some (.str (makeRelative e.config s)), d.map .str⟩
/-- Words may be abbreviated. -/
def wordOption {β : Type} (e : Env α) (k : String) (words : List (String × β)) (c : β → Leaf)
    (d : IfMissing β) : ScalarOption α :=
  ⟨k, fun a => (e.str a).bind (fun s => (abbreviated words s).map c),
    fun s => (abbreviated words s).map c, d.map c⟩

/-- The scalar options of `tandem`. -/
def tandemOptions (e : Env α) : List (ScalarOption α) :=
  [realOption e "resolution" .optional, realOption e "final_time" .required,
   fileOption e "mesh_file" .optional, realOption e "cfl" (.otherwise 1),
   wordOption e "mode" modeWords .mode .required,
   wordOption e "type" opWords .op .required, fileOption e "lib" .required,
   textOption e "scenario" .required,
   boolOption e "boundary_linear" (.otherwise false), boolOption e "matrix_free" (.otherwise false),
   intOption e "mg_coarse_level" (.otherwise 1),
   wordOption e "mg_strategy" mgWords .mg (.otherwise .twoLevel)]

/-- The options of all output sections. -/
def outputOptions (e : Env α) : List (ScalarOption α) :=
  [textOption e "prefix" .required, realOption e "atol" (.otherwise (1 / 10 ^ 50)),
   realOption e "rtol" (.otherwise (1 / 100)), realOption e "t_min" (.otherwise 0),
   realOption e "t_max" (.otherwise (365 * 24 * 3600))]

/-- The options of `fault_scalar_output`, `domain_output` and the probe outputs. -/
def scalarOptions (e : Env α) : List (ScalarOption α) :=
  outputOptions e ++ [wordOption e "type" tableWords .table (.otherwise .csv)]
def domainOptions (e : Env α) : List (ScalarOption α) :=
  outputOptions e ++ [boolOption e "jacobian" (.otherwise false)]
def probeOptions (e : Env α) : List (ScalarOption α) :=
  outputOptions e ++ [wordOption e "type"
    (tableWords ++ if e.hdf5 then [("HDF5", TableType.hdf5)] else []) .table (.otherwise .csv)]

/-- The options of the checkpoint sections. -/
def gfOptions (e : Env α) : List (ScalarOption α) :=
  [textOption e "prefix" (.otherwise "gf_checkpoint".toList),
   realOption e "freq_cputime" (.otherwise 30)]
def tsOptions (e : Env α) : List (ScalarOption α) :=
  [textOption e "load_directory" .optional,
   textOption e "save_directory" (.otherwise "checkpoint".toList),
   intOption e "freq_step" (.otherwise 1000), realOption e "freq_cputime" (.otherwise 30),
   realOption e "freq_physical_time" (.otherwise (10 ^ 10)),
   wordOption e "storage_type" storageWords .storage (.otherwise .limited),
   intOption e "storage_limited_size" (.otherwise 2)]

/-- The value `v` of an option follows from the command line argument if there is one, otherwise from
the entry of the file if there is one, and otherwise is the default. -/
def Follows {α : Type} (o : ScalarOption α) (arg : Option (List Char)) (entry : Option (Node α))
    (v : Option (Val Leaf)) : Prop :=
  match arg, entry, o.missing with
  | some t, _, _ => ∃ x, o.fromArg t = some x ∧ v = some (.leaf x)
  | none, some n, _ => ∃ a x, n = .leaf a ∧ o.fromFile a = some x ∧ v = some (.leaf x)
  | none, none, .required => False
  | none, none, .optional => v = none
  | none, none, .otherwise x => v = some (.leaf x)

/-- A vector option of `D` numbers: the entry of the file, or the default (`none`: it is required). -/
def FollowsVector {α : Type} (e : Env α) (D : Nat) (d : Option (List ℚ)) (entry : Option (Node α))
    (v : Option (Val Leaf)) : Prop :=
  match entry with
  | some n => ∃ (as : List α) (xs : List ℚ), n = .arr (as.map .leaf) ∧
      as.map e.real = xs.map some ∧ xs.length = D ∧
      v = some (.arr (xs.map (fun x => .leaf (.real x))))
  | none => ∃ xs, d = some xs ∧ v = some (.arr (xs.map (fun x => .leaf (.real x))))

end Tandem.Spec
