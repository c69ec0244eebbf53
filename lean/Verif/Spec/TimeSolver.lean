/-
Specification for C92: the nested vector of the integrator stands for the state of the operator.
-/
import Verif.Model.TimeSolver

namespace Tandem.Spec
open Tandem.TimeSolver

/-- The content of a nested vector. -/
def contents {V : Type} (σ : Store V) (nest : List Nat) : List V := nest.map σ

/-- Every rank makes the same collective calls (a requirement of MPI). -/
def Collective {ε : Type} (procs : Nat) (calls : Nat → Except ε (List Call)) : Prop :=
  ∀ r < procs, ∀ r' < procs, calls r = calls r'

/-- The directory a user means by `load_directory`: the directory itself, or the first line of a file that names
one. -/
def IsCheckpointDirectory (d : Disk) (path dir : String) : Prop :=
  (d.regular path = false ∧ dir = path) ∨
  (d.regular path = true ∧ d.directory dir = true ∧ ∃ rest, d.lines path = some (dir :: rest))

end Tandem.Spec
