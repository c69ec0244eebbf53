/-
Specification for C69: when a restarted time stepper is where the saved one was.
-/
import Verif.Model.TSSerial

namespace Tandem.Spec
open Tandem.TSSerial

/-- The entries of a vector, block by block. -/
def blocks {R : Type} : PVec R → List (List R)
  | .plain xs => [xs]
  | .nest _ subs => subs

/-- The same layout: plain or nested, the same number of blocks, blocks of the same size. -/
def SameLayout {R : Type} (a b : PVec R) : Prop :=
  (match a, b with
    | .plain _, .plain _ => True
    | .nest _ _, .nest _ _ => True
    | _, _ => False) ∧ (blocks a).map List.length = (blocks b).map List.length

/-- A vector that can be stored: plain, or nested with the operations of this code. -/
def Storable {R : Type} : PVec R → Prop
  | .plain _ => True
  | .nest u _ => u = true

/-- The restarted time stepper `r` is in the same state as `s` was: the same scheme, step number, times, step size,
step size controller (if there was one), solution and right-hand sides of the last stages. -/
structure SameState {R γ : Type} (s r : TS R γ) : Prop where
  type : r.typeName = s.typeName
  steps : r.steps = s.steps
  time : r.ptime = s.ptime
  step : r.timeStep = s.timeStep
  prev : r.ptimePrev = s.ptimePrev
  prevRollback : r.ptimePrevRollback = s.ptimePrevRollback
  solvetime : r.solvetime = s.solvetime
  adapt : ∀ a, s.adapt = some a → r.adapt = some a
  solution : blocks r.sol = blocks s.sol
  stages : s.typeName = "rk" → r.stages.map (·.map blocks) = s.stages.map (·.map blocks)

end Tandem.Spec
