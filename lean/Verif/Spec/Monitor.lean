/-
What it means that written data belong to the time and state they are written for.
-/
import Verif.Model.Monitor

namespace Tandem.Spec
open Tandem.Monitor

variable {K S U R M B : Type}

/-- The traction belonging to time `t` and state `s`: from the domain solve at `(t, s)`, or from the
Green's function product at `(t, s)`. -/
def tractionAt (k : OpKind) (P : Physics K S U R M B) (t : K) (s : S) : R :=
  match k with
  | .qd => P.trac (P.solve t s) s
  | .green => P.green t s

/-- Fault and volume data computed from exactly the given time and state. -/
def FieldsCurrent (k : OpKind) (P : Physics K S U R M B) (t : K) (s : S) : Payload K U B M → Prop
  | .fault b => b = P.fault t (tractionAt k P t s) s
  | .volume u => u = P.solve t s
  | _ => True

/-- The maximum slip rate belongs to the given time and state. -/
def ScalarCurrent (k : OpKind) (P : Physics K S U R M B) (t : K) (s : S) : Payload K U B M → Prop
  | .scalar v => v = P.vmax t (tractionAt k P t s) s
  | _ => True

/-- The moment rate belongs to the given time and state. -/
def MomentCurrent (k : OpKind) (P : Physics K S U R M B) (t : K) (s : S) : Payload K U B M → Prop
  | .moment m => m = P.moment t (tractionAt k P t s) s
  | _ => True

/-- The monitor calls of a history with their times and the maximum slip rate of the last evaluation before (`V` before the first
evaluation). -/
def qdCalls (k : OpKind) (P : Physics K S U R M B) : K → List (Event K S) → List (K × K)
  | _, [] => []
  | _, .rhs t s :: es => qdCalls k P (P.vmax t (tractionAt k P t s) s) es
  | V, .monitor t _ :: es => (t, V) :: qdCalls k P V es

/-- The level that data belong to: a number, fields on the fault, fields in the domain, moment rates. -/
def kindOfData : Payload K U B M → Level
  | .scalar _ => .scalar
  | .fault _ => .boundary
  | .volume _ => .volume
  | .moment _ => .momentRate

/-- First-same-as-last: every monitor call is for the time and state of the last evaluation of the
right-hand side (or of the initial condition), `cur`. -/
def FirstSameAsLast (cur : K × S) : List (Event K S) → Prop
  | [] => True
  | .rhs t s :: es => FirstSameAsLast (t, s) es
  | .monitor t s :: es => (t, s) = cur ∧ FirstSameAsLast cur es

/-- `FrictionOperator::init` changes only the state variable, which neither the domain solve nor the traction
depends on, and reports the slip rate of the state it produced. -/
structure InitKeepsSlip [Zero K] (k : OpKind) (P : Physics K S U R M B) : Prop where
  traction : ∀ s r, tractionAt k P 0 (P.init 0 r s) = tractionAt k P 0 s
  disp : ∀ s r, P.solve 0 (P.init 0 r s) = P.solve 0 s
  vmax : ∀ s r, P.vmaxInit 0 r s = P.vmax 0 r (P.init 0 r s)

end Tandem.Spec
