/-
Specification for the discrete Green's function operator: what the operator and the boundary traction are, in terms
of facets, independent of ranks, offsets and files.
-/
import Mathlib.Algebra.Ring.Defs

namespace Tandem.Spec.Green

variable {K : Type} [Semiring K] {L : Type} [DecidableEq L]

/-- Unit slip on component `e` of facet `b`. -/
def unitField (b : L) (e : Nat) : L → Nat → K := fun a d => if a = b ∧ d = e then 1 else 0

/-- `G` is the matrix of the slip-to-traction map `response` when facets are numbered as in `order`, with `br`
traction components and `bc` slip components per facet: the entry for component `d` of facet `a` and component `e`
of facet `b` is component `d` at facet `a` of the response to the unit slip. -/
def IsOperator (response : (L → Nat → K) → L → Nat → K) (br bc : Nat) (order : List L) (G : Nat → Nat → K) : Prop :=
  ∀ (x : Nat) (a : L) (y : Nat) (b : L), order[x]? = some a → order[y]? = some b →
    ∀ d < br, ∀ e < bc, G (br * x + d) (bc * y + e) = response (unitField b e) a d

/-- `v` is the traction field `field` when facets are numbered as in `order`. -/
def IsTraction (field : L → Nat → K) (br : Nat) (order : List L) (v : Nat → K) : Prop :=
  ∀ (x : Nat) (a : L), order[x]? = some a → ∀ d < br, v (br * x + d) = field a d

end Tandem.Spec.Green
