/-! Specification vocabulary for multi-indices (independent of the model). -/
namespace Tandem.Spec

/-- `idx` is a multi-index of the given shape: same dimension, every component below its extent. -/
def InShape (idx shape : List Nat) : Prop :=
  idx.length = shape.length ∧ ∀ d (h : d < idx.length) (h' : d < shape.length), idx[d] < shape[d]

/-- Number of entries of a shape. -/
def volume (shape : List Nat) : Nat := shape.foldr (· * ·) 1

/-- Every extent is positive. -/
def Positive (shape : List Nat) : Prop := ∀ n ∈ shape, 0 < n

/-- Position of a multi-index when the first component varies fastest:
`idx₀ + n₀ * (idx₁ + n₁ * (idx₂ + ...))`. -/
def position : List Nat → List Nat → Nat
  | i :: idx, n :: shape => i + n * position idx shape
  | _, _ => 0

end Tandem.Spec
