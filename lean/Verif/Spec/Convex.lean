import Mathlib.Algebra.Order.Field.Basic
/-! Specification vocabulary: points in simplices (independent of the model). -/
namespace Tandem.Spec
variable {K : Type} [Field K] [LinearOrder K]

/-- `w` are barycentric coordinates of the point `x` with respect to the vertices. -/
def Barycentric (vertices : List (List K)) (w x : List K) : Prop :=
  w.length = vertices.length ∧ w.sum = 1 ∧
    ∀ d, d < x.length → (List.zipWith (fun a v => a * v.getD d 0) w vertices).sum = x.getD d 0

/-- The point lies in the closed simplex. -/
def InSimplex (vertices : List (List K)) (x : List K) : Prop :=
  ∃ w, Barycentric vertices w x ∧ ∀ a ∈ w, 0 ≤ a

/-- The point lies in the interior of the simplex. -/
def InInterior (vertices : List (List K)) (x : List K) : Prop :=
  ∃ w, Barycentric vertices w x ∧ ∀ a ∈ w, 0 < a

/-- Corner number `k` of the box with lower corner `lo` and upper corner `hi`: bit `d` of `k` decides
between `lo` and `hi` in direction `d`. -/
def boxCorner (lo hi : List K) (k : Nat) : List K :=
  (List.range lo.length).map (fun d => if k / 2 ^ d % 2 = 1 then hi.getD d 0 else lo.getD d 0)

end Tandem.Spec
