import Verif.Spec.MultiIndex
/-! Specification vocabulary for generated meshes (independent of the model). -/
namespace Tandem.Spec

/-- Component `d` of the grid position of vertex number `v` in a grid with extents `shape` is `x`. -/
def GridCoord (shape : List Nat) (v d x : Nat) : Prop :=
  ∃ idx, InShape idx shape ∧ position idx shape = v ∧ idx[d]? = some x

/-- All the given vertices lie on one side of the box: in some direction `d` of `N_d` cells they all
have grid position `0`, or all `N_d`. -/
def OnSide (N : List Nat) (vertices : List Nat) : Prop :=
  ∃ d n, N[d]? = some n ∧
    ((∀ v ∈ vertices, GridCoord (N.map (· + 1)) v d 0) ∨
     (∀ v ∈ vertices, GridCoord (N.map (· + 1)) v d n))

end Tandem.Spec
