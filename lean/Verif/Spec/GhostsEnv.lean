import Verif.Model.Ghosts
import Verif.Spec.Ghosts
/-! # What is assumed about the parameters of a run of getGhostElements (C23) -/
namespace Tandem.Spec
open Tandem.Ghosts

/-- The facets of the mesh are assigned to existing ranks, unordered containers are traversed in some
order, and sorting an index vector sorts it. -/
structure EnvOk (env : Env) (elems : Nat → List Elem) : Prop where
  rank : ∀ s, s < env.P → ∀ e ∈ elems s, ∀ f, IsFacet e f → env.plex2rank f < env.P
  set : ∀ s l, (env.setOrder s l).Perm l
  map : ∀ s l, (env.mapOrder s l).Perm l
  elem : ∀ l, SortPerm (· ≤ ·) l (env.sortElems l)
  keys : ∀ l, SortPerm pairLe l (env.sortKeys l)

/-- Number of elements on the ranks before `r`. -/
def offset (elems : Nat → List (List Nat)) (r : Nat) : Nat :=
  ((List.range r).map (fun s => (elems s).length)).sum

end Tandem.Spec
