import Verif.Model.DGTopo
import Verif.Spec.Ghosts
/-! # Specification of the local mesh a rank holds with overlap one (C31-C33) -/
namespace Tandem.Spec
open Tandem.DGTopo (View)

/-- Number of elements on the ranks before `r`. -/
def elemOffset (elems : Nat → List (List Nat)) (r : Nat) : Nat :=
  ((List.range r).map (fun s => (elems s).length)).sum

/-- Rank `r` holds element `e`: it is its own or shares a facet with one of its own. -/
def Holds (elems : Nat → List (List Nat)) (r : Nat) (e : List Nat) : Prop :=
  e ∈ elems r ∨ ∃ e' ∈ elems r, ∃ f, IsFacet e f ∧ IsFacet e' f

/-- `v` is the view of rank `r` on the mesh `elems`, distributed over `P` ranks, with overlap one.
`num` numbers the elements, `fnum` the facets, `tag` gives the boundary condition of a facet. -/
structure IsLocalMesh (P D : Nat) (elems : Nat → List (List Nat)) (num fnum tag : List Nat → Nat)
    (r : Nat) (v : View) : Prop where
  rank : v.rank = r
  /-- own elements first, then the neighbours owned by others -/
  numLocal : v.numLocal = (elems r).length
  ownFirst : (v.elems.take (elems r).length).Perm (elems r)
  once : v.elems.Nodup
  exactly : ∀ e, e ∈ v.elems ↔ InElems P elems e ∧ Holds elems r e
  owner : ∀ (i : Nat) (e : List Nat), v.elems[i]? = some e → ∃ q, v.owner[i]? = some q ∧ q < P ∧ e ∈ elems q
  /-- own elements are numbered consecutively, ghosts are ordered by owner and number -/
  gid : v.gid = v.elems.map num
  ownGids : v.gid.take (elems r).length = (List.range (elems r).length).map (fun i => elemOffset elems r + i)
  ghostOrder : (v.elems.drop (elems r).length).Pairwise (fun a b =>
    ∀ p q, p < P → q < P → a ∈ elems p → b ∈ elems q → p < q ∨ p = q ∧ num a < num b)
  /-- the shared ranks of an element are the other ranks that hold it -/
  shared : ∀ (i : Nat) (e : List Nat), v.elems[i]? = some e → ∃ l, v.shared[i]? = some l ∧
    l.Pairwise (· < ·) ∧ ∀ s, s ∈ l ↔ s < P ∧ s ≠ r ∧ Holds elems s e
  /-- elements held by no other rank come first -/
  interiorFirst : ∀ i j, i < j → j < (elems r).length → v.shared[j]? = some [] → v.shared[i]? = some []
  /-- the facets of all these elements, those of own elements first -/
  facetsOnce : v.facets.Nodup
  facetsExactly : ∀ f, f ∈ v.facets ↔ ∃ e ∈ v.elems, IsFacet e f
  localFacets : ∀ (i : Nat) (f : List Nat), v.facets[i]? = some f →
    (i < v.numLocalFacets ↔ ∃ e ∈ elems r, IsFacet e f)
  numLocalFacets : v.numLocalFacets ≤ v.facets.length
  facetGid : ∀ (i : Nat) (f : List Nat), v.facets[i]? = some f → v.facetGid[i]? = some (fnum f)
  bc : ∀ (i : Nat) (f : List Nat), v.facets[i]? = some f → v.bc[i]? = some (tag f)
  /-- incidences -/
  up : ∀ (i : Nat) (f : List Nat), v.facets[i]? = some f → ∃ us, v.up[i]? = some us ∧
    us.Pairwise (· < ·) ∧ ∀ u, u ∈ us ↔ ∃ e, v.elems[u]? = some e ∧ IsFacet e f
  down : ∀ (u : Nat) (e : List Nat), v.elems[u]? = some e → ∃ ds, v.down[u]? = some ds ∧
    ds.length = D + 1 ∧ ds.Nodup ∧ ∀ i, i ∈ ds ↔ ∃ f, v.facets[i]? = some f ∧ IsFacet e f

/-- The views of all ranks. -/
structure IsDistributed (P D : Nat) (elems : Nat → List (List Nat)) (num fnum tag : List Nat → Nat)
    (views : Nat → View) : Prop where
  mesh : Mesh P D elems
  numInj : ∀ e e', InElems P elems e → InElems P elems e' → num e = num e' → e = e'
  fnumInj : ∀ e e' f f', InElems P elems e → InElems P elems e' → IsFacet e f → IsFacet e' f' →
    fnum f = fnum f' → f = f'
  view : ∀ r, r < P → IsLocalMesh P D elems num fnum tag r (views r)

end Tandem.Spec
