import Verif.Model.Faces
import Verif.Model.Partition
/-!
# Model of the boundary-data lookup in `getFaces`

src/mesh/GlobalSimplexMesh.h lines 275-290 with `BoundaryData::redistributed`,
src/mesh/MeshData.h lines 71-86.
-/
namespace Tandem.FacetData
open Tandem.LocalFaces (g2l)
open Tandem.Partition (gatherDefault)

/-- `partition` in `repartitionByHash`, src/mesh/GlobalSimplexMesh.cpp lines 16-28. -/
def hashPartition {σ : Type} (plex2rank : σ → Nat) (elems : List σ) : List Nat := elems.map plex2rank

/-- `lids`, src/mesh/GlobalSimplexMesh.h lines 277-287: numbers in the boundary mesh or `2^64 - 1`. -/
def lids {σ : Type} [DecidableEq σ] (boundary requested : List σ) : List Nat :=
  requested.map (fun f => (g2l boundary f).getD (2 ^ 64 - 1))

/-- The answers a rank sends back, src/mesh/MeshData.h lines 71-81. `none`: out of bounds. -/
def answers {σ β : Type} [DecidableEq σ] (dflt : β) (boundary : List σ) (data : List β)
    (requested : List σ) : Option (List β) :=
  gatherDefault dflt data (lids boundary requested)

end Tandem.FacetData
