import Verif.Model.DGTopo
/-! # The program `check-bc`: the facets with a boundary condition, as seen by one rank

Simplifications: the mesh file, the partition and the text of the VTU file are not part of this model; a cell of the file is the pair
(element, local facet number) from which `CurvilinearBoundaryVTUAdapter` computes its points. -/
namespace Tandem.CheckBc
open Tandem.Ghosts (Env Elem Facet)

/-- Facets of the elements of rank `s` without overlap, as they are passed to `getFaces<D-1>`: `getLocalMesh(0)`, app/check-bc.cpp line
103, and src/mesh/GlobalSimplexMesh.h lines 151-157 and 222-224. -/
def facetLists (env : Env) (elems : Nat → List Elem) (s : Nat) : List (List Facet) :=
  (Ghosts.ghostElements env elems 0 s).1.map (Ghosts.facets env.D)

/-- `find_facets`, app/check-bc.cpp lines 56-80: the facets among the first `numLocalFacets` whose boundary condition is not `None`
(`BC::None` is 0), and the boundary conditions. -/
def findFacets (numLocalFacets : Nat) (bc : List Nat) : List Nat × List Nat :=
  (List.range numLocalFacets).foldl (fun p fctNo =>
    if bc.getD fctNo 0 ≠ 0 then (p.1 ++ [fctNo], p.2 ++ [bc.getD fctNo 0]) else p) ([], [])

/-- `check_bc`, app/check-bc.cpp lines 97-107: the cells of the piece of one rank, each as element and local facet number (the
constructor of `CurvilinearBoundaryVTUAdapter`, src/io/VTUAdapter.h lines 74-89), and the cell data `bc` (app/check-bc.cpp line 93).
`lf` is the facet table; `none`: the exception of line 62, or a facet without element. -/
def checkBc (env : Env) (elems : Nat → List Elem) (r : Nat) (lf : LocalFaces.LocalFaces Facet Nat) :
    Option (List (Nat × Nat) × List Nat) := do
  let es := (Ghosts.ghostElements env elems 0 r).1
  let bc ← lf.data
  let up ← LocalMesh.makeUpwardMap es lf.faces (Ghosts.facets env.D)
  let (theFctNos, theBcs) := findFacets lf.localSize bc
  let bnds ← theFctNos.mapM fun fctNo => do
    let elNos ← up[fctNo]?
    let elNo ← elNos[0]?
    let dws ← LocalMesh.downward es lf.faces (Ghosts.facets env.D) elNo
    some (elNo, dws.idxOf fctNo)
  return (bnds, theBcs)

end Tandem.CheckBc
