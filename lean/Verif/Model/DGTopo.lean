import Verif.Model.ScatterPlan
import Verif.Model.LocalMesh
import Verif.Model.Ghosts
/-!
# Model of `src/form/BoundaryMap.{h,cpp}`, `src/form/DGOperatorTopo.{h,cpp}`, the loops of
`src/form/DGOperator.h` and the preallocation in `app/common/PetscDGMatrix.cpp`

A `View` is what these classes read from a `LocalSimplexMesh<D>` on one rank.
-/
namespace Tandem.DGTopo
open Tandem.ScatterPlan (Face push invalid viewGetBlock)

/-- What is read from a `LocalSimplexMesh<D>`, src/mesh/LocalSimplexMesh.h lines 23-90: the element and
facet tables (`elements()`, `facets()`, src/mesh/LocalFaces.h lines 44-76), the boundary conditions
attached to the facets, `upward<D-1>` and `downward<D-1, D>`. -/
structure View where
  rank : Nat
  elems : List (List Nat)
  numLocal : Nat
  owner : List Nat
  gid : List Nat
  shared : List (List Nat)
  facets : List (List Nat)
  numLocalFacets : Nat
  facetGid : List Nat
  bc : List Nat
  up : List (List Nat)
  down : List (List Nat)
deriving Repr, DecidableEq

/-- `elements.owner(elNo)`, src/mesh/LocalFaces.h lines 52-55. -/
def ownerOf (v : View) (e : Nat) : Nat := v.owner.getD e 0

/-! ## BoundaryMap -/

/-- `other_rank`, src/form/BoundaryMap.cpp lines 30-38: the owner of the element behind the last own
element in the circular list `elNos`; `none`: the exception of line 37. -/
def otherRank (v : View) (elNos : List Nat) : Option Nat :=
  (List.range elNos.length).foldl (fun acc i =>
    if ownerOf v (elNos.getD i 0) = v.rank then
      some (ownerOf v (elNos.getD ((i + 1) % elNos.length) 0))
    else acc) none

/-- `theFctNos` before sorting, src/form/BoundaryMap.cpp lines 22-41; pairs (other rank, facet). -/
def theFctNos (v : View) (bc : Nat) : Option (List (Nat × Nat)) :=
  ((List.range v.numLocalFacets).filter (fun f => v.bc[f]? = some bc)).mapM (fun f =>
    (otherRank v (v.up.getD f [])).map (fun o => (o, f)))

/-- Three-way lexicographic comparison of tuples, src/form/BoundaryMap.cpp lines 49-50; `false < true`. -/
def tupleLt (a b : Bool × Nat × Nat) : Bool :=
  (!a.1 && b.1) || (a.1 == b.1 && (decide (a.2.1 < b.2.1) || (a.2.1 == b.2.1 && decide (a.2.2 < b.2.2))))

/-- The sort key, src/form/BoundaryMap.cpp lines 49-50. -/
def sortKey (v : View) (p : Nat × Nat) : Bool × Nat × Nat :=
  (!decide (v.rank ≤ p.1), p.1, v.facetGid.getD p.2 0)

/-- `std::sort`, src/form/BoundaryMap.cpp lines 48-51 (different facets have different keys, so that the
result is unique). -/
def sorted (v : View) (l : List (Nat × Nat)) : List (Nat × Nat) :=
  l.mergeSort (fun a b => !tupleLt (sortKey v b) (sortKey v a))

/-- Data members of `BoundaryMap`, src/form/BoundaryMap.h lines 33-36, with the two maps passed to the
scatter plan. -/
structure BMap where
  fctNos : List Nat
  bndNos : List Nat
  localSize : Nat
  sendMap : List (Nat × List Nat)
  recvMap : List (Nat × List Nat)
deriving Repr, DecidableEq

/-- One iteration, src/form/BoundaryMap.cpp lines 58-75; `none`: the exception of line 65. -/
def bmapStep (rank : Nat) (m : BMap) (p : Nat × Nat) : Option BMap :=
  let bndNo := m.fctNos.length
  let fctNos := m.fctNos ++ [p.2]
  let bndNos := m.bndNos.set p.2 bndNo
  let localSize := if rank ≤ p.1 then m.localSize + 1 else m.localSize
  if rank ≤ p.1 ∧ fctNos.length ≠ localSize then none
  else some ⟨fctNos, bndNos, localSize,
    if rank < p.1 then push p.1 bndNo m.sendMap else m.sendMap,
    if p.1 < rank then push p.1 bndNo m.recvMap else m.recvMap⟩

/-- The constructor, src/form/BoundaryMap.cpp lines 11-78. -/
def boundaryMap (v : View) (bc : Nat) : Option BMap := do
  let l ← theFctNos v bc
  (sorted v l).foldlM (bmapStep v.rank)
    ⟨[], List.replicate v.numLocalFacets invalid, 0, [], []⟩

/-- `fctNo(bndNo)`, src/form/BoundaryMap.h line 21. -/
def BMap.fctNo (m : BMap) (b : Nat) : Option Nat := m.fctNos[b]?
/-- `bndNo(fctNo)`, src/form/BoundaryMap.h line 26. -/
def BMap.bndNo (m : BMap) (f : Nat) : Option Nat := m.bndNos[f]?
/-- `localFctNos()`, src/form/BoundaryMap.h lines 22-24. -/
def BMap.localFctNos (m : BMap) : List Nat := m.fctNos.take m.localSize

/-! ## DGOperatorTopo -/

/-- The element is own and not shared, src/form/DGOperatorTopo.cpp lines 30-31. -/
def isInterior (v : View) (e : Nat) : Bool :=
  decide (ownerOf v e = v.rank) && decide ((v.shared.getD e []).length = 0)

/-- `numInteriorElems_` and `lastElNoInInterior` after the loop, src/form/DGOperatorTopo.cpp lines
26-35. -/
def interiorScan (v : View) : Nat × Nat :=
  (List.range v.elems.length).foldl (fun st e => if isInterior v e then (st.1 + 1, e) else st) (0, 0)

/-- `numInteriorElements()`; `none`: the exception of line 37; src/form/DGOperatorTopo.cpp lines 26-38. -/
def numInterior (v : View) : Option Nat :=
  let st := interiorScan v
  if st.1 > 0 ∧ st.2 + 1 ≠ st.1 then none else some st.1

/-- `FacetInfo`, src/form/FacetInfo.h lines 19-25. -/
structure FacetInfo where
  up0 : Nat
  up1 : Nat
  gup0 : Nat
  gup1 : Nat
  localNo0 : Nat
  localNo1 : Nat
  inside0 : Bool
  inside1 : Bool
  bc : Nat
deriving Repr, DecidableEq

/-- `info(fctNo)`, src/form/DGOperatorTopo.cpp lines 47-78; `none`: an array is read out of bounds or an
assertion (lines 51, 54, 66, 78) is violated. -/
def facetInfo (v : View) (f : Nat) : Option FacetInfo := do
  let elNos ← v.up[f]?
  let bc ← v.bc[f]?
  let e0 ← elNos[0]?
  let e1 := elNos.getD 1 e0
  let g0 ← v.gid[e0]?
  let g1 ← v.gid[e1]?
  let dws0 ← v.down[e0]?
  let dws1 ← v.down[e1]?
  let l0 := dws0.idxOf f
  let l1 := dws1.idxOf f
  if elNos.length ≤ 2 ∧ l0 < dws0.length ∧ l1 < dws1.length ∧ (e0 < v.numLocal ∨ e1 < v.numLocal) then
    some ⟨e0, e1, g0, g1, l0, l1, decide (e0 < v.numLocal), decide (e1 < v.numLocal), bc⟩
  else none

/-- `SideInfo`, src/form/FacetInfo.h lines 11-17. -/
structure SideInfo where
  fctNo : Nat
  side : Nat
  lid : Nat
  localNo : Nat
  bc : Nat
deriving Repr, DecidableEq

/-- `neighbourInfo[e][l] = s`, src/form/DGOperatorTopo.cpp lines 82-88. -/
def setNb (tbl : List (List (Option SideInfo))) (e l : Nat) (s : SideInfo) : List (List (Option SideInfo)) :=
  tbl.set e ((tbl.getD e []).set l (some s))

/-- The writes for one facet, src/form/DGOperatorTopo.cpp lines 80-90. -/
def nbStep (v : View) (tbl : List (List (Option SideInfo))) (f : Nat) : Option (List (List (Option SideInfo))) := do
  let i ← facetInfo v f
  let t0 := if i.inside0 then setNb tbl i.up0 i.localNo0 ⟨f, 0, i.up1, i.localNo1, i.bc⟩ else tbl
  return if i.inside1 then setNb t0 i.up1 i.localNo1 ⟨f, 1, i.up0, i.localNo0, i.bc⟩ else t0

/-- `neighbourInfo`, src/form/DGOperatorTopo.cpp lines 40-42 and 46-91: `num_facets` entries for every own
element, unset at first.  The loop is executed by several threads; different facets write different
entries, see `C33_no_race`. -/
def neighbourInfo (v : View) (numFacets : Nat) : Option (List (List (Option SideInfo))) :=
  (List.range v.numLocalFacets).foldlM (nbStep v)
    (List.replicate v.numLocal (List.replicate numFacets none))

/-- The elements behind the facets of `elNo` other than itself, in the order of the loops
src/form/DGOperatorTopo.cpp lines 102-105. -/
def otherUps (v : View) (elNo : Nat) : List Nat :=
  (v.down.getD elNo []).flatMap (fun dw => (v.up.getD dw []).filter (fun u => u ≠ elNo))

/-- `NumLocalNeighbours`, src/form/DGOperatorTopo.cpp lines 101-116. -/
def numLocalNb (v : View) (elNo : Nat) : Nat :=
  (otherUps v elNo).foldl (fun n u => if ownerOf v u = v.rank then n + 1 else n) 1

/-- `NumGhostNeighbours`, src/form/DGOperatorTopo.cpp lines 101-117. -/
def numGhostNb (v : View) (elNo : Nat) : Nat :=
  (otherUps v elNo).foldl (fun n u => if ownerOf v u = v.rank then n else n + 1) 0

/-! ## Assembly -/

/-- Which of the local operator's functions exist and return `true`, for which element or facet:
src/form/DGOperator.h lines 132, 137, 142-143, 155, 168, 175-176 and 181. -/
structure Kernels where
  volume : Nat → Bool
  skeleton : Nat → Bool
  boundary : Nat → Bool
  post : Nat → Bool

/-- The `add_block` calls (row, column) for one facet, src/form/DGOperator.h lines 147-172. -/
def facetBlocks (k : Kernels) (f : Nat) (i : FacetInfo) : List (Nat × Nat) :=
  if i.up0 ≠ i.up1 then
    if k.skeleton f then
      (if i.inside0 then [(i.up0, i.up0), (i.up0, i.up1)] else []) ++
      (if i.inside1 then [(i.up1, i.up0), (i.up1, i.up1)] else [])
    else []
  else if i.inside0 ∧ k.boundary f then [(i.up0, i.up0)] else []

/-- All `add_block` calls (local row, local column) of `assemble`, src/form/DGOperator.h lines 121-187. -/
def assemble (v : View) (k : Kernels) : Option (List (Nat × Nat)) := do
  let infos ← (List.range v.numLocalFacets).mapM (fun f => (facetInfo v f).map (fun i => (f, i)))
  return ((List.range v.numLocal).filter k.volume).map (fun e => (e, e)) ++
    infos.flatMap (fun p => facetBlocks k p.1 p.2) ++
    ((List.range v.numLocal).filter k.post).map (fun e => (e, e))

/-- The scalar entries (row, column in local numbering) of the blocks written, app/common/PetscMatrix.h
lines 21-25 (`MatSetValuesBlockedLocal` with block size `bs`). -/
def scalarEntries (bs : Nat) (blocks : List (Nat × Nat)) : List (Nat × Nat) :=
  blocks.flatMap (fun b => (List.range bs).flatMap (fun i => (List.range bs).map (fun j =>
    (b.1 * bs + i, b.2 * bs + j))))

/-- `nnz_aij`, app/common/PetscDGMatrix.cpp lines 79-87. -/
def nnzAij (bs numLocalElems : Nat) (nnz : Nat → Nat) : List Nat :=
  (List.range numLocalElems).foldl (fun l elNo =>
    (List.range bs).foldl (fun l b => l.set (b + elNo * bs) (nnz elNo * bs)) l)
    (List.replicate (bs * numLocalElems) 0)

/-- `nnz_baij`, app/common/PetscDGMatrix.cpp lines 89-95. -/
def nnzBaij (numLocalElems : Nat) (nnz : Nat → Nat) : List Nat :=
  (List.range numLocalElems).foldl (fun l elNo => l.set elNo (nnz elNo)) (List.replicate numLocalElems 0)

/-- `nnz` in `preallocate_IS`, app/common/PetscDGMatrix.cpp lines 120-134. -/
def nnzIS (bs numLocalElems numElems : Nat) (nl ng : Nat → Nat) : List Nat :=
  (List.range' (numLocalElems * bs) (numElems * bs - numLocalElems * bs)).foldl
    (fun l i => l.set i (l.getD i 0 + 1))
    ((List.range numLocalElems).foldl (fun l elNo =>
      (List.range bs).foldl (fun l b => l.set (b + elNo * bs) ((nl elNo + ng elNo) * bs)) l)
      (List.replicate (bs * numElems) 0))

/-! ## Application -/

/-- The elements as `ScatterPlan(mesh.elements(), comm)` reads them (src/form/DGOperatorTopo.cpp line 16,
src/parallel/ScatterPlan.h lines 29-40): owner and shared ranks of every element, with the global number,
which only serves to identify the element in the theorems. -/
def elemFaces (v : View) : List Face :=
  (List.range v.elems.length).map (fun i => ⟨v.gid.getD i 0, ownerOf v i, v.shared.getD i []⟩)

/-- One `lop_apply(elNo)`, src/form/DGOperator.h lines 370-380: `x` is the local vector, `ghost` the
content of `ghost_` (a sparse block vector over `recvIdx`) at that moment.  Result: the arguments
`x_0` and `x_n` handed to the local operator; `none`: a block is read that does not exist, or a
neighbour entry that was never set. -/
def lopArgs {α : Type} (bs numLocal : Nat) (recvIdx : List Nat) (nb : List (List (Option SideInfo)))
    (x ghost : List α) (elNo : Nat) : Option (List α × List (SideInfo × List α)) := do
  let x0 ← viewGetBlock numLocal bs x recvIdx ghost elNo
  let infos ← nb[elNo]?
  let xn ← infos.mapM (fun i => do
    let i ← i
    let b ← viewGetBlock numLocal bs x recvIdx ghost i.lid
    return (i, b))
  return (x0, xn)

/-- `apply_`, src/form/DGOperator.h lines 363-396: `during e` is the content of the ghost vector when
element `e` is processed between `begin_scatter` and `wait_scatter` (arbitrary: blocks arrive at any
time), `ghost` its content after `wait_scatter`.  Result: for every element in the order of processing
its number and the arguments of the local operator. -/
def apply {α : Type} (bs numLocal numInterior : Nat) (recvIdx : List Nat)
    (nb : List (List (Option SideInfo))) (x : List α) (during : Nat → List α) (ghost : List α) :
    Option (List (Nat × List α × List (SideInfo × List α))) := do
  let a ← (List.range numInterior).mapM (fun e =>
    (lopArgs bs numLocal recvIdx nb x (during e) e).map (fun r => (e, r)))
  let b ← (List.range' numInterior (numLocal - numInterior)).mapM (fun e =>
    (lopArgs bs numLocal recvIdx nb x ghost e).map (fun r => (e, r)))
  return a ++ b

/-! ## The view of a rank in the distributed mesh -/

/-- Facets of the elements of rank `s` with overlap one, as they are passed to `getFaces<D-1>`,
src/mesh/GlobalSimplexMesh.h lines 151-157 and 222-224. -/
def facetLists (env : Ghosts.Env) (elems : Nat → List Ghosts.Elem) (s : Nat) : List (List Ghosts.Facet) :=
  (Ghosts.ghostElements env elems 1 s).1.map (Ghosts.facets env.D)

/-- What `LocalSimplexMesh` offers on rank `r` after `getLocalMesh(1)`, src/mesh/GlobalSimplexMesh.h lines
129-133 and src/mesh/LocalSimplexMesh.h lines 27-29, 43-62, given the facet table `lf`; `none`: a lookup
fails. -/
def localView (env : Ghosts.Env) (elems : Nat → List Ghosts.Elem) (r : Nat)
    (lf : LocalFaces.LocalFaces Ghosts.Facet Nat) : Option View := do
  let g := Ghosts.ghostElements env elems 1 r
  let sh := Ghosts.elemSharedRanks env elems 1 r
  let bc ← lf.data
  let up ← LocalMesh.makeUpwardMap g.1 lf.faces (Ghosts.facets env.D)
  let down ← (List.range g.1.length).mapM (LocalMesh.downward g.1 lf.faces (Ghosts.facets env.D))
  let table : LocalFaces.LocalFaces Ghosts.Elem Nat :=
    ⟨g.1, g.2.2, g.2.1, (elems r).length, sh.1, sh.2, none, none⟩
  return ⟨r, g.1, (elems r).length, g.2.2, g.2.1,
    (List.range g.1.length).map (LocalFaces.getSharedRanks table),
    lf.faces, lf.localSize, lf.gids, bc, up, down⟩

end Tandem.DGTopo
