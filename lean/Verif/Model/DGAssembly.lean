import Verif.Model.DGTopo
/-!
# Model of `DGOperator::assemble` and `DGOperator::rhs` with the blocks, `src/form/DGOperator.h`

As `DGTopo.assemble`, but with the content of the blocks.  `B` is the type of a block of the matrix, `V` that
of a block of a vector.
-/
namespace Tandem.DGAssembly
open Tandem.DGTopo (FacetInfo View facetInfo)

/-- `BC`, src/form/BC.h line 6. -/
def bcNone : Nat := 0
/-- `BC`, src/form/BC.h line 6. -/
def bcNatural : Nat := 1
/-- `BC`, src/form/BC.h line 6. -/
def bcFault : Nat := 3
/-- `BC`, src/form/BC.h line 6. -/
def bcDirichlet : Nat := 5

/-- `info.up[side]`, src/form/FacetInfo.h line 21. -/
def upOf (i : FacetInfo) (s : Fin 2) : Nat := if s = 0 then i.up0 else i.up1
/-- `info.localNo[side]`, src/form/FacetInfo.h line 23. -/
def localNoOf (i : FacetInfo) (s : Fin 2) : Nat := if s = 0 then i.localNo0 else i.localNo1

/-- The functions of the local operator called by `assemble`, src/form/DGOperator.h lines 121-187; `none`:
the function returns false.  `Poisson` and `Elasticity` have no `assemble_volume_post_skeleton` and their
`assemble_volume` and `assemble_skeleton` always return true (app/localoperator/Poisson.cpp lines 248 and 328,
app/localoperator/Elasticity.cpp lines 339 and 446). -/
structure LocalOp (B : Type) where
  volume : Nat → B
  skeleton : Nat → FacetInfo → Fin 2 → Fin 2 → B
  boundary : Nat → FacetInfo → Option B

/-- The `add_block` calls for one facet, src/form/DGOperator.h lines 147-172. -/
def facetBlocks {B : Type} (o : LocalOp B) (f : Nat) (i : FacetInfo) : List (Nat × Nat × B) :=
  if i.up0 ≠ i.up1 then
    (if i.inside0 then [(i.up0, i.up0, o.skeleton f i 0 0), (i.up0, i.up1, o.skeleton f i 0 1)] else []) ++
    (if i.inside1 then [(i.up1, i.up0, o.skeleton f i 1 0), (i.up1, i.up1, o.skeleton f i 1 1)] else [])
  else if i.inside0 then
    match o.boundary f i with
    | some a => [(i.up0, i.up0, a)]
    | none => []
  else []

/-- The `add_block` calls (local row, local column, block) of `assemble`, src/form/DGOperator.h lines
121-187. -/
def assemble {B : Type} (v : View) (o : LocalOp B) : Option (List (Nat × Nat × B)) := do
  let infos ← (List.range v.numLocalFacets).mapM (fun f => (facetInfo v f).map (fun i => (f, i)))
  return (List.range v.numLocal).map (fun e => (e, e, o.volume e)) ++
    infos.flatMap (fun p => facetBlocks o p.1 p.2)

/-- The functions of the local operator called by `rhs`, src/form/DGOperator.h lines 189-237: what is added to
the block of the element (or of both elements); nothing is added if the function returns false. -/
structure LocalRhs (V : Type) where
  volume : Nat → V → V
  skeleton : Nat → FacetInfo → Fin 2 → V → V
  boundary : Nat → FacetInfo → V → V

/-- The writes for one facet, src/form/DGOperator.h lines 209-227 (blocks of elements outside are written to a
scratch buffer and dropped). -/
def rhsFacet {V : Type} (o : LocalRhs V) (f : Nat) (i : FacetInfo) (b : Nat → V) : Nat → V :=
  if i.up0 ≠ i.up1 then
    let b := if i.inside0 then Function.update b i.up0 (o.skeleton f i 0 (b i.up0)) else b
    if i.inside1 then Function.update b i.up1 (o.skeleton f i 1 (b i.up1)) else b
  else if i.inside0 then Function.update b i.up0 (o.boundary f i (b i.up0))
  else b

/-- `rhs`, src/form/DGOperator.h lines 189-237: adds to the vector `b`, which is not cleared. -/
def rhs {V : Type} (v : View) (o : LocalRhs V) (b : Nat → V) : Option (Nat → V) := do
  let infos ← (List.range v.numLocalFacets).mapM (fun f => (facetInfo v f).map (fun i => (f, i)))
  let b := (List.range v.numLocal).foldl (fun b e => Function.update b e (o.volume e (b e))) b
  return infos.foldl (fun b p => rhsFacet o p.1 p.2 b) b

end Tandem.DGAssembly
