import Verif.Model.GenMesh
/-!
# Model of `GenMesh::extractBoundaryMesh`, src/mesh/GenMesh.cpp lines 143-186

`none`: undefined behaviour (division by zero in `unflatten`, a read behind the end in `findRegion`) or
a failed assertion.
-/
namespace Tandem.GenMesh
open Tandem.MultiIndex

/-- `inPlane`, src/mesh/GenMesh.cpp lines 150-158: the directions in which all vertices of the face
agree with the first one. -/
def sameInDirection (D : Nat) (vs : List (List Nat)) : List Bool :=
  (List.range D).map (fun d => vs.all (fun v => v.getD d 0 == (vs.headD []).getD d 0))

/-- One vertex's contribution to `otherRegions`, src/mesh/GenMesh.cpp lines 168-176. -/
def updateRegions (regions : List (List Nat)) (D dim : Nat) (other : List Nat) (v : List Nat) :
    Option (List Nat) := do
  let regs ← ((List.range D).filter (· != dim)).mapM (fun d => findRegion (regions.getD d []) (v.getD d 0))
  return List.zipWith max other regs

/-- The treatment of one face, src/mesh/GenMesh.cpp lines 149-179.  The result `some none`: not a
boundary face; `some (some b)`: a boundary face with condition `b`. -/
def faceCondition {β : Type} (regions : List (List Nat)) (N : List Nat)
    (bcs : Nat → Nat → List Nat → β) (face : List Nat) : Option (Option β) := do
  let D := N.length
  let vs ← face.mapM (fun v => unflatten v (np1 N))
  let inPlane := sameInDirection D vs
  if inPlane.count true > 1 then none else
  match inPlane.findIdx? (· == true) with
  | none => return none
  | some dim =>
    match (regions.getD dim []).findIdx? (· == (vs.headD []).getD dim 0) with
    | none => return none
    | some plane => do
      let other ← vs.foldlM (updateRegions regions D dim) (List.replicate (D - 1) 0)
      return some (bcs dim plane other)

/-- `extractBoundaryMesh`, src/mesh/GenMesh.cpp lines 145-186: the boundary faces with their
conditions, in order, for the given faces of the elements (`elem.downward()` of every element). -/
def extractBoundary {β : Type} (regions : List (List Nat)) (N : List Nat)
    (bcs : Nat → Nat → List Nat → β) : List (List Nat) → Option (List (List Nat × β))
  | [] => some []
  | f :: fs => do
    let c ← faceCondition regions N bcs f
    let rest ← extractBoundary regions N bcs fs
    match c with
    | none => return rest
    | some b => return (f, b) :: rest

end Tandem.GenMesh
