import Verif.Model.CommPattern
/-!
# Model of `GlobalSimplexMesh::doPartition` and `MeshData::redistributed`

All ranks are modelled together: a quantity of rank `s` is a function of `s`.  `idx_t` is modelled by
`Nat` (ParMETIS returns ranks).
-/
namespace Tandem.Partition
open Tandem.CommPattern (exch)

/-- Collecting `data[lid]` for all `lids`: src/mesh/MeshData.h lines 42-47 (VertexData), 114-127
(ElementData, one item per element), GlobalSimplexMesh.cpp line 51.  `none`: out of bounds. -/
def gather {β} (data : List β) : List Nat → Option (List β)
  | [] => some []
  | i :: is => match data[i]?, gather data is with
    | some d, some ds => some (d :: ds)
    | _, _ => none

/-- As `gather`, for BoundaryData and VolumeTagData, src/mesh/MeshData.h lines 73-81 and 149-159: the
index `2^64 - 1` stands for a missing entry and yields a default (`BC::None` resp. `-1`). -/
def gatherDefault {β} (dflt : β) (data : List β) : List Nat → Option (List β)
  | [] => some []
  | i :: is =>
    match (if i = 2 ^ 64 - 1 then some dflt else data[i]?), gatherDefault dflt data is with
    | some d, some ds => some (d :: ds)
    | _, _ => none

/-- The inner `while`, src/mesh/GlobalSimplexMesh.cpp lines 49-53: split off the leading entries with
`partition[*eIt] <= p`. `none`: out of bounds. -/
def takeUpTo (partition : List Nat) (p : Nat) : List Nat → Option (List Nat × List Nat)
  | [] => some ([], [])
  | e :: es =>
    match partition[e]? with
    | none => none
    | some q =>
      if q ≤ p then (takeUpTo partition p es).map (fun r => (e :: r.1, r.2)) else some ([], e :: es)

/-- The loop over ranks, src/mesh/GlobalSimplexMesh.cpp lines 48-54 (`todo` iterations from `p`): the
groups of element numbers, one per rank, and the unsent rest. -/
def groups (partition : List Nat) : Nat → Nat → List Nat → Option (List (List Nat) × List Nat)
  | 0, _, es => some ([], es)
  | todo + 1, p, es => do
    let (g, rest) ← takeUpTo partition p es
    let (gs, rest') ← groups partition todo (p + 1) rest
    return (g :: gs, rest')

/-- Send side of `doPartition` on one rank, src/mesh/GlobalSimplexMesh.cpp lines 44-56:
`(sendcounts, elemsToSend)`.  `none` also if the assertion of line 55 fails. -/
def sendSide {ε} (procs : Nat) (partition enumeration : List Nat) (elems : List ε) :
    Option (List Nat × List ε) := do
  let (gs, rest) ← groups partition procs 0 enumeration
  if rest ≠ [] then none
  let send ← gather elems gs.flatten
  return (gs.map List.length, send)

/-- The new elements of rank `r`, src/mesh/GlobalSimplexMesh.cpp lines 58-60, from the send sides of
all ranks. -/
def newElems {ε} (procs : Nat) (sides : Nat → List Nat × List ε) (r : Nat) : List ε :=
  exch (fun _ => List.range procs) (fun s d => (sides s).1.getD d 0) (fun s => (sides s).2) r

/-- `redistributed(enumeration, a2a)`, src/mesh/GlobalSimplexMesh.cpp lines 62-67 with
src/mesh/MeshData.h: every rank gathers its data in the order of `enumeration` and exchanges it. -/
def newData {β} (procs : Nat) (counts : Nat → List Nat) (gathered : Nat → List β) (r : Nat) : List β :=
  exch (fun _ => List.range procs) (fun s d => (counts s).getD d 0) gathered r

end Tandem.Partition
