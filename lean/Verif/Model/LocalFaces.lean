import Verif.Model.Algorithm
import Verif.Model.CommPattern
/-!
# Model of `src/mesh/LocalFaces.h`

`mneme::Displacements` is not part of the repository; from its use it is modelled by the list of
counts, with `displs[i]` the sum of the counts before `i`.
-/
namespace Tandem.LocalFaces
open Tandem.Algorithm (applyPermutation Outcome)
open Tandem.CommPattern (slice)

/-- Data members of `LocalFaces`, src/mesh/LocalFaces.h lines 119-128 (`g2l_` is derived, see `g2l`).
`σ` is the type of faces, `δ` that of one entry of the attached mesh data. -/
structure LocalFaces (σ δ : Type) where
  faces : List σ
  owner : List Nat
  gids : List Nat
  localSize : Nat
  sharedRanks : List Nat
  sharedCounts : List Nat
  data : Option (List δ)
  volumeTags : Option (List Int)
deriving Repr, DecidableEq

/-- `getSharedRanks`, src/mesh/LocalFaces.h lines 72-76. -/
def getSharedRanks {σ δ} (lf : LocalFaces σ δ) (lid : Nat) : List Nat :=
  slice lf.sharedRanks (lf.sharedCounts.take lid).sum (lf.sharedCounts.getD lid 0)

/-- `makeG2LMap`, src/mesh/LocalFaces.h lines 111-117, as a lookup function: the number assigned last
wins. -/
def g2l {σ} [DecidableEq σ] (faces : List σ) (f : σ) : Option Nat :=
  faces.zipIdx.foldl (fun acc p => if p.1 = f then some p.2 else acc) none

/-- `permuteSharedRanks`, src/mesh/LocalFaces.h lines 94-110: the new flat list and the new counts. -/
def permuteSharedRanks (shared counts : List Nat) : List Nat → List Nat × List Nat
  | [] => ([], [])
  | p :: ps =>
    let count := counts.getD p 0
    let rest := permuteSharedRanks shared counts ps
    (slice shared (counts.take p).sum count ++ rest.1, count :: rest.2)

/-- Turn an outcome into an option (out-of-bounds and non-termination are `none`).
Used for the calls of `apply_permutation`, src/util/Algorithm.h lines 60-72. -/
def toOption {α} : Outcome α → Option α
  | .ok a => some a
  | _ => none

/-- `MeshData::permute` of the attached data (src/mesh/MeshData.h lines 57-59, 96-98, 138-140): all
implementations forward to `apply_permutation`. -/
def permuteData {δ} (fuel : Nat) (data : Option (List δ)) (perm : List Nat) : Option (Option (List δ)) :=
  match data with
  | none => some none
  | some d => (toOption (applyPermutation fuel d perm)).map some

/-- `LocalFaces::permute`, src/mesh/LocalFaces.h lines 83-93.  `fuel` bounds the length of the cycle
walks.  The volume tags are not touched. -/
def permute {σ δ} (fuel : Nat) (lf : LocalFaces σ δ) (perm : List Nat) : Option (LocalFaces σ δ) := do
  let faces ← toOption (applyPermutation fuel lf.faces perm)
  let owner ← toOption (applyPermutation fuel lf.owner perm)
  let gids ← toOption (applyPermutation fuel lf.gids perm)
  let data ← permuteData fuel lf.data perm
  let sh := permuteSharedRanks lf.sharedRanks lf.sharedCounts perm
  return ⟨faces, owner, gids, lf.localSize, sh.1, sh.2, data, lf.volumeTags⟩

end Tandem.LocalFaces
