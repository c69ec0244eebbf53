import Verif.Model.LocalFaces
/-! # Specification of a local face table (C22) -/
namespace Tandem.Spec
open Tandem.LocalFaces (LocalFaces getSharedRanks)

/-- Face `f` belongs to some element held by some of the `P` ranks (`dw s`: the faces of the elements
of rank `s`, element by element). -/
def InMesh {σ : Type} (P : Nat) (dw : Nat → List (List σ)) (f : σ) : Prop :=
  ∃ s, s < P ∧ ∃ el ∈ dw s, f ∈ el

/-- `lf` is a correct face table of rank `r`: `localSize` is the number of the rank's own elements (they
come first in `dw r`), `owner f` the owner and `gid f` the global number of a face. -/
structure IsFaceTable {σ δ : Type} [DecidableEq σ] (P : Nat) (dw : Nat → List (List σ)) (own : Nat)
    (owner gid : σ → Nat) (val : Option (Nat → σ → δ)) (r : Nat) (lf : LocalFaces σ δ) : Prop where
  /-- each face is listed once -/
  once : lf.faces.Nodup
  /-- exactly the faces of the rank's elements are listed -/
  exactly : ∀ f, f ∈ lf.faces ↔ ∃ el ∈ dw r, f ∈ el
  /-- in the order in which they are first met -/
  order : lf.faces.Pairwise (fun a b => (dw r).flatten.idxOf a < (dw r).flatten.idxOf b)
  /-- the own elements' faces come first -/
  interior : ∀ (i : Nat) (f : σ), lf.faces[i]? = some f → (i < lf.localSize ↔ ∃ el ∈ (dw r).take own, f ∈ el)
  ownerOf : ∀ (i : Nat) (f : σ), lf.faces[i]? = some f → lf.owner[i]? = some (owner f)
  gidOf : ∀ (i : Nat) (f : σ), lf.faces[i]? = some f → lf.gids[i]? = some (gid f)
  /-- shared ranks: exactly the other ranks that hold the face, each once, ascending -/
  sharedMem : ∀ (i : Nat) (f : σ), lf.faces[i]? = some f → ∀ s, s ∈ getSharedRanks lf i ↔
    s < P ∧ s ≠ r ∧ ∃ el ∈ dw s, f ∈ el
  sharedSorted : ∀ i, i < lf.faces.length → (getSharedRanks lf i).Pairwise (· < ·)
  /-- the attached datum is the one of the owner -/
  dataOf : ∀ v, val = some v → ∃ d, lf.data = some d ∧
    ∀ (i : Nat) (f : σ), lf.faces[i]? = some f → d[i]? = some (v (owner f) f)
  localSize : lf.localSize ≤ lf.faces.length

end Tandem.Spec
