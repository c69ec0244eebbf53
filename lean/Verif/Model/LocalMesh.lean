import Verif.Model.LocalFaces
/-!
# Model of `src/mesh/LocalSimplexMesh.h`

`σ` is the type of faces of dimension `DD`, `τ` that of dimension `DD + 1`; `down f` is the array
`f.downward()` (see `Tandem.Simplex.downward`).
-/
namespace Tandem.LocalMesh
open Tandem.LocalFaces (g2l)

variable {σ τ : Type} [DecidableEq σ] [DecidableEq τ]

/-- `map.at(d)` for all `d`, src/mesh/LocalSimplexMesh.h lines 51-54; `none`: the key is missing and
`std::out_of_range` is thrown. -/
def lookupAll (faces : List σ) : List σ → Option (List Nat)
  | [] => some []
  | d :: ds => match g2l faces d, lookupAll faces ds with
    | some i, some is => some (i :: is)
    | _, _ => none

/-- `downward(lid)` and `downward(face)`, src/mesh/LocalSimplexMesh.h lines 43-56. -/
def downward (upFaces : List τ) (downFaces : List σ) (down : τ → List σ) (lid : Nat) :
    Option (List Nat) :=
  match upFaces[lid]? with
  | none => none
  | some f => lookupAll downFaces (down f)

/-- `map[i].push_back(u)`, src/mesh/LocalSimplexMesh.h line 80. -/
def pushBack (map : List (List Nat)) (i u : Nat) : List (List Nat) :=
  match map[i]? with
  | none => map
  | some l => map.set i (l ++ [u])

/-- The inner loop, src/mesh/LocalSimplexMesh.h lines 79-81. -/
def addDown (downFaces : List σ) (u : Nat) : List σ → List (List Nat) → Option (List (List Nat))
  | [], map => some map
  | d :: ds, map =>
    match g2l downFaces d with
    | none => none
    | some i => addDown downFaces u ds (pushBack map i u)

/-- The outer loop, src/mesh/LocalSimplexMesh.h lines 77-82. -/
def addAll (upFaces : List τ) (downFaces : List σ) (down : τ → List σ) :
    List τ → List (List Nat) → Option (List (List Nat))
  | [], map => some map
  | f :: fs, map =>
    match g2l upFaces f with
    | none => none
    | some u =>
      match addDown downFaces u (down f) map with
      | none => none
      | some m => addAll upFaces downFaces down fs m

/-- `makeUpwardMap`, src/mesh/LocalSimplexMesh.h lines 71-83. -/
def makeUpwardMap (upFaces : List τ) (downFaces : List σ) (down : τ → List σ) :
    Option (List (List Nat)) :=
  addAll upFaces downFaces down upFaces (List.replicate downFaces.length [])

end Tandem.LocalMesh
