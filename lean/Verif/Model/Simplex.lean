import Verif.Model.Combinatorics
/-!
# Model of `src/mesh/Simplex.h`

A simplex of dimension `D` is the list of its `D+1` vertex numbers.  Vertex numbers are naturals
(the code uses `uint64_t`; only the hash depends on the width).
-/
namespace Tandem.Simplex
open Tandem.Combinatorics

/-- Insert into a sorted list.
Used to compute `std::sort` of src/mesh/Simplex.h lines 24 and 36. -/
def insertSorted (x : Nat) : List Nat → List Nat
  | [] => [x]
  | y :: ys => if x ≤ y then x :: y :: ys else y :: insertSorted x ys

/-- `std::sort` on integers: the result is determined by the standard (the sorted permutation);
insertion sort is used to compute it;
src/mesh/Simplex.h lines 24 and 36. -/
def sort : List Nat → List Nat
  | [] => []
  | x :: xs => insertSorted x (sort xs)

/-- The two constructors of `SimplexBase` from vertices, src/mesh/Simplex.h lines 22-26 and 28. -/
def mk (vertices : List Nat) : List Nat := sort vertices

/-- Copying the vertices `plex[c]`, src/mesh/Simplex.h lines 89-91; `none`: out of bounds. -/
def pick (plex : List Nat) : List Nat → Option (List Nat)
  | [] => some []
  | c :: cs => match plex[c]?, pick plex cs with
    | some v, some vs => some (v :: vs)
    | _, _ => none

/-- All picked faces in visiting order.
The loop of src/mesh/Simplex.h lines 87-94. -/
def pickAll (plex : List Nat) : List (List Nat) → Option (List (List Nat))
  | [] => some []
  | c :: cs => match pick plex c, pickAll plex cs with
    | some f, some fs => some (f :: fs)
    | _, _ => none

/-- `Downward<DD, D>::operator()`, src/mesh/Simplex.h lines 75-97 (`0 < DD`), and its specialisation
for `DD = 0`, lines 99-109.  `plex` has `D+1` vertices.  `none`: a face would be written beyond the
end of the array of `binom(D+1, DD+1)` faces, an index is out of bounds, or the loop does not end
within `fuel` steps. -/
def downward (fuel D DD : Nat) (plex : List Nat) : Option (List (List Nat)) :=
  if DD = 0 then pickAll plex ((List.range (D + 1)).map (fun d => [d]))
  else
    match chooseVisit (D + 1) (DD + 1) fuel, binom (D + 1) (DD + 1) with
    | some visited, some size => if visited.length ≤ size then pickAll plex visited else none
    | _, _ => none

end Tandem.Simplex
