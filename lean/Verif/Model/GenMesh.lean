import Verif.Model.MultiIndex
import Verif.Model.Distribute
import Verif.Model.Simplex
import Mathlib.Algebra.Field.Defs
import Mathlib.Data.Nat.Cast.Defs
/-!
# Model of `src/mesh/GenMesh.cpp` and `src/mesh/GenMesh.h`

Dimensions 2 and 3 (the explicit instantiations, src/mesh/GenMesh.cpp lines 188-189).  Indices are
natural numbers (no `uint64_t` overflow).  Coordinates live in an arbitrary field.
-/
namespace Tandem.GenMesh
open Tandem.MultiIndex Tandem.Distribute

/-- `TessInfo<D>::NumSimplices`, src/mesh/GenMesh.h lines 22-34. -/
def numSimplices (D : Nat) : Nat := if D = 1 then 1 else if D = 2 then 2 else 5

/-- `tessellate`, src/mesh/GenMesh.cpp lines 12-52: corner numbers of the simplices. -/
def tess (D : Nat) (isOdd : Bool) : List (List Nat) :=
  match D, isOdd with
  | 1, _ => [[0, 1]]
  | 2, true => [[0b00, 0b01, 0b11], [0b00, 0b10, 0b11]]
  | 2, false => [[0b00, 0b01, 0b10], [0b01, 0b10, 0b11]]
  | 3, true =>
    [[0b000, 0b001, 0b010, 0b100], [0b001, 0b010, 0b011, 0b111], [0b010, 0b100, 0b110, 0b111],
     [0b001, 0b100, 0b101, 0b111], [0b010, 0b100, 0b001, 0b111]]
  | 3, false =>
    [[0b000, 0b010, 0b011, 0b110], [0b000, 0b001, 0b011, 0b101], [0b000, 0b100, 0b101, 0b110],
     [0b011, 0b101, 0b110, 0b111], [0b000, 0b011, 0b101, 0b110]]
  | _, _ => []

/-- `init`, src/mesh/GenMesh.h lines 171-176: the extents of the vertex grid. -/
def np1 (N : List Nat) : List Nat := N.map (· + 1)

/-- Product of the extents, src/mesh/GenMesh.cpp lines 60-63 and 90-93. -/
def prod (l : List Nat) : Nat := l.foldl (· * ·) 1

/-- `isOdd`, src/mesh/GenMesh.cpp lines 118-121. -/
def isOdd (e : List Nat) : Bool := e.foldl (fun b ee => b ^^ decide (ee % 2 = 1)) false

/-- The simplices of cube number `ecube`, src/mesh/GenMesh.cpp lines 111-124.  `none`: division by
zero in `unflatten`. -/
def cubeSimplices (N : List Nat) (ecube : Nat) : Option (List (List Nat)) := do
  let e ← unflatten ecube N
  let vertGIDs ← (List.range (2 ^ N.length)).mapM (fun vflat => do
    let o ← unflatten vflat (List.replicate N.length 2)
    return flatten (List.zipWith (· + ·) e o) (np1 N))
  return (tess N.length (isOdd e)).map (fun s => Simplex.mk (s.map (fun c => vertGIDs.getD c 0)))

/-- `std::copy` into the buffer at position `off`, src/mesh/GenMesh.cpp lines 129-132; `none`: outside
of the buffer. -/
def copyInto {α : Type} (buf : List α) (off : Nat) (l : List α) : Option (List α) :=
  if off + l.length ≤ buf.length then some (buf.take off ++ l ++ buf.drop (off + l.length)) else none

/-- The loop over the cubes of a rank, src/mesh/GenMesh.cpp lines 110-133; `k` cubes remain. -/
def cubeLoop (N : List Nat) (eFrom eTo ecubeFrom ecubeTo : Nat) :
    Nat → Nat → List (List Nat) → Option (List (List Nat))
  | 0, _, buf => some buf
  | k + 1, ecube, buf => do
    let S := numSimplices N.length
    let simplices ← cubeSimplices N ecube
    let firstPlex := if ecube = ecubeFrom then eFrom - ecubeFrom * S else 0
    let lastPlex := if ecube = ecubeTo - 1 then ecubeTo * S - eTo else 0
    let part := (simplices.take (S - lastPlex)).drop firstPlex
    let buf ← copyInto buf (ecube * S + firstPlex - eFrom) part
    cubeLoop N eFrom eTo ecubeFrom ecubeTo k (ecube + 1) buf

/-- The elements generated on one rank, src/mesh/GenMesh.cpp lines 90-133.  The division in
`ecubeTo` is the truncating signed division of C++. -/
def rankElements (N : List Nat) (rank size : Nat) : Option (List (List Nat)) := do
  let S := numSimplices N.length
  let (eFrom, eTo) ← distribute 0 (prod N * S) rank size
  let ecubeFrom := eFrom / S
  let ecubeTo := (1 + Int.tdiv ((eTo : Int) - 1) S).toNat
  cubeLoop N eFrom eTo ecubeFrom ecubeTo (ecubeTo - ecubeFrom) ecubeFrom
    (List.replicate (eTo - eFrom) [])

/-- The loop of `findRegion`, src/mesh/GenMesh.h lines 178-185.  `regions[region + 1]` is read before
`region` is compared with the size; `none`: a read behind the end, or the failed assertion. -/
def findRegionLoop (regions : List Nat) (v : Nat) : Nat → Nat → Option Nat
  | 0, _ => none
  | fuel + 1, region =>
    match regions[region + 1]? with
    | none => none
    | some r =>
      if v > r ∧ region < regions.length - 1 then findRegionLoop regions v fuel (region + 1)
      else if region = regions.length - 1 then none else some region

/-- `findRegion`, src/mesh/GenMesh.h lines 178-185 (the loop cannot run more often than there are
regions). -/
def findRegion (regions : List Nat) (v : Nat) : Option Nat :=
  findRegionLoop regions v (regions.length + 1) 0

/-- One coordinate of `vertex_pos`, src/mesh/GenMesh.cpp lines 76-79.  `none`: a read behind the end of
an array, or a region without cells, whose division by zero makes the result infinite or not a
number. -/
def coordinate {K : Type} [Field K] (points : List K) (regions : List Nat) (v : Nat) : Option K := do
  let region ← findRegion regions v
  let p1 ← points[region + 1]?
  let p0 ← points[region]?
  let r1 ← regions[region + 1]?
  let r0 ← regions[region]?
  if r1 = r0 then none else
  let h := (p1 - p0) / ((r1 - r0 : Nat) : K)
  return p0 + ((v - r0 : Nat) : K) * h

/-- `vertex_pos`, src/mesh/GenMesh.cpp lines 73-82. -/
def vertexPos {K : Type} [Field K] (points : List (List K)) (regions : List (List Nat))
    (v : List Nat) : Option (List K) :=
  (List.range v.length).mapM (fun d =>
    coordinate (points.getD d []) (regions.getD d []) (v.getD d 0))

/-- The vertices generated on one rank, src/mesh/GenMesh.cpp lines 60-87. -/
def rankVertices {K : Type} [Field K] (points : List (List K)) (regions : List (List Nat))
    (N : List Nat) (rank size : Nat) : Option (List (List K)) := do
  let (vFrom, vTo) ← distribute 0 (prod (np1 N)) rank size
  (List.range' vFrom (vTo - vFrom)).mapM (fun vflat => do
    let v ← unflatten vflat (np1 N)
    vertexPos points regions v)

/-- `initDim`, src/mesh/GenMesh.h lines 140-152: region boundaries from the corner points; `lround` is
the rounding function (`std::lround`). The result is `regions`; its last entry is `N`. -/
def initRegions {K : Type} [Field K] (lround : K → Nat) (h : K) : Nat → List K → List Nat
  | acc, p :: q :: ps => acc :: initRegions lround h (acc + lround ((q - p) / h)) (q :: ps)
  | acc, _ => [acc]

end Tandem.GenMesh
