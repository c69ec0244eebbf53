import Verif.Model.Faces
import Verif.Model.Simplex
import Verif.Model.Distribute
import Mathlib.Data.List.Lex
import Mathlib.Order.Nat
/-!
# Model of `GlobalSimplexMesh::getGhostElements` and its helpers

src/mesh/GlobalSimplexMesh.cpp lines 69-409, src/mesh/GlobalSimplexMesh.h lines 164-187.  All `P` ranks
are modelled together.  Elements and facets are ascending lists of vertex numbers.

Unordered containers: `std::unordered_set` of element numbers, of which only membership and size are
used, are ascending lists; the order in which a set of facets is traversed and the order of equal keys
in a multimap are arbitrary parameters (`setOrder`, `mapOrder`).
-/
namespace Tandem.Ghosts
open Tandem.CommPattern (exch)
open Tandem.Algorithm (applyPermutation)
open Tandem.LocalFaces (toOption)

/-- `Simplex<D>` as its vertex list, src/mesh/Simplex.h lines 15-40. -/
abbrev Elem := List Nat
/-- `Simplex<D - 1>` as its vertex list, src/mesh/Simplex.h lines 15-40. -/
abbrev Facet := List Nat
/-- Entry of the distributed upward map, src/mesh/GlobalSimplexMesh.cpp lines 169-175. -/
abbrev Entry := Facet × Elem × Nat

/-- What is fixed during the run: number of ranks, dimension, `getPlex2Rank<D - 1>()`
(src/mesh/GlobalSimplexMesh.h lines 188-201), the traversal orders of the unordered containers, and the
two uses of `std::sort` on an index vector (src/mesh/GlobalSimplexMesh.cpp lines 249-254 and 292-297),
whose result for equal keys is unspecified. -/
structure Env where
  P : Nat
  D : Nat
  plex2rank : Facet → Nat
  setOrder : Nat → List Facet → List Facet
  mapOrder : Nat → List Entry → List Entry
  sortElems : List Elem → List Nat
  sortKeys : List (Int × Nat) → List Nat

/-- `elem.downward<D - 1u>()`, src/mesh/Simplex.h lines 75-109. -/
def facets (D : Nat) (e : Elem) : List Facet := (Simplex.downward (D + 1) D (D - 1) e).getD []

/-- `makeUpwardMap`, src/mesh/GlobalSimplexMesh.h lines 164-174, and its extension by new elements,
src/mesh/GlobalSimplexMesh.cpp lines 276-281 (the same entries as for the longer list). -/
def upward (D : Nat) (elems : List Elem) : List (Facet × Nat) :=
  elems.zipIdx.flatMap (fun p => (facets D p.1).map (fun f => (f, p.2)))

/-- `up.count(face)`, src/mesh/GlobalSimplexMesh.h line 178. -/
def upCount (up : List (Facet × Nat)) (f : Facet) : Nat := (up.filter (fun p => p.1 = f)).length

/-- `up.equal_range(face)`, src/mesh/GlobalSimplexMesh.cpp line 99. -/
def equalRange (up : List (Facet × Nat)) (f : Facet) : List Nat :=
  (up.filter (fun p => p.1 = f)).map (·.2)

/-- `getBoundaryFaces`, src/mesh/GlobalSimplexMesh.h lines 175-185 (every such face occurs once in
`up`, so no duplicates arise). -/
def boundaryFaces (up : List (Facet × Nat)) : List Facet :=
  (up.map (·.1)).filter (fun f => upCount up f = 1)

/-- One step of the placement loops, e.g. src/mesh/GlobalSimplexMesh.cpp lines 378-381. -/
def placeStep {α : Type} (key : α → Nat) (st : List α × List Nat) (u : α) : List α × List Nat :=
  (st.1.set (st.2.getD (key u) 0) u, st.2.set (key u) (st.2.getD (key u) 0 + 1))

/-- Ordering items by destination rank with `counts` and `offsets`: src/mesh/GlobalSimplexMesh.cpp lines
142-162, 190-216 and 369-381.  Parallel arrays filled at the same offsets are one array of tuples. -/
def place {α : Type} (P : Nat) (key : α → Nat) (dflt : α) (l : List α) : List α :=
  let counts := (List.range P).map (fun p => (l.filter (fun u => key u = p)).length)
  let offsets := Distribute.prefixSums 0 counts
  (l.foldl (placeStep key) (List.replicate counts.sum dflt, offsets)).1

/-- Number of items rank `s` sends to rank `p`: `counts`, src/mesh/GlobalSimplexMesh.cpp lines 142-145,
190-193 and 369-372. -/
def sendCount {α : Type} (key : α → Nat) (items : Nat → List α) (s p : Nat) : Nat :=
  ((items s).filter (fun u => key u = p)).length

/-- Items received on rank `r`, src/mesh/GlobalSimplexMesh.cpp lines 164-167, 218-220 and 382-384. -/
def received {α : Type} (P : Nat) (key : α → Nat) (dflt : α) (items : Nat → List α) (r : Nat) : List α :=
  exch (fun _ => List.range P) (sendCount key items) (fun s => place P key dflt (items s)) r

/-- Answers received on rank `r` after `a2a.swap()`, src/mesh/GlobalSimplexMesh.cpp lines 244-246 and
392-393. -/
def answered {α β : Type} (P : Nat) (key : α → Nat) (items : Nat → List α) (bufs : Nat → List β)
    (r : Nat) : List β :=
  exch (fun _ => List.range P) (fun s d => sendCount key items d s) bufs r

/-- `deleteDomainBoundaryFaces`, src/mesh/GlobalSimplexMesh.cpp lines 361-408. -/
def deleteDomain (env : Env) (bf : Nat → List Facet) (r : Nat) : List Facet :=
  let items := fun s => env.setOrder s (bf s)
  let faces := place env.P env.plex2rank [] (items r)
  let req := received env.P env.plex2rank [] items
  let faceCount := answered env.P env.plex2rank items (fun p => (req p).map (fun f => (req p).count f)) r
  (faces.zip faceCount).foldl (fun s fc => if fc.2 = 1 then s.filter (fun g => g ≠ fc.1) else s) (bf r)

/-- The first copy layer, src/mesh/GlobalSimplexMesh.cpp lines 97-103. -/
def copyFirst (D : Nat) (elems : List Elem) (bf : List Facet) : List Nat :=
  (List.range elems.length).filter (fun i => bf.any (fun f => i ∈ equalRange (upward D elems) f))

/-- One more layer, src/mesh/GlobalSimplexMesh.cpp lines 105-117. -/
def copyNext (D : Nat) (elems : List Elem) (copy : List Nat) : List Nat :=
  (List.range elems.length).filter (fun j => j ∈ copy ||
    copy.any (fun i => (facets D (elems.getD i [])).any (fun f => j ∈ equalRange (upward D elems) f)))

/-- `copyElNos`, src/mesh/GlobalSimplexMesh.cpp lines 94-118. -/
def copySet (env : Env) (elems : Nat → List Elem) (r : Nat) : Nat → List Nat
  | 0 => copyFirst env.D (elems r)
      (deleteDomain env (fun s => boundaryFaces (upward env.D (elems s))) r)
  | level + 1 => copyNext env.D (elems r) (copySet env elems r level)

/-- `elNos` after sorting by the pair (in the copy layer, number), src/mesh/GlobalSimplexMesh.cpp lines
119-125; the order is total, so the result of `std::sort` is unique. -/
def elNos (n : Nat) (copy : List Nat) : List Nat :=
  (List.range n).filter (fun i => i ∉ copy) ++ (List.range n).filter (fun i => i ∈ copy)

/-- `apply_permutation`; a crash gives the empty list (src/util/Algorithm.h lines 91-94, as used in
src/mesh/GlobalSimplexMesh.cpp lines 126, 255-256 and 298-299). -/
def permuted {α : Type} (l : List α) (perm : List Nat) : List α :=
  (toOption (applyPermutation l.length l perm)).getD []

/-- Elements after `sortInteriorCopy`, src/mesh/GlobalSimplexMesh.cpp lines 93-129. -/
def sortInteriorCopy (env : Env) (elems : Nat → List Elem) (overlap r : Nat) : List Elem :=
  permuted (elems r) (elNos (elems r).length (copySet env elems r (overlap - 1)))

/-- `copyBegin`, src/mesh/GlobalSimplexMesh.cpp line 127. -/
def copyBegin (env : Env) (elems : Nat → List Elem) (overlap r : Nat) : Nat :=
  (elems r).length - (copySet env elems r (overlap - 1)).length

/-- Entries a rank contributes to the distributed upward map, src/mesh/GlobalSimplexMesh.cpp lines
135-162. -/
def entries (env : Env) (r : Nat) (elems : List Elem) (gids : List Nat) (copyBegin : Nat) : List Entry :=
  (env.setOrder r ((elems.drop copyBegin).flatMap (facets env.D)).dedup).flatMap (fun f =>
    (equalRange (upward env.D elems) f).map (fun i => (f, elems.getD i [], gids.getD i 0)))

/-- `distUp` on rank `p`, src/mesh/GlobalSimplexMesh.cpp lines 164-176. -/
def distUp (env : Env) (es : Nat → List Entry) (p : Nat) : List Entry :=
  received env.P (fun e => env.plex2rank e.1) ([], [], 0) es p

/-- The vertex of `elem` that is not in `face`, src/mesh/GlobalSimplexMesh.cpp lines 203-210. -/
def missingVertex : Elem → Facet → Nat
  | [], _ => 0
  | e :: _, [] => e
  | e :: es, f :: fs => if e = f then missingVertex es fs else e

/-- `invalidSimplex`, src/mesh/Simplex.h lines 66-71. -/
def invalid (D : Nat) : Elem := List.replicate (D + 1) (2 ^ 64 - 1)

/-- Queries (face, missing vertex) of a rank, src/mesh/GlobalSimplexMesh.cpp lines 185-216. -/
def queries (env : Env) (r : Nat) (elems : List Elem) : List (Facet × Nat) :=
  (env.setOrder r (boundaryFaces (upward env.D elems))).map (fun f =>
    (f, missingVertex (elems.getD ((equalRange (upward env.D elems) f).headD 0) []) f))

/-- Answer to a query on rank `p`, src/mesh/GlobalSimplexMesh.cpp lines 230-242. -/
def answer (env : Env) (dist : Nat → List Entry) (p : Nat) (q : Facet × Nat) : Elem × Nat :=
  match (env.mapOrder p ((dist p).filter (fun e => e.1 = q.1))).find? (fun e => q.2 ∉ e.2.1) with
  | some e => (e.2.1, e.2.2)
  | none => (invalid env.D, 2 ^ 64 - 1)

/-- `std::unique`, src/mesh/GlobalSimplexMesh.cpp lines 263-266. -/
def unique {α : Type} [DecidableEq α] : List α → List α
  | [] => []
  | [a] => [a]
  | a :: b :: l => if a = b then unique (b :: l) else a :: unique (b :: l)

/-- `boundaryElems` and `boundaryCGIDs` as received, src/mesh/GlobalSimplexMesh.cpp lines 224-246. -/
def boundary (env : Env) (dist : Nat → List Entry) (st : Nat → List Elem × List Nat) (r : Nat) :
    List (Elem × Nat) :=
  let qs := fun s => queries env s (st s).1
  answered env.P (fun q => env.plex2rank q.1) qs
    (fun p => (received env.P (fun q => env.plex2rank q.1) ([], 0) qs p).map (answer env dist p)) r

/-- One level, src/mesh/GlobalSimplexMesh.cpp lines 184-282. -/
def level (env : Env) (dist : Nat → List Entry) (st : Nat → List Elem × List Nat) (r : Nat) :
    List Elem × List Nat :=
  let b := boundary env dist st r
  let enum := env.sortElems (b.map (·.1))
  let bE := permuted (b.map (·.1)) enum
  let bG := permuted (b.map (·.2)) enum
  let k := bE.idxOf (invalid env.D)
  ((st r).1 ++ unique (bE.take k), (st r).2 ++ unique (bG.take k))

/-- The loop over levels, src/mesh/GlobalSimplexMesh.cpp lines 184-282. -/
def levels (env : Env) (dist : Nat → List Entry) (st : Nat → List Elem × List Nat) :
    Nat → Nat → List Elem × List Nat
  | 0 => st
  | k + 1 => level env dist (levels env dist st k)

/-- Initial state: sorted elements and contiguous numbers, src/mesh/GlobalSimplexMesh.cpp lines 78-79
and 129. -/
def start (env : Env) (elems : Nat → List Elem) (overlap : Nat) (r : Nat) : List Elem × List Nat :=
  (sortInteriorCopy env elems overlap r,
   (List.range (elems r).length).map (fun i =>
     ((List.range r).map (fun s => (elems s).length)).sum + i))

/-- State after the loop, src/mesh/GlobalSimplexMesh.cpp lines 69-282 (`0 < overlap`). -/
def grown (env : Env) (elems : Nat → List Elem) (overlap : Nat) : Nat → List Elem × List Nat :=
  let st := start env elems overlap
  let dist := distUp env (fun s => entries env s (st s).1 (st s).2 (copyBegin env elems overlap s))
  levels env dist st overlap

/-- `elemDist`, src/mesh/GlobalSimplexMesh.h line 154. -/
def elemDist (env : Env) (elems : Nat → List Elem) : List Nat :=
  Distribute.makeSortedDistribution ((List.range env.P).map (fun s => (elems s).length))

/-- `gid2owner(gid)`, src/mesh/GlobalSimplexMesh.cpp line 285; an out-of-range read gives `P`. -/
def gidOwner (env : Env) (elems : Nat → List Elem) (gid : Nat) : Nat :=
  match Distribute.toRank (elemDist env elems) gid with
  | .ok r => r
  | .ub => env.P

/-- `intCopyGhostOrder`, src/mesh/GlobalSimplexMesh.cpp lines 286-291. -/
def orderKey (env : Env) (elems : Nat → List Elem) (r gid : Nat) : Int × Nat :=
  (if gidOwner env elems gid = r then -1 else (gidOwner env elems gid : Int), gid)

/-- The elements of rank `r`, their global numbers and owners at the end, src/mesh/GlobalSimplexMesh.cpp
lines 69-304. -/
def ghostElements (env : Env) (elems : Nat → List Elem) (overlap r : Nat) :
    List Elem × List Nat × List Nat :=
  if overlap = 0 then
    (elems r, (List.range (elems r).length).map (fun i =>
      ((List.range r).map (fun s => (elems s).length)).sum + i), List.replicate (elems r).length r)
  else
    let g := grown env elems overlap r
    let perm := env.sortKeys (g.2.map (orderKey env elems r))
    let gids := permuted g.2 perm
    (permuted g.1 perm, gids, gids.map (gidOwner env elems))

/-- `rankPerm` on rank `r`: own rank first, then the others ascending, src/mesh/GlobalSimplexMesh.cpp
lines 322-325. -/
def rankPerm (P r : Nat) : List Nat := r :: (List.range r ++ List.range' (r + 1) (P - r - 1))

/-- `counts`, src/mesh/GlobalSimplexMesh.cpp lines 316-319: how many of its elements rank `s` requests from
rank `p`. -/
def elemCounts (env : Env) (elems : Nat → List Elem) (overlap s p : Nat) : Nat :=
  ((ghostElements env elems overlap s).2.1.filter (fun c => gidOwner env elems c = p)).length

/-- `requestedElems`, src/mesh/GlobalSimplexMesh.cpp line 329. -/
def requestedElems (env : Env) (elems : Nat → List Elem) (overlap r : Nat) : List Elem :=
  exch (rankPerm env.P) (elemCounts env elems overlap) (fun s => (ghostElements env elems overlap s).1) r

/-- `getSharedRanks(requestedElems, a2a, &rankPerm)`, src/mesh/GlobalSimplexMesh.cpp line 332: the shared
ranks of all elements one after the other, and their number for each element. -/
def elemSharedRanks (env : Env) (elems : Nat → List Elem) (overlap r : Nat) : List Nat × List Nat :=
  (Faces.sharedRanks env.P (rankPerm env.P) (elemCounts env elems overlap)
    (requestedElems env elems overlap) r,
   Faces.sharedRecvCount env.P (rankPerm env.P) (elemCounts env elems overlap)
    (requestedElems env elems overlap) r)

/-- `elementData->redistributed(lids, a2a)` and `volumeTagData->redistributed(lids, a2a)`,
src/mesh/GlobalSimplexMesh.cpp lines 335-357, with the lookup `makeG2LMap`
(src/mesh/GlobalSimplexMesh.h lines 140-147).  `data s` has one item for each element of rank `s`; `dflt`
stands for an out-of-bounds read. -/
def elemData {δ : Type} (env : Env) (elems : Nat → List Elem) (overlap : Nat) (dflt : δ)
    (data : Nat → List δ) (r : Nat) : List δ :=
  exch (rankPerm env.P) (fun s d => elemCounts env elems overlap d s)
    (fun s => (requestedElems env elems overlap s).map (fun e =>
      (data s).getD ((elems s).idxOf e) dflt)) r

end Tandem.Ghosts
