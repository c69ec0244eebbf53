import Verif.Model.LocalFaces
import Mathlib.Order.Defs.LinearOrder
/-!
# Model of `GlobalSimplexMesh::getFaces`, `getContiguousGIDs`, `getSharedRanks`

(src/mesh/GlobalSimplexMesh.h lines 188-404.)  All `P` ranks are modelled together; a quantity of rank
`r` is a function of `r`.  `σ` is the type of faces; `plex2rank : σ → Nat` the rendezvous rank of a
face (lines 188-201), the same function on every rank.  `dw r` lists, for every local or ghost element
of rank `r`, the faces returned by `downward<DD>()` (see `Tandem.Simplex.downward`).
`std::set`/`std::map` keyed by faces are strictly increasing lists.
-/
namespace Tandem.Faces
open Tandem.CommPattern (exch slice)
open Tandem.LocalFaces (LocalFaces permute)

variable {σ : Type} [LinearOrder σ]

/-- `std::set<Simplex>::insert`, used in src/mesh/GlobalSimplexMesh.h line 226. -/
def setInsert (x : σ) : List σ → List σ
  | [] => [x]
  | y :: ys => if x < y then x :: y :: ys else if x = y then y :: ys else y :: setInsert x ys

/-- `requiredFaces[p]` after the loop, src/mesh/GlobalSimplexMesh.h lines
218, 222-226. -/
def required (plex2rank : σ → Nat) (p : Nat) (occ : List σ) : List σ :=
  occ.foldl (fun s f => if plex2rank f = p then setInsert f s else s) []

/-- `if (faceOrder.find(s) == end) faceOrder[s] = faceNo++`, src/mesh/GlobalSimplexMesh.h lines
219, 227-229: `faceOrder` is the list of
faces in the order of their numbers. -/
def orderStep (order : List σ) (f : σ) : List σ := if f ∈ order then order else order ++ [f]

/-- The loop over elements, src/mesh/GlobalSimplexMesh.h lines 222-234, from element `k` on: final `faceOrder` and `localSize`. -/
def scan (elemsLocalSize : Nat) : Nat → List (List σ) → List σ × Nat → List σ × Nat
  | _, [], st => st
  | k, fs :: rest, (order, ls) =>
    let o := fs.foldl orderStep order
    scan elemsLocalSize (k + 1) rest (o, if k < elemsLocalSize then o.length else ls)

/-- `counts[p]` of rank `s`, src/mesh/GlobalSimplexMesh.h lines 235-241. -/
def counts (plex2rank : σ → Nat) (occ : Nat → List σ) (s p : Nat) : Nat :=
  (required plex2rank p (occ s)).length

/-- `faces` of rank `s`, src/mesh/GlobalSimplexMesh.h lines 243, 245, 247-248. -/
def requestBuf (P : Nat) (plex2rank : σ → Nat) (occ : List σ) : List σ :=
  (List.range P).flatMap (fun p => required plex2rank p occ)

/-- `owner` of rank `s`, src/mesh/GlobalSimplexMesh.h lines 244, 246-250. -/
def ownerBuf (P : Nat) (plex2rank : σ → Nat) (occ : List σ) : List Nat :=
  (List.range P).flatMap (fun p => List.replicate (required plex2rank p occ).length p)

/-- `requestedFaces` on rank `r`, src/mesh/GlobalSimplexMesh.h lines 253-255. -/
def requested (P : Nat) (plex2rank : σ → Nat) (occ : Nat → List σ) (r : Nat) : List σ :=
  exch (fun _ => List.range P) (counts plex2rank occ) (fun s => requestBuf P plex2rank (occ s)) r

/-- An exchange after `a2a.swap()`, src/mesh/GlobalSimplexMesh.h line 256: the numbers of items are transposed. -/
def replyExchange {τ : Type} (P : Nat) (plex2rank : σ → Nat) (occ : Nat → List σ)
    (bufs : Nat → List τ) (r : Nat) : List τ :=
  exch (fun _ => List.range P) (fun s d => counts plex2rank occ d s) bufs r

/-- Keys of `ownedFacesToCGID`, src/mesh/GlobalSimplexMesh.h lines 321-324. -/
def ownedSet (P : Nat) (plex2rank : σ → Nat) (occ : Nat → List σ) (r : Nat) : List σ :=
  (requested P plex2rank occ r).foldl (fun s f => setInsert f s) []

/-- `gidOffset`, src/mesh/GlobalSimplexMesh.h lines 326-329: `MPI_Scan` is the inclusive prefix sum, minus the own contribution. -/
def gidOffset (P : Nat) (plex2rank : σ → Nat) (occ : Nat → List σ) (r : Nat) : Nat :=
  ((List.range (r + 1)).map (fun s => (ownedSet P plex2rank occ s).length)).sum
    - (ownedSet P plex2rank occ r).length

/-- `ownedFacesToCGID[face]` on rank `r`, src/mesh/GlobalSimplexMesh.h lines 331-334. -/
def cGID (P : Nat) (plex2rank : σ → Nat) (occ : Nat → List σ) (r : Nat) (f : σ) : Nat :=
  gidOffset P plex2rank occ r + (ownedSet P plex2rank occ r).idxOf f

/-- The number rank `p` answers for face `f`, src/mesh/GlobalSimplexMesh.h lines 313-316 (`vertexNo` is
`some` for `DD = 0`: the vertex number) and 336-338. -/
def answer (P : Nat) (plex2rank : σ → Nat) (occ : Nat → List σ) (vertexNo : Option (σ → Nat))
    (p : Nat) (f : σ) : Nat :=
  match vertexNo with
  | some g => g f
  | none => cGID P plex2rank occ p f

/-- `getContiguousGIDs`, src/mesh/GlobalSimplexMesh.h lines 308-343. -/
def contiguousGIDs (P : Nat) (plex2rank : σ → Nat) (occ : Nat → List σ) (vertexNo : Option (σ → Nat))
    (r : Nat) : List Nat :=
  replyExchange P plex2rank occ (fun p => (requested P plex2rank occ p).map
    (answer P plex2rank occ vertexNo p)) r

/-- Items of `buf` in `a2a.sendRange(p)` on rank `r` (after the swap), src/parallel/CommPattern.h
line 34: `p`'s stretch of the buffer, the stretches being in the order of `π r`.  `cnt s d` is the
number of items rank `s` requests from rank `d`. -/
def rangeOf {τ : Type} (π : Nat → List Nat) (cnt : Nat → Nat → Nat) (r : Nat) (buf : List τ)
    (p : Nat) : List τ :=
  slice buf (((π r).takeWhile (· ≠ p)).map (fun s => cnt s r)).sum (cnt p r)

/-- `sharedRanksInfo[f]` on rank `r`, src/mesh/GlobalSimplexMesh.h lines 351-356. -/
def sharedInfo (P : Nat) (π : Nat → List Nat) (cnt : Nat → Nat → Nat) (req : Nat → List σ) (r : Nat)
    (f : σ) : List Nat :=
  (List.range P).flatMap (fun p => ((rangeOf π cnt r (req r) p).filter (fun g => g = f)).map (fun _ => p))

/-- `sharedRanksSendCount`, src/mesh/GlobalSimplexMesh.h lines 358-367. -/
def sharedSendCount (P : Nat) (π : Nat → List Nat) (cnt : Nat → Nat → Nat) (req : Nat → List σ)
    (r : Nat) : List Nat :=
  (req r).map (fun f => (sharedInfo P π cnt req r f).length - 1)

/-- `sharedRanksRecvCount`, src/mesh/GlobalSimplexMesh.h line 369. -/
def sharedRecvCount (P : Nat) (π : Nat → List Nat) (cnt : Nat → Nat → Nat) (req : Nat → List σ)
    (r : Nat) : List Nat :=
  exch π (fun s d => cnt d s) (sharedSendCount P π cnt req) r

/-- `requestedSharedRanks`, src/mesh/GlobalSimplexMesh.h lines 371-382; the loop runs through the ranks
in the order of the rank permutation. -/
def requestedShared (P : Nat) (π : Nat → List Nat) (cnt : Nat → Nat → Nat) (req : Nat → List σ)
    (r : Nat) : List Nat :=
  (π r).flatMap (fun p =>
    (rangeOf π cnt r (req r) p).flatMap (fun f => (sharedInfo P π cnt req r f).filter (fun s => s ≠ p)))

/-- `sendcounts` of the second exchange, src/mesh/GlobalSimplexMesh.h lines
383, 385-389. -/
def sharedSendcounts (P : Nat) (π : Nat → List Nat) (cnt : Nat → Nat → Nat) (req : Nat → List σ)
    (r p : Nat) : Nat :=
  (rangeOf π cnt r (sharedSendCount P π cnt req r) p).sum

/-- `recvcounts` of the second exchange, src/mesh/GlobalSimplexMesh.h lines
384, 390-394. -/
def sharedRecvcounts (P : Nat) (π : Nat → List Nat) (cnt : Nat → Nat → Nat) (req : Nat → List σ)
    (r p : Nat) : Nat :=
  (slice (sharedRecvCount P π cnt req r)
    (((π r).takeWhile (· ≠ p)).map (fun s => cnt r s)).sum (cnt r p)).sum

/-- `sharedRanks`, src/mesh/GlobalSimplexMesh.h lines 396-401. -/
def sharedRanks (P : Nat) (π : Nat → List Nat) (cnt : Nat → Nat → Nat) (req : Nat → List σ)
    (r : Nat) : List Nat :=
  exch π (sharedSendcounts P π cnt req) (requestedShared P π cnt req) r

/-- The `LocalFaces` object before sorting, src/mesh/GlobalSimplexMesh.h lines 258-294.  `val p f` is the data item rank `p`
attaches to the requested face `f` (vertex coordinates or boundary condition, see C30). -/
def unsorted {δ : Type} (P : Nat) (plex2rank : σ → Nat) (dw : Nat → List (List σ))
    (elemsLocalSize : Nat → Nat) (vertexNo : Option (σ → Nat)) (val : Option (Nat → σ → δ)) (r : Nat) :
    LocalFaces σ δ :=
  let occ := fun s => (dw s).flatten
  ⟨requestBuf P plex2rank (occ r), ownerBuf P plex2rank (occ r),
   contiguousGIDs P plex2rank occ vertexNo r,
   (scan (elemsLocalSize r) 0 (dw r) ([], 0)).2,
   sharedRanks P (fun _ => List.range P) (counts plex2rank occ) (requested P plex2rank occ) r,
   sharedRecvCount P (fun _ => List.range P) (counts plex2rank occ) (requested P plex2rank occ) r,
   val.map (fun v => replyExchange P plex2rank occ
     (fun p => (requested P plex2rank occ p).map (v p)) r), none⟩

/-- `faceOrder[lf.faces()[a]]`, src/mesh/GlobalSimplexMesh.h lines 300-302. -/
def sortKey {δ : Type} (dw : List (List σ)) (lf : LocalFaces σ δ) (a : Nat) : Nat :=
  match lf.faces[a]? with
  | none => 0
  | some f => (scan 0 0 dw ([], 0)).1.idxOf f

/-- `getFaces`, src/mesh/GlobalSimplexMesh.h lines 209-306, on rank `r`; `perm` is the permutation computed by `std::sort` in lines
297-302. -/
def getFaces {δ : Type} (P : Nat) (plex2rank : σ → Nat) (dw : Nat → List (List σ))
    (elemsLocalSize : Nat → Nat) (vertexNo : Option (σ → Nat)) (val : Option (Nat → σ → δ))
    (perm : List Nat) (r : Nat) : Option (LocalFaces σ δ) :=
  let lf := unsorted P plex2rank dw elemsLocalSize vertexNo val r
  permute lf.faces.length lf perm

end Tandem.Faces
