/-!
# Model of `src/parallel/CommPattern.{h,cpp}`: `make_displs`, `AllToAllV`

All ranks are modelled together; rank `r`'s `AllToAllV` object is one record.  Counts are natural
numbers (the code uses `int`; overflow of the 32-bit counters is not modelled).

Assumed library semantics (MPI standard):
* `MPI_Alltoall` of one `int` per rank: `recv_r[s] = send_s[r]`.
* `MPI_Alltoallv`: the `sendcounts_s[r]` items at offset `sdispls_s[r]` of `s`'s send buffer are
  placed at offset `rdispls_r[s]` of `r`'s receive buffer.  The order in which the blocks arrive is
  not specified; the model takes it as a parameter.
-/
namespace Tandem.CommPattern

/-- The loop of `make_displs`, src/parallel/CommPattern.cpp lines 13-15; `todo` iterations from `p`. -/
def displLoop (counts : List Nat) (perm : Nat → Nat) : Nat → Nat → List Nat → Option (List Nat)
  | 0, _, displs => some displs
  | todo + 1, p, displs => do
    let d ← displs[perm p]?
    let c ← counts[perm p]?
    if perm (p + 1) < displs.length then
      displLoop counts perm todo (p + 1) (displs.set (perm (p + 1)) (d + c))
    else none

/-- `make_displs`, src/parallel/CommPattern.cpp lines 9-16.  `none`: access out of bounds (also for
empty `counts`). -/
def makeDispls (counts : List Nat) (perm : Nat → Nat) : Option (List Nat) :=
  let displs := List.replicate counts.length 0
  if perm 0 < displs.length then
    displLoop counts perm (counts.length - 1) 0 (displs.set (perm 0) 0)
  else none

/-- Members of `AllToAllV`, src/parallel/CommPattern.h lines 63-68. -/
structure A2A where
  sendcounts : List Nat
  recvcounts : List Nat
  sdispls : List Nat
  rdispls : List Nat
deriving Repr, DecidableEq

/-- Constructor with send counts only, src/parallel/CommPattern.cpp lines 18-28, on rank `r`, where
`allSend` lists the send counts of all ranks. -/
def make (allSend : List (List Nat)) (r : Nat) : Option A2A := do
  let sendcounts ← allSend[r]?
  let recvcounts := allSend.map (fun sc => sc.getD r 0)
  let sdispls ← makeDispls sendcounts id
  let rdispls ← makeDispls recvcounts id
  return { sendcounts, recvcounts, sdispls, rdispls }

/-- `AllToAllV::swap`, src/parallel/CommPattern.cpp lines 40-43. -/
def swap (a : A2A) : A2A :=
  { sendcounts := a.recvcounts, recvcounts := a.sendcounts, sdispls := a.rdispls, rdispls := a.sdispls }

/-- `AllToAllV::setRankPermutation`, src/parallel/CommPattern.cpp lines 45-48. -/
def setRankPermutation (perm : List Nat) (a : A2A) : Option A2A := do
  let sdispls ← makeDispls a.sendcounts (fun p => perm.getD p 0)
  let rdispls ← makeDispls a.recvcounts (fun p => perm.getD p 0)
  return { a with sdispls := sdispls, rdispls := rdispls }

/-- `Range` slice of a buffer: what `sendRange(p)` / `recvRange(p)` denote,
src/parallel/CommPattern.h lines 33-34. -/
def slice {α} (buf : List α) (off len : Nat) : List α := (buf.drop off).take len

/-- Overwrite the items from `off` on.
What `MPI_Alltoallv` does to the receive buffer, src/parallel/CommPattern.h lines 40-42. -/
def writeAt {α} (buf : List α) (off : Nat) (data : List α) : List α :=
  buf.take off ++ data ++ buf.drop (off + data.length)

/-- `AllToAllV::exchange`, src/parallel/CommPattern.h lines 36-43, as seen by rank `r`: the receive
buffer has `sum recvcounts` value-initialised items; then the blocks from all sources arrive in some
order.  `as` and `sends` list the objects and send buffers of all ranks. -/
def exchange {α} (zero : α) (as : List A2A) (sends : List (List α)) (r : Nat)
    (arrival : List Nat) : List α :=
  let me := as.getD r ⟨[], [], [], []⟩
  arrival.foldl (fun buf s =>
      let other := as.getD s ⟨[], [], [], []⟩
      writeAt buf (me.rdispls.getD s 0)
        (slice (sends.getD s []) (other.sdispls.getD r 0) (other.sendcounts.getD r 0)))
    (List.replicate me.recvcounts.sum zero)

end Tandem.CommPattern

namespace Tandem.CommPattern

/-- Whole-machine view of `AllToAllV::exchange` (src/parallel/CommPattern.h lines 36-43): rank `s`
sends `cnt s d` items to rank `d`; the buffers of rank `s` are laid out in the order `π s` of its rank
permutation (ascending rank order unless `setRankPermutation` was called).  That the member-level model
`exchange` computes this is theorem `exchange_eq_exch`. -/
def exch {α} (π : Nat → List Nat) (cnt : Nat → Nat → Nat) (bufs : Nat → List α) (r : Nat) : List α :=
  (π r).flatMap (fun s => slice (bufs s) (((π s).takeWhile (· ≠ r)).map (cnt s)).sum (cnt s r))

end Tandem.CommPattern
