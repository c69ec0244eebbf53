import Verif.Model.CommPattern
/-!
# Model of `src/parallel/SparseBlockVector.h`, `LocalGhostCompositeView.h`, `ScatterPlan.{h,cpp}`,
`Scatter.h` and `SimpleScatter.h`

Vectors are flat lists; block `i` of a vector with block size `bs` is `slice v (i*bs) bs`.
`std::unordered_map` is an association list without duplicate keys in insertion order; iteration
visits it in an arbitrary order (a permutation, parameter of the theorems).

Assumed MPI semantics: messages between a pair of ranks (same tag and communicator) match in order;
`MPI_Waitall` returns when all receives are filled; a receive without a matching send never completes
(`none` below), and a message longer than the posted receive is an error (`none` below).
-/
namespace Tandem.ScatterPlan
open Tandem.CommPattern (slice writeAt)

/-! ## SparseBlockVector -/

/-- The sentinel `std::numeric_limits<std::size_t>::max()`;
src/parallel/SparseBlockVector.h line 28. -/
def invalid : Nat := 2 ^ 64 - 1

/-- `global_to_local_` after the constructor, src/parallel/SparseBlockVector.h lines 26-33. -/
def globalToLocal (l2g : List Nat) : List Nat :=
  let init := match l2g.max? with
    | none => []
    | some m => List.replicate (m + 1) invalid
  (l2g.zipIdx).foldl (fun g2l p => g2l.set p.1 p.2) init

/-- `has_block`, src/parallel/SparseBlockVector.h lines 39-42. -/
def hasBlock (l2g : List Nat) (idx : Nat) : Bool :=
  match (globalToLocal l2g)[idx]? with
  | none => false
  | some l => l ≠ invalid

/-- Offset in `mem_` of the block returned by `get_block`, src/parallel/SparseBlockVector.h lines
44-52; `none`: the assertion `has_block(idx)` is violated. -/
def blockOffset (l2g : List Nat) (bs idx : Nat) : Option Nat :=
  match (globalToLocal l2g)[idx]? with
  | none => none
  | some l => if l = invalid then none else some (l * bs)

/-- `get_block`: the block's content;
src/parallel/SparseBlockVector.h lines 44-52. -/
def getBlock {α} (l2g : List Nat) (bs : Nat) (mem : List α) (idx : Nat) : Option (List α) :=
  (blockOffset l2g bs idx).map (fun o => slice mem o bs)

/-! ## LocalGhostCompositeView -/

/-- `LocalGhostCompositeView::has_block`, src/parallel/LocalGhostCompositeView.h lines 42-48
(`numLocal` is `handle_.shape(1)`). -/
def viewHasBlock (numLocal : Nat) (l2g : List Nat) (idx : Nat) : Bool :=
  if idx < numLocal then true else hasBlock l2g idx

/-- `LocalGhostCompositeView::get_block`, src/parallel/LocalGhostCompositeView.h lines 49-55. -/
def viewGetBlock {α} (numLocal bs : Nat) (loc : List α) (l2g : List Nat) (ghost : List α) (idx : Nat) :
    Option (List α) :=
  if idx < numLocal then some (slice loc (idx * bs) bs) else getBlock l2g bs ghost idx

/-! ## ScatterPlan -/

/-- What a plan needs to know about a local face;
src/parallel/ScatterPlan.h lines 25-42. -/
structure Face where
  gid : Nat
  owner : Nat
  shared : List Nat
deriving Repr, DecidableEq

/-- `map[key].push_back(v)`;
src/parallel/ScatterPlan.h lines 35 and 38. -/
def push (key v : Nat) : List (Nat × List Nat) → List (Nat × List Nat)
  | [] => [(key, [v])]
  | (k, l) :: m => if k = key then (k, l ++ [v]) :: m else (k, l) :: push key v m

/-- One iteration of the constructor loop, src/parallel/ScatterPlan.h lines 31-40. -/
def planStep (rank : Nat) (maps : List (Nat × List Nat) × List (Nat × List Nat)) (p : Face × Nat) :
    List (Nat × List Nat) × List (Nat × List Nat) :=
  if p.1.owner = rank then (p.1.shared.foldl (fun m sh => push sh p.2 m) maps.1, maps.2)
  else (maps.1, push p.1.owner p.2 maps.2)

/-- The constructor loop, src/parallel/ScatterPlan.h lines 29-40: `(send_map, recv_map)`. -/
def planMaps (rank : Nat) (faces : List Face) : List (Nat × List Nat) × List (Nat × List Nat) :=
  faces.zipIdx.foldl (planStep rank) ([], [])

/-- `CommBlock`, src/parallel/ScatterPlan.h lines 18-22. -/
structure Block where
  offset : Nat
  count : Nat
  peer : Nat
deriving Repr, DecidableEq

/-- `make_indices`, src/parallel/ScatterPlan.cpp lines 7-21. -/
def makeIndices (m : List (Nat × List Nat)) : List Nat := m.flatMap (fun p => p.2)

/-- `make_blocks`, src/parallel/ScatterPlan.cpp lines 26-37. -/
def makeBlocks : Nat → List (Nat × List Nat) → List Block
  | _, [] => []
  | off, (k, l) :: m => ⟨off, l.length, k⟩ :: makeBlocks (off + l.length) m

/-- A plan, src/parallel/ScatterPlan.h lines 62-67. -/
structure Plan where
  sendIdx : List Nat
  recvIdx : List Nat
  sendBlocks : List Block
  recvBlocks : List Block
deriving Repr, DecidableEq

/-- `ScatterPlan::setup`, src/parallel/ScatterPlan.cpp lines 5-41; the maps are given in iteration
order. -/
def setup (sendMap recvMap : List (Nat × List Nat)) : Plan :=
  ⟨makeIndices sendMap, makeIndices recvMap, makeBlocks 0 sendMap, makeBlocks 0 recvMap⟩

/-! ## Scatter -/

/-- Copy to the send buffer, src/parallel/Scatter.h lines 58-64 (SimpleScatter.h lines 34-37). -/
def packed {α} (bs : Nat) (plan : Plan) (x : List α) : List α :=
  plan.sendIdx.flatMap (fun i => slice x (i * bs) bs)

/-- The message posted by `MPI_Isend` for destination `d`, src/parallel/Scatter.h lines 65-69. -/
def message {α} (bs : Nat) (plan : Plan) (x : List α) (d : Nat) : Option (List α) :=
  (plan.sendBlocks.find? (fun b => b.peer = d)).map
    (fun b => slice (packed bs plan x) (b.offset * bs) (b.count * bs))

/-- Completion of the receive for block `b` on rank `d`, src/parallel/Scatter.h lines 52-56; `plans`
and `xs` are the plans and vectors of all ranks. -/
def receive {α} (bs : Nat) (plans : List Plan) (xs : List (List α)) (d : Nat) (y : Option (List α))
    (b : Block) : Option (List α) := do
  let y ← y
  let plan ← plans[b.peer]?
  let x ← xs[b.peer]?
  let msg ← message bs plan x d
  if msg.length ≤ b.count * bs then some (writeAt y (b.offset * bs) msg) else none

/-- `begin_scatter` followed by `wait_scatter` on rank `d`: content of the receive vector `y`, when
the receives complete in the order `arrival`; src/parallel/Scatter.h lines 34-72, 78. -/
def scatter {α} (bs : Nat) (plans : List Plan) (xs : List (List α)) (d : Nat) (y : List α)
    (arrival : List Block) : Option (List α) :=
  arrival.foldl (receive bs plans xs d) (some y)

/-- `SimpleScatter::scatter`, src/parallel/SimpleScatter.h lines 27-52: receive into `recv_buffer_`,
then copy the blocks to their places in `data`. -/
def simpleScatter {α} (bs : Nat) (plans : List Plan) (xs : List (List α)) (d : Nat) (buf : List α)
    (arrival : List Block) : Option (List α) := do
  let data ← xs[d]?
  let plan ← plans[d]?
  let recvd ← scatter bs plans xs d buf arrival
  return (plan.recvIdx.zipIdx).foldl
    (fun data p => writeAt data (p.1 * bs) (slice recvd (p.2 * bs) bs)) data

end Tandem.ScatterPlan
