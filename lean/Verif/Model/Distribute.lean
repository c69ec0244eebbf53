/-!
# Model of `src/parallel/Distribute.h` and `src/parallel/SortedDistribution.{h,cpp}`

Indices are natural numbers; `std::size_t` wrap-around is modelled where the code can reach it
(`dist.back() - 1` with `dist.back() == 0`).
-/
namespace Tandem.Distribute

/-- `distribute(range, rank, size)`, src/parallel/Distribute.h lines 8-13: the pair (from, to).
`none`: division by zero. -/
def distribute (rfrom rto rank size : Nat) : Option (Nat × Nat) :=
  if size = 0 then none else
  let length := rto - rfrom
  let perRank := length / size
  let extras := length - perRank * size
  let from' := rfrom + rank * perRank + (if rank < extras then rank else extras)
  some (from', from' + perRank + (if rank < extras then 1 else 0))

/-- `makeSortedDistribution`, src/parallel/SortedDistribution.cpp lines 8-20, as computed on every
rank after `MPI_Allgather` delivered the list `nums` of all ranks' numbers: running sums. -/
def prefixSums : Nat → List Nat → List Nat
  | acc, [] => [acc]
  | acc, n :: ns => acc :: prefixSums (acc + n) ns

/-- See `prefixSums`: `dist[0] = 0`, `dist[p] += dist[p-1]`;
src/parallel/SortedDistribution.cpp lines 8-20. -/
def makeSortedDistribution (nums : List Nat) : List Nat := prefixSums 0 nums

/-- Result of a lookup.
Used for src/parallel/SortedDistribution.cpp lines 22-33. -/
inductive Res (α : Type) where
  | ok (a : α)
  /-- division by zero, or a read outside of the array -/
  | ub
deriving Repr, DecidableEq

/-- `guessSize`, src/parallel/SortedDistribution.h lines 13-14, modulo 2^64. -/
def guessSize (dist : List Nat) : Res Nat :=
  match dist.getLast? with
  | none => .ub
  | some back =>
    if dist.length - 1 = 0 then .ub
    else .ok ((1 + (back + (2 ^ 64 - 1)) % 2 ^ 64 / (dist.length - 1)) % 2 ^ 64)

/-- First loop of the lookup, src/parallel/SortedDistribution.cpp lines 26-28. -/
def down (dist : List Nat) (id : Nat) : Nat → Res Nat
  | 0 => .ok 0
  | g + 1 =>
    match dist[g + 1]? with
    | none => .ub
    | some d => if id < d then down dist id g else .ok (g + 1)

/-- Second loop of the lookup, src/parallel/SortedDistribution.cpp lines 29-31; `todo` is
`procs - guess`. -/
def up (dist : List Nat) (id : Nat) : Nat → Nat → Res Nat
  | 0, g => .ok g
  | todo + 1, g =>
    match dist[g + 1]? with
    | none => .ub
    | some d => if id ≥ d then up dist id todo (g + 1) else .ok g

/-- `SortedDistributionToRank::operator()`, src/parallel/SortedDistribution.cpp lines 22-33. -/
def toRank (dist : List Nat) (id : Nat) : Res Nat :=
  match guessSize dist with
  | .ub => .ub
  | .ok gs =>
    if gs = 0 then .ub else
    match down dist id (id / gs) with
    | .ub => .ub
    | .ok g => up dist id (dist.length - 1 - g) g

end Tandem.Distribute
