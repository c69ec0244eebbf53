import Mathlib.Order.Defs.LinearOrder
import Mathlib.Order.Nat
/-!
# Model of probe placement: src/io/ProbeWriterUtil.h, src/io/ProbeWriter.cpp, src/io/BoundaryProbeWriter.cpp

All ranks are modelled together: the located probes of rank `r` are the `r`-th list.  Distances are
elements of a linear order (no NaN) and `dmax` stands for `std::numeric_limits<double>::max()`.
-/
namespace Tandem.Probes

variable {α R : Type} [LinearOrder α]

/-- A located probe: probe number, distance, and the rest of the locator's result,
src/io/ProbeWriterUtil.h line 14. -/
structure Located (α R : Type) where
  id : Nat
  dist : α
  result : R

/-- `MPI_Allreduce(MPI_IN_PLACE, v, n, type, MPI_MIN, comm)` as used in src/io/ProbeWriterUtil.h lines 26
and 37: the componentwise minimum over all ranks. -/
def allreduceMin {β : Type} [LinearOrder β] : List (List β) → List β
  | [] => []
  | [v] => v
  | v :: vs => List.zipWith min v (allreduceMin vs)

/-- `std::numeric_limits<int>::max()`, src/io/ProbeWriterUtil.h lines 34 and 40. -/
def intMax : Nat := 2 ^ 31 - 1

/-- `min_rank` of one rank before the reduction, src/io/ProbeWriterUtil.h lines 31-35. -/
def localMinRank (minDist : List α) (rank : Nat) (located : List (Located α R)) : Option (List Nat) :=
  located.foldlM (fun mr p => do
      let md ← minDist[p.id]?
      if p.id < mr.length then some (mr.set p.id (if p.dist = md then rank else intMax)) else none)
    (List.replicate minDist.length 0)

/-- `clean_duplicate_probes` on all ranks, src/io/ProbeWriterUtil.h lines 12-57; `none` stands for the
exception of lines 41-46 (or undefined behaviour). -/
def cleanDuplicateProbes (dmax : α) (located : List (List (Located α R))) :
    Option (List (List (Located α R))) := do
  let minDist := allreduceMin (located.map (fun l => l.map (·.dist)))
  let ranks ← (List.range located.length).mapM
    (fun r => localMinRank minDist r (located.getD r []))
  let minRank := allreduceMin ranks
  if (List.range minRank.length).any
      (fun i => minDist.getD i dmax == dmax || minRank.getD i intMax == intMax) then none else
  return (List.range located.length).map (fun r =>
    (located.getD r []).filter (fun p => r == minRank.getD p.id intMax))

/-- The numbering of the elements that carry probes, src/io/ProbeWriter.cpp lines 39-46 (and
src/io/BoundaryProbeWriter.cpp lines 40-47): `order` is the iteration order of the `unordered_set`,
`toNo` is the identity for volume probes and `bnd_map.bndNo` for boundary probes.  Result: `elNos_` and
the map `elNo2OutNo`. -/
def numberElements (toNo : Nat → Nat) (order : List Nat) : List Nat × (Nat → Nat) :=
  order.foldl (fun (s : List Nat × (Nat → Nat)) el =>
    (s.1 ++ [toNo el], fun x => if x = el then s.1.length else s.2 x)) ([], fun _ => 0)

/-- The `no` of the probe metadata, src/io/ProbeWriter.cpp line 53, src/io/BoundaryProbeWriter.cpp
line 54. -/
def probeNo (toNo : Nat → Nat) (order : List Nat) (element : Nat) : Nat :=
  (numberElements toNo order).2 element

end Tandem.Probes
