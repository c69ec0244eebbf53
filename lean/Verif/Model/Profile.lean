import Mathlib.Data.Rat.Defs
import Mathlib.Algebra.Order.Ring.Rat
import Mathlib.Data.List.Sort
/-! # The profile of a run: stopwatches per region and the table over all ranks

Simplifications: the clock is an argument (nanoseconds of the monotonic clock); floating point is exact; the four vectors of
`Profile`, which always have the same length, are one list. -/
namespace Tandem.Profile

/-- `Stopwatch`, src/util/Stopwatch.h lines 34-39: start of the running interval and time so far, in nanoseconds. -/
structure Watch where
  start : ℤ := 0
  time : ℤ := 0
deriving DecidableEq

/-- `start`, src/util/Stopwatch.h line 12. -/
def Watch.begin (w : Watch) (now : ℤ) : Watch := { w with start := now }

/-- `pause`, src/util/Stopwatch.h lines 20-25: add the interval since the start. -/
def Watch.pause (w : Watch) (now : ℤ) : Watch := { w with time := w.time + (now - w.start) }

/-- `stop`, src/util/Stopwatch.h lines 27-31: the seconds so far; the time is reset. -/
def Watch.stop (w : Watch) (now : ℤ) : ℚ × Watch :=
  let w := w.pause now
  (1 / 1000000000 * w.time, { w with time := 0 })

/-- One entry of `watches_`, `regions_`, `times_` and `flops_`, src/parallel/Profile.h lines 37-40. -/
structure Region where
  name : String
  watch : Watch := {}
  time : ℚ := 0
  flops : ℕ := 0
deriving DecidableEq

/-- `add`, src/parallel/Profile.cpp lines 10-16: the new profile and the number of the region. -/
def add (p : List Region) (name : String) : List Region × ℕ :=
  let q := p ++ [({ name := name } : Region)]
  (q, q.length - 1)

/-- `get`, src/parallel/Profile.cpp lines 18-22: the number of the first region of the name, or the number of regions. -/
def get (p : List Region) (name : String) : ℕ := p.findIdx (fun r => r.name == name)

/-- A call of `begin` or `end`, src/parallel/Profile.h lines 23-28, with the clock. -/
inductive Event where
  | begin (region : ℕ) (now : ℤ)
  | stop (region : ℕ) (now : ℤ) (flops : ℕ)
deriving DecidableEq

/-- The region an event belongs to: the argument of `begin` or `end`, src/parallel/Profile.h lines 23-28. -/
def Event.region : Event → ℕ
  | .begin r _ => r
  | .stop r _ _ => r

/-- `begin` and `end` for one region, src/parallel/Profile.h lines 23-28; the counter of operations has 64 bits. -/
def Region.step (x : Region) : Event → Region
  | .begin _ now => { x with watch := x.watch.begin now }
  | .stop _ now flops =>
    let s := x.watch.stop now
    { x with watch := s.2, time := x.time + s.1, flops := (x.flops + flops) % 2 ^ 64 }

/-- `begin` and `end`, src/parallel/Profile.h lines 23-28: `none` if the region does not exist. -/
def step (p : List Region) (e : Event) : Option (List Region) :=
  if h : e.region < p.length then some (p.set e.region (p[e.region].step e)) else none

/-- A sequence of calls, src/parallel/Profile.h lines 23-28. -/
def run (p : List Region) : List Event → Option (List Region)
  | [] => some p
  | e :: es => (step p e).bind (run · es)

/-- `Summary`, src/parallel/Summary.h lines 8-15. -/
structure Summary where
  min : ℚ
  median : ℚ
  mean : ℚ
  max : ℚ
deriving DecidableEq

/-- The constructor of `Summary` on rank 0 with the values of all ranks, src/parallel/Summary.cpp lines 14-27. -/
def summary (gathered : List ℚ) : Summary :=
  let N := gathered.length
  let values := gathered.insertionSort (· ≤ ·)
  { min := values.getD 0 0
    median := if N % 2 = 1 then values.getD (N / 2) 0 else 0.5 * (values.getD (N / 2 - 1) 0 + values.getD (N / 2) 0)
    mean := values.foldl (· + ·) 0 / N
    max := values.getD (values.length - 1) 0 }

/-- A row of the table, src/parallel/Profile.cpp lines 45-51. -/
structure Row where
  name : String
  times : Summary
  tflop : ℚ
  gflops : ℚ
deriving DecidableEq

/-- `print_summary`, src/parallel/Profile.cpp lines 45-51: the times and the operations of all ranks; `MPI_SUM` of 64 bits. -/
def printSummary (name : String) (times : List ℚ) (flops : List ℕ) : Row :=
  let s := summary times
  let g : ℕ := flops.foldl (fun a b => (a + b) % 2 ^ 64) 0
  ⟨name, s, g * (1 / 1000000000000), g / s.max * (1 / 1000000000)⟩

/-- `print`, src/parallel/Profile.cpp lines 24-62: nothing without regions; else a row for each region and a row with the
totals of each rank, `total_time` and `total_flops` being summed over the regions. All ranks have the regions of rank 0. -/
def print (ranks : List (List Region)) : List Row :=
  let regions := (ranks.headD []).map (·.name)
  if regions = [] then []
  else
    (List.range regions.length).map (fun i =>
      printSummary (regions.getD i "") (ranks.map fun p => (p[i]?).elim 0 (·.time)) (ranks.map fun p => (p[i]?).elim 0 (·.flops))) ++
    [printSummary "Total" (ranks.map fun p => p.foldl (fun a x => a + x.time) 0)
      (ranks.map fun p => p.foldl (fun a x => (a + x.flops) % 2 ^ 64) 0)]

/-- The profile of the fully dynamic mode after the constructor, app/form/SeasFDOperator.cpp lines 18-20. -/
def fdProfile : List Region := (add (add (add [] "dv").1 "du").1 "ds").1

/-- The calls of one `SeasFDOperator::rhs`, app/form/SeasFDOperator.cpp lines 56, 69, 71, 82, 84 and 88, at the clock readings `c`; the
operations of `du` are `flops_apply` (line 22), the others zero (app/form/SeasFDOperator.h line 118). -/
def fdRhs (flopsApply : ℕ) (c : Fin 6 → ℤ) : List Event :=
  [.begin 0 (c 0), .stop 0 (c 1) 0, .begin 1 (c 2), .stop 1 (c 3) flopsApply, .begin 2 (c 4), .stop 2 (c 5) 0]

end Tandem.Profile
