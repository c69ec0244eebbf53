/-!
# Model of `src/parallel/Affinity.cpp`

A `cpu_set_t` is a predicate on CPU numbers; `CPU_SETSIZE` is 1024 (glibc).
-/
namespace Tandem.Affinity

/-- `CPU_SETSIZE` of `<sched.h>`, used in src/parallel/Affinity.h line 25. -/
def setSize : Nat := 1024

/-- `bits_per_unit`, src/parallel/Affinity.h line 27. -/
def bitsPerUnit : Nat := 64

/-- The value of `1 << k` (src/parallel/Affinity.cpp lines 47, 56).  The literal `1` is an `int`, so a
shift by 32 or more is undefined: `none`. -/
def shiftStrict (k : Nat) : Option (BitVec 64) :=
  if k < 32 then some ((1#32 <<< k).signExtend 64) else none

/-- The same expression as x86-64 executes it: the shift count is taken modulo 32; the `int` result is
sign-extended when combined with the `uint64_t`;
src/parallel/Affinity.cpp lines 47 and 56. -/
def shiftX86 (k : Nat) : BitVec 64 := (1#32 <<< (k % 32)).signExtend 64

/-- `worker_mask`, src/parallel/Affinity.cpp lines 29-41: the union of the affinity masks of the
threads. -/
def workerMask (threads : List (Nat → Bool)) : Nat → Bool := fun c => threads.any (fun t => t c)

/-- `cpu_set_to_my_set`, src/parallel/Affinity.cpp lines 43-51. -/
def toMySet (set : Nat → Bool) : List (BitVec 64) :=
  (List.range (bitsPerUnit * (setSize / 64))).foldl
    (fun result cpu => if set cpu then
      result.modify (cpu / bitsPerUnit) (· ||| shiftX86 (cpu % bitsPerUnit)) else result)
    (List.replicate (setSize / 64) 0#64)

/-- `my_set_to_cpu_set`, src/parallel/Affinity.cpp lines 52-61, with the x86-64 shift. -/
def ofMySet (set : List (BitVec 64)) : Nat → Bool := fun cpu =>
  decide (cpu < bitsPerUnit * set.length) &&
    decide (set.getD (cpu / bitsPerUnit) 0#64 &&& shiftX86 (cpu % bitsPerUnit) ≠ 0#64)

/-- The loop of `my_set_to_cpu_set` with the shift of the C++ standard: `none` as soon as one of the
evaluated shifts is undefined.  src/parallel/Affinity.cpp lines 55-59. -/
def ofMySetStrict (set : List (BitVec 64)) : Option (List Nat) :=
  (List.range (bitsPerUnit * set.length)).foldlM
    (fun result cpu => do
      let m ← shiftStrict (cpu % bitsPerUnit)
      return if set.getD (cpu / bitsPerUnit) 0#64 &&& m ≠ 0#64 then result ++ [cpu] else result) []

/-- `worker_mask_on_node`, src/parallel/Affinity.cpp lines 63-74: `MPI_Allreduce` with `MPI_BOR` over
the ranks of the node. -/
def workerMaskOnNode (ranks : List (Nat → Bool)) : Nat → Bool :=
  ofMySet ((ranks.map toMySet).foldl (fun a b => List.zipWith (· ||| ·) a b)
    (List.replicate (setSize / 64) 0#64))

/-- The loop of `to_string`, src/parallel/Affinity.cpp lines 18-25; `none` is a write behind the end
of the string. -/
def maskLoop (set : Nat → Bool) (np : Nat) : Nat → Nat → Nat → List Char → Option (List Char)
  | 0, _, _, mask => some mask
  | k + 1, cpu, pos, mask =>
    let sep := cpu % 10 = 0 ∧ cpu ≠ 0 ∧ cpu ≠ np - 1
    if sep ∧ ¬ pos < mask.length then none else
    let mask := if sep then mask.set pos '|' else mask
    let pos := if sep then pos + 1 else pos
    if set cpu ∧ ¬ pos < mask.length then none else
    let mask := if set cpu then mask.set pos (Char.ofNat ('0'.toNat + cpu % 10)) else mask
    maskLoop set np k (cpu + 1) (pos + 1) mask

/-- `to_string`, src/parallel/Affinity.cpp lines 13-27, `np = get_nprocs() > 0`. -/
def toString (set : Nat → Bool) (np : Nat) : Option (List Char) :=
  maskLoop set np np 0 0 (List.replicate (np + (np - 1) / 10) '-')

end Tandem.Affinity
