/-!
# Model of `src/util/LinearAllocator.h`

Addresses are byte addresses (`Nat`); `T` is represented by `elem = sizeof(T)`.  `std::size_t`
arithmetic on sizes is modelled modulo `2^64`; addresses themselves do not wrap.
-/
namespace Tandem.LinearAllocator

/-- 64-bit modulus of `std::size_t`.
The type of src/util/LinearAllocator.h lines 28-30 and 51-52. -/
abbrev W : Nat := 2 ^ 64

/-- `a - b` in `std::size_t`.
Used in src/util/LinearAllocator.h lines 30 and 52. -/
def wsub (a b : Nat) : Nat := (a + (W - b % W)) % W

/-- `allocation_size`, src/util/LinearAllocator.h lines 28-32.  `none`: division by zero. -/
def allocationSize (elem n alignment : Nat) : Option Nat :=
  let size := n * elem % W
  if alignment = 0 ∨ elem = 0 then none
  else
    let aSize := (1 + wsub size 1 / alignment) % W * alignment % W
    some ((1 + wsub aSize 1 / elem) % W)

/-- Members of `LinearAllocator`, src/util/LinearAllocator.h lines 71-75. -/
structure State where
  start : Nat
  stop : Nat
  current : Nat
  alignment : Nat
deriving Repr, DecidableEq

/-- Result of an operation
(of src/util/LinearAllocator.h lines 45-59). -/
inductive Res (α : Type) where
  | ok (a : α)
  /-- `std::invalid_argument` or `std::bad_alloc` -/
  | throw
  /-- undefined behaviour -/
  | ub
deriving Repr, DecidableEq

/-- Constructor, src/util/LinearAllocator.h lines 34-41. -/
def make (start stop alignment : Nat) : Res State :=
  if alignment = 0 then .ub
  else if start % alignment ≠ 0 then .throw
  else .ok { start := start, stop := stop, current := start, alignment := alignment }

/-- `alignment_ > 0 && ((alignment_ & (alignment_ - 1)) == 0)`, src/util/LinearAllocator.h
line 46. -/
def isPowerOfTwo (a : Nat) : Bool := decide (0 < a) && decide (a &&& (a - 1) = 0)

/-- Round up to a multiple of `alignment` (what `std::align` does to the pointer).
Used in src/util/LinearAllocator.h line 53. -/
def roundUp (p alignment : Nat) : Nat := (p + (alignment - 1)) / alignment * alignment

/-- `std::align(alignment, size, ptr, space)`: the aligned pointer if
`size + padding ≤ space`, else null.
Used in src/util/LinearAllocator.h line 53. -/
def stdAlign (alignment size ptr space : Nat) : Option Nat :=
  let p := roundUp ptr alignment
  if size + (p - ptr) ≤ space then some p else none

/-- `allocate`, src/util/LinearAllocator.h lines 45-60: returns the address and the new state.
`end_ - current_` is a pointer difference in elements, so `space` is a multiple of `elem`. -/
def allocate (elem : Nat) (s : State) (n : Nat) : Res (Nat × State) :=
  if !isPowerOfTwo s.alignment then .throw
  else
    let size := n * elem % W
    let space := (s.stop - s.current) / elem * elem
    match stdAlign s.alignment size s.current space with
    | some p => .ok (p, { s with current := p + n * elem })
    | none => .throw

/-- `reset`, src/util/LinearAllocator.h line 62. -/
def reset (s : State) : State := { s with current := s.start }

/-- Client operations;
src/util/LinearAllocator.h lines 45-62. -/
inductive Op where
  | alloc (n : Nat)
  | reset
deriving Repr, DecidableEq

/-- One operation.  The second component is what the client knows: the blocks
`(address, number of bytes)` handed out since the last reset;
src/util/LinearAllocator.h lines 45-62. -/
def step (elem : Nat) (sl : State × List (Nat × Nat)) : Op → State × List (Nat × Nat)
  | .alloc n => match allocate elem sl.1 n with
    | .ok (p, s') => (s', (p, n * elem) :: sl.2)
    | _ => sl
  | .reset => (reset sl.1, [])

/-- A history of operations;
src/util/LinearAllocator.h lines 45-62. -/
def run (elem : Nat) (s : State) (ops : List Op) : State × List (Nat × Nat) :=
  ops.foldl (step elem) (s, [])

end Tandem.LinearAllocator
