/-!
# Model of `src/util/Combinatorics.h`

`unsigned` is modelled by `Nat`; places where the unsigned subtraction would wrap are marked.
-/
namespace Tandem.Combinatorics

/-- `binom`, src/util/Combinatorics.h lines 15-19.  `none`: the recursion reaches `n = 0` with
`k ≥ 2`, where the C++ computes `n - 1 = UINT_MAX` and recurses on from there. -/
def binom : Nat → Nat → Option Nat
  | 0, k => if k = 0 then some 1 else if k = 1 then some 0 else none
  | n + 1, k =>
    if k = 0 ∨ k = n + 1 then some 1
    else if k = 1 ∨ k = n then some (n + 1)
    else match binom n (k - 1), binom n k with
      | some a, some b => some (a + b)
      | _, _ => none

/-- `std::iota` over `len` cells starting with value `x`.
Used in src/util/Combinatorics.h lines 25 and 34. -/
def iota (x : Nat) : Nat → List Nat
  | 0 => []
  | len + 1 => x :: iota (x + 1) len

/-- `Choose<k>::Choose(n)`, src/util/Combinatorics.h lines 23-26: the current tuple is
`0, 1, ..., k-1`. -/
def chooseInit (k : Nat) : List Nat := iota 0 k

/-- The loop of `Choose<k>::next`, src/util/Combinatorics.h lines 31-38; the first argument is
`i + 1` (so `0` means the loop is over and `false` is returned).  `none` means `false` (the tuple
is left unchanged).  `n - (k - i)` is unsigned in C++; the constructor asserts `n ≥ k`. -/
def chooseNextFrom (n k : Nat) (c : List Nat) : Nat → Option (List Nat)
  | 0 => none
  | i + 1 =>
    match c[i]? with
    | none => none
    | some x =>
      if x < n - (k - i) then some (c.take i ++ (x + 1) :: iota ((x + 1) + 1) (k - (i + 1)))
      else chooseNextFrom n k c i

/-- `Choose<k>::next`, src/util/Combinatorics.h lines 30-39. -/
def chooseNext (n k : Nat) (c : List Nat) : Option (List Nat) := chooseNextFrom n k c k

/-- `do { visit(choose.current()); } while (choose.next());` as used in src/mesh/Simplex.h
lines 87-94.  `none`: more than `fuel` calls of `next` succeeded. -/
def chooseLoop (n k : Nat) : Nat → List Nat → Option (List (List Nat))
  | fuel, c =>
    match chooseNext n k c with
    | none => some [c]
    | some c' => match fuel with
      | 0 => none
      | fuel + 1 => (chooseLoop n k fuel c').map (fun t => c :: t)

/-- All tuples visited starting from a fresh `Choose<k>(n)`;
src/util/Combinatorics.h lines 21-44; the loop is the one of src/mesh/Simplex.h lines 87-94. -/
def chooseVisit (n k fuel : Nat) : Option (List (List Nat)) := chooseLoop n k fuel (chooseInit k)

/-- `AllIntegerSumsIterator::operator++`, src/util/Combinatorics.h lines 65-73:
`d` runs to the first position with `markers[d] != markers[d+1]` (or `D-1`), that marker is
incremented and all markers before it are set to zero. -/
def sumsStep : List Nat → List Nat
  | [] => []
  | [x] => [x + 1]
  | x :: y :: ys => if x = y then 0 :: sumsStep (y :: ys) else (x + 1) :: y :: ys

/-- Constructor of `AllIntegerSumsIterator`, src/util/Combinatorics.h lines 55-60. -/
def sumsMake (D : Nat) (enableLess : Bool) (f maxSum : Nat) : List Nat :=
  if enableLess then List.replicate D f else List.replicate (D - 1) f ++ [maxSum]

/-- `std::adjacent_difference`: first element, then differences of neighbours (unsigned
subtraction; the visited marker lists are non-decreasing, which is part of the proofs).
Used in src/util/Combinatorics.h line 82. -/
def adjacentDifference : List Nat → List Nat
  | [] => []
  | x :: xs => x :: (List.zipWith (fun a b => b - a) (x :: xs) xs)

/-- `AllIntegerSumsIterator::operator*`, src/util/Combinatorics.h lines 80-84: the differences are
written from the back (`i.rbegin()`). -/
def sumsDeref (markers : List Nat) : List Nat := (adjacentDifference markers).reverse

/-- The range-for loop over `AllIntegerSums<D, EnableLess>(maxSum)`, src/util/Combinatorics.h
lines 106-107 (`begin` and `end`). `none`: not finished after `fuel` iterations. -/
def sumsLoop (stop : List Nat) : Nat → List Nat → Option (List (List Nat))
  | fuel, m =>
    if m = stop then some []
    else match fuel with
      | 0 => none
      | fuel + 1 => (sumsLoop stop fuel (sumsStep m)).map (fun t => sumsDeref m :: t)

/-- All tuples visited by `for (auto i : AllIntegerSums<D, EnableLess>(N))`;
src/util/Combinatorics.h lines 102-111. -/
def sumsVisit (D : Nat) (enableLess : Bool) (N fuel : Nat) : Option (List (List Nat)) :=
  sumsLoop (sumsStep (sumsMake D enableLess N N)) fuel (sumsMake D enableLess 0 N)

/-! ## `src/util/Permutation.h` -/

/-- `std::bitset<N>` as a characteristic function (bits `≥ N` are ignored by `count`).
`seen`, src/util/Permutation.h line 24. -/
abbrev Bitset := Nat → Bool

/-- `std::bitset<N>::operator<<`: bit `j` of the result is bit `j - s`, zero for `j < s`; bits
moved to positions `≥ N` are dropped (by `count`).
Used in src/util/Permutation.h line 28. -/
def shiftLeft (b : Bitset) (s : Nat) : Bitset := fun j => decide (s ≤ j) && b (j - s)

/-- `std::bitset<N>::count`.
Used in src/util/Permutation.h line 28. -/
def count (N : Nat) (b : Bitset) : Nat := (List.range N).countP b

/-- Loop of `permutation_to_Lehmer`, src/util/Permutation.h lines 26-29; `none` is the
`std::out_of_range` thrown by `bitset::set(k)` for `k ≥ N`. -/
def lehmerLoop (N : Nat) : Bitset → List Nat → Option (List Nat)
  | _, [] => some []
  | seen, k :: p =>
    if k < N then
      let seen' : Bitset := fun j => decide (j = k) || seen j
      (lehmerLoop N seen' p).map (fun t => (k - count N (shiftLeft seen' (N - k))) :: t)
    else none

/-- `permutation_to_Lehmer`, src/util/Permutation.h lines 21-31. -/
def permutationToLehmer (p : List Nat) : Option (List Nat) :=
  lehmerLoop p.length (fun _ => false) p

/-- `Lehmer_to_integer`, src/util/Permutation.h lines 41-50, in 32-bit unsigned arithmetic:
state `(a, f, i)`, traversed from the back. -/
def lehmerToIntegerLoop : List Nat → Nat × Nat × Nat → Nat
  | [], (a, _, _) => a
  | l :: ls, (a, f, i) =>
    lehmerToIntegerLoop ls ((a + l * f % 2 ^ 32) % 2 ^ 32, f * i % 2 ^ 32, (i + 1) % 2 ^ 32)

/-- `Lehmer_to_integer`, src/util/Permutation.h lines 41-50. -/
def lehmerToInteger (L : List Nat) : Nat := lehmerToIntegerLoop L.reverse (0, 1, 1)

/-! ## `src/util/Math.cpp`, `src/util/Math.h` -/

/-- `rangeProduct`, src/util/Math.cpp lines 5-11, in 64-bit unsigned arithmetic.  `none`: not
finished after `fuel` iterations. -/
def rangeProductLoop (to_ : Nat) : Nat → Nat → Nat → Option Nat
  | fuel, from_, product =>
    if from_ ≤ to_ then
      match fuel with
      | 0 => none
      | fuel + 1 => rangeProductLoop to_ fuel ((from_ + 1) % 2 ^ 64) (product * from_ % 2 ^ 64)
    else some product

/-- `rangeProduct`, src/util/Math.cpp lines 5-11. -/
def rangeProduct (fuel from_ to_ : Nat) : Option Nat := rangeProductLoop to_ fuel from_ 1

/-- `factorial`, src/util/Math.h line 23. -/
def factorial (fuel n : Nat) : Option Nat := rangeProduct fuel 1 n

end Tandem.Combinatorics
