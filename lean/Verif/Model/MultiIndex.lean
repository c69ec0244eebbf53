/-!
# Model of `src/util/MultiIndex.h`

`std::array<T, D>` is modelled by a list of length `D`; the unsigned index type `T` by `Nat`
(overflow of `T` is not modelled: the flat size is assumed to be representable).
-/
namespace Tandem.MultiIndex

/-- `flatten`, src/util/MultiIndex.h lines 11-19.  The loop runs from `d = D-1` down to `0` and
does `flat *= shape[d]; flat += idx[d]`, which is a right fold over the zipped arrays. -/
def flatten (idx shape : List Nat) : Nat :=
  (idx.zip shape).foldr (fun p flat => flat * p.2 + p.1) 0

/-- `unflatten`, src/util/MultiIndex.h lines 21-29.  `none` is the undefined behaviour of
`idx % 0`. -/
def unflatten (idx : Nat) : List Nat → Option (List Nat)
  | [] => some []
  | n :: shape =>
    if n = 0 then none
    else (unflatten (idx / n) shape).map (fun a => idx % n :: a)

/-- The `while` loop of `MultiIndexIterator::operator++`, src/util/MultiIndex.h lines 81-84:
`while (i_[d] >= shape_[d] && d < D - 1) { i_[d++] = 0; ++i_[d]; }`; the recursion argument is the
part of the array from position `d` on. -/
def carry : List Nat → List Nat → List Nat
  | x :: y :: xs, n :: ns => if x ≥ n then 0 :: carry ((y + 1) :: xs) ns else x :: y :: xs
  | xs, _ => xs
termination_by xs _ => xs.length

/-- `MultiIndexIterator::operator++`, src/util/MultiIndex.h lines 78-86. -/
def step (shape : List Nat) : List Nat → List Nat
  | [] => []
  | x :: xs => carry ((x + 1) :: xs) shape

/-- `product::begin`, src/util/MultiIndex.h line 104 (value-initialised array). -/
def first (shape : List Nat) : List Nat := shape.map (fun _ => 0)

/-- `product::end`, src/util/MultiIndex.h lines 105-109: zeros, last entry `shape.back()`. -/
def last : List Nat → List Nat
  | [] => []
  | [n] => [n]
  | _ :: n :: ns => 0 :: last (n :: ns)

/-- The range-for loop `for (auto idx : product(shape))`: `it != end` is tested, `*it` is visited,
`++it`.  `none`: the loop has not ended after `fuel` iterations;
src/util/MultiIndex.h lines 74-112. -/
def loop (shape : List Nat) : Nat → List Nat → Option (List (List Nat))
  | fuel, i =>
    if i = last shape then some []
    else match fuel with
      | 0 => none
      | fuel + 1 => (loop shape fuel (step shape i)).map (fun t => i :: t)

/-- All multi-indices visited by `for (auto idx : product(shape))` within `fuel` iterations;
src/util/MultiIndex.h lines 96-115. -/
def visit (shape : List Nat) (fuel : Nat) : Option (List (List Nat)) :=
  loop shape fuel (first shape)

/-- `permute`, src/util/MultiIndex.h lines 36-44: `a[d] = index[permutation[d]]`.  The assertion
`permutation[d] < D` becomes `none`. -/
def permute {α : Type} (permutation : List Nat) (index : List α) : Option (List α) :=
  permutation.mapM (fun p => index[p]?)

end Tandem.MultiIndex
