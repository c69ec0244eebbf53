/-!
# Model of `src/util/Algorithm.h`
-/
namespace Tandem.Algorithm

/-- Outcome of a piece of C++: a value, undefined behaviour (out-of-bounds access), or not finished
within the given number of loop iterations
(of the loops in src/util/Algorithm.h lines 60-72). -/
inductive Outcome (α : Type) where
  | ok (a : α)
  | ub
  | outOfFuel
deriving Repr, DecidableEq

/-- `detail::SwapArray::operator()`, src/util/Algorithm.h lines 16-23: `std::swap(a_[i], a_[j])`;
`none` is an out-of-bounds access. -/
def swapList {α : Type} (v : List α) (i j : Nat) : Option (List α) :=
  match v[i]?, v[j]? with
  | some a, some b => some ((v.set i b).set j a)
  | _, _ => none

/-- Inner loop and closing assignment of `detail::apply_permutation`, src/util/Algorithm.h
lines 62-69.  `swap` is the swap functor (a parameter, as in the source), `s` the object it works
on, `ind` the index vector (consumed by the algorithm), `current` the walk position. -/
def walk {σ : Type} (swap : σ → Nat → Nat → Option σ) (i : Nat) :
    Nat → σ → List Nat → Nat → Outcome (σ × List Nat)
  | fuel, s, ind, current =>
    match ind[current]? with
    | none => .ub
    | some next =>
      if i ≠ next then
        match fuel with
        | 0 => .outOfFuel
        | fuel + 1 =>
          match swap s current next with
          | none => .ub
          | some s' => walk swap i fuel s' (ind.set current current) next
      else .ok (s, ind.set current current)

/-- Outer loop of `detail::apply_permutation`, src/util/Algorithm.h lines 60-71, from position `i`
on with `todo` positions left.  Every inner loop may take up to `fuel` iterations. -/
def outer {σ : Type} (swap : σ → Nat → Nat → Option σ) (fuel : Nat) :
    Nat → Nat → σ → List Nat → Outcome (σ × List Nat)
  | 0, _, s, ind => .ok (s, ind)
  | todo + 1, i, s, ind =>
    match walk swap i fuel s ind i with
    | .ok (s', ind') => outer swap fuel todo (i + 1) s' ind'
    | .ub => .ub
    | .outOfFuel => .outOfFuel

/-- `detail::apply_permutation`, src/util/Algorithm.h lines 60-71. -/
def applyPermutationWith {σ : Type} (swap : σ → Nat → Nat → Option σ) (fuel : Nat) (s : σ)
    (indices : List Nat) : Outcome (σ × List Nat) :=
  outer swap fuel indices.length 0 s indices

/-- `apply_permutation(std::vector<T>&, std::vector<U>)`, src/util/Algorithm.h lines 91-94; the
index vector is passed by value, so only the vector is observable.  The size assertion of line 92
is a precondition in the theorems. -/
def applyPermutation {α : Type} (fuel : Nat) (v : List α) (indices : List Nat) :
    Outcome (List α) :=
  match applyPermutationWith swapList fuel v indices with
  | .ok (v', _) => .ok v'
  | .ub => .ub
  | .outOfFuel => .outOfFuel

/-- One iteration of `find_blocks`, src/util/Algorithm.h lines 133-141.  The two vectors
`displacements` and `block_lengths` always grow together; they are modelled by one list of
`(displacement, length)` pairs, kept in reverse order so that `back()` is the head.
The subtraction is that of the (integer) index type; modelled in `Int`. -/
def findBlocksStep (acc : List (Int × Int)) (idx : Int) : List (Int × Int) :=
  match acc with
  | [] => [(idx, 1)]
  | (disp, len) :: rest =>
    if idx - disp = len then (disp, len + 1) :: rest else (idx, 1) :: (disp, len) :: rest

/-- `find_blocks`, src/util/Algorithm.h lines 126-146: list of `(displacement, block length)`. -/
def findBlocks (indices : List Int) : List (Int × Int) :=
  (indices.foldl findBlocksStep []).reverse

end Tandem.Algorithm
