/-
Model of `app/common/MGConfig.h/.cpp`: the polynomial degrees of the multigrid levels. `unsigned` values are
natural numbers; no operation here can wrap.
-/
namespace Tandem.MGConfig

/-- `MGStrategy`, `app/common/MGConfig.h` line 8. -/
inductive Strategy where
  | twoLevel | logarithmic | full | unknown
deriving DecidableEq

/-- The correction of the coarse level, `app/common/MGConfig.cpp` lines 12-15. -/
def effectiveCoarse (coarse maxDegree : Nat) : Nat :=
  if maxDegree ≤ coarse then (if maxDegree > 0 then maxDegree - 1 else 0) else coarse

/-- The loop `while (level_degree.back() > coarse_level) level_degree.push_back(level_degree.back() / 2)`,
`app/common/MGConfig.cpp` lines 25-27; `back` is the last entry, the result what is pushed after it. -/
def halve (coarse back : Nat) : List Nat :=
  if h : back > coarse then (back / 2) :: halve coarse (back / 2) else []
termination_by back
decreasing_by omega

/-- `if (v.back() != c) v.back() = c`, `app/common/MGConfig.cpp` lines 28-30; the list is never empty there. -/
def fixBack (coarse : Nat) (v : List Nat) : List Nat :=
  if v.getLast? ≠ some coarse then v.dropLast ++ [coarse] else v

/-- `MGConfig::levels`, `app/common/MGConfig.cpp` lines 11-43. -/
def levels (s : Strategy) (coarseLevel maxDegree : Nat) : List Nat :=
  let coarse := effectiveCoarse coarseLevel maxDegree
  match s with
  | .twoLevel => [coarse, maxDegree]
  | .logarithmic => (fixBack coarse (maxDegree :: halve coarse maxDegree)).reverse
  | .full => (List.range (maxDegree - coarse + 1)).map (coarse + ·)
  | .unknown => []

end Tandem.MGConfig
