import Mathlib.Data.Nat.Choose.Basic
/-! Specification vocabulary for combinatorial enumerations. -/
namespace Tandem.Spec

/-- `c` is a `k`-element subset of `{0,...,n-1}`, written as a strictly increasing list. -/
def IsSubset (n k : Nat) (c : List Nat) : Prop :=
  c.length = k ∧ c.Pairwise (· < ·) ∧ ∀ x ∈ c, x < n

/-- `l` lists the elements satisfying `P`, each exactly once. -/
def ListsExactly {α : Type} (l : List α) (P : α → Prop) : Prop :=
  l.Nodup ∧ ∀ x, x ∈ l ↔ P x

/-- Product `a * (a+1) * ... * b` (empty product 1 if `a > b`). -/
def productFromTo (a b : Nat) : Nat := ((List.range (b + 1 - a)).map (fun i => a + i)).prod

end Tandem.Spec
