/-! Specification vocabulary for permutations and index blocks. -/
namespace Tandem.Spec

/-- `p` is a permutation of `0, ..., n-1`. -/
def IsPermutation (p : List Nat) (n : Nat) : Prop :=
  p.length = n ∧ (∀ x ∈ p, x < n) ∧ p.Nodup

/-- The indices described by a block: `disp, disp+1, ..., disp+len-1`. -/
def blockIndices (b : Int × Int) : List Int :=
  (List.range b.2.toNat).map (fun (k : Nat) => b.1 + k)

end Tandem.Spec
