import Verif.Spec.DGTopo
/-! # Specification for matrix preallocation (C32) -/
namespace Tandem.Spec

/-- Exactly `n` numbers have property `p`. -/
def IsCount (n : Nat) (p : Nat → Prop) : Prop := ∃ l : List Nat, l.Nodup ∧ (∀ c, c ∈ l ↔ p c) ∧ l.length = n

/-- At most `n` numbers have property `p`. -/
def AtMost (n : Nat) (p : Nat → Prop) : Prop := ∀ l : List Nat, l.Nodup → (∀ c ∈ l, p c) → l.length ≤ n

/-- Local elements `u` and `c` of a view are different and share a facet. -/
def Adjacent (v : DGTopo.View) (u c : Nat) : Prop :=
  u ≠ c ∧ ∃ e e' f, v.elems[u]? = some e ∧ v.elems[c]? = some e' ∧ IsFacet e f ∧ IsFacet e' f

end Tandem.Spec
