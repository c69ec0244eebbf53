import Verif.Spec.PatchTest
import Mathlib.Logic.Relation
/-! # Specification of meshes that are held by their boundary (C102) -/
namespace Tandem.Spec

/-- `e` and `a` are elements that share a facet. -/
def SharesFacet (P : ℕ) (elems : ℕ → List (List ℕ)) (e a : List ℕ) : Prop :=
  InElems P elems e ∧ InElems P elems a ∧ ∃ f, IsFacet e f ∧ IsFacet a f

/-- From every element one can walk, from element to element across shared facets, to an element with a facet on the boundary where the
solution is prescribed, that is, where the tag is not the one of the natural boundary condition, 1. -/
def Anchored (P : ℕ) (elems : ℕ → List (List ℕ)) (tag : List ℕ → ℕ) : Prop :=
  ∀ e, InElems P elems e → ∃ a f, Relation.ReflTransGen (SharesFacet P elems) e a ∧ InElems P elems a ∧ IsFacet a f ∧
    (∀ a', InElems P elems a' → IsFacet a' f → a' = a) ∧ tag f ≠ 1

end Tandem.Spec
