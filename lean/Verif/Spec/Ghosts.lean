import Verif.Spec.Algorithm
/-! # Specification of distributed meshes and overlap layers (C23) -/
namespace Tandem.Spec

/-- `f` is a facet of the `D`-simplex `e`: `D` of its vertices, ascending. -/
def IsFacet (e f : List Nat) : Prop :=
  f.length + 1 = e.length ∧ f.Pairwise (· < ·) ∧ ∀ v ∈ f, v ∈ e

/-- A conforming mesh of `D`-simplices distributed over `P` ranks. -/
structure Mesh (P D : Nat) (elems : Nat → List (List Nat)) : Prop where
  dim : 0 < D
  size : ∀ s, s < P → ∀ e ∈ elems s, e.length = D + 1
  sorted : ∀ s, s < P → ∀ e ∈ elems s, e.Pairwise (· < ·)
  small : ∀ s, s < P → ∀ e ∈ elems s, ∀ v ∈ e, v < 2 ^ 64 - 1
  /-- no element is listed twice on a rank, or by two ranks -/
  nodup : ∀ s, s < P → (elems s).Nodup
  disjoint : ∀ s t, s < P → t < P → s ≠ t → ∀ e, e ∈ elems s → e ∉ elems t
  /-- at most two elements share a facet -/
  conforming : ∀ s t u, s < P → t < P → u < P → ∀ a ∈ elems s, ∀ b ∈ elems t, ∀ c ∈ elems u, ∀ f,
    IsFacet a f → IsFacet b f → IsFacet c f → a = b ∨ b = c ∨ a = c

/-- `e` is an element of the mesh. -/
def InElems (P : Nat) (elems : Nat → List (List Nat)) (e : List Nat) : Prop := ∃ s, s < P ∧ e ∈ elems s

/-- `e` can be reached from an element in `own` by at most `k` steps across facets. -/
def Near (P : Nat) (elems : Nat → List (List Nat)) (own : List (List Nat)) : Nat → List Nat → Prop
  | 0, e => e ∈ own
  | k + 1, e => Near P elems own k e ∨
      (InElems P elems e ∧ ∃ e', Near P elems own k e' ∧ ∃ f, IsFacet e f ∧ IsFacet e' f)

/-- `p` is a possible result of sorting the positions of `l` by `le`. -/
def SortPerm {α : Type} (le : α → α → Prop) (l : List α) (p : List Nat) : Prop :=
  IsPermutation p l.length ∧ p.Pairwise (fun a b => ∀ x y, l[a]? = some x → l[b]? = some y → le x y)

/-- Lexicographic order of pairs. -/
def pairLe (a b : Int × Nat) : Prop := a.1 < b.1 ∨ a.1 = b.1 ∧ a.2 ≤ b.2

end Tandem.Spec
