import Verif.Lemmas.DGAssembly
import Mathlib.Algebra.BigOperators.Group.List.Basic
import Mathlib.Tactic.Abel
/-! Rows of the residual `A x - b` as sums over the facets of the element. -/
namespace Tandem.DGAssembly
open Tandem.Spec Tandem.DGTopo

variable {P D : Nat} {elems : Nat → List (List Nat)} {num fnum tag : List Nat → Nat} {views : Nat → View}
variable {B X M : Type} [AddCommGroup M]

theorem sum_map_sub {A : Type} (l : List A) (f g : A → M) : (l.map f).sum - (l.map g).sum = (l.map (fun a => f a - g a)).sum := by
  induction l with
  | nil => simp
  | cons a l ih => rw [List.map_cons, List.map_cons, List.map_cons, List.sum_cons, List.sum_cons, List.sum_cons, ← ih]; abel

theorem residual_spec (hd : IsDistributed P D elems num fnum tag views) (r : Nat) (hr : r < P) (o : LocalOp B)
    (act : B → X → M) (x : Nat → X) (lr : LocalRhs M)
    (vol : Nat → M) (sk : Nat → FacetInfo → Fin 2 → M) (bn : Nat → FacetInfo → M)
    (hvol : ∀ e b, lr.volume e b = b + vol e) (hsk : ∀ f i s b, lr.skeleton f i s b = b + sk f i s)
    (hbn : ∀ f i b, lr.boundary f i b = b + bn f i) :
    ∃ blocks b', assemble (views r) o = some blocks ∧ rhs (views r) lr 0 = some b' ∧
      ∀ u ds, u < (elems r).length → (views r).down[u]? = some ds →
      rowApply act blocks x u - b' u = act (o.volume u) (x u) - vol u +
        (ds.map (fun i => facetTerm o act x u i ((facetInfo (views r) i).getD ⟨0, 0, 0, 0, 0, 0, false, false, 0⟩) -
          rhsTerm sk bn u i ((facetInfo (views r) i).getD ⟨0, 0, 0, 0, 0, 0, false, false, 0⟩))).sum := by
  obtain ⟨blocks, h1, _, h2⟩ := row_spec hd r hr o act x
  obtain ⟨b', h3, h4⟩ := rhs_spec hd r hr lr vol sk bn hvol hsk hbn 0
  refine ⟨blocks, b', h1, h3, ?_⟩
  intro u ds hu hds
  rw [h2 u ds hu hds, h4 u ds hu hds, ← sum_map_sub]
  simp only [Pi.zero_apply]
  abel

end Tandem.DGAssembly
