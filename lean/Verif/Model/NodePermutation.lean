import Verif.Model.Equidistant
import Verif.Model.DieterichRuina
/-! # Model of `node_permutation`, `src/basis/Util.h` -/
namespace Tandem.NodePermutation
noncomputable section
open Equidistant Classical

variable {D : ℕ}

/-- The lambda `eta`, src/basis/Util.h lines 44-51. -/
def eta (p : Fin (D + 1) → Fin (D + 1)) (xi : Fin D → ℝ) : Fin D → ℝ :=
  (1 - ∑ e, xi e) • refVertices D (p 0) + ∑ d : Fin D, xi d • refVertices D (p d.succ)

/-- The `while` loop, src/basis/Util.h lines 60-63: the first node that is not farther than `tol`
from `eta(xi)`; `none` if the end is reached.  `norm` is `norm` of src/geometry/Vector.h. -/
def search (nodes : List (Fin D → ℝ)) (tol : ℝ) (etaXi : Fin D → ℝ) : Option ℕ :=
  nodes.findIdx? fun x => decide (¬ tol < DieterichRuina.norm (etaXi - x))

/-- `node_permutation`, src/basis/Util.h lines 40-78.  The vector `check` counts how often each
position occurs in `result`. -/
def nodePermutation (nodes : List (Fin D → ℝ)) (p : Fin (D + 1) → Fin (D + 1)) (tol : ℝ) :
    Option (List ℕ) :=
  match nodes.mapM fun xi => search nodes tol (eta p xi) with
  | none => none
  | some result =>
    if ∀ c ∈ (List.range nodes.length).map (fun pos => result.count pos), c = 1 then some result
    else none

end
end Tandem.NodePermutation
