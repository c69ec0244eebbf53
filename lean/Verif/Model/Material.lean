import Verif.Model.CurvilinearBuild
/-!
# Model of the projection of the material

The part of `Poisson::prepare_volume` and `Elasticity::prepare_volume` that turns the functions given by the user into the coefficients
of the material, the loop over all elements of `DGOperator`, and the coefficients that are written out.  Exact real arithmetic in
place of `double`; Eigen's `fullPivLu().solve` is the product with the inverse (zero here if the matrix is singular, where Eigen
returns an arbitrary vector).
-/
namespace Tandem.Material
open RefElement Error CurvilinearBuild

noncomputable section
variable {D Nq Nbm : ℕ}

/-- `project_K_lhs`, app/kernels/poisson.py line 26; `project_material_lhs`, app/kernels/elasticity.py lines 36-37. -/
def projectLhs (matE_Q_T : Fin Nq → Fin Nbm → ℝ) (W J : Fin Nq → ℝ) : Matrix (Fin Nbm) (Fin Nbm) ℝ :=
  Matrix.of fun k l => ∑ q, matE_Q_T q k * W q * J q * matE_Q_T q l

/-- `project_K_rhs`, app/kernels/poisson.py line 27; one line of `project_material_rhs`, app/kernels/elasticity.py lines 38-42. -/
def projectRhs (matE_Q_T : Fin Nq → Fin Nbm → ℝ) (W J K_Q : Fin Nq → ℝ) : Fin Nbm → ℝ := fun k =>
  ∑ q, K_Q q * matE_Q_T q k * W q * J q

/-- The solution with `fullPivLu`, app/localoperator/Poisson.cpp lines 141-164, app/localoperator/Elasticity.cpp lines 123-161. -/
def project (matE_Q_T : Fin Nq → Fin Nbm → ℝ) (W J K_Q : Fin Nq → ℝ) : Fin Nbm → ℝ :=
  (projectLhs matE_Q_T W J)⁻¹.mulVec (projectRhs matE_Q_T W J K_Q)

/-- `matE_Q_T`, app/localoperator/Poisson.cpp line 56 (and `matE_q_T` of line 49 with the points of a facet): the transposed table of
the basis functions of `materialSpace_`; `nodes` are its nodes. -/
def matE (N : ℕ) (nodes points : List (Fin D → ℝ)) (q : Fin points.length) (t : Fin (nbf D N)) : ℝ :=
  (nodalBasis N nodes points (Equiv.swap 0 1)).val ![q.val, t.val]

/-- The coefficients of one function: it is evaluated at the points of element `elNo` with the tag of the element and projected,
app/localoperator/Poisson.cpp lines 134-164, app/localoperator/Elasticity.cpp lines 107-161; `post` is what happens to the samples
before the projection.  `none`: the tag is out of bounds. -/
def coefficients (b : Built D) (rule : Rule D) (N : ℕ) (nodes : List (Fin D → ℝ)) (post : ℝ → ℝ)
    (fun_ : (Fin D → ℝ) → ℤ → Fin 1 → ℝ) (elNo : ℕ) : Option (Fin (nbf D N) → ℝ) :=
  let v := prepareVolume b.geo rule elNo
  (getVolumeTag b elNo).map fun _ =>
    project (matE N nodes rule.points) (fun q => rule.weights.getD q.val 0) (fun q => v.absDetJ q.val)
      (fun q => post ((volumeFunctionalRegion fun_ b v elNo 0 q.val).getD 0))

/-- `material[elNo]` after `Poisson::prepare_volume`, app/localoperator/Poisson.cpp lines 134-165. -/
def poisson (b : Built D) (rule : Rule D) (N : ℕ) (nodes : List (Fin D → ℝ)) (K : (Fin D → ℝ) → ℤ → Fin 1 → ℝ) (elNo : ℕ) :
    Option (Fin (nbf D N) → ℝ) := coefficients b rule N nodes id K elNo

/-- `material[elNo]` (`lam`, `mu`, `rhoInv`) after `Elasticity::prepare_volume`, app/localoperator/Elasticity.cpp lines 104-162; `rho` is
optional, without it the density is one (line 35).
The reciprocal is taken at the points, lines 118-120. -/
def elasticity (b : Built D) (rule : Rule D) (N : ℕ) (nodes : List (Fin D → ℝ)) (lam mu : (Fin D → ℝ) → ℤ → Fin 1 → ℝ)
    (rho : Option ((Fin D → ℝ) → ℤ → Fin 1 → ℝ)) (elNo : ℕ) :
    Option ((Fin (nbf D N) → ℝ) × (Fin (nbf D N) → ℝ) × (Fin (nbf D N) → ℝ)) := do
  let l ← coefficients b rule N nodes id lam elNo
  let m ← coefficients b rule N nodes id mu elNo
  let r ← coefficients b rule N nodes (fun x => 1.0 / x) (rho.getD (fun _ _ _ => 1)) elNo
  return (l, m, r)

/-- The loop over all elements, own and ghost, in the constructor of `DGOperator`, src/form/DGOperator.h lines 62-67. -/
def prepareAll {α : Type} (numElements : ℕ) (prepare : ℕ → Option α) : Option (List α) := (List.range numElements).mapM prepare

/-- `Poisson::coefficients_volume`, app/localoperator/Poisson.cpp lines 667-674: entry `(i, p)` of `C`. -/
def poissonOutput (K : Fin Nbm → ℝ) (i : Fin Nbm) (_ : Fin 1) : ℝ := K i

/-- `Elasticity::coefficients_volume`, app/localoperator/Elasticity.cpp lines 932-944: entry `(i, p)` of `C`. -/
def elasticityOutput (lam mu : Fin Nbm → ℝ) (i : Fin Nbm) (p : Fin 2) : ℝ := if p = 0 then lam i else mu i

end
end Tandem.Material
