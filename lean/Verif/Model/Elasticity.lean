import Verif.Model.Poisson
import Mathlib.LinearAlgebra.Matrix.NonsingularInverse
/-!
# Model of `app/localoperator/Elasticity.{h,cpp}` with the kernels of `app/kernels/elasticity.py`

Exact arithmetic over ℝ in place of `double`.  A tensor is a function of its indices; the kernels are the formulas of
elasticity.py (the generated code and the memory layout of the tensors are not modelled), the functions of Elasticity.cpp
bind the tensors as the code does.  A block of a vector has an index for the basis function and one for the component of
the displacement.  Two sides of a facet are numbered by `Fin 2`.
-/
namespace Tandem.Elasticity
open Tandem.DGTopo (FacetInfo SideInfo View facetInfo)
open Tandem.DGAssembly
open Tandem.Poisson (Method normalLength unitNormal traceConstant)
noncomputable section

/-! ## Kernels, app/kernels/elasticity.py -/
section Kernels
variable {dim Nbf Nbm Nq nq : Nat}

/-- `delta`, app/kernels/elasticity.py line 30. -/
def delta (i j : Fin dim) : ℝ := if i = j then 1 else 0

/-- `massMatrix`, app/kernels/elasticity.py line 34. -/
def kMassMatrix (E_Q : Fin Nbf → Fin Nq → ℝ) (W J : Fin Nq → ℝ) : Fin Nbf → Fin Nbf → ℝ := fun k l =>
  ∑ q, E_Q k q * W q * J q * E_Q l q

/-- `lam_W_J_Q` and `mu_W_J_Q` of `precomputeVolume`, app/kernels/elasticity.py lines 45-46. -/
def kWJQ (matE_Q_T : Fin Nq → Fin Nbm → ℝ) (coef : Fin Nbm → ℝ) (W J : Fin Nq → ℝ) : Fin Nq → ℝ := fun q =>
  ∑ t, matE_Q_T q t * coef t * W q * J q

/-- `negative_rhoInv_W_Jinv_Q` of `precomputeVolume`, app/kernels/elasticity.py line 47. -/
def kNegativeRhoInvWJinvQ (matE_Q_T : Fin Nq → Fin Nbm → ℝ) (rhoInv : Fin Nbm → ℝ) (W Jinv_Q : Fin Nq → ℝ) : Fin Nq → ℝ := fun q =>
  ∑ t, - matE_Q_T q t * rhoInv t * W q * Jinv_Q q

/-- `Dx_Q` and `Dx_q(x)`, app/kernels/elasticity.py lines 50 and 103-104. -/
def kDx {n : Nat} (G : Fin dim → Fin dim → Fin n → ℝ) (Dxi : Fin Nbf → Fin dim → Fin n → ℝ) :
    Fin Nbf → Fin dim → Fin n → ℝ := fun k i q => ∑ e, G e i q * Dxi k e q

/-- `assembleVolume`, app/kernels/elasticity.py lines 55-56. -/
def kAssembleVolume (lam_W_J_Q mu_W_J_Q : Fin Nq → ℝ) (Dx_Q : Fin Nbf → Fin dim → Fin Nq → ℝ) :
    Fin Nbf → Fin dim → Fin Nbf → Fin dim → ℝ := fun k p l u =>
  (∑ q, lam_W_J_Q q * Dx_Q l u q * Dx_Q k p q) +
  (∑ q, ∑ j, mu_W_J_Q q * Dx_Q k j q * (Dx_Q l j q * delta p u + Dx_Q l p q * delta j u))

/-- `lam_q(x)` and `mu_q(x)` of `precomputeSurface(x)`, app/kernels/elasticity.py lines 85-88. -/
def kCoefq (matE_q_T : Fin nq → Fin Nbm → ℝ) (coef : Fin Nbm → ℝ) : Fin nq → ℝ := fun q => ∑ t, matE_q_T q t * coef t

/-- `traction(x, normal)`, app/kernels/elasticity.py lines 90-92. -/
def kTraction (lam_q mu_q : Fin nq → ℝ) (Dx_q : Fin Nbf → Fin dim → Fin nq → ℝ) (normal : Fin dim → Fin nq → ℝ)
    (u : Fin Nbf → Fin dim → ℝ) : Fin dim → Fin nq → ℝ := fun p q =>
  (∑ l, ∑ s, lam_q q * Dx_q l s q * u l s * normal p q) +
  mu_q q * ((∑ l, ∑ j, Dx_q l j q * u l p * normal j q) + (∑ l, ∑ j, Dx_q l p q * u l j * normal j q))

/-- `tractionTest(x, utilde)`, app/kernels/elasticity.py lines 94-96. -/
def kTractionTest (lam_q mu_q : Fin nq → ℝ) (Dx_q : Fin Nbf → Fin dim → Fin nq → ℝ) (n_q utilde : Fin dim → Fin nq → ℝ) :
    Fin Nbf → Fin dim → Fin nq → ℝ := fun k p q =>
  (∑ i, lam_q q * Dx_q k p q * utilde i q * n_q i q) +
  mu_q q * ((∑ j, Dx_q k j q * utilde p q * n_q j q) + (∑ i, Dx_q k i q * utilde i q * n_q p q))

/-- `test_normal(x)`, app/kernels/elasticity.py lines 119-121; indices `i u s q`. -/
def kTestNormal (lam_q mu_q : Fin nq → ℝ) (n_q : Fin dim → Fin nq → ℝ) : Fin dim → Fin dim → Fin dim → Fin nq → ℝ := fun i u s q =>
  lam_q q * delta u s * n_q i q + mu_q q * (delta i u * n_q s q + delta i s * n_q u q)

/-- `lift_ip(x)`, app/kernels/elasticity.py lines 123-124. -/
def kLiftIp (E_q : Fin Nbf → Fin nq → ℝ) (nl_q : Fin nq → ℝ) : Fin Nbf → Fin dim → Fin dim → Fin nq → ℝ := fun l p u q =>
  E_q l q * delta p u * nl_q q

/-- `Lift[s]` of `lift_skeleton(x)`, app/kernels/elasticity.py lines 126-127. -/
def kLift (Minv : Fin Nbf → Fin Nbf → ℝ) (Es Ex : Fin Nbf → Fin nq → ℝ) (n_q : Fin dim → Fin nq → ℝ)
    (w : Fin nq → ℝ) : Fin Nbf → Fin dim → Fin Nbf → ℝ := fun l s m =>
  ∑ o, ∑ q, 0.5 * Minv m o * w q * Es o q * Ex l q * n_q s q

/-- `lift_skeleton(x)`, app/kernels/elasticity.py lines 125-132. -/
def kLiftSkeleton (Minv : Fin 2 → Fin Nbf → Fin Nbf → ℝ) (E_q : Fin 2 → Fin Nbf → Fin nq → ℝ)
    (lam_q mu_q : Fin 2 → Fin nq → ℝ) (n_q : Fin dim → Fin nq → ℝ) (w : Fin nq → ℝ) (x : Fin 2) :
    Fin Nbf → Fin dim → Fin dim → Fin nq → ℝ := fun l i u q =>
  0.5 * ((∑ s, ∑ m, kTestNormal (lam_q 0) (mu_q 0) n_q i u s q * E_q 0 m q * kLift (Minv 0) (E_q 0) (E_q x) n_q w l s m) +
    (∑ s, ∑ n, kTestNormal (lam_q 1) (mu_q 1) n_q i u s q * E_q 1 n q * kLift (Minv 1) (E_q 1) (E_q x) n_q w l s n))

/-- `lift_boundary`, app/kernels/elasticity.py lines 133-136. -/
def kLiftBoundary (Minv : Fin Nbf → Fin Nbf → ℝ) (E_q : Fin Nbf → Fin nq → ℝ) (lam_q mu_q : Fin nq → ℝ)
    (n_q : Fin dim → Fin nq → ℝ) (w : Fin nq → ℝ) : Fin Nbf → Fin dim → Fin dim → Fin nq → ℝ := fun l i u q =>
  ∑ s, ∑ m, kTestNormal lam_q mu_q n_q i u s q * E_q m q * (∑ o, ∑ p, Minv m o * w p * E_q o p * E_q l p * n_q s p)

/-- `assembleTractionOp(x)`, app/kernels/elasticity.py lines 138-140. -/
def kTractionOp (lam_q mu_q : Fin nq → ℝ) (Dx_q : Fin Nbf → Fin dim → Fin nq → ℝ) (n_q : Fin dim → Fin nq → ℝ) :
    Fin Nbf → Fin dim → Fin dim → Fin nq → ℝ := fun k p u q =>
  lam_q q * Dx_q k p q * n_q u q + mu_q q * ((∑ j, n_q j q * Dx_q k j q * delta p u) + Dx_q k u q * n_q p q)

/-- `assembleSurface(x, y)`, app/kernels/elasticity.py lines 142-146. -/
def kAssembleSurface (c0 c1 c2 : Fin 2 → ℝ) (w : Fin nq → ℝ) (T_q : Fin 2 → Fin Nbf → Fin dim → Fin dim → Fin nq → ℝ)
    (E_q : Fin 2 → Fin Nbf → Fin nq → ℝ) (L_q : Fin 2 → Fin Nbf → Fin dim → Fin dim → Fin nq → ℝ) (x y : Fin 2) :
    Fin Nbf → Fin dim → Fin Nbf → Fin dim → ℝ := fun k p l u =>
  (∑ q, c0 x * E_q x k q * w q * T_q y l u p q) +
  (∑ q, c1 y * E_q y l q * w q * T_q x k p u q) +
  (∑ q, c2 (if x = y then 0 else 1) * w q * E_q x k q * L_q y l p u q)

/-- `rhs_lift_ip`, app/kernels/elasticity.py line 157. -/
def kRhsLiftIp (nl_q : Fin nq → ℝ) (f_q : Fin dim → Fin nq → ℝ) : Fin dim → Fin nq → ℝ := fun i q => f_q i q * nl_q q

/-- `rhs_lift_boundary`, app/kernels/elasticity.py lines 158-161. -/
def kRhsLiftBoundary (Minv : Fin Nbf → Fin Nbf → ℝ) (E_q : Fin Nbf → Fin nq → ℝ) (lam_q mu_q : Fin nq → ℝ)
    (n_q : Fin dim → Fin nq → ℝ) (w : Fin nq → ℝ) (f_q : Fin dim → Fin nq → ℝ) : Fin dim → Fin nq → ℝ := fun i q =>
  ∑ u, ∑ s, ∑ m, kTestNormal lam_q mu_q n_q i u s q * E_q m q * (∑ o, ∑ p, Minv m o * w p * E_q o p * f_q u p * n_q s p)

/-- `rhs_lift_skeleton`, app/kernels/elasticity.py lines 163-169. -/
def kRhsLiftSkeleton (Minv : Fin 2 → Fin Nbf → Fin Nbf → ℝ) (E_q : Fin 2 → Fin Nbf → Fin nq → ℝ)
    (lam_q mu_q : Fin 2 → Fin nq → ℝ) (n_q : Fin dim → Fin nq → ℝ) (w : Fin nq → ℝ) (f_q : Fin dim → Fin nq → ℝ) :
    Fin dim → Fin nq → ℝ := fun i q =>
  0.5 * ((∑ u, ∑ s, ∑ m, kTestNormal (lam_q 0) (mu_q 0) n_q i u s q * E_q 0 m q *
      (∑ o, ∑ p, 0.5 * Minv 0 m o * w p * E_q 0 o p * f_q u p * n_q s p)) +
    (∑ u, ∑ s, ∑ m, kTestNormal (lam_q 1) (mu_q 1) n_q i u s q * E_q 1 m q *
      (∑ o, ∑ p, 0.5 * Minv 1 m o * w p * E_q 1 o p * f_q u p * n_q s p)))

/-- `rhsVolume`, app/kernels/elasticity.py line 173. -/
def kRhsVolume (J W : Fin Nq → ℝ) (E_Q : Fin Nbf → Fin Nq → ℝ) (F_Q : Fin dim → Fin Nq → ℝ) (b : Fin Nbf → Fin dim → ℝ) :
    Fin Nbf → Fin dim → ℝ := fun k p => b k p + ∑ q, J q * W q * E_Q k q * F_Q p q

/-- `rhsFacet`, app/kernels/elasticity.py lines 175-179. -/
def kRhsFacet (c1 c2 : ℝ) (w : Fin nq → ℝ) (lam_q mu_q : Fin nq → ℝ) (g : Fin dim → Fin dim → Fin nq → ℝ)
    (Dxi_q : Fin Nbf → Fin dim → Fin nq → ℝ) (n_q : Fin dim → Fin nq → ℝ) (E_q : Fin Nbf → Fin nq → ℝ)
    (f_q f_lifted_q : Fin dim → Fin nq → ℝ) (b : Fin Nbf → Fin dim → ℝ) : Fin Nbf → Fin dim → ℝ := fun k p =>
  b k p + (∑ q, c1 * kTractionTest lam_q mu_q (kDx g Dxi_q) n_q f_q k p q * w q) +
    (∑ q, c2 * w q * E_q k q * f_lifted_q p q)

/-- `flux_u_skeleton`, app/kernels/elasticity.py lines 201-202. -/
def kFluxUSkeleton (negative_E_q_T0 E_q_T1 : Fin nq → Fin Nbf → ℝ) (U U_ext : Fin Nbf → Fin dim → ℝ) :
    Fin nq → Fin dim → ℝ := fun q i =>
  0.5 * ((∑ l, negative_E_q_T0 q l * U l i) + (∑ l, E_q_T1 q l * U_ext l i))

/-- `flux_u_boundary`, app/kernels/elasticity.py line 203. -/
def kFluxUBoundary (negative_E_q_T0 : Fin nq → Fin Nbf → ℝ) (U : Fin Nbf → Fin dim → ℝ) : Fin nq → Fin dim → ℝ := fun q i =>
  ∑ l, negative_E_q_T0 q l * U l i

/-- `flux_u_add_bc`, app/kernels/elasticity.py lines 204-205. -/
def kFluxUAddBc (c00 : ℝ) (f_q : Fin dim → Fin nq → ℝ) (uh : Fin nq → Fin dim → ℝ) : Fin nq → Fin dim → ℝ := fun q i =>
  uh q i + c00 * f_q i q

/-- `Ju_q(x)`, app/kernels/elasticity.py lines 212-213. -/
def kJuq (G_q_T : Fin dim → Fin dim → Fin nq → ℝ) (Dxi_q_120 : Fin dim → Fin nq → Fin Nbf → ℝ) (U : Fin Nbf → Fin dim → ℝ) :
    Fin nq → Fin dim → Fin dim → ℝ := fun q r s => ∑ e, ∑ l, G_q_T s e q * Dxi_q_120 e q l * U l r

/-- `constitutive_q(x)`, app/kernels/elasticity.py lines 207-209. -/
def kConstitutive (lam_q mu_q : Fin nq → ℝ) (Ju : Fin nq → Fin dim → Fin dim → ℝ) : Fin dim → Fin dim → Fin nq → ℝ := fun i j q =>
  (∑ r, ∑ s, lam_q q * delta i j * delta r s * Ju q r s) + mu_q q * (Ju q i j + Ju q j i)

/-- `flux_sigma_skeleton`, app/kernels/elasticity.py lines 211-216. -/
def kFluxSigmaSkeleton (c00 : ℝ) (lam0 mu0 lam1 mu1 : Fin nq → ℝ) (G_q_T0 G_q_T1 : Fin dim → Fin dim → Fin nq → ℝ)
    (Dxi_q_1200 Dxi_q_1201 : Fin dim → Fin nq → Fin Nbf → ℝ) (E_q_T0 negative_E_q_T1 : Fin nq → Fin Nbf → ℝ)
    (n_unit_q : Fin dim → Fin nq → ℝ) (U U_ext : Fin Nbf → Fin dim → ℝ) : Fin dim → Fin dim → Fin nq → ℝ := fun i j q =>
  0.5 * (kConstitutive lam0 mu0 (kJuq G_q_T0 Dxi_q_1200 U) i j q + kConstitutive lam1 mu1 (kJuq G_q_T1 Dxi_q_1201 U_ext) i j q) +
  c00 * ((∑ l, E_q_T0 q l * U l i) + (∑ l, negative_E_q_T1 q l * U_ext l i)) * n_unit_q j q

/-- `flux_sigma_boundary`, app/kernels/elasticity.py lines 217-220. -/
def kFluxSigmaBoundary (c00 : ℝ) (lam0 mu0 : Fin nq → ℝ) (G_q_T0 : Fin dim → Fin dim → Fin nq → ℝ)
    (Dxi_q_1200 : Fin dim → Fin nq → Fin Nbf → ℝ) (E_q_T0 : Fin nq → Fin Nbf → ℝ)
    (n_unit_q : Fin dim → Fin nq → ℝ) (U : Fin Nbf → Fin dim → ℝ) : Fin dim → Fin dim → Fin nq → ℝ := fun i j q =>
  kConstitutive lam0 mu0 (kJuq G_q_T0 Dxi_q_1200 U) i j q + (∑ l, c00 * E_q_T0 q l * U l i * n_unit_q j q)

/-- `flux_sigma_add_bc`, app/kernels/elasticity.py lines 221-222. -/
def kFluxSigmaAddBc (c00 : ℝ) (f_q : Fin dim → Fin nq → ℝ) (n_unit_q : Fin dim → Fin nq → ℝ)
    (sh : Fin dim → Fin dim → Fin nq → ℝ) : Fin dim → Fin dim → Fin nq → ℝ := fun i j q =>
  sh i j q + c00 * f_q i q * n_unit_q j q

/-- `Ju_Q` of `apply_volume`, app/kernels/elasticity.py line 225. -/
def kJuQ (G_Q_T : Fin dim → Fin dim → Fin Nq → ℝ) (Dxi_Q_120 : Fin dim → Fin Nq → Fin Nbf → ℝ) (U : Fin Nbf → Fin dim → ℝ) :
    Fin Nq → Fin dim → Fin dim → ℝ := fun q s r => ∑ e, ∑ l, G_Q_T s e q * Dxi_Q_120 e q l * U l r

/-- `apply_volume`, app/kernels/elasticity.py lines 224-229. -/
def kApplyVolume (G G_Q_T : Fin dim → Fin dim → Fin Nq → ℝ) (Dxi_Q : Fin Nbf → Fin dim → Fin Nq → ℝ)
    (Dxi_Q_120 : Fin dim → Fin Nq → Fin Nbf → ℝ) (lam_W_J_Q mu_W_J_Q : Fin Nq → ℝ) (U : Fin Nbf → Fin dim → ℝ) :
    Fin Nbf → Fin dim → ℝ := fun k u =>
  ∑ q, ∑ j, ∑ e, Dxi_Q k e q * G e j q *
    ((∑ r, ∑ s, lam_W_J_Q q * delta u j * delta r s * kJuQ G_Q_T Dxi_Q_120 U q r s) +
      mu_W_J_Q q * (kJuQ G_Q_T Dxi_Q_120 U q u j + kJuQ G_Q_T Dxi_Q_120 U q j u))

/-- `apply_facet`, app/kernels/elasticity.py lines 230-234. -/
def kApplyFacet (w : Fin nq → ℝ) (lam0 mu0 : Fin nq → ℝ) (n_q : Fin dim → Fin nq → ℝ) (uh : Fin nq → Fin dim → ℝ)
    (G_q_T0 : Fin dim → Fin dim → Fin nq → ℝ) (Dxi_q0 : Fin Nbf → Fin dim → Fin nq → ℝ) (negative_E_q0 : Fin Nbf → Fin nq → ℝ)
    (sh : Fin dim → Fin dim → Fin nq → ℝ) (Unew : Fin Nbf → Fin dim → ℝ) : Fin Nbf → Fin dim → ℝ := fun k u =>
  Unew k u + (∑ q, ∑ j, ∑ e, w q * G_q_T0 j e q * Dxi_q0 k e q *
      ((∑ r, lam0 q * delta u j * uh q r * n_q r q) + mu0 q * (uh q u * n_q j q + uh q j * n_q u q))) +
    (∑ q, ∑ j, w q * negative_E_q0 k q * n_q j q * sh u j q)

/-- `apply_inverse_mass`, app/kernels/elasticity.py lines 236-237. -/
def kApplyInverseMass (MinvRef : Fin Nbf → Fin Nbf → ℝ) (Jinv_Q : Fin Nq → ℝ) (E_Q : Fin Nbf → Fin Nq → ℝ)
    (U : Fin Nbf → Fin dim → ℝ) : Fin Nbf → Fin dim → ℝ := fun k p =>
  ∑ r, ∑ q, ∑ s, ∑ l, MinvRef k r * Jinv_Q q * E_Q r q * E_Q s q * MinvRef s l * U l p

/-- `project_u_rhs`, app/kernels/elasticity.py line 239. -/
def kProjectURhs (E_Q : Fin Nbf → Fin Nq → ℝ) (W J : Fin Nq → ℝ) (U_Q : Fin dim → Fin Nq → ℝ) : Fin Nbf → Fin dim → ℝ := fun k p =>
  ∑ q, E_Q k q * W q * J q * U_Q p q

/-- `compute_traction`, app/kernels/elasticity.py lines 243-245. -/
def kComputeTraction (c00 : ℝ) (lam_q mu_q : Fin 2 → Fin nq → ℝ) (Dx_q : Fin 2 → Fin Nbf → Fin dim → Fin nq → ℝ)
    (E_q : Fin 2 → Fin Nbf → Fin nq → ℝ) (f_q n_unit_q : Fin dim → Fin nq → ℝ) (u0 u1 : Fin Nbf → Fin dim → ℝ) :
    Fin dim → Fin nq → ℝ := fun p q =>
  0.5 * (kTraction (lam_q 0) (mu_q 0) (Dx_q 0) n_unit_q u0 p q + kTraction (lam_q 1) (mu_q 1) (Dx_q 1) n_unit_q u1 p q) +
    c00 * ((∑ l, E_q 0 l q * u0 l p) - (∑ l, E_q 1 l q * u1 l p) - f_q p q)

/-- `compute_traction_bnd`, app/kernels/elasticity.py lines 247-249. -/
def kComputeTractionBnd (c00 : ℝ) (lam_q mu_q : Fin nq → ℝ) (Dx_q : Fin Nbf → Fin dim → Fin nq → ℝ)
    (E_q : Fin Nbf → Fin nq → ℝ) (f_q n_unit_q : Fin dim → Fin nq → ℝ) (u0 : Fin Nbf → Fin dim → ℝ) :
    Fin dim → Fin nq → ℝ := fun p q =>
  kTraction lam_q mu_q Dx_q n_unit_q u0 p q + c00 * ((∑ l, E_q l q * u0 l p) - f_q p q)

end Kernels

/-! ## The local operator -/

/-- Tensors of the reference element, app/localoperator/Elasticity.h lines 152-167; the same as those of the Poisson
operator (`MhatInv` is `MinvRef`).  The transposed, permuted and negated tensors (app/localoperator/Elasticity.cpp lines
36-63) are computed from these: `Ref.E_q_T`, `Ref.negative_E_q_T`, `Ref.Dxi_q_120`. -/
abbrev Ref := Poisson.Ref

/-- `negative_E_q`, app/localoperator/Elasticity.cpp lines 54-56. -/
def negativeEq {dim Nbf Nbm Nq nq : Nat} (r : Ref dim Nbf Nbm Nq nq) (f : Nat) : Fin Nbf → Fin nq → ℝ := fun k q => - r.E_q f k q

/-- The operator with its data: `vol` and `fct` of src/form/DGCurvilinearCommon.h lines 148-179 (`AbsDetJ`, `JInv`; `JInv0`,
`JInv1`, `Normal`), `material` (coefficients of `lam`, `mu`, `rhoInv`) and `penalty_` of app/localoperator/Elasticity.h lines
231-242.  First index: element or facet. -/
structure Op (dim Nbf Nbm Nq nq : Nat) where
  ref : Ref dim Nbf Nbm Nq nq
  method : Method
  J_Q : Nat → Fin Nq → ℝ
  G_Q : Nat → Fin dim → Fin dim → Fin Nq → ℝ
  lam : Nat → Fin Nbm → ℝ
  mu : Nat → Fin Nbm → ℝ
  rhoInv : Nat → Fin Nbm → ℝ
  JInv : Nat → Fin 2 → Fin dim → Fin dim → Fin nq → ℝ
  n_q : Nat → Fin dim → Fin nq → ℝ
  penalty_ : Nat → ℝ

variable {dim Nbf Nbm Nq nq : Nat}

/-- `fct[f].get<NormalLength>()`, src/form/DGCurvilinearCommon.cpp lines 82-85. -/
def Op.nl_q (o : Op dim Nbf Nbm Nq nq) (f : Nat) : Fin nq → ℝ := normalLength (o.n_q f)
/-- `fct[f].get<UnitNormal>()`, src/form/DGCurvilinearCommon.cpp lines 86-87. -/
def Op.n_unit_q (o : Op dim Nbf Nbm Nq nq) (f : Nat) : Fin dim → Fin nq → ℝ := unitNormal (o.n_q f)

/-- `penalty`, app/localoperator/Elasticity.h lines 132-137; `NumFacets = dim + 1`. -/
def Op.penalty (o : Op dim Nbf Nbm Nq nq) (f : Nat) : ℝ := if o.method = .BR2 then (dim + 1 : ℕ) else o.penalty_ f

/-- `epsilon`, app/localoperator/Elasticity.h line 246. -/
def epsilon : ℝ := -1

/-- `compute_inverse_mass_matrix`, app/localoperator/Elasticity.cpp lines 66-84 (the inverse is zero here if the matrix is
singular). -/
def Op.minv (o : Op dim Nbf Nbm Nq nq) (e : Nat) : Fin Nbf → Fin Nbf → ℝ :=
  ((Matrix.of (kMassMatrix o.ref.E_Q o.ref.W (o.J_Q e)))⁻¹ : Matrix (Fin Nbf) (Fin Nbf) ℝ)

/-- `lam_q_0`, `lam_q_1` as computed in `prepare_skeleton` and `prepare_boundary`, app/localoperator/Elasticity.cpp lines
193-222; at a boundary facet only side 0 is set. -/
def Op.lamq (o : Op dim Nbf Nbm Nq nq) (i : FacetInfo) (s : Fin 2) : Fin nq → ℝ :=
  kCoefq (o.ref.matE_q_T (localNoOf i s)) (o.lam (upOf i s))
/-- `mu_q_0`, `mu_q_1`, see `Op.lamq`, app/localoperator/Elasticity.cpp lines 193-222. -/
def Op.muq (o : Op dim Nbf Nbm Nq nq) (i : FacetInfo) (s : Fin 2) : Fin nq → ℝ :=
  kCoefq (o.ref.matE_q_T (localNoOf i s)) (o.mu (upOf i s))

/-- `E_q[info.localNo[s]]`, for instance app/localoperator/Elasticity.cpp line 435. -/
def Op.Es (o : Op dim Nbf Nbm Nq nq) (i : FacetInfo) (s : Fin 2) : Fin Nbf → Fin nq → ℝ := o.ref.E_q (localNoOf i s)

/-- `Dx_q0`, `Dx_q1`, for instance app/localoperator/Elasticity.cpp lines 352-363. -/
def Op.Dx (o : Op dim Nbf Nbm Nq nq) (f : Nat) (i : FacetInfo) (s : Fin 2) : Fin Nbf → Fin dim → Fin nq → ℝ :=
  kDx (o.JInv f s) (o.ref.Dxi_q (localNoOf i s))

/-- `traction_op_q0`, `traction_op_q1`, app/localoperator/Elasticity.cpp lines 365-380. -/
def Op.T (o : Op dim Nbf Nbm Nq nq) (f : Nat) (i : FacetInfo) (s : Fin 2) : Fin Nbf → Fin dim → Fin dim → Fin nq → ℝ :=
  kTractionOp (o.lamq i s) (o.muq i s) (o.Dx f i s) (o.n_q f)

/-- `lam_W_J_Q`, app/localoperator/Elasticity.cpp lines 227-253. -/
def Op.lamWJ (o : Op dim Nbf Nbm Nq nq) (e : Nat) : Fin Nq → ℝ := kWJQ o.ref.matE_Q_T (o.lam e) o.ref.W (o.J_Q e)
/-- `mu_W_J_Q`, app/localoperator/Elasticity.cpp lines 227-253. -/
def Op.muWJ (o : Op dim Nbf Nbm Nq nq) (e : Nat) : Fin Nq → ℝ := kWJQ o.ref.matE_Q_T (o.mu e) o.ref.W (o.J_Q e)

/-- `assemble_volume`, app/localoperator/Elasticity.cpp lines 317-340 (always returns true). -/
def Op.assembleVolume (o : Op dim Nbf Nbm Nq nq) (e : Nat) : Fin Nbf → Fin dim → Fin Nbf → Fin dim → ℝ :=
  kAssembleVolume (o.lamWJ e) (o.muWJ e) (kDx (o.G_Q e) o.ref.Dxi_Q)

/-- `L_q` in `assemble_skeleton`, app/localoperator/Elasticity.cpp lines 382-421. -/
def Op.skeletonL (o : Op dim Nbf Nbm Nq nq) (f : Nat) (i : FacetInfo) (x : Fin 2) : Fin Nbf → Fin dim → Fin dim → Fin nq → ℝ :=
  match o.method with
  | .BR2 => kLiftSkeleton (fun s => o.minv (upOf i s)) (o.Es i) (o.lamq i) (o.muq i) (o.n_q f) o.ref.w x
  | .IP => kLiftIp (o.Es i x) (o.nl_q f)

/-- `assemble_skeleton`, app/localoperator/Elasticity.cpp lines 342-447 (always returns true): block `A_xy`. -/
def Op.assembleSkeleton (o : Op dim Nbf Nbm Nq nq) (f : Nat) (i : FacetInfo) (x y : Fin 2) :
    Fin Nbf → Fin dim → Fin Nbf → Fin dim → ℝ :=
  kAssembleSurface ![-0.5, 0.5] ![epsilon * 0.5, -(epsilon * 0.5)] ![o.penalty f, -o.penalty f] o.ref.w
    (o.T f i) (o.Es i) (o.skeletonL f i) x y

/-- `L_q(0)` in `assemble_boundary`, app/localoperator/Elasticity.cpp lines 481-505. -/
def Op.boundaryL (o : Op dim Nbf Nbm Nq nq) (f : Nat) (i : FacetInfo) : Fin Nbf → Fin dim → Fin dim → Fin nq → ℝ :=
  match o.method with
  | .BR2 => kLiftBoundary (o.minv i.up0) (o.Es i 0) (o.lamq i 0) (o.muq i 0) (o.n_q f) o.ref.w
  | .IP => kLiftIp (o.Es i 0) (o.nl_q f)

/-- `assemble_boundary`, app/localoperator/Elasticity.cpp lines 449-519; `none`: returns false. -/
def Op.assembleBoundary (o : Op dim Nbf Nbm Nq nq) (f : Nat) (i : FacetInfo) :
    Option (Fin Nbf → Fin dim → Fin Nbf → Fin dim → ℝ) :=
  if i.bc = bcNatural then none
  else some (kAssembleSurface (fun _ => -1) (fun _ => epsilon) (fun _ => o.penalty f) o.ref.w
    (fun _ => o.T f i 0) (fun _ => o.Es i 0) (fun _ => o.boundaryL f i) 0 0)

/-- The functions of the operator as `DGOperator::assemble` calls them, src/form/DGOperator.h lines 121-187. -/
def Op.localOp (o : Op dim Nbf Nbm Nq nq) : DGAssembly.LocalOp (Fin Nbf → Fin dim → Fin Nbf → Fin dim → ℝ) :=
  ⟨o.assembleVolume, o.assembleSkeleton, o.assembleBoundary⟩

/-- The data given by the user, app/localoperator/Elasticity.h lines 173-175: body force by element, displacement and slip by
facet, the flag says whether the facet is on the boundary. -/
structure Data (dim Nq nq : Nat) where
  force : Option (Nat → Fin dim → Fin Nq → ℝ)
  dirichlet : Option (Nat → Bool → Fin dim → Fin nq → ℝ)
  slip : Option (Nat → Bool → Fin dim → Fin nq → ℝ)

/-- `bc_skeleton`, app/localoperator/Elasticity.cpp lines 545-556; `none`: returns false. -/
def bcSkeleton (d : Data dim Nq nq) (f bc : Nat) : Option (Fin dim → Fin nq → ℝ) :=
  if bc = bcFault ∧ d.slip.isSome then d.slip.map (fun s => s f false)
  else if bc = bcDirichlet ∧ d.dirichlet.isSome then d.dirichlet.map (fun g => g f false)
  else none

/-- `bc_boundary`, app/localoperator/Elasticity.cpp lines 557-573; `none`: returns false. -/
def bcBoundary (d : Data dim Nq nq) (f bc : Nat) : Option (Fin dim → Fin nq → ℝ) :=
  if bc = bcFault ∧ d.slip.isSome then d.slip.map (fun s p q => s f true p q * 0.5)
  else if bc = bcDirichlet ∧ d.dirichlet.isSome then d.dirichlet.map (fun g => g f true)
  else none

/-- `rhs_volume`, app/localoperator/Elasticity.cpp lines 521-543. -/
def Op.rhsVolume (o : Op dim Nbf Nbm Nq nq) (d : Data dim Nq nq) (e : Nat) (b : Fin Nbf → Fin dim → ℝ) : Fin Nbf → Fin dim → ℝ :=
  match d.force with
  | none => b
  | some F => kRhsVolume (o.J_Q e) o.ref.W o.ref.E_Q (F e) b

/-- `f_lifted_q` in `rhs_skeleton`, app/localoperator/Elasticity.cpp lines 583-615. -/
def Op.rhsSkeletonLift (o : Op dim Nbf Nbm Nq nq) (f : Nat) (i : FacetInfo) (f_q : Fin dim → Fin nq → ℝ) : Fin dim → Fin nq → ℝ :=
  match o.method with
  | .BR2 => kRhsLiftSkeleton (fun s => o.minv (upOf i s)) (o.Es i) (o.lamq i) (o.muq i) (o.n_q f) o.ref.w f_q
  | .IP => kRhsLiftIp (o.nl_q f) f_q

/-- `rhs_skeleton`, app/localoperator/Elasticity.cpp lines 575-643: the block of side `s` (0: `B0`, 1: `B1`). -/
def Op.rhsSkeleton (o : Op dim Nbf Nbm Nq nq) (d : Data dim Nq nq) (f : Nat) (i : FacetInfo) (s : Fin 2)
    (b : Fin Nbf → Fin dim → ℝ) : Fin Nbf → Fin dim → ℝ :=
  match bcSkeleton d f i.bc with
  | none => b
  | some f_q => kRhsFacet (0.5 * epsilon) (if s = 0 then o.penalty f else o.penalty f * -1) o.ref.w (o.lamq i s) (o.muq i s)
      (o.JInv f s) (o.ref.Dxi_q (localNoOf i s)) (o.n_q f) (o.Es i s) f_q (o.rhsSkeletonLift f i f_q) b

/-- `f_lifted_q` in `rhs_boundary`, app/localoperator/Elasticity.cpp lines 653-677. -/
def Op.rhsBoundaryLift (o : Op dim Nbf Nbm Nq nq) (f : Nat) (i : FacetInfo) (f_q : Fin dim → Fin nq → ℝ) : Fin dim → Fin nq → ℝ :=
  match o.method with
  | .BR2 => kRhsLiftBoundary (o.minv i.up0) (o.Es i 0) (o.lamq i 0) (o.muq i 0) (o.n_q f) o.ref.w f_q
  | .IP => kRhsLiftIp (o.nl_q f) f_q

/-- `rhs_boundary`, app/localoperator/Elasticity.cpp lines 645-696. -/
def Op.rhsBoundary (o : Op dim Nbf Nbm Nq nq) (d : Data dim Nq nq) (f : Nat) (i : FacetInfo)
    (b : Fin Nbf → Fin dim → ℝ) : Fin Nbf → Fin dim → ℝ :=
  match bcBoundary d f i.bc with
  | none => b
  | some f_q => kRhsFacet epsilon (o.penalty f) o.ref.w (o.lamq i 0) (o.muq i 0) (o.JInv f 0) (o.ref.Dxi_q (localNoOf i 0))
      (o.n_q f) (o.Es i 0) f_q (o.rhsBoundaryLift f i f_q) b

/-- The functions of the operator as `DGOperator::rhs` calls them, src/form/DGOperator.h lines 189-237. -/
def Op.localRhs (o : Op dim Nbf Nbm Nq nq) (d : Data dim Nq nq) : DGAssembly.LocalRhs (Fin Nbf → Fin dim → ℝ) :=
  ⟨o.rhsVolume d, o.rhsSkeleton d, o.rhsBoundary d⟩

/-- The precomputed data of one side of a facet, app/localoperator/Elasticity.h lines 238-240: `lam_q_s`, `mu_q_s`, `JInvTs`. -/
structure SidePre (dim nq : Nat) where
  lam : Fin nq → ℝ
  mu : Fin nq → ℝ
  JInvT : Fin dim → Fin dim → Fin nq → ℝ

/-- `fctPre[f]` after `prepare_skeleton` or `prepare_boundary` with `transpose_JInv`, app/localoperator/Elasticity.cpp lines
177-225; at a boundary facet only side 0 is set: `junk` stands for the initial content of side 1. -/
def Op.fctPre (o : Op dim Nbf Nbm Nq nq) (junk : Nat → SidePre dim nq) (f : Nat) (i : FacetInfo) (s : Fin 2) : SidePre dim nq :=
  if i.up0 = i.up1 ∧ s = 1 then junk f
  else ⟨o.lamq i s, o.muq i s, fun a b q => o.JInv f s b a q⟩

/-- `JInvT` of an element, app/localoperator/Elasticity.cpp lines 166-174. -/
def Op.GQT (o : Op dim Nbf Nbm Nq nq) (e : Nat) : Fin dim → Fin dim → Fin Nq → ℝ := fun i j q => o.G_Q e j i q
/-- `Dxi_Q_120`, app/localoperator/Elasticity.cpp line 40. -/
def Op.DxiQ120 (o : Op dim Nbf Nbm Nq nq) : Fin dim → Fin Nq → Fin Nbf → ℝ := fun e q l => o.ref.Dxi_Q l e q

/-- `u_hat_minus_u_q` and `sigma_hat_q` of one facet in `apply_`, app/localoperator/Elasticity.cpp lines 749-840: `pre0`,
`pre1`, `nu` already exchanged and flipped; `none`: the facet is skipped. -/
def Op.fluxes (o : Op dim Nbf Nbm Nq nq) (withRHS : Bool) (d : Data dim Nq nq) (pre0 pre1 : SidePre dim nq)
    (nu : Fin dim → Fin nq → ℝ) (isSkeleton : Bool) (f : Nat) (info : SideInfo) (x_0 x_n : Fin Nbf → Fin dim → ℝ) :
    Option ((Fin nq → Fin dim → ℝ) × (Fin dim → Fin dim → Fin nq → ℝ)) :=
  let isFaultOrDirichlet : Bool := info.bc = bcFault ∨ info.bc = bcDirichlet
  if info.bc = bcNone ∨ (isSkeleton ∧ isFaultOrDirichlet) then
    let uh := kFluxUSkeleton (o.ref.negative_E_q_T f) (o.ref.E_q_T info.localNo) x_0 x_n
    let sh := kFluxSigmaSkeleton (-o.penalty info.fctNo) pre0.lam pre0.mu pre1.lam pre1.mu pre0.JInvT pre1.JInvT
      (o.ref.Dxi_q_120 f) (o.ref.Dxi_q_120 info.localNo) (o.ref.E_q_T f) (o.ref.negative_E_q_T info.localNo) nu x_0 x_n
    let g := if withRHS then bcSkeleton d info.fctNo info.bc else none
    match g with
    | some f_q =>
      let sign : ℝ := if info.side = 1 then -1 else 1
      some (kFluxUAddBc (0.5 * sign) f_q uh, kFluxSigmaAddBc (sign * o.penalty info.fctNo) f_q nu sh)
    | none => some (uh, sh)
  else if isFaultOrDirichlet then
    let uh := kFluxUBoundary (o.ref.negative_E_q_T f) x_0
    let sh := kFluxSigmaBoundary (-o.penalty info.fctNo) pre0.lam pre0.mu pre0.JInvT (o.ref.Dxi_q_120 f) (o.ref.E_q_T f) nu x_0
    let g := if withRHS then bcBoundary d info.fctNo info.bc else none
    match g with
    | some f_q => some (kFluxUAddBc 1 f_q uh, kFluxSigmaAddBc (o.penalty info.fctNo) f_q nu sh)
    | none => some (uh, sh)
  else none

/-- One iteration `f` of the loop of `apply_`, app/localoperator/Elasticity.cpp lines 721-855: `info` is `info[f]`, `pre` the
precomputed data of that facet. -/
def Op.applyFacet (o : Op dim Nbf Nbm Nq nq) (withRHS : Bool) (d : Data dim Nq nq) (pre : Fin 2 → SidePre dim nq) (elNo f : Nat)
    (info : SideInfo) (x_0 x_n y : Fin Nbf → Fin dim → ℝ) : Fin Nbf → Fin dim → ℝ :=
  let isSkeleton : Bool := elNo ≠ info.lid
  let swap : Bool := isSkeleton ∧ info.side = 1
  let pre0 := if swap then pre 1 else pre 0
  let pre1 := if swap then pre 0 else pre 1
  let n := if swap then (fun i q => - o.n_q info.fctNo i q) else o.n_q info.fctNo
  let nu := if swap then (fun i q => - o.n_unit_q info.fctNo i q) else o.n_unit_q info.fctNo
  match o.fluxes withRHS d pre0 pre1 nu isSkeleton f info x_0 x_n with
  | some (uh, sh) => kApplyFacet o.ref.w pre0.lam pre0.mu n uh pre0.JInvT (o.ref.Dxi_q f) (negativeEq o.ref f) sh y
  | none => y

/-- `apply_`, app/localoperator/Elasticity.cpp lines 698-856: `xn` lists for every facet of the element `info[f]` and `x_n[f]`;
the result is the block written to `y_0`.  `apply` (lines 858-863) is the case `withRHS = false`. -/
def Op.apply (o : Op dim Nbf Nbm Nq nq) (withRHS : Bool) (d : Data dim Nq nq) (pre : Nat → Fin 2 → SidePre dim nq) (elNo : Nat)
    (x_0 : Fin Nbf → Fin dim → ℝ) (xn : List (SideInfo × (Fin Nbf → Fin dim → ℝ))) : Fin Nbf → Fin dim → ℝ :=
  xn.zipIdx.foldl (fun y p => o.applyFacet withRHS d (pre p.1.1.fctNo) elNo p.2 p.1.1 x_0 p.1.2 y)
    (kApplyVolume (o.G_Q elNo) (o.GQT elNo) o.ref.Dxi_Q o.DxiQ120 (o.lamWJ elNo) (o.muWJ elNo) x_0)

/-- `negative_rhoInv_W_Jinv_Q` of an element, app/localoperator/Elasticity.cpp lines 232-252. -/
def Op.negRhoInv (o : Op dim Nbf Nbm Nq nq) (e : Nat) : Fin Nq → ℝ :=
  kNegativeRhoInvWJinvQ o.ref.matE_Q_T (o.rhoInv e) o.ref.W (fun q => 1 / o.J_Q e q)

/-- `wave_rhs`, app/localoperator/Elasticity.cpp lines 865-880. -/
def Op.waveRhs (o : Op dim Nbf Nbm Nq nq) (d : Data dim Nq nq) (pre : Nat → Fin 2 → SidePre dim nq) (elNo : Nat)
    (x_0 : Fin Nbf → Fin dim → ℝ) (xn : List (SideInfo × (Fin Nbf → Fin dim → ℝ))) : Fin Nbf → Fin dim → ℝ :=
  kApplyInverseMass o.ref.MinvRef (o.negRhoInv elNo) o.ref.E_Q (o.apply true d pre elNo x_0 xn)

/-- `project`, app/localoperator/Elasticity.cpp lines 882-911. -/
def Op.project (o : Op dim Nbf Nbm Nq nq) (elNo : Nat) (U_Q : Fin dim → Fin Nq → ℝ) : Fin Nbf → Fin dim → ℝ :=
  kApplyInverseMass o.ref.MinvRef (fun q => o.ref.W q / o.J_Q elNo q) o.ref.E_Q
    (kProjectURhs o.ref.E_Q o.ref.W (o.J_Q elNo) U_Q)

/-- `traction_skeleton`, app/localoperator/Elasticity.cpp lines 949-988; `f_q` holds arbitrary values if `bc_skeleton`
returns false. -/
def Op.tractionSkeleton (o : Op dim Nbf Nbm Nq nq) (d : Data dim Nq nq) (junk : Fin dim → Fin nq → ℝ) (f : Nat) (i : FacetInfo)
    (u0 u1 : Fin Nbf → Fin dim → ℝ) : Fin dim → Fin nq → ℝ :=
  kComputeTraction (-o.penalty f) (o.lamq i) (o.muq i) (o.Dx f i) (o.Es i) ((bcSkeleton d f i.bc).getD junk) (o.n_unit_q f) u0 u1

/-- `traction_boundary`, app/localoperator/Elasticity.cpp lines 990-1018; `f_q` holds arbitrary values if `bc_boundary`
returns false. -/
def Op.tractionBoundary (o : Op dim Nbf Nbm Nq nq) (d : Data dim Nq nq) (junk : Fin dim → Fin nq → ℝ) (f : Nat) (i : FacetInfo)
    (u0 : Fin Nbf → Fin dim → ℝ) : Fin dim → Fin nq → ℝ :=
  kComputeTractionBnd (-o.penalty f) (o.lamq i 0) (o.muq i 0) (o.Dx f i 0) (o.Es i 0) ((bcBoundary d f i.bc).getD junk)
    (o.n_unit_q f) u0

/-- `stiffness_tensor_bounds`, app/localoperator/Elasticity.cpp lines 255-267: the loops compute the least `2 mu` and the
greatest `dim lam + 2 mu` over the coefficients. -/
def stiffnessBounds (dim : Nat) (lam mu : Fin Nbm → ℝ) : ℝ × ℝ := (⨅ t, 2 * mu t, ⨆ t, (dim * lam t + 2 * mu t))

/-- `inverse_density_upper_bound`, app/localoperator/Elasticity.cpp lines 269-277. -/
def inverseDensityUpperBound (rhoInv : Fin Nbm → ℝ) : ℝ := ⨆ t, rhoInv t

/-- `prepare_penalty`, app/localoperator/Elasticity.cpp lines 279-292: `N` is `PolynomialDegree - 1`, `area` and `volume` are
`area_` and `volume_`. -/
def preparePenalty (dim N : Nat) (area volume : Nat → ℝ) (lam mu : Nat → Fin Nbm → ℝ) (f : Nat) (i : FacetInfo) : ℝ :=
  let p := fun (s : Fin 2) =>
    let c := stiffnessBounds dim (lam (upOf i s)) (mu (upOf i s))
    (dim + 1 : ℝ) * traceConstant dim N * (area f / volume (upOf i s)) * (c.2 * c.2 / c.1)
  if i.up0 ≠ i.up1 then (p 0 + p 1) / 4.0 else p 0

end
end Tandem.Elasticity
