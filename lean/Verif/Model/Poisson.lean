import Verif.Model.DGTopo
import Verif.Model.DGAssembly
import Mathlib.Data.Real.Sqrt
import Mathlib.Algebra.BigOperators.Fin
/-!
# Model of `app/localoperator/Poisson.{h,cpp}` with the kernels of `app/kernels/poisson.py`

Exact arithmetic over ℝ in place of `double`.  A tensor is a function of its indices; the kernels are the
formulas of poisson.py (the generated code and the memory layout of the tensors are not modelled), the
functions of Poisson.cpp bind the tensors as the code does.  Two sides of a facet are numbered by `Fin 2`.
-/
namespace Tandem.Poisson
open Tandem.DGTopo (FacetInfo SideInfo View facetInfo)
open Tandem.DGAssembly
noncomputable section

/-! ## Kernels, app/kernels/poisson.py -/
section Kernels
variable {dim Nbf Nbm Nq nq : Nat}

/-- app/kernels/poisson.py line 29. -/
def kDxQ (G_Q : Fin dim → Fin dim → Fin Nq → ℝ) (Dxi_Q : Fin Nbf → Fin dim → Fin Nq → ℝ) :
    Fin Nbf → Fin dim → Fin Nq → ℝ := fun k i q => ∑ e, G_Q e i q * Dxi_Q k e q

/-- app/kernels/poisson.py lines 30-32. -/
def kAssembleVolume (J_Q W : Fin Nq → ℝ) (K : Fin Nbm → ℝ) (matE_Q_T : Fin Nq → Fin Nbm → ℝ)
    (Dx_Q : Fin Nbf → Fin dim → Fin Nq → ℝ) : Fin Nbf → Fin Nbf → ℝ := fun k l =>
  ∑ q, ∑ m, ∑ i, J_Q q * W q * K m * matE_Q_T q m * Dx_Q k i q * Dx_Q l i q

/-- app/kernels/poisson.py line 52. -/
def kKDxq (K : Fin Nbm → ℝ) (matE_q_T : Fin nq → Fin Nbm → ℝ) (G_q : Fin dim → Fin dim → Fin nq → ℝ)
    (Dxi_q : Fin Nbf → Fin dim → Fin nq → ℝ) : Fin Nbf → Fin dim → Fin nq → ℝ := fun k i q =>
  ∑ m, ∑ e, K m * matE_q_T q m * G_q e i q * Dxi_q k e q

/-- app/kernels/poisson.py line 53. -/
def kKq (K : Fin Nbm → ℝ) (matE_q_T : Fin nq → Fin Nbm → ℝ) : Fin nq → ℝ := fun q => ∑ m, K m * matE_q_T q m

/-- app/kernels/poisson.py lines 55-56. -/
def kLiftIp (E_q : Fin Nbf → Fin nq → ℝ) (nl_q : Fin nq → ℝ) : Fin Nbf → Fin nq → ℝ := fun l q => E_q l q * nl_q q

/-- `Lift[s]` of app/kernels/poisson.py lines 59-60. -/
def kLift (Minv : Fin Nbf → Fin Nbf → ℝ) (Es Ex : Fin Nbf → Fin nq → ℝ) (n_q : Fin dim → Fin nq → ℝ)
    (w : Fin nq → ℝ) : Fin Nbf → Fin dim → Fin Nbf → ℝ := fun l i u =>
  ∑ s, ∑ q, 0.5 * Minv u s * Es s q * Ex l q * n_q i q * w q

/-- `lift_skeleton(x)`, app/kernels/poisson.py lines 58-64. -/
def kLiftSkeleton (Minv : Fin 2 → Fin Nbf → Fin Nbf → ℝ) (E_q : Fin 2 → Fin Nbf → Fin nq → ℝ)
    (K_q : Fin 2 → Fin nq → ℝ) (n_q : Fin dim → Fin nq → ℝ) (w : Fin nq → ℝ) (x : Fin 2) :
    Fin Nbf → Fin nq → ℝ := fun l q =>
  ∑ i, 0.5 * n_q i q * ((∑ u, K_q 0 q * E_q 0 u q * kLift (Minv 0) (E_q 0) (E_q x) n_q w l i u) +
    (∑ v, K_q 1 q * E_q 1 v q * kLift (Minv 1) (E_q 1) (E_q x) n_q w l i v))

/-- `lift_boundary`, app/kernels/poisson.py lines 65-68. -/
def kLiftBoundary (Minv : Fin Nbf → Fin Nbf → ℝ) (E_q : Fin Nbf → Fin nq → ℝ) (K_q : Fin nq → ℝ)
    (n_q : Fin dim → Fin nq → ℝ) (w : Fin nq → ℝ) : Fin Nbf → Fin nq → ℝ := fun l q =>
  ∑ i, ∑ u, n_q i q * K_q q * E_q u q * (∑ s, ∑ p, Minv u s * E_q s p * E_q l p * n_q i p * w p)

/-- `assembleSurface(x, y)`, app/kernels/poisson.py lines 70-75. -/
def kAssembleSurface (c0 c1 c2 : Fin 2 → ℝ) (w : Fin nq → ℝ) (K_Dx_q : Fin 2 → Fin Nbf → Fin dim → Fin nq → ℝ)
    (n_q : Fin dim → Fin nq → ℝ) (E_q L_q : Fin 2 → Fin Nbf → Fin nq → ℝ) (x y : Fin 2) :
    Fin Nbf → Fin Nbf → ℝ := fun k l =>
  (∑ q, ∑ i, c0 y * w q * K_Dx_q x k i q * n_q i q * E_q y l q) +
  (∑ q, ∑ i, c1 x * w q * K_Dx_q y l i q * n_q i q * E_q x k q) +
  (∑ q, c2 (if x = y then 0 else 1) * w q * E_q x k q * L_q y l q)

/-- `rhsVolume`, app/kernels/poisson.py line 79. -/
def kRhsVolume (J_Q W : Fin Nq → ℝ) (E_Q : Fin Nbf → Fin Nq → ℝ) (F_Q : Fin Nq → ℝ) (b : Fin Nbf → ℝ) :
    Fin Nbf → ℝ := fun k => b k + ∑ q, J_Q q * W q * E_Q k q * F_Q q

/-- `rhs_lift_ip`, app/kernels/poisson.py line 85. -/
def kRhsLiftIp (nl_q f_q : Fin nq → ℝ) : Fin nq → ℝ := fun q => nl_q q * f_q q

/-- `rhs_lift_boundary`, app/kernels/poisson.py lines 87-90. -/
def kRhsLiftBoundary (Minv : Fin Nbf → Fin Nbf → ℝ) (E_q : Fin Nbf → Fin nq → ℝ) (K_q : Fin nq → ℝ)
    (n_q : Fin dim → Fin nq → ℝ) (w f_q : Fin nq → ℝ) : Fin nq → ℝ := fun q =>
  ∑ i, ∑ l, n_q i q * K_q q * E_q l q * (∑ m, ∑ p, Minv l m * E_q m p * f_q p * w p * n_q i p)

/-- `rhs_lift_skeleton`, app/kernels/poisson.py lines 92-99. -/
def kRhsLiftSkeleton (Minv : Fin 2 → Fin Nbf → Fin Nbf → ℝ) (E_q : Fin 2 → Fin Nbf → Fin nq → ℝ)
    (K_q : Fin 2 → Fin nq → ℝ) (n_q : Fin dim → Fin nq → ℝ) (w f_q : Fin nq → ℝ) : Fin nq → ℝ := fun q =>
  ∑ i, 0.5 * n_q i q *
    ((∑ l, K_q 0 q * E_q 0 l q * (∑ m, ∑ p, 0.5 * Minv 0 l m * E_q 0 m p * f_q p * w p * n_q i p)) +
     (∑ l, K_q 1 q * E_q 1 l q * (∑ m, ∑ p, 0.5 * Minv 1 l m * E_q 1 m p * f_q p * w p * n_q i p)))

/-- `rhsFacet`, app/kernels/poisson.py lines 101-103. -/
def kRhsFacet (c1 c2 : ℝ) (w : Fin nq → ℝ) (K_Dx_q : Fin Nbf → Fin dim → Fin nq → ℝ) (n_q : Fin dim → Fin nq → ℝ)
    (E_q : Fin Nbf → Fin nq → ℝ) (f_q f_lifted_q : Fin nq → ℝ) (b : Fin Nbf → ℝ) : Fin Nbf → ℝ := fun k =>
  b k + (∑ q, ∑ i, c1 * w q * K_Dx_q k i q * n_q i q * f_q q) + (∑ q, c2 * w q * E_q k q * f_lifted_q q)

/-- `J_W_K_Q`, app/kernels/poisson.py line 120. -/
def kJWKQ (J_Q W : Fin Nq → ℝ) (K : Fin Nbm → ℝ) (matE_Q_T : Fin Nq → Fin Nbm → ℝ) : Fin Nq → ℝ := fun q =>
  ∑ m, J_Q q * W q * K m * matE_Q_T q m

/-- `K_G_q`, app/kernels/poisson.py line 121. -/
def kKGq (K : Fin Nbm → ℝ) (matE_q_T : Fin nq → Fin Nbm → ℝ) (G_q : Fin dim → Fin dim → Fin nq → ℝ) :
    Fin dim → Fin dim → Fin nq → ℝ := fun e i q => ∑ m, K m * matE_q_T q m * G_q e i q

/-- `flux_u_skeleton`, app/kernels/poisson.py lines 123-124. -/
def kFluxUSkeleton (negative_E_q_T0 E_q_T1 : Fin nq → Fin Nbf → ℝ) (U U_ext : Fin Nbf → ℝ) : Fin nq → ℝ := fun q =>
  0.5 * ((∑ l, negative_E_q_T0 q l * U l) + (∑ l, E_q_T1 q l * U_ext l))

/-- `flux_u_boundary`, app/kernels/poisson.py line 125. -/
def kFluxUBoundary (negative_E_q_T0 : Fin nq → Fin Nbf → ℝ) (U : Fin Nbf → ℝ) : Fin nq → ℝ := fun q =>
  ∑ l, negative_E_q_T0 q l * U l

/-- `flux_sigma_skeleton`, app/kernels/poisson.py lines 126-129. -/
def kFluxSigmaSkeleton (c00 : ℝ) (K_G_q0 K_G_q1 : Fin dim → Fin dim → Fin nq → ℝ)
    (Dxi_q_1200 Dxi_q_1201 : Fin dim → Fin nq → Fin Nbf → ℝ) (E_q_T0 negative_E_q_T1 : Fin nq → Fin Nbf → ℝ)
    (n_unit_q : Fin dim → Fin nq → ℝ) (U U_ext : Fin Nbf → ℝ) : Fin dim → Fin nq → ℝ := fun p q =>
  0.5 * ((∑ e, ∑ l, K_G_q0 e p q * Dxi_q_1200 e q l * U l) + (∑ e, ∑ l, K_G_q1 e p q * Dxi_q_1201 e q l * U_ext l)) +
  c00 * ((∑ l, E_q_T0 q l * U l) + (∑ l, negative_E_q_T1 q l * U_ext l)) * n_unit_q p q

/-- `flux_sigma_boundary`, app/kernels/poisson.py lines 130-132. -/
def kFluxSigmaBoundary (c00 : ℝ) (K_G_q0 : Fin dim → Fin dim → Fin nq → ℝ)
    (Dxi_q_1200 : Fin dim → Fin nq → Fin Nbf → ℝ) (E_q_T0 : Fin nq → Fin Nbf → ℝ)
    (n_unit_q : Fin dim → Fin nq → ℝ) (U : Fin Nbf → ℝ) : Fin dim → Fin nq → ℝ := fun p q =>
  (∑ e, ∑ l, K_G_q0 e p q * Dxi_q_1200 e q l * U l) + (∑ l, c00 * E_q_T0 q l * U l * n_unit_q p q)

/-- `apply_volume`, app/kernels/poisson.py lines 133-136. -/
def kApplyVolume (Dxi_Q : Fin Nbf → Fin dim → Fin Nq → ℝ) (G_Q : Fin dim → Fin dim → Fin Nq → ℝ) (J_W_K_Q : Fin Nq → ℝ)
    (U : Fin Nbf → ℝ) : Fin Nbf → ℝ := fun k =>
  let Dx_Q : Fin Nbf → Fin dim → Fin Nq → ℝ := fun k r q => ∑ e, Dxi_Q k e q * G_Q e r q
  ∑ q, ∑ r, ∑ l, J_W_K_Q q * Dx_Q k r q * Dx_Q l r q * U l

/-- `apply_facet`, app/kernels/poisson.py lines 137-140. -/
def kApplyFacet (w : Fin nq → ℝ) (n_q : Fin dim → Fin nq → ℝ) (u_hat_q : Fin nq → ℝ)
    (K_G_q0 : Fin dim → Fin dim → Fin nq → ℝ) (Dxi_q0 : Fin Nbf → Fin dim → Fin nq → ℝ) (E_q0 : Fin Nbf → Fin nq → ℝ)
    (sigma_hat_q : Fin dim → Fin nq → ℝ) (U_new : Fin Nbf → ℝ) : Fin Nbf → ℝ := fun k =>
  U_new k + ∑ q, ∑ r, w q * n_q r q * ((∑ e, u_hat_q q * K_G_q0 e r q * Dxi_q0 k e q) - E_q0 k q * sigma_hat_q r q)

/-- `grad_u`, app/kernels/poisson.py lines 146-148. -/
def kGradU (c00 : ℝ) (K_Dx_q : Fin 2 → Fin Nbf → Fin dim → Fin nq → ℝ) (E_q : Fin 2 → Fin Nbf → Fin nq → ℝ)
    (f_q : Fin nq → ℝ) (n_unit_q : Fin dim → Fin nq → ℝ) (u0 u1 : Fin Nbf → ℝ) : Fin dim → Fin nq → ℝ := fun p q =>
  0.5 * ((∑ l, K_Dx_q 0 l p q * u0 l) + (∑ l, K_Dx_q 1 l p q * u1 l)) +
    c00 * ((∑ l, E_q 0 l q * u0 l) - (∑ l, E_q 1 l q * u1 l) - f_q q) * n_unit_q p q

/-- `grad_u_bnd`, app/kernels/poisson.py lines 150-152. -/
def kGradUBnd (c00 : ℝ) (K_Dx_q : Fin Nbf → Fin dim → Fin nq → ℝ) (E_q : Fin Nbf → Fin nq → ℝ)
    (f_q : Fin nq → ℝ) (n_unit_q : Fin dim → Fin nq → ℝ) (u0 : Fin Nbf → ℝ) : Fin dim → Fin nq → ℝ := fun p q =>
  (∑ l, K_Dx_q l p q * u0 l) + c00 * ((∑ l, E_q l q * u0 l) - f_q q) * n_unit_q p q

end Kernels

/-! ## The local operator -/

/-- Tensors of the reference element, app/localoperator/Poisson.h lines 134-147; the second index of the
facet tensors is the local number of the facet.  `E_q_T`, `negative_E_q_T`, `Dxi_q_120`: see below. -/
structure Ref (dim Nbf Nbm Nq nq : Nat) where
  E_Q : Fin Nbf → Fin Nq → ℝ
  Dxi_Q : Fin Nbf → Fin dim → Fin Nq → ℝ
  matE_Q_T : Fin Nq → Fin Nbm → ℝ
  W : Fin Nq → ℝ
  E_q : Nat → Fin Nbf → Fin nq → ℝ
  Dxi_q : Nat → Fin Nbf → Fin dim → Fin nq → ℝ
  matE_q_T : Nat → Fin nq → Fin Nbm → ℝ
  w : Fin nq → ℝ
  MinvRef : Fin Nbf → Fin Nbf → ℝ

/-- `DGMethod`, src/form/DGCurvilinearCommon.h line 25 (without `Unknown`). -/
inductive Method | IP | BR2
deriving DecidableEq

/-- The operator with its precomputed data: src/form/DGCurvilinearCommon.h lines 148-179 (`vol`: `AbsDetJ`, `JInv`; `fct`:
`JInv0`, `JInv1`, `Normal`), `material` and `penalty_` of
app/localoperator/Poisson.h lines 127-182.  First index: element or facet. -/
structure Op (dim Nbf Nbm Nq nq : Nat) where
  ref : Ref dim Nbf Nbm Nq nq
  method : Method
  J_Q : Nat → Fin Nq → ℝ
  G_Q : Nat → Fin dim → Fin dim → Fin Nq → ℝ
  K : Nat → Fin Nbm → ℝ
  JInv : Nat → Fin 2 → Fin dim → Fin dim → Fin nq → ℝ
  n_q : Nat → Fin dim → Fin nq → ℝ
  penalty_ : Nat → ℝ

variable {dim Nbf Nbm Nq nq : Nat}

/-- `NormalLength`, src/form/DGCurvilinearCommon.cpp lines 82-85 and src/geometry/Vector.h lines 51-57. -/
def normalLength (n_q : Fin dim → Fin nq → ℝ) : Fin nq → ℝ := fun q => Real.sqrt (∑ i, n_q i q * n_q i q)
/-- `UnitNormal`, src/form/DGCurvilinearCommon.cpp lines 86-87: computed as `Normal` and normalized,
src/geometry/Curvilinear.cpp lines 269-274 (Eigen's `normalize` leaves a zero vector as it is). -/
def unitNormal (n_q : Fin dim → Fin nq → ℝ) : Fin dim → Fin nq → ℝ := fun i q =>
  if 0 < ∑ j, n_q j q * n_q j q then n_q i q / Real.sqrt (∑ j, n_q j q * n_q j q) else n_q i q

/-- `fct[f].get<NormalLength>()`, src/form/DGCurvilinearCommon.cpp lines 82-85. -/
def Op.nl_q (o : Op dim Nbf Nbm Nq nq) (f : Nat) : Fin nq → ℝ := normalLength (o.n_q f)
/-- `fct[f].get<UnitNormal>()`, src/form/DGCurvilinearCommon.cpp lines 86-87. -/
def Op.n_unit_q (o : Op dim Nbf Nbm Nq nq) (f : Nat) : Fin dim → Fin nq → ℝ := unitNormal (o.n_q f)

/-- `E_q_T`, app/localoperator/Poisson.cpp line 46: the transpose. -/
def Ref.E_q_T (r : Ref dim Nbf Nbm Nq nq) (f : Nat) : Fin nq → Fin Nbf → ℝ := fun q l => r.E_q f l q
/-- `negative_E_q_T`, app/localoperator/Poisson.cpp lines 51-53. -/
def Ref.negative_E_q_T (r : Ref dim Nbf Nbm Nq nq) (f : Nat) : Fin nq → Fin Nbf → ℝ := fun q l => - r.E_q f l q
/-- `Dxi_q_120`, app/localoperator/Poisson.cpp line 48: the gradient with permuted indices. -/
def Ref.Dxi_q_120 (r : Ref dim Nbf Nbm Nq nq) (f : Nat) : Fin dim → Fin nq → Fin Nbf → ℝ := fun e q l => r.Dxi_q f l e q

/-- `penalty`, app/localoperator/Poisson.h lines 113-118; `NumFacets = dim + 1`. -/
def Op.penalty (o : Op dim Nbf Nbm Nq nq) (f : Nat) : ℝ := if o.method = .BR2 then (dim + 1 : ℕ) else o.penalty_ f

/-- `epsilon`, app/localoperator/Poisson.h line 185. -/
def epsilon : ℝ := -1

/-- `compute_inverse_mass_matrix` with kernel `MinvWA`, app/localoperator/Poisson.cpp lines 69-85,
app/kernels/poisson.py lines 23-24. -/
def Op.minv (o : Op dim Nbf Nbm Nq nq) (e : Nat) : Fin Nbf → Fin Nbf → ℝ := fun k l =>
  ∑ r, ∑ s, ∑ q, o.ref.MinvRef k r * o.ref.W q * (1 / o.J_Q e q) * o.ref.E_Q r q * o.ref.E_Q s q * o.ref.MinvRef s l

/-- `compute_K_Dx_q`, app/localoperator/Poisson.cpp lines 87-101. -/
def Op.KDx (o : Op dim Nbf Nbm Nq nq) (f : Nat) (i : FacetInfo) (s : Fin 2) : Fin Nbf → Fin dim → Fin nq → ℝ :=
  kKDxq (o.K (upOf i s)) (o.ref.matE_q_T (localNoOf i s)) (o.JInv f s) (o.ref.Dxi_q (localNoOf i s))

/-- `compute_K_q`, app/localoperator/Poisson.cpp lines 103-114. -/
def Op.Kq (o : Op dim Nbf Nbm Nq nq) (i : FacetInfo) (s : Fin 2) : Fin nq → ℝ :=
  kKq (o.K (upOf i s)) (o.ref.matE_q_T (localNoOf i s))

/-- `E_q[info.localNo[s]]`, for instance app/localoperator/Poisson.cpp line 318. -/
def Op.Es (o : Op dim Nbf Nbm Nq nq) (i : FacetInfo) (s : Fin 2) : Fin Nbf → Fin nq → ℝ := o.ref.E_q (localNoOf i s)

/-- `assemble_volume`, app/localoperator/Poisson.cpp lines 225-249 (always returns true). -/
def Op.assembleVolume (o : Op dim Nbf Nbm Nq nq) (e : Nat) : Fin Nbf → Fin Nbf → ℝ :=
  kAssembleVolume (o.J_Q e) o.ref.W (o.K e) o.ref.matE_Q_T (kDxQ (o.G_Q e) o.ref.Dxi_Q)

/-- `L_q` in `assemble_skeleton`, app/localoperator/Poisson.cpp lines 266-303. -/
def Op.skeletonL (o : Op dim Nbf Nbm Nq nq) (f : Nat) (i : FacetInfo) (x : Fin 2) : Fin Nbf → Fin nq → ℝ :=
  match o.method with
  | .BR2 => kLiftSkeleton (fun s => o.minv (upOf i s)) (o.Es i) (o.Kq i) (o.n_q f) o.ref.w x
  | .IP => kLiftIp (o.Es i x) (o.nl_q f)

/-- `assemble_skeleton`, app/localoperator/Poisson.cpp lines 251-329 (always returns true): block `A_xy`. -/
def Op.assembleSkeleton (o : Op dim Nbf Nbm Nq nq) (f : Nat) (i : FacetInfo) (x y : Fin 2) : Fin Nbf → Fin Nbf → ℝ :=
  kAssembleSurface ![-0.5, 0.5] ![epsilon * 0.5, -(epsilon * 0.5)] ![o.penalty f, -o.penalty f] o.ref.w
    (o.KDx f i) (o.n_q f) (o.Es i) (o.skeletonL f i) x y

/-- `L_q(0)` in `assemble_boundary`, app/localoperator/Poisson.cpp lines 344-367. -/
def Op.boundaryL (o : Op dim Nbf Nbm Nq nq) (f : Nat) (i : FacetInfo) : Fin Nbf → Fin nq → ℝ :=
  match o.method with
  | .BR2 => kLiftBoundary (o.minv i.up0) (o.Es i 0) (o.Kq i 0) (o.n_q f) o.ref.w
  | .IP => kLiftIp (o.Es i 0) (o.nl_q f)

/-- `assemble_boundary`, app/localoperator/Poisson.cpp lines 331-385; `none`: returns false. -/
def Op.assembleBoundary (o : Op dim Nbf Nbm Nq nq) (f : Nat) (i : FacetInfo) : Option (Fin Nbf → Fin Nbf → ℝ) :=
  if i.bc = bcNatural then none
  else some (kAssembleSurface (fun _ => -1) (fun _ => epsilon) (fun _ => o.penalty f) o.ref.w
    (fun _ => o.KDx f i 0) (o.n_q f) (fun _ => o.Es i 0) (fun _ => o.boundaryL f i) 0 0)

/-- `KJInv0`, `KJInv1` of `prepare_skeleton` and `prepare_boundary`, app/localoperator/Poisson.cpp lines
167-193; at a boundary facet only side 0 is set: `junk` stands for the initial content of `KJInv1`. -/
def Op.KJInv (o : Op dim Nbf Nbm Nq nq) (junk : Nat → Fin dim → Fin dim → Fin nq → ℝ) (f : Nat) (i : FacetInfo)
    (s : Fin 2) : Fin dim → Fin dim → Fin nq → ℝ :=
  if i.up0 = i.up1 ∧ s = 1 then junk f
  else kKGq (o.K (upOf i s)) (o.ref.matE_q_T (localNoOf i s)) (o.JInv f s)

/-- One iteration `f` of the loop of `apply`, app/localoperator/Poisson.cpp lines 567-643: `info` is `info[f]`,
`KG` the precomputed `KJInv` of that facet. -/
def Op.applyFacet (o : Op dim Nbf Nbm Nq nq) (KG : Fin 2 → Fin dim → Fin dim → Fin nq → ℝ) (elNo f : Nat)
    (info : SideInfo) (x_0 x_n y : Fin Nbf → ℝ) : Fin Nbf → ℝ :=
  let isSkeleton : Bool := elNo ≠ info.lid
  let isFaultOrDirichlet : Bool := info.bc = bcFault ∨ info.bc = bcDirichlet
  let swap : Bool := isSkeleton ∧ info.side = 1
  let KG0 := if swap then KG 1 else KG 0
  let KG1 := if swap then KG 0 else KG 1
  let n := if swap then (fun i q => - o.n_q info.fctNo i q) else o.n_q info.fctNo
  let nu := if swap then (fun i q => - o.n_unit_q info.fctNo i q) else o.n_unit_q info.fctNo
  if info.bc = bcNone ∨ (isSkeleton ∧ isFaultOrDirichlet) then
    let uhat := kFluxUSkeleton (o.ref.negative_E_q_T f) (o.ref.E_q_T info.localNo) x_0 x_n
    let shat := kFluxSigmaSkeleton (-o.penalty info.fctNo) KG0 KG1 (o.ref.Dxi_q_120 f) (o.ref.Dxi_q_120 info.localNo)
      (o.ref.E_q_T f) (o.ref.negative_E_q_T info.localNo) nu x_0 x_n
    kApplyFacet o.ref.w n uhat KG0 (o.ref.Dxi_q f) (o.ref.E_q f) shat y
  else if isFaultOrDirichlet then
    let uhat := kFluxUBoundary (o.ref.negative_E_q_T f) x_0
    let shat := kFluxSigmaBoundary (-o.penalty info.fctNo) KG0 (o.ref.Dxi_q_120 f) (o.ref.E_q_T f) nu x_0
    kApplyFacet o.ref.w n uhat KG0 (o.ref.Dxi_q f) (o.ref.E_q f) shat y
  else y

/-- `apply`, app/localoperator/Poisson.cpp lines 551-644: `xn` lists for every facet of the element `info[f]` and
`x_n[f]`; the result is the block written to `y`. -/
def Op.apply (o : Op dim Nbf Nbm Nq nq) (KG : Nat → Fin 2 → Fin dim → Fin dim → Fin nq → ℝ) (elNo : Nat)
    (x_0 : Fin Nbf → ℝ) (xn : List (SideInfo × (Fin Nbf → ℝ))) : Fin Nbf → ℝ :=
  xn.zipIdx.foldl (fun y p => o.applyFacet (KG p.1.1.fctNo) elNo p.2 p.1.1 x_0 p.1.2 y)
    (kApplyVolume o.ref.Dxi_Q (o.G_Q elNo) (kJWKQ (o.J_Q elNo) o.ref.W (o.K elNo) o.ref.matE_Q_T) x_0)

/-- The functions of the operator as `DGOperator::assemble` calls them, src/form/DGOperator.h lines 121-187. -/
def Op.localOp (o : Op dim Nbf Nbm Nq nq) : DGAssembly.LocalOp (Fin Nbf → Fin Nbf → ℝ) :=
  ⟨o.assembleVolume, o.assembleSkeleton, o.assembleBoundary⟩

/-- The data given by the user, app/localoperator/Poisson.h lines 149-153: body force by element, slip and displacement by
facet, the flag says whether the facet is on the boundary. -/
structure Data (Nq nq : Nat) where
  force : Nat → Fin Nq → ℝ
  slip : Nat → Bool → Fin nq → ℝ
  dirichlet : Nat → Bool → Fin nq → ℝ

/-- `bc_skeleton`, app/localoperator/Poisson.cpp lines 406-417; `none`: returns false. -/
def bcSkeleton (d : Data Nq nq) (f bc : Nat) : Option (Fin nq → ℝ) :=
  if bc = bcFault then some (d.slip f false) else if bc = bcDirichlet then some (d.dirichlet f false) else none

/-- `bc_boundary`, app/localoperator/Poisson.cpp lines 418-432; `none`: returns false. -/
def bcBoundary (d : Data Nq nq) (f bc : Nat) : Option (Fin nq → ℝ) :=
  if bc = bcFault then some (fun q => d.slip f true q * 0.5) else if bc = bcDirichlet then some (d.dirichlet f true) else none

/-- `rhs_volume`, app/localoperator/Poisson.cpp lines 387-404. -/
def Op.rhsVolume (o : Op dim Nbf Nbm Nq nq) (d : Data Nq nq) (e : Nat) (b : Fin Nbf → ℝ) : Fin Nbf → ℝ :=
  kRhsVolume (o.J_Q e) o.ref.W o.ref.E_Q (d.force e) b

/-- `f_lifted_q` in `rhs_skeleton`, app/localoperator/Poisson.cpp lines 441-473. -/
def Op.rhsSkeletonLift (o : Op dim Nbf Nbm Nq nq) (f : Nat) (i : FacetInfo) (f_q : Fin nq → ℝ) : Fin nq → ℝ :=
  match o.method with
  | .BR2 => kRhsLiftSkeleton (fun s => o.minv (upOf i s)) (o.Es i) (o.Kq i) (o.n_q f) o.ref.w f_q
  | .IP => kRhsLiftIp (o.nl_q f) f_q

/-- `rhs_skeleton`, app/localoperator/Poisson.cpp lines 434-498: the block of side `s` (0: `B0`, 1: `B1`). -/
def Op.rhsSkeleton (o : Op dim Nbf Nbm Nq nq) (d : Data Nq nq) (f : Nat) (i : FacetInfo) (s : Fin 2) (b : Fin Nbf → ℝ) : Fin Nbf → ℝ :=
  match bcSkeleton d f i.bc with
  | none => b
  | some f_q => kRhsFacet (0.5 * epsilon) (if s = 0 then o.penalty f else o.penalty f * -1) o.ref.w (o.KDx f i s) (o.n_q f) (o.Es i s)
      f_q (o.rhsSkeletonLift f i f_q) b

/-- `f_lifted_q` in `rhs_boundary`, app/localoperator/Poisson.cpp lines 507-528. -/
def Op.rhsBoundaryLift (o : Op dim Nbf Nbm Nq nq) (f : Nat) (i : FacetInfo) (f_q : Fin nq → ℝ) : Fin nq → ℝ :=
  match o.method with
  | .BR2 => kRhsLiftBoundary (o.minv i.up0) (o.Es i 0) (o.Kq i 0) (o.n_q f) o.ref.w f_q
  | .IP => kRhsLiftIp (o.nl_q f) f_q

/-- `rhs_boundary`, app/localoperator/Poisson.cpp lines 500-549. -/
def Op.rhsBoundary (o : Op dim Nbf Nbm Nq nq) (d : Data Nq nq) (f : Nat) (i : FacetInfo) (b : Fin Nbf → ℝ) : Fin Nbf → ℝ :=
  match bcBoundary d f i.bc with
  | none => b
  | some f_q => kRhsFacet epsilon (o.penalty f) o.ref.w (o.KDx f i 0) (o.n_q f) (o.Es i 0) f_q (o.rhsBoundaryLift f i f_q) b

/-- The functions of the operator as `DGOperator::rhs` calls them, src/form/DGOperator.h lines 189-237. -/
def Op.localRhs (o : Op dim Nbf Nbm Nq nq) (d : Data Nq nq) : DGAssembly.LocalRhs (Fin Nbf → ℝ) :=
  ⟨o.rhsVolume d, o.rhsSkeleton d, o.rhsBoundary d⟩

/-- `traction_skeleton`, app/localoperator/Poisson.cpp lines 678-701; `f_q` holds arbitrary values if `bc_skeleton`
returns false. -/
def Op.tractionSkeleton (o : Op dim Nbf Nbm Nq nq) (d : Data Nq nq) (junk : Fin nq → ℝ) (f : Nat) (i : FacetInfo)
    (u0 u1 : Fin Nbf → ℝ) : Fin dim → Fin nq → ℝ :=
  kGradU (-o.penalty f) (o.KDx f i) (o.Es i) ((bcSkeleton d f i.bc).getD junk) (o.n_unit_q f) u0 u1

/-- `traction_boundary`, app/localoperator/Poisson.cpp lines 703-722; `f_q` holds arbitrary values if `bc_boundary`
returns false. -/
def Op.tractionBoundary (o : Op dim Nbf Nbm Nq nq) (d : Data Nq nq) (junk : Fin nq → ℝ) (f : Nat) (i : FacetInfo)
    (u0 : Fin Nbf → ℝ) : Fin dim → Fin nq → ℝ :=
  kGradUBnd (-o.penalty f) (o.KDx f i 0) (o.Es i 0) ((bcBoundary d f i.bc).getD junk) (o.n_unit_q f) u0

/-- `InverseInequality::trace_constant`, src/form/InverseInequality.h lines 27-29. -/
def traceConstant (D N : Nat) : ℝ := ((N + 1) * (N + D) : ℕ) / (D : ℝ)

/-- `prepare_penalty`, app/localoperator/Poisson.cpp lines 209-223: `N` is `PolynomialDegree - 1`, `area` and `volume` are
`area_` and `volume_`; the infimum and supremum over the coefficients are `std::min_element` and `std::max_element`. -/
def preparePenalty (dim N : Nat) (area volume : Nat → ℝ) (K : Nat → Fin Nbm → ℝ) (f : Nat) (i : FacetInfo) : ℝ :=
  let p := fun (s : Fin 2) =>
    let k0 := ⨅ m, K (upOf i s) m
    let k1 := ⨆ m, K (upOf i s) m
    (dim + 1 : ℝ) * traceConstant dim N * (area f / volume (upOf i s)) * (k1 * k1 / k0)
  if i.up0 ≠ i.up1 then (p 0 + p 1) / 4.0 else p 0

end
end Tandem.Poisson
