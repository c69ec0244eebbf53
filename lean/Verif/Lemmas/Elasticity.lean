import Verif.Model.Elasticity
import Verif.Props.Poisson
/-! Identities for the kernels of the elasticity operator. -/
namespace Tandem.Elasticity
open Tandem.DGTopo Tandem.Spec
open Tandem.DGAssembly
open Tandem.Poisson (Method normalLength unitNormal normal_dot_unit)

variable {dim Nbf Nbm Nq nq : Nat}

/-- Matrix times vector. -/
def mulVec (A : Fin Nbf → Fin dim → Fin Nbf → Fin dim → ℝ) (x : Fin Nbf → Fin dim → ℝ) : Fin Nbf → Fin dim → ℝ := fun k p =>
  ∑ l, ∑ u, A k p l u * x l u

/-- Component `p` of the displacement with coefficients `v` at a point of the facet. -/
noncomputable def val (E : Fin Nbf → Fin nq → ℝ) (v : Fin Nbf → Fin dim → ℝ) : Fin dim → Fin nq → ℝ := fun p q => ∑ l, E l q * v l p

/-- Derivative in direction `s` of component `r` of the displacement with coefficients `v`. -/
noncomputable def grad {n : Nat} (Dx : Fin Nbf → Fin dim → Fin n → ℝ) (v : Fin Nbf → Fin dim → ℝ) (r s : Fin dim) (q : Fin n) : ℝ :=
  ∑ l, Dx l s q * v l r

/-- Component `p` of the traction of the displacement with coefficients `v`: Hooke's law times the normal. -/
noncomputable def trac (lam mu : Fin nq → ℝ) (Dx : Fin Nbf → Fin dim → Fin nq → ℝ) (n : Fin dim → Fin nq → ℝ)
    (v : Fin Nbf → Fin dim → ℝ) : Fin dim → Fin nq → ℝ := fun p q =>
  lam q * (∑ r, grad Dx v r r q) * n p q + mu q * ∑ j, (grad Dx v p j q + grad Dx v j p q) * n j q

theorem delta_sum (i : Fin dim) (f : Fin dim → ℝ) : ∑ j, delta i j * f j = f i := by
  unfold delta; simp

theorem delta_sum' (i : Fin dim) (f : Fin dim → ℝ) : ∑ j, delta j i * f j = f i := by
  unfold delta; simp

theorem delta_comm (i j : Fin dim) : delta i j = delta j i := by
  unfold delta; simp only [eq_comm]

theorem trac_op (lam mu : Fin nq → ℝ) (Dx : Fin Nbf → Fin dim → Fin nq → ℝ) (n : Fin dim → Fin nq → ℝ)
    (v : Fin Nbf → Fin dim → ℝ) (p : Fin dim) (q : Fin nq) :
    ∑ l, ∑ u, kTractionOp lam mu Dx n l u p q * v l u = trac lam mu Dx n v p q := by
  unfold kTractionOp trac grad
  have h : ∀ l, ∑ u, (lam q * Dx l u q * n p q + mu q * ((∑ j, n j q * Dx l j q * delta u p) + Dx l p q * n u q)) * v l u =
      lam q * n p q * (∑ u, Dx l u q * v l u) + mu q * ((∑ j, n j q * Dx l j q) * v l p + Dx l p q * ∑ u, n u q * v l u) := by
    intro l
    have e1 : (∑ j, n j q * Dx l j q) * v l p = ∑ u, delta u p * ((∑ j, n j q * Dx l j q) * v l u) := by
      rw [delta_sum' p (fun u => (∑ j, n j q * Dx l j q) * v l u)]
    rw [e1, Finset.mul_sum, Finset.mul_sum, ← Finset.sum_add_distrib, Finset.mul_sum, ← Finset.sum_add_distrib]
    apply Finset.sum_congr rfl; intro u _
    rw [← Finset.sum_mul]
    ring
  simp only [h, Finset.sum_add_distrib, ← Finset.mul_sum]
  have h1 : ∑ r, ∑ l, Dx l r q * v l r = ∑ l, ∑ u, Dx l u q * v l u := Finset.sum_comm
  rw [h1]
  have h2 : ∑ j, ((∑ l, Dx l j q * v l p) + ∑ l, Dx l p q * v l j) * n j q =
      ∑ l, (∑ j, n j q * Dx l j q) * v l p + ∑ l, Dx l p q * ∑ u, n u q * v l u := by
    rw [← Finset.sum_add_distrib]
    simp only [Finset.sum_mul, Finset.mul_sum, add_mul, Finset.sum_add_distrib]
    congr 1
    · rw [Finset.sum_comm]
      apply Finset.sum_congr rfl; intro l _; apply Finset.sum_congr rfl; intro j _; ring
    · rw [Finset.sum_comm]
      apply Finset.sum_congr rfl; intro l _; apply Finset.sum_congr rfl; intro j _; ring
  rw [h2]; ring

theorem traction_eq (lam mu : Fin nq → ℝ) (Dx : Fin Nbf → Fin dim → Fin nq → ℝ) (n : Fin dim → Fin nq → ℝ)
    (v : Fin Nbf → Fin dim → ℝ) : kTraction lam mu Dx n v = trac lam mu Dx n v := by
  funext p q
  unfold kTraction trac grad
  congr 1
  · rw [Finset.sum_comm (f := fun r l => Dx l r q * v l r)]
    simp only [Finset.mul_sum, Finset.sum_mul]
    apply Finset.sum_congr rfl; intro l _; apply Finset.sum_congr rfl; intro s _; ring
  · congr 1
    simp only [Finset.sum_mul, add_mul, Finset.sum_add_distrib]
    congr 1 <;> rw [Finset.sum_comm]

theorem test_eq (lam mu : Fin nq → ℝ) (Dx : Fin Nbf → Fin dim → Fin nq → ℝ) (n g : Fin dim → Fin nq → ℝ)
    (k : Fin Nbf) (p : Fin dim) (q : Fin nq) :
    kTractionTest lam mu Dx n g k p q = ∑ u, kTractionOp lam mu Dx n k p u q * g u q := by
  unfold kTractionTest kTractionOp
  have e1 : ∑ j, Dx k j q * g p q * n j q = ∑ u, delta p u * ((∑ j, n j q * Dx k j q) * g u q) := by
    rw [delta_sum p (fun u => (∑ j, n j q * Dx k j q) * g u q), Finset.sum_mul]
    apply Finset.sum_congr rfl; intro j _; ring
  rw [e1, ← Finset.sum_add_distrib, Finset.mul_sum, ← Finset.sum_add_distrib]
  apply Finset.sum_congr rfl; intro u _
  rw [← Finset.sum_mul]
  ring

theorem surface_mul (c0 c1 c2 : Fin 2 → ℝ) (w : Fin nq → ℝ) (T : Fin 2 → Fin Nbf → Fin dim → Fin dim → Fin nq → ℝ)
    (E : Fin 2 → Fin Nbf → Fin nq → ℝ) (L : Fin 2 → Fin Nbf → Fin dim → Fin dim → Fin nq → ℝ) (x y : Fin 2)
    (v : Fin Nbf → Fin dim → ℝ) (k : Fin Nbf) (p : Fin dim) :
    mulVec (kAssembleSurface c0 c1 c2 w T E L x y) v k p =
      ∑ q, w q * (c0 x * E x k q * (∑ l, ∑ u, T y l u p q * v l u) + c1 y * (∑ u, T x k p u q * val (E y) v u q) +
        c2 (if x = y then 0 else 1) * E x k q * (∑ l, ∑ u, L y l p u q * v l u)) := by
  unfold mulVec kAssembleSurface val
  have h : ∀ l u, ((∑ q, c0 x * E x k q * w q * T y l u p q) + (∑ q, c1 y * E y l q * w q * T x k p u q) +
      (∑ q, c2 (if x = y then 0 else 1) * w q * E x k q * L y l p u q)) * v l u =
      ∑ q, w q * (c0 x * E x k q * (T y l u p q * v l u) + c1 y * (T x k p u q * (E y l q * v l u)) +
        c2 (if x = y then 0 else 1) * E x k q * (L y l p u q * v l u)) := by
    intro l u
    rw [← Finset.sum_add_distrib, ← Finset.sum_add_distrib, Finset.sum_mul]
    apply Finset.sum_congr rfl; intro q _; ring
  simp only [h]
  have h2 : ∀ l, ∑ u, ∑ q, w q * (c0 x * E x k q * (T y l u p q * v l u) + c1 y * (T x k p u q * (E y l q * v l u)) +
        c2 (if x = y then 0 else 1) * E x k q * (L y l p u q * v l u)) =
      ∑ q, w q * (c0 x * E x k q * (∑ u, T y l u p q * v l u) + c1 y * (∑ u, T x k p u q * (E y l q * v l u)) +
        c2 (if x = y then 0 else 1) * E x k q * (∑ u, L y l p u q * v l u)) := by
    intro l
    rw [Finset.sum_comm]
    apply Finset.sum_congr rfl; intro q _
    simp only [Finset.mul_sum, ← Finset.sum_add_distrib]
  simp only [h2]
  rw [Finset.sum_comm]
  apply Finset.sum_congr rfl; intro q _
  rw [← Finset.mul_sum]
  congr 1
  simp only [Finset.sum_add_distrib, ← Finset.mul_sum]
  congr 2
  congr 1
  simp only [Finset.mul_sum]
  rw [Finset.sum_comm]

theorem Ju_eq (G : Fin dim → Fin dim → Fin nq → ℝ) (Dxi : Fin Nbf → Fin dim → Fin nq → ℝ) (U : Fin Nbf → Fin dim → ℝ)
    (q : Fin nq) (r s : Fin dim) :
    kJuq (fun a b q => G b a q) (fun e q l => Dxi l e q) U q r s = grad (kDx G Dxi) U r s q := by
  unfold kJuq grad kDx
  simp only [Finset.sum_mul]
  rw [Finset.sum_comm]

theorem constitutive_normal (lam mu : Fin nq → ℝ) (G : Fin dim → Fin dim → Fin nq → ℝ) (Dxi : Fin Nbf → Fin dim → Fin nq → ℝ)
    (n : Fin dim → Fin nq → ℝ) (U : Fin Nbf → Fin dim → ℝ) (i : Fin dim) (q : Fin nq) :
    ∑ j, n j q * kConstitutive lam mu (kJuq (fun a b q => G b a q) (fun e q l => Dxi l e q) U) i j q =
      trac lam mu (kDx G Dxi) n U i q := by
  unfold kConstitutive trac
  simp only [Ju_eq]
  have h : ∀ j, ∑ r, ∑ s, lam q * delta i j * delta r s * grad (kDx G Dxi) U r s q =
      delta i j * (lam q * ∑ r, grad (kDx G Dxi) U r r q) := by
    intro j
    rw [Finset.mul_sum, Finset.mul_sum]
    apply Finset.sum_congr rfl; intro r _
    rw [← delta_sum r (fun s => grad (kDx G Dxi) U r s q), Finset.mul_sum, Finset.mul_sum]
    apply Finset.sum_congr rfl; intro s _; ring
  simp only [h, mul_add, Finset.sum_add_distrib]
  have e1 : ∑ j, n j q * (delta i j * (lam q * ∑ r, grad (kDx G Dxi) U r r q)) = lam q * (∑ r, grad (kDx G Dxi) U r r q) * n i q := by
    rw [← delta_sum i (fun j => lam q * (∑ r, grad (kDx G Dxi) U r r q) * n j q)]
    apply Finset.sum_congr rfl; intro j _; ring
  rw [e1]
  congr 1
  rw [Finset.mul_sum, ← Finset.sum_add_distrib]
  apply Finset.sum_congr rfl; intro j _; ring

theorem applyFacet_eq (w lam mu : Fin nq → ℝ) (n : Fin dim → Fin nq → ℝ) (uh : Fin nq → Fin dim → ℝ)
    (G : Fin dim → Fin dim → Fin nq → ℝ) (Dxi : Fin Nbf → Fin dim → Fin nq → ℝ) (E : Fin Nbf → Fin nq → ℝ)
    (sh : Fin dim → Fin dim → Fin nq → ℝ) (y : Fin Nbf → Fin dim → ℝ) (k : Fin Nbf) (p : Fin dim) :
    kApplyFacet w lam mu n uh (fun a b q => G b a q) Dxi (fun k q => - E k q) sh y k p =
      y k p + ∑ q, w q * ((∑ r, kTractionOp lam mu (kDx G Dxi) n k p r q * uh q r) - E k q * ∑ j, n j q * sh p j q) := by
  unfold kApplyFacet
  rw [add_assoc]
  congr 1
  rw [← Finset.sum_add_distrib]
  apply Finset.sum_congr rfl; intro q _
  have h1 : ∑ j, ∑ e, w q * G e j q * Dxi k e q * ((∑ r, lam q * delta p j * uh q r * n r q) + mu q * (uh q p * n j q + uh q j * n p q)) =
      w q * ∑ r, kTractionOp lam mu (kDx G Dxi) n k p r q * uh q r := by
    have a : ∀ j, ∑ e, w q * G e j q * Dxi k e q * ((∑ r, lam q * delta p j * uh q r * n r q) + mu q * (uh q p * n j q + uh q j * n p q)) =
        delta p j * (w q * lam q * kDx G Dxi k j q * ∑ r, uh q r * n r q) + w q * mu q * (kDx G Dxi k j q * uh q p * n j q + kDx G Dxi k j q * uh q j * n p q) := by
      intro j
      have b : ∑ r, lam q * delta p j * uh q r * n r q = lam q * delta p j * ∑ r, uh q r * n r q := by
        rw [Finset.mul_sum]; apply Finset.sum_congr rfl; intro r _; ring
      rw [b]
      unfold kDx
      rw [← Finset.sum_mul]
      have c : ∑ e, w q * G e j q * Dxi k e q = w q * ∑ e, G e j q * Dxi k e q := by
        rw [Finset.mul_sum]; apply Finset.sum_congr rfl; intro e _; ring
      rw [c]; ring
    simp only [a, Finset.sum_add_distrib]
    rw [delta_sum p (fun j => w q * lam q * kDx G Dxi k j q * ∑ r, uh q r * n r q), ← test_eq lam mu (kDx G Dxi) n (fun r q => uh q r)]
    unfold kTractionTest
    have d1 : ∑ i, lam q * kDx G Dxi k p q * uh q i * n i q = lam q * kDx G Dxi k p q * ∑ r, uh q r * n r q := by
      rw [Finset.mul_sum]; apply Finset.sum_congr rfl; intro r _; ring
    rw [d1, mul_add, ← Finset.mul_sum, Finset.sum_add_distrib]
    ring
  have h2 : ∑ j, w q * - E k q * n j q * sh p j q = - (w q * (E k q * ∑ j, n j q * sh p j q)) := by
    rw [Finset.mul_sum, Finset.mul_sum, ← Finset.sum_neg_distrib]
    apply Finset.sum_congr rfl; intro j _; ring
  rw [h1, h2]; ring

theorem op_neg (lam mu : Fin nq → ℝ) (Dx : Fin Nbf → Fin dim → Fin nq → ℝ) (n : Fin dim → Fin nq → ℝ) (k : Fin Nbf) (p u : Fin dim) (q : Fin nq) :
    kTractionOp lam mu Dx (fun i q => - n i q) k p u q = - kTractionOp lam mu Dx n k p u q := by
  unfold kTractionOp
  have : ∑ j, - n j q * Dx k j q * delta p u = - ∑ j, n j q * Dx k j q * delta p u := by
    rw [← Finset.sum_neg_distrib]; apply Finset.sum_congr rfl; intro j _; ring
  rw [this]; ring

theorem trac_neg (lam mu : Fin nq → ℝ) (Dx : Fin Nbf → Fin dim → Fin nq → ℝ) (n : Fin dim → Fin nq → ℝ)
    (v : Fin Nbf → Fin dim → ℝ) (p : Fin dim) (q : Fin nq) :
    trac lam mu Dx (fun i q => - n i q) v p q = - trac lam mu Dx n v p q := by
  rw [← trac_op, ← trac_op, ← Finset.sum_neg_distrib]
  apply Finset.sum_congr rfl; intro l _
  rw [← Finset.sum_neg_distrib]
  apply Finset.sum_congr rfl; intro u _
  rw [op_neg]; ring

theorem neg_val (E : Fin Nbf → Fin nq → ℝ) (v : Fin Nbf → Fin dim → ℝ) (p : Fin dim) (q : Fin nq) :
    ∑ l, - E l q * v l p = - val E v p q := by
  unfold val; rw [← Finset.sum_neg_distrib]; apply Finset.sum_congr rfl; intro l _; ring

theorem lift_sum (E : Fin Nbf → Fin nq → ℝ) (nl : Fin nq → ℝ) (v : Fin Nbf → Fin dim → ℝ) (p : Fin dim) (q : Fin nq) :
    ∑ l, ∑ u, kLiftIp E nl l p u q * v l u = val E v p q * nl q := by
  unfold kLiftIp val
  rw [Finset.sum_mul]
  apply Finset.sum_congr rfl; intro l _
  rw [← delta_sum p (fun u => v l u), Finset.mul_sum, Finset.sum_mul]
  apply Finset.sum_congr rfl; intro u _; ring

/-- The flux kernels of `apply_` on an interior facet with prescribed jump `g` (zero without data). -/
theorem sigma_skeleton (c00 a : ℝ) (lam0 mu0 lam1 mu1 : Fin nq → ℝ) (G0 G1 : Fin dim → Fin dim → Fin nq → ℝ)
    (D0 D1 : Fin Nbf → Fin dim → Fin nq → ℝ) (E0 E1 : Fin Nbf → Fin nq → ℝ) (n nu g : Fin dim → Fin nq → ℝ)
    (U V : Fin Nbf → Fin dim → ℝ) (p : Fin dim) (q : Fin nq) :
    ∑ j, n j q * kFluxSigmaAddBc a g nu (kFluxSigmaSkeleton c00 lam0 mu0 lam1 mu1 (fun a b q => G0 b a q) (fun a b q => G1 b a q)
      (fun e q l => D0 l e q) (fun e q l => D1 l e q) (fun q l => E0 l q) (fun q l => - E1 l q) nu U V) p j q =
    0.5 * (trac lam0 mu0 (kDx G0 D0) n U p q + trac lam1 mu1 (kDx G1 D1) n V p q) +
      (c00 * (val E0 U p q - val E1 V p q) + a * g p q) * ∑ j, n j q * nu j q := by
  rw [← constitutive_normal, ← constitutive_normal]
  have h : ∀ j, kFluxSigmaAddBc a g nu (kFluxSigmaSkeleton c00 lam0 mu0 lam1 mu1 (fun a b q => G0 b a q) (fun a b q => G1 b a q)
      (fun e q l => D0 l e q) (fun e q l => D1 l e q) (fun q l => E0 l q) (fun q l => - E1 l q) nu U V) p j q =
      0.5 * (kConstitutive lam0 mu0 (kJuq (fun a b q => G0 b a q) (fun e q l => D0 l e q) U) p j q +
        kConstitutive lam1 mu1 (kJuq (fun a b q => G1 b a q) (fun e q l => D1 l e q) V) p j q) +
      (c00 * (val E0 U p q - val E1 V p q) + a * g p q) * nu j q := by
    intro j
    unfold kFluxSigmaAddBc kFluxSigmaSkeleton
    rw [neg_val]
    change 0.5 * _ + c00 * (val E0 U p q + _) * nu j q + a * g p q * nu j q = _
    ring
  simp only [h]
  generalize c00 * (val E0 U p q - val E1 V p q) + a * g p q = z
  rw [← Finset.sum_add_distrib, Finset.mul_sum, Finset.mul_sum, ← Finset.sum_add_distrib]
  apply Finset.sum_congr rfl; intro j _
  ring

theorem sigma_boundary (c00 a : ℝ) (lam0 mu0 : Fin nq → ℝ) (G0 : Fin dim → Fin dim → Fin nq → ℝ)
    (D0 : Fin Nbf → Fin dim → Fin nq → ℝ) (E0 : Fin Nbf → Fin nq → ℝ) (n nu g : Fin dim → Fin nq → ℝ)
    (U : Fin Nbf → Fin dim → ℝ) (p : Fin dim) (q : Fin nq) :
    ∑ j, n j q * kFluxSigmaAddBc a g nu (kFluxSigmaBoundary c00 lam0 mu0 (fun a b q => G0 b a q)
      (fun e q l => D0 l e q) (fun q l => E0 l q) nu U) p j q =
    trac lam0 mu0 (kDx G0 D0) n U p q + (c00 * val E0 U p q + a * g p q) * ∑ j, n j q * nu j q := by
  rw [← constitutive_normal]
  unfold kFluxSigmaAddBc kFluxSigmaBoundary
  rw [Finset.mul_sum, ← Finset.sum_add_distrib]
  apply Finset.sum_congr rfl; intro j _
  have : ∑ l, c00 * E0 l q * U l p * nu j q = c00 * val E0 U p q * nu j q := by
    unfold val
    rw [Finset.mul_sum, Finset.sum_mul]; apply Finset.sum_congr rfl; intro l _; ring
  rw [this]; ring

theorem sigma_no_bc (nu : Fin dim → Fin nq → ℝ) (sh : Fin dim → Fin dim → Fin nq → ℝ) : kFluxSigmaAddBc 0 0 nu sh = sh := by
  funext i j q; simp [kFluxSigmaAddBc]

theorem u_no_bc (uh : Fin nq → Fin dim → ℝ) : kFluxUAddBc (0 : ℝ) (0 : Fin dim → Fin nq → ℝ) uh = uh := by
  funext i j; simp [kFluxUAddBc]

/-! ## Lifts -/

theorem kLift_apply (Minv : Fin Nbf → Fin Nbf → ℝ) (Es Ex : Fin Nbf → Fin nq → ℝ) (n : Fin dim → Fin nq → ℝ)
    (w : Fin nq → ℝ) (v : Fin Nbf → Fin dim → ℝ) (u s : Fin dim) (m : Fin Nbf) :
    ∑ l, kLift Minv Es Ex n w l s m * v l u = ∑ o, ∑ p, 0.5 * Minv m o * w p * Es o p * val Ex v u p * n s p := by
  unfold kLift val
  simp only [Finset.sum_mul, Finset.mul_sum]
  rw [Finset.sum_comm]
  apply Finset.sum_congr rfl; intro o _
  rw [Finset.sum_comm]
  apply Finset.sum_congr rfl; intro p _
  apply Finset.sum_congr rfl; intro l _
  ring

theorem lift_apply (o : Op dim Nbf Nbm Nq nq) (f : Nat) (i : FacetInfo) (x : Fin 2) (v : Fin Nbf → Fin dim → ℝ) (p : Fin dim) (q : Fin nq) :
    ∑ l, ∑ u, o.skeletonL f i x l p u q * v l u = o.rhsSkeletonLift f i (val (o.Es i x) v) p q := by
  unfold Op.skeletonL Op.rhsSkeletonLift
  cases o.method with
  | IP => simp only; rw [lift_sum]; rfl
  | BR2 =>
    simp only
    unfold kLiftSkeleton kRhsLiftSkeleton
    have key : ∀ t, ∑ l, ∑ u, (∑ s, ∑ m, kTestNormal (o.lamq i t) (o.muq i t) (o.n_q f) p u s q * o.Es i t m q *
          kLift (o.minv (upOf i t)) (o.Es i t) (o.Es i x) (o.n_q f) o.ref.w l s m) * v l u =
        ∑ u, ∑ s, ∑ m, kTestNormal (o.lamq i t) (o.muq i t) (o.n_q f) p u s q * o.Es i t m q *
          ∑ a, ∑ b, 0.5 * o.minv (upOf i t) m a * o.ref.w b * o.Es i t a b * val (o.Es i x) v u b * o.n_q f s b := by
      intro t
      simp only [← kLift_apply]
      simp only [Finset.mul_sum, Finset.sum_mul]
      rw [Finset.sum_comm]
      apply Finset.sum_congr rfl; intro u _
      rw [Finset.sum_comm]
      apply Finset.sum_congr rfl; intro s _
      rw [Finset.sum_comm]
      apply Finset.sum_congr rfl; intro m _
      apply Finset.sum_congr rfl; intro l _
      ring
    rw [← key 0, ← key 1, ← Finset.sum_add_distrib, Finset.mul_sum]
    apply Finset.sum_congr rfl; intro l _
    rw [← Finset.sum_add_distrib, Finset.mul_sum]
    apply Finset.sum_congr rfl; intro u _
    ring

theorem bndlift_apply (o : Op dim Nbf Nbm Nq nq) (f : Nat) (i : FacetInfo) (v : Fin Nbf → Fin dim → ℝ) (p : Fin dim) (q : Fin nq) :
    ∑ l, ∑ u, o.boundaryL f i l p u q * v l u = o.rhsBoundaryLift f i (val (o.Es i 0) v) p q := by
  unfold Op.boundaryL Op.rhsBoundaryLift
  cases o.method with
  | IP => simp only; rw [lift_sum]; rfl
  | BR2 =>
    simp only
    unfold kLiftBoundary kRhsLiftBoundary val
    simp only [Finset.sum_mul, Finset.mul_sum]
    rw [Finset.sum_comm]
    apply Finset.sum_congr rfl; intro u _
    rw [Finset.sum_comm]
    apply Finset.sum_congr rfl; intro s _
    rw [Finset.sum_comm]
    apply Finset.sum_congr rfl; intro m _
    rw [Finset.sum_comm]
    apply Finset.sum_congr rfl; intro a _
    rw [Finset.sum_comm]
    apply Finset.sum_congr rfl; intro b _
    apply Finset.sum_congr rfl; intro l _
    ring

theorem rhsLift_sub (o : Op dim Nbf Nbm Nq nq) (f : Nat) (i : FacetInfo) (a b : Fin dim → Fin nq → ℝ) (p : Fin dim) (q : Fin nq) :
    o.rhsSkeletonLift f i (fun p q => a p q - b p q) p q = o.rhsSkeletonLift f i a p q - o.rhsSkeletonLift f i b p q := by
  unfold Op.rhsSkeletonLift
  cases o.method with
  | IP => simp only [kRhsLiftIp]; ring
  | BR2 =>
    simp only [kRhsLiftSkeleton]
    simp only [mul_sub, sub_mul, Finset.sum_sub_distrib, mul_add, Finset.sum_add_distrib]
    ring

theorem rhsBndLift_sub (o : Op dim Nbf Nbm Nq nq) (f : Nat) (i : FacetInfo) (a b : Fin dim → Fin nq → ℝ) (p : Fin dim) (q : Fin nq) :
    o.rhsBoundaryLift f i (fun p q => a p q - b p q) p q = o.rhsBoundaryLift f i a p q - o.rhsBoundaryLift f i b p q := by
  unfold Op.rhsBoundaryLift
  cases o.method with
  | IP => simp only [kRhsLiftIp]; ring
  | BR2 =>
    simp only [kRhsLiftBoundary]
    simp only [mul_sub, sub_mul, Finset.sum_sub_distrib]

theorem rhsLift_zero (o : Op dim Nbf Nbm Nq nq) (f : Nat) (i : FacetInfo) (p : Fin dim) (q : Fin nq) : o.rhsSkeletonLift f i 0 p q = 0 := by
  have := rhsLift_sub o f i 0 0 p q
  have e : (fun p q => (0 : Fin dim → Fin nq → ℝ) p q - (0 : Fin dim → Fin nq → ℝ) p q) = 0 := by funext p q; simp
  rw [e] at this
  linarith

theorem rhsBndLift_zero (o : Op dim Nbf Nbm Nq nq) (f : Nat) (i : FacetInfo) (p : Fin dim) (q : Fin nq) : o.rhsBoundaryLift f i 0 p q = 0 := by
  have := rhsBndLift_sub o f i 0 0 p q
  have e : (fun p q => (0 : Fin dim → Fin nq → ℝ) p q - (0 : Fin dim → Fin nq → ℝ) p q) = 0 := by funext p q; simp
  rw [e] at this
  linarith

/-! ## Right-hand side and residual of a facet -/

/-- `1` on side 0, `-1` on side 1. -/
def sgn (s : Fin 2) : ℝ := if s = 0 then 1 else -1

/-- The prescribed jump of an interior facet: zero without condition. -/
noncomputable def given (d : Data dim Nq nq) (f bc : Nat) : Fin dim → Fin nq → ℝ := (bcSkeleton d f bc).getD 0
/-- The prescribed value on a boundary facet. -/
noncomputable def givenBnd (d : Data dim Nq nq) (f bc : Nat) : Fin dim → Fin nq → ℝ := (bcBoundary d f bc).getD 0

theorem rhsFacet_eq (c1 c2 : ℝ) (w lam mu : Fin nq → ℝ) (g : Fin dim → Fin dim → Fin nq → ℝ) (Dxi : Fin Nbf → Fin dim → Fin nq → ℝ)
    (n : Fin dim → Fin nq → ℝ) (E : Fin Nbf → Fin nq → ℝ) (fq fl : Fin dim → Fin nq → ℝ) (b : Fin Nbf → Fin dim → ℝ) (k : Fin Nbf) (p : Fin dim) :
    kRhsFacet c1 c2 w lam mu g Dxi n E fq fl b k p =
      b k p + ∑ q, w q * (c1 * (∑ u, kTractionOp lam mu (kDx g Dxi) n k p u q * fq u q) + c2 * E k q * fl p q) := by
  unfold kRhsFacet
  rw [add_assoc]
  congr 1
  rw [← Finset.sum_add_distrib]
  apply Finset.sum_congr rfl; intro q _
  rw [test_eq]
  ring

theorem rhsSkeleton_eq (o : Op dim Nbf Nbm Nq nq) (d : Data dim Nq nq) (f : Nat) (i : FacetInfo) (s : Fin 2) (b : Fin Nbf → Fin dim → ℝ) :
    o.rhsSkeleton d f i s b = b + fun k p => ∑ q, o.ref.w q * (-0.5 * (∑ u, o.T f i s k p u q * given d f i.bc u q) +
      sgn s * o.penalty f * o.Es i s k q * o.rhsSkeletonLift f i (given d f i.bc) p q) := by
  funext k p
  unfold Op.rhsSkeleton given
  cases bcSkeleton d f i.bc with
  | none => simp [rhsLift_zero]
  | some fq =>
    simp only [Option.getD_some, Pi.add_apply]
    rw [rhsFacet_eq]
    congr 1
    apply Finset.sum_congr rfl; intro q _
    unfold epsilon sgn Op.T Op.Dx
    split <;> ring

theorem rhsBoundary_eq (o : Op dim Nbf Nbm Nq nq) (d : Data dim Nq nq) (f : Nat) (i : FacetInfo) (b : Fin Nbf → Fin dim → ℝ) :
    o.rhsBoundary d f i b = b + fun k p => ∑ q, o.ref.w q * (-1 * (∑ u, o.T f i 0 k p u q * givenBnd d f i.bc u q) +
      o.penalty f * o.Es i 0 k q * o.rhsBoundaryLift f i (givenBnd d f i.bc) p q) := by
  funext k p
  unfold Op.rhsBoundary givenBnd
  cases bcBoundary d f i.bc with
  | none => simp [rhsBndLift_zero]
  | some fq =>
    simp only [Option.getD_some, Pi.add_apply]
    rw [rhsFacet_eq]
    rfl

/-- The traction on side `s` of a facet, with the normal of the facet. -/
noncomputable def Op.tracs (o : Op dim Nbf Nbm Nq nq) (f : Nat) (i : FacetInfo) (s : Fin 2) (v : Fin Nbf → Fin dim → ℝ) : Fin dim → Fin nq → ℝ :=
  trac (o.lamq i s) (o.muq i s) (o.Dx f i s) (o.n_q f) v

/-- The residual of an interior facet in the row of side `s`: it depends on the jump minus the prescribed jump and on the
mean traction. -/
theorem residual_skeleton (o : Op dim Nbf Nbm Nq nq) (d : Data dim Nq nq) (f : Nat) (i : FacetInfo) (s : Fin 2)
    (u0 u1 : Fin Nbf → Fin dim → ℝ) (k : Fin Nbf) (p : Fin dim) :
    mulVec (o.assembleSkeleton f i s 0) u0 k p + mulVec (o.assembleSkeleton f i s 1) u1 k p - o.rhsSkeleton d f i s 0 k p =
    ∑ q, o.ref.w q * (-0.5 * (∑ u, o.T f i s k p u q * (val (o.Es i 0) u0 u q - val (o.Es i 1) u1 u q - given d f i.bc u q)) -
      sgn s * o.Es i s k q * (0.5 * (o.tracs f i 0 u0 p q + o.tracs f i 1 u1 p q) -
        o.penalty f * o.rhsSkeletonLift f i (fun p q => val (o.Es i 0) u0 p q - val (o.Es i 1) u1 p q - given d f i.bc p q) p q)) := by
  unfold Op.assembleSkeleton
  rw [surface_mul, surface_mul, rhsSkeleton_eq]
  simp only [Pi.add_apply, Pi.zero_apply, zero_add]
  rw [← Finset.sum_add_distrib, ← Finset.sum_sub_distrib]
  apply Finset.sum_congr rfl; intro q _
  rw [lift_apply, lift_apply]
  have e1 := rhsLift_sub o f i (fun p q => val (o.Es i 0) u0 p q - val (o.Es i 1) u1 p q) (given d f i.bc) p q
  have e2 := rhsLift_sub o f i (val (o.Es i 0) u0) (val (o.Es i 1) u1) p q
  rw [e1, e2]
  have e3 : ∀ t v, ∑ l, ∑ u, o.T f i t l u p q * v l u = o.tracs f i t v p q := by
    intro t v; unfold Op.T Op.tracs; rw [trac_op]
  rw [e3, e3]
  simp only [mul_sub, Finset.sum_sub_distrib]
  unfold sgn epsilon
  fin_cases s
  · simp; ring
  · simp; ring

theorem residual_boundary (o : Op dim Nbf Nbm Nq nq) (d : Data dim Nq nq) (f : Nat) (i : FacetInfo)
    (A : Fin Nbf → Fin dim → Fin Nbf → Fin dim → ℝ)
    (hA : o.assembleBoundary f i = some A) (u0 : Fin Nbf → Fin dim → ℝ) (k : Fin Nbf) (p : Fin dim) :
    mulVec A u0 k p - o.rhsBoundary d f i 0 k p =
    ∑ q, o.ref.w q * (- (∑ u, o.T f i 0 k p u q * (val (o.Es i 0) u0 u q - givenBnd d f i.bc u q)) -
      o.Es i 0 k q * (o.tracs f i 0 u0 p q -
        o.penalty f * o.rhsBoundaryLift f i (fun p q => val (o.Es i 0) u0 p q - givenBnd d f i.bc p q) p q)) := by
  unfold Op.assembleBoundary at hA
  split at hA
  · simp at hA
  obtain rfl := Option.some.inj hA
  rw [surface_mul, rhsBoundary_eq]
  simp only [Pi.add_apply, Pi.zero_apply, zero_add]
  rw [← Finset.sum_sub_distrib]
  apply Finset.sum_congr rfl; intro q _
  rw [bndlift_apply, rhsBndLift_sub]
  have e3 : ∑ l, ∑ u, o.T f i 0 l u p q * u0 l u = o.tracs f i 0 u0 p q := by
    unfold Op.T Op.tracs; rw [trac_op]
  rw [e3]
  simp only [mul_sub, Finset.sum_sub_distrib]
  unfold epsilon
  ring

/-! ## Volume -/

/-- Row of the volume matrix times a vector: the stress of the displacement tested with the strain of the test function. -/
theorem volume_mul (lam mu : Fin Nq → ℝ) (Dx : Fin Nbf → Fin dim → Fin Nq → ℝ) (v : Fin Nbf → Fin dim → ℝ) (k : Fin Nbf) (p : Fin dim) :
    mulVec (kAssembleVolume lam mu Dx) v k p =
      ∑ q, (lam q * Dx k p q * (∑ r, grad Dx v r r q) + mu q * ∑ j, Dx k j q * (grad Dx v p j q + grad Dx v j p q)) := by
  unfold mulVec kAssembleVolume
  have h : ∀ l u, ((∑ q, lam q * Dx l u q * Dx k p q) + ∑ q, ∑ j, mu q * Dx k j q * (Dx l j q * delta p u + Dx l p q * delta j u)) * v l u =
      ∑ q, (lam q * Dx k p q * (Dx l u q * v l u) + mu q * ∑ j, Dx k j q * (delta p u * (Dx l j q * v l u) + delta j u * (Dx l p q * v l u))) := by
    intro l u
    rw [← Finset.sum_add_distrib, Finset.sum_mul]
    apply Finset.sum_congr rfl; intro q _
    rw [add_mul, Finset.sum_mul, Finset.mul_sum]
    congr 1
    · ring
    · apply Finset.sum_congr rfl; intro j _; ring
  simp only [h]
  have h2 : ∀ l, ∑ u, ∑ q, (lam q * Dx k p q * (Dx l u q * v l u) + mu q * ∑ j, Dx k j q * (delta p u * (Dx l j q * v l u) + delta j u * (Dx l p q * v l u))) =
      ∑ q, (lam q * Dx k p q * (∑ u, Dx l u q * v l u) + mu q * ∑ j, Dx k j q * (Dx l j q * v l p + Dx l p q * v l j)) := by
    intro l
    rw [Finset.sum_comm]
    apply Finset.sum_congr rfl; intro q _
    rw [Finset.sum_add_distrib, ← Finset.mul_sum, ← Finset.mul_sum, Finset.sum_comm]
    congr 2
    apply Finset.sum_congr rfl; intro j _
    rw [← Finset.mul_sum, Finset.sum_add_distrib, delta_sum p (fun u => Dx l j q * v l u), delta_sum j (fun u => Dx l p q * v l u)]
  simp only [h2]
  rw [Finset.sum_comm]
  apply Finset.sum_congr rfl; intro q _
  rw [Finset.sum_add_distrib, ← Finset.mul_sum, ← Finset.mul_sum, Finset.sum_comm, Finset.sum_comm (f := fun l j => Dx k j q * _)]
  unfold grad
  congr 2
  apply Finset.sum_congr rfl; intro j _
  rw [← Finset.mul_sum, Finset.sum_add_distrib]

theorem applyVolume_eq (o : Op dim Nbf Nbm Nq nq) (e : Nat) (x : Fin Nbf → Fin dim → ℝ) :
    kApplyVolume (o.G_Q e) (o.GQT e) o.ref.Dxi_Q o.DxiQ120 (o.lamWJ e) (o.muWJ e) x =
      mulVec (o.assembleVolume e) x := by
  funext k p
  unfold Op.assembleVolume
  rw [volume_mul]
  unfold kApplyVolume
  apply Finset.sum_congr rfl; intro q _
  have hJ : ∀ s r, kJuQ (o.GQT e) o.DxiQ120 x q s r = grad (kDx (o.G_Q e) o.ref.Dxi_Q) x r s q := by
    intro s r
    unfold kJuQ grad kDx Op.GQT Op.DxiQ120
    simp only [Finset.sum_mul]
    rw [Finset.sum_comm]
  simp only [hJ]
  have h : ∀ j, ∑ r, ∑ s, o.lamWJ e q * delta p j * delta r s * grad (kDx (o.G_Q e) o.ref.Dxi_Q) x s r q =
      delta p j * (o.lamWJ e q * ∑ r, grad (kDx (o.G_Q e) o.ref.Dxi_Q) x r r q) := by
    intro j
    rw [Finset.mul_sum, Finset.mul_sum]
    apply Finset.sum_congr rfl; intro r _
    rw [← delta_sum r (fun s => grad (kDx (o.G_Q e) o.ref.Dxi_Q) x s r q), Finset.mul_sum, Finset.mul_sum]
    apply Finset.sum_congr rfl; intro s _; ring
  have h2 : ∀ j, ∑ e', o.ref.Dxi_Q k e' q * o.G_Q e e' j q = kDx (o.G_Q e) o.ref.Dxi_Q k j q := by
    intro j; unfold kDx; apply Finset.sum_congr rfl; intro e' _; ring
  simp only [h, ← Finset.sum_mul, h2, mul_add, Finset.sum_add_distrib]
  have h3 : ∑ j, kDx (o.G_Q e) o.ref.Dxi_Q k j q * (delta p j * (o.lamWJ e q * ∑ r, grad (kDx (o.G_Q e) o.ref.Dxi_Q) x r r q)) =
      o.lamWJ e q * kDx (o.G_Q e) o.ref.Dxi_Q k p q * ∑ r, grad (kDx (o.G_Q e) o.ref.Dxi_Q) x r r q := by
    rw [← delta_sum p (fun j => o.lamWJ e q * kDx (o.G_Q e) o.ref.Dxi_Q k j q * ∑ r, grad (kDx (o.G_Q e) o.ref.Dxi_Q) x r r q)]
    apply Finset.sum_congr rfl; intro j _; ring
  rw [h3]
  congr 1
  rw [Finset.mul_sum, Finset.mul_sum, ← Finset.sum_add_distrib, ← Finset.sum_add_distrib]
  apply Finset.sum_congr rfl; intro j _; ring

end Tandem.Elasticity
