import Verif.Props.PoissonMatrix
/-! # Properties C73, C74 for the Poisson operator: right-hand side, traction, rigid motion, conservation -/
namespace Tandem.Poisson
open Tandem.DGTopo Tandem.Spec
open Tandem.DGAssembly

variable {dim Nbf Nbm Nq nq : Nat}

/-- Value of the function with coefficients `u` at a point of the facet. -/
noncomputable def trace (E : Fin Nbf → Fin nq → ℝ) (u : Fin Nbf → ℝ) : Fin nq → ℝ := fun q => ∑ l, E l q * u l

/-- Its flux times the normal. -/
noncomputable def fluxOf (n : Fin dim → Fin nq → ℝ) (KDx : Fin Nbf → Fin dim → Fin nq → ℝ) (u : Fin Nbf → ℝ) : Fin nq → ℝ :=
  fun q => ∑ l, nflux n KDx l q * u l

/-- `1` on side 0, `-1` on side 1. -/
def sgn (s : Fin 2) : ℝ := if s = 0 then 1 else -1

theorem kLift_apply (Minv : Fin Nbf → Fin Nbf → ℝ) (Es Ex : Fin Nbf → Fin nq → ℝ) (n : Fin dim → Fin nq → ℝ)
    (w : Fin nq → ℝ) (v : Fin Nbf → ℝ) (i : Fin dim) (u : Fin Nbf) :
    ∑ l, kLift Minv Es Ex n w l i u * v l = ∑ m, ∑ p, 0.5 * Minv u m * Es m p * trace Ex v p * w p * n i p := by
  unfold kLift trace
  simp only [Finset.sum_mul, Finset.mul_sum]
  rw [Finset.sum_comm]
  apply Finset.sum_congr rfl; intro m _
  rw [Finset.sum_comm]
  apply Finset.sum_congr rfl; intro p _
  apply Finset.sum_congr rfl; intro l _
  ring

theorem lift_apply (o : Op dim Nbf Nbm Nq nq) (f : Nat) (i : FacetInfo) (x : Fin 2) (v : Fin Nbf → ℝ) (q : Fin nq) :
    ∑ l, o.skeletonL f i x l q * v l = o.rhsSkeletonLift f i (trace (o.Es i x) v) q := by
  unfold Op.skeletonL Op.rhsSkeletonLift
  cases o.method with
  | IP => simp only; rw [lift_sum]; rfl
  | BR2 =>
    simp only
    unfold kLiftSkeleton kRhsLiftSkeleton
    simp only [Finset.sum_mul]
    rw [Finset.sum_comm]
    apply Finset.sum_congr rfl; intro r _
    simp only [mul_add, add_mul, Finset.sum_add_distrib]
    have key : ∀ s, ∑ l, 0.5 * o.n_q f r q * (∑ u, o.Kq i s q * o.Es i s u q * kLift (o.minv (upOf i s)) (o.Es i s) (o.Es i x) (o.n_q f) o.ref.w l r u) * v l =
        0.5 * o.n_q f r q * ∑ u, o.Kq i s q * o.Es i s u q * ∑ m, ∑ p, 0.5 * o.minv (upOf i s) u m * o.Es i s m p * trace (o.Es i x) v p * o.ref.w p * o.n_q f r p := by
      intro s
      simp only [← kLift_apply]
      simp only [Finset.mul_sum, Finset.sum_mul]
      rw [Finset.sum_comm]
      apply Finset.sum_congr rfl; intro u _
      apply Finset.sum_congr rfl; intro l _
      ring
    rw [key 0, key 1]

theorem bndlift_apply (o : Op dim Nbf Nbm Nq nq) (f : Nat) (i : FacetInfo) (v : Fin Nbf → ℝ) (q : Fin nq) :
    ∑ l, o.boundaryL f i l q * v l = o.rhsBoundaryLift f i (trace (o.Es i 0) v) q := by
  unfold Op.boundaryL Op.rhsBoundaryLift
  cases o.method with
  | IP => simp only; rw [lift_sum]; rfl
  | BR2 =>
    simp only
    unfold kLiftBoundary kRhsLiftBoundary trace
    simp only [Finset.sum_mul, Finset.mul_sum]
    rw [Finset.sum_comm]
    apply Finset.sum_congr rfl; intro r _
    rw [Finset.sum_comm]
    apply Finset.sum_congr rfl; intro u _
    rw [Finset.sum_comm]
    apply Finset.sum_congr rfl; intro m _
    rw [Finset.sum_comm]
    apply Finset.sum_congr rfl; intro p _
    apply Finset.sum_congr rfl; intro l _
    ring

theorem rhsLift_sub (o : Op dim Nbf Nbm Nq nq) (f : Nat) (i : FacetInfo) (a b : Fin nq → ℝ) (q : Fin nq) :
    o.rhsSkeletonLift f i (fun q => a q - b q) q = o.rhsSkeletonLift f i a q - o.rhsSkeletonLift f i b q := by
  unfold Op.rhsSkeletonLift
  cases o.method with
  | IP => simp only [kRhsLiftIp]; ring
  | BR2 =>
    simp only [kRhsLiftSkeleton]
    simp only [mul_sub, sub_mul, Finset.sum_sub_distrib, mul_add, Finset.sum_add_distrib]
    ring

theorem rhsBndLift_sub (o : Op dim Nbf Nbm Nq nq) (f : Nat) (i : FacetInfo) (a b : Fin nq → ℝ) (q : Fin nq) :
    o.rhsBoundaryLift f i (fun q => a q - b q) q = o.rhsBoundaryLift f i a q - o.rhsBoundaryLift f i b q := by
  unfold Op.rhsBoundaryLift
  cases o.method with
  | IP => simp only [kRhsLiftIp]; ring
  | BR2 =>
    simp only [kRhsLiftBoundary]
    simp only [mul_sub, sub_mul, Finset.sum_sub_distrib]

/-- What a facet adds to the right-hand side. -/
theorem rhsFacet_eq (c1 c2 : ℝ) (w : Fin nq → ℝ) (KDx : Fin Nbf → Fin dim → Fin nq → ℝ) (n : Fin dim → Fin nq → ℝ)
    (E : Fin Nbf → Fin nq → ℝ) (fq fl : Fin nq → ℝ) (b : Fin Nbf → ℝ) (k : Fin Nbf) :
    kRhsFacet c1 c2 w KDx n E fq fl b k = b k + ∑ q, w q * (c1 * nflux n KDx k q * fq q + c2 * E k q * fl q) := by
  unfold kRhsFacet nflux
  rw [add_assoc]
  congr 1
  rw [← Finset.sum_add_distrib]
  apply Finset.sum_congr rfl; intro q _
  have : ∑ i, c1 * w q * KDx k i q * n i q * fq q = w q * (c1 * (∑ i, n i q * KDx k i q) * fq q) := by
    rw [Finset.mul_sum, Finset.sum_mul, Finset.mul_sum]
    apply Finset.sum_congr rfl; intro i _; ring
  rw [this]; ring

/-- The prescribed jump of an interior facet: zero without condition. -/
noncomputable def given (d : Data Nq nq) (f bc : Nat) : Fin nq → ℝ := (bcSkeleton d f bc).getD 0
/-- The prescribed value on a boundary facet. -/
noncomputable def givenBnd (d : Data Nq nq) (f bc : Nat) : Fin nq → ℝ := (bcBoundary d f bc).getD 0

theorem rhsLift_zero (o : Op dim Nbf Nbm Nq nq) (f : Nat) (i : FacetInfo) (q : Fin nq) : o.rhsSkeletonLift f i 0 q = 0 := by
  have := rhsLift_sub o f i 0 0 q
  have e : (fun q => (0 : Fin nq → ℝ) q - (0 : Fin nq → ℝ) q) = 0 := by funext q; simp
  rw [e] at this
  linarith

theorem rhsBndLift_zero (o : Op dim Nbf Nbm Nq nq) (f : Nat) (i : FacetInfo) (q : Fin nq) : o.rhsBoundaryLift f i 0 q = 0 := by
  have := rhsBndLift_sub o f i 0 0 q
  have e : (fun q => (0 : Fin nq → ℝ) q - (0 : Fin nq → ℝ) q) = 0 := by funext q; simp
  rw [e] at this
  linarith

theorem rhsSkeleton_eq (o : Op dim Nbf Nbm Nq nq) (d : Data Nq nq) (f : Nat) (i : FacetInfo) (s : Fin 2) (b : Fin Nbf → ℝ) :
    o.rhsSkeleton d f i s b = b + fun k => ∑ q, o.ref.w q * (-0.5 * nflux (o.n_q f) (o.KDx f i s) k q * given d f i.bc q +
      sgn s * o.penalty f * o.Es i s k q * o.rhsSkeletonLift f i (given d f i.bc) q) := by
  funext k
  unfold Op.rhsSkeleton given
  cases bcSkeleton d f i.bc with
  | none => simp [rhsLift_zero]
  | some fq =>
    simp only [Option.getD_some, Pi.add_apply]
    rw [rhsFacet_eq]
    congr 1
    apply Finset.sum_congr rfl; intro q _
    unfold epsilon sgn
    split <;> ring

theorem rhsBoundary_eq (o : Op dim Nbf Nbm Nq nq) (d : Data Nq nq) (f : Nat) (i : FacetInfo) (b : Fin Nbf → ℝ) :
    o.rhsBoundary d f i b = b + fun k => ∑ q, o.ref.w q * (-1 * nflux (o.n_q f) (o.KDx f i 0) k q * givenBnd d f i.bc q +
      o.penalty f * o.Es i 0 k q * o.rhsBoundaryLift f i (givenBnd d f i.bc) q) := by
  funext k
  unfold Op.rhsBoundary givenBnd
  cases bcBoundary d f i.bc with
  | none => simp [rhsBndLift_zero]
  | some fq =>
    simp only [Option.getD_some, Pi.add_apply]
    rw [rhsFacet_eq]
    congr 1

/-- The residual of an interior facet in the row of side `s`: it depends on the jump minus the prescribed jump and on the
mean flux. -/
theorem residual_skeleton (o : Op dim Nbf Nbm Nq nq) (d : Data Nq nq) (f : Nat) (i : FacetInfo) (s : Fin 2)
    (u0 u1 : Fin Nbf → ℝ) (k : Fin Nbf) :
    mulVec (o.assembleSkeleton f i s 0) u0 k + mulVec (o.assembleSkeleton f i s 1) u1 k - o.rhsSkeleton d f i s 0 k =
    ∑ q, o.ref.w q * (-0.5 * nflux (o.n_q f) (o.KDx f i s) k q * (trace (o.Es i 0) u0 q - trace (o.Es i 1) u1 q - given d f i.bc q) -
      sgn s * o.Es i s k q * (0.5 * (fluxOf (o.n_q f) (o.KDx f i 0) u0 q + fluxOf (o.n_q f) (o.KDx f i 1) u1 q) -
        o.penalty f * o.rhsSkeletonLift f i (fun q => trace (o.Es i 0) u0 q - trace (o.Es i 1) u1 q - given d f i.bc q) q)) := by
  unfold Op.assembleSkeleton
  rw [surface_mul, surface_mul, rhsSkeleton_eq]
  simp only [Pi.add_apply, Pi.zero_apply, zero_add]
  rw [← Finset.sum_add_distrib, ← Finset.sum_sub_distrib]
  apply Finset.sum_congr rfl; intro q _
  rw [lift_apply, lift_apply]
  have e1 := rhsLift_sub o f i (fun q => trace (o.Es i 0) u0 q - trace (o.Es i 1) u1 q) (given d f i.bc) q
  have e2 := rhsLift_sub o f i (trace (o.Es i 0) u0) (trace (o.Es i 1) u1) q
  rw [e1, e2]
  unfold fluxOf trace sgn epsilon
  fin_cases s
  · simp; ring
  · simp; ring

theorem residual_boundary (o : Op dim Nbf Nbm Nq nq) (d : Data Nq nq) (f : Nat) (i : FacetInfo) (A : Fin Nbf → Fin Nbf → ℝ)
    (hA : o.assembleBoundary f i = some A) (u0 : Fin Nbf → ℝ) (k : Fin Nbf) :
    mulVec A u0 k - o.rhsBoundary d f i 0 k =
    ∑ q, o.ref.w q * (- nflux (o.n_q f) (o.KDx f i 0) k q * (trace (o.Es i 0) u0 q - givenBnd d f i.bc q) -
      o.Es i 0 k q * (fluxOf (o.n_q f) (o.KDx f i 0) u0 q -
        o.penalty f * o.rhsBoundaryLift f i (fun q => trace (o.Es i 0) u0 q - givenBnd d f i.bc q) q)) := by
  unfold Op.assembleBoundary at hA
  split at hA
  · simp at hA
  obtain rfl := Option.some.inj hA
  rw [surface_mul, rhsBoundary_eq]
  simp only [Pi.add_apply, Pi.zero_apply, zero_add]
  rw [← Finset.sum_sub_distrib]
  apply Finset.sum_congr rfl; intro q _
  rw [bndlift_apply, rhsBndLift_sub]
  unfold fluxOf trace epsilon
  ring

/-- **C74 (traction, interior facet)**: the traction reported for a fault is the numerical flux of the discretization; both
sides feel it with opposite signs. -/
theorem C74_traction_skeleton (o : Op dim Nbf Nbm Nq nq) (hm : o.method = .IP) (d : Data Nq nq) (junk : Fin nq → ℝ) (f : Nat)
    (i : FacetInfo) (hbc : i.bc = bcFault ∨ i.bc = bcDirichlet) (s : Fin 2) (u0 u1 : Fin Nbf → ℝ) (k : Fin Nbf) :
    mulVec (o.assembleSkeleton f i s 0) u0 k + mulVec (o.assembleSkeleton f i s 1) u1 k - o.rhsSkeleton d f i s 0 k =
    ∑ q, o.ref.w q * (-0.5 * nflux (o.n_q f) (o.KDx f i s) k q * (trace (o.Es i 0) u0 q - trace (o.Es i 1) u1 q - given d f i.bc q) -
      sgn s * o.Es i s k q * ∑ r, o.n_q f r q * o.tractionSkeleton d junk f i u0 u1 r q) := by
  rw [residual_skeleton]
  apply Finset.sum_congr rfl; intro q _
  have hsome : ∃ g, bcSkeleton d f i.bc = some g := by
    unfold bcSkeleton
    rcases hbc with h | h
    · exact ⟨_, by rw [if_pos h]⟩
    · exact ⟨_, by rw [h, if_neg (by decide), if_pos rfl]⟩
  obtain ⟨g, hg⟩ := hsome
  have ht : ∑ r, o.n_q f r q * o.tractionSkeleton d junk f i u0 u1 r q =
      0.5 * (fluxOf (o.n_q f) (o.KDx f i 0) u0 q + fluxOf (o.n_q f) (o.KDx f i 1) u1 q) -
        o.penalty f * (o.nl_q f q * (trace (o.Es i 0) u0 q - trace (o.Es i 1) u1 q - g q)) := by
    have ht : ∀ r, o.tractionSkeleton d junk f i u0 u1 r q = 0.5 * ((∑ l, o.KDx f i 0 l r q * u0 l) + (∑ l, o.KDx f i 1 l r q * u1 l)) +
        -o.penalty f * (trace (o.Es i 0) u0 q - trace (o.Es i 1) u1 q - g q) * o.n_unit_q f r q := by
      intro r
      unfold Op.tractionSkeleton kGradU
      rw [hg, Option.getD_some]; rfl
    simp only [ht]
    have hnn : ∑ r, o.n_q f r q * o.n_unit_q f r q = o.nl_q f q := normal_dot_unit _ q
    rw [← hnn]
    have e : ∀ t : Fin 2, ∀ v : Fin Nbf → ℝ, fluxOf (o.n_q f) (o.KDx f i t) v q = ∑ r, o.n_q f r q * ∑ l, o.KDx f i t l r q * v l := by
      intro t v
      unfold fluxOf nflux
      simp only [Finset.sum_mul, Finset.mul_sum]
      rw [Finset.sum_comm]
      apply Finset.sum_congr rfl; intro r _
      apply Finset.sum_congr rfl; intro l _; ring
    rw [e 0, e 1, ← Finset.sum_add_distrib, Finset.sum_mul, Finset.mul_sum, Finset.mul_sum]
    rw [← Finset.sum_sub_distrib]
    apply Finset.sum_congr rfl; intro r _
    ring
  have hgv : given d f i.bc = g := by unfold given; rw [hg]; rfl
  rw [ht, hgv]
  unfold Op.rhsSkeletonLift
  simp only [hm, kRhsLiftIp]

/-- **C74 (traction, boundary facet)**. -/
theorem C74_traction_boundary (o : Op dim Nbf Nbm Nq nq) (hm : o.method = .IP) (d : Data Nq nq) (junk : Fin nq → ℝ) (f : Nat)
    (i : FacetInfo) (hbc : i.bc = bcFault ∨ i.bc = bcDirichlet) (u0 : Fin Nbf → ℝ) (k : Fin Nbf) :
    ∃ A, o.assembleBoundary f i = some A ∧ mulVec A u0 k - o.rhsBoundary d f i 0 k =
    ∑ q, o.ref.w q * (- nflux (o.n_q f) (o.KDx f i 0) k q * (trace (o.Es i 0) u0 q - givenBnd d f i.bc q) -
      o.Es i 0 k q * ∑ r, o.n_q f r q * o.tractionBoundary d junk f i u0 r q) := by
  have hnat : i.bc ≠ bcNatural := by
    unfold bcNatural; rcases hbc with h | h <;> rw [h] <;> decide
  refine ⟨_, by unfold Op.assembleBoundary; rw [if_neg hnat], ?_⟩
  rw [residual_boundary o d f i _ (by unfold Op.assembleBoundary; rw [if_neg hnat])]
  apply Finset.sum_congr rfl; intro q _
  have hsome : ∃ g, bcBoundary d f i.bc = some g := by
    unfold bcBoundary
    rcases hbc with h | h
    · exact ⟨_, by rw [if_pos h]⟩
    · exact ⟨_, by rw [h, if_neg (by decide), if_pos rfl]⟩
  obtain ⟨g, hg⟩ := hsome
  have ht : ∑ r, o.n_q f r q * o.tractionBoundary d junk f i u0 r q =
      fluxOf (o.n_q f) (o.KDx f i 0) u0 q - o.penalty f * (o.nl_q f q * (trace (o.Es i 0) u0 q - g q)) := by
    unfold Op.tractionBoundary kGradUBnd
    rw [hg, Option.getD_some]
    have hnn : ∑ r, o.n_q f r q * o.n_unit_q f r q = o.nl_q f q := normal_dot_unit _ q
    rw [← hnn]
    have e : fluxOf (o.n_q f) (o.KDx f i 0) u0 q = ∑ r, o.n_q f r q * ∑ l, o.KDx f i 0 l r q * u0 l := by
      unfold fluxOf nflux
      simp only [Finset.sum_mul, Finset.mul_sum]
      rw [Finset.sum_comm]
      apply Finset.sum_congr rfl; intro r _
      apply Finset.sum_congr rfl; intro l _; ring
    rw [e, Finset.sum_mul, Finset.mul_sum, ← Finset.sum_sub_distrib]
    apply Finset.sum_congr rfl; intro r _
    unfold trace
    ring
  have hgv : givenBnd d f i.bc = g := by unfold givenBnd; rw [hg]; rfl
  rw [ht, hgv]
  unfold Op.rhsBoundaryLift
  simp only [hm, kRhsLiftIp]

end Tandem.Poisson
