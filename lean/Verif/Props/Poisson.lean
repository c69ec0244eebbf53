import Verif.Model.Poisson
import Verif.Lemmas.DGAssembly
import Verif.Spec.DGAssembly
import Verif.Props.DGTopoMesh
import Mathlib.Algebra.BigOperators.Ring.Finset
import Mathlib.Algebra.BigOperators.Field
import Mathlib.Tactic.Ring
import Mathlib.Tactic.NormNum
import Mathlib.Tactic.Linarith
import Mathlib.Tactic.FieldSimp
import Mathlib.Tactic.FinCases
/-! # Properties C70, C71 for the Poisson operator -/
namespace Tandem.Poisson
open Tandem.DGTopo Tandem.Spec
open Tandem.DGAssembly

variable {dim Nbf Nbm Nq nq : Nat}

/-- Matrix times vector. -/
def mulVec {n : Nat} (A : Fin n → Fin n → ℝ) (x : Fin n → ℝ) : Fin n → ℝ := fun k => ∑ l, A k l * x l

theorem normal_dot_unit (n : Fin dim → Fin nq → ℝ) (q : Fin nq) :
    ∑ i, n i q * unitNormal n i q = normalLength n q := by
  unfold unitNormal normalLength
  by_cases h : 0 < ∑ j, n j q * n j q
  · simp only [if_pos h]
    have hs : Real.sqrt (∑ j, n j q * n j q) ≠ 0 := (Real.sqrt_pos.2 h).ne'
    have e1 : ∀ i, n i q * (n i q / Real.sqrt (∑ j, n j q * n j q)) = (n i q * n i q) / Real.sqrt (∑ j, n j q * n j q) := by
      intro i; ring
    simp only [e1]
    rw [← Finset.sum_div, div_eq_iff hs, Real.mul_self_sqrt h.le]
  · simp only [if_neg h]
    have h0 : ∑ j, n j q * n j q = 0 :=
      le_antisymm (not_lt.1 h) (Finset.sum_nonneg (fun j _ => mul_self_nonneg _))
    rw [h0, Real.sqrt_zero]

theorem KDx_eq (K : Fin Nbm → ℝ) (mE : Fin nq → Fin Nbm → ℝ) (G : Fin dim → Fin dim → Fin nq → ℝ)
    (Dxi : Fin Nbf → Fin dim → Fin nq → ℝ) (k : Fin Nbf) (i : Fin dim) (q : Fin nq) :
    kKDxq K mE G Dxi k i q = ∑ e, kKGq K mE G e i q * Dxi k e q := by
  unfold kKDxq kKGq
  rw [Finset.sum_comm]
  apply Finset.sum_congr rfl; intro e _
  rw [Finset.sum_mul]

/-- The normal flux of basis function `k`. -/
noncomputable def nflux (n : Fin dim → Fin nq → ℝ) (KDx : Fin Nbf → Fin dim → Fin nq → ℝ) (k : Fin Nbf) (q : Fin nq) : ℝ :=
  ∑ i, n i q * KDx k i q

theorem surface_entry (c0 c1 c2 : Fin 2 → ℝ) (w : Fin nq → ℝ) (KDx : Fin 2 → Fin Nbf → Fin dim → Fin nq → ℝ)
    (n : Fin dim → Fin nq → ℝ) (E L : Fin 2 → Fin Nbf → Fin nq → ℝ) (x y : Fin 2) (k l : Fin Nbf) :
    kAssembleSurface c0 c1 c2 w KDx n E L x y k l = ∑ q, w q * (c0 y * nflux n (KDx x) k q * E y l q +
      c1 x * nflux n (KDx y) l q * E x k q + c2 (if x = y then 0 else 1) * E x k q * L y l q) := by
  unfold kAssembleSurface nflux
  rw [← Finset.sum_add_distrib, ← Finset.sum_add_distrib]
  apply Finset.sum_congr rfl; intro q _
  have h1 : ∑ i, c0 y * w q * KDx x k i q * n i q * E y l q = c0 y * w q * E y l q * ∑ i, n i q * KDx x k i q := by
    rw [Finset.mul_sum]; apply Finset.sum_congr rfl; intro i _; ring
  have h2 : ∑ i, c1 x * w q * KDx y l i q * n i q * E x k q = c1 x * w q * E x k q * ∑ i, n i q * KDx y l i q := by
    rw [Finset.mul_sum]; apply Finset.sum_congr rfl; intro i _; ring
  rw [h1, h2]; ring

theorem surface_mul (c0 c1 c2 : Fin 2 → ℝ) (w : Fin nq → ℝ) (KDx : Fin 2 → Fin Nbf → Fin dim → Fin nq → ℝ)
    (n : Fin dim → Fin nq → ℝ) (E L : Fin 2 → Fin Nbf → Fin nq → ℝ) (x y : Fin 2) (v : Fin Nbf → ℝ) (k : Fin Nbf) :
    mulVec (kAssembleSurface c0 c1 c2 w KDx n E L x y) v k = ∑ q, w q * (c0 y * nflux n (KDx x) k q * (∑ l, E y l q * v l) +
      c1 x * E x k q * (∑ l, nflux n (KDx y) l q * v l) +
      c2 (if x = y then 0 else 1) * E x k q * (∑ l, L y l q * v l)) := by
  unfold mulVec
  simp only [surface_entry, Finset.sum_mul]
  rw [Finset.sum_comm]
  apply Finset.sum_congr rfl; intro q _
  simp only [Finset.mul_sum]
  rw [← Finset.sum_add_distrib, ← Finset.sum_add_distrib, Finset.mul_sum]
  apply Finset.sum_congr rfl; intro l _
  ring

theorem applyFacet_eq (w : Fin nq → ℝ) (n : Fin dim → Fin nq → ℝ) (uh : Fin nq → ℝ)
    (KG : Fin dim → Fin dim → Fin nq → ℝ) (Dxi : Fin Nbf → Fin dim → Fin nq → ℝ) (E : Fin Nbf → Fin nq → ℝ)
    (sh : Fin dim → Fin nq → ℝ) (y : Fin Nbf → ℝ) (k : Fin Nbf) :
    kApplyFacet w n uh KG Dxi E sh y k = y k + ∑ q, w q * (uh q * nflux n (fun k i q => ∑ e, KG e i q * Dxi k e q) k q -
      E k q * ∑ r, n r q * sh r q) := by
  unfold kApplyFacet nflux
  congr 1
  apply Finset.sum_congr rfl; intro q _
  rw [mul_sub, Finset.mul_sum, Finset.mul_sum, Finset.mul_sum, Finset.mul_sum, ← Finset.sum_sub_distrib]
  apply Finset.sum_congr rfl; intro r _
  have : ∑ e, uh q * KG e r q * Dxi k e q = uh q * ∑ e, KG e r q * Dxi k e q := by
    rw [Finset.mul_sum]; apply Finset.sum_congr rfl; intro e _; ring
  rw [this]; ring

theorem flux_comm (n : Fin dim → Fin nq → ℝ) (KG : Fin dim → Fin dim → Fin nq → ℝ) (Dxi : Fin Nbf → Fin dim → Fin nq → ℝ)
    (U : Fin Nbf → ℝ) (q : Fin nq) :
    ∑ r, n r q * (∑ e, ∑ l, KG e r q * Dxi l e q * U l) =
      ∑ l, nflux n (fun k i q => ∑ e, KG e i q * Dxi k e q) l q * U l := by
  unfold nflux
  simp only [Finset.sum_mul, Finset.mul_sum]
  rw [Finset.sum_comm' (t' := Finset.univ) (s' := fun _ => Finset.univ) (by simp)]
  rw [Finset.sum_comm]
  conv_rhs => rw [Finset.sum_comm]
  apply Finset.sum_congr rfl; intro r _
  rw [Finset.sum_comm]
  apply Finset.sum_congr rfl; intro l _
  apply Finset.sum_congr rfl; intro e _
  ring

theorem sigma_skeleton (c00 : ℝ) (KG0 KG1 : Fin dim → Fin dim → Fin nq → ℝ) (D0 D1 : Fin Nbf → Fin dim → Fin nq → ℝ)
    (E0 E1 : Fin Nbf → Fin nq → ℝ) (n nu : Fin dim → Fin nq → ℝ) (U V : Fin Nbf → ℝ) (q : Fin nq) :
    ∑ r, n r q * kFluxSigmaSkeleton c00 KG0 KG1 (fun e q l => D0 l e q) (fun e q l => D1 l e q) (fun q l => E0 l q)
      (fun q l => - E1 l q) nu U V r q =
    0.5 * ((∑ l, nflux n (fun k i q => ∑ e, KG0 e i q * D0 k e q) l q * U l) +
      (∑ l, nflux n (fun k i q => ∑ e, KG1 e i q * D1 k e q) l q * V l)) +
    c00 * ((∑ l, E0 l q * U l) - (∑ l, E1 l q * V l)) * ∑ r, n r q * nu r q := by
  rw [← flux_comm, ← flux_comm, ← Finset.sum_add_distrib, Finset.mul_sum, Finset.mul_sum, ← Finset.sum_add_distrib]
  unfold kFluxSigmaSkeleton
  apply Finset.sum_congr rfl; intro r _
  have : ∑ l, - E1 l q * V l = - ∑ l, E1 l q * V l := by
    rw [← Finset.sum_neg_distrib]; apply Finset.sum_congr rfl; intro l _; ring
  rw [this]; ring

theorem sigma_boundary (c00 : ℝ) (KG0 : Fin dim → Fin dim → Fin nq → ℝ) (D0 : Fin Nbf → Fin dim → Fin nq → ℝ)
    (E0 : Fin Nbf → Fin nq → ℝ) (n nu : Fin dim → Fin nq → ℝ) (U : Fin Nbf → ℝ) (q : Fin nq) :
    ∑ r, n r q * kFluxSigmaBoundary c00 KG0 (fun e q l => D0 l e q) (fun q l => E0 l q) nu U r q =
    (∑ l, nflux n (fun k i q => ∑ e, KG0 e i q * D0 k e q) l q * U l) +
    c00 * (∑ l, E0 l q * U l) * ∑ r, n r q * nu r q := by
  rw [← flux_comm]
  unfold kFluxSigmaBoundary
  rw [Finset.mul_sum, ← Finset.sum_add_distrib]
  apply Finset.sum_congr rfl; intro r _
  have : ∑ l, c00 * E0 l q * U l * nu r q = c00 * (∑ l, E0 l q * U l) * nu r q := by
    rw [Finset.mul_sum, Finset.sum_mul]; apply Finset.sum_congr rfl; intro l _; ring
  rw [this]; ring

theorem nflux_neg (n : Fin dim → Fin nq → ℝ) (KDx : Fin Nbf → Fin dim → Fin nq → ℝ) (k : Fin Nbf) (q : Fin nq) :
    nflux (fun i q => - n i q) KDx k q = - nflux n KDx k q := by
  unfold nflux
  rw [← Finset.sum_neg_distrib]; apply Finset.sum_congr rfl; intro i _; ring

theorem KDx_flux (o : Op dim Nbf Nbm Nq nq) (f : Nat) (i : FacetInfo) (s : Fin 2) (n : Fin dim → Fin nq → ℝ) :
    nflux n (fun k r q => ∑ e, kKGq (o.K (upOf i s)) (o.ref.matE_q_T (localNoOf i s)) (o.JInv f s) e r q *
      o.ref.Dxi_q (localNoOf i s) k e q) = nflux n (o.KDx f i s) := by
  funext k q
  unfold nflux Op.KDx
  apply Finset.sum_congr rfl; intro r _
  rw [KDx_eq]

theorem neg_sum (E : Fin Nbf → Fin nq → ℝ) (U : Fin Nbf → ℝ) (q : Fin nq) :
    ∑ l, - E l q * U l = - ∑ l, E l q * U l := by
  rw [← Finset.sum_neg_distrib]; apply Finset.sum_congr rfl; intro l _; ring

theorem lift_sum (E : Fin Nbf → Fin nq → ℝ) (nl : Fin nq → ℝ) (v : Fin Nbf → ℝ) (q : Fin nq) :
    ∑ l, kLiftIp E nl l q * v l = nl q * ∑ l, E l q * v l := by
  unfold kLiftIp
  rw [Finset.mul_sum]; apply Finset.sum_congr rfl; intro l _; ring

theorem shape_skeleton (o : Op dim Nbf Nbm Nq nq) (hm : o.method = .IP) (f : Nat) (i : FacetInfo) (s t : Fin 2)
    (v : Fin Nbf → ℝ) (k : Fin Nbf) :
    mulVec (o.assembleSkeleton f i s t) v k = ∑ q, o.ref.w q * (![-0.5, 0.5] t * nflux (o.n_q f) (o.KDx f i s) k q *
        (∑ l, o.Es i t l q * v l) +
      ![-0.5, 0.5] s * o.Es i s k q * (∑ l, nflux (o.n_q f) (o.KDx f i t) l q * v l) +
      (if s = t then o.penalty f else - o.penalty f) * o.Es i s k q * (o.nl_q f q * ∑ l, o.Es i t l q * v l)) := by
  unfold Op.assembleSkeleton
  rw [surface_mul]
  apply Finset.sum_congr rfl; intro q _
  have hL : (∑ l, o.skeletonL f i t l q * v l) = o.nl_q f q * ∑ l, o.Es i t l q * v l := by
    unfold Op.skeletonL; simp only [hm]; rw [lift_sum]
  rw [hL]
  have hc : (![epsilon * 0.5, -(epsilon * 0.5)] : Fin 2 → ℝ) s = ![-0.5, 0.5] s := by
    unfold epsilon; fin_cases s <;> norm_num
  rw [hc]
  have hp : (![o.penalty f, - o.penalty f] : Fin 2 → ℝ) (if s = t then 0 else 1) = if s = t then o.penalty f else - o.penalty f := by
    by_cases h : s = t <;> simp [h]
  rw [hp]

theorem apply_skel_generic (w : Fin nq → ℝ) (n nu : Fin dim → Fin nq → ℝ) (KG0 KG1 : Fin dim → Fin dim → Fin nq → ℝ)
    (D0 D1 : Fin Nbf → Fin dim → Fin nq → ℝ) (E0 E1 : Fin Nbf → Fin nq → ℝ) (p : ℝ) (U V y : Fin Nbf → ℝ) (k : Fin Nbf) :
    kApplyFacet w n (kFluxUSkeleton (fun q l => - E0 l q) (fun q l => E1 l q) U V) KG0 D0 E0
      (kFluxSigmaSkeleton (-p) KG0 KG1 (fun e q l => D0 l e q) (fun e q l => D1 l e q) (fun q l => E0 l q)
        (fun q l => - E1 l q) nu U V) y k =
    y k + ∑ q, w q * (0.5 * (- (∑ l, E0 l q * U l) + ∑ l, E1 l q * V l) *
        nflux n (fun k i q => ∑ e, KG0 e i q * D0 k e q) k q -
      E0 k q * (0.5 * ((∑ l, nflux n (fun k i q => ∑ e, KG0 e i q * D0 k e q) l q * U l) +
        (∑ l, nflux n (fun k i q => ∑ e, KG1 e i q * D1 k e q) l q * V l)) -
        p * ((∑ l, E0 l q * U l) - (∑ l, E1 l q * V l)) * ∑ r, n r q * nu r q)) := by
  rw [applyFacet_eq]
  congr 1
  apply Finset.sum_congr rfl; intro q _
  rw [sigma_skeleton]
  unfold kFluxUSkeleton
  rw [neg_sum]
  ring

/-- Interior facet, interior penalty: the matrix-free flux term seen from side `s` is the sum of the products
with the two blocks of row `s`. -/
theorem applyFacet_skeleton (o : Op dim Nbf Nbm Nq nq) (hm : o.method = .IP) (junk : Nat → Fin dim → Fin dim → Fin nq → ℝ)
    (f : Nat) (i : FacetInfo) (hne : i.up0 ≠ i.up1) (s : Fin 2) (hbc : i.bc = bcNone ∨ i.bc = bcFault ∨ i.bc = bcDirichlet)
    (x0 xn y : Fin Nbf → ℝ) :
    o.applyFacet (o.KJInv junk f i) (upOf i s) (localNoOf i s)
      ⟨f, s.val, upOf i (1 - s), localNoOf i (1 - s), i.bc⟩ x0 xn y =
    fun k => y k + (mulVec (o.assembleSkeleton f i s s) x0 k + mulVec (o.assembleSkeleton f i s (1 - s)) xn k) := by
  have hup : upOf i s ≠ upOf i (1 - s) := by
    fin_cases s
    · simpa [upOf] using hne
    · simpa [upOf] using hne.symm
  funext k
  rw [shape_skeleton o hm, shape_skeleton o hm]
  unfold Op.applyFacet
  have hc : i.bc = bcNone ∨ (((decide (upOf i s ≠ upOf i (1 - s)) : Bool) = true) ∧
      ((decide (i.bc = bcFault ∨ i.bc = bcDirichlet) : Bool) = true)) := by
    rcases hbc with h | h
    · exact Or.inl h
    · exact Or.inr ⟨by simpa using hup, by simpa using h⟩
  simp only [hc, if_true]
  have hK : ∀ t, o.KJInv junk f i t = kKGq (o.K (upOf i t)) (o.ref.matE_q_T (localNoOf i t)) (o.JInv f t) := by
    intro t; unfold Op.KJInv; rw [if_neg (fun h => hne h.1)]
  have hnn : ∀ q, ∑ r, o.n_q f r q * o.n_unit_q f r q = o.nl_q f q := normal_dot_unit _
  have hF : ∀ t, (fun (k : Fin Nbf) (r : Fin dim) q => ∑ e, o.KJInv junk f i t e r q * o.ref.Dxi_q (localNoOf i t) k e q) = o.KDx f i t := by
    intro t; funext k r q; rw [hK]; unfold Op.KDx; rw [KDx_eq]
  fin_cases s
  · simp only [Fin.zero_eta, Fin.isValue, sub_zero, Nat.zero_ne_one, Fin.val_zero, and_false, decide_false, if_false, Bool.false_eq_true]
    unfold Ref.negative_E_q_T Ref.E_q_T Ref.Dxi_q_120
    rw [apply_skel_generic, hF 0, hF 1, ← Finset.sum_add_distrib]
    congr 1
    apply Finset.sum_congr rfl; intro q _
    rw [hnn]
    simp [Op.Es]
    ring
  · have hd : (decide (upOf i 1 ≠ upOf i (1 - 1)) : Bool) = true := by simpa using hup
    simp only [Fin.mk_one, Fin.isValue, Fin.val_one, and_true, decide_true, if_true]
    simp only [hd, if_true, decide_true]
    have e10 : (1 : Fin 2) - 1 = 0 := rfl
    simp only [e10]
    unfold Ref.negative_E_q_T Ref.E_q_T Ref.Dxi_q_120
    rw [apply_skel_generic, hF 0, hF 1, ← Finset.sum_add_distrib]
    congr 1
    apply Finset.sum_congr rfl; intro q _
    have e2 : ∑ r, -o.n_q f r q * -o.n_unit_q f r q = o.nl_q f q := by
      rw [← hnn]; apply Finset.sum_congr rfl; intro r _; ring
    rw [e2]
    simp only [nflux_neg, neg_mul, Finset.sum_neg_distrib]
    simp [Op.Es]
    ring

theorem apply_bnd_generic (w : Fin nq → ℝ) (n nu : Fin dim → Fin nq → ℝ) (KG0 : Fin dim → Fin dim → Fin nq → ℝ)
    (D0 : Fin Nbf → Fin dim → Fin nq → ℝ) (E0 : Fin Nbf → Fin nq → ℝ) (p : ℝ) (U y : Fin Nbf → ℝ) (k : Fin Nbf) :
    kApplyFacet w n (kFluxUBoundary (fun q l => - E0 l q) U) KG0 D0 E0
      (kFluxSigmaBoundary (-p) KG0 (fun e q l => D0 l e q) (fun q l => E0 l q) nu U) y k =
    y k + ∑ q, w q * ((- (∑ l, E0 l q * U l)) * nflux n (fun k i q => ∑ e, KG0 e i q * D0 k e q) k q -
      E0 k q * ((∑ l, nflux n (fun k i q => ∑ e, KG0 e i q * D0 k e q) l q * U l) -
        p * (∑ l, E0 l q * U l) * ∑ r, n r q * nu r q)) := by
  rw [applyFacet_eq]
  congr 1
  apply Finset.sum_congr rfl; intro q _
  rw [sigma_boundary]
  unfold kFluxUBoundary
  rw [neg_sum]
  ring

/-- Boundary facet with displacement condition, interior penalty. -/
theorem applyFacet_boundary (o : Op dim Nbf Nbm Nq nq) (hm : o.method = .IP) (junk : Nat → Fin dim → Fin dim → Fin nq → ℝ)
    (f side : Nat) (i : FacetInfo) (heq : i.up0 = i.up1) (hbc : i.bc = bcFault ∨ i.bc = bcDirichlet)
    (x0 xn y : Fin Nbf → ℝ) :
    ∃ A, o.assembleBoundary f i = some A ∧
    o.applyFacet (o.KJInv junk f i) i.up0 i.localNo0 ⟨f, side, i.up0, i.localNo0, i.bc⟩ x0 xn y =
    fun k => y k + mulVec A x0 k := by
  have hnat : i.bc ≠ bcNatural := by
    unfold bcNatural; rcases hbc with h | h <;> rw [h] <;> decide
  have hnone : i.bc ≠ bcNone := by
    unfold bcNone; rcases hbc with h | h <;> rw [h] <;> decide
  refine ⟨_, by unfold Op.assembleBoundary; rw [if_neg hnat], ?_⟩
  funext k
  rw [surface_mul]
  unfold Op.applyFacet
  have hK : o.KJInv junk f i 0 = kKGq (o.K i.up0) (o.ref.matE_q_T i.localNo0) (o.JInv f 0) := by
    unfold Op.KJInv; rw [if_neg (fun h => absurd h.2 (by decide))]; rfl
  have hF : (fun (k : Fin Nbf) (r : Fin dim) q => ∑ e, o.KJInv junk f i 0 e r q * o.ref.Dxi_q i.localNo0 k e q) = o.KDx f i 0 := by
    funext k r q; rw [hK]; unfold Op.KDx; rw [KDx_eq]; rfl
  have hnn : ∀ q, ∑ r, o.n_q f r q * o.n_unit_q f r q = o.nl_q f q := normal_dot_unit _
  have hc : ¬ (i.bc = bcNone ∨ ((decide (i.up0 ≠ i.up0) : Bool) = true ∧
      (decide (i.bc = bcFault ∨ i.bc = bcDirichlet) : Bool) = true)) := by
    simp [hnone]
  simp only [hc, if_false]
  simp only [hbc, ne_eq, not_true, decide_false, decide_true, if_true, Bool.false_eq_true, false_and, if_false]
  unfold Ref.negative_E_q_T Ref.E_q_T Ref.Dxi_q_120
  rw [apply_bnd_generic, hF]
  congr 1
  apply Finset.sum_congr rfl; intro q _
  rw [hnn]
  have hL : (∑ l, o.boundaryL f i l q * x0 l) = o.nl_q f q * ∑ l, o.Es i 0 l q * x0 l := by
    unfold Op.boundaryL; simp only [hm]; rw [lift_sum]
  rw [hL]
  simp only [Op.Es, localNoOf, epsilon, if_true]
  ring

theorem applyFacet_natural (o : Op dim Nbf Nbm Nq nq) (KG : Fin 2 → Fin dim → Fin dim → Fin nq → ℝ)
    (u l : Nat) (s : SideInfo) (hbc : s.bc = bcNatural) (x0 xn y : Fin Nbf → ℝ) :
    o.applyFacet KG u l s x0 xn y = y := by
  unfold Op.applyFacet
  rw [hbc]
  have h1 : ¬ (bcNatural = bcNone) := by decide
  have h2 : ¬ (bcNatural = bcFault) := by decide
  have h3 : ¬ (bcNatural = bcDirichlet) := by decide
  simp [h1, h2, h3]

theorem applyVolume_eq (o : Op dim Nbf Nbm Nq nq) (e : Nat) (x : Fin Nbf → ℝ) :
    kApplyVolume o.ref.Dxi_Q (o.G_Q e) (kJWKQ (o.J_Q e) o.ref.W (o.K e) o.ref.matE_Q_T) x =
      mulVec (o.assembleVolume e) x := by
  funext k
  unfold kApplyVolume mulVec Op.assembleVolume kAssembleVolume kJWKQ
  have hD : ∀ (k : Fin Nbf) (r : Fin dim) q, ∑ e', o.ref.Dxi_Q k e' q * o.G_Q e e' r q = kDxQ (o.G_Q e) o.ref.Dxi_Q k r q := by
    intro k r q; unfold kDxQ; apply Finset.sum_congr rfl; intro e' _; ring
  simp only [hD]
  simp only [Finset.sum_mul]
  conv_rhs => rw [Finset.sum_comm]
  apply Finset.sum_congr rfl; intro q _
  conv_rhs => rw [Finset.sum_comm]
  conv_rhs => rw [Finset.sum_congr rfl (fun m _ => Finset.sum_comm)]
  conv_rhs => rw [Finset.sum_comm]
  apply Finset.sum_congr rfl; intro r _
  conv_rhs => rw [Finset.sum_comm]

section
variable {P : Nat} {elems : Nat → List (List Nat)} {num fnum tag : List Nat → Nat} {views : Nat → View}

/-- What the precomputation of the matrix-free operator stores for facet `f` of rank `r`. -/
noncomputable def kjinv (o : Op dim Nbf Nbm Nq nq) (v : View) (junk : Nat → Fin dim → Fin dim → Fin nq → ℝ) (f : Nat) :
    Fin 2 → Fin dim → Fin dim → Fin nq → ℝ :=
  o.KJInv junk f ((facetInfo v f).getD ⟨0, 0, 0, 0, 0, 0, false, false, 0⟩)

theorem poisson_local (hd : IsDistributed P dim elems num fnum tag views) (hbc : BCsFit P elems tag) (r : Nat) (hr : r < P)
    (o : Op dim Nbf Nbm Nq nq) (hm : o.method = .IP) (junk : Nat → Fin dim → Fin dim → Fin nq → ℝ)
    (x : Nat → Fin Nbf → ℝ) :
    ∃ blocks tbl, assemble (views r) o.localOp = some blocks ∧ neighbourInfo (views r) (dim + 1) = some tbl ∧
      (∀ b ∈ blocks, b.1 < (elems r).length) ∧
      ∀ u, u < (elems r).length → ∃ row : List SideInfo, tbl[u]? = some (row.map some) ∧ row.length = dim + 1 ∧
        o.apply (kjinv o (views r) junk) u (x u) (row.map (fun s => (s, x s.lid))) = rowApply mulVec blocks x u := by
  have hv := hd.view r hr
  obtain ⟨blocks, tbl, h1, h2, h3, h4⟩ := neighbour_loop hd r hr o.localOp mulVec x
    (fun u l s y => o.applyFacet (kjinv o (views r) junk s.fctNo) u l s (x u) (x s.lid) y) (by
      intro f info hf hinfo s y hu
      have hk : kjinv o (views r) junk f = o.KJInv junk f info := by unfold kjinv; rw [hinfo]; rfl
      simp only [hk]
      obtain ⟨info', ff, e0, e1, g1, g2, g3, g4, g5, g6, g7, _, _, ⟨d0, k0, k0'⟩, ⟨d1, k1, k1'⟩, g12, g13, _, g14⟩ :=
        C33_facet_info hd r hr f hf
      obtain rfl := Option.some.inj (hinfo.symm.trans g1)
      by_cases hne : info.up0 = info.up1
      · have he : e0 = e1 := by rw [hne] at g3; exact Option.some.inj (g3.symm.trans g4)
        have hl : info.localNo0 = info.localNo1 := by
          rw [← hne] at k1
          obtain rfl := Option.some.inj (k0.symm.trans k1)
          obtain ⟨ds2, b1, b2, b3, b4⟩ := hv.down _ _ g3
          obtain rfl := Option.some.inj (k0.symm.trans b1)
          exact get_inj b3 k0' k1'
        have hups : ∀ t, upOf info t = info.up0 := by
          intro t; unfold upOf; split
          · rfl
          · exact hne.symm
        have hlocs : ∀ t, localNoOf info t = info.localNo0 := by
          intro t; unfold localNoOf; split
          · rfl
          · exact hl.symm
        rw [hups, hups, hlocs, hlocs]
        have hb := hbc.boundary ff e0 (mem_inElems hv g3) g5 (fun e' h h' => by
          rcases g7 e' h h' with h | h
          · exact h
          · rw [h, he])
        unfold facetTerm
        rw [if_neg (fun h => h hne)]
        rcases hb with hb | hb
        · rw [applyFacet_natural _ _ _ _ _ (by rw [g14, hb]; rfl)]
          have : o.localOp.boundary f info = none := by
            unfold Op.localOp Op.assembleBoundary
            simp only
            rw [if_pos (by rw [g14, hb]; rfl)]
          rw [this]; simp
        · obtain ⟨A, a1, a2⟩ := applyFacet_boundary o hm junk f s.val info hne (by rw [g14]; exact hb) (x info.up0) (x info.up0) y
          rw [a2]
          have : o.localOp.boundary f info = some A := a1
          rw [this]; rfl
      · have hb := hbc.interior ff e0 e1 (mem_inElems hv g3) (mem_inElems hv g4) (by
          rintro rfl
          exact hne (get_inj hv.once g3 g4)) g5 g6
        rw [applyFacet_skeleton o hm junk f info hne s (by rw [g14]; exact hb)]
        unfold facetTerm
        rw [if_pos hne]
        funext k
        fin_cases s
        · simp [upOf, Op.localOp]
        · have hne' : ¬ info.up0 = info.up1 := hne
          simp [upOf, Op.localOp, hne', add_comm])
  refine ⟨blocks, tbl, h1, h2, h3, ?_⟩
  intro u hu
  obtain ⟨row, r1, r2, r3⟩ := h4 u hu
  refine ⟨row, r1, r2, ?_⟩
  rw [← r3]
  unfold Op.apply
  rw [applyVolume_eq, List.zipIdx_map, List.foldl_map]
  rfl

/-- **C70 (Poisson)**. -/
theorem C70_poisson (hd : IsDistributed P dim elems num fnum tag views) (hbc : BCsFit P elems tag)
    (o : Op dim Nbf Nbm Nq nq) (hm : o.method = .IP) (junk : Nat → Fin dim → Fin dim → Fin nq → ℝ)
    (plans : List ScatterPlan.Plan) (hplans : ∀ s, s < P → ∃ p, plans[s]? = some p ∧ ScatterPlan.IsPlan s (elemFaces (views s)) p)
    (X : List Nat → List ℝ) (hX : ∀ e, InElems P elems e → (X e).length = Nbf)
    (xs : Nat → List ℝ) (hxs : ∀ s, s < P → xs s = ((views s).elems.take (elems s).length).flatMap X)
    (xl : List (List ℝ)) (hxl : ∀ s, s < P → xl[s]? = some (xs s))
    (r : Nat) (hr : r < P) (plan : ScatterPlan.Plan) (hplan : plans[r]? = some plan)
    (hlen : plan.recvIdx.length ≤ 2 ^ 64 - 1)
    (y : List ℝ) (hy : y.length = plan.recvIdx.length * Nbf)
    (arrival : List ScatterPlan.Block) (ha : arrival.Perm plan.recvBlocks) (during : Nat → List ℝ) :
    ∃ ghost k tbl out blocks, ScatterPlan.scatter Nbf plans xl r y arrival = some ghost ∧
      numInterior (views r) = some k ∧ neighbourInfo (views r) (dim + 1) = some tbl ∧
      DGTopo.apply Nbf (views r).numLocal k plan.recvIdx tbl (xs r) during ghost = some out ∧
      assemble (views r) o.localOp = some blocks ∧
      out.map (·.1) = List.range (elems r).length ∧
      ∀ (u : Nat) (x0 : List ℝ) (xn : List (SideInfo × List ℝ)), (u, x0, xn) ∈ out →
        o.apply (kjinv o (views r) junk) u (toVec Nbf x0) (xn.map (fun p => (p.1, toVec Nbf p.2))) =
          rowApply mulVec blocks (fun j => toVec Nbf (X ((views r).elems.getD j []))) u := by
  obtain ⟨ghost, k, tbl, out, h1, h2, h3, h4, h5, h6⟩ := C33_apply hd Nbf plans hplans X hX xs hxs xl hxl r hr plan hplan hlen y hy arrival ha during
  obtain ⟨blocks, tbl', b1, b2, b3, b4⟩ := poisson_local hd hbc r hr o hm junk
    (fun j => toVec Nbf (X ((views r).elems.getD j [])))
  obtain rfl := Option.some.inj (h3.symm.trans b2)
  refine ⟨ghost, k, tbl, out, blocks, h1, h2, h3, h4, b1, h5, ?_⟩
  intro u x0 xn hmem
  obtain ⟨e, e1, e2, e3, e4, e5, e6⟩ := h6 u x0 xn hmem
  have hu : u < (elems r).length := by
    have : u ∈ out.map (·.1) := List.mem_map.2 ⟨_, hmem, rfl⟩
    rw [h5] at this; simpa using this
  obtain ⟨row, r1, r2, r3⟩ := b4 u hu
  have hrow : row = xn.map (·.1) := by
    have := Option.some.inj (r1.symm.trans e4)
    have h := congrArg (List.map (fun s : Option SideInfo => s.getD ⟨0, 0, 0, 0, 0⟩)) this
    simpa [List.map_map, Function.comp_def] using h
  rw [← r3, hrow, List.map_map]
  congr 1
  · rw [e3, List.getD_eq_getElem?_getD, e1]; rfl
  · apply List.map_congr_left
    intro p hp
    obtain ⟨e', q1, q2⟩ := e6 p hp
    simp only [Function.comp_apply]
    rw [q2, List.getD_eq_getElem?_getD, q1]; rfl

end

/-! ## Where the two disagree; the hypotheses of C70 are needed -/

/-- All tensors of size one, all entries one, the basis function constant. -/
noncomputable def unitOp (m : Method) : Op 1 1 1 1 1 :=
  ⟨⟨fun _ _ => 1, fun _ _ _ => 0, fun _ _ => 1, fun _ => 1, fun _ _ _ => 1, fun _ _ _ _ => 0, fun _ _ _ => 1, fun _ => 1, fun _ _ => 1⟩,
   m, fun _ _ => 1, fun _ _ _ _ => 1, fun _ _ => 1, fun _ _ _ _ _ => 1, fun _ _ _ => 1, fun _ => 1⟩

/-- A facet between elements 0 and 1. -/
def exSkeleton (bc : Nat) : FacetInfo := ⟨0, 1, 0, 1, 0, 0, true, true, bc⟩
/-- A facet of element 0 on the boundary. -/
def exBoundary (bc : Nat) : FacetInfo := ⟨0, 0, 0, 0, 0, 0, true, true, bc⟩

theorem unitOp_nl (m : Method) (f : Nat) (q : Fin 1) : (unitOp m).nl_q f q = 1 := by
  simp [Op.nl_q, normalLength, unitOp]

/-- A facet on the boundary without boundary condition: the assembled matrix has a penalty term, the matrix-free operator
has none. -/
theorem C70_none_on_boundary : ∃ A, (unitOp .IP).assembleBoundary 0 (exBoundary bcNone) = some A ∧ ∀ junk,
    (unitOp .IP).applyFacet ((unitOp .IP).KJInv junk 0 (exBoundary bcNone)) 0 0 ⟨0, 1, 0, 0, bcNone⟩ (fun _ => 1) (fun _ => 1) (fun _ => 0) ≠
      fun k => 0 + mulVec A (fun _ => 1) k := by
  refine ⟨_, by unfold Op.assembleBoundary; rw [if_neg (by decide)], ?_⟩
  intro junk h
  have := congrFun h 0
  have hnl := unitOp_nl .IP 0 0
  rw [surface_mul] at this
  simp only [Op.applyFacet, if_true, true_or] at this
  simp [unitOp, kApplyFacet, kFluxUSkeleton, kFluxSigmaSkeleton, Ref.negative_E_q_T, Ref.E_q_T, Ref.Dxi_q_120,
    nflux, Op.KDx, kKDxq, Op.Es, Op.boundaryL, lift_sum, Op.penalty, kLiftIp, Op.nl_q, normalLength] at this

/-- A facet between two elements with a natural boundary condition: the matrix-free operator skips it, the assembled matrix
couples the elements. -/
theorem C70_natural_inside :
    (unitOp .IP).applyFacet ((unitOp .IP).KJInv (fun _ _ _ _ => 0) 0 (exSkeleton bcNatural)) 0 0 ⟨0, 0, 1, 0, bcNatural⟩
      (fun _ => 1) (fun _ => 0) (fun _ => 0) ≠
      fun k => 0 + (mulVec ((unitOp .IP).assembleSkeleton 0 (exSkeleton bcNatural) 0 0) (fun _ => 1) k +
        mulVec ((unitOp .IP).assembleSkeleton 0 (exSkeleton bcNatural) 0 1) (fun _ => 0) k) := by
  rw [applyFacet_natural _ _ _ _ _ rfl]
  intro h
  have := congrFun h 0
  rw [shape_skeleton _ rfl, shape_skeleton _ rfl] at this
  simp [unitOp, nflux, Op.KDx, kKDxq, Op.Es, Op.penalty, Op.nl_q, normalLength] at this

/-- With method BR2 the matrix-free operator is not the assembled one (nothing in the code excludes the combination). -/
theorem C70_br2 :
    (unitOp .BR2).applyFacet ((unitOp .BR2).KJInv (fun _ _ _ _ => 0) 0 (exSkeleton bcNone)) 0 0 ⟨0, 0, 1, 0, bcNone⟩
      (fun _ => 1) (fun _ => 0) (fun _ => 0) ≠
      fun k => 0 + (mulVec ((unitOp .BR2).assembleSkeleton 0 (exSkeleton bcNone) 0 0) (fun _ => 1) k +
        mulVec ((unitOp .BR2).assembleSkeleton 0 (exSkeleton bcNone) 0 1) (fun _ => 0) k) := by
  intro h
  have := congrFun h 0
  unfold Op.assembleSkeleton at this
  rw [surface_mul, surface_mul] at this
  simp only [Op.applyFacet, if_true, true_or] at this
  simp [unitOp, exSkeleton, upOf, localNoOf, kApplyFacet, kFluxUSkeleton, kFluxSigmaSkeleton, Ref.negative_E_q_T, Ref.E_q_T, Ref.Dxi_q_120,
    nflux, Op.KDx, kKDxq, Op.Es, Op.skeletonL, Op.penalty, kLiftSkeleton, kLift, Op.Kq, kKq, Op.minv, Op.n_unit_q, unitNormal] at this
  norm_num at this

/-! ## The hypotheses of C70 hold for a strip of five triangles on three ranks -/

/-- One natural facet, one facet inside without condition, a fault elsewhere. -/
def exTag (f : List Nat) : Nat := if f = [0, 1] then 1 else if f = [1, 2] then 0 else 3

theorem exBCsFit : BCsFit 3 Ghosts.exElems exTag where
  interior := by
    have hall : ∀ s, s < 3 → ∀ a ∈ Ghosts.exElems s, a ∈ Ghosts.exAll := by decide
    have h0 : ∀ a ∈ Ghosts.exAll, ∀ b ∈ Ghosts.exAll, a ≠ b → IsFacet a [0, 1] → ¬ IsFacet b [0, 1] := by decide
    rintro f e e' ⟨s, hs, he⟩ ⟨s', hs', he'⟩ hne hf hf'
    unfold exTag
    split
    · next h => subst h; exact absurd hf' (h0 e (hall s hs e he) e' (hall s' hs' e' he') hne hf)
    · split
      · exact Or.inl rfl
      · exact Or.inr (Or.inl rfl)
  boundary := by
    intro f e he hf h
    unfold exTag
    split
    · exact Or.inl rfl
    · split
      · next h1 h2 =>
        subst h2
        have a := h [0, 1, 2] ⟨0, by decide, by decide⟩ (by decide)
        have b := h [1, 2, 3] ⟨0, by decide, by decide⟩ (by decide)
        rw [← a] at b
        exact absurd b (by decide)
      · exact Or.inr (Or.inl rfl)

example : ∃ num fnum views, IsDistributed 3 2 Ghosts.exElems num fnum exTag views := by
  obtain ⟨num, fnum, views, h, _⟩ := C33_local_meshes Ghosts.exEnv Ghosts.exElems Ghosts.exMesh Ghosts.exOk (by decide)
    (fun _ f => exTag f)
    (fun r => (sortedBy_exists Ghosts.exEnv.P Ghosts.exEnv.plex2rank (facetLists Ghosts.exEnv Ghosts.exElems)
      (fun s => (Ghosts.exElems s).length) none (some (fun _ f => exTag f)) r).choose)
    (fun r _ => (sortedBy_exists Ghosts.exEnv.P Ghosts.exEnv.plex2rank (facetLists Ghosts.exEnv Ghosts.exElems)
      (fun s => (Ghosts.exElems s).length) none (some (fun _ f => exTag f)) r).choose_spec)
  exact ⟨num, fnum, views, h⟩

end Tandem.Poisson
