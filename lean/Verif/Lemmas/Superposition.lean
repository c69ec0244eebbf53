import Verif.Spec.DirectTraction
import Mathlib.Algebra.BigOperators.Module
import Mathlib.Tactic.Ring
import Mathlib.Tactic.LinearCombination
/-! # Linearity of right-hand side and traction in the boundary data (C103) -/
namespace Tandem.DGAssembly
open Tandem.DGTopo

/-- If the local functions commute with a linear combination, so does the right-hand side of a rank. -/
theorem rhs_combine {V : Type} [AddCommGroup V] [Module ℝ V] (v : View) (o o1 o2 : LocalRhs V) (c1 c2 : ℝ)
    (hv : ∀ e x y, o.volume e (c1 • x + c2 • y) = c1 • o1.volume e x + c2 • o2.volume e y)
    (hs : ∀ f i s x y, o.skeleton f i s (c1 • x + c2 • y) = c1 • o1.skeleton f i s x + c2 • o2.skeleton f i s y)
    (hb : ∀ f i x y, o.boundary f i (c1 • x + c2 • y) = c1 • o1.boundary f i x + c2 • o2.boundary f i y)
    {B B1 B2 : ℕ → V} (h : rhs v o 0 = some B) (h1 : rhs v o1 0 = some B1) (h2 : rhs v o2 0 = some B2) (u : ℕ) :
    B u = c1 • B1 u + c2 • B2 u := by
  unfold rhs at h h1 h2
  cases hm : (List.range v.numLocalFacets).mapM (fun f => (facetInfo v f).map (fun i => (f, i))) with
  | none => rw [hm] at h; cases h
  | some infos =>
    rw [hm] at h h1 h2
    have upd : ∀ (x y : ℕ → V) (z : ℕ → V), (∀ u, z u = c1 • x u + c2 • y u) → ∀ e (a b c : V), c = c1 • a + c2 • b →
        ∀ u, Function.update z e c u = c1 • Function.update x e a u + c2 • Function.update y e b u := by
      intro x y z hz e a b c hc u
      by_cases hu : u = e
      · subst hu; simp [hc]
      · simp [Function.update_of_ne hu, hz]
    have step1 : ∀ (es : List ℕ) (x y z : ℕ → V), (∀ u, z u = c1 • x u + c2 • y u) → ∀ u,
        es.foldl (fun b e => Function.update b e (o.volume e (b e))) z u =
          c1 • es.foldl (fun b e => Function.update b e (o1.volume e (b e))) x u + c2 • es.foldl (fun b e => Function.update b e (o2.volume e (b e))) y u := by
      intro es
      induction es with
      | nil => intro x y z hz; exact hz
      | cons e es ih =>
        intro x y z hz
        simp only [List.foldl_cons]
        exact ih _ _ _ (upd x y z hz e _ _ _ (by rw [hz e, hv]))
    have step2 : ∀ (es : List (ℕ × FacetInfo)) (x y z : ℕ → V), (∀ u, z u = c1 • x u + c2 • y u) → ∀ u,
        es.foldl (fun b p => rhsFacet o p.1 p.2 b) z u =
          c1 • es.foldl (fun b p => rhsFacet o1 p.1 p.2 b) x u + c2 • es.foldl (fun b p => rhsFacet o2 p.1 p.2 b) y u := by
      intro es
      induction es with
      | nil => intro x y z hz; exact hz
      | cons e es ih =>
        intro x y z hz
        simp only [List.foldl_cons]
        refine ih _ _ _ ?_
        unfold rhsFacet
        by_cases hne : e.2.up0 ≠ e.2.up1
        · simp only [if_pos hne]
          have first : ∀ u, (if e.2.inside0 = true then Function.update z e.2.up0 (o.skeleton e.1 e.2 0 (z e.2.up0)) else z) u =
              c1 • (if e.2.inside0 = true then Function.update x e.2.up0 (o1.skeleton e.1 e.2 0 (x e.2.up0)) else x) u +
              c2 • (if e.2.inside0 = true then Function.update y e.2.up0 (o2.skeleton e.1 e.2 0 (y e.2.up0)) else y) u := by
            split
            · exact upd x y z hz _ _ _ _ (by rw [hz, hs])
            · exact hz
          split
          · exact upd _ _ _ first _ _ _ _ (by rw [first, hs])
          · exact first
        · simp only [if_neg hne]
          split
          · exact upd x y z hz _ _ _ _ (by rw [hz, hb])
          · exact hz
    have e0 := Option.some.inj h
    have e1 := Option.some.inj h1
    have e2 := Option.some.inj h2
    rw [← e0, ← e1, ← e2]
    exact step2 _ _ _ _ (step1 _ _ _ _ (fun u => by simp)) u

end Tandem.DGAssembly

namespace Tandem.Elasticity
open Tandem.DGTopo Tandem.DGAssembly
variable {dim Nbf Nbm Nq nq : ℕ}

/-- The data `d` are a linear combination of `d1` and `d2`; data that are not set count as zero. -/
structure Combined (c1 c2 : ℝ) (d d1 d2 : Data dim Nq nq) : Prop where
  force : d.force = none ∧ d1.force = none ∧ d2.force = none
  slip : d.slip.getD 0 = c1 • d1.slip.getD 0 + c2 • d2.slip.getD 0
  dirichlet : d.dirichlet.getD 0 = c1 • d1.dirichlet.getD 0 + c2 • d2.dirichlet.getD 0

theorem bcSkeleton_getD (d : Data dim Nq nq) (f bc : ℕ) : (bcSkeleton d f bc).getD 0 =
    if bc = bcFault then d.slip.getD 0 f false else if bc = bcDirichlet then d.dirichlet.getD 0 f false else 0 := by
  unfold bcSkeleton
  cases hs : d.slip <;> cases hd : d.dirichlet <;> by_cases h : bc = bcFault <;> by_cases h' : bc = bcDirichlet <;>
    simp_all [bcFault, bcDirichlet]

theorem bcBoundary_getD (d : Data dim Nq nq) (f bc : ℕ) : (bcBoundary d f bc).getD 0 =
    if bc = bcFault then (fun p q => d.slip.getD 0 f true p q * 0.5) else if bc = bcDirichlet then d.dirichlet.getD 0 f true else 0 := by
  unfold bcBoundary
  cases hs : d.slip <;> cases hd : d.dirichlet <;> by_cases h : bc = bcFault <;> by_cases h' : bc = bcDirichlet <;>
    simp_all [bcFault, bcDirichlet] <;> rfl

theorem bcSkeleton_combine {c1 c2 : ℝ} {d d1 d2 : Data dim Nq nq} (h : Combined c1 c2 d d1 d2) (f bc : ℕ) :
    (bcSkeleton d f bc).getD 0 = c1 • (bcSkeleton d1 f bc).getD 0 + c2 • (bcSkeleton d2 f bc).getD 0 := by
  simp only [bcSkeleton_getD, h.slip, h.dirichlet]
  split
  · rfl
  · split
    · rfl
    · simp

theorem bcBoundary_combine {c1 c2 : ℝ} {d d1 d2 : Data dim Nq nq} (h : Combined c1 c2 d d1 d2) (f bc : ℕ) :
    (bcBoundary d f bc).getD 0 = c1 • (bcBoundary d1 f bc).getD 0 + c2 • (bcBoundary d2 f bc).getD 0 := by
  simp only [bcBoundary_getD, h.slip, h.dirichlet]
  split
  · funext p q; simp only [Pi.add_apply, Pi.smul_apply, smul_eq_mul]; ring
  · split
    · rfl
    · simp

theorem kTractionTest_combine (c1 c2 : ℝ) (lam mu : Fin nq → ℝ) (Dx : Fin Nbf → Fin dim → Fin nq → ℝ) (n x y : Fin dim → Fin nq → ℝ) :
    kTractionTest lam mu Dx n (c1 • x + c2 • y) = c1 • kTractionTest lam mu Dx n x + c2 • kTractionTest lam mu Dx n y := by
  funext k p q
  simp only [kTractionTest, Pi.add_apply, Pi.smul_apply, smul_eq_mul]
  have h : ∀ (a : Fin dim → ℝ) (b1 b2 : Fin dim → ℝ), ∑ i, a i * (c1 * b1 i + c2 * b2 i) = c1 * ∑ i, a i * b1 i + c2 * ∑ i, a i * b2 i := by
    intro a b1 b2
    rw [Finset.mul_sum, Finset.mul_sum, ← Finset.sum_add_distrib]
    exact Finset.sum_congr rfl fun i _ => by ring
  have e1 := h (fun i => lam q * Dx k p q * n i q) (fun i => x i q) (fun i => y i q)
  have e2 := h (fun i => Dx k i q * n i q) (fun _ => x p q) (fun _ => y p q)
  have e3 := h (fun i => Dx k i q * n p q) (fun i => x i q) (fun i => y i q)
  have g1 : ∀ z : Fin dim → ℝ, ∑ i, lam q * Dx k p q * z i * n i q = ∑ i, lam q * Dx k p q * n i q * z i := fun z => Finset.sum_congr rfl fun i _ => by ring
  have g2 : ∀ z : Fin dim → ℝ, ∑ i, Dx k i q * z i * n i q = ∑ i, Dx k i q * n i q * z i := fun z => Finset.sum_congr rfl fun i _ => by ring
  have g3 : ∀ z : Fin dim → ℝ, ∑ i, Dx k i q * z i * n p q = ∑ i, Dx k i q * n p q * z i := fun z => Finset.sum_congr rfl fun i _ => by ring
  rw [g1 (fun i => c1 * x i q + c2 * y i q), g1 (fun i => x i q), g1 (fun i => y i q), g2 (fun _ => c1 * x p q + c2 * y p q), g2 (fun _ => x p q), g2 (fun _ => y p q),
    g3 (fun i => c1 * x i q + c2 * y i q), g3 (fun i => x i q), g3 (fun i => y i q), e1, e2, e3]
  ring

theorem kRhsFacet_combine (c1 c2 α β : ℝ) (w lam mu : Fin nq → ℝ) (g : Fin dim → Fin dim → Fin nq → ℝ) (Dxi : Fin Nbf → Fin dim → Fin nq → ℝ)
    (n : Fin dim → Fin nq → ℝ) (E : Fin Nbf → Fin nq → ℝ) (f1 f2 l1 l2 : Fin dim → Fin nq → ℝ) (b1 b2 : Fin Nbf → Fin dim → ℝ) :
    kRhsFacet α β w lam mu g Dxi n E (c1 • f1 + c2 • f2) (c1 • l1 + c2 • l2) (c1 • b1 + c2 • b2) =
      c1 • kRhsFacet α β w lam mu g Dxi n E f1 l1 b1 + c2 • kRhsFacet α β w lam mu g Dxi n E f2 l2 b2 := by
  funext k p
  simp only [kRhsFacet, kTractionTest_combine, Pi.add_apply, Pi.smul_apply, smul_eq_mul]
  have e1 : ∑ q, α * (c1 * kTractionTest lam mu (kDx g Dxi) n f1 k p q + c2 * kTractionTest lam mu (kDx g Dxi) n f2 k p q) * w q =
      c1 * ∑ q, α * kTractionTest lam mu (kDx g Dxi) n f1 k p q * w q + c2 * ∑ q, α * kTractionTest lam mu (kDx g Dxi) n f2 k p q * w q := by
    rw [Finset.mul_sum, Finset.mul_sum, ← Finset.sum_add_distrib]
    exact Finset.sum_congr rfl fun i _ => by ring
  have e2 : ∑ q, β * w q * E k q * (c1 * l1 p q + c2 * l2 p q) = c1 * ∑ q, β * w q * E k q * l1 p q + c2 * ∑ q, β * w q * E k q * l2 p q := by
    rw [Finset.mul_sum, Finset.mul_sum, ← Finset.sum_add_distrib]
    exact Finset.sum_congr rfl fun i _ => by ring
  rw [e1, e2]; ring

theorem kRhsFacet_zero (α β : ℝ) (w lam mu : Fin nq → ℝ) (g : Fin dim → Fin dim → Fin nq → ℝ) (Dxi : Fin Nbf → Fin dim → Fin nq → ℝ)
    (n : Fin dim → Fin nq → ℝ) (E : Fin Nbf → Fin nq → ℝ) (b : Fin Nbf → Fin dim → ℝ) : kRhsFacet α β w lam mu g Dxi n E 0 0 b = b := by
  funext k p; simp [kRhsFacet, kTractionTest]

theorem rhsSkeleton_lin (o : Op dim Nbf Nbm Nq nq) (hm : o.method = .IP) (d : Data dim Nq nq) (f : ℕ) (i : FacetInfo) (s : Fin 2) (b : Fin Nbf → Fin dim → ℝ) :
    o.rhsSkeleton d f i s b = kRhsFacet (0.5 * epsilon) (if s = 0 then o.penalty f else o.penalty f * -1) o.ref.w (o.lamq i s) (o.muq i s)
      (o.JInv f s) (o.ref.Dxi_q (localNoOf i s)) (o.n_q f) (o.Es i s) ((bcSkeleton d f i.bc).getD 0) (kRhsLiftIp (o.nl_q f) ((bcSkeleton d f i.bc).getD 0)) b := by
  unfold Op.rhsSkeleton Op.rhsSkeletonLift
  rw [hm]
  cases bcSkeleton d f i.bc with
  | none =>
    have : kRhsLiftIp (o.nl_q f) (0 : Fin dim → Fin nq → ℝ) = 0 := by funext p q; simp [kRhsLiftIp]
    simp only [Option.getD_none, this, kRhsFacet_zero]
  | some g => rfl

theorem rhsBoundary_lin (o : Op dim Nbf Nbm Nq nq) (hm : o.method = .IP) (d : Data dim Nq nq) (f : ℕ) (i : FacetInfo) (b : Fin Nbf → Fin dim → ℝ) :
    o.rhsBoundary d f i b = kRhsFacet epsilon (o.penalty f) o.ref.w (o.lamq i 0) (o.muq i 0) (o.JInv f 0) (o.ref.Dxi_q (localNoOf i 0))
      (o.n_q f) (o.Es i 0) ((bcBoundary d f i.bc).getD 0) (kRhsLiftIp (o.nl_q f) ((bcBoundary d f i.bc).getD 0)) b := by
  unfold Op.rhsBoundary Op.rhsBoundaryLift
  rw [hm]
  cases bcBoundary d f i.bc with
  | none =>
    have : kRhsLiftIp (o.nl_q f) (0 : Fin dim → Fin nq → ℝ) = 0 := by funext p q; simp [kRhsLiftIp]
    simp only [Option.getD_none, this, kRhsFacet_zero]
  | some g => rfl

theorem kRhsLiftIp_combine (c1 c2 : ℝ) (nl : Fin nq → ℝ) (x y : Fin dim → Fin nq → ℝ) :
    kRhsLiftIp nl (c1 • x + c2 • y) = c1 • kRhsLiftIp nl x + c2 • kRhsLiftIp nl y := by
  funext p q; simp only [kRhsLiftIp, Pi.add_apply, Pi.smul_apply, smul_eq_mul]; ring

/-- The right-hand side is linear in the data. -/
theorem rhs_superposition (v : View) (o : Op dim Nbf Nbm Nq nq) (hm : o.method = .IP) {c1 c2 : ℝ} {d d1 d2 : Data dim Nq nq} (h : Combined c1 c2 d d1 d2)
    {B B1 B2 : ℕ → Fin Nbf → Fin dim → ℝ} (h0 : rhs v (o.localRhs d) 0 = some B) (h1 : rhs v (o.localRhs d1) 0 = some B1)
    (h2 : rhs v (o.localRhs d2) 0 = some B2) (u : ℕ) : B u = c1 • B1 u + c2 • B2 u := by
  refine rhs_combine v _ _ _ c1 c2 (fun e x y => ?_) (fun f i s x y => ?_) (fun f i x y => ?_) h0 h1 h2 u
  · simp only [Op.localRhs, Op.rhsVolume, h.force.1, h.force.2.1, h.force.2.2]
  · simp only [Op.localRhs, rhsSkeleton_lin o hm]
    rw [bcSkeleton_combine h, kRhsLiftIp_combine, kRhsFacet_combine]
  · simp only [Op.localRhs, rhsBoundary_lin o hm]
    rw [bcBoundary_combine h, kRhsLiftIp_combine, kRhsFacet_combine]

theorem kTraction_combine (c1 c2 : ℝ) (lam mu : Fin nq → ℝ) (Dx : Fin Nbf → Fin dim → Fin nq → ℝ) (n : Fin dim → Fin nq → ℝ) (x y : Fin Nbf → Fin dim → ℝ)
    (p : Fin dim) (q : Fin nq) :
    kTraction lam mu Dx n (c1 • x + c2 • y) p q = c1 * kTraction lam mu Dx n x p q + c2 * kTraction lam mu Dx n y p q := by
  simp only [kTraction, Pi.add_apply, Pi.smul_apply, smul_eq_mul]
  have e : ∀ (A : Fin Nbf → Fin dim → ℝ) (z1 z2 : Fin Nbf → Fin dim → ℝ) (m : Fin dim → ℝ), ∑ l, ∑ s, A l s * (c1 * z1 l s + c2 * z2 l s) * m s =
      c1 * ∑ l, ∑ s, A l s * z1 l s * m s + c2 * ∑ l, ∑ s, A l s * z2 l s * m s := by
    intro A z1 z2 m
    simp only [Finset.mul_sum, ← Finset.sum_add_distrib]
    exact Finset.sum_congr rfl fun l _ => Finset.sum_congr rfl fun s _ => by ring
  rw [e (fun l s => lam q * Dx l s q) x y (fun _ => n p q), e (fun l j => Dx l j q) (fun l _ => x l p) (fun l _ => y l p) (fun j => n j q),
    e (fun l _ => Dx l p q) x y (fun j => n j q)]
  ring

theorem val_combine (c1 c2 : ℝ) (E : Fin Nbf → Fin nq → ℝ) (x y : Fin Nbf → Fin dim → ℝ) (p : Fin dim) (q : Fin nq) :
    ∑ l, E l q * (c1 • x + c2 • y) l p = c1 * ∑ l, E l q * x l p + c2 * ∑ l, E l q * y l p := by
  simp only [Finset.mul_sum, ← Finset.sum_add_distrib, Pi.add_apply, Pi.smul_apply, smul_eq_mul]
  exact Finset.sum_congr rfl fun l _ => by ring

/-- The traction at a fault facet is linear in data and displacement. -/
theorem tractionSkeleton_combine (o : Op dim Nbf Nbm Nq nq) {c1 c2 : ℝ} {d d1 d2 : Data dim Nq nq} (h : Combined c1 c2 d d1 d2)
    (hs : d.slip.isSome ∧ d1.slip.isSome ∧ d2.slip.isSome) (f : ℕ) (i : FacetInfo) (hbc : i.bc = bcFault) (junk junk1 junk2 : Fin dim → Fin nq → ℝ)
    (x0 x1 y0 y1 : Fin Nbf → Fin dim → ℝ) :
    o.tractionSkeleton d junk f i (c1 • x0 + c2 • y0) (c1 • x1 + c2 • y1) =
      c1 • o.tractionSkeleton d1 junk1 f i x0 x1 + c2 • o.tractionSkeleton d2 junk2 f i y0 y1 := by
  have hj : ∀ (d : Data dim Nq nq) (j : Fin dim → Fin nq → ℝ), d.slip.isSome → (bcSkeleton d f i.bc).getD j = (bcSkeleton d f i.bc).getD 0 := by
    intro d j hd
    obtain ⟨g, hg⟩ := Option.isSome_iff_exists.1 hd
    unfold bcSkeleton
    rw [if_pos ⟨hbc, hd⟩, hg]; rfl
  unfold Op.tractionSkeleton
  rw [hj d _ hs.1, hj d1 _ hs.2.1, hj d2 _ hs.2.2, bcSkeleton_combine h]
  funext p q
  simp only [kComputeTraction, kTraction_combine, val_combine]
  simp only [Pi.add_apply, Pi.smul_apply, smul_eq_mul, kComputeTraction]
  ring

/-- The traction at a fault facet on the boundary is linear in data and displacement. -/
theorem tractionBoundary_combine (o : Op dim Nbf Nbm Nq nq) {c1 c2 : ℝ} {d d1 d2 : Data dim Nq nq} (h : Combined c1 c2 d d1 d2)
    (hs : d.slip.isSome ∧ d1.slip.isSome ∧ d2.slip.isSome) (f : ℕ) (i : FacetInfo) (hbc : i.bc = bcFault) (junk junk1 junk2 : Fin dim → Fin nq → ℝ)
    (x0 y0 : Fin Nbf → Fin dim → ℝ) :
    o.tractionBoundary d junk f i (c1 • x0 + c2 • y0) = c1 • o.tractionBoundary d1 junk1 f i x0 + c2 • o.tractionBoundary d2 junk2 f i y0 := by
  have hj : ∀ (d : Data dim Nq nq) (j : Fin dim → Fin nq → ℝ), d.slip.isSome → (bcBoundary d f i.bc).getD j = (bcBoundary d f i.bc).getD 0 := by
    intro d j hd
    obtain ⟨g, hg⟩ := Option.isSome_iff_exists.1 hd
    unfold bcBoundary
    rw [if_pos ⟨hbc, hd⟩, hg]; rfl
  unfold Op.tractionBoundary
  rw [hj d _ hs.1, hj d1 _ hs.2.1, hj d2 _ hs.2.2, bcBoundary_combine h]
  funext p q
  simp only [kComputeTractionBnd, kTraction_combine, val_combine]
  simp only [Pi.add_apply, Pi.smul_apply, smul_eq_mul, kComputeTractionBnd]
  ring

end Tandem.Elasticity

namespace Tandem.Poisson
open Tandem.DGTopo Tandem.DGAssembly
variable {dim Nbf Nbm Nq nq : ℕ}

/-- The data `d` are a linear combination of `d1` and `d2`; there is no body force. -/
structure Combined (c1 c2 : ℝ) (d d1 d2 : Data Nq nq) : Prop where
  force : d.force = 0 ∧ d1.force = 0 ∧ d2.force = 0
  slip : d.slip = c1 • d1.slip + c2 • d2.slip
  dirichlet : d.dirichlet = c1 • d1.dirichlet + c2 • d2.dirichlet

theorem bcSkeleton_combine {c1 c2 : ℝ} {d d1 d2 : Data Nq nq} (h : Combined c1 c2 d d1 d2) (f bc : ℕ) :
    (bcSkeleton d f bc).getD 0 = c1 • (bcSkeleton d1 f bc).getD 0 + c2 • (bcSkeleton d2 f bc).getD 0 := by
  unfold bcSkeleton
  rw [h.slip, h.dirichlet]
  split
  · rfl
  · split
    · rfl
    · simp

theorem bcBoundary_combine {c1 c2 : ℝ} {d d1 d2 : Data Nq nq} (h : Combined c1 c2 d d1 d2) (f bc : ℕ) :
    (bcBoundary d f bc).getD 0 = c1 • (bcBoundary d1 f bc).getD 0 + c2 • (bcBoundary d2 f bc).getD 0 := by
  unfold bcBoundary
  rw [h.slip, h.dirichlet]
  split
  · funext q
    simp only [Option.getD_some, Pi.add_apply, Pi.smul_apply, smul_eq_mul]; ring
  · split
    · rfl
    · simp

theorem kRhsFacet_combine (c1 c2 α β : ℝ) (w : Fin nq → ℝ) (A : Fin Nbf → Fin dim → Fin nq → ℝ)
    (n : Fin dim → Fin nq → ℝ) (E : Fin Nbf → Fin nq → ℝ) (f1 f2 l1 l2 : Fin nq → ℝ) (b1 b2 : Fin Nbf → ℝ) :
    kRhsFacet α β w A n E (c1 • f1 + c2 • f2) (c1 • l1 + c2 • l2) (c1 • b1 + c2 • b2) =
      c1 • kRhsFacet α β w A n E f1 l1 b1 + c2 • kRhsFacet α β w A n E f2 l2 b2 := by
  funext k
  simp only [kRhsFacet, Pi.add_apply, Pi.smul_apply, smul_eq_mul]
  have e1 : ∑ q, ∑ i, α * w q * A k i q * n i q * (c1 * f1 q + c2 * f2 q) =
      c1 * ∑ q, ∑ i, α * w q * A k i q * n i q * f1 q + c2 * ∑ q, ∑ i, α * w q * A k i q * n i q * f2 q := by
    simp only [Finset.mul_sum, ← Finset.sum_add_distrib]
    exact Finset.sum_congr rfl fun i _ => Finset.sum_congr rfl fun j _ => by ring
  have e2 : ∑ q, β * w q * E k q * (c1 * l1 q + c2 * l2 q) = c1 * ∑ q, β * w q * E k q * l1 q + c2 * ∑ q, β * w q * E k q * l2 q := by
    simp only [Finset.mul_sum, ← Finset.sum_add_distrib]
    exact Finset.sum_congr rfl fun i _ => by ring
  rw [e1, e2]; ring

theorem kRhsFacet_zero (α β : ℝ) (w : Fin nq → ℝ) (A : Fin Nbf → Fin dim → Fin nq → ℝ)
    (n : Fin dim → Fin nq → ℝ) (E : Fin Nbf → Fin nq → ℝ) (b : Fin Nbf → ℝ) : kRhsFacet α β w A n E 0 0 b = b := by
  funext k; simp [kRhsFacet]

theorem rhsSkeleton_lin (o : Op dim Nbf Nbm Nq nq) (hm : o.method = .IP) (d : Data Nq nq) (f : ℕ) (i : FacetInfo) (s : Fin 2) (b : Fin Nbf → ℝ) :
    o.rhsSkeleton d f i s b = kRhsFacet (0.5 * epsilon) (if s = 0 then o.penalty f else o.penalty f * -1) o.ref.w (o.KDx f i s) (o.n_q f) (o.Es i s)
      ((bcSkeleton d f i.bc).getD 0) (kRhsLiftIp (o.nl_q f) ((bcSkeleton d f i.bc).getD 0)) b := by
  unfold Op.rhsSkeleton Op.rhsSkeletonLift
  rw [hm]
  cases bcSkeleton d f i.bc with
  | none =>
    have : kRhsLiftIp (o.nl_q f) (0 : Fin nq → ℝ) = 0 := by funext q; simp [kRhsLiftIp]
    simp only [Option.getD_none, this, kRhsFacet_zero]
  | some g => rfl

theorem rhsBoundary_lin (o : Op dim Nbf Nbm Nq nq) (hm : o.method = .IP) (d : Data Nq nq) (f : ℕ) (i : FacetInfo) (b : Fin Nbf → ℝ) :
    o.rhsBoundary d f i b = kRhsFacet epsilon (o.penalty f) o.ref.w (o.KDx f i 0) (o.n_q f) (o.Es i 0)
      ((bcBoundary d f i.bc).getD 0) (kRhsLiftIp (o.nl_q f) ((bcBoundary d f i.bc).getD 0)) b := by
  unfold Op.rhsBoundary Op.rhsBoundaryLift
  rw [hm]
  cases bcBoundary d f i.bc with
  | none =>
    have : kRhsLiftIp (o.nl_q f) (0 : Fin nq → ℝ) = 0 := by funext q; simp [kRhsLiftIp]
    simp only [Option.getD_none, this, kRhsFacet_zero]
  | some g => rfl

theorem kRhsLiftIp_combine (c1 c2 : ℝ) (nl x y : Fin nq → ℝ) :
    kRhsLiftIp nl (c1 • x + c2 • y) = c1 • kRhsLiftIp nl x + c2 • kRhsLiftIp nl y := by
  funext q; simp only [kRhsLiftIp, Pi.add_apply, Pi.smul_apply, smul_eq_mul]; ring

/-- The right-hand side is linear in the data. -/
theorem rhs_superposition (v : View) (o : Op dim Nbf Nbm Nq nq) (hm : o.method = .IP) {c1 c2 : ℝ} {d d1 d2 : Data Nq nq} (h : Combined c1 c2 d d1 d2)
    {B B1 B2 : ℕ → Fin Nbf → ℝ} (h0 : rhs v (o.localRhs d) 0 = some B) (h1 : rhs v (o.localRhs d1) 0 = some B1)
    (h2 : rhs v (o.localRhs d2) 0 = some B2) (u : ℕ) : B u = c1 • B1 u + c2 • B2 u := by
  refine rhs_combine v _ _ _ c1 c2 (fun e x y => ?_) (fun f i s x y => ?_) (fun f i x y => ?_) h0 h1 h2 u
  · simp only [Op.localRhs, Op.rhsVolume, h.force.1, h.force.2.1, h.force.2.2]
    funext k; simp [kRhsVolume]
  · simp only [Op.localRhs, rhsSkeleton_lin o hm]
    rw [bcSkeleton_combine h, kRhsLiftIp_combine, kRhsFacet_combine]
  · simp only [Op.localRhs, rhsBoundary_lin o hm]
    rw [bcBoundary_combine h, kRhsLiftIp_combine, kRhsFacet_combine]

theorem sum_combine (c1 c2 : ℝ) (E x y : Fin Nbf → ℝ) :
    ∑ l, E l * (c1 • x + c2 • y) l = c1 * ∑ l, E l * x l + c2 * ∑ l, E l * y l := by
  simp only [Finset.mul_sum, ← Finset.sum_add_distrib, Pi.add_apply, Pi.smul_apply, smul_eq_mul]
  exact Finset.sum_congr rfl fun l _ => by ring

/-- The traction at a fault facet is linear in data and displacement. -/
theorem tractionSkeleton_combine (o : Op dim Nbf Nbm Nq nq) {c1 c2 : ℝ} {d d1 d2 : Data Nq nq} (h : Combined c1 c2 d d1 d2)
    (f : ℕ) (i : FacetInfo) (hbc : i.bc = bcFault) (junk junk1 junk2 : Fin nq → ℝ) (x0 x1 y0 y1 : Fin Nbf → ℝ) :
    o.tractionSkeleton d junk f i (c1 • x0 + c2 • y0) (c1 • x1 + c2 • y1) =
      c1 • o.tractionSkeleton d1 junk1 f i x0 x1 + c2 • o.tractionSkeleton d2 junk2 f i y0 y1 := by
  have hj : ∀ (d : Data Nq nq) (j : Fin nq → ℝ), (bcSkeleton d f i.bc).getD j = (bcSkeleton d f i.bc).getD 0 := by
    intro d j; unfold bcSkeleton; rw [if_pos hbc]; rfl
  unfold Op.tractionSkeleton
  rw [hj d, hj d1, hj d2, bcSkeleton_combine h]
  funext p q
  simp only [kGradU, sum_combine (Nbf := Nbf) c1 c2 (fun l => o.KDx f i 0 l p q), sum_combine (Nbf := Nbf) c1 c2 (fun l => o.KDx f i 1 l p q),
    sum_combine (Nbf := Nbf) c1 c2 (fun l => o.Es i 0 l q), sum_combine (Nbf := Nbf) c1 c2 (fun l => o.Es i 1 l q)]
  simp only [Pi.add_apply, Pi.smul_apply, smul_eq_mul, kGradU]
  ring

/-- The traction at a fault facet on the boundary is linear in data and displacement. -/
theorem tractionBoundary_combine (o : Op dim Nbf Nbm Nq nq) {c1 c2 : ℝ} {d d1 d2 : Data Nq nq} (h : Combined c1 c2 d d1 d2)
    (f : ℕ) (i : FacetInfo) (hbc : i.bc = bcFault) (junk junk1 junk2 : Fin nq → ℝ) (x0 y0 : Fin Nbf → ℝ) :
    o.tractionBoundary d junk f i (c1 • x0 + c2 • y0) = c1 • o.tractionBoundary d1 junk1 f i x0 + c2 • o.tractionBoundary d2 junk2 f i y0 := by
  have hj : ∀ (d : Data Nq nq) (j : Fin nq → ℝ), (bcBoundary d f i.bc).getD j = (bcBoundary d f i.bc).getD 0 := by
    intro d j; unfold bcBoundary; rw [if_pos hbc]; rfl
  unfold Op.tractionBoundary
  rw [hj d, hj d1, hj d2, bcBoundary_combine h]
  funext p q
  simp only [kGradUBnd, sum_combine (Nbf := Nbf) c1 c2 (fun l => o.KDx f i 0 l p q), sum_combine (Nbf := Nbf) c1 c2 (fun l => o.Es i 0 l q)]
  simp only [Pi.add_apply, Pi.smul_apply, smul_eq_mul, kGradUBnd]
  ring

end Tandem.Poisson
