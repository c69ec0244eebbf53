import Verif.Lemmas.Elasticity
import Verif.Lemmas.Residual
import Verif.Spec.Wave
import Mathlib.LinearAlgebra.Matrix.NonsingularInverse
/-! # Properties C70, C81 for the elasticity operator -/
namespace Tandem.Elasticity
open Tandem.DGTopo Tandem.Spec
open Tandem.DGAssembly
open Tandem.Poisson (Method normalLength unitNormal normal_dot_unit)

variable {dim Nbf Nbm Nq nq : Nat}

/-- The data seen by `apply_`: no body force, and no boundary data without `WithRHS`. -/
def seen (withRHS : Bool) (d : Data dim Nq nq) : Data dim Nq nq :=
  if withRHS then ⟨none, d.dirichlet, d.slip⟩ else ⟨none, none, none⟩

theorem seen_skeleton (withRHS : Bool) (d : Data dim Nq nq) (f bc : Nat) :
    (if withRHS then bcSkeleton d f bc else none) = bcSkeleton (seen withRHS d) f bc := by
  unfold seen
  cases withRHS
  · simp [bcSkeleton]
  · simp [bcSkeleton]

theorem seen_boundary (withRHS : Bool) (d : Data dim Nq nq) (f bc : Nat) :
    (if withRHS then bcBoundary d f bc else none) = bcBoundary (seen withRHS d) f bc := by
  unfold seen
  cases withRHS
  · simp [bcBoundary]
  · simp [bcBoundary]

theorem flux_skeleton (o : Op dim Nbf Nbm Nq nq) (withRHS : Bool) (d : Data dim Nq nq) (pre0 pre1 : SidePre dim nq)
    (nu : Fin dim → Fin nq → ℝ) (isSkeleton : Bool) (f : Nat) (info : SideInfo) (x0 xn : Fin Nbf → Fin dim → ℝ)
    (h : info.bc = bcNone ∨ (isSkeleton = true ∧ (info.bc = bcFault ∨ info.bc = bcDirichlet))) :
    o.fluxes withRHS d pre0 pre1 nu isSkeleton f info x0 xn =
      some (kFluxUAddBc (0.5 * (if info.side = 1 then -1 else 1)) (given (seen withRHS d) info.fctNo info.bc)
          (kFluxUSkeleton (o.ref.negative_E_q_T f) (o.ref.E_q_T info.localNo) x0 xn),
        kFluxSigmaAddBc ((if info.side = 1 then -1 else 1) * o.penalty info.fctNo) (given (seen withRHS d) info.fctNo info.bc) nu
          (kFluxSigmaSkeleton (-o.penalty info.fctNo) pre0.lam pre0.mu pre1.lam pre1.mu pre0.JInvT pre1.JInvT
      (o.ref.Dxi_q_120 f) (o.ref.Dxi_q_120 info.localNo) (o.ref.E_q_T f) (o.ref.negative_E_q_T info.localNo) nu x0 xn)) := by
  unfold Op.fluxes
  have hc : info.bc = bcNone ∨ (isSkeleton = true ∧ (decide (info.bc = bcFault ∨ info.bc = bcDirichlet) : Bool) = true) := by
    simpa using h
  simp only [hc, if_true]
  rw [seen_skeleton]
  unfold given
  cases bcSkeleton (seen withRHS d) info.fctNo info.bc with
  | none =>
    simp only [Option.getD_none]
    congr 2
    · funext q i; simp [kFluxUAddBc]
    · funext i j q; simp [kFluxSigmaAddBc]
  | some g => rfl

theorem flux_boundary (o : Op dim Nbf Nbm Nq nq) (withRHS : Bool) (d : Data dim Nq nq) (pre0 pre1 : SidePre dim nq)
    (nu : Fin dim → Fin nq → ℝ) (f : Nat) (info : SideInfo) (x0 xn : Fin Nbf → Fin dim → ℝ)
    (h : info.bc = bcFault ∨ info.bc = bcDirichlet) :
    o.fluxes withRHS d pre0 pre1 nu false f info x0 xn =
      some (kFluxUAddBc 1 (givenBnd (seen withRHS d) info.fctNo info.bc) (kFluxUBoundary (o.ref.negative_E_q_T f) x0),
        kFluxSigmaAddBc (o.penalty info.fctNo) (givenBnd (seen withRHS d) info.fctNo info.bc) nu
          (kFluxSigmaBoundary (-o.penalty info.fctNo) pre0.lam pre0.mu pre0.JInvT (o.ref.Dxi_q_120 f) (o.ref.E_q_T f) nu x0)) := by
  have hn : info.bc ≠ bcNone := by
    unfold bcNone; rcases h with h | h <;> rw [h] <;> decide
  unfold Op.fluxes
  simp only [hn, h, decide_true, Bool.false_eq_true, false_and, or_false, if_false, if_true]
  rw [seen_boundary]
  unfold givenBnd
  cases bcBoundary (seen withRHS d) info.fctNo info.bc with
  | none =>
    simp only [Option.getD_none]
    congr 2
    · funext q i; simp [kFluxUAddBc]
    · funext i j q; simp [kFluxSigmaAddBc]
  | some g => rfl

/-- Interior facet, interior penalty: the matrix-free flux term seen from side `s` is the residual of row `s`. -/
theorem applyFacet_skeleton (o : Op dim Nbf Nbm Nq nq) (hm : o.method = .IP) (withRHS : Bool) (d : Data dim Nq nq)
    (junk : Nat → SidePre dim nq)
    (f : Nat) (i : FacetInfo) (hne : i.up0 ≠ i.up1) (s : Fin 2) (hbc : i.bc = bcNone ∨ i.bc = bcFault ∨ i.bc = bcDirichlet)
    (x0 xn y : Fin Nbf → Fin dim → ℝ) :
    o.applyFacet withRHS d (o.fctPre junk f i) (upOf i s) (localNoOf i s)
      ⟨f, s.val, upOf i (1 - s), localNoOf i (1 - s), i.bc⟩ x0 xn y =
    y + (mulVec (o.assembleSkeleton f i s s) x0 + mulVec (o.assembleSkeleton f i s (1 - s)) xn -
      o.rhsSkeleton (seen withRHS d) f i s 0) := by
  have hup : upOf i s ≠ upOf i (1 - s) := by
    fin_cases s
    · simpa [upOf] using hne
    · simpa [upOf] using hne.symm
  have hK : ∀ t, o.fctPre junk f i t = ⟨o.lamq i t, o.muq i t, fun a b q => o.JInv f t b a q⟩ := by
    intro t; unfold Op.fctPre; rw [if_neg (fun h => hne h.1)]
  have hnn : ∀ q, ∑ r, o.n_q f r q * o.n_unit_q f r q = o.nl_q f q := normal_dot_unit _
  have hlift : ∀ g p q, o.rhsSkeletonLift f i g p q = g p q * o.nl_q f q := by
    intro g p q; unfold Op.rhsSkeletonLift; simp only [hm, kRhsLiftIp]
  funext k p
  unfold Op.applyFacet
  have hc : ∀ b : Bool, b = true → (i.bc = bcNone ∨ (b = true ∧ (i.bc = bcFault ∨ i.bc = bcDirichlet))) := by
    intro b hb
    rcases hbc with h | h
    · exact Or.inl h
    · exact Or.inr ⟨hb, h⟩
  have hd1 : (decide (upOf i s ≠ upOf i (1 - s)) : Bool) = true := by simpa using hup
  simp only
  rw [flux_skeleton (h := by simpa using hc _ hd1)]
  simp only [Pi.add_apply, Pi.sub_apply]
  fin_cases s
  · have := residual_skeleton o (seen withRHS d) f i 0 x0 xn k p
    simp only [Fin.zero_eta, Fin.isValue, sub_zero]
    rw [this]
    simp only [Fin.isValue, Nat.zero_ne_one, Fin.val_zero, and_false, decide_false, if_false, Bool.false_eq_true, hK]
    unfold negativeEq Poisson.Ref.negative_E_q_T Poisson.Ref.E_q_T Poisson.Ref.Dxi_q_120
    rw [applyFacet_eq]
    congr 1
    apply Finset.sum_congr rfl; intro q _
    rw [sigma_skeleton, hnn, hlift]
    unfold kFluxUAddBc kFluxUSkeleton
    have e : ∀ r, 0.5 * ((∑ l, -o.ref.E_q (localNoOf i 0) l q * x0 l r) + ∑ l, o.ref.E_q (localNoOf i 1) l q * xn l r) +
        0.5 * 1 * given (seen withRHS d) f i.bc r q = -0.5 * (val (o.Es i 0) x0 r q - val (o.Es i 1) xn r q - given (seen withRHS d) f i.bc r q) := by
      intro r; rw [neg_val]; unfold val Op.Es; ring
    simp only [e]
    have e2 : ∀ r, kTractionOp (o.lamq i 0) (o.muq i 0) (kDx (o.JInv f 0) (o.ref.Dxi_q (localNoOf i 0))) (o.n_q f) k p r q = o.T f i 0 k p r q := fun r => rfl
    have e3 : ∀ r (z : ℝ), o.T f i 0 k p r q * (-0.5 * z) = -0.5 * (o.T f i 0 k p r q * z) := by intro r z; ring
    simp only [e2, e3, ← Finset.mul_sum]
    simp only [sgn, Op.tracs, Op.Dx, Op.Es, if_true]
    ring
  · have := residual_skeleton o (seen withRHS d) f i 1 xn x0 k p
    have e10 : (1 : Fin 2) - 1 = 0 := rfl
    have hd2 : (decide (upOf i 1 ≠ upOf i 0) : Bool) = true := hd1
    simp only [Fin.mk_one, Fin.isValue, e10] at *
    rw [add_comm (mulVec (o.assembleSkeleton f i 1 1) x0 k p), this]
    simp only [Fin.isValue, Fin.val_one, hd2, and_true, decide_true, if_true, hK]
    unfold negativeEq Poisson.Ref.negative_E_q_T Poisson.Ref.E_q_T Poisson.Ref.Dxi_q_120
    rw [applyFacet_eq]
    congr 1
    apply Finset.sum_congr rfl; intro q _
    have e2 : ∑ r, -o.n_q f r q * -o.n_unit_q f r q = o.nl_q f q := by
      rw [← hnn]; apply Finset.sum_congr rfl; intro r _; ring
    rw [sigma_skeleton (n := fun i q => -o.n_q f i q), e2, hlift, trac_neg, trac_neg]
    simp only [op_neg]
    unfold kFluxUAddBc kFluxUSkeleton
    have e : ∀ r, 0.5 * ((∑ l, -o.ref.E_q (localNoOf i 1) l q * x0 l r) + ∑ l, o.ref.E_q (localNoOf i 0) l q * xn l r) +
        0.5 * -1 * given (seen withRHS d) f i.bc r q = 0.5 * (val (o.Es i 0) xn r q - val (o.Es i 1) x0 r q - given (seen withRHS d) f i.bc r q) := by
      intro r; rw [neg_val]; unfold val Op.Es; ring
    simp only [e]
    have e2 : ∀ r, kTractionOp (o.lamq i 1) (o.muq i 1) (kDx (o.JInv f 1) (o.ref.Dxi_q (localNoOf i 1))) (o.n_q f) k p r q = o.T f i 1 k p r q := fun r => rfl
    have e3 : ∀ r (z : ℝ), -o.T f i 1 k p r q * (0.5 * z) = -0.5 * (o.T f i 1 k p r q * z) := by intro r z; ring
    simp only [e2, e3, ← Finset.mul_sum]
    have hs : sgn 1 = -1 := by simp [sgn]
    simp only [hs, Op.tracs, Op.Dx, Op.Es]
    ring

/-- Boundary facet with displacement condition, interior penalty. -/
theorem applyFacet_boundary (o : Op dim Nbf Nbm Nq nq) (hm : o.method = .IP) (withRHS : Bool) (d : Data dim Nq nq)
    (junk : Nat → SidePre dim nq)
    (f side : Nat) (i : FacetInfo) (heq : i.up0 = i.up1) (hbc : i.bc = bcFault ∨ i.bc = bcDirichlet)
    (x0 xn y : Fin Nbf → Fin dim → ℝ) :
    ∃ A, o.assembleBoundary f i = some A ∧
    o.applyFacet withRHS d (o.fctPre junk f i) i.up0 i.localNo0 ⟨f, side, i.up0, i.localNo0, i.bc⟩ x0 xn y =
    y + (mulVec A x0 - o.rhsBoundary (seen withRHS d) f i 0) := by
  have hnat : i.bc ≠ bcNatural := by
    unfold bcNatural; rcases hbc with h | h <;> rw [h] <;> decide
  have hA : ∃ A, o.assembleBoundary f i = some A := ⟨_, by unfold Op.assembleBoundary; rw [if_neg hnat]⟩
  obtain ⟨A, hA⟩ := hA
  refine ⟨A, hA, ?_⟩
  funext k p
  simp only [Pi.add_apply, Pi.sub_apply]
  rw [residual_boundary o _ f i A hA]
  have hK : o.fctPre junk f i 0 = ⟨o.lamq i 0, o.muq i 0, fun a b q => o.JInv f 0 b a q⟩ := by
    unfold Op.fctPre; rw [if_neg (fun h => absurd h.2 (by decide))]
  have hnn : ∀ q, ∑ r, o.n_q f r q * o.n_unit_q f r q = o.nl_q f q := normal_dot_unit _
  have hlift : ∀ g p q, o.rhsBoundaryLift f i g p q = g p q * o.nl_q f q := by
    intro g p q; unfold Op.rhsBoundaryLift; simp only [hm, kRhsLiftIp]
  unfold Op.applyFacet
  simp only [ne_eq, not_true, decide_false, Bool.false_eq_true, false_and, if_false]
  rw [flux_boundary _ _ _ _ _ _ _ _ _ _ hbc, hK]
  simp only
  unfold negativeEq Poisson.Ref.negative_E_q_T Poisson.Ref.E_q_T Poisson.Ref.Dxi_q_120
  rw [applyFacet_eq]
  congr 1
  apply Finset.sum_congr rfl; intro q _
  rw [sigma_boundary, hnn, hlift]
  unfold kFluxUAddBc kFluxUBoundary
  have hl0 : localNoOf i 0 = i.localNo0 := rfl
  have e : ∀ r, (∑ l, -o.ref.E_q i.localNo0 l q * x0 l r) + 1 * givenBnd (seen withRHS d) f i.bc r q =
      -1 * (val (o.Es i 0) x0 r q - givenBnd (seen withRHS d) f i.bc r q) := by
    intro r; rw [neg_val]; unfold val Op.Es; rw [hl0]; ring
  simp only [e]
  have e2 : ∀ r, kTractionOp (o.lamq i 0) (o.muq i 0) (kDx (o.JInv f 0) (o.ref.Dxi_q i.localNo0)) (o.n_q f) k p r q = o.T f i 0 k p r q := fun r => rfl
  have e3 : ∀ r (z : ℝ), o.T f i 0 k p r q * (-1 * z) = -1 * (o.T f i 0 k p r q * z) := by intro r z; ring
  simp only [e2, e3, ← Finset.mul_sum]
  simp only [Op.tracs, Op.Dx, Op.Es, hl0]
  ring

theorem applyFacet_natural (o : Op dim Nbf Nbm Nq nq) (withRHS : Bool) (d : Data dim Nq nq) (pre : Fin 2 → SidePre dim nq)
    (u l : Nat) (s : SideInfo) (hbc : s.bc = bcNatural) (x0 xn y : Fin Nbf → Fin dim → ℝ) :
    o.applyFacet withRHS d pre u l s x0 xn y = y := by
  unfold Op.applyFacet Op.fluxes
  rw [hbc]
  have h1 : ¬ (bcNatural = bcNone) := by decide
  have h2 : ¬ (bcNatural = bcFault) := by decide
  have h3 : ¬ (bcNatural = bcDirichlet) := by decide
  simp [h1, h2, h3]

section
variable {P : Nat} {elems : Nat → List (List Nat)} {num fnum tag : List Nat → Nat} {views : Nat → View}

/-- What the precomputation of the matrix-free operator stores for facet `f` of a rank. -/
noncomputable def preOf (o : Op dim Nbf Nbm Nq nq) (v : View) (junk : Nat → SidePre dim nq) (f : Nat) : Fin 2 → SidePre dim nq :=
  o.fctPre junk f ((facetInfo v f).getD ⟨0, 0, 0, 0, 0, 0, false, false, 0⟩)

theorem rhsVolume_seen (o : Op dim Nbf Nbm Nq nq) (withRHS : Bool) (d : Data dim Nq nq) (e : Nat) (b : Fin Nbf → Fin dim → ℝ) :
    o.rhsVolume (seen withRHS d) e b = b + 0 := by
  unfold Op.rhsVolume seen
  cases withRHS <;> simp

theorem elasticity_local (hd : IsDistributed P dim elems num fnum tag views) (hbc : BCsFit P elems tag) (r : Nat) (hr : r < P)
    (o : Op dim Nbf Nbm Nq nq) (hm : o.method = .IP) (withRHS : Bool) (d : Data dim Nq nq) (junk : Nat → SidePre dim nq)
    (x : Nat → Fin Nbf → Fin dim → ℝ) :
    ∃ blocks b tbl, assemble (views r) o.localOp = some blocks ∧ rhs (views r) (o.localRhs (seen withRHS d)) 0 = some b ∧
      neighbourInfo (views r) (dim + 1) = some tbl ∧
      ∀ u, u < (elems r).length → ∃ row : List SideInfo, tbl[u]? = some (row.map some) ∧ row.length = dim + 1 ∧
        o.apply withRHS d (preOf o (views r) junk) u (x u) (row.map (fun s => (s, x s.lid))) = rowApply mulVec blocks x u - b u := by
  have hv := hd.view r hr
  obtain ⟨blocks, b, h1, h2, h3⟩ := residual_spec hd r hr o.localOp mulVec x (o.localRhs (seen withRHS d)) 0
    (fun f i s => o.rhsSkeleton (seen withRHS d) f i s 0) (fun f i => o.rhsBoundary (seen withRHS d) f i 0)
    (fun e b => rhsVolume_seen o withRHS d e b)
    (fun f i s b => by change o.rhsSkeleton _ f i s b = _; rw [rhsSkeleton_eq, rhsSkeleton_eq, zero_add])
    (fun f i b => by change o.rhsBoundary _ f i b = _; rw [rhsBoundary_eq, rhsBoundary_eq, zero_add])
  obtain ⟨tbl, h5, h6⟩ := neighbour_steps hd r hr (fun u f info => facetTerm o.localOp mulVec x u f info -
      rhsTerm (fun f i s => o.rhsSkeleton (seen withRHS d) f i s 0) (fun f i => o.rhsBoundary (seen withRHS d) f i 0) u f info)
    (fun u l s y => o.applyFacet withRHS d (preOf o (views r) junk s.fctNo) u l s (x u) (x s.lid) y) (by
      intro f info hf hinfo s y hu
      have hk : preOf o (views r) junk f = o.fctPre junk f info := by unfold preOf; rw [hinfo]; rfl
      simp only [hk]
      obtain ⟨info', ff, e0, e1, g1, g2, g3, g4, g5, g6, g7, _, _, ⟨d0, k0, k0'⟩, ⟨d1, k1, k1'⟩, g12, g13, _, g14⟩ :=
        C33_facet_info hd r hr f hf
      obtain rfl := Option.some.inj (hinfo.symm.trans g1)
      by_cases hne : info.up0 = info.up1
      · have he : e0 = e1 := by rw [hne] at g3; exact Option.some.inj (g3.symm.trans g4)
        have hl : info.localNo0 = info.localNo1 := by
          rw [← hne] at k1
          obtain rfl := Option.some.inj (k0.symm.trans k1)
          obtain ⟨ds2, b1, b2, b3, b4⟩ := hv.down _ _ g3
          obtain rfl := Option.some.inj (k0.symm.trans b1)
          exact get_inj b3 k0' k1'
        have hups : ∀ t, upOf info t = info.up0 := by
          intro t; unfold upOf; split
          · rfl
          · exact hne.symm
        have hlocs : ∀ t, localNoOf info t = info.localNo0 := by
          intro t; unfold localNoOf; split
          · rfl
          · exact hl.symm
        rw [hups, hups, hlocs, hlocs]
        have hb := hbc.boundary ff e0 (mem_inElems hv g3) g5 (fun e' h h' => by
          rcases g7 e' h h' with h | h
          · exact h
          · rw [h, he])
        unfold facetTerm rhsTerm
        rw [if_neg (fun h => h hne), if_neg (fun h => h hne)]
        rcases hb with hb | hb
        · rw [applyFacet_natural _ _ _ _ _ _ _ (by rw [g14, hb]; rfl)]
          have : o.localOp.boundary f info = none := by
            unfold Op.localOp Op.assembleBoundary
            simp only
            rw [if_pos (by rw [g14, hb]; rfl)]
          rw [this]
          have h0 : o.rhsBoundary (seen withRHS d) f info 0 = 0 := by
            unfold Op.rhsBoundary bcBoundary
            rw [g14, hb]
            simp [bcFault, bcDirichlet]
          simp [h0]
        · obtain ⟨A, a1, a2⟩ := applyFacet_boundary o hm withRHS d junk f s.val info hne (by rw [g14]; exact hb) (x info.up0) (x info.up0) y
          rw [a2]
          have : o.localOp.boundary f info = some A := a1
          rw [this]
      · have hb := hbc.interior ff e0 e1 (mem_inElems hv g3) (mem_inElems hv g4) (by
          rintro rfl
          exact hne (get_inj hv.once g3 g4)) g5 g6
        rw [applyFacet_skeleton o hm withRHS d junk f info hne s (by rw [g14]; exact hb)]
        unfold facetTerm rhsTerm
        rw [if_pos hne, if_pos hne]
        fin_cases s
        · simp [upOf, Op.localOp]
        · have hne' : ¬ info.up0 = info.up1 := hne
          simp [upOf, Op.localOp, hne', add_comm])
  refine ⟨blocks, b, tbl, h1, h2, h5, ?_⟩
  intro u hu
  obtain ⟨row, ds, r1, r2, r3, r4⟩ := h6 u hu
  refine ⟨row, r1, r2, ?_⟩
  rw [h3 u ds hu r3]
  unfold Op.apply
  rw [applyVolume_eq, List.zipIdx_map, List.foldl_map]
  have := r4 (mulVec (o.assembleVolume u) (x u))
  simp only [Pi.zero_apply, sub_zero]
  exact this

/-- A block of a vector of displacements: the value of basis function `k` and component `p` is at place `at k p`. -/
def toBlock (place : Fin Nbf → Fin dim → Nat) (l : List ℝ) : Fin Nbf → Fin dim → ℝ := fun k p => l.getD (place k p) 0

/-- The matrix-free operator of a rank in a distributed run, compared with the assembled matrix and right-hand side. -/
theorem elasticity_apply (hd : IsDistributed P dim elems num fnum tag views) (hbc : BCsFit P elems tag)
    (o : Op dim Nbf Nbm Nq nq) (hm : o.method = .IP) (withRHS : Bool) (d : Data dim Nq nq) (junk : Nat → SidePre dim nq) (place : Fin Nbf → Fin dim → Nat)
    (plans : List ScatterPlan.Plan) (hplans : ∀ s, s < P → ∃ p, plans[s]? = some p ∧ ScatterPlan.IsPlan s (elemFaces (views s)) p)
    (X : List Nat → List ℝ) (hX : ∀ e, InElems P elems e → (X e).length = Nbf * dim)
    (xs : Nat → List ℝ) (hxs : ∀ s, s < P → xs s = ((views s).elems.take (elems s).length).flatMap X)
    (xl : List (List ℝ)) (hxl : ∀ s, s < P → xl[s]? = some (xs s))
    (r : Nat) (hr : r < P) (plan : ScatterPlan.Plan) (hplan : plans[r]? = some plan)
    (hlen : plan.recvIdx.length ≤ 2 ^ 64 - 1)
    (y : List ℝ) (hy : y.length = plan.recvIdx.length * (Nbf * dim))
    (arrival : List ScatterPlan.Block) (ha : arrival.Perm plan.recvBlocks) (during : Nat → List ℝ) :
    ∃ ghost k tbl out blocks b, ScatterPlan.scatter (Nbf * dim) plans xl r y arrival = some ghost ∧
      numInterior (views r) = some k ∧ neighbourInfo (views r) (dim + 1) = some tbl ∧
      DGTopo.apply (Nbf * dim) (views r).numLocal k plan.recvIdx tbl (xs r) during ghost = some out ∧
      assemble (views r) o.localOp = some blocks ∧ rhs (views r) (o.localRhs (seen withRHS d)) 0 = some b ∧
      out.map (·.1) = List.range (elems r).length ∧
      ∀ (u : Nat) (x0 : List ℝ) (xn : List (SideInfo × List ℝ)), (u, x0, xn) ∈ out →
        o.apply withRHS d (preOf o (views r) junk) u (toBlock place x0) (xn.map (fun p => (p.1, toBlock place p.2))) =
          rowApply mulVec blocks (fun j => toBlock place (X ((views r).elems.getD j []))) u - b u := by
  obtain ⟨ghost, k, tbl, out, h1, h2, h3, h4, h5, h6⟩ := C33_apply hd (Nbf * dim) plans hplans X hX xs hxs xl hxl r hr plan hplan hlen y hy arrival ha during
  obtain ⟨blocks, b, tbl', b1, b2, b3, b4⟩ := elasticity_local hd hbc r hr o hm withRHS d junk
    (fun j => toBlock place (X ((views r).elems.getD j [])))
  obtain rfl := Option.some.inj (h3.symm.trans b3)
  refine ⟨ghost, k, tbl, out, blocks, b, h1, h2, h3, h4, b1, b2, h5, ?_⟩
  intro u x0 xn hmem
  obtain ⟨e, e1, e2, e3, e4, e5, e6⟩ := h6 u x0 xn hmem
  have hu : u < (elems r).length := by
    have : u ∈ out.map (·.1) := List.mem_map.2 ⟨_, hmem, rfl⟩
    rw [h5] at this; simpa using this
  obtain ⟨row, r1, r2, r3⟩ := b4 u hu
  have hrow : row = xn.map (·.1) := by
    have := Option.some.inj (r1.symm.trans e4)
    have h := congrArg (List.map (fun s : Option SideInfo => s.getD ⟨0, 0, 0, 0, 0⟩)) this
    simpa [List.map_map, Function.comp_def] using h
  rw [← r3, hrow, List.map_map]
  congr 1
  · rw [e3, List.getD_eq_getElem?_getD, e1]; rfl
  · apply List.map_congr_left
    intro p hp
    obtain ⟨e', q1, q2⟩ := e6 p hp
    simp only [Function.comp_apply]
    rw [q2, List.getD_eq_getElem?_getD, q1]; rfl

theorem rhs_nothing (o : Op dim Nbf Nbm Nq nq) (d : Data dim Nq nq) (v : View) (b : Nat → Fin Nbf → Fin dim → ℝ)
    (h : rhs v (o.localRhs (seen false d)) 0 = some b) : b = 0 := by
  have hv : ∀ e (b : Fin Nbf → Fin dim → ℝ), (o.localRhs (seen false d)).volume e b = b := fun e b => rfl
  have hs : ∀ f i s (b : Fin Nbf → Fin dim → ℝ), (o.localRhs (seen false d)).skeleton f i s b = b := by
    intro f i s b
    simp [Op.localRhs, Op.rhsSkeleton, seen, bcSkeleton]
  have hb : ∀ f i (b : Fin Nbf → Fin dim → ℝ), (o.localRhs (seen false d)).boundary f i b = b := by
    intro f i b
    simp [Op.localRhs, Op.rhsBoundary, seen, bcBoundary]
  have hf : ∀ f i (b : Nat → Fin Nbf → Fin dim → ℝ), rhsFacet (o.localRhs (seen false d)) f i b = b := by
    intro f i b
    unfold rhsFacet
    simp only [hs, hb, Function.update_eq_self]
    by_cases h : i.up0 ≠ i.up1
    · simp [h]
    · simp [h]
  unfold rhs at h
  simp only [hv, hf, Function.update_eq_self, List.foldl_const] at h
  obtain ⟨l, _, h⟩ := Option.bind_eq_some_iff.1 h
  have hid : ∀ n, ((fun b : Nat → Fin Nbf → Fin dim → ℝ => b)^[n]) 0 = 0 := by
    intro n; exact congrFun (Function.iterate_id n) 0
  rw [hid, hid] at h
  exact (Option.some.inj h).symm

/-- **C70 (elasticity)**. -/
theorem C70_elasticity (hd : IsDistributed P dim elems num fnum tag views) (hbc : BCsFit P elems tag)
    (o : Op dim Nbf Nbm Nq nq) (hm : o.method = .IP) (d : Data dim Nq nq) (junk : Nat → SidePre dim nq) (place : Fin Nbf → Fin dim → Nat)
    (plans : List ScatterPlan.Plan) (hplans : ∀ s, s < P → ∃ p, plans[s]? = some p ∧ ScatterPlan.IsPlan s (elemFaces (views s)) p)
    (X : List Nat → List ℝ) (hX : ∀ e, InElems P elems e → (X e).length = Nbf * dim)
    (xs : Nat → List ℝ) (hxs : ∀ s, s < P → xs s = ((views s).elems.take (elems s).length).flatMap X)
    (xl : List (List ℝ)) (hxl : ∀ s, s < P → xl[s]? = some (xs s))
    (r : Nat) (hr : r < P) (plan : ScatterPlan.Plan) (hplan : plans[r]? = some plan)
    (hlen : plan.recvIdx.length ≤ 2 ^ 64 - 1)
    (y : List ℝ) (hy : y.length = plan.recvIdx.length * (Nbf * dim))
    (arrival : List ScatterPlan.Block) (ha : arrival.Perm plan.recvBlocks) (during : Nat → List ℝ) :
    ∃ ghost k tbl out blocks, ScatterPlan.scatter (Nbf * dim) plans xl r y arrival = some ghost ∧
      numInterior (views r) = some k ∧ neighbourInfo (views r) (dim + 1) = some tbl ∧
      DGTopo.apply (Nbf * dim) (views r).numLocal k plan.recvIdx tbl (xs r) during ghost = some out ∧
      assemble (views r) o.localOp = some blocks ∧
      out.map (·.1) = List.range (elems r).length ∧
      ∀ (u : Nat) (x0 : List ℝ) (xn : List (SideInfo × List ℝ)), (u, x0, xn) ∈ out →
        o.apply false d (preOf o (views r) junk) u (toBlock place x0) (xn.map (fun p => (p.1, toBlock place p.2))) =
          rowApply mulVec blocks (fun j => toBlock place (X ((views r).elems.getD j []))) u := by
  obtain ⟨ghost, k, tbl, out, blocks, b, h1, h2, h3, h4, h5, h6, h7, h8⟩ :=
    elasticity_apply hd hbc o hm false d junk place plans hplans X hX xs hxs xl hxl r hr plan hplan hlen y hy arrival ha during
  refine ⟨ghost, k, tbl, out, blocks, h1, h2, h3, h4, h5, h7, ?_⟩
  intro u x0 xn hmem
  rw [h8 u x0 xn hmem, rhs_nothing o d _ b h6]
  simp

/-- One over the density at the quadrature points of element `e`. -/
noncomputable def Op.rhoInvQ (o : Op dim Nbf Nbm Nq nq) (e : Nat) (q : Fin Nq) : ℝ := ∑ t, o.ref.matE_Q_T q t * o.rhoInv e t

theorem inverseMass_eq (Minv : Fin Nbf → Fin Nbf → ℝ) (c W : Fin Nq → ℝ) (E : Fin Nbf → Fin Nq → ℝ) (U : Fin Nbf → Fin dim → ℝ)
    (k : Fin Nbf) (p : Fin dim) :
    kApplyInverseMass Minv (fun q => W q * c q) E U k p = ∑ l, weightAdjusted Minv E W c k l * U l p := by
  unfold kApplyInverseMass weightAdjusted massWith
  simp only [Finset.sum_mul, Finset.mul_sum]
  conv_rhs => rw [Finset.sum_comm]
  apply Finset.sum_congr rfl; intro r _
  conv_rhs => rw [Finset.sum_comm]
  conv_rhs => rw [Finset.sum_congr rfl (fun s _ => Finset.sum_comm)]
  conv_rhs => rw [Finset.sum_comm]
  apply Finset.sum_congr rfl; intro q _
  apply Finset.sum_congr rfl; intro s _
  apply Finset.sum_congr rfl; intro l _
  ring

theorem waveRhs_eq (o : Op dim Nbf Nbm Nq nq) (d : Data dim Nq nq) (pre : Nat → Fin 2 → SidePre dim nq) (e : Nat)
    (x0 : Fin Nbf → Fin dim → ℝ) (xn : List (SideInfo × (Fin Nbf → Fin dim → ℝ))) (k : Fin Nbf) (p : Fin dim) :
    o.waveRhs d pre e x0 xn k p =
      - ∑ l, weightAdjusted o.ref.MinvRef o.ref.E_Q o.ref.W (fun q => o.rhoInvQ e q / o.J_Q e q) k l * o.apply true d pre e x0 xn l p := by
  unfold Op.waveRhs
  rw [← inverseMass_eq]
  have : o.negRhoInv e = fun q => - (o.ref.W q * (o.rhoInvQ e q / o.J_Q e q)) := by
    funext q
    unfold Op.negRhoInv kNegativeRhoInvWJinvQ Op.rhoInvQ
    rw [Finset.sum_div, Finset.mul_sum, ← Finset.sum_neg_distrib]
    apply Finset.sum_congr rfl; intro t _; ring
  rw [this]
  unfold kApplyInverseMass
  simp only [← Finset.sum_neg_distrib]
  apply Finset.sum_congr rfl; intro r _
  apply Finset.sum_congr rfl; intro q _
  apply Finset.sum_congr rfl; intro s _
  apply Finset.sum_congr rfl; intro l _
  ring

/-- **C81**: the right-hand side of the wave equation is minus the weight-adjusted inverse mass matrix times the residual of
the quasi-static system, with the slip and displacement data but without body force. -/
theorem C81_wave_rhs (hd : IsDistributed P dim elems num fnum tag views) (hbc : BCsFit P elems tag)
    (o : Op dim Nbf Nbm Nq nq) (hm : o.method = .IP) (d : Data dim Nq nq) (junk : Nat → SidePre dim nq) (place : Fin Nbf → Fin dim → Nat)
    (plans : List ScatterPlan.Plan) (hplans : ∀ s, s < P → ∃ p, plans[s]? = some p ∧ ScatterPlan.IsPlan s (elemFaces (views s)) p)
    (X : List Nat → List ℝ) (hX : ∀ e, InElems P elems e → (X e).length = Nbf * dim)
    (xs : Nat → List ℝ) (hxs : ∀ s, s < P → xs s = ((views s).elems.take (elems s).length).flatMap X)
    (xl : List (List ℝ)) (hxl : ∀ s, s < P → xl[s]? = some (xs s))
    (r : Nat) (hr : r < P) (plan : ScatterPlan.Plan) (hplan : plans[r]? = some plan)
    (hlen : plan.recvIdx.length ≤ 2 ^ 64 - 1)
    (y : List ℝ) (hy : y.length = plan.recvIdx.length * (Nbf * dim))
    (arrival : List ScatterPlan.Block) (ha : arrival.Perm plan.recvBlocks) (during : Nat → List ℝ) :
    ∃ ghost k tbl out blocks b, ScatterPlan.scatter (Nbf * dim) plans xl r y arrival = some ghost ∧
      numInterior (views r) = some k ∧ neighbourInfo (views r) (dim + 1) = some tbl ∧
      DGTopo.apply (Nbf * dim) (views r).numLocal k plan.recvIdx tbl (xs r) during ghost = some out ∧
      assemble (views r) o.localOp = some blocks ∧ rhs (views r) (o.localRhs ⟨none, d.dirichlet, d.slip⟩) 0 = some b ∧
      out.map (·.1) = List.range (elems r).length ∧
      ∀ (u : Nat) (x0 : List ℝ) (xn : List (SideInfo × List ℝ)), (u, x0, xn) ∈ out → ∀ k p,
        o.waveRhs d (preOf o (views r) junk) u (toBlock place x0) (xn.map (fun p => (p.1, toBlock place p.2))) k p =
          - ∑ l, weightAdjusted o.ref.MinvRef o.ref.E_Q o.ref.W (fun q => o.rhoInvQ u q / o.J_Q u q) k l *
            (rowApply mulVec blocks (fun j => toBlock place (X ((views r).elems.getD j []))) u l p - b u l p) := by
  obtain ⟨ghost, k, tbl, out, blocks, b, h1, h2, h3, h4, h5, h6, h7, h8⟩ :=
    elasticity_apply hd hbc o hm true d junk place plans hplans X hX xs hxs xl hxl r hr plan hplan hlen y hy arrival ha during
  refine ⟨ghost, k, tbl, out, blocks, b, h1, h2, h3, h4, h5, h6, h7, ?_⟩
  intro u x0 xn hmem k p
  rw [waveRhs_eq, h8 u x0 xn hmem]
  rfl

theorem massWith_const (E : Fin Nbf → Fin Nq → ℝ) (W c : Fin Nq → ℝ) (a : ℝ) (h : ∀ q, c q = a) (k l : Fin Nbf) :
    massWith E W c k l = a * massWith E W (fun _ => 1) k l := by
  unfold massWith
  rw [Finset.mul_sum]
  apply Finset.sum_congr rfl; intro q _
  rw [h]; ring

theorem inverse_comm {n : Nat} {A M : Fin n → Fin n → ℝ} (h : IsInverse A M) : IsInverse M A := by
  have h1 : Matrix.of A * Matrix.of M = 1 := by
    ext k l
    rw [Matrix.mul_apply, Matrix.one_apply]
    exact h k l
  have h2 := mul_eq_one_comm.1 h1
  intro k l
  have := congrFun (congrFun h2 k) l
  rw [Matrix.mul_apply, Matrix.one_apply] at this
  exact this

theorem inverse_apply {n : Nat} {A M : Fin n → Fin n → ℝ} (h : IsInverse A M) (v : Fin n → ℝ) (k : Fin n) :
    ∑ m, A k m * ∑ l, M m l * v l = v k := by
  have : ∑ m, A k m * ∑ l, M m l * v l = ∑ l, (∑ m, A k m * M m l) * v l := by
    simp only [Finset.mul_sum, Finset.sum_mul]
    rw [Finset.sum_comm]
    apply Finset.sum_congr rfl; intro l _
    apply Finset.sum_congr rfl; intro m _
    ring
  rw [this]
  simp [h k]

theorem weightAdjusted_apply (Minv : Fin Nbf → Fin Nbf → ℝ) (E : Fin Nbf → Fin Nq → ℝ) (W c : Fin Nq → ℝ) (k : Fin Nbf) (v : Fin Nbf → ℝ) :
    ∑ l, weightAdjusted Minv E W c k l * v l = ∑ r, Minv k r * ∑ s, massWith E W c r s * ∑ l, Minv s l * v l := by
  unfold weightAdjusted
  simp only [Finset.mul_sum, Finset.sum_mul]
  rw [Finset.sum_comm]
  apply Finset.sum_congr rfl; intro r _
  rw [Finset.sum_comm]
  apply Finset.sum_congr rfl; intro s _
  apply Finset.sum_congr rfl; intro l _
  ring

/-- On an element where density times Jacobian is constant the weight-adjusted inverse is the inverse of the mass matrix with
the density. -/
theorem C81_inverse (Minv : Fin Nbf → Fin Nbf → ℝ) (E : Fin Nbf → Fin Nq → ℝ) (W rhoJ : Fin Nq → ℝ)
    (hinv : IsInverse Minv (massWith E W (fun _ => 1))) (a : ℝ) (ha : a ≠ 0) (hc : ∀ q, rhoJ q = a) :
    IsInverse (weightAdjusted Minv E W (fun q => 1 / rhoJ q)) (massWith E W rhoJ) := by
  intro k l
  rw [weightAdjusted_apply (v := fun m => massWith E W rhoJ m l)]
  have h1 : ∀ r s, massWith E W (fun q => 1 / rhoJ q) r s = 1 / a * massWith E W (fun _ => 1) r s :=
    massWith_const E W _ (1 / a) (fun q => by rw [hc])
  have h2 : ∀ m, massWith E W rhoJ m l = a * massWith E W (fun _ => 1) m l := fun m => massWith_const E W _ a hc m l
  simp only [h1, h2]
  have h3 : ∀ s, ∑ m, Minv s m * (a * massWith E W (fun _ => 1) m l) = a * if s = l then 1 else 0 := by
    intro s
    rw [← hinv s l, Finset.mul_sum]
    apply Finset.sum_congr rfl; intro m _; ring
  simp only [h3]
  have h4 : ∀ r, ∑ s, 1 / a * massWith E W (fun _ => 1) r s * (a * if s = l then 1 else 0) = massWith E W (fun _ => 1) r l := by
    intro r
    simp
    field_simp
  simp only [h4]
  exact hinv k l

/-- **C81 (momentum balance)**: on an element where density times Jacobian is constant the acceleration returned by `wave_rhs`
satisfies mass matrix (with the density) times acceleration equals minus what `apply_` with the data computes, which is the
residual of the quasi-static system (`C81_wave_rhs`). -/
theorem C81_momentum (o : Op dim Nbf Nbm Nq nq) (d : Data dim Nq nq) (pre : Nat → Fin 2 → SidePre dim nq) (e : Nat)
    (hinv : IsInverse o.ref.MinvRef (massWith o.ref.E_Q o.ref.W (fun _ => 1)))
    (rho : Fin Nq → ℝ) (hrho : ∀ q, o.rhoInvQ e q = 1 / rho q) (a : ℝ) (ha : a ≠ 0) (hc : ∀ q, rho q * o.J_Q e q = a)
    (x0 : Fin Nbf → Fin dim → ℝ) (xn : List (SideInfo × (Fin Nbf → Fin dim → ℝ))) (k : Fin Nbf) (p : Fin dim) :
    ∑ l, massWith o.ref.E_Q o.ref.W (fun q => rho q * o.J_Q e q) k l * o.waveRhs d pre e x0 xn l p = - o.apply true d pre e x0 xn k p := by
  have h := inverse_apply (inverse_comm (C81_inverse o.ref.MinvRef o.ref.E_Q o.ref.W (fun q => rho q * o.J_Q e q) hinv a ha hc))
    (fun l => o.apply true d pre e x0 xn l p) k
  rw [← h, ← Finset.sum_neg_distrib]
  apply Finset.sum_congr rfl; intro l _
  rw [waveRhs_eq]
  have : (fun q => o.rhoInvQ e q / o.J_Q e q) = fun q => 1 / (rho q * o.J_Q e q) := by
    funext q; rw [hrho, div_div]
  rw [this]; ring

/-- **C81 (project)**: on an element with constant Jacobian the projection of a function of the space is that function. -/
theorem C81_project (o : Op dim Nbf Nbm Nq nq) (e : Nat) (hinv : IsInverse o.ref.MinvRef (massWith o.ref.E_Q o.ref.W (fun _ => 1)))
    (a : ℝ) (ha : a ≠ 0) (hJ : ∀ q, o.J_Q e q = a) (v : Fin Nbf → Fin dim → ℝ) :
    o.project e (fun p q => ∑ l, o.ref.E_Q l q * v l p) = v := by
  funext k p
  unfold Op.project
  have h1 : (fun q => o.ref.W q / o.J_Q e q) = fun q => o.ref.W q * (1 / o.J_Q e q) := by funext q; ring
  rw [h1, inverseMass_eq]
  have h2 : ∀ l, kProjectURhs o.ref.E_Q o.ref.W (o.J_Q e) (fun p q => ∑ l, o.ref.E_Q l q * v l p) l p =
      ∑ m, massWith o.ref.E_Q o.ref.W (o.J_Q e) l m * v m p := by
    intro l
    unfold kProjectURhs massWith
    simp only [Finset.mul_sum, Finset.sum_mul]
    rw [Finset.sum_comm]
    apply Finset.sum_congr rfl; intro m _
    apply Finset.sum_congr rfl; intro q _; ring
  simp only [h2]
  exact inverse_apply (C81_inverse o.ref.MinvRef o.ref.E_Q o.ref.W (o.J_Q e) hinv a ha hJ) (fun m => v m p) k

/-- A force on the body is left out of the right-hand side of the wave equation. -/
theorem C81_force_ignored (o : Op dim Nbf Nbm Nq nq) (d : Data dim Nq nq) (F : Option (Nat → Fin dim → Fin Nq → ℝ))
    (pre : Nat → Fin 2 → SidePre dim nq) (e : Nat) (x0 : Fin Nbf → Fin dim → ℝ) (xn : List (SideInfo × (Fin Nbf → Fin dim → ℝ))) :
    o.waveRhs ⟨F, d.dirichlet, d.slip⟩ pre e x0 xn = o.waveRhs d pre e x0 xn := rfl

end

/-! ## Examples -/

/-- All tensors of size one, all entries one, the basis function constant. -/
noncomputable def unitOp (m : Method) : Op 1 1 1 1 1 :=
  ⟨⟨fun _ _ => 1, fun _ _ _ => 0, fun _ _ => 1, fun _ => 1, fun _ _ _ => 1, fun _ _ _ _ => 0, fun _ _ _ => 1, fun _ => 1, fun _ _ => 1⟩,
   m, fun _ _ => 1, fun _ _ _ _ => 1, fun _ _ => 1, fun _ _ => 1, fun _ _ => 1, fun _ _ _ _ _ => 1, fun _ _ _ => 1, fun _ => 1⟩

example : IsInverse (unitOp .IP).ref.MinvRef (massWith (unitOp .IP).ref.E_Q (unitOp .IP).ref.W (fun _ => 1)) := by
  intro k l
  obtain rfl := Subsingleton.elim k l
  simp [unitOp, massWith]

/-- With data the two forms of `apply_` differ. -/
example : ∃ (d : Data 1 1 1) (pre : Nat → Fin 2 → SidePre 1 1) (xn : List (SideInfo × (Fin 1 → Fin 1 → ℝ))),
    (unitOp .IP).apply true d pre 0 0 xn ≠ (unitOp .IP).apply false d pre 0 0 xn := by
  refine ⟨⟨none, none, some (fun _ _ _ _ => 1)⟩, fun _ _ => ⟨1, 1, 1⟩, [(⟨0, 0, 1, 0, bcFault⟩, 0)], ?_⟩
  intro h
  have := congrFun (congrFun h 0) 0
  simp [Op.apply, Op.applyFacet, Op.fluxes, unitOp, bcFault, bcNone, bcSkeleton, kApplyFacet, kFluxUSkeleton, kFluxSigmaSkeleton,
    kFluxUAddBc, kFluxSigmaAddBc, Poisson.Ref.negative_E_q_T, Poisson.Ref.E_q_T, Poisson.Ref.Dxi_q_120, negativeEq, kConstitutive, kJuq, kApplyVolume,
    kJuQ, Op.DxiQ120, Op.penalty, delta, Op.n_unit_q, unitNormal] at this

end Tandem.Elasticity
