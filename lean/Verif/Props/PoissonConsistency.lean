import Verif.Props.PoissonRhs
import Verif.Lemmas.Residual
/-! # Property C73 for the Poisson operator: consistency, rigid block motion; C74: conservation -/
namespace Tandem.Poisson
open Tandem.DGTopo Tandem.Spec
open Tandem.DGAssembly

variable {dim Nbf Nbm Nq nq : Nat}
variable {P : Nat} {elems : Nat → List (List Nat)} {num fnum tag : List Nat → Nat} {views : Nat → View}

theorem rhsVolume_eq (o : Op dim Nbf Nbm Nq nq) (d : Data Nq nq) (e : Nat) (b : Fin Nbf → ℝ) :
    o.rhsVolume d e b = b + fun k => ∑ q, o.J_Q e q * o.ref.W q * o.ref.E_Q k q * d.force e q := rfl

theorem rhsSkeleton_add (o : Op dim Nbf Nbm Nq nq) (d : Data Nq nq) (f : Nat) (i : FacetInfo) (s : Fin 2) (b : Fin Nbf → ℝ) :
    o.rhsSkeleton d f i s b = b + o.rhsSkeleton d f i s 0 := by
  rw [rhsSkeleton_eq, rhsSkeleton_eq o d f i s 0, zero_add]

theorem rhsBoundary_add (o : Op dim Nbf Nbm Nq nq) (d : Data Nq nq) (f : Nat) (i : FacetInfo) (b : Fin Nbf → ℝ) :
    o.rhsBoundary d f i b = b + o.rhsBoundary d f i 0 := by
  rw [rhsBoundary_eq, rhsBoundary_eq o d f i 0, zero_add]

/-- The flux through facet `i` out of element `u` tested with basis function `k`. -/
noncomputable def outflux (o : Op dim Nbf Nbm Nq nq) (v : View) (x : Nat → Fin Nbf → ℝ) (u i : Nat) (k : Fin Nbf) : ℝ :=
  match facetInfo v i with
  | some info => if info.up0 = u then ∑ q, o.ref.w q * (o.Es info 0 k q * fluxOf (o.n_q i) (o.KDx i info 0) (x u) q)
      else - ∑ q, o.ref.w q * (o.Es info 1 k q * fluxOf (o.n_q i) (o.KDx i info 1) (x u) q)
  | none => 0

/-- **C73 (consistency)**: functions with the prescribed jumps and boundary values, continuous fluxes and no flux through
natural boundaries, which satisfy the balance (discrete Green formula) in each element, solve the linear system; for both
methods. -/
theorem C73_consistency (hd : IsDistributed P dim elems num fnum tag views) (r : Nat) (hr : r < P) (o : Op dim Nbf Nbm Nq nq)
    (d : Data Nq nq) (x : Nat → Fin Nbf → ℝ)
    (hjump : ∀ i info, i < (views r).numLocalFacets → facetInfo (views r) i = some info → info.up0 ≠ info.up1 → ∀ q,
      (trace (o.Es info 0) (x info.up0) q - trace (o.Es info 1) (x info.up1) q =
        if info.bc = 3 then d.slip i false q else if info.bc = 5 then d.dirichlet i false q else 0) ∧
      fluxOf (o.n_q i) (o.KDx i info 0) (x info.up0) q = fluxOf (o.n_q i) (o.KDx i info 1) (x info.up1) q)
    (hbnd : ∀ i info, i < (views r).numLocalFacets → facetInfo (views r) i = some info → info.up0 = info.up1 → ∀ q,
      if info.bc = 1 then fluxOf (o.n_q i) (o.KDx i info 0) (x info.up0) q = 0 else
      trace (o.Es info 0) (x info.up0) q =
        if info.bc = 3 then d.slip i true q / 2 else if info.bc = 5 then d.dirichlet i true q else 0)
    (hbal : ∀ u ds, u < (elems r).length → (views r).down[u]? = some ds → ∀ k,
      mulVec (o.assembleVolume u) (x u) k - (ds.map (fun i => outflux o (views r) x u i k)).sum =
        ∑ q, o.J_Q u q * o.ref.W q * o.ref.E_Q k q * d.force u q) :
    ∃ blocks b, assemble (views r) o.localOp = some blocks ∧ rhs (views r) (o.localRhs d) 0 = some b ∧
      ∀ u, u < (elems r).length → rowApply mulVec blocks x u = b u := by
  have hv := hd.view r hr
  obtain ⟨blocks, b', h1, h2, h3⟩ := residual_spec hd r hr o.localOp mulVec x (o.localRhs d) _ _ _
    (fun e b => rhsVolume_eq o d e b) (fun f i s b => rhsSkeleton_add o d f i s b) (fun f i b => rhsBoundary_add o d f i b)
  refine ⟨blocks, b', h1, h2, ?_⟩
  intro u hu
  have hle := numLocal_le hv
  rw [hv.numLocal] at hle
  have he := List.getElem?_eq_getElem (l := (views r).elems) (i := u) (by omega)
  obtain ⟨ds, a1, a2, a3, a4⟩ := hv.down u _ he
  have h := h3 u ds hu a1
  have hterm : ∀ i ∈ ds, (facetTerm o.localOp mulVec x u i ((facetInfo (views r) i).getD ⟨0, 0, 0, 0, 0, 0, false, false, 0⟩) -
      rhsTerm (fun f i s => o.rhsSkeleton d f i s 0) (fun f i => o.rhsBoundary d f i 0)
        u i ((facetInfo (views r) i).getD ⟨0, 0, 0, 0, 0, 0, false, false, 0⟩)) =
      fun k => - outflux o (views r) x u i k := by
    intro i hi
    obtain ⟨f, b1, b2⟩ := (a4 i).1 hi
    have hlt : i < (views r).numLocalFacets := (hv.localFacets i f b1).2 ⟨_, (own_iff hr hd.mesh hv he).2.1 (by rw [hv.numLocal]; exact hu), b2⟩
    obtain ⟨info, g1, g2, g3, g4⟩ := inside_iff hd r hr i hlt
    have hmem := (g4 u ds a1 hu).1 hi
    unfold outflux
    rw [g1, Option.getD_some]
    simp only
    funext k
    rw [Pi.sub_apply]
    unfold facetTerm rhsTerm
    by_cases hne : info.up0 = info.up1
    · have h0 : info.up0 = u := by rcases hmem with h | h <;> omega
      have hh := hbnd i info hlt g1 hne
      rw [if_neg (fun h => h hne), if_neg (fun h => h hne), if_pos h0]
      cases hA : o.assembleBoundary i info with
      | none =>
        have hbc : info.bc = 1 := by
          unfold Op.assembleBoundary at hA
          split at hA
          · assumption
          · simp at hA
        have : o.localOp.boundary i info = none := hA
        rw [this]
        simp only [hbc, if_true, h0] at hh
        simp only [hh, mul_zero, Finset.sum_const_zero, neg_zero, Pi.zero_apply, zero_sub, neg_eq_zero]
        rw [rhsBoundary_eq]
        have hg : givenBnd d i info.bc = 0 := by unfold givenBnd bcBoundary; rw [hbc]; rfl
        rw [hg]
        simp [rhsBndLift_zero]
      | some A =>
        have : o.localOp.boundary i info = some A := hA
        have hbc : info.bc ≠ 1 := by
          intro hc
          unfold Op.assembleBoundary at hA
          rw [if_pos (show info.bc = bcNatural from hc)] at hA; simp at hA
        rw [this]
        simp only [if_neg hbc, h0] at hh
        simp only
        rw [residual_boundary o d i info A hA]
        have hz : (fun q => trace (o.Es info 0) (x u) q - givenBnd d i info.bc q) = 0 := by
          funext q
          rw [hh q]
          unfold givenBnd bcBoundary bcFault bcDirichlet
          split
          · simp only [Option.getD_some, Pi.zero_apply]; ring
          · split
            · simp
            · simp
        rw [hz, ← Finset.sum_neg_distrib]
        apply Finset.sum_congr rfl; intro q _
        have hzq : trace (o.Es info 0) (x u) q - givenBnd d i info.bc q = 0 := congrFun hz q
        rw [hzq, rhsBndLift_zero]
        ring
    · have hh := hjump i info hlt g1 hne
      rw [if_pos hne, if_pos hne]
      have hz : (fun q => trace (o.Es info 0) (x info.up0) q - trace (o.Es info 1) (x info.up1) q - given d i info.bc q) = 0 := by
        funext q
        rw [(hh q).1]
        unfold given bcSkeleton bcFault bcDirichlet
        split
        · simp
        · split
          · simp
          · simp
      have hres : ∀ s : Fin 2, mulVec (o.assembleSkeleton i info s 0) (x info.up0) k + mulVec (o.assembleSkeleton i info s 1) (x info.up1) k -
          o.rhsSkeleton d i info s 0 k =
          ∑ q, o.ref.w q * (- sgn s * o.Es info s k q * fluxOf (o.n_q i) (o.KDx i info s) (x (upOf info s)) q) := by
        intro s
        rw [residual_skeleton, hz]
        apply Finset.sum_congr rfl; intro q _
        have hzq : trace (o.Es info 0) (x info.up0) q - trace (o.Es info 1) (x info.up1) q - given d i info.bc q = 0 := congrFun hz q
        rw [hzq, rhsLift_zero]
        have hfl : fluxOf (o.n_q i) (o.KDx i info s) (x (upOf info s)) q = fluxOf (o.n_q i) (o.KDx i info 0) (x info.up0) q := by
          fin_cases s
          · rfl
          · exact ((hh q).2).symm
        rw [hfl, (hh q).2]
        ring
      by_cases h0 : info.up0 = u
      · rw [if_pos h0, if_pos h0, if_pos h0]
        have := hres 0
        rw [h0] at this
        simp only [Op.localOp, Pi.add_apply]
        rw [this, ← Finset.sum_neg_distrib]
        apply Finset.sum_congr rfl; intro q _
        simp only [upOf, if_true, h0, sgn]; ring
      · have h1 : info.up1 = u := hmem.resolve_left h0
        rw [if_neg h0, if_neg h0, if_neg h0]
        have := hres 1
        rw [h1] at this
        simp only [Op.localOp, Pi.add_apply]
        rw [this, neg_neg]
        apply Finset.sum_congr rfl; intro q _
        simp only [upOf, show ((1 : Fin 2) = 0) = False by simp, if_false, h1, sgn]; ring
  rw [List.map_congr_left hterm] at h
  rw [← sub_eq_zero, h]
  funext k
  have hb := hbal u ds hu a1 k
  have hsum : (ds.map (fun i => fun k => - outflux o (views r) x u i k)).sum k = - (ds.map (fun i => outflux o (views r) x u i k)).sum := by
    clear h3 h a1 a3 a4 hterm hb a2
    induction ds with
    | nil => simp
    | cons i l ih => rw [List.map_cons, List.sum_cons, Pi.add_apply, ih, List.map_cons, List.sum_cons]; ring
  rw [Pi.add_apply, Pi.sub_apply, hsum, Pi.zero_apply]
  change mulVec (o.assembleVolume u) (x u) k - _ + _ = 0
  linarith

/-- Coefficients of the constant function one: its value at the points of the facets is one, its gradient zero. -/
structure IsOne (ref : Ref dim Nbf Nbm Nq nq) (c : Fin Nbf → ℝ) : Prop where
  value : ∀ l q, ∑ k, ref.E_q l k q * c k = 1
  gradFacet : ∀ l e q, ∑ k, ref.Dxi_q l k e q * c k = 0
  gradVolume : ∀ e q, ∑ k, ref.Dxi_Q k e q * c k = 0

theorem trace_one (o : Op dim Nbf Nbm Nq nq) (c : Fin Nbf → ℝ) (hc : IsOne o.ref c) (i : FacetInfo) (s : Fin 2) (a : ℝ) (q : Fin nq) :
    trace (o.Es i s) (fun k => a * c k) q = a := by
  unfold trace
  have : ∑ l, o.Es i s l q * (a * c l) = a * ∑ l, o.ref.E_q (localNoOf i s) l q * c l := by
    rw [Finset.mul_sum]; apply Finset.sum_congr rfl; intro l _; unfold Op.Es; ring
  rw [this, hc.value, mul_one]

theorem flux_one (o : Op dim Nbf Nbm Nq nq) (c : Fin Nbf → ℝ) (hc : IsOne o.ref c) (f : Nat) (i : FacetInfo) (s : Fin 2) (a : ℝ)
    (n : Fin dim → Fin nq → ℝ) (q : Fin nq) : fluxOf n (o.KDx f i s) (fun k => a * c k) q = 0 := by
  unfold fluxOf nflux Op.KDx kKDxq
  have h : ∀ r, ∑ l, (∑ m, ∑ e, o.K (upOf i s) m * o.ref.matE_q_T (localNoOf i s) q m * o.JInv f s e r q * o.ref.Dxi_q (localNoOf i s) l e q) * (a * c l) = 0 := by
    intro r
    simp only [Finset.sum_mul]
    rw [Finset.sum_comm]
    apply Finset.sum_eq_zero; intro m _
    rw [Finset.sum_comm]
    apply Finset.sum_eq_zero; intro e _
    have := hc.gradFacet (localNoOf i s) e q
    calc _ = a * (o.K (upOf i s) m * o.ref.matE_q_T (localNoOf i s) q m * o.JInv f s e r q) * ∑ l, o.ref.Dxi_q (localNoOf i s) l e q * c l := by
          rw [Finset.mul_sum]; apply Finset.sum_congr rfl; intro l _; ring
      _ = 0 := by rw [this, mul_zero]
  calc _ = ∑ r, n r q * ∑ l, (∑ m, ∑ e, o.K (upOf i s) m * o.ref.matE_q_T (localNoOf i s) q m * o.JInv f s e r q * o.ref.Dxi_q (localNoOf i s) l e q) * (a * c l) := by
        simp only [Finset.sum_mul _ _ (a * c _)]
        rw [Finset.sum_comm]
        apply Finset.sum_congr rfl; intro r _
        rw [Finset.mul_sum]
        apply Finset.sum_congr rfl; intro l _
        simp only [Finset.sum_mul, Finset.mul_sum]
        apply Finset.sum_congr rfl; intro m _
        apply Finset.sum_congr rfl; intro e _
        ring
    _ = 0 := by simp only [h, mul_zero, Finset.sum_const_zero]

theorem volume_one (o : Op dim Nbf Nbm Nq nq) (c : Fin Nbf → ℝ) (hc : IsOne o.ref c) (e : Nat) (a : ℝ) (k : Fin Nbf) :
    mulVec (o.assembleVolume e) (fun k => a * c k) k = 0 := by
  have hD : ∀ i q, ∑ l, kDxQ (o.G_Q e) o.ref.Dxi_Q l i q * c l = 0 := by
    intro i q
    unfold kDxQ
    simp only [Finset.sum_mul]
    rw [Finset.sum_comm]
    apply Finset.sum_eq_zero; intro j _
    calc _ = o.G_Q e j i q * ∑ l, o.ref.Dxi_Q l j q * c l := by
          rw [Finset.mul_sum]; apply Finset.sum_congr rfl; intro l _; ring
      _ = 0 := by rw [hc.gradVolume, mul_zero]
  unfold mulVec Op.assembleVolume kAssembleVolume
  simp only [Finset.sum_mul]
  rw [Finset.sum_comm]
  apply Finset.sum_eq_zero; intro q _
  rw [Finset.sum_comm]
  apply Finset.sum_eq_zero; intro m _
  rw [Finset.sum_comm]
  apply Finset.sum_eq_zero; intro i _
  calc _ = a * (o.J_Q e q * o.ref.W q * o.K e m * o.ref.matE_Q_T q m * kDxQ (o.G_Q e) o.ref.Dxi_Q k i q) * ∑ l, kDxQ (o.G_Q e) o.ref.Dxi_Q l i q * c l := by
        rw [Finset.mul_sum]; apply Finset.sum_congr rfl; intro l _; ring
    _ = 0 := by rw [hD, mul_zero]

/-- **C73 (rigid block motion)**: every element moved by a constant `a`, equal across facets without condition, with the
prescribed jump across faults and interior displacement conditions, half the slip on fault facets at the boundary, the
prescribed displacement (zero without a condition) elsewhere on the boundary: the linear system is satisfied. -/
theorem C73_rigid (hd : IsDistributed P dim elems num fnum tag views) (r : Nat) (hr : r < P) (o : Op dim Nbf Nbm Nq nq)
    (d : Data Nq nq) (c : Fin Nbf → ℝ) (hc : IsOne o.ref c) (a : Nat → ℝ)
    (hforce : ∀ u, u < (elems r).length → ∀ q, d.force u q = 0)
    (hjump : ∀ i info, i < (views r).numLocalFacets → facetInfo (views r) i = some info → info.up0 ≠ info.up1 → ∀ q : Fin nq,
      a info.up0 - a info.up1 = if info.bc = 3 then d.slip i false q else if info.bc = 5 then d.dirichlet i false q else 0)
    (hbnd : ∀ i info, i < (views r).numLocalFacets → facetInfo (views r) i = some info → info.up0 = info.up1 → info.bc ≠ 1 →
      ∀ q : Fin nq, a info.up0 = if info.bc = 3 then d.slip i true q / 2 else if info.bc = 5 then d.dirichlet i true q else 0) :
    ∃ blocks b, assemble (views r) o.localOp = some blocks ∧ rhs (views r) (o.localRhs d) 0 = some b ∧
      ∀ u, u < (elems r).length → rowApply mulVec blocks (fun u k => a u * c k) u = b u := by
  refine C73_consistency hd r hr o d (fun u k => a u * c k) ?_ ?_ ?_
  · intro i info h1 h2 h3 q
    rw [trace_one o c hc, trace_one o c hc, flux_one o c hc, flux_one o c hc]
    exact ⟨hjump i info h1 h2 h3 q, rfl⟩
  · intro i info h1 h2 h3 q
    split
    · exact flux_one o c hc _ _ _ _ _ _
    · next h => rw [trace_one o c hc]; exact hbnd i info h1 h2 h3 h q
  · intro u ds hu hds k
    rw [volume_one o c hc]
    have h0 : ∀ i, outflux o (views r) (fun u k => a u * c k) u i k = 0 := by
      intro i
      unfold outflux
      cases facetInfo (views r) i with
      | none => rfl
      | some info => simp only [flux_one o c hc]; simp
    simp only [h0, hforce u hu]
    simp

/-! ## C74: conservation -/

theorem flux_swap (n : Fin dim → Fin nq → ℝ) (KDx : Fin Nbf → Fin dim → Fin nq → ℝ) (v : Fin Nbf → ℝ) (q : Fin nq) :
    fluxOf n KDx v q = ∑ r, n r q * ∑ l, KDx l r q * v l := by
  unfold fluxOf nflux
  simp only [Finset.sum_mul, Finset.mul_sum]
  rw [Finset.sum_comm]
  apply Finset.sum_congr rfl; intro r _
  apply Finset.sum_congr rfl; intro l _; ring

theorem traction_skeleton_eq (o : Op dim Nbf Nbm Nq nq) (hm : o.method = .IP) (d : Data Nq nq) (f : Nat) (i : FacetInfo)
    (u0 u1 : Fin Nbf → ℝ) (q : Fin nq) :
    ∑ r, o.n_q f r q * o.tractionSkeleton d 0 f i u0 u1 r q =
      0.5 * (fluxOf (o.n_q f) (o.KDx f i 0) u0 q + fluxOf (o.n_q f) (o.KDx f i 1) u1 q) -
        o.penalty f * o.rhsSkeletonLift f i (fun q => trace (o.Es i 0) u0 q - trace (o.Es i 1) u1 q - given d f i.bc q) q := by
  have ht : ∀ r, o.tractionSkeleton d 0 f i u0 u1 r q = 0.5 * ((∑ l, o.KDx f i 0 l r q * u0 l) + (∑ l, o.KDx f i 1 l r q * u1 l)) +
      -o.penalty f * (trace (o.Es i 0) u0 q - trace (o.Es i 1) u1 q - given d f i.bc q) * o.n_unit_q f r q := by
    intro r; rfl
  simp only [ht]
  have hnn : ∑ r, o.n_q f r q * o.n_unit_q f r q = o.nl_q f q := normal_dot_unit _ q
  unfold Op.rhsSkeletonLift
  simp only [hm, kRhsLiftIp]
  rw [← hnn, flux_swap, flux_swap, ← Finset.sum_add_distrib, Finset.sum_mul, Finset.mul_sum, Finset.mul_sum, ← Finset.sum_sub_distrib]
  apply Finset.sum_congr rfl; intro r _
  ring

theorem traction_boundary_eq (o : Op dim Nbf Nbm Nq nq) (hm : o.method = .IP) (d : Data Nq nq) (f : Nat) (i : FacetInfo)
    (u0 : Fin Nbf → ℝ) (q : Fin nq) :
    ∑ r, o.n_q f r q * o.tractionBoundary d 0 f i u0 r q = fluxOf (o.n_q f) (o.KDx f i 0) u0 q -
        o.penalty f * o.rhsBoundaryLift f i (fun q => trace (o.Es i 0) u0 q - givenBnd d f i.bc q) q := by
  have ht : ∀ r, o.tractionBoundary d 0 f i u0 r q = (∑ l, o.KDx f i 0 l r q * u0 l) +
      -o.penalty f * (trace (o.Es i 0) u0 q - givenBnd d f i.bc q) * o.n_unit_q f r q := by
    intro r; rfl
  simp only [ht]
  have hnn : ∑ r, o.n_q f r q * o.n_unit_q f r q = o.nl_q f q := normal_dot_unit _ q
  unfold Op.rhsBoundaryLift
  simp only [hm, kRhsLiftIp]
  rw [← hnn, flux_swap, Finset.sum_mul, Finset.mul_sum, ← Finset.sum_sub_distrib]
  apply Finset.sum_congr rfl; intro r _
  ring

/-- The force on element `u` through facet `i`: the integral of the traction (reported for faults and displacement
conditions; facets without condition count as faults without slip; natural boundaries are free). -/
noncomputable def facetForce (o : Op dim Nbf Nbm Nq nq) (d : Data Nq nq) (v : View) (x : Nat → Fin Nbf → ℝ) (u i : Nat) : ℝ :=
  match facetInfo v i with
  | some info =>
    if info.up0 ≠ info.up1 then
      (if info.up0 = u then 1 else -1) * ∑ q, o.ref.w q * ∑ r, o.n_q i r q * o.tractionSkeleton d 0 i info (x info.up0) (x info.up1) r q
    else if info.bc = 1 then 0
    else ∑ q, o.ref.w q * ∑ r, o.n_q i r q * o.tractionBoundary d 0 i info (x info.up0) r q
  | none => 0

theorem nflux_one (o : Op dim Nbf Nbm Nq nq) (c : Fin Nbf → ℝ) (hc : IsOne o.ref c) (f : Nat) (i : FacetInfo) (s : Fin 2)
    (n : Fin dim → Fin nq → ℝ) (q : Fin nq) : ∑ k, nflux n (o.KDx f i s) k q * c k = 0 := by
  have := flux_one o c hc f i s 1 n q
  simpa [fluxOf] using this

theorem value_one (o : Op dim Nbf Nbm Nq nq) (c : Fin Nbf → ℝ) (hc : IsOne o.ref c) (i : FacetInfo) (s : Fin 2) (q : Fin nq) :
    ∑ k, o.Es i s k q * c k = 1 := hc.value _ _

theorem test_one (w a b : Fin nq → ℝ) (N E : Fin Nbf → Fin nq → ℝ) (c : Fin Nbf → ℝ) (hN : ∀ q, ∑ k, N k q * c k = 0)
    (hE : ∀ q, ∑ k, E k q * c k = 1) :
    ∑ k, c k * ∑ q, w q * (N k q * a q + E k q * b q) = ∑ q, w q * b q := by
  simp only [Finset.mul_sum]
  rw [Finset.sum_comm]
  apply Finset.sum_congr rfl; intro q _
  calc _ = w q * (a q * ∑ k, N k q * c k) + w q * (b q * ∑ k, E k q * c k) := by
        simp only [Finset.mul_sum]
        rw [← Finset.sum_add_distrib]
        apply Finset.sum_congr rfl; intro k _; ring
    _ = _ := by rw [hN, hE]; ring

/-- **C74 (conservation)**: if row `u` of the linear system holds, the integrals of the reported tractions over the facets of
the element balance the body force. -/
theorem C74_conservation (hd : IsDistributed P dim elems num fnum tag views) (r : Nat) (hr : r < P) (o : Op dim Nbf Nbm Nq nq)
    (hm : o.method = .IP) (d : Data Nq nq) (c : Fin Nbf → ℝ) (hc : IsOne o.ref c) (hcQ : ∀ q, ∑ k, o.ref.E_Q k q * c k = 1)
    (x : Nat → Fin Nbf → ℝ) :
    ∃ blocks b, assemble (views r) o.localOp = some blocks ∧ rhs (views r) (o.localRhs d) 0 = some b ∧
      ∀ u ds, u < (elems r).length → (views r).down[u]? = some ds → rowApply mulVec blocks x u = b u →
        (ds.map (facetForce o d (views r) x u)).sum + ∑ q, o.J_Q u q * o.ref.W q * d.force u q = 0 := by
  have hv := hd.view r hr
  obtain ⟨blocks, b', h1, h2, h3⟩ := residual_spec hd r hr o.localOp mulVec x (o.localRhs d) _ _ _
    (fun e b => rhsVolume_eq o d e b) (fun f i s b => rhsSkeleton_add o d f i s b) (fun f i b => rhsBoundary_add o d f i b)
  refine ⟨blocks, b', h1, h2, ?_⟩
  intro u ds hu a1 hrow
  have hle := numLocal_le hv
  rw [hv.numLocal] at hle
  have he := List.getElem?_eq_getElem (l := (views r).elems) (i := u) (by omega)
  obtain ⟨ds', a1', a2, a3, a4⟩ := hv.down u _ he
  obtain rfl := Option.some.inj (a1.symm.trans a1')
  have h := h3 u ds hu a1
  rw [hrow, sub_self] at h
  have hterm : ∀ i ∈ ds, ∑ k, c k * (facetTerm o.localOp mulVec x u i ((facetInfo (views r) i).getD ⟨0, 0, 0, 0, 0, 0, false, false, 0⟩) -
      rhsTerm (fun f i s => o.rhsSkeleton d f i s 0) (fun f i => o.rhsBoundary d f i 0)
        u i ((facetInfo (views r) i).getD ⟨0, 0, 0, 0, 0, 0, false, false, 0⟩)) k =
      - facetForce o d (views r) x u i := by
    intro i hi
    obtain ⟨f, b1, b2⟩ := (a4 i).1 hi
    have hlt : i < (views r).numLocalFacets := (hv.localFacets i f b1).2 ⟨_, (own_iff hr hd.mesh hv he).2.1 (by rw [hv.numLocal]; exact hu), b2⟩
    obtain ⟨info, g1, g2, g3, g4⟩ := inside_iff hd r hr i hlt
    have hmem := (g4 u ds a1 hu).1 hi
    unfold facetForce
    rw [g1, Option.getD_some]
    simp only [Pi.sub_apply]
    unfold facetTerm rhsTerm
    by_cases hne : info.up0 = info.up1
    · have h0 : info.up0 = u := by rcases hmem with h | h <;> omega
      have hne' : ¬ (info.up0 ≠ info.up1) := fun h => h hne
      simp only [if_neg hne']
      cases hA : o.assembleBoundary i info with
      | none =>
        have hbc : info.bc = 1 := by
          unfold Op.assembleBoundary at hA
          split at hA
          · assumption
          · simp at hA
        have : o.localOp.boundary i info = none := hA
        rw [this, if_pos hbc]
        have hg : givenBnd d i info.bc = 0 := by unfold givenBnd bcBoundary; rw [hbc]; rfl
        simp only [rhsBoundary_eq, hg]
        simp [rhsBndLift_zero]
      | some A =>
        have : o.localOp.boundary i info = some A := hA
        have hbc : info.bc ≠ 1 := by
          intro hc
          unfold Op.assembleBoundary at hA
          rw [if_pos (show info.bc = bcNatural from hc)] at hA; simp at hA
        rw [this, if_neg hbc]
        simp only
        have hres : ∀ k, mulVec A (x u) k - o.rhsBoundary d i info 0 k = ∑ q, o.ref.w q * (nflux (o.n_q i) (o.KDx i info 0) k q *
            (-(trace (o.Es info 0) (x info.up0) q - givenBnd d i info.bc q)) + o.Es info 0 k q *
            (-(∑ r, o.n_q i r q * o.tractionBoundary d 0 i info (x info.up0) r q))) := by
          intro k
          rw [← h0, residual_boundary o d i info A hA]
          apply Finset.sum_congr rfl; intro q _
          rw [traction_boundary_eq o hm]; ring
        simp only [hres]
        rw [test_one _ _ _ _ _ c (nflux_one o c hc i info 0 _) (value_one o c hc info 0), ← Finset.sum_neg_distrib]
        apply Finset.sum_congr rfl; intro q _; ring
    · simp only [if_pos (show info.up0 ≠ info.up1 from hne)]
      have hres : ∀ (s : Fin 2) k, mulVec (o.assembleSkeleton i info s 0) (x info.up0) k + mulVec (o.assembleSkeleton i info s 1) (x info.up1) k -
          o.rhsSkeleton d i info s 0 k = ∑ q, o.ref.w q * (nflux (o.n_q i) (o.KDx i info s) k q *
            (-0.5 * (trace (o.Es info 0) (x info.up0) q - trace (o.Es info 1) (x info.up1) q - given d i info.bc q)) + o.Es info s k q *
            (-(sgn s * ∑ r, o.n_q i r q * o.tractionSkeleton d 0 i info (x info.up0) (x info.up1) r q))) := by
        intro s k
        rw [residual_skeleton]
        apply Finset.sum_congr rfl; intro q _
        rw [traction_skeleton_eq o hm]; ring
      by_cases h0 : info.up0 = u
      · simp only [if_pos h0]
        have hk : ∀ k, (mulVec (o.localOp.skeleton i info 0 0) (x u) + mulVec (o.localOp.skeleton i info 0 1) (x info.up1)) k -
            o.rhsSkeleton d i info 0 0 k = mulVec (o.assembleSkeleton i info 0 0) (x info.up0) k + mulVec (o.assembleSkeleton i info 0 1) (x info.up1) k -
            o.rhsSkeleton d i info 0 0 k := fun k => by rw [h0]; rfl
        simp only [hk, hres]
        rw [test_one _ _ _ _ _ c (nflux_one o c hc i info 0 _) (value_one o c hc info 0), one_mul, ← Finset.sum_neg_distrib]
        apply Finset.sum_congr rfl; intro q _; simp only [sgn, if_true]; ring
      · have h1 : info.up1 = u := hmem.resolve_left h0
        simp only [if_neg h0]
        have hk : ∀ k, (mulVec (o.localOp.skeleton i info 1 0) (x info.up0) + mulVec (o.localOp.skeleton i info 1 1) (x u)) k -
            o.rhsSkeleton d i info 1 0 k = mulVec (o.assembleSkeleton i info 1 0) (x info.up0) k + mulVec (o.assembleSkeleton i info 1 1) (x info.up1) k -
            o.rhsSkeleton d i info 1 0 k := fun k => by rw [h1]; rfl
        simp only [hk, hres]
        rw [test_one _ _ _ _ _ c (nflux_one o c hc i info 1 _) (value_one o c hc info 1), Finset.mul_sum, ← Finset.sum_neg_distrib]
        apply Finset.sum_congr rfl; intro q _; simp [sgn]
  have hk : ∀ k, 0 = c k * (mulVec (o.localOp.volume u) (x u) k - ∑ q, o.J_Q u q * o.ref.W q * o.ref.E_Q k q * d.force u q) +
      c k * (ds.map (fun i => facetTerm o.localOp mulVec x u i ((facetInfo (views r) i).getD ⟨0, 0, 0, 0, 0, 0, false, false, 0⟩) -
      rhsTerm (fun f i s => o.rhsSkeleton d f i s 0) (fun f i => o.rhsBoundary d f i 0)
        u i ((facetInfo (views r) i).getD ⟨0, 0, 0, 0, 0, 0, false, false, 0⟩))).sum k := by
    intro k
    have := congrFun h k
    rw [Pi.add_apply, Pi.sub_apply, Pi.zero_apply] at this
    rw [← mul_add, ← this, mul_zero]
  have hsum : ∀ (l : List Nat) (F : Nat → Fin Nbf → ℝ), ∑ k, c k * (l.map F).sum k = (l.map (fun i => ∑ k, c k * F i k)).sum := by
    intro l F
    induction l with
    | nil => simp
    | cons i l ih =>
      rw [List.map_cons, List.map_cons, List.sum_cons, List.sum_cons, ← ih, ← Finset.sum_add_distrib]
      apply Finset.sum_congr rfl; intro k _; rw [Pi.add_apply]; ring
  have htot : (0 : ℝ) = ∑ k, (c k * (mulVec (o.localOp.volume u) (x u) k - ∑ q, o.J_Q u q * o.ref.W q * o.ref.E_Q k q * d.force u q) +
      c k * (ds.map (fun i => facetTerm o.localOp mulVec x u i ((facetInfo (views r) i).getD ⟨0, 0, 0, 0, 0, 0, false, false, 0⟩) -
      rhsTerm (fun f i s => o.rhsSkeleton d f i s 0) (fun f i => o.rhsBoundary d f i 0)
        u i ((facetInfo (views r) i).getD ⟨0, 0, 0, 0, 0, 0, false, false, 0⟩))).sum k) := by
    rw [← Finset.sum_congr rfl (fun k _ => hk k)]; simp
  rw [Finset.sum_add_distrib, hsum, List.map_congr_left hterm] at htot
  have hvol : ∑ k, c k * (mulVec (o.localOp.volume u) (x u) k - ∑ q, o.J_Q u q * o.ref.W q * o.ref.E_Q k q * d.force u q) =
      - ∑ q, o.J_Q u q * o.ref.W q * d.force u q := by
    simp only [mul_sub, Finset.sum_sub_distrib]
    have e1 : ∑ k, c k * mulVec (o.localOp.volume u) (x u) k = 0 := by
      have hs : ∀ k l, o.assembleVolume u k l = o.assembleVolume u l k := by
        intro k l
        exact congrFun (congrFun (volume_symmetric (o.J_Q u) o.ref.W (o.K u) o.ref.matE_Q_T (kDxQ (o.G_Q u) o.ref.Dxi_Q)) l) k
      calc _ = ∑ l, x u l * mulVec (o.assembleVolume u) (fun k => 1 * c k) l := by
            unfold mulVec
            simp only [Finset.mul_sum]
            rw [Finset.sum_comm]
            apply Finset.sum_congr rfl; intro l _
            apply Finset.sum_congr rfl; intro k _
            have : o.localOp.volume u k l = o.assembleVolume u l k := hs k l
            rw [this]; ring
        _ = 0 := by
            apply Finset.sum_eq_zero; intro l _
            rw [volume_one o c hc, mul_zero]
    have e2 : ∑ k, c k * ∑ q, o.J_Q u q * o.ref.W q * o.ref.E_Q k q * d.force u q = ∑ q, o.J_Q u q * o.ref.W q * d.force u q := by
      simp only [Finset.mul_sum]
      rw [Finset.sum_comm]
      apply Finset.sum_congr rfl; intro q _
      calc _ = o.J_Q u q * o.ref.W q * d.force u q * ∑ k, o.ref.E_Q k q * c k := by
            rw [Finset.mul_sum]; apply Finset.sum_congr rfl; intro k _; ring
        _ = _ := by rw [hcQ, mul_one]
    rw [e1, e2, zero_sub]
  rw [hvol] at htot
  have hneg : (ds.map (fun i => - facetForce o d (views r) x u i)).sum = - (ds.map (facetForce o d (views r) x u)).sum := by
    clear htot hterm h h3 a1 a1' a2 a3 a4 hk
    induction ds with
    | nil => simp
    | cons i l ih => rw [List.map_cons, List.sum_cons, ih, List.map_cons, List.sum_cons]; ring
  rw [hneg] at htot
  linarith

/-! ## The hypotheses of C73 and C74 can be met -/

/-- Two basis functions that add up to one. -/
noncomputable def twoRef : Ref 2 2 1 1 1 :=
  ⟨fun k _ => if k = 0 then 1 / 3 else 2 / 3, fun k _ _ => if k = 0 then 1 else -1, fun _ _ => 1, fun _ => 1,
   fun _ k _ => if k = 0 then 1 / 4 else 3 / 4, fun _ k _ _ => if k = 0 then 1 else -1, fun _ _ _ => 1, fun _ => 1, fun _ _ => 1⟩

theorem twoRef_one : IsOne twoRef (fun _ => 1) where
  value := by intro l q; simp [twoRef, Fin.sum_univ_two]; norm_num
  gradFacet := by intro l e q; simp [twoRef, Fin.sum_univ_two]
  gradVolume := by intro e q; simp [twoRef, Fin.sum_univ_two]

example : ∀ q, ∑ k, twoRef.E_Q k q * (fun _ => 1 : Fin 2 → ℝ) k = 1 := by
  intro q; simp [twoRef, Fin.sum_univ_two]; norm_num

/-- Motion of the elements of the strip; the first two move together. -/
def exMotion (e : List Nat) : Nat := if e = [0, 1, 2] ∨ e = [1, 2, 3] then 7 else e.sum

/-- A strip of five triangles on three ranks with faults everywhere except at one inner and one natural facet: all hypotheses of
`C73_rigid` with a motion that is not the same for all elements. -/
theorem example_rigid (o : Op 2 2 1 1 1) (ho : o.ref = twoRef) : ∃ (num fnum : List Nat → Nat) (views : Nat → View),
    IsDistributed 3 2 Ghosts.exElems num fnum exTag views ∧
    ∀ r, r < 3 → ∃ (d : Data 1 1) (c : Fin 2 → ℝ) (a : Nat → ℝ), IsOne o.ref c ∧
      (∀ (u : Nat) (e : List Nat), (views r).elems[u]? = some e → a u = exMotion e) ∧
      (∀ u, u < (Ghosts.exElems r).length → ∀ q, d.force u q = 0) ∧
      (∀ i info, i < (views r).numLocalFacets → facetInfo (views r) i = some info → info.up0 ≠ info.up1 → ∀ q : Fin 1,
        a info.up0 - a info.up1 = if info.bc = 3 then d.slip i false q else if info.bc = 5 then d.dirichlet i false q else 0) ∧
      (∀ i info, i < (views r).numLocalFacets → facetInfo (views r) i = some info → info.up0 = info.up1 → info.bc ≠ 1 →
        ∀ q : Fin 1, a info.up0 = if info.bc = 3 then d.slip i true q / 2 else if info.bc = 5 then d.dirichlet i true q else 0) := by
  obtain ⟨num, fnum, views, o', h, _⟩ := example_samples (Nbf := 2) (Nbm := 1) (Nq := 1) (nq := 1) .IP twoRef (fun _ _ => 1) (fun _ => 1)
  refine ⟨num, fnum, views, h, ?_⟩
  intro r hr
  have hv := h.view r hr
  refine ⟨⟨fun _ _ => 0, fun i b _ => match facetInfo (views r) i with
      | some info => if b then 2 * exMotion ((views r).elems.getD info.up0 []) else
        exMotion ((views r).elems.getD info.up0 []) - exMotion ((views r).elems.getD info.up1 [])
      | none => 0, fun _ _ _ => 0⟩, fun _ => 1, fun u => exMotion ((views r).elems.getD u []), by rw [ho]; exact twoRef_one, ?_, ?_, ?_, ?_⟩
  · intro u e he; simp only; rw [List.getD_eq_getElem?_getD, he]; rfl
  · intro u _ q; rfl
  · intro i info hi hinfo hne q
    obtain ⟨info', f, e0, e1, g1, g2, g3, g4, g5, g6, g7, _, _, _, _, _, _, _, g14⟩ := C33_facet_info h r hr i hi
    obtain rfl := Option.some.inj (hinfo.symm.trans g1)
    have hne' : e0 ≠ e1 := fun hc => hne (get_inj hv.once g3 (hc ▸ g4))
    have htag := exBCsFit.interior f e0 e1 (mem_inElems hv g3) (mem_inElems hv g4) hne' g5 g6
    simp only [hinfo]
    by_cases h3 : info.bc = 3
    · rw [if_pos h3]; simp
    · rw [if_neg h3]
      rw [g14] at h3
      have hf : f = [1, 2] := by
        unfold exTag at h3 htag
        split at htag
        · omega
        · split at htag
          · assumption
          · simp_all
      have h5 : info.bc ≠ 5 := by rw [g14, hf]; decide
      rw [if_neg h5, List.getD_eq_getElem?_getD, g3, List.getD_eq_getElem?_getD, g4]
      simp only [Option.getD_some]
      have hall : ∀ s, s < 3 → ∀ a ∈ Ghosts.exElems s, a ∈ Ghosts.exAll := by decide
      have hm : ∀ a ∈ Ghosts.exAll, IsFacet a [1, 2] → exMotion a = 7 := by decide
      obtain ⟨s, hs, hs'⟩ := mem_inElems hv g3
      obtain ⟨t, ht, ht'⟩ := mem_inElems hv g4
      rw [hm e0 (hall s hs e0 hs') (hf ▸ g5), hm e1 (hall t ht e1 ht') (hf ▸ g6), sub_self]
  · intro i info hi hinfo hne hbc q
    obtain ⟨info', f, e0, e1, g1, g2, g3, g4, g5, g6, g7, _, _, _, _, _, _, _, g14⟩ := C33_facet_info h r hr i hi
    obtain rfl := Option.some.inj (hinfo.symm.trans g1)
    have he : e0 = e1 := by rw [hne] at g3; exact Option.some.inj (g3.symm.trans g4)
    have htag := exBCsFit.boundary f e0 (mem_inElems hv g3) g5 (fun a ha hfa => by
      rcases g7 a ha hfa with h | h
      · exact h
      · rw [h, he])
    simp only [hinfo]
    have h3 : info.bc = 3 := by
      rw [g14] at hbc ⊢
      rcases htag with h | h | h
      · exact absurd h hbc
      · exact h
      · unfold exTag at h; split at h
        · omega
        · split at h <;> omega
    rw [if_pos h3]; simp

end Tandem.Poisson
