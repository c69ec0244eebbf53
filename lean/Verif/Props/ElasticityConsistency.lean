import Verif.Props.ElasticityMatrix
import Verif.Props.PoissonConsistency
/-! # Properties C73, C74 for the elasticity operator: consistency, rigid motion, traction, conservation of force -/
namespace Tandem.Elasticity
open Tandem.DGTopo Tandem.Spec
open Tandem.DGAssembly
open Tandem.Poisson (Method normalLength unitNormal normal_dot_unit IsOne twoRef twoRef_one exTag exMotion exBCsFit)

variable {dim Nbf Nbm Nq nq : Nat}
variable {P : Nat} {elems : Nat → List (List Nat)} {num fnum tag : List Nat → Nat} {views : Nat → View}

/-- The body force; zero without one. -/
noncomputable def forceOf (d : Data dim Nq nq) (u : Nat) : Fin dim → Fin Nq → ℝ := (d.force.map (fun F => F u)).getD 0

theorem rhsVolume_eq (o : Op dim Nbf Nbm Nq nq) (d : Data dim Nq nq) (e : Nat) (b : Fin Nbf → Fin dim → ℝ) :
    o.rhsVolume d e b = b + fun k p => ∑ q, o.J_Q e q * o.ref.W q * o.ref.E_Q k q * forceOf d e p q := by
  unfold Op.rhsVolume forceOf
  cases d.force with
  | none => funext k p; simp
  | some F => rfl

theorem rhsSkeleton_add (o : Op dim Nbf Nbm Nq nq) (d : Data dim Nq nq) (f : Nat) (i : FacetInfo) (s : Fin 2) (b : Fin Nbf → Fin dim → ℝ) :
    o.rhsSkeleton d f i s b = b + o.rhsSkeleton d f i s 0 := by
  rw [rhsSkeleton_eq, rhsSkeleton_eq o d f i s 0, zero_add]

theorem rhsBoundary_add (o : Op dim Nbf Nbm Nq nq) (d : Data dim Nq nq) (f : Nat) (i : FacetInfo) (b : Fin Nbf → Fin dim → ℝ) :
    o.rhsBoundary d f i b = b + o.rhsBoundary d f i 0 := by
  rw [rhsBoundary_eq, rhsBoundary_eq o d f i 0, zero_add]

/-- The prescribed jump across an interior facet: the slip on a fault, the displacement given for an interior displacement
condition, zero without condition or data. -/
noncomputable def jumpSpec (d : Data dim Nq nq) (f bc : Nat) (p : Fin dim) (q : Fin nq) : ℝ :=
  if bc = 3 then (d.slip.map (fun s => s f false p q)).getD 0
  else if bc = 5 then (d.dirichlet.map (fun g => g f false p q)).getD 0 else 0

/-- The prescribed displacement on a boundary facet: half the slip on a fault. -/
noncomputable def valueSpec (d : Data dim Nq nq) (f bc : Nat) (p : Fin dim) (q : Fin nq) : ℝ :=
  if bc = 3 then (d.slip.map (fun s => s f true p q)).getD 0 / 2
  else if bc = 5 then (d.dirichlet.map (fun g => g f true p q)).getD 0 else 0

theorem given_spec (d : Data dim Nq nq) (f bc : Nat) (p : Fin dim) (q : Fin nq) : given d f bc p q = jumpSpec d f bc p q := by
  unfold given bcSkeleton jumpSpec bcFault bcDirichlet
  by_cases h3 : bc = 3
  · cases d.slip <;> simp [h3]
  · by_cases h5 : bc = 5
    · cases d.dirichlet <;> simp [h5]
    · simp [h3, h5]

theorem givenBnd_spec (d : Data dim Nq nq) (f bc : Nat) (p : Fin dim) (q : Fin nq) : givenBnd d f bc p q = valueSpec d f bc p q := by
  unfold givenBnd bcBoundary valueSpec bcFault bcDirichlet
  by_cases h3 : bc = 3
  · cases d.slip
    · simp [h3]
    · simp [h3]; ring
  · by_cases h5 : bc = 5
    · cases d.dirichlet <;> simp [h5]
    · simp [h3, h5]

/-- Component `p` of the traction through facet `i` out of element `u` tested with basis function `k`. -/
noncomputable def outforce (o : Op dim Nbf Nbm Nq nq) (v : View) (x : Nat → Fin Nbf → Fin dim → ℝ) (u i : Nat) (k : Fin Nbf) (p : Fin dim) : ℝ :=
  match facetInfo v i with
  | some info => if info.up0 = u then ∑ q, o.ref.w q * (o.Es info 0 k q * o.tracs i info 0 (x u) p q)
      else - ∑ q, o.ref.w q * (o.Es info 1 k q * o.tracs i info 1 (x u) p q)
  | none => 0

/-- **C73 (elasticity, consistency)**: displacements with the prescribed jumps and boundary values, continuous tractions and no traction through
natural boundaries, which satisfy the balance (discrete Green formula) in each element, solve the linear system; for both
methods. -/
theorem C73_elasticity_consistency (hd : IsDistributed P dim elems num fnum tag views) (r : Nat) (hr : r < P) (o : Op dim Nbf Nbm Nq nq)
    (d : Data dim Nq nq) (x : Nat → Fin Nbf → Fin dim → ℝ)
    (hjump : ∀ i info, i < (views r).numLocalFacets → facetInfo (views r) i = some info → info.up0 ≠ info.up1 → ∀ p q,
      val (o.Es info 0) (x info.up0) p q - val (o.Es info 1) (x info.up1) p q = jumpSpec d i info.bc p q ∧
      o.tracs i info 0 (x info.up0) p q = o.tracs i info 1 (x info.up1) p q)
    (hbnd : ∀ i info, i < (views r).numLocalFacets → facetInfo (views r) i = some info → info.up0 = info.up1 → ∀ p q,
      if info.bc = 1 then o.tracs i info 0 (x info.up0) p q = 0 else val (o.Es info 0) (x info.up0) p q = valueSpec d i info.bc p q)
    (hbal : ∀ u ds, u < (elems r).length → (views r).down[u]? = some ds → ∀ k p,
      mulVec (o.assembleVolume u) (x u) k p - (ds.map (fun i => outforce o (views r) x u i k p)).sum =
        ∑ q, o.J_Q u q * o.ref.W q * o.ref.E_Q k q * forceOf d u p q) :
    ∃ blocks b, assemble (views r) o.localOp = some blocks ∧ rhs (views r) (o.localRhs d) 0 = some b ∧
      ∀ u, u < (elems r).length → rowApply mulVec blocks x u = b u := by
  have hv := hd.view r hr
  obtain ⟨blocks, b', h1, h2, h3⟩ := residual_spec hd r hr o.localOp mulVec x (o.localRhs d) _ _ _
    (fun e b => rhsVolume_eq o d e b) (fun f i s b => rhsSkeleton_add o d f i s b) (fun f i b => rhsBoundary_add o d f i b)
  refine ⟨blocks, b', h1, h2, ?_⟩
  intro u hu
  have hle := numLocal_le hv
  rw [hv.numLocal] at hle
  have he := List.getElem?_eq_getElem (l := (views r).elems) (i := u) (by omega)
  obtain ⟨ds, a1, a2, a3, a4⟩ := hv.down u _ he
  have h := h3 u ds hu a1
  have hterm : ∀ i ∈ ds, (facetTerm o.localOp mulVec x u i ((facetInfo (views r) i).getD ⟨0, 0, 0, 0, 0, 0, false, false, 0⟩) -
      rhsTerm (fun f i s => o.rhsSkeleton d f i s 0) (fun f i => o.rhsBoundary d f i 0)
        u i ((facetInfo (views r) i).getD ⟨0, 0, 0, 0, 0, 0, false, false, 0⟩)) =
      fun k p => - outforce o (views r) x u i k p := by
    intro i hi
    obtain ⟨f, b1, b2⟩ := (a4 i).1 hi
    have hlt : i < (views r).numLocalFacets := (hv.localFacets i f b1).2 ⟨_, (own_iff hr hd.mesh hv he).2.1 (by rw [hv.numLocal]; exact hu), b2⟩
    obtain ⟨info, g1, g2, g3, g4⟩ := inside_iff hd r hr i hlt
    have hmem := (g4 u ds a1 hu).1 hi
    unfold outforce
    rw [g1, Option.getD_some]
    simp only
    funext k p
    rw [Pi.sub_apply, Pi.sub_apply]
    unfold facetTerm rhsTerm
    by_cases hne : info.up0 = info.up1
    · have h0 : info.up0 = u := by rcases hmem with h | h <;> omega
      have hh := hbnd i info hlt g1 hne
      rw [if_neg (fun h => h hne), if_neg (fun h => h hne), if_pos h0]
      cases hA : o.assembleBoundary i info with
      | none =>
        have hbc : info.bc = 1 := by
          unfold Op.assembleBoundary at hA
          split at hA
          · assumption
          · simp at hA
        have : o.localOp.boundary i info = none := hA
        rw [this]
        simp only [hbc, if_true, h0] at hh
        simp only [hh, mul_zero, Finset.sum_const_zero, neg_zero, Pi.zero_apply, zero_sub, neg_eq_zero]
        rw [rhsBoundary_eq]
        have hg : givenBnd d i info.bc = 0 := by unfold givenBnd bcBoundary; rw [hbc]; rfl
        rw [hg]
        simp [rhsBndLift_zero]
      | some A =>
        have : o.localOp.boundary i info = some A := hA
        have hbc : info.bc ≠ 1 := by
          intro hc
          unfold Op.assembleBoundary at hA
          rw [if_pos (show info.bc = bcNatural from hc)] at hA; simp at hA
        rw [this]
        simp only [if_neg hbc, h0] at hh
        simp only
        rw [residual_boundary o d i info A hA]
        have hz : (fun p q => val (o.Es info 0) (x u) p q - givenBnd d i info.bc p q) = 0 := by
          funext p q
          rw [hh p q, givenBnd_spec, sub_self]; rfl
        rw [hz, ← Finset.sum_neg_distrib]
        apply Finset.sum_congr rfl; intro q _
        have hzq : ∀ p, val (o.Es info 0) (x u) p q - givenBnd d i info.bc p q = 0 := fun p => congrFun (congrFun hz p) q
        simp only [hzq, rhsBndLift_zero, mul_zero, Finset.sum_const_zero]
        ring
    · have hh := hjump i info hlt g1 hne
      rw [if_pos hne, if_pos hne]
      have hz : (fun p q => val (o.Es info 0) (x info.up0) p q - val (o.Es info 1) (x info.up1) p q - given d i info.bc p q) = 0 := by
        funext p q
        rw [(hh p q).1, given_spec, sub_self]; rfl
      have hres : ∀ s : Fin 2, mulVec (o.assembleSkeleton i info s 0) (x info.up0) k p + mulVec (o.assembleSkeleton i info s 1) (x info.up1) k p -
          o.rhsSkeleton d i info s 0 k p =
          ∑ q, o.ref.w q * (- sgn s * o.Es info s k q * o.tracs i info s (x (upOf info s)) p q) := by
        intro s
        rw [residual_skeleton, hz]
        apply Finset.sum_congr rfl; intro q _
        have hzq : ∀ p, val (o.Es info 0) (x info.up0) p q - val (o.Es info 1) (x info.up1) p q - given d i info.bc p q = 0 :=
          fun p => congrFun (congrFun hz p) q
        simp only [hzq, rhsLift_zero, mul_zero, Finset.sum_const_zero]
        have hfl : o.tracs i info s (x (upOf info s)) p q = o.tracs i info 0 (x info.up0) p q := by
          fin_cases s
          · rfl
          · exact ((hh p q).2).symm
        rw [hfl, (hh p q).2]
        ring
      by_cases h0 : info.up0 = u
      · rw [if_pos h0, if_pos h0, if_pos h0]
        have := hres 0
        rw [h0] at this
        simp only [Op.localOp, Pi.add_apply]
        rw [this, ← Finset.sum_neg_distrib]
        apply Finset.sum_congr rfl; intro q _
        simp only [upOf, if_true, h0, sgn]; ring
      · have h1 : info.up1 = u := hmem.resolve_left h0
        rw [if_neg h0, if_neg h0, if_neg h0]
        have := hres 1
        rw [h1] at this
        simp only [Op.localOp, Pi.add_apply]
        rw [this, neg_neg]
        apply Finset.sum_congr rfl; intro q _
        simp only [upOf, show ((1 : Fin 2) = 0) = False by simp, if_false, h1, sgn]; ring
  rw [List.map_congr_left hterm] at h
  rw [← sub_eq_zero, h]
  funext k p
  have hb := hbal u ds hu a1 k p
  have hsum : (ds.map (fun i => fun k p => - outforce o (views r) x u i k p)).sum k p = - (ds.map (fun i => outforce o (views r) x u i k p)).sum := by
    clear h3 h a1 a3 a4 hterm hb a2
    induction ds with
    | nil => simp
    | cons i l ih => rw [List.map_cons, List.sum_cons, Pi.add_apply, Pi.add_apply, ih, List.map_cons, List.sum_cons]; ring
  rw [Pi.add_apply, Pi.add_apply, Pi.sub_apply, Pi.sub_apply, hsum, Pi.zero_apply, Pi.zero_apply]
  change mulVec (o.assembleVolume u) (x u) k p - _ + _ = 0
  linarith


/-! ## Displacements without strain -/

/-- The displacement with coefficients `v` has no strain: at every point `∂_s v_r + ∂_r v_s = 0`. -/
def StrainFree {n : Nat} (Dx : Fin Nbf → Fin dim → Fin n → ℝ) (v : Fin Nbf → Fin dim → ℝ) : Prop :=
  ∀ r s q, (∑ l, Dx l s q * v l r) + (∑ l, Dx l r q * v l s) = 0

theorem strainFree_grad {n : Nat} {Dx : Fin Nbf → Fin dim → Fin n → ℝ} {v : Fin Nbf → Fin dim → ℝ} (h : StrainFree Dx v)
    (r s : Fin dim) (q : Fin n) : grad Dx v r s q + grad Dx v s r q = 0 := h r s q

theorem strainFree_div {n : Nat} {Dx : Fin Nbf → Fin dim → Fin n → ℝ} {v : Fin Nbf → Fin dim → ℝ} (h : StrainFree Dx v)
    (q : Fin n) : ∑ r, grad Dx v r r q = 0 := by
  apply Finset.sum_eq_zero; intro r _
  have := strainFree_grad h r r q
  linarith

theorem strainFree_trac {lam mu : Fin nq → ℝ} {Dx : Fin Nbf → Fin dim → Fin nq → ℝ} {v : Fin Nbf → Fin dim → ℝ} (h : StrainFree Dx v)
    (n : Fin dim → Fin nq → ℝ) (p : Fin dim) (q : Fin nq) : trac lam mu Dx n v p q = 0 := by
  unfold trac
  rw [strainFree_div h]
  simp only [strainFree_grad h, zero_mul, Finset.sum_const_zero, mul_zero, add_zero]

theorem strainFree_volume (o : Op dim Nbf Nbm Nq nq) (e : Nat) (v : Fin Nbf → Fin dim → ℝ)
    (h : StrainFree (kDx (o.G_Q e) o.ref.Dxi_Q) v) (k : Fin Nbf) (p : Fin dim) : mulVec (o.assembleVolume e) v k p = 0 := by
  unfold Op.assembleVolume
  rw [volume_mul]
  apply Finset.sum_eq_zero; intro q _
  rw [strainFree_div h]
  simp only [strainFree_grad h, mul_zero, Finset.sum_const_zero, add_zero]

/-- **C73 (elasticity, rigid motion)**: displacements without strain that have the prescribed jumps and boundary values solve
the linear system without body force. -/
theorem C73_elasticity_rigid (hd : IsDistributed P dim elems num fnum tag views) (r : Nat) (hr : r < P) (o : Op dim Nbf Nbm Nq nq)
    (d : Data dim Nq nq) (x : Nat → Fin Nbf → Fin dim → ℝ)
    (hvol : ∀ u, u < (elems r).length → StrainFree (kDx (o.G_Q u) o.ref.Dxi_Q) (x u))
    (hfct : ∀ i info s, i < (views r).numLocalFacets → facetInfo (views r) i = some info →
      StrainFree (kDx (o.JInv i s) (o.ref.Dxi_q (localNoOf info s))) (x (upOf info s)))
    (hforce : ∀ u, u < (elems r).length → ∀ p q, forceOf d u p q = 0)
    (hjump : ∀ i info, i < (views r).numLocalFacets → facetInfo (views r) i = some info → info.up0 ≠ info.up1 → ∀ p q,
      val (o.Es info 0) (x info.up0) p q - val (o.Es info 1) (x info.up1) p q = jumpSpec d i info.bc p q)
    (hbnd : ∀ i info, i < (views r).numLocalFacets → facetInfo (views r) i = some info → info.up0 = info.up1 → info.bc ≠ 1 →
      ∀ p q, val (o.Es info 0) (x info.up0) p q = valueSpec d i info.bc p q) :
    ∃ blocks b, assemble (views r) o.localOp = some blocks ∧ rhs (views r) (o.localRhs d) 0 = some b ∧
      ∀ u, u < (elems r).length → rowApply mulVec blocks x u = b u := by
  have ht : ∀ i info s, i < (views r).numLocalFacets → facetInfo (views r) i = some info → ∀ p q,
      o.tracs i info s (x (upOf info s)) p q = 0 := by
    intro i info s h1 h2 p q
    exact strainFree_trac (hfct i info s h1 h2) _ _ _
  have hv := hd.view r hr
  refine C73_elasticity_consistency hd r hr o d x ?_ ?_ ?_
  · intro i info h1 h2 h3 p q
    refine ⟨hjump i info h1 h2 h3 p q, ?_⟩
    have e0 := ht i info 0 h1 h2 p q
    have e1 := ht i info 1 h1 h2 p q
    exact e0.trans e1.symm
  · intro i info h1 h2 h3 p q
    split
    · exact ht i info 0 h1 h2 p q
    · next h => exact hbnd i info h1 h2 h3 h p q
  · intro u ds hu hds k p
    rw [strainFree_volume o u _ (hvol u hu)]
    have hle := numLocal_le hv
    rw [hv.numLocal] at hle
    have he := List.getElem?_eq_getElem (l := (views r).elems) (i := u) (by omega)
    obtain ⟨ds', a1', a2, a3, a4⟩ := hv.down u _ he
    obtain rfl := Option.some.inj (hds.symm.trans a1')
    have h0 : ∀ i ∈ ds, outforce o (views r) x u i k p = 0 := by
      intro i hi
      obtain ⟨f, b1, b2⟩ := (a4 i).1 hi
      have hlt : i < (views r).numLocalFacets := (hv.localFacets i f b1).2 ⟨_, (own_iff hr hd.mesh hv he).2.1 (by rw [hv.numLocal]; exact hu), b2⟩
      obtain ⟨info, g1, g2, g3, g4⟩ := inside_iff hd r hr i hlt
      have hmem := (g4 u ds hds hu).1 hi
      unfold outforce
      rw [g1]
      simp only
      by_cases h0 : info.up0 = u
      · rw [if_pos h0]
        have := ht i info 0 hlt g1
        simp only [upOf, if_true, h0] at this
        simp [this]
      · have h1 : info.up1 = u := hmem.resolve_left h0
        rw [if_neg h0]
        have := ht i info 1 hlt g1
        simp only [upOf, show ((1 : Fin 2) = 0) = False by simp, if_false, h1] at this
        simp [this]
    rw [List.map_congr_left (g := fun _ => (0 : ℝ)) h0]
    simp only [hforce u hu, mul_zero, Finset.sum_const_zero, zero_sub, neg_eq_zero]
    simp

/-- Coefficients of the coordinates: coordinate `r` has derivative one in direction `r` and zero in the others. -/
structure IsCoordinates {n : Nat} (Dx : Fin Nbf → Fin dim → Fin n → ℝ) (X : Fin dim → Fin Nbf → ℝ) : Prop where
  grad : ∀ r s q, ∑ l, Dx l s q * X r l = if r = s then 1 else 0

/-- Translation plus infinitesimal rotation: `a + B x` with `B` antisymmetric. -/
noncomputable def rigidMotion (c : Fin Nbf → ℝ) (X : Fin dim → Fin Nbf → ℝ) (a : Fin dim → ℝ) (B : Fin dim → Fin dim → ℝ) :
    Fin Nbf → Fin dim → ℝ := fun k p => a p * c k + ∑ r, B p r * X r k

theorem rigidMotion_strainFree {n : Nat} (Dx : Fin Nbf → Fin dim → Fin n → ℝ) (c : Fin Nbf → ℝ) (hc : ∀ s q, ∑ l, Dx l s q * c l = 0)
    (X : Fin dim → Fin Nbf → ℝ) (hX : IsCoordinates Dx X) (a : Fin dim → ℝ) (B : Fin dim → Fin dim → ℝ) (hB : ∀ p r, B p r = - B r p) :
    StrainFree Dx (rigidMotion c X a B) := by
  have h : ∀ p s q, ∑ l, Dx l s q * rigidMotion c X a B l p = B p s := by
    intro p s q
    unfold rigidMotion
    calc _ = a p * (∑ l, Dx l s q * c l) + ∑ r, B p r * ∑ l, Dx l s q * X r l := by
          simp only [Finset.mul_sum]
          rw [Finset.sum_comm, ← Finset.sum_add_distrib]
          apply Finset.sum_congr rfl; intro l _
          rw [mul_add, Finset.mul_sum]
          congr 1
          · ring
          · apply Finset.sum_congr rfl; intro r _; ring
      _ = _ := by rw [hc]; simp [hX.grad]
  intro r s q
  rw [h, h, hB r s]; ring

theorem kDx_one {n : Nat} (G : Fin dim → Fin dim → Fin n → ℝ) (Dxi : Fin Nbf → Fin dim → Fin n → ℝ) (c : Fin Nbf → ℝ)
    (hc : ∀ e q, ∑ k, Dxi k e q * c k = 0) (s : Fin dim) (q : Fin n) : ∑ l, kDx G Dxi l s q * c l = 0 := by
  unfold kDx
  simp only [Finset.sum_mul]
  rw [Finset.sum_comm]
  apply Finset.sum_eq_zero; intro e _
  have : ∑ l, G e s q * Dxi l e q * c l = G e s q * ∑ l, Dxi l e q * c l := by
    rw [Finset.mul_sum]; apply Finset.sum_congr rfl; intro l _; ring
  rw [this, hc, mul_zero]

/-! ## C74: traction -/

theorem nl_unit (o : Op dim Nbf Nbm Nq nq) (f : Nat) (j : Fin dim) (q : Fin nq) : o.nl_q f q * o.n_unit_q f j q = o.n_q f j q := by
  unfold Op.nl_q Op.n_unit_q unitNormal normalLength
  by_cases h : 0 < ∑ i, o.n_q f i q * o.n_q f i q
  · rw [if_pos h, mul_div_cancel₀ _ (Real.sqrt_pos.2 h).ne']
  · have h0 : ∑ i, o.n_q f i q * o.n_q f i q = 0 :=
      le_antisymm (not_lt.1 h) (Finset.sum_nonneg (fun j _ => mul_self_nonneg _))
    have := (Finset.sum_eq_zero_iff_of_nonneg (fun i _ => mul_self_nonneg _)).1 h0 j (Finset.mem_univ j)
    rw [h0, Real.sqrt_zero, zero_mul, mul_self_eq_zero.1 this]

theorem trac_scale (lam mu : Fin nq → ℝ) (Dx : Fin Nbf → Fin dim → Fin nq → ℝ) (n n' : Fin dim → Fin nq → ℝ) (z : Fin nq → ℝ)
    (h : ∀ j q, z q * n j q = n' j q) (v : Fin Nbf → Fin dim → ℝ) (p : Fin dim) (q : Fin nq) :
    z q * trac lam mu Dx n v p q = trac lam mu Dx n' v p q := by
  unfold trac
  simp only [← h]
  have e : ∑ j, (grad Dx v p j q + grad Dx v j p q) * (z q * n j q) = z q * ∑ j, (grad Dx v p j q + grad Dx v j p q) * n j q := by
    rw [Finset.mul_sum]; apply Finset.sum_congr rfl; intro j _; ring
  rw [e]; ring

theorem traction_skeleton_eq (o : Op dim Nbf Nbm Nq nq) (hm : o.method = .IP) (d : Data dim Nq nq) (f : Nat) (i : FacetInfo)
    (u0 u1 : Fin Nbf → Fin dim → ℝ) (p : Fin dim) (q : Fin nq) :
    o.nl_q f q * o.tractionSkeleton d 0 f i u0 u1 p q =
      0.5 * (o.tracs f i 0 u0 p q + o.tracs f i 1 u1 p q) -
        o.penalty f * o.rhsSkeletonLift f i (fun p q => val (o.Es i 0) u0 p q - val (o.Es i 1) u1 p q - given d f i.bc p q) p q := by
  unfold Op.tractionSkeleton kComputeTraction Op.tracs
  simp only [traction_eq]
  unfold Op.rhsSkeletonLift
  simp only [hm, kRhsLiftIp]
  rw [← trac_scale _ _ _ (o.n_unit_q f) (o.n_q f) (o.nl_q f) (nl_unit o f), ← trac_scale _ _ _ (o.n_unit_q f) (o.n_q f) (o.nl_q f) (nl_unit o f)]
  unfold given val
  ring

theorem traction_boundary_eq (o : Op dim Nbf Nbm Nq nq) (hm : o.method = .IP) (d : Data dim Nq nq) (f : Nat) (i : FacetInfo)
    (u0 : Fin Nbf → Fin dim → ℝ) (p : Fin dim) (q : Fin nq) :
    o.nl_q f q * o.tractionBoundary d 0 f i u0 p q = o.tracs f i 0 u0 p q -
        o.penalty f * o.rhsBoundaryLift f i (fun p q => val (o.Es i 0) u0 p q - givenBnd d f i.bc p q) p q := by
  unfold Op.tractionBoundary kComputeTractionBnd Op.tracs
  simp only [traction_eq]
  unfold Op.rhsBoundaryLift
  simp only [hm, kRhsLiftIp]
  rw [← trac_scale _ _ _ (o.n_unit_q f) (o.n_q f) (o.nl_q f) (nl_unit o f)]
  unfold givenBnd val
  ring

/-- **C74 (elasticity, traction on an interior facet)**: the traction reported for a fault is the numerical flux of the
discretization; both sides feel it with opposite signs. -/
theorem C74_elasticity_traction_skeleton (o : Op dim Nbf Nbm Nq nq) (hm : o.method = .IP) (d : Data dim Nq nq) (junk : Fin dim → Fin nq → ℝ)
    (f : Nat) (i : FacetInfo) (hbc : (i.bc = 3 ∧ d.slip.isSome) ∨ (i.bc = 5 ∧ d.dirichlet.isSome)) (s : Fin 2)
    (u0 u1 : Fin Nbf → Fin dim → ℝ) (k : Fin Nbf) (p : Fin dim) :
    mulVec (o.assembleSkeleton f i s 0) u0 k p + mulVec (o.assembleSkeleton f i s 1) u1 k p - o.rhsSkeleton d f i s 0 k p =
    ∑ q, o.ref.w q * (-0.5 * (∑ u, o.T f i s k p u q * (val (o.Es i 0) u0 u q - val (o.Es i 1) u1 u q - jumpSpec d f i.bc u q)) -
      (if s = 0 then 1 else -1) * o.Es i s k q * (o.nl_q f q * o.tractionSkeleton d junk f i u0 u1 p q)) := by
  have hj : o.tractionSkeleton d junk f i u0 u1 = o.tractionSkeleton d 0 f i u0 u1 := by
    have hsome : ∃ g, bcSkeleton d f i.bc = some g := by
      unfold bcSkeleton bcFault bcDirichlet
      rcases hbc with h | h
      · obtain ⟨g, hg⟩ := Option.isSome_iff_exists.1 h.2
        exact ⟨_, by rw [if_pos h, hg]; rfl⟩
      · obtain ⟨g, hg⟩ := Option.isSome_iff_exists.1 h.2
        exact ⟨_, by rw [if_neg (by omega), if_pos h, hg]; rfl⟩
    obtain ⟨g, hg⟩ := hsome
    unfold Op.tractionSkeleton
    rw [hg]; rfl
  rw [residual_skeleton, hj]
  apply Finset.sum_congr rfl; intro q _
  rw [traction_skeleton_eq o hm]
  simp only [given_spec]
  rfl

/-- **C74 (elasticity, traction on a boundary facet)**. -/
theorem C74_elasticity_traction_boundary (o : Op dim Nbf Nbm Nq nq) (hm : o.method = .IP) (d : Data dim Nq nq) (junk : Fin dim → Fin nq → ℝ)
    (f : Nat) (i : FacetInfo) (hbc : (i.bc = 3 ∧ d.slip.isSome) ∨ (i.bc = 5 ∧ d.dirichlet.isSome))
    (u0 : Fin Nbf → Fin dim → ℝ) (k : Fin Nbf) (p : Fin dim) :
    ∃ A, o.assembleBoundary f i = some A ∧ mulVec A u0 k p - o.rhsBoundary d f i 0 k p =
    ∑ q, o.ref.w q * (- (∑ u, o.T f i 0 k p u q * (val (o.Es i 0) u0 u q - valueSpec d f i.bc u q)) -
      o.Es i 0 k q * (o.nl_q f q * o.tractionBoundary d junk f i u0 p q)) := by
  have hnat : i.bc ≠ bcNatural := by unfold bcNatural; omega
  refine ⟨_, by unfold Op.assembleBoundary; rw [if_neg hnat], ?_⟩
  rw [residual_boundary o d f i _ (by unfold Op.assembleBoundary; rw [if_neg hnat])]
  have hj : o.tractionBoundary d junk f i u0 = o.tractionBoundary d 0 f i u0 := by
    have hsome : ∃ g, bcBoundary d f i.bc = some g := by
      unfold bcBoundary bcFault bcDirichlet
      rcases hbc with h | h
      · obtain ⟨g, hg⟩ := Option.isSome_iff_exists.1 h.2
        exact ⟨_, by rw [if_pos h, hg]; rfl⟩
      · obtain ⟨g, hg⟩ := Option.isSome_iff_exists.1 h.2
        exact ⟨_, by rw [if_neg (by omega), if_pos h, hg]; rfl⟩
    obtain ⟨g, hg⟩ := hsome
    unfold Op.tractionBoundary
    rw [hg]; rfl
  rw [hj]
  apply Finset.sum_congr rfl; intro q _
  rw [traction_boundary_eq o hm]
  simp only [givenBnd_spec]

/-! ## C74: conservation -/

/-- The work done on element `u` through facet `i` by the reported traction (with the length of the normal as the element of
area; facets without condition count as faults without slip; natural boundaries are free) along the displacement `th`. -/
noncomputable def facetWork (o : Op dim Nbf Nbm Nq nq) (d : Data dim Nq nq) (v : View) (x : Nat → Fin Nbf → Fin dim → ℝ)
    (th : Fin Nbf → Fin dim → ℝ) (u i : Nat) : ℝ :=
  match facetInfo v i with
  | some info =>
    if info.up0 ≠ info.up1 then
      if info.up0 = u then ∑ q, o.ref.w q * (o.nl_q i q * ∑ p, (∑ l, o.Es info 0 l q * th l p) * o.tractionSkeleton d 0 i info (x info.up0) (x info.up1) p q)
      else - ∑ q, o.ref.w q * (o.nl_q i q * ∑ p, (∑ l, o.Es info 1 l q * th l p) * o.tractionSkeleton d 0 i info (x info.up0) (x info.up1) p q)
    else if info.bc = 1 then 0
    else ∑ q, o.ref.w q * (o.nl_q i q * ∑ p, (∑ l, o.Es info 0 l q * th l p) * o.tractionBoundary d 0 i info (x info.up0) p q)
  | none => 0

theorem test_strainFree (c : ℝ) (w lam mu : Fin nq → ℝ) (Dx : Fin Nbf → Fin dim → Fin nq → ℝ) (n : Fin dim → Fin nq → ℝ)
    (E : Fin Nbf → Fin nq → ℝ) (th : Fin Nbf → Fin dim → ℝ) (h : StrainFree Dx th) (a b : Fin dim → Fin nq → ℝ) :
    ∑ k, ∑ p, th k p * ∑ q, w q * (c * (∑ u, kTractionOp lam mu Dx n k p u q * a u q) + E k q * b p q) =
      ∑ q, w q * ∑ p, (∑ l, E l q * th l p) * b p q := by
  have hz : ∀ q, ∑ k, ∑ p, th k p * (c * ∑ u, kTractionOp lam mu Dx n k p u q * a u q) = 0 := by
    intro q
    calc _ = c * ∑ u, (∑ k, ∑ p, kTractionOp lam mu Dx n k p u q * th k p) * a u q := by
          simp only [Finset.mul_sum, Finset.sum_mul]
          rw [Finset.sum_comm' (t' := Finset.univ) (s' := fun _ => Finset.univ) (by simp)]
          have : ∑ u : Fin dim, ∑ k : Fin Nbf, ∑ p, c * (kTractionOp lam mu Dx n k p u q * th k p * a u q) =
              ∑ k : Fin Nbf, ∑ p, ∑ u, c * (kTractionOp lam mu Dx n k p u q * th k p * a u q) := by
            rw [Finset.sum_comm]
            apply Finset.sum_congr rfl; intro k _
            rw [Finset.sum_comm]
          rw [this, Finset.sum_comm]
          apply Finset.sum_congr rfl; intro k _
          apply Finset.sum_congr rfl; intro p _
          apply Finset.sum_congr rfl; intro u _; ring
      _ = 0 := by
          simp only [trac_op, strainFree_trac h, zero_mul, Finset.sum_const_zero, mul_zero]
  have hsw : ∑ k, ∑ p, th k p * ∑ q, w q * (c * (∑ u, kTractionOp lam mu Dx n k p u q * a u q) + E k q * b p q) =
      ∑ q, w q * (∑ k, ∑ p, th k p * (c * ∑ u, kTractionOp lam mu Dx n k p u q * a u q) + ∑ k, ∑ p, th k p * (E k q * b p q)) := by
    have : ∀ k p, th k p * ∑ q, w q * (c * (∑ u, kTractionOp lam mu Dx n k p u q * a u q) + E k q * b p q) =
        ∑ q, w q * (th k p * (c * ∑ u, kTractionOp lam mu Dx n k p u q * a u q) + th k p * (E k q * b p q)) := by
      intro k p
      rw [Finset.mul_sum]; apply Finset.sum_congr rfl; intro q _; ring
    simp only [this]
    have h2 : ∀ k, ∑ p, ∑ q, w q * (th k p * (c * ∑ u, kTractionOp lam mu Dx n k p u q * a u q) + th k p * (E k q * b p q)) =
        ∑ q, w q * ((∑ p, th k p * (c * ∑ u, kTractionOp lam mu Dx n k p u q * a u q)) + ∑ p, th k p * (E k q * b p q)) := by
      intro k
      rw [Finset.sum_comm]
      apply Finset.sum_congr rfl; intro q _
      rw [← Finset.mul_sum, Finset.sum_add_distrib]
    simp only [h2]
    rw [Finset.sum_comm]
    apply Finset.sum_congr rfl; intro q _
    rw [← Finset.mul_sum, Finset.sum_add_distrib]
  rw [hsw]
  apply Finset.sum_congr rfl; intro q _
  rw [hz, zero_add]
  congr 1
  rw [Finset.sum_comm]
  apply Finset.sum_congr rfl; intro p _
  rw [Finset.sum_mul]
  apply Finset.sum_congr rfl; intro l _; ring

/-- **C74 (elasticity, virtual work)**: if row `u` of the linear system holds, the reported tractions on the facets of the
element and the body force do no work along displacements without strain. -/
theorem C74_elasticity_work (hd : IsDistributed P dim elems num fnum tag views) (r : Nat) (hr : r < P) (o : Op dim Nbf Nbm Nq nq)
    (hm : o.method = .IP) (d : Data dim Nq nq) (x : Nat → Fin Nbf → Fin dim → ℝ) :
    ∃ blocks b, assemble (views r) o.localOp = some blocks ∧ rhs (views r) (o.localRhs d) 0 = some b ∧
      ∀ u ds th, u < (elems r).length → (views r).down[u]? = some ds → rowApply mulVec blocks x u = b u →
        StrainFree (kDx (o.G_Q u) o.ref.Dxi_Q) th →
        (∀ i info s, i ∈ ds → facetInfo (views r) i = some info → upOf info s = u →
          StrainFree (kDx (o.JInv i s) (o.ref.Dxi_q (localNoOf info s))) th) →
        (ds.map (facetWork o d (views r) x th u)).sum + ∑ q, o.J_Q u q * o.ref.W q * ∑ p, (∑ l, o.ref.E_Q l q * th l p) * forceOf d u p q = 0 := by
  have hv := hd.view r hr
  obtain ⟨blocks, b', h1, h2, h3⟩ := residual_spec hd r hr o.localOp mulVec x (o.localRhs d) _ _ _
    (fun e b => rhsVolume_eq o d e b) (fun f i s b => rhsSkeleton_add o d f i s b) (fun f i b => rhsBoundary_add o d f i b)
  refine ⟨blocks, b', h1, h2, ?_⟩
  intro u ds th hu a1 hrow hvs hfs
  have hle := numLocal_le hv
  rw [hv.numLocal] at hle
  have he := List.getElem?_eq_getElem (l := (views r).elems) (i := u) (by omega)
  obtain ⟨ds', a1', a2, a3, a4⟩ := hv.down u _ he
  obtain rfl := Option.some.inj (a1.symm.trans a1')
  have h := h3 u ds hu a1
  rw [hrow, sub_self] at h
  have hneg : ∀ (w nl : Fin nq → ℝ) (V t : Fin dim → Fin nq → ℝ) (z : ℝ), ∑ q, w q * ∑ p, V p q * (z * (nl q * t p q)) =
      z * ∑ q, w q * (nl q * ∑ p, V p q * t p q) := by
    intro w nl V t z
    rw [Finset.mul_sum]
    apply Finset.sum_congr rfl; intro q _
    simp only [Finset.mul_sum]
    apply Finset.sum_congr rfl; intro p _; ring
  have hterm : ∀ i ∈ ds, ∑ k, ∑ p, th k p * (facetTerm o.localOp mulVec x u i ((facetInfo (views r) i).getD ⟨0, 0, 0, 0, 0, 0, false, false, 0⟩) -
      rhsTerm (fun f i s => o.rhsSkeleton d f i s 0) (fun f i => o.rhsBoundary d f i 0)
        u i ((facetInfo (views r) i).getD ⟨0, 0, 0, 0, 0, 0, false, false, 0⟩)) k p =
      - facetWork o d (views r) x th u i := by
    intro i hi
    obtain ⟨f, b1, b2⟩ := (a4 i).1 hi
    have hlt : i < (views r).numLocalFacets := (hv.localFacets i f b1).2 ⟨_, (own_iff hr hd.mesh hv he).2.1 (by rw [hv.numLocal]; exact hu), b2⟩
    obtain ⟨info, g1, g2, g3, g4⟩ := inside_iff hd r hr i hlt
    have hmem := (g4 u ds a1 hu).1 hi
    unfold facetWork
    rw [g1, Option.getD_some]
    simp only [Pi.sub_apply]
    unfold facetTerm rhsTerm
    by_cases hne : info.up0 = info.up1
    · have h0 : info.up0 = u := by rcases hmem with h | h <;> omega
      have hne' : ¬ (info.up0 ≠ info.up1) := fun h => h hne
      simp only [if_neg hne']
      cases hA : o.assembleBoundary i info with
      | none =>
        have hbc : info.bc = 1 := by
          unfold Op.assembleBoundary at hA
          split at hA
          · assumption
          · simp at hA
        have : o.localOp.boundary i info = none := hA
        rw [this, if_pos hbc]
        have hg : givenBnd d i info.bc = 0 := by funext p q; rw [givenBnd_spec, hbc]; rfl
        simp only [rhsBoundary_eq, hg]
        simp [rhsBndLift_zero]
      | some A =>
        have : o.localOp.boundary i info = some A := hA
        have hbc : info.bc ≠ 1 := by
          intro hc
          unfold Op.assembleBoundary at hA
          rw [if_pos (show info.bc = bcNatural from hc)] at hA; simp at hA
        rw [this, if_neg hbc]
        simp only
        have hres : ∀ k p, mulVec A (x u) k p - o.rhsBoundary d i info 0 k p = ∑ q, o.ref.w q * (-1 *
            (∑ v, kTractionOp (o.lamq info 0) (o.muq info 0) (kDx (o.JInv i 0) (o.ref.Dxi_q (localNoOf info 0))) (o.n_q i) k p v q *
              (val (o.Es info 0) (x info.up0) v q - givenBnd d i info.bc v q)) + o.Es info 0 k q *
            (-1 * (o.nl_q i q * o.tractionBoundary d 0 i info (x info.up0) p q))) := by
          intro k p
          rw [← h0, residual_boundary o d i info A hA]
          apply Finset.sum_congr rfl; intro q _
          rw [traction_boundary_eq o hm]
          unfold Op.T Op.Dx
          ring
        simp only [hres]
        rw [test_strainFree (h := hfs i info 0 hi g1 h0), hneg]
        ring
    · simp only [if_pos (show info.up0 ≠ info.up1 from hne)]
      have hres : ∀ (s : Fin 2) k p, mulVec (o.assembleSkeleton i info s 0) (x info.up0) k p + mulVec (o.assembleSkeleton i info s 1) (x info.up1) k p -
          o.rhsSkeleton d i info s 0 k p = ∑ q, o.ref.w q * (-0.5 *
            (∑ v, kTractionOp (o.lamq info s) (o.muq info s) (kDx (o.JInv i s) (o.ref.Dxi_q (localNoOf info s))) (o.n_q i) k p v q *
              (val (o.Es info 0) (x info.up0) v q - val (o.Es info 1) (x info.up1) v q - given d i info.bc v q)) + o.Es info s k q *
            (-sgn s * (o.nl_q i q * o.tractionSkeleton d 0 i info (x info.up0) (x info.up1) p q))) := by
        intro s k p
        rw [residual_skeleton]
        apply Finset.sum_congr rfl; intro q _
        rw [traction_skeleton_eq o hm]
        unfold Op.T Op.Dx
        ring
      by_cases h0 : info.up0 = u
      · simp only [if_pos h0]
        have hk : ∀ k p, (mulVec (o.localOp.skeleton i info 0 0) (x u) + mulVec (o.localOp.skeleton i info 0 1) (x info.up1)) k p -
            o.rhsSkeleton d i info 0 0 k p = mulVec (o.assembleSkeleton i info 0 0) (x info.up0) k p + mulVec (o.assembleSkeleton i info 0 1) (x info.up1) k p -
            o.rhsSkeleton d i info 0 0 k p := fun k p => by rw [h0]; rfl
        simp only [hk, hres]
        rw [test_strainFree (h := hfs i info 0 hi g1 h0), hneg]
        simp [sgn]
      · have h1 : info.up1 = u := hmem.resolve_left h0
        simp only [if_neg h0]
        have hk : ∀ k p, (mulVec (o.localOp.skeleton i info 1 0) (x info.up0) + mulVec (o.localOp.skeleton i info 1 1) (x u)) k p -
            o.rhsSkeleton d i info 1 0 k p = mulVec (o.assembleSkeleton i info 1 0) (x info.up0) k p + mulVec (o.assembleSkeleton i info 1 1) (x info.up1) k p -
            o.rhsSkeleton d i info 1 0 k p := fun k p => by rw [h1]; rfl
        simp only [hk, hres]
        rw [test_strainFree (h := hfs i info 1 hi g1 (by simpa [upOf] using h1)), hneg]
        simp [sgn]
  have hk : ∀ k p, 0 = th k p * (mulVec (o.localOp.volume u) (x u) k p - ∑ q, o.J_Q u q * o.ref.W q * o.ref.E_Q k q * forceOf d u p q) +
      th k p * (ds.map (fun i => facetTerm o.localOp mulVec x u i ((facetInfo (views r) i).getD ⟨0, 0, 0, 0, 0, 0, false, false, 0⟩) -
      rhsTerm (fun f i s => o.rhsSkeleton d f i s 0) (fun f i => o.rhsBoundary d f i 0)
        u i ((facetInfo (views r) i).getD ⟨0, 0, 0, 0, 0, 0, false, false, 0⟩))).sum k p := by
    intro k p
    have := congrFun (congrFun h k) p
    rw [Pi.add_apply, Pi.add_apply, Pi.sub_apply, Pi.sub_apply, Pi.zero_apply, Pi.zero_apply] at this
    rw [← mul_add, ← this, mul_zero]
  have hsum : ∀ (l : List Nat) (F : Nat → Fin Nbf → Fin dim → ℝ), ∑ k, ∑ p, th k p * (l.map F).sum k p = (l.map (fun i => ∑ k, ∑ p, th k p * F i k p)).sum := by
    intro l F
    induction l with
    | nil => simp
    | cons i l ih =>
      rw [List.map_cons, List.map_cons, List.sum_cons, List.sum_cons, ← ih, ← Finset.sum_add_distrib]
      apply Finset.sum_congr rfl; intro k _
      rw [← Finset.sum_add_distrib]
      apply Finset.sum_congr rfl; intro p _; rw [Pi.add_apply, Pi.add_apply]; ring
  have htot : (0 : ℝ) = ∑ k, ∑ p, (th k p * (mulVec (o.localOp.volume u) (x u) k p - ∑ q, o.J_Q u q * o.ref.W q * o.ref.E_Q k q * forceOf d u p q) +
      th k p * (ds.map (fun i => facetTerm o.localOp mulVec x u i ((facetInfo (views r) i).getD ⟨0, 0, 0, 0, 0, 0, false, false, 0⟩) -
      rhsTerm (fun f i s => o.rhsSkeleton d f i s 0) (fun f i => o.rhsBoundary d f i 0)
        u i ((facetInfo (views r) i).getD ⟨0, 0, 0, 0, 0, 0, false, false, 0⟩))).sum k p) := by
    rw [← Finset.sum_congr rfl (fun k _ => Finset.sum_congr rfl (fun p _ => hk k p))]; simp
  simp only [Finset.sum_add_distrib] at htot
  rw [hsum, List.map_congr_left hterm] at htot
  have hvol : ∑ k, ∑ p, th k p * (mulVec (o.localOp.volume u) (x u) k p - ∑ q, o.J_Q u q * o.ref.W q * o.ref.E_Q k q * forceOf d u p q) =
      - ∑ q, o.J_Q u q * o.ref.W q * ∑ p, (∑ l, o.ref.E_Q l q * th l p) * forceOf d u p q := by
    simp only [mul_sub, Finset.sum_sub_distrib]
    have e1 : ∑ k, ∑ p, th k p * mulVec (o.localOp.volume u) (x u) k p = 0 := by
      have hs : ∀ k p l v, o.assembleVolume u k p l v = o.assembleVolume u l v k p := by
        intro k p l v
        exact congrFun (congrFun (congrFun (congrFun (volume_symmetric (o.lamWJ u) (o.muWJ u) (kDx (o.G_Q u) o.ref.Dxi_Q)) l) v) k) p
      calc _ = ∑ k, ∑ p, ∑ l, ∑ v, o.assembleVolume u l v k p * th k p * x u l v := by
            apply Finset.sum_congr rfl; intro k _
            apply Finset.sum_congr rfl; intro p _
            unfold mulVec
            simp only [Finset.mul_sum]
            apply Finset.sum_congr rfl; intro l _
            apply Finset.sum_congr rfl; intro v _
            have : o.localOp.volume u k p l v = o.assembleVolume u l v k p := hs k p l v
            rw [this]; ring
        _ = ∑ l, ∑ v, x u l v * mulVec (o.assembleVolume u) th l v := by
            unfold mulVec
            simp only [Finset.mul_sum]
            have : ∀ k : Fin Nbf, ∑ p, ∑ l, ∑ v, o.assembleVolume u l v k p * th k p * x u l v =
                ∑ l, ∑ v, ∑ p, o.assembleVolume u l v k p * th k p * x u l v := by
              intro k
              rw [Finset.sum_comm]
              apply Finset.sum_congr rfl; intro l _
              rw [Finset.sum_comm]
            simp only [this]
            rw [Finset.sum_comm]
            apply Finset.sum_congr rfl; intro l _
            rw [Finset.sum_comm]
            apply Finset.sum_congr rfl; intro v _
            apply Finset.sum_congr rfl; intro k _
            apply Finset.sum_congr rfl; intro p _; ring
        _ = 0 := by
            apply Finset.sum_eq_zero; intro l _
            apply Finset.sum_eq_zero; intro v _
            rw [strainFree_volume o u th hvs, mul_zero]
    have e2 : ∑ k, ∑ p, th k p * ∑ q, o.J_Q u q * o.ref.W q * o.ref.E_Q k q * forceOf d u p q =
        ∑ q, o.J_Q u q * o.ref.W q * ∑ p, (∑ l, o.ref.E_Q l q * th l p) * forceOf d u p q := by
      simp only [Finset.mul_sum, Finset.sum_mul]
      rw [Finset.sum_comm]
      have : ∀ p : Fin dim, ∑ k, ∑ q, th k p * (o.J_Q u q * o.ref.W q * o.ref.E_Q k q * forceOf d u p q) =
          ∑ q, ∑ k, th k p * (o.J_Q u q * o.ref.W q * o.ref.E_Q k q * forceOf d u p q) := fun p => Finset.sum_comm
      simp only [this]
      rw [Finset.sum_comm]
      apply Finset.sum_congr rfl; intro q _
      apply Finset.sum_congr rfl; intro p _
      apply Finset.sum_congr rfl; intro k _; ring
    rw [e1, e2, zero_sub]
  rw [hvol] at htot
  have hneg : (ds.map (fun i => - facetWork o d (views r) x th u i)).sum = - (ds.map (facetWork o d (views r) x th u)).sum := by
    clear htot hterm h h3 a1 a1' a2 a3 a4 hk hfs
    induction ds with
    | nil => simp
    | cons i l ih => rw [List.map_cons, List.sum_cons, ih, List.map_cons, List.sum_cons]; ring
  rw [hneg] at htot
  linarith

/-- Component `p` of the force on element `u` through facet `i`: the integral of the reported traction. -/
noncomputable def facetForce (o : Op dim Nbf Nbm Nq nq) (d : Data dim Nq nq) (v : View) (x : Nat → Fin Nbf → Fin dim → ℝ)
    (p : Fin dim) (u i : Nat) : ℝ :=
  match facetInfo v i with
  | some info =>
    if info.up0 ≠ info.up1 then
      if info.up0 = u then ∑ q, o.ref.w q * (o.nl_q i q * o.tractionSkeleton d 0 i info (x info.up0) (x info.up1) p q)
      else - ∑ q, o.ref.w q * (o.nl_q i q * o.tractionSkeleton d 0 i info (x info.up0) (x info.up1) p q)
    else if info.bc = 1 then 0
    else ∑ q, o.ref.w q * (o.nl_q i q * o.tractionBoundary d 0 i info (x info.up0) p q)
  | none => 0

/-- **C74 (elasticity, conservation)**: if row `u` of the linear system holds, the integrals of the reported tractions over the
facets of the element balance the body force, in every component. -/
theorem C74_elasticity_conservation (hd : IsDistributed P dim elems num fnum tag views) (r : Nat) (hr : r < P) (o : Op dim Nbf Nbm Nq nq)
    (hm : o.method = .IP) (d : Data dim Nq nq) (c : Fin Nbf → ℝ) (hc : IsOne o.ref c) (hcQ : ∀ q, ∑ k, o.ref.E_Q k q * c k = 1)
    (x : Nat → Fin Nbf → Fin dim → ℝ) :
    ∃ blocks b, assemble (views r) o.localOp = some blocks ∧ rhs (views r) (o.localRhs d) 0 = some b ∧
      ∀ u ds p, u < (elems r).length → (views r).down[u]? = some ds → rowApply mulVec blocks x u = b u →
        (ds.map (facetForce o d (views r) x p u)).sum + ∑ q, o.J_Q u q * o.ref.W q * forceOf d u p q = 0 := by
  obtain ⟨blocks, b, h1, h2, h3⟩ := C74_elasticity_work hd r hr o hm d x
  refine ⟨blocks, b, h1, h2, ?_⟩
  intro u ds p hu hds hrow
  have hsf : ∀ {n : Nat} (G : Fin dim → Fin dim → Fin n → ℝ) (Dxi : Fin Nbf → Fin dim → Fin n → ℝ),
      (∀ e q, ∑ k, Dxi k e q * c k = 0) → StrainFree (kDx G Dxi) (fun k v => c k * delta v p) := by
    intro n G Dxi h a s q
    have e : ∀ t v : Fin dim, ∑ l, kDx G Dxi l t q * (c l * delta v p) = 0 := by
      intro t v
      have : ∑ l, kDx G Dxi l t q * (c l * delta v p) = (∑ l, kDx G Dxi l t q * c l) * delta v p := by
        rw [Finset.sum_mul]; apply Finset.sum_congr rfl; intro l _; ring
      rw [this, kDx_one G Dxi c h, zero_mul]
    rw [e, e, add_zero]
  have h := h3 u ds (fun k v => c k * delta v p) hu hds hrow (hsf _ _ hc.gradVolume) (fun i info s _ _ _ => hsf _ _ (hc.gradFacet _))
  have hval : ∀ (E : Fin Nbf → ℝ) (t : Fin dim → ℝ), ∑ l, E l * c l = 1 → ∑ v, (∑ l, E l * (c l * delta v p)) * t v = t p := by
    intro E t hE
    have : ∀ v, (∑ l, E l * (c l * delta v p)) * t v = delta v p * t v := by
      intro v
      have : ∑ l, E l * (c l * delta v p) = (∑ l, E l * c l) * delta v p := by
        rw [Finset.sum_mul]; apply Finset.sum_congr rfl; intro l _; ring
      rw [this, hE, one_mul]
    simp only [this]
    exact delta_sum' p t
  have hfw : facetWork o d (views r) x (fun k v => c k * delta v p) u = facetForce o d (views r) x p u := by
    funext i
    unfold facetWork facetForce
    cases facetInfo (views r) i with
    | none => rfl
    | some info =>
      have hE : ∀ (s : Fin 2) q (t : Fin dim → ℝ), ∑ v, (∑ l, o.Es info s l q * (c l * delta v p)) * t v = t p :=
        fun s q t => hval _ t (hc.value _ _)
      simp only [hE]
  have hQ : ∀ q, ∑ v, (∑ l, o.ref.E_Q l q * (c l * delta v p)) * forceOf d u v q = forceOf d u p q := fun q => hval _ _ (hcQ q)
  rw [hfw] at h
  simp only [hQ] at h
  exact h

/-- **C74 (elasticity, forces and moments)**: the tractions on the facets of an element and the body force do no work along
translations and infinitesimal rotations. -/
theorem C74_elasticity_moment (hd : IsDistributed P dim elems num fnum tag views) (r : Nat) (hr : r < P) (o : Op dim Nbf Nbm Nq nq)
    (hm : o.method = .IP) (d : Data dim Nq nq) (c : Fin Nbf → ℝ) (hc : IsOne o.ref c) (x : Nat → Fin Nbf → Fin dim → ℝ) :
    ∃ blocks b, assemble (views r) o.localOp = some blocks ∧ rhs (views r) (o.localRhs d) 0 = some b ∧
      ∀ u ds X a B, u < (elems r).length → (views r).down[u]? = some ds → rowApply mulVec blocks x u = b u →
        IsCoordinates (kDx (o.G_Q u) o.ref.Dxi_Q) X →
        (∀ i info s, i ∈ ds → facetInfo (views r) i = some info → upOf info s = u →
          IsCoordinates (kDx (o.JInv i s) (o.ref.Dxi_q (localNoOf info s))) X) →
        (∀ p t, B p t = - B t p) →
        (ds.map (facetWork o d (views r) x (rigidMotion c X a B) u)).sum +
          ∑ q, o.J_Q u q * o.ref.W q * ∑ p, (∑ l, o.ref.E_Q l q * rigidMotion c X a B l p) * forceOf d u p q = 0 := by
  obtain ⟨blocks, b, h1, h2, h3⟩ := C74_elasticity_work hd r hr o hm d x
  refine ⟨blocks, b, h1, h2, ?_⟩
  intro u ds X a B hu hds hrow hX hXf hB
  exact h3 u ds _ hu hds hrow (rigidMotion_strainFree _ c (kDx_one _ _ c hc.gradVolume) X hX a B hB)
    (fun i info s hi hinfo hs => rigidMotion_strainFree _ c (kDx_one _ _ c (hc.gradFacet _)) X (hXf i info s hi hinfo hs) a B hB)

/-! ## The hypotheses of C73 and C74 can be met -/

/-- The linear basis functions of the reference triangle and its coordinates. -/
example : IsCoordinates (kDx (fun e i (_ : Fin 1) => if e = i then 1 else 0) (fun k e _ => if k = 0 then -1 else if k.val = e.val + 1 then 1 else 0))
    (fun (r : Fin 2) (l : Fin 3) => if l.val = r.val + 1 then 1 else 0) := by
  constructor
  intro r s q
  fin_cases r <;> fin_cases s <;> simp [kDx, Fin.sum_univ_three]

/-- A strip of five triangles on three ranks with faults everywhere except at one inner and one natural facet: all hypotheses of
`C73_elasticity_rigid` with a motion that is not the same for all elements. -/
theorem example_rigid (o : Op 2 2 1 1 1) (ho : o.ref = twoRef) : ∃ (num fnum : List Nat → Nat) (views : Nat → View),
    IsDistributed 3 2 Ghosts.exElems num fnum exTag views ∧
    ∀ r, r < 3 → ∃ (d : Data 2 1 1) (x : Nat → Fin 2 → Fin 2 → ℝ),
      (∀ (u : Nat) (e : List Nat), (views r).elems[u]? = some e → ∀ k p, x u k p = (p.val + 1) * exMotion e) ∧
      (∀ u, StrainFree (kDx (o.G_Q u) o.ref.Dxi_Q) (x u)) ∧
      (∀ i info s, StrainFree (kDx (o.JInv i s) (o.ref.Dxi_q (localNoOf info s))) (x (upOf info s))) ∧
      (∀ u p q, forceOf d u p q = 0) ∧
      (∀ i info, i < (views r).numLocalFacets → facetInfo (views r) i = some info → info.up0 ≠ info.up1 → ∀ p q,
        val (o.Es info 0) (x info.up0) p q - val (o.Es info 1) (x info.up1) p q = jumpSpec d i info.bc p q) ∧
      (∀ i info, i < (views r).numLocalFacets → facetInfo (views r) i = some info → info.up0 = info.up1 → info.bc ≠ 1 →
        ∀ p q, val (o.Es info 0) (x info.up0) p q = valueSpec d i info.bc p q) := by
  obtain ⟨num, fnum, views, o', h, _⟩ := example_samples (Nbf := 2) (Nbm := 1) (Nq := 1) (nq := 1) .IP twoRef (fun _ _ => 1) (fun _ _ => 1) (fun _ => 1)
  refine ⟨num, fnum, views, h, ?_⟩
  intro r hr
  have hv := h.view r hr
  have hone := twoRef_one
  have hsf : ∀ {n : Nat} (G : Fin 2 → Fin 2 → Fin n → ℝ) (Dxi : Fin 2 → Fin 2 → Fin n → ℝ) (a : Fin 2 → ℝ),
      (∀ e q, ∑ k : Fin 2, Dxi k e q * (fun _ => 1 : Fin 2 → ℝ) k = 0) → StrainFree (kDx G Dxi) (fun _ p => a p) := by
    intro n G Dxi a hD t s q
    have e : ∀ t v : Fin 2, ∑ l, kDx G Dxi l t q * a v = 0 := by
      intro t v
      have := kDx_one G Dxi (fun _ => 1) hD t q
      rw [← Finset.sum_mul]
      simp only [mul_one] at this
      rw [this, zero_mul]
    rw [e, e, add_zero]
  have hval : ∀ (info : FacetInfo) (s : Fin 2) (a : Fin 2 → ℝ) (p : Fin 2) (q : Fin 1), val (o.Es info s) (fun _ p => a p) p q = a p := by
    intro info s a p q
    unfold val Op.Es
    rw [ho, ← Finset.sum_mul]
    have := hone.value (localNoOf info s) q
    simp only [mul_one] at this
    rw [this, one_mul]
  refine ⟨⟨none, none, some (fun i b p _ => match facetInfo (views r) i with
      | some info => if b then 2 * ((p.val + 1) * exMotion ((views r).elems.getD info.up0 [])) else
        (p.val + 1) * exMotion ((views r).elems.getD info.up0 []) - (p.val + 1) * exMotion ((views r).elems.getD info.up1 [])
      | none => 0)⟩, fun u _ p => (p.val + 1) * exMotion ((views r).elems.getD u []), ?_, ?_, ?_, ?_, ?_, ?_⟩
  · intro u e he k p; simp only; rw [List.getD_eq_getElem?_getD, he]; rfl
  · intro u; exact hsf _ _ _ (by rw [ho]; exact hone.gradVolume)
  · intro i info s; exact hsf _ _ _ (by rw [ho]; exact hone.gradFacet _)
  · intro u p q; rfl
  · intro i info hi hinfo hne p q
    obtain ⟨info', f, e0, e1, g1, g2, g3, g4, g5, g6, g7, _, _, _, _, _, _, _, g14⟩ := C33_facet_info h r hr i hi
    obtain rfl := Option.some.inj (hinfo.symm.trans g1)
    have hne' : e0 ≠ e1 := fun hc => hne (get_inj hv.once g3 (hc ▸ g4))
    have htag := exBCsFit.interior f e0 e1 (mem_inElems hv g3) (mem_inElems hv g4) hne' g5 g6
    rw [hval info 0 (fun p => (p.val + 1) * exMotion ((views r).elems.getD info.up0 [])),
      hval info 1 (fun p => (p.val + 1) * exMotion ((views r).elems.getD info.up1 []))]
    unfold jumpSpec
    by_cases h3 : info.bc = 3
    · rw [if_pos h3]; simp [hinfo]
    · rw [if_neg h3]
      rw [g14] at h3
      have hf : f = [1, 2] := by
        unfold exTag at h3 htag
        split at htag
        · omega
        · split at htag
          · assumption
          · simp_all
      have h5 : info.bc ≠ 5 := by rw [g14, hf]; decide
      rw [if_neg h5, List.getD_eq_getElem?_getD, g3, List.getD_eq_getElem?_getD, g4]
      simp only [Option.getD_some]
      have hall : ∀ s, s < 3 → ∀ a ∈ Ghosts.exElems s, a ∈ Ghosts.exAll := by decide
      have hm : ∀ a ∈ Ghosts.exAll, IsFacet a [1, 2] → exMotion a = 7 := by decide
      obtain ⟨s, hs, hs'⟩ := mem_inElems hv g3
      obtain ⟨t, ht, ht'⟩ := mem_inElems hv g4
      rw [hm e0 (hall s hs e0 hs') (hf ▸ g5), hm e1 (hall t ht e1 ht') (hf ▸ g6), sub_self]
  · intro i info hi hinfo hne hbc p q
    obtain ⟨info', f, e0, e1, g1, g2, g3, g4, g5, g6, g7, _, _, _, _, _, _, _, g14⟩ := C33_facet_info h r hr i hi
    obtain rfl := Option.some.inj (hinfo.symm.trans g1)
    have he : e0 = e1 := by rw [hne] at g3; exact Option.some.inj (g3.symm.trans g4)
    have htag := exBCsFit.boundary f e0 (mem_inElems hv g3) g5 (fun a ha hfa => by
      rcases g7 a ha hfa with h | h
      · exact h
      · rw [h, he])
    rw [hval info 0 (fun p => (p.val + 1) * exMotion ((views r).elems.getD info.up0 []))]
    have h3 : info.bc = 3 := by
      rw [g14] at hbc ⊢
      rcases htag with h | h | h
      · exact absurd h hbc
      · exact h
      · unfold exTag at h; split at h
        · omega
        · split at h <;> omega
    unfold valueSpec
    rw [if_pos h3]; simp [hinfo]

end Tandem.Elasticity
