import Verif.Props.ConstructStraight
/-! # Property C99: the matrices after the constructors, on straight meshes with a material that is constant on each region -/
namespace Tandem.Construct
open RefElement Error CurvilinearBuild Finset Spec
open Tandem.DGTopo (View FacetInfo facetInfo)
open Tandem.Poisson (Measures)

variable {D P : ℕ} {elems : ℕ → List (List ℕ)} {num fnum tag : List ℕ → ℕ} {views : ℕ → View}
variable {o : Options D} {d : Domain (D + 1)} {b : ℕ → Built (D + 1)}

/-- The communication of the constructors: every rank has an element scatter plan for its ghost elements, the receive buffers have the
right length and any content, and the messages arrive in any order. -/
structure Exchange (P : ℕ) (views : ℕ → View) (b : ℕ → Built (D + 1)) (ranks : List (View × Built (D + 1))) (plans : List ScatterPlan.Plan)
    (buf : ℕ → List ℝ) (arrival : ℕ → List ScatterPlan.Block) : Prop where
  ranks : ∀ r, r < P → ranks[r]? = some (views r, b r)
  plans : ∀ r, r < P → ∃ p, plans[r]? = some p ∧ ScatterPlan.IsPlan r (DGTopo.elemFaces (views r)) p ∧
    (buf r).length = p.recvIdx.length ∧ (arrival r).Perm p.recvBlocks

theorem exchange_volumes (h : Setup P elems num fnum tag views d b) {ranks : List (View × Built (D + 1))} {plans : List ScatterPlan.Plan}
    {buf : ℕ → List ℝ} {arrival : ℕ → List ScatterPlan.Block} (hx : Exchange P views b ranks plans buf arrival) (r : ℕ) (hr : r < P) :
    ∃ vol, volumes o ranks plans r (buf r) (arrival r) = some vol ∧
      ∀ (u : ℕ) (e : List ℕ), (views r).elems[u]? = some e → vol[u]? = some (volumeOf o d e) := by
  obtain ⟨p, hp, -, hb, ha⟩ := hx.plans r hr
  obtain ⟨vol, h1, -, h3⟩ := C99_volumes (o := o) h ranks hx.ranks plans (fun r hr => by
    obtain ⟨p, h1, h2, -, -⟩ := hx.plans r hr; exact ⟨p, h1, h2⟩) r hr p hp (buf r) hb (arrival r) ha
  exact ⟨vol, h1, h3⟩

/-! ## Bounds in place of nonnegative tables -/

section
variable {Nbf Nbm Nq nq : ℕ}

theorem poisson_coercive_bounds (hD : D = 1 ∨ D = 2) (N : ℕ) (ref : Poisson.Ref (D + 1) Nbf Nbm Nq nq) (g : Geometry (D + 1) Nq nq)
    (hr : GradientTables D N ref.W ref.w ref.Dxi_Q ref.Dxi_q) (hg : Straight P elems g) (K : List ℕ → Fin Nbm → ℝ) (area volume : List ℕ → ℝ)
    (hw : ∀ q, 0 ≤ ref.w q) (hW : ∀ q, 0 ≤ ref.W q)
    (harea : ∀ e f, InElems P elems e → IsFacet e f → area f = ∑ q, ref.w q * Poisson.normalLength (g.normal f e) q)
    (hvol : ∀ e, InElems P elems e → volume e = ∑ q, ref.W q * g.absDetJ e q)
    (h1 : ∀ e, InElems P elems e → 0 < ⨅ m, K e m)
    (h2 : ∀ e, InElems P elems e → ∀ q, (⨅ m, K e m) ≤ Poisson.kKq (K e) ref.matE_Q_T q)
    (h3 : ∀ e f, InElems P elems e → IsFacet e f → ∀ q, |Poisson.kKq (K e) (ref.matE_q_T (g.localNo e f)) q| ≤ ⨆ m, K e m) :
    Poisson.Coercive P (D + 1) N elems ref g K area volume := by
  have h := TraceIneq.poisson_coercive (Nbm := 1) hD N ⟨ref.E_Q, ref.Dxi_Q, fun _ _ => 1, ref.W, ref.E_q, ref.Dxi_q, fun _ _ _ => 1, ref.w, ref.MinvRef⟩ g hr hg
    (fun _ _ => 1) area volume hw hW harea hvol (fun _ _ _ => one_pos) one_pos (fun _ _ => zero_le_one) (fun _ => by simp)
    (fun _ _ _ => zero_le_one) (fun _ _ => by simp)
  exact ⟨h.w, h.W, h.detJ, h.areaPos, h.volumePos, h1, h2, h3, h.traceIneq⟩

theorem elasticity_coercive_bounds (hD : D = 1 ∨ D = 2) (N : ℕ) (ref : Elasticity.Ref (D + 1) Nbf Nbm Nq nq) (g : Geometry (D + 1) Nq nq)
    (hr : GradientTables D N ref.W ref.w ref.Dxi_Q ref.Dxi_q) (hg : Straight P elems g) (lam mu : List ℕ → Fin Nbm → ℝ) (area volume : List ℕ → ℝ)
    (hw : ∀ q, 0 ≤ ref.w q) (hW : ∀ q, 0 ≤ ref.W q)
    (harea : ∀ e f, InElems P elems e → IsFacet e f → area f = ∑ q, ref.w q * Poisson.normalLength (g.normal f e) q)
    (hvol : ∀ e, InElems P elems e → volume e = ∑ q, ref.W q * g.absDetJ e q)
    (h1 : ∀ e, InElems P elems e → 0 < ⨅ t, 2 * mu e t)
    (h2 : ∀ e, InElems P elems e → 0 < ⨆ t, (((D + 1 : ℕ) : ℝ) * lam e t + 2 * mu e t))
    (h3 : ∀ e, InElems P elems e → ∀ q, 0 ≤ Elasticity.kCoefq ref.matE_Q_T (lam e) q)
    (h4 : ∀ e, InElems P elems e → ∀ q, (⨅ t, 2 * mu e t) ≤ 2 * Elasticity.kCoefq ref.matE_Q_T (mu e) q)
    (h5 : ∀ e f, InElems P elems e → IsFacet e f → ∀ q, 0 ≤ Elasticity.kCoefq (ref.matE_q_T (g.localNo e f)) (lam e) q)
    (h6 : ∀ e f, InElems P elems e → IsFacet e f → ∀ q, 0 ≤ Elasticity.kCoefq (ref.matE_q_T (g.localNo e f)) (mu e) q)
    (h7 : ∀ e f, InElems P elems e → IsFacet e f → ∀ q, ((D + 1 : ℕ) : ℝ) * Elasticity.kCoefq (ref.matE_q_T (g.localNo e f)) (lam e) q +
      2 * Elasticity.kCoefq (ref.matE_q_T (g.localNo e f)) (mu e) q ≤ ⨆ t, (((D + 1 : ℕ) : ℝ) * lam e t + 2 * mu e t)) :
    Elasticity.Coercive P (D + 1) N elems ref g lam mu area volume := by
  have h := TraceIneq.elasticity_coercive (Nbm := 1) hD N ⟨ref.E_Q, ref.Dxi_Q, fun _ _ => 1, ref.W, ref.E_q, ref.Dxi_q, fun _ _ _ => 1, ref.w, ref.MinvRef⟩ g hr hg
    (fun _ _ => 1) (fun _ _ => 1) area volume hw hW harea hvol (fun _ _ _ => zero_le_one) (fun _ _ _ => one_pos) one_pos (fun _ _ => zero_le_one)
    (fun _ => by simp) (fun _ _ _ => zero_le_one) (fun _ _ => by simp)
  exact ⟨h.w, h.W, h.detJ, h.areaPos, h.volumePos, h1, h2, h3, h4, h5, h6, h7, h.traceIneq⟩

theorem bounded_bounds (hD : D = 1 ∨ D = 2) (hm : Spec.Mesh P (D + 1) elems) (N : ℕ) (hN : Cfl.Checked (D + 1) (N + 1)) (C_N : ℝ)
    (hC : Cfl.gradConstant (D + 1) (N + 1) = some C_N) (ref : Elasticity.Ref (D + 1) Nbf Nbm Nq nq) (g : Geometry (D + 1) Nq nq)
    (hr : BasisTables D N ref.W ref.w ref.E_Q ref.E_q ref.Dxi_Q ref.Dxi_q) (hg : AffineElements P elems g) (lam mu : List ℕ → Fin Nbm → ℝ) (area volume : List ℕ → ℝ)
    (hW : ∀ q, 0 ≤ ref.W q)
    (harea : ∀ e f, InElems P elems e → IsFacet e f → area f = ∑ q, ref.w q * Poisson.normalLength (g.normal f e) q)
    (hvol : ∀ e, InElems P elems e → volume e = ∑ q, ref.W q * g.absDetJ e q)
    (h1 : ∀ e, InElems P elems e → ∀ q, ((D + 1 : ℕ) : ℝ) * Elasticity.kCoefq ref.matE_Q_T (lam e) q +
      2 * Elasticity.kCoefq ref.matE_Q_T (mu e) q ≤ ⨆ t, (((D + 1 : ℕ) : ℝ) * lam e t + 2 * mu e t)) :
    Cfl.Bounded P (D + 1) (N + 1) C_N elems ref g lam mu area volume := by
  have h := Cfl.bounded_straight (Nbm := 1) hD hm N hN C_N hC ⟨ref.E_Q, ref.Dxi_Q, fun _ _ => 1, ref.W, ref.E_q, ref.Dxi_q, fun _ _ _ => 1, ref.w, ref.MinvRef⟩ g hr hg
    (fun _ _ => 1) (fun _ _ => 1) area volume hW harea hvol (fun _ _ => zero_le_one) (fun _ => by simp)
  exact ⟨h1, h.valueTrace, h.gradient⟩

end

theorem gradConstant_nonneg (hD : D = 1 ∨ D = 2) (p : ℕ) (C_N : ℝ) (hC : Cfl.gradConstant (D + 1) p = some C_N) : 0 ≤ C_N := by
  have h2 : ∀ c ∈ Cfl.gradTable2, (0 : ℚ) ≤ c := by decide +kernel
  have h3 : ∀ c ∈ Cfl.gradTable3, (0 : ℚ) ≤ c := by decide +kernel
  rcases hD with rfl | rfl
  · have hC : Cfl.gradTable2[p]?.map (fun c : ℚ => (c : ℝ)) = some C_N := hC
    obtain ⟨c, hc, rfl⟩ := Option.map_eq_some_iff.1 hC
    exact_mod_cast h2 c (List.mem_of_getElem? hc)
  · have hC : Cfl.gradTable3[p]?.map (fun c : ℚ => 4 * (c : ℝ)) = some C_N := hC
    obtain ⟨c, hc, rfl⟩ := Option.map_eq_some_iff.1 hC
    exact mul_nonneg (by norm_num) (by exact_mod_cast h3 c (List.mem_of_getElem? hc))

/-! ## Measures and weights -/

theorem harea (hop : (geometryOf o d).Opposite P elems) (e f : List ℕ) (he : InElems P elems e) (hf : IsFacet e f) :
    areaOf o d (allElems P elems) f = ∑ q : Fin o.fctRule.points.length, o.fctRule.weights.getD q 0 * Poisson.normalLength ((geometryOf o d).normal f e) q := by
  rw [area_eq hop he hf]
  change ∑ q ∈ range o.fctRule.points.length, o.fctRule.weights.getD q 0 * Curvilinear.norm ((facetData o d f e).normal q) = _
  rw [range_fin]; rfl

theorem hvolume (e : List ℕ) :
    volumeOf o d e = ∑ q : Fin o.volRule.points.length, o.volRule.weights.getD q 0 * (geometryOf o d).absDetJ e q := by
  change ∑ q ∈ range o.volRule.points.length, o.volRule.weights.getD q 0 * (elementData o d e).absDetJ q = _
  rw [range_fin]; rfl

theorem getD_all {p : ℝ → Prop} (h0 : p 0) (L : List ℝ) (h : ∀ w ∈ L, p w) (q : ℕ) : p (L.getD q 0) := by
  rw [List.getD_eq_getElem?_getD]
  rcases hq : L[q]? with _ | w
  · exact h0
  · exact h w (List.mem_of_getElem? hq)

theorem kKq_const {n m : ℕ} (c : ℝ) (E : Fin n → Fin m → ℝ) (q : Fin n) (h : ∑ t, E q t = 1) : Poisson.kKq (fun _ => c) E q = c := by
  unfold Poisson.kKq; rw [← mul_sum, h, mul_one]

theorem kCoefq_const {n m : ℕ} (c : ℝ) (E : Fin n → Fin m → ℝ) (q : Fin n) (h : ∑ t, E q t = 1) : Elasticity.kCoefq E (fun _ => c) q = c := by
  unfold Elasticity.kCoefq; rw [← sum_mul, h, one_mul]

theorem localNo_lt (hD : D = 1 ∨ D = 2) (hm : Spec.Mesh P (D + 1) elems) (e f : List ℕ) (he : InElems P elems e) (hf : IsFacet e f) :
    (geometryOf o d).localNo e f < D + 2 := by
  obtain ⟨s, hs', hes⟩ := he
  exact (Curvilinear.localFace_spec hD e f (hm.size s hs' e hes) (hm.sorted s hs' e hes) hf).1

theorem nbf_pos (D p : ℕ) : Nonempty (Fin (nbf (D + 1) p)) := by
  refine ⟨⟨0, ?_⟩⟩
  unfold nbf
  exact Nat.choose_pos (by omega)

/-! ## Poisson -/

theorem poisson_material (hD : D = 1 ∨ D = 2) (hs : StraightDomain d) (ho : GoodOptions o) (K : (Fin (D + 1) → ℝ) → ℤ → Fin 1 → ℝ) (k : ℤ → ℝ)
    (hK : ∀ x t, K x t 0 = k t) (e : List ℕ) (hdet : (Curvilinear.edgeMatrix (d.corners e)).det ≠ 0) :
    poissonMaterial o d K e = fun _ => k (d.region e) := by
  unfold poissonMaterial Material.poisson
  rw [constant_coefficients hD hs ho e hdet id K k hK]; rfl

instance : Nonempty (PoissonState D o) := ⟨⟨⟨poissonRef o, .IP, 0, 0, 0, 0, 0, 0⟩, 0, 0⟩⟩
instance : Nonempty (ElasticityState D o) := ⟨⟨⟨elasticityRef o, .IP, 0, 0, 0, 0, 0, 0, 0, 0⟩, 0, 0, []⟩⟩

/-- **C99 (Poisson, from the mesh to the matrix)**: on every mesh of straight triangles or tetrahedra, for every number of ranks, every
partition and every order of the messages of the exchange, with a coefficient that is constant and positive on each region: on all ranks
the constructor succeeds, the matrix is assembled, and the global interior penalty matrix is symmetric and positive semidefinite. -/
theorem C99_poisson_matrix (hD : D = 1 ∨ D = 2) (h : Setup P elems num fnum tag views d b) (hs : StraightDomain d) (hv : Curvilinear.Valid P elems d.x)
    (ho : GoodOptions o) (hip : o.method = .IP) (K : (Fin (D + 1) → ℝ) → ℤ → Fin 1 → ℝ) (k : ℤ → ℝ) (hK : ∀ x t, K x t 0 = k t)
    (hk : ∀ e, InElems P elems e → 0 < k (d.region e))
    (ranks : List (View × Built (D + 1))) (plans : List ScatterPlan.Plan) (buf : ℕ → List ℝ) (arrival : ℕ → List ScatterPlan.Block)
    (hx : Exchange P views b ranks plans buf arrival) :
    ∃ (vol : ℕ → List ℝ) (s : ℕ → PoissonState D o) (blocks : ℕ → List (ℕ × ℕ × (Fin (nbf (D + 1) o.p) → Fin (nbf (D + 1) o.p) → ℝ))),
      (∀ r, r < P → volumes o ranks plans r (buf r) (arrival r) = some (vol r) ∧ poisson o K (views r) (b r) (vol r) = some (s r) ∧
        DGAssembly.assemble (views r) (s r).op.localOp = some (blocks r)) ∧
      (∀ r r' e e', r < P → r' < P → e ∈ elems r → e' ∈ elems r' → ∀ k l,
        DGAssembly.entry (views r) (blocks r) e e' k l = DGAssembly.entry (views r') (blocks r') e' e l k) ∧
      ∀ X : List ℕ → Fin (nbf (D + 1) o.p) → ℝ,
        0 ≤ ∑ r ∈ Finset.range P, ∑ u ∈ Finset.range (elems r).length, ∑ k, X ((views r).elems.getD u []) k *
          DGAssembly.rowApply Poisson.mulVec (blocks r) (fun j => X ((views r).elems.getD j [])) u k := by
  have hop := opposite_straight (o := o) hD hs h.mesh.mesh hv
  have haff := affine_elements (o := o) hD hs h.mesh.mesh hv
  have hst := Cfl.AffineElements.straight hD haff
  have hvol : ∀ r, ∃ vol, r < P → volumes o ranks plans r (buf r) (arrival r) = some vol ∧
      ∀ (u : ℕ) (e : List ℕ), (views r).elems[u]? = some e → vol[u]? = some (volumeOf o d e) := fun r => by
    by_cases hr : r < P
    · obtain ⟨vol, h1⟩ := exchange_volumes (o := o) h hx r hr
      exact ⟨vol, fun _ => h1⟩
    · exact ⟨[], fun h => absurd h hr⟩
  choose vol hvol using hvol
  have hstate : ∀ r, ∃ s : PoissonState D o, r < P → poisson o K (views r) (b r) (vol r) = some s ∧
      Poisson.Samples (views r) s.op o.method (poissonRef o) (geometryOf o d) (poissonMaterial o d K)
        (poissonPenalty o d (allElems P elems) (poissonMaterial o d K)) ∧
      Measures (views r) s.area s.volume (areaOf o d (allElems P elems)) (volumeOf o d) ∧
      ∀ i info, i < (views r).numLocalFacets → facetInfo (views r) i = some info →
        s.op.penalty_ i = Poisson.preparePenalty (D + 1) (o.p - 1) s.area s.volume s.op.K i info := fun r => by
    by_cases hr : r < P
    · obtain ⟨s, h1⟩ := C99_poisson h hop K r hr (vol r) (hvol r hr).2
      exact ⟨s, fun _ => h1⟩
    · exact ⟨Classical.arbitrary _, fun h => absurd h hr⟩
  choose s hs' using hstate
  have hsam : ∀ r, r < P → Poisson.Samples (views r) (s r).op .IP (poissonRef o) (geometryOf o d) (poissonMaterial o d K)
        (poissonPenalty o d (allElems P elems) (poissonMaterial o d K)) := fun r hr => by rw [← hip]; exact (hs' r hr).2.1
  have hmat : ∀ e, InElems P elems e → poissonMaterial o d K e = fun _ => k (d.region e) := fun e he =>
    poisson_material hD hs ho K k hK e (hv.volume e he)
  haveI := nbf_pos D o.p
  have hco : Poisson.Coercive P (D + 1) (o.p - 1) elems (poissonRef o) (geometryOf o d) (poissonMaterial o d K) (areaOf o d (allElems P elems)) (volumeOf o d) :=
    poisson_coercive_bounds hD (o.p - 1) (poissonRef o) (geometryOf o d) (Cfl.BasisTables.gradients (poisson_tables hD ho)) hst _ _ _
      (fun q => getD_all (p := fun w => 0 ≤ w) le_rfl _ ho.fctPos q) (fun q => getD_all (p := fun w => 0 ≤ w) le_rfl _ (fun w hw => (ho.volPos w hw).le) q)
      (harea hop) (fun e _ => hvolume e)
      (fun e he => by rw [hmat e he, ciInf_const]; exact hk e he)
      (fun e he q => by rw [hmat e he, ciInf_const]; exact (kKq_const _ _ _ (unity_volume hD ho q)).ge)
      (fun e f he hf q => by
        have := kKq_const (k (d.region e)) ((poissonRef o).matE_q_T ((geometryOf o d).localNo e f)) q
          (unity_facet hD ho _ (localNo_lt hD h.mesh.mesh e f he hf) q)
        rw [hmat e he, ciSup_const, this]
        exact (abs_of_pos (hk e he)).le)
  obtain ⟨blocks, hb, hsym⟩ := Poisson.C71_poisson_symmetric h.mesh (poissonRef o) (geometryOf o d) hop _ _ (fun r => (s r).op) hsam
  refine ⟨vol, s, blocks, fun r hr => ⟨(hvol r hr).1, (hs' r hr).1, hb r hr⟩, hsym, fun X => ?_⟩
  obtain ⟨blocks', hb', hpos⟩ := Poisson.C75_poisson h.mesh (poissonRef o) (geometryOf o d) hop _ _ (fun r => (s r).op) hsam (o.p - 1)
    (fun r => (s r).area) (fun r => (s r).volume) _ _ (fun r hr => (hs' r hr).2.2.1) (fun r hr => (hs' r hr).2.2.2) hco X
  have heq : ∀ r, r < P → blocks' r = blocks r := fun r hr => Option.some.inj ((hb' r hr).symm.trans (hb r hr))
  refine hpos.trans (le_of_eq (sum_congr rfl fun r hr => ?_))
  rw [heq r (mem_range.1 hr)]

/-! ## Elasticity -/

theorem elastic_material (hD : D = 1 ∨ D = 2) (hs : StraightDomain d) (ho : GoodOptions o) (lam mu : (Fin (D + 1) → ℝ) → ℤ → Fin 1 → ℝ)
    (rho : Option ((Fin (D + 1) → ℝ) → ℤ → Fin 1 → ℝ)) (l m ρ : ℤ → ℝ) (hl : ∀ x t, lam x t 0 = l t) (hm : ∀ x t, mu x t 0 = m t)
    (hρ : ∀ x t, rho.getD (fun _ _ _ => 1) x t 0 = ρ t) (e : List ℕ) (hdet : (Curvilinear.edgeMatrix (d.corners e)).det ≠ 0) :
    elasticMaterial o d lam mu rho e = (fun _ => l (d.region e), fun _ => m (d.region e), fun _ => 1.0 / ρ (d.region e)) := by
  unfold elasticMaterial Material.elasticity
  rw [constant_coefficients hD hs ho e hdet id lam l hl, constant_coefficients hD hs ho e hdet id mu m hm,
    constant_coefficients hD hs ho e hdet (fun x => 1.0 / x) (rho.getD fun _ _ _ => 1) (fun t => 1.0 / ρ t) (fun x t => by simp only [hρ])]
  rfl

/-- **C99 (elasticity, from the mesh to the time step)**: on every mesh of straight triangles or tetrahedra, for every number of ranks,
every partition and every order of the messages of the exchange, with Lamé parameters and density that are constant on each region,
`lam ≥ 0`, `mu > 0` and density at least one: on all ranks the constructor succeeds and the matrix is assembled; the global interior
penalty matrix is symmetric and positive semidefinite; and for every eigenvalue `w` of the wave operator and every nonnegative time step
`t` up to the least of the ones all ranks have computed, `w t² ≤ 1`. -/
theorem C99_elasticity_matrix (hD : D = 1 ∨ D = 2) (h : Setup P elems num fnum tag views d b) (hs : StraightDomain d) (hv : Curvilinear.Valid P elems d.x)
    (ho : GoodOptions o) (hN : Cfl.Checked (D + 1) o.p) (hip : o.method = .IP) (lam mu : (Fin (D + 1) → ℝ) → ℤ → Fin 1 → ℝ)
    (rho : Option ((Fin (D + 1) → ℝ) → ℤ → Fin 1 → ℝ)) (l m ρ : ℤ → ℝ) (hl : ∀ x t, lam x t 0 = l t) (hm : ∀ x t, mu x t 0 = m t)
    (hρ : ∀ x t, rho.getD (fun _ _ _ => 1) x t 0 = ρ t) (hl0 : ∀ e, InElems P elems e → 0 ≤ l (d.region e))
    (hm0 : ∀ e, InElems P elems e → 0 < m (d.region e)) (hρ1 : ∀ e, InElems P elems e → 1 ≤ ρ (d.region e))
    (ranks : List (View × Built (D + 1))) (plans : List ScatterPlan.Plan) (buf : ℕ → List ℝ) (arrival : ℕ → List ScatterPlan.Block)
    (hx : Exchange P views b ranks plans buf arrival) :
    ∃ (vol : ℕ → List ℝ) (s : ℕ → ElasticityState D o)
      (blocks : ℕ → List (ℕ × ℕ × (Fin (nbf (D + 1) o.p) → Fin (D + 1) → Fin (nbf (D + 1) o.p) → Fin (D + 1) → ℝ))),
      (∀ r, r < P → volumes o ranks plans r (buf r) (arrival r) = some (vol r) ∧ elasticity o lam mu rho (views r) (b r) (vol r) = some (s r) ∧
        DGAssembly.assemble (views r) (s r).op.localOp = some (blocks r)) ∧
      (∀ r r' e e', r < P → r' < P → e ∈ elems r → e' ∈ elems r' → ∀ k p l u,
        DGAssembly.entry (views r) (blocks r) e e' k p l u = DGAssembly.entry (views r') (blocks r') e' e l u k p) ∧
      (∀ X : List ℕ → Fin (nbf (D + 1) o.p) → Fin (D + 1) → ℝ,
        0 ≤ ∑ r ∈ Finset.range P, ∑ u ∈ Finset.range (elems r).length, ∑ k, ∑ p, X ((views r).elems.getD u []) k p *
          DGAssembly.rowApply Elasticity.mulVec (blocks r) (fun j => X ((views r).elems.getD j [])) u k p) ∧
      ∀ dmax dt, Cfl.globalStep ((List.range P).map (fun r => Cfl.localStep dmax (s r).dts)) = some dt →
        ∀ X : List ℕ → Fin (nbf (D + 1) o.p) → Fin (D + 1) → ℝ, (∃ e, InElems P elems e ∧ X e ≠ 0) → ∀ w : ℝ,
        (∀ r, r < P → ∀ u, u < (elems r).length → ∀ k c,
          - ∑ n, weightAdjusted (elasticityRef o).MinvRef (elasticityRef o).E_Q (elasticityRef o).W
              (fun q => (s r).op.rhoInvQ u q / (s r).op.J_Q u q) k n *
            DGAssembly.rowApply Elasticity.mulVec (blocks r) (fun j => X ((views r).elems.getD j [])) u n c = - (w * X ((views r).elems.getD u []) k c)) →
        ∀ t, 0 ≤ t → t ≤ dt → w * t ^ 2 ≤ 1 := by
  have hop := opposite_straight (o := o) hD hs h.mesh.mesh hv
  have haff := affine_elements (o := o) hD hs h.mesh.mesh hv
  have hst := Cfl.AffineElements.straight hD haff
  have hp : o.p - 1 + 1 = o.p := Nat.sub_add_cancel ho.degree
  obtain ⟨C_N, hC, -⟩ := Cfl.C97_gradient_reference (D + 1) o.p hN
  have hvol : ∀ r, ∃ vol, r < P → volumes o ranks plans r (buf r) (arrival r) = some vol ∧
      ∀ (u : ℕ) (e : List ℕ), (views r).elems[u]? = some e → vol[u]? = some (volumeOf o d e) := fun r => by
    by_cases hr : r < P
    · obtain ⟨vol, h1⟩ := exchange_volumes (o := o) h hx r hr
      exact ⟨vol, fun _ => h1⟩
    · exact ⟨[], fun h => absurd h hr⟩
  choose vol hvol using hvol
  set L : List ℕ → Fin (nbf (D + 1) o.p) → ℝ := fun e => (elasticMaterial o d lam mu rho e).1 with hL
  set M : List ℕ → Fin (nbf (D + 1) o.p) → ℝ := fun e => (elasticMaterial o d lam mu rho e).2.1 with hM
  set R : List ℕ → Fin (nbf (D + 1) o.p) → ℝ := fun e => (elasticMaterial o d lam mu rho e).2.2 with hR
  have hstate : ∀ r, ∃ s : ElasticityState D o, r < P → elasticity o lam mu rho (views r) (b r) (vol r) = some s ∧
      Elasticity.Samples (views r) s.op o.method (elasticityRef o) (geometryOf o d) L M (elasticPenalty o d (allElems P elems) L M) ∧
      Measures (views r) s.area s.volume (areaOf o d (allElems P elems)) (volumeOf o d) ∧
      (∀ i info, i < (views r).numLocalFacets → facetInfo (views r) i = some info →
        s.op.penalty_ i = Elasticity.preparePenalty (D + 1) (o.p - 1) s.area s.volume s.op.lam s.op.mu i info) ∧
      (∀ (u : ℕ) (e : List ℕ), (views r).elems[u]? = some e → s.op.rhoInv u = R e) ∧
      Cfl.prepareCfl (views r) o.p C_N s.area s.volume s.op = some s.dts := fun r => by
    by_cases hr : r < P
    · obtain ⟨s, h1⟩ := C99_elasticity h hop lam mu rho C_N hC r hr (vol r) (hvol r hr).2
      exact ⟨s, fun _ => h1⟩
    · exact ⟨Classical.arbitrary _, fun h => absurd h hr⟩
  choose s hs' using hstate
  have hsam : ∀ r, r < P → Elasticity.Samples (views r) (s r).op .IP (elasticityRef o) (geometryOf o d) L M (elasticPenalty o d (allElems P elems) L M) :=
    fun r hr => by rw [← hip]; exact (hs' r hr).2.1
  have hLe : ∀ e, InElems P elems e → L e = fun _ => l (d.region e) := fun e he => by
    simp only [hL, elastic_material hD hs ho lam mu rho l m ρ hl hm hρ e (hv.volume e he)]
  have hMe : ∀ e, InElems P elems e → M e = fun _ => m (d.region e) := fun e he => by
    simp only [hM, elastic_material hD hs ho lam mu rho l m ρ hl hm hρ e (hv.volume e he)]
  have hRe : ∀ e, InElems P elems e → R e = fun _ => 1.0 / ρ (d.region e) := fun e he => by
    simp only [hR, elastic_material hD hs ho lam mu rho l m ρ hl hm hρ e (hv.volume e he)]
  haveI := nbf_pos D o.p
  have hDp : (0 : ℝ) ≤ ((D + 1 : ℕ) : ℝ) := Nat.cast_nonneg _
  have hw : ∀ q, 0 ≤ (elasticityRef o).w q := fun q => getD_all (p := fun w => 0 ≤ w) le_rfl _ ho.fctPos q
  have hW : ∀ q, 0 ≤ (elasticityRef o).W q := fun q => getD_all (p := fun w => 0 ≤ w) le_rfl _ (fun w hw => (ho.volPos w hw).le) q
  have hcQ : ∀ c q, Elasticity.kCoefq (elasticityRef o).matE_Q_T (fun _ => c) q = c := fun c q => kCoefq_const _ _ _ (unity_volume hD ho q)
  have hcq : ∀ e f, InElems P elems e → IsFacet e f → ∀ c q,
      Elasticity.kCoefq ((elasticityRef o).matE_q_T ((geometryOf o d).localNo e f)) (fun _ => c) q = c := fun e f he hf c q =>
    kCoefq_const _ _ _ (unity_facet hD ho _ (localNo_lt hD h.mesh.mesh e f he hf) q)
  have hco : Elasticity.Coercive P (D + 1) (o.p - 1) elems (elasticityRef o) (geometryOf o d) L M (areaOf o d (allElems P elems)) (volumeOf o d) := by
    refine elasticity_coercive_bounds hD (o.p - 1) (elasticityRef o) (geometryOf o d) (Cfl.BasisTables.gradients (elasticity_tables hD ho)) hst _ _ _ _
      hw hW (harea hop) (fun e _ => hvolume e) ?_ ?_ ?_ ?_ ?_ ?_ ?_
    · intro e he; rw [hMe e he, ciInf_const]; linarith [hm0 e he]
    · intro e he; rw [hMe e he, hLe e he, ciSup_const]
      have := mul_nonneg hDp (hl0 e he); linarith [hm0 e he]
    · intro e he q; rw [hLe e he, hcQ]; exact hl0 e he
    · intro e he q; rw [hMe e he, ciInf_const, hcQ]
    · intro e f he hf q; rw [hLe e he, hcq e f he hf]; exact hl0 e he
    · intro e f he hf q; rw [hMe e he, hcq e f he hf]; exact (hm0 e he).le
    · intro e f he hf q; rw [hLe e he, hMe e he, hcq e f he hf, hcq e f he hf, ciSup_const]
  have hbd : Cfl.Bounded P (D + 1) o.p C_N elems (elasticityRef o) (geometryOf o d) L M (areaOf o d (allElems P elems)) (volumeOf o d) := by
    have := bounded_bounds hD h.mesh.mesh (o.p - 1) (by rw [hp]; exact hN) C_N (by rw [hp]; exact hC) (elasticityRef o) (geometryOf o d)
      (elasticity_tables hD ho) haff L M _ _ hW (harea hop) (fun e _ => hvolume e)
      (fun e he q => by rw [hLe e he, hMe e he, hcQ, hcQ, ciSup_const])
    rwa [hp] at this
  obtain ⟨blocks, hb, hsym⟩ := Elasticity.C71_elasticity_symmetric h.mesh (elasticityRef o) (geometryOf o d) hop L M _ (fun r => (s r).op) hsam
  refine ⟨vol, s, blocks, fun r hr => ⟨(hvol r hr).1, (hs' r hr).1, hb r hr⟩, hsym, fun X => ?_, fun dmax dt hdt X hX w heig => ?_⟩
  · obtain ⟨blocks', hb', hpos⟩ := Elasticity.C75_elasticity h.mesh (elasticityRef o) (geometryOf o d) hop L M _ (fun r => (s r).op) hsam (o.p - 1)
      (fun r => (s r).area) (fun r => (s r).volume) _ _ (fun r hr => (hs' r hr).2.2.1) (fun r hr => (hs' r hr).2.2.2.1) hco X
    have heq : ∀ r, r < P → blocks' r = blocks r := fun r hr => Option.some.inj ((hb' r hr).symm.trans (hb r hr))
    refine hpos.trans (le_of_eq (sum_congr rfl fun r hr => ?_))
    rw [heq r (mem_range.1 hr)]
  · have hub : ∀ e, InElems P elems e → Elasticity.inverseDensityUpperBound (R e) = 1.0 / ρ (d.region e) := fun e he => by
      unfold Elasticity.inverseDensityUpperBound
      rw [hRe e he]; exact ciSup_const
    have hρp : ∀ e, InElems P elems e → 0 < 1.0 / ρ (d.region e) := fun e he => by
      have := hρ1 e he
      exact div_pos (by norm_num) (by linarith)
    refine Cfl.C97_step h.mesh (elasticityRef o) (geometryOf o d) hop L M _ (fun r => (s r).op) hsam (o.p - 1) o.p C_N (gradConstant_nonneg hD o.p C_N hC)
      (fun r => (s r).area) (fun r => (s r).volume) _ _ (fun r hr => (hs' r hr).2.2.1) (fun r hr => (hs' r hr).2.2.2.1) hco hbd hst.detJ R
      (fun r hr => (hs' r hr).2.2.2.2.1) ?_ ?_ ?_ ?_ (elasticity_inverse hD ho) dmax (fun r => (s r).dts) (fun r hr => (hs' r hr).2.2.2.2.2) dt hdt
      blocks hb X hX w heig
    · intro e he q; rw [hRe e he, hcQ]; exact (hρp e he).le
    · intro e he q; rw [hub e he, hRe e he, hcQ]
    · intro e he; rw [hub e he]; exact hρp e he
    · intro e he; rw [hub e he, div_le_one (by linarith [hρ1 e he])]
      norm_num; exact hρ1 e he

/-! ## Two distributions of the same mesh -/

section
variable {P' : ℕ} {elems' : ℕ → List (List ℕ)} {num' fnum' : List ℕ → ℕ} {views' : ℕ → View} {b' : ℕ → Built (D + 1)}

/-- **C99 (Poisson, two distributions)**: the same domain distributed in two ways, over any numbers of ranks: both constructors succeed on
all ranks, and the global matrices they lead to have the same entries, with either method and any function of the user. -/
theorem C99_poisson_distribution (h : Setup P elems num fnum tag views d b) (h' : Setup P' elems' num' fnum' tag views' d b')
    (hsame : ∀ e, InElems P elems e ↔ InElems P' elems' e) (hop : (geometryOf o d).Opposite P elems) (K : (Fin (D + 1) → ℝ) → ℤ → Fin 1 → ℝ)
    {ranks ranks' : List (View × Built (D + 1))} {plans plans' : List ScatterPlan.Plan} {buf buf' : ℕ → List ℝ}
    {arrival arrival' : ℕ → List ScatterPlan.Block} (hx : Exchange P views b ranks plans buf arrival)
    (hx' : Exchange P' views' b' ranks' plans' buf' arrival') (r r' : ℕ) (hr : r < P) (hr' : r' < P') :
    ∃ vol vol' s s' blocks blocks', volumes o ranks plans r (buf r) (arrival r) = some vol ∧ volumes o ranks' plans' r' (buf' r') (arrival' r') = some vol' ∧
      poisson o K (views r) (b r) vol = some s ∧ poisson o K (views' r') (b' r') vol' = some s' ∧
      DGAssembly.assemble (views r) s.op.localOp = some blocks ∧ DGAssembly.assemble (views' r') s'.op.localOp = some blocks' ∧
      ∀ e e', e ∈ elems r → e ∈ elems' r' → DGAssembly.entry (views r) blocks e e' = DGAssembly.entry (views' r') blocks' e e' := by
  have hall : allElems P elems = allElems P' elems' := Set.ext hsame
  have hop' : (geometryOf o d).Opposite P' elems' := fun f e e' h h' => hop f e e' ((hsame e).2 h) ((hsame e').2 h')
  have hst : ∀ r, ∃ vs : List ℝ × PoissonState D o, r < P → volumes o ranks plans r (buf r) (arrival r) = some vs.1 ∧
      poisson o K (views r) (b r) vs.1 = some vs.2 ∧ Poisson.Samples (views r) vs.2.op o.method (poissonRef o) (geometryOf o d) (poissonMaterial o d K)
        (poissonPenalty o d (allElems P elems) (poissonMaterial o d K)) := fun r => by
    by_cases hr : r < P
    · obtain ⟨vol, h1, h2⟩ := exchange_volumes (o := o) h hx r hr
      obtain ⟨s, h3, h4, -⟩ := C99_poisson h hop K r hr vol h2
      exact ⟨(vol, s), fun _ => ⟨h1, h3, h4⟩⟩
    · exact ⟨Classical.arbitrary _, fun h => absurd h hr⟩
  have hst' : ∀ r, ∃ vs : List ℝ × PoissonState D o, r < P' → volumes o ranks' plans' r (buf' r) (arrival' r) = some vs.1 ∧
      poisson o K (views' r) (b' r) vs.1 = some vs.2 ∧ Poisson.Samples (views' r) vs.2.op o.method (poissonRef o) (geometryOf o d) (poissonMaterial o d K)
        (poissonPenalty o d (allElems P elems) (poissonMaterial o d K)) := fun r => by
    by_cases hr : r < P'
    · obtain ⟨vol, h1, h2⟩ := exchange_volumes (o := o) h' hx' r hr
      obtain ⟨s, h3, h4, -⟩ := C99_poisson h' hop' K r hr vol h2
      exact ⟨(vol, s), fun _ => ⟨h1, h3, by rw [hall]; exact h4⟩⟩
    · exact ⟨Classical.arbitrary _, fun h => absurd h hr⟩
  choose vs hvs using hst
  choose vs' hvs' using hst'
  obtain ⟨blocks, blocks', h1, h2, h3⟩ := Poisson.C72_poisson_distribution h.mesh h'.mesh hsame o.method (poissonRef o) (geometryOf o d) hop
    (poissonMaterial o d K) (poissonPenalty o d (allElems P elems) (poissonMaterial o d K)) (fun r => (vs r).2.op) (fun r => (vs' r).2.op)
    (fun r hr => (hvs r hr).2.2) (fun r hr => (hvs' r hr).2.2) r r' hr hr'
  exact ⟨_, _, _, _, blocks, blocks', (hvs r hr).1, (hvs' r' hr').1, (hvs r hr).2.1, (hvs' r' hr').2.1, h1, h2, h3⟩

/-- **C99 (elasticity, two distributions)**: the same for elasticity. -/
theorem C99_elasticity_distribution (h : Setup P elems num fnum tag views d b) (h' : Setup P' elems' num' fnum' tag views' d b')
    (hsame : ∀ e, InElems P elems e ↔ InElems P' elems' e) (hop : (geometryOf o d).Opposite P elems) (lam mu : (Fin (D + 1) → ℝ) → ℤ → Fin 1 → ℝ)
    (rho : Option ((Fin (D + 1) → ℝ) → ℤ → Fin 1 → ℝ)) (C_N : ℝ) (hC : Cfl.gradConstant (D + 1) o.p = some C_N)
    {ranks ranks' : List (View × Built (D + 1))} {plans plans' : List ScatterPlan.Plan} {buf buf' : ℕ → List ℝ}
    {arrival arrival' : ℕ → List ScatterPlan.Block} (hx : Exchange P views b ranks plans buf arrival)
    (hx' : Exchange P' views' b' ranks' plans' buf' arrival') (r r' : ℕ) (hr : r < P) (hr' : r' < P') :
    ∃ vol vol' s s' blocks blocks', volumes o ranks plans r (buf r) (arrival r) = some vol ∧ volumes o ranks' plans' r' (buf' r') (arrival' r') = some vol' ∧
      elasticity o lam mu rho (views r) (b r) vol = some s ∧ elasticity o lam mu rho (views' r') (b' r') vol' = some s' ∧
      DGAssembly.assemble (views r) s.op.localOp = some blocks ∧ DGAssembly.assemble (views' r') s'.op.localOp = some blocks' ∧
      ∀ e e', e ∈ elems r → e ∈ elems' r' → DGAssembly.entry (views r) blocks e e' = DGAssembly.entry (views' r') blocks' e e' := by
  have hall : allElems P elems = allElems P' elems' := Set.ext hsame
  have hop' : (geometryOf o d).Opposite P' elems' := fun f e e' h h' => hop f e e' ((hsame e).2 h) ((hsame e').2 h')
  set L : List ℕ → Fin (nbf (D + 1) o.p) → ℝ := fun e => (elasticMaterial o d lam mu rho e).1 with hL
  set M : List ℕ → Fin (nbf (D + 1) o.p) → ℝ := fun e => (elasticMaterial o d lam mu rho e).2.1 with hM
  have hst : ∀ r, ∃ vs : List ℝ × ElasticityState D o, r < P → volumes o ranks plans r (buf r) (arrival r) = some vs.1 ∧
      elasticity o lam mu rho (views r) (b r) vs.1 = some vs.2 ∧ Elasticity.Samples (views r) vs.2.op o.method (elasticityRef o) (geometryOf o d) L M
        (elasticPenalty o d (allElems P elems) L M) := fun r => by
    by_cases hr : r < P
    · obtain ⟨vol, h1, h2⟩ := exchange_volumes (o := o) h hx r hr
      obtain ⟨s, h3, h4, -⟩ := C99_elasticity h hop lam mu rho C_N hC r hr vol h2
      exact ⟨(vol, s), fun _ => ⟨h1, h3, h4⟩⟩
    · exact ⟨Classical.arbitrary _, fun h => absurd h hr⟩
  have hst' : ∀ r, ∃ vs : List ℝ × ElasticityState D o, r < P' → volumes o ranks' plans' r (buf' r) (arrival' r) = some vs.1 ∧
      elasticity o lam mu rho (views' r) (b' r) vs.1 = some vs.2 ∧ Elasticity.Samples (views' r) vs.2.op o.method (elasticityRef o) (geometryOf o d) L M
        (elasticPenalty o d (allElems P elems) L M) := fun r => by
    by_cases hr : r < P'
    · obtain ⟨vol, h1, h2⟩ := exchange_volumes (o := o) h' hx' r hr
      obtain ⟨s, h3, h4, -⟩ := C99_elasticity h' hop' lam mu rho C_N hC r hr vol h2
      exact ⟨(vol, s), fun _ => ⟨h1, h3, by rw [hall]; exact h4⟩⟩
    · exact ⟨Classical.arbitrary _, fun h => absurd h hr⟩
  choose vs hvs using hst
  choose vs' hvs' using hst'
  obtain ⟨blocks, blocks', h1, h2, h3⟩ := Elasticity.C72_elasticity_distribution h.mesh h'.mesh hsame o.method (elasticityRef o) (geometryOf o d) hop
    L M (elasticPenalty o d (allElems P elems) L M) (fun r => (vs r).2.op) (fun r => (vs' r).2.op)
    (fun r hr => (hvs r hr).2.2) (fun r hr => (hvs' r hr).2.2) r r' hr hr'
  exact ⟨_, _, _, _, blocks, blocks', (hvs r hr).1, (hvs' r' hr').1, (hvs r hr).2.1, (hvs' r' hr').2.1, h1, h2, h3⟩

end

end Tandem.Construct
