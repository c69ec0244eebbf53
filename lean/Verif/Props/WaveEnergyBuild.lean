import Verif.Props.WaveEnergy
import Verif.Props.WaveSolvable
import Verif.Props.ConstructExample
/-! # Property C104 after the constructors, from the mesh -/
namespace Tandem.Construct
open RefElement Error CurvilinearBuild Finset Spec
open Tandem.DGTopo (View FacetInfo facetInfo)
open Tandem.Poisson (Measures)

variable {D P : ℕ} {elems : ℕ → List (List ℕ)} {num fnum tag : List ℕ → ℕ} {views : ℕ → View}
variable {o : Options D} {d : Domain (D + 1)} {b : ℕ → Built (D + 1)}

/-- **C104 (from the mesh)**: on every mesh of straight triangles or tetrahedra, for every number of ranks, every partition and every order of
the messages of the exchange, with Lamé parameters and density that are constant on each region, `lam ≥ 0`, `mu > 0` and positive density:
the constructors succeed and the matrix is assembled on all ranks; the kinetic and the elastic energy are nonnegative; along every solution
of the fully dynamic problem the derivative of their sum is the power of the loads; while slip and boundary displacement do not change, the sum less
the work of the loads never changes; where they are zero, the kinetic energy never exceeds the energy at the start; two solutions with the same
data that agree at the start agree at all times; and while the data do not change there is a solution from every displacement and velocity. -/
theorem C104_energy (hD : D = 1 ∨ D = 2) (h : Setup P elems num fnum tag views d b) (hs : StraightDomain d) (hv : Curvilinear.Valid P elems d.x)
    (ho : GoodOptions o) (hN : Cfl.Checked (D + 1) o.p) (hip : o.method = .IP) (lam mu : (Fin (D + 1) → ℝ) → ℤ → Fin 1 → ℝ)
    (rho : Option ((Fin (D + 1) → ℝ) → ℤ → Fin 1 → ℝ)) (l m ρ : ℤ → ℝ) (hl : ∀ x t, lam x t 0 = l t) (hm : ∀ x t, mu x t 0 = m t)
    (hρ : ∀ x t, rho.getD (fun _ _ _ => 1) x t 0 = ρ t) (hl0 : ∀ e, InElems P elems e → 0 ≤ l (d.region e))
    (hm0 : ∀ e, InElems P elems e → 0 < m (d.region e)) (hρ0 : ∀ e, InElems P elems e → 0 < ρ (d.region e))
    (ranks : List (View × Built (D + 1))) (plans : List ScatterPlan.Plan) (buf : ℕ → List ℝ) (arrival : ℕ → List ScatterPlan.Block)
    (hx : Exchange P views b ranks plans buf arrival) :
    ∃ (vol : ℕ → List ℝ) (s : ℕ → ElasticityState D o)
      (blocks : ℕ → List (ℕ × ℕ × (Fin (nbf (D + 1) o.p) → Fin (D + 1) → Fin (nbf (D + 1) o.p) → Fin (D + 1) → ℝ))),
      (∀ r, r < P → volumes o ranks plans r (buf r) (arrival r) = some (vol r) ∧ elasticity o lam mu rho (views r) (b r) (vol r) = some (s r) ∧
        DGAssembly.assemble (views r) (s r).op.localOp = some (blocks r)) ∧
      (∀ V, 0 ≤ kineticEnergy P elems views (fun r => (s r).op) (fun e => ρ (d.region e)) V) ∧
      (∀ U, 0 ≤ elasticEnergy P elems views blocks U) ∧
      (∀ (data : ℝ → ℕ → Elasticity.Data (D + 1) _ _) load U V, WaveSolution P elems views (fun r => (s r).op) blocks data load U V →
        (∀ t, HasDerivAt (fun τ => kineticEnergy P elems views (fun r => (s r).op) (fun e => ρ (d.region e)) (V τ) + elasticEnergy P elems views blocks (U τ))
          (power P elems views (load t) (V t)) t) ∧
        ((∀ t r, r < P → (data t r).dirichlet = (data 0 r).dirichlet ∧ (data t r).slip = (data 0 r).slip) → ∀ t,
          kineticEnergy P elems views (fun r => (s r).op) (fun e => ρ (d.region e)) (V t) + elasticEnergy P elems views blocks (U t) -
              power P elems views (load 0) (U t) =
            kineticEnergy P elems views (fun r => (s r).op) (fun e => ρ (d.region e)) (V 0) + elasticEnergy P elems views blocks (U 0) -
              power P elems views (load 0) (U 0)) ∧
        ((∀ t r, r < P → (data t r).dirichlet.getD 0 = 0 ∧ (data t r).slip.getD 0 = 0) → ∀ t,
          kineticEnergy P elems views (fun r => (s r).op) (fun e => ρ (d.region e)) (V t) ≤
            kineticEnergy P elems views (fun r => (s r).op) (fun e => ρ (d.region e)) (V 0) + elasticEnergy P elems views blocks (U 0)) ∧
        ∀ load' U' V', WaveSolution P elems views (fun r => (s r).op) blocks data load' U' V' →
          (∀ e, InElems P elems e → U 0 e = U' 0 e ∧ V 0 e = V' 0 e) → ∀ t e, InElems P elems e → U t e = U' t e ∧ V t e = V' t e) ∧
      ∀ (data : ℕ → Elasticity.Data (D + 1) _ _) (U0 V0 : List ℕ → Fin (nbf (D + 1) o.p) → Fin (D + 1) → ℝ),
        ∃ load U V, WaveSolution P elems views (fun r => (s r).op) blocks (fun _ => data) (fun _ => load) U V ∧
          ∀ e, InElems P elems e → U 0 e = U0 e ∧ V 0 e = V0 e := by
  have hop := opposite_straight (o := o) hD hs h.mesh.mesh hv
  have haff := affine_elements (o := o) hD hs h.mesh.mesh hv
  have hst := Cfl.AffineElements.straight hD haff
  obtain ⟨C_N, hC, -⟩ := Cfl.C97_gradient_reference (D + 1) o.p hN
  have hvol : ∀ r, ∃ vol, r < P → volumes o ranks plans r (buf r) (arrival r) = some vol ∧
      ∀ (u : ℕ) (e : List ℕ), (views r).elems[u]? = some e → vol[u]? = some (volumeOf o d e) := fun r => by
    by_cases hr : r < P
    · obtain ⟨vol, h1⟩ := exchange_volumes (o := o) h hx r hr
      exact ⟨vol, fun _ => h1⟩
    · exact ⟨[], fun h => absurd h hr⟩
  choose vol hvol using hvol
  set L : List ℕ → Fin (nbf (D + 1) o.p) → ℝ := fun e => (elasticMaterial o d lam mu rho e).1 with hL
  set M : List ℕ → Fin (nbf (D + 1) o.p) → ℝ := fun e => (elasticMaterial o d lam mu rho e).2.1 with hM
  set R : List ℕ → Fin (nbf (D + 1) o.p) → ℝ := fun e => (elasticMaterial o d lam mu rho e).2.2 with hR
  have hstate : ∀ r, ∃ s : ElasticityState D o, r < P → elasticity o lam mu rho (views r) (b r) (vol r) = some s ∧
      Elasticity.Samples (views r) s.op o.method (elasticityRef o) (geometryOf o d) L M (elasticPenalty o d (allElems P elems) L M) ∧
      Measures (views r) s.area s.volume (areaOf o d (allElems P elems)) (volumeOf o d) ∧
      (∀ i info, i < (views r).numLocalFacets → facetInfo (views r) i = some info →
        s.op.penalty_ i = Elasticity.preparePenalty (D + 1) (o.p - 1) s.area s.volume s.op.lam s.op.mu i info) ∧
      (∀ (u : ℕ) (e : List ℕ), (views r).elems[u]? = some e → s.op.rhoInv u = R e) ∧
      Cfl.prepareCfl (views r) o.p C_N s.area s.volume s.op = some s.dts := fun r => by
    by_cases hr : r < P
    · obtain ⟨s, h1⟩ := C99_elasticity h hop lam mu rho C_N hC r hr (vol r) (hvol r hr).2
      exact ⟨s, fun _ => h1⟩
    · exact ⟨Classical.arbitrary _, fun h => absurd h hr⟩
  choose s hs' using hstate
  have hsam : ∀ r, r < P → Elasticity.Samples (views r) (s r).op .IP (elasticityRef o) (geometryOf o d) L M (elasticPenalty o d (allElems P elems) L M) :=
    fun r hr => by rw [← hip]; exact (hs' r hr).2.1
  have hLe : ∀ e, InElems P elems e → L e = fun _ => l (d.region e) := fun e he => by
    simp only [hL, elastic_material hD hs ho lam mu rho l m ρ hl hm hρ e (hv.volume e he)]
  have hMe : ∀ e, InElems P elems e → M e = fun _ => m (d.region e) := fun e he => by
    simp only [hM, elastic_material hD hs ho lam mu rho l m ρ hl hm hρ e (hv.volume e he)]
  have hRe : ∀ e, InElems P elems e → R e = fun _ => 1.0 / ρ (d.region e) := fun e he => by
    simp only [hR, elastic_material hD hs ho lam mu rho l m ρ hl hm hρ e (hv.volume e he)]
  haveI := nbf_pos D o.p
  have hDp : (0 : ℝ) ≤ ((D + 1 : ℕ) : ℝ) := Nat.cast_nonneg _
  have hw : ∀ q, 0 ≤ (elasticityRef o).w q := fun q => getD_all (p := fun w => 0 ≤ w) le_rfl _ ho.fctPos q
  have hW : ∀ q, 0 ≤ (elasticityRef o).W q := fun q => getD_all (p := fun w => 0 ≤ w) le_rfl _ (fun w hw => (ho.volPos w hw).le) q
  have hcQ : ∀ c q, Elasticity.kCoefq (elasticityRef o).matE_Q_T (fun _ => c) q = c := fun c q => kCoefq_const _ _ _ (unity_volume hD ho q)
  have hcq : ∀ e f, InElems P elems e → IsFacet e f → ∀ c q,
      Elasticity.kCoefq ((elasticityRef o).matE_q_T ((geometryOf o d).localNo e f)) (fun _ => c) q = c := fun e f he hf c q =>
    kCoefq_const _ _ _ (unity_facet hD ho _ (localNo_lt hD h.mesh.mesh e f he hf) q)
  have hco : Elasticity.Coercive P (D + 1) (o.p - 1) elems (elasticityRef o) (geometryOf o d) L M (areaOf o d (allElems P elems)) (volumeOf o d) := by
    refine elasticity_coercive_bounds hD (o.p - 1) (elasticityRef o) (geometryOf o d) (Cfl.BasisTables.gradients (elasticity_tables hD ho)) hst _ _ _ _
      hw hW (harea hop) (fun e _ => hvolume e) ?_ ?_ ?_ ?_ ?_ ?_ ?_
    · intro e he; rw [hMe e he, ciInf_const]; linarith [hm0 e he]
    · intro e he; rw [hMe e he, hLe e he, ciSup_const]
      have := mul_nonneg hDp (hl0 e he); linarith [hm0 e he]
    · intro e he q; rw [hLe e he, hcQ]; exact hl0 e he
    · intro e he q; rw [hMe e he, ciInf_const, hcQ]
    · intro e f he hf q; rw [hLe e he, hcq e f he hf]; exact hl0 e he
    · intro e f he hf q; rw [hMe e he, hcq e f he hf]; exact (hm0 e he).le
    · intro e f he hf q; rw [hLe e he, hMe e he, hcq e f he hf, hcq e f he hf, ciSup_const]
  obtain ⟨blocks, hb, hsym⟩ := Elasticity.C71_elasticity_symmetric h.mesh (elasticityRef o) (geometryOf o d) hop L M _ (fun r => (s r).op) hsam
  have helem : ∀ r, r < P → ∀ u e, (views r).elems[u]? = some e → InElems P elems e := fun r hr u e he =>
    (((h.mesh.view r hr).exactly _).1 (List.mem_of_getElem? he)).1
  have hrho : ∀ r, r < P → ∀ u e, (views r).elems[u]? = some e → ∀ q, (s r).op.rhoInvQ u q = 1 / ρ (d.region e) := fun r hr u e he q => by
    have h1 : (s r).op.rhoInvQ u q = Elasticity.kCoefq (elasticityRef o).matE_Q_T (fun _ => 1.0 / ρ (d.region e)) q := by
      unfold Elasticity.Op.rhoInvQ Elasticity.kCoefq
      rw [(hsam r hr).ref, (hs' r hr).2.2.2.2.1 u e he, hRe e (helem r hr u e he)]
    rw [h1, hcQ]; norm_num
  have hJex : ∀ e, ∃ J, InElems P elems e → 0 < J ∧ ∀ q, (geometryOf o d).absDetJ e q = J := fun e => by
    by_cases he : InElems P elems e
    · obtain ⟨J, h1, h2⟩ := hst.detJ e he; exact ⟨J, fun _ => ⟨h1, h2⟩⟩
    · exact ⟨0, fun h => absurd h he⟩
  choose J hJe using hJex
  have hJ : ∀ r, r < P → ∀ u e, (views r).elems[u]? = some e → ∀ q, (s r).op.J_Q u q = J e := fun r hr u e he q => by
    rw [(hsam r hr).J_Q u e he, (hJe e (helem r hr u e he)).2]
  have hkin : ∀ V, 0 ≤ kineticEnergy P elems views (fun r => (s r).op) (fun e => ρ (d.region e)) V := fun V =>
    WaveEnergy.kinetic_nonneg _ V h.mesh fun r hr u e he q => by
      have hI := helem r hr u e he
      rw [hJ r hr u e he q, (hsam r hr).ref]
      exact mul_nonneg (hW q) (mul_nonneg (hρ0 e hI).le (hJe e hI).1.le)
  have hela : ∀ U, 0 ≤ elasticEnergy P elems views blocks U := fun X => by
    obtain ⟨blocks', hb', hpos⟩ := Elasticity.C75_elasticity h.mesh (elasticityRef o) (geometryOf o d) hop L M _ (fun r => (s r).op) hsam (o.p - 1)
      (fun r => (s r).area) (fun r => (s r).volume) _ _ (fun r hr => (hs' r hr).2.2.1) (fun r hr => (hs' r hr).2.2.2.1) hco X
    have heq : ∀ r, r < P → blocks' r = blocks r := fun r hr => Option.some.inj ((hb' r hr).symm.trans (hb r hr))
    refine mul_nonneg (by norm_num) (hpos.trans (le_of_eq (sum_congr rfl fun r hr => ?_)))
    rw [heq r (mem_range.1 hr)]
  have hne : ∀ e, InElems P elems e → ρ (d.region e) ≠ 0 ∧ J e ≠ 0 := fun e he => ⟨(hρ0 e he).ne', (hJe e he).1.ne'⟩
  refine ⟨vol, s, blocks, fun r hr => ⟨(hvol r hr).1, (hs' r hr).1, hb r hr⟩, hkin, hela, fun data load U V hsol => ⟨?_, ?_, ?_, ?_⟩,
    fun data U0 V0 => WaveEnergy.C104_solvable h.mesh data U0 V0⟩
  · exact WaveEnergy.C104_balance h.mesh (fun r hr => (hsam r hr).ref) (elasticity_inverse hD ho) _ J hrho hJ hne hb hsym data load U V hsol
  · intro hdata
    exact WaveEnergy.C104_locked h.mesh (fun r hr => (hsam r hr).ref) (elasticity_inverse hD ho) _ J hrho hJ hne hb hsym data hdata load U V hsol
  · intro hdata t
    have := WaveEnergy.C104_conserved h.mesh (fun r hr => (hsam r hr).ref) (fun r hr => (hsam r hr).method) (elasticity_inverse hD ho) _ J hrho hJ hne hb hsym
      data hdata load U V hsol t
    linarith [hela (U t)]
  · intro load' U' V' hsol' h0 t e he
    exact WaveEnergy.C104_unique h.mesh (fun r hr => (hsam r hr).ref) (fun r hr => (hsam r hr).method) (elasticity_inverse hD ho) hW _ J hrho hJ
      (fun e he => ⟨hρ0 e he, (hJe e he).1⟩) hb hsym hela data load load' U V U' V' hsol hsol' h0 t e he

/-- Everything `C104_energy` assumes, on three ranks, and a solution that starts from rest with a displacement that is not zero. -/
example : ∃ num fnum views b ranks plans buf arrival, Setup 3 Ghosts.exElems num fnum Poisson.exTag views exDomain b ∧
    Exchange 3 views b ranks plans buf arrival ∧
    ∃ (s : ℕ → ElasticityState 1 exOptions) (blocks : ℕ → List (ℕ × ℕ × (Fin (nbf 2 exOptions.p) → Fin 2 → Fin (nbf 2 exOptions.p) → Fin 2 → ℝ))) 
      (load : ℕ → ℕ → Fin (nbf 2 exOptions.p) → Fin 2 → ℝ) (U V : ℝ → List ℕ → Fin (nbf 2 exOptions.p) → Fin 2 → ℝ),
      WaveSolution 3 Ghosts.exElems views (fun r => (s r).op) blocks (fun _ _ => ⟨none, none, none⟩) (fun _ => load) U V ∧
      (∀ e, InElems 3 Ghosts.exElems e → U 0 e = 1 ∧ V 0 e = 0) ∧
      ∀ t, kineticEnergy 3 Ghosts.exElems views (fun r => (s r).op) (fun e => if exDomain.region e = 1 then 2 else 5) (V t) ≤
        kineticEnergy 3 Ghosts.exElems views (fun r => (s r).op) (fun e => if exDomain.region e = 1 then 2 else 5) (V 0) +
          elasticEnergy 3 Ghosts.exElems views blocks (U 0) := by
  obtain ⟨num, fnum, views, b, h⟩ := exSetup
  obtain ⟨ranks, plans, buf, arrival, hx⟩ := exchange_exists 3 views b
  obtain ⟨vol, s, blocks, -, -, -, h1, h2⟩ := C104_energy (D := 1) (o := exOptions) (Or.inl rfl) h exStraight exValid exGood (Or.inl ⟨rfl, le_rfl, by simp [exOptions]⟩) rfl
    (fun _ _ _ => 1) (fun _ t _ => if t = 1 then 3 else 4) (some fun _ t _ => if t = 1 then 2 else 5) (fun _ => 1) (fun t => if t = 1 then 3 else 4)
    (fun t => if t = 1 then 2 else 5) (fun _ _ => rfl) (fun _ _ => rfl) (fun _ _ => rfl) (fun e _ => by norm_num) (fun e _ => by split <;> norm_num)
    (fun e _ => by split <;> norm_num) ranks plans buf arrival hx
  obtain ⟨load, U, V, h3, h4⟩ := h2 (fun _ => ⟨none, none, none⟩) (fun _ => 1) (fun _ => 0)
  exact ⟨num, fnum, views, b, ranks, plans, buf, arrival, h, hx, s, blocks, load, U, V, h3, h4, (h1 _ _ _ _ h3).2.2.1 fun _ _ _ => ⟨rfl, rfl⟩⟩

end Tandem.Construct
