import Verif.Props.DirectTraction
import Verif.Props.PoissonDefinite
/-! # Property C103 for Poisson's equation -/
namespace Tandem.Direct
open Finset Spec Curvilinear RefElement GreenOp Spec.Green
open Tandem.Construct (Options Setup Exchange PoissonState volumes)
open Tandem.DGTopo (View facetInfo FacetInfo)

variable {D P n : ℕ} {o : Options D} {elems : ℕ → List (List ℕ)} {num fnum tag : List ℕ → ℕ} {views : ℕ → View} {d : Domain (D + 1)}
variable {b : ℕ → CurvilinearBuild.Built (D + 1)}

theorem poSlip_combine {nq : ℕ} (ft : Tandem.Adapter.Fault D nq) (e_q : Fin n → Fin nq → ℝ) (c1 c2 : ℝ) (s s1 s2 : Fin n → ℝ)
    (h : ∀ l, s l = c1 * s1 l + c2 * s2 l) :
    Tandem.Adapter.poSlip ft e_q s = c1 • Tandem.Adapter.poSlip ft e_q s1 + c2 • Tandem.Adapter.poSlip ft e_q s2 := by
  have e : ∀ q, ∑ p, e_q p q * s p = c1 * ∑ p, e_q p q * s1 p + c2 * ∑ p, e_q p q * s2 p := fun q => by
    simp only [mul_sum, ← sum_add_distrib]
    exact sum_congr rfl fun l _ => by rw [h]; ring
  funext q
  simp only [Tandem.Adapter.poSlip, Pi.add_apply, Pi.smul_apply, smul_eq_mul, e]
  split <;> ring

theorem poTraction_combine {nq : ℕ} (ft : Tandem.Adapter.Fault D nq) (w : Fin nq → ℝ) (e_q : Fin n → Fin nq → ℝ) (c1 c2 : ℝ) (t1 t2 : Fin D → Fin nq → ℝ)
    (j : ℕ) : Tandem.Adapter.poTractionBlock ft w e_q (c1 • t1 + c2 • t2) j =
      c1 * Tandem.Adapter.poTractionBlock ft w e_q t1 j + c2 * Tandem.Adapter.poTractionBlock ft w e_q t2 j := by
  unfold Tandem.Adapter.poTractionBlock
  split
  · simp only [Tandem.Adapter.poTraction, Pi.add_apply, Pi.smul_apply, smul_eq_mul, mul_sum, ← sum_add_distrib]
    exact sum_congr rfl fun l _ => sum_congr rfl fun q _ => sum_congr rfl fun o _ => by ring
  · simp

/-- The data of a rank are a linear combination if boundary data and slip on the fault are. -/
theorem poissonData_combine {Nq nq : ℕ} (h : IsDistributed P (D + 1) elems num fnum tag views) {faults : ℕ → List ℕ} (hf : FaultMaps P tag views faults)
    {r : ℕ} (hr : r < P) (a : Adapter (D + 1) n nq) {c1 c2 : ℝ} {g g1 g2 : ℕ → Bool → Fin nq → ℝ} {s s1 s2 : List ℕ → ℕ → ℝ}
    (hg : g = c1 • g1 + c2 • g2)
    (hs : ∀ b ∈ (allFaults P views faults).flatten, ∀ e < n, s b e = c1 * s1 b e + c2 * s2 b e) :
    Poisson.Combined c1 c2 (poissonData (Nq := Nq) (views r) a g s) (poissonData (views r) a g1 s1) (poissonData (views r) a g2 s2) := by
  refine ⟨⟨rfl, rfl, rfl⟩, ?_, hg⟩
  funext f bd
  simp only [poissonData, Pi.add_apply, Pi.smul_apply]
  by_cases hi : isFault (views r) f = true
  · rw [if_pos hi, if_pos hi, if_pos hi]
    unfold isFault at hi
    simp only [Bool.and_eq_true, decide_eq_true_eq] at hi
    obtain ⟨info, _, _, _, hinfo, _⟩ := DGTopo.C33_facet_info h r hr f hi.1
    have hb := (info_elems h hr hi.1 hinfo).2.2.2
    rw [hi.2] at hb
    exact poSlip_combine _ _ _ _ _ _ _ fun l => hs _ (hf.all r hr f hi.1 (Option.some.inj hb).symm) _ l.2
  · rw [if_neg hi, if_neg hi, if_neg hi]; simp

/-- Tractions of the direct solve superpose: for boundary data and slip that are a linear combination, so are the
tractions. -/
theorem poisson_combine {Nbf Nbm Nq nq : ℕ} (h : IsDistributed P (D + 1) elems num fnum tag views) {faults : ℕ → List ℕ} (hf : FaultMaps P tag views faults)
    (op : ℕ → Poisson.Op (D + 1) Nbf Nbm Nq nq) (hm : ∀ r, r < P → (op r).method = .IP)
    (blocks : ℕ → List (ℕ × ℕ × (Fin Nbf → Fin Nbf → ℝ)))
    (huniq : ∀ rhs : ℕ → ℕ → Fin Nbf → ℝ, ∃ X : List ℕ → Fin Nbf → ℝ,
        (∀ r, r < P → ∀ u, u < (elems r).length → DGAssembly.rowApply Poisson.mulVec (blocks r) (fun j => X ((views r).elems.getD j [])) u = rhs r u) ∧
        ∀ Y : List ℕ → Fin Nbf → ℝ,
          (∀ r, r < P → ∀ u, u < (elems r).length → DGAssembly.rowApply Poisson.mulVec (blocks r) (fun j => Y ((views r).elems.getD j [])) u = rhs r u) →
          ∀ e, InElems P elems e → Y e = X e)
    (a : ℕ → Adapter (D + 1) n nq) (c1 c2 : ℝ) (g g1 g2 : ℕ → ℕ → Bool → Fin nq → ℝ) (s s1 s2 T T1 T2 : List ℕ → ℕ → ℝ)
    (hg : ∀ r, r < P → g r = c1 • g1 r + c2 • g2 r)
    (hs : ∀ b ∈ (allFaults P views faults).flatten, ∀ e < n, s b e = c1 * s1 b e + c2 * s2 b e)
    (h0 : PoissonDirect P elems views op blocks a faults g s T) (h1 : PoissonDirect P elems views op blocks a faults g1 s1 T1)
    (h2 : PoissonDirect P elems views op blocks a faults g2 s2 T2) (lab : List ℕ) (hlab : lab ∈ (allFaults P views faults).flatten) (j : ℕ) :
    T lab j = c1 * T1 lab j + c2 * T2 lab j := by
  obtain ⟨R, X, a1, a2, a3⟩ := h0
  obtain ⟨R1, X1, b1, b2, b3⟩ := h1
  obtain ⟨R2, X2, d1, d2, d3⟩ := h2
  have hdat := fun r hr => poissonData_combine (Nq := Nq) h hf hr (a r) (hg r hr) hs
  have hR : ∀ r, r < P → ∀ u, R r u = c1 • R1 r u + c2 • R2 r u := fun r hr u =>
    Poisson.rhs_superposition (views r) (op r) (hm r hr) (hdat r hr) (a1 r hr) (b1 r hr) (d1 r hr) u
  have hadd : ∀ (A : Fin Nbf → Fin Nbf → ℝ) x y, Poisson.mulVec A (x + y) = Poisson.mulVec A x + Poisson.mulVec A y := fun A x y => by
    funext i; simp [Poisson.mulVec, mul_add, sum_add_distrib]
  have hsm : ∀ (A : Fin Nbf → Fin Nbf → ℝ) (c : ℝ) x, Poisson.mulVec A (c • x) = c • Poisson.mulVec A x := fun A c x => by
    funext i; simp only [Poisson.mulVec, Pi.smul_apply, smul_eq_mul, mul_sum]
    exact sum_congr rfl fun j _ => by ring
  have hX : ∀ e, InElems P elems e → X e = c1 • X1 e + c2 • X2 e := by
    obtain ⟨Z, -, hZ⟩ := huniq R
    intro e he
    rw [hZ X a2 e he]
    refine (hZ (fun e => c1 • X1 e + c2 • X2 e) (fun r hr u hu => ?_) e he).symm
    rw [DGAssembly.rowApply_add Poisson.mulVec hadd, DGAssembly.rowApply_smul Poisson.mulVec hsm, DGAssembly.rowApply_smul Poisson.mulVec hsm,
      b2 r hr u hu, d2 r hr u hu, hR r hr]
  obtain ⟨l, hl, hlab⟩ := List.mem_flatten.1 hlab
  obtain ⟨r, hr, rfl⟩ := List.mem_map.1 hl
  obtain ⟨f, hff, rfl⟩ := List.mem_map.1 hlab
  have hr := List.mem_range.1 hr
  obtain ⟨hlt, htag⟩ := hf.fault r hr f hff
  obtain ⟨i, _, _, _, hi, _⟩ := DGTopo.C33_facet_info h r hr f hlt
  obtain ⟨k1, k2, k3, -⟩ := info_elems h hr hlt hi
  obtain ⟨junk, e0⟩ := a3 r hr f hff i hi
  obtain ⟨junk1, e1⟩ := b3 r hr f hff i hi
  obtain ⟨junk2, e2⟩ := d3 r hr f hff i hi
  rw [e0, e1, e2]
  unfold poissonTraction
  dsimp only
  rw [← poTraction_combine, hX _ k2, hX _ k3]
  congr 1
  split
  · exact Poisson.tractionBoundary_combine (op r) (hdat r hr) f i (k1.trans htag) junk junk1 junk2 _ _
  · exact Poisson.tractionSkeleton_combine (op r) (hdat r hr) f i (k1.trans htag) junk junk1 junk2 _ _ _ _

/-- **C103 (the Green's function mode computes the traction of the direct solve, Poisson's equation)**: on every mesh of straight triangles or tetrahedra that is held
by its boundary (C102), for every number of ranks, every partition and every order of the messages, with a coefficient that is constant on each region and the interior penalty method:

* for all boundary data and every slip the direct mode has a result;
* two results for the same data agree on the facets of the fault, and tractions superpose;
* if `G` is the Green's operator (C44: column by column the traction of the direct solve for unit slips, before boundary data are set) and `tb` the
  boundary traction (the direct solve for zero slip at time one), and the boundary data are proportional to time, then for every time and every
  slip the traction vector of the Green's function mode is the traction of the direct solve, in every component of every facet. -/
theorem C103_poisson (hD : D = 1 ∨ D = 2) (h : Setup P elems num fnum tag views d b) (hs : StraightDomain d) (hv : Curvilinear.Valid P elems d.x)
    (ho : GoodOptions o) (hip : o.method = .IP) (K : (Fin (D + 1) → ℝ) → ℤ → Fin 1 → ℝ) (k : ℤ → ℝ) (hK : ∀ x t, K x t 0 = k t)
    (hk : ∀ e, InElems P elems e → 0 < k (d.region e)) (hanc : Anchored P elems tag)
    (ranks : List (View × CurvilinearBuild.Built (D + 1))) (plans : List ScatterPlan.Plan) (buf : ℕ → List ℝ) (arrival : ℕ → List ScatterPlan.Block)
    (hx : Exchange P views b ranks plans buf arrival) (faults : ℕ → List ℕ) (hf : FaultMaps P tag views faults) (a : ℕ → Adapter (D + 1) n o.fctRule.points.length) :
    ∃ (vol : ℕ → List ℝ) (s : ℕ → PoissonState D o) (blocks : ℕ → List (ℕ × ℕ × (Fin (nbf (D + 1) o.p) → Fin (nbf (D + 1) o.p) → ℝ))),
      (∀ r, r < P → volumes o ranks plans r (buf r) (arrival r) = some (vol r) ∧ Construct.poisson o K (views r) (b r) (vol r) = some (s r) ∧
        DGAssembly.assemble (views r) (s r).op.localOp = some (blocks r)) ∧
      (∀ g slip, ∃ T, PoissonDirect P elems views (fun r => (s r).op) blocks a faults g slip T) ∧
      (∀ (c1 c2 : ℝ) (g g1 g2 : ℕ → ℕ → Bool → Fin o.fctRule.points.length → ℝ) (σ σ1 σ2 T T1 T2 : List ℕ → ℕ → ℝ),
        (∀ r, r < P → g r = c1 • g1 r + c2 • g2 r) → σ = c1 • σ1 + c2 • σ2 →
        PoissonDirect P elems views (fun r => (s r).op) blocks a faults g σ T → PoissonDirect P elems views (fun r => (s r).op) blocks a faults g1 σ1 T1 →
        PoissonDirect P elems views (fun r => (s r).op) blocks a faults g2 σ2 T2 → ∀ q ∈ (allFaults P views faults).flatten, T q = c1 • T1 q + c2 • T2 q) ∧
      ∀ (env : Env ℝ (List ℕ)) (g1 : ℕ → ℕ → Bool → Fin o.fctRule.points.length → ℝ),
        env.ranks P = allFaults P views faults → env.bc = n →
        (∀ slip, PoissonDirect P elems views (fun r => (s r).op) blocks a faults 0 slip (env.response slip)) →
        PoissonDirect P elems views (fun r => (s r).op) blocks a faults g1 0 env.boundary →
        ∀ (G : Mat ℝ) (tb : ℕ → ℝ), IsOperator env.response env.br env.bc (env.labels P) G → IsTraction env.boundary env.br (env.labels P) tb →
        ∀ (time : ℝ) (slip T : List ℕ → ℕ → ℝ),
          PoissonDirect P elems views (fun r => (s r).op) blocks a faults (fun r f bd q => time * g1 r f bd q) slip T →
          ∀ x q, (env.labels P)[x]? = some q → ∀ j < env.br, updateTraction env P G tb time slip (env.br * x + j) = T q j := by
  obtain ⟨vol, s, blocks, h1, h2⟩ := Definite.C102_poisson_unique hD h hs hv ho hip K k hK hk hanc ranks plans buf arrival hx
  have hop := Construct.opposite_straight (o := o) hD hs h.mesh.mesh hv
  have hm : ∀ r, r < P → (s r).op.method = .IP := fun r hr => by
    obtain ⟨vol', v1, v2⟩ := Construct.exchange_volumes (o := o) h hx r hr
    obtain ⟨s', t1, t2, -⟩ := Construct.C99_poisson h hop K r hr vol' v2
    obtain ⟨f1, f2, -⟩ := h1 r hr
    obtain rfl := Option.some.inj (f1.symm.trans v1)
    obtain rfl := Option.some.inj (f2.symm.trans t1)
    exact t2.method.trans hip
  have hcomb := fun c1 c2 => poisson_combine (n := n) h.mesh hf (fun r => (s r).op) hm blocks h2 a c1 c2
  refine ⟨vol, s, blocks, h1, fun g slip => ?_, fun c1 c2 g g1 g2 σ σ1 σ2 T T1 T2 hg hσ k k1 k2 q hq => ?_, fun env g1 hr hbc hresp hbnd G tb hG ht time slip T hT x q hx j hj => ?_⟩
  · have hrhs : ∀ r, ∃ B, r < P → DGAssembly.rhs (views r) ((s r).op.localRhs (poissonData (views r) (a r) (g r) slip)) 0 = some B := fun r => by
      by_cases hr : r < P
      · obtain ⟨B, hB⟩ := DGAssembly.rhs_exists h.mesh r hr ((s r).op.localRhs (poissonData (views r) (a r) (g r) slip)) 0
        exact ⟨B, fun _ => hB⟩
      · exact ⟨0, fun h => absurd h hr⟩
    choose R hR using hrhs
    obtain ⟨X, hX, -⟩ := h2 R
    classical
    let val : ℕ → ℕ → ℕ → ℝ := fun r f => poissonTraction (s r).op (a r) (poissonData (views r) (a r) (g r) slip) 0 f
      ((facetInfo (views r) f).getD ⟨0, 0, 0, 0, 0, 0, false, false, 0⟩) (fun j => X ((views r).elems.getD j []))
    refine ⟨fun q => if hq : ∃ z : ℕ × ℕ, z.1 < P ∧ z.2 ∈ faults z.1 ∧ label (views z.1) z.2 = q then val hq.choose.1 hq.choose.2 else 0, R, X, hR, hX, ?_⟩
    intro r hr f hff i hi
    refine ⟨0, ?_⟩
    have hq : ∃ z : ℕ × ℕ, z.1 < P ∧ z.2 ∈ faults z.1 ∧ label (views z.1) z.2 = label (views r) f := ⟨(r, f), hr, hff, rfl⟩
    beta_reduce
    rw [dif_pos hq]
    obtain ⟨e1, e2⟩ := hf.position hq.choose_spec.1 hr hq.choose_spec.2.1 hff hq.choose_spec.2.2
    rw [e1, e2]
    simp only [val, hi, Option.getD_some]
  · funext j
    exact hcomb c1 c2 g g1 g2 σ σ1 σ2 T T1 T2 hg (fun b _ e _ => by rw [hσ]; rfl) k k1 k2 q hq j
  · have hlab : env.labels P = (allFaults P views faults).flatten := by unfold Env.labels; rw [hr]
    refine green_of_direct P (hlab ▸ hf.once) (fun g => PoissonDirect P elems views (fun r => (s r).op) blocks a faults g)
      (fun c1 c2 g g1 g2 => ∀ r, r < P → g r = c1 • g1 r + c2 • g2 r) ?_ 0 g1 _ time
      (fun c1 c2 r _ => by simp) (fun r _ => by funext f bd q; simp) hresp hbnd hG ht slip T hT x q hx j hj
    intro c1 c2 g g1 g2 σ σ1 σ2 T T1 T2 hg hσ k k1 k2 q hq j
    rw [hlab] at hq hσ
    rw [hbc] at hσ
    exact hcomb c1 c2 g g1 g2 σ σ1 σ2 T T1 T2 hg hσ k k1 k2 q hq j

end Tandem.Direct
