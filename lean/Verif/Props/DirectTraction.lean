import Verif.Lemmas.Superposition
import Verif.Props.GreenTraction
import Verif.Props.ElasticityDefinite
/-! # Property C103: the discrete Green's function yields the traction of the direct solve -/
namespace Tandem.DGAssembly
open Tandem.Spec Tandem.DGTopo

theorem rhs_exists {P D : ℕ} {elems : ℕ → List (List ℕ)} {num fnum tag : List ℕ → ℕ} {views : ℕ → View} (hd : IsDistributed P D elems num fnum tag views)
    {V : Type} (r : ℕ) (hr : r < P) (o : LocalRhs V) (b : ℕ → V) : ∃ B, rhs (views r) o b = some B := by
  have key : ∀ l : List ℕ, (∀ f ∈ l, f < (views r).numLocalFacets) → ∃ infos, l.mapM (fun f => (facetInfo (views r) f).map (fun i => (f, i))) = some infos := by
    intro l
    induction l with
    | nil => intro _; exact ⟨[], rfl⟩
    | cons f l ih =>
      intro h
      obtain ⟨infos, hi⟩ := ih fun g hg => h g (List.mem_cons_of_mem _ hg)
      obtain ⟨info, _, _, _, hf, _⟩ := C33_facet_info hd r hr f (h f (by simp))
      exact ⟨(f, info) :: infos, by rw [List.mapM_cons, hf, hi]; rfl⟩
  obtain ⟨infos, hi⟩ := key (List.range (views r).numLocalFacets) (by simp)
  exact ⟨_, by unfold rhs; rw [hi]; rfl⟩

end Tandem.DGAssembly

namespace Tandem.Direct
open Finset Spec Curvilinear RefElement GreenOp Spec.Green
open Tandem.Construct (Options Setup Exchange ElasticityState volumes)
open Tandem.DGTopo (View facetInfo FacetInfo)

variable {D P n : ℕ} {o : Options D} {elems : ℕ → List (List ℕ)} {num fnum tag : List ℕ → ℕ} {views : ℕ → View} {d : Domain (D + 1)}
variable {b : ℕ → CurvilinearBuild.Built (D + 1)}

/-- The facets of the fault in the order of the ranks (the numbering of the vectors `S_` and `traction_`). -/
def allFaults (P : ℕ) (views : ℕ → View) (faults : ℕ → List ℕ) : List (List (List ℕ)) := (List.range P).map fun r => (faults r).map (label (views r))

/-- What is assumed of the fault maps of the ranks (C31): they number local facets on the fault, every facet of the fault that a rank has is numbered
on one rank, and no facet is numbered twice. -/
structure FaultMaps (P : ℕ) (tag : List ℕ → ℕ) (views : ℕ → View) (faults : ℕ → List ℕ) : Prop where
  fault : ∀ r, r < P → ∀ f ∈ faults r, f < (views r).numLocalFacets ∧ tag (label (views r) f) = DGAssembly.bcFault
  all : ∀ r, r < P → ∀ f, f < (views r).numLocalFacets → tag (label (views r) f) = DGAssembly.bcFault → label (views r) f ∈ (allFaults P views faults).flatten
  once : (allFaults P views faults).flatten.Nodup

theorem info_elems (h : IsDistributed P (D + 1) elems num fnum tag views) {r : ℕ} (hr : r < P) {f : ℕ} (hf : f < (views r).numLocalFacets) {i : FacetInfo}
    (hi : facetInfo (views r) f = some i) :
    i.bc = tag (label (views r) f) ∧ InElems P elems ((views r).elems.getD i.up0 []) ∧ InElems P elems ((views r).elems.getD i.up1 []) ∧
      ((views r).bc[f]? = some (tag (label (views r) f))) := by
  obtain ⟨info, f', e0, e1, g1, g2, g3, g4, -, -, -, -, -, -, -, -, -, -, g5⟩ := DGTopo.C33_facet_info h r hr f hf
  obtain rfl := Option.some.inj (hi.symm.trans g1)
  have hl : label (views r) f = f' := by unfold label; rw [List.getD_eq_getElem?_getD, g2]; rfl
  have hin : ∀ {j e}, (views r).elems[j]? = some e → InElems P elems ((views r).elems.getD j []) := fun {j e} hj => by
    rw [List.getD_eq_getElem?_getD, hj]
    exact (((h.view r hr).exactly _).1 (List.mem_of_getElem? hj)).1
  refine ⟨by rw [hl, g5], hin g3, hin g4, ?_⟩
  rw [hl]
  exact (h.view r hr).bc f f' g2

theorem elSlip_combine {nq : ℕ} (ft : Tandem.Adapter.Fault (D + 1) nq) (e_q : Fin n → Fin nq → ℝ) (c1 c2 : ℝ) (s s1 s2 : Fin n → Fin D → ℝ)
    (h : ∀ l m, s l m = c1 * s1 l m + c2 * s2 l m) :
    Tandem.Adapter.elSlip ft e_q s = c1 • Tandem.Adapter.elSlip ft e_q s1 + c2 • Tandem.Adapter.elSlip ft e_q s2 := by
  funext p q
  simp only [Tandem.Adapter.elSlip, Pi.add_apply, Pi.smul_apply, smul_eq_mul, mul_sum, ← sum_add_distrib]
  exact sum_congr rfl fun l _ => sum_congr rfl fun o _ => sum_congr rfl fun m _ => by rw [h]; ring

theorem elTraction_combine {nq : ℕ} (ft : Tandem.Adapter.Fault (D + 1) nq) (w : Fin nq → ℝ) (e_q : Fin n → Fin nq → ℝ) (c1 c2 : ℝ) (t1 t2 : Fin (D + 1) → Fin nq → ℝ)
    (k : Fin n) (p : Fin (D + 1)) : Tandem.Adapter.elTraction ft w e_q (c1 • t1 + c2 • t2) k p =
      c1 * Tandem.Adapter.elTraction ft w e_q t1 k p + c2 * Tandem.Adapter.elTraction ft w e_q t2 k p := by
  simp only [Tandem.Adapter.elTraction, Pi.add_apply, Pi.smul_apply, smul_eq_mul, mul_sum, ← sum_add_distrib]
  exact sum_congr rfl fun l _ => sum_congr rfl fun q _ => sum_congr rfl fun o _ => by ring

/-- The data of a rank are a linear combination if boundary data and slip on the fault are. -/
theorem elasticityData_combine {Nq nq : ℕ} (h : IsDistributed P (D + 1) elems num fnum tag views) {faults : ℕ → List ℕ} (hf : FaultMaps P tag views faults)
    {r : ℕ} (hr : r < P) (a : Adapter (D + 1) n nq) {c1 c2 : ℝ} {g g1 g2 : Option (ℕ → Bool → Fin (D + 1) → Fin nq → ℝ)} {s s1 s2 : List ℕ → ℕ → ℝ}
    (hg : g.getD 0 = c1 • g1.getD 0 + c2 • g2.getD 0)
    (hs : ∀ b ∈ (allFaults P views faults).flatten, ∀ e < n * D, s b e = c1 * s1 b e + c2 * s2 b e) :
    Elasticity.Combined c1 c2 (elasticityData (Nq := Nq) (views r) a g s) (elasticityData (views r) a g1 s1) (elasticityData (views r) a g2 s2) := by
  refine ⟨⟨rfl, rfl, rfl⟩, ?_, hg⟩
  funext f bd
  simp only [elasticityData, Option.getD_some, Pi.add_apply, Pi.smul_apply]
  by_cases hi : isFault (views r) f = true
  · rw [if_pos hi, if_pos hi, if_pos hi]
    unfold isFault at hi
    simp only [Bool.and_eq_true, decide_eq_true_eq] at hi
    obtain ⟨info, _, _, _, hinfo, _⟩ := DGTopo.C33_facet_info h r hr f hi.1
    have hb := (info_elems h hr hi.1 hinfo).2.2.2
    rw [hi.2] at hb
    refine elSlip_combine _ _ _ _ _ _ _ fun l m => hs _ (hf.all r hr f hi.1 (Option.some.inj hb).symm) _ ?_
    calc l.val + m.val * n < n + m.val * n := by have := l.2; omega
      _ = n * (m.val + 1) := by ring
      _ ≤ n * D := Nat.mul_le_mul_left _ m.2
  · rw [if_neg hi, if_neg hi, if_neg hi]; simp

/-- Tractions of the direct solve superpose: for boundary data and slip that are a linear combination, so are the
tractions. -/
theorem elasticity_combine {Nbf Nbm Nq nq : ℕ} (h : IsDistributed P (D + 1) elems num fnum tag views) {faults : ℕ → List ℕ} (hf : FaultMaps P tag views faults)
    (op : ℕ → Elasticity.Op (D + 1) Nbf Nbm Nq nq) (hm : ∀ r, r < P → (op r).method = .IP)
    (blocks : ℕ → List (ℕ × ℕ × (Fin Nbf → Fin (D + 1) → Fin Nbf → Fin (D + 1) → ℝ)))
    (huniq : ∀ rhs : ℕ → ℕ → Fin Nbf → Fin (D + 1) → ℝ, ∃ X : List ℕ → Fin Nbf → Fin (D + 1) → ℝ,
        (∀ r, r < P → ∀ u, u < (elems r).length → DGAssembly.rowApply Elasticity.mulVec (blocks r) (fun j => X ((views r).elems.getD j [])) u = rhs r u) ∧
        ∀ Y : List ℕ → Fin Nbf → Fin (D + 1) → ℝ,
          (∀ r, r < P → ∀ u, u < (elems r).length → DGAssembly.rowApply Elasticity.mulVec (blocks r) (fun j => Y ((views r).elems.getD j [])) u = rhs r u) →
          ∀ e, InElems P elems e → Y e = X e)
    (a : ℕ → Adapter (D + 1) n nq) (c1 c2 : ℝ) (g g1 g2 : ℕ → Option (ℕ → Bool → Fin (D + 1) → Fin nq → ℝ)) (s s1 s2 T T1 T2 : List ℕ → ℕ → ℝ)
    (hg : ∀ r, r < P → (g r).getD 0 = c1 • (g1 r).getD 0 + c2 • (g2 r).getD 0)
    (hs : ∀ b ∈ (allFaults P views faults).flatten, ∀ e < n * D, s b e = c1 * s1 b e + c2 * s2 b e)
    (h0 : ElasticityDirect P elems views op blocks a faults g s T) (h1 : ElasticityDirect P elems views op blocks a faults g1 s1 T1)
    (h2 : ElasticityDirect P elems views op blocks a faults g2 s2 T2) (lab : List ℕ) (hlab : lab ∈ (allFaults P views faults).flatten) (j : ℕ) :
    T lab j = c1 * T1 lab j + c2 * T2 lab j := by
  obtain ⟨R, X, a1, a2, a3⟩ := h0
  obtain ⟨R1, X1, b1, b2, b3⟩ := h1
  obtain ⟨R2, X2, d1, d2, d3⟩ := h2
  have hdat := fun r hr => elasticityData_combine (Nq := Nq) h hf hr (a r) (hg r hr) hs
  have hR : ∀ r, r < P → ∀ u, R r u = c1 • R1 r u + c2 • R2 r u := fun r hr u =>
    Elasticity.rhs_superposition (views r) (op r) (hm r hr) (hdat r hr) (a1 r hr) (b1 r hr) (d1 r hr) u
  have hadd : ∀ (A : Fin Nbf → Fin (D + 1) → Fin Nbf → Fin (D + 1) → ℝ) x y, Elasticity.mulVec A (x + y) = Elasticity.mulVec A x + Elasticity.mulVec A y := fun A x y => by
    funext i p; simp [Elasticity.mulVec, mul_add, sum_add_distrib]
  have hsm : ∀ (A : Fin Nbf → Fin (D + 1) → Fin Nbf → Fin (D + 1) → ℝ) (c : ℝ) x, Elasticity.mulVec A (c • x) = c • Elasticity.mulVec A x := fun A c x => by
    funext i p; simp only [Elasticity.mulVec, Pi.smul_apply, smul_eq_mul, mul_sum]
    exact sum_congr rfl fun j _ => sum_congr rfl fun u _ => by ring
  have hX : ∀ e, InElems P elems e → X e = c1 • X1 e + c2 • X2 e := by
    obtain ⟨Z, -, hZ⟩ := huniq R
    intro e he
    rw [hZ X a2 e he]
    refine (hZ (fun e => c1 • X1 e + c2 • X2 e) (fun r hr u hu => ?_) e he).symm
    rw [DGAssembly.rowApply_add Elasticity.mulVec hadd, DGAssembly.rowApply_smul Elasticity.mulVec hsm, DGAssembly.rowApply_smul Elasticity.mulVec hsm,
      b2 r hr u hu, d2 r hr u hu, hR r hr]
  obtain ⟨l, hl, hlab⟩ := List.mem_flatten.1 hlab
  obtain ⟨r, hr, rfl⟩ := List.mem_map.1 hl
  obtain ⟨f, hff, rfl⟩ := List.mem_map.1 hlab
  have hr := List.mem_range.1 hr
  obtain ⟨hlt, htag⟩ := hf.fault r hr f hff
  obtain ⟨i, _, _, _, hi, _⟩ := DGTopo.C33_facet_info h r hr f hlt
  obtain ⟨k1, k2, k3, -⟩ := info_elems h hr hlt hi
  obtain ⟨junk, e0⟩ := a3 r hr f hff i hi
  obtain ⟨junk1, e1⟩ := b3 r hr f hff i hi
  obtain ⟨junk2, e2⟩ := d3 r hr f hff i hi
  rw [e0, e1, e2]
  unfold elasticityTraction
  dsimp only
  by_cases hj : 0 < n ∧ j / n < D + 1
  swap
  · rw [dif_neg hj, dif_neg hj, dif_neg hj]; simp
  rw [dif_pos hj, dif_pos hj, dif_pos hj, ← elTraction_combine, hX _ k2, hX _ k3]
  congr 1
  split
  · exact Elasticity.tractionBoundary_combine (op r) (hdat r hr) ⟨rfl, rfl, rfl⟩ f i (k1.trans htag) junk junk1 junk2 _ _
  · exact Elasticity.tractionSkeleton_combine (op r) (hdat r hr) ⟨rfl, rfl, rfl⟩ f i (k1.trans htag) junk junk1 junk2 _ _ _ _

/-- A facet of the fault is numbered on one rank. -/
theorem FaultMaps.position {faults : ℕ → List ℕ} (hf : FaultMaps P tag views faults) {r r' f f' : ℕ} (hr : r < P) (hr' : r' < P) (h : f ∈ faults r) (h' : f' ∈ faults r')
    (hl : label (views r) f = label (views r') f') : r = r' ∧ f = f' := by
  obtain ⟨h1, h2⟩ := List.nodup_flatten.1 hf.once
  have hrr : r = r' := by
    by_contra hne
    have hp : (List.range P).Pairwise fun a b => List.Disjoint ((faults a).map (label (views a))) ((faults b).map (label (views b))) := List.pairwise_map.1 h2
    rcases Nat.lt_or_gt_of_ne hne with hlt | hlt
    · have hd := List.pairwise_iff_getElem.1 hp r r' (by simpa using hr) (by simpa using hr') hlt
      simp only [List.getElem_range] at hd
      exact hd (List.mem_map_of_mem h) (hl ▸ List.mem_map_of_mem h')
    · have hd := List.pairwise_iff_getElem.1 hp r' r (by simpa using hr') (by simpa using hr) hlt
      simp only [List.getElem_range] at hd
      exact hd (List.mem_map_of_mem h') (hl ▸ List.mem_map_of_mem h)
  subst hrr
  exact ⟨rfl, List.inj_on_of_nodup_map (h1 _ (List.mem_map.2 ⟨r, List.mem_range.2 hr, rfl⟩)) h h' hl⟩

/-- **C103 (the Green's function mode computes the traction of the direct solve, elasticity)**: on every mesh of straight triangles or tetrahedra that is held
by its boundary (C102), for every number of ranks, every partition and every order of the messages, with Lamé parameters that are constant on each
region and the interior penalty method:

* for all boundary data and every slip the direct mode has a result;
* two results for the same data agree on the facets of the fault, and tractions superpose;
* if `G` is the Green's operator (C44: column by column the traction of the direct solve for unit slips, before boundary data are set) and `tb` the
  boundary traction (the direct solve for zero slip at time one), and the boundary data are proportional to time, then for every time and every
  slip the traction vector of the Green's function mode is the traction of the direct solve, in every component of every facet. -/
theorem C103_elasticity (hD : D = 1 ∨ D = 2) (h : Setup P elems num fnum tag views d b) (hs : StraightDomain d) (hv : Curvilinear.Valid P elems d.x)
    (ho : GoodOptions o) (hip : o.method = .IP) (C_N : ℝ) (hC : Cfl.gradConstant (D + 1) o.p = some C_N) (lam mu : (Fin (D + 1) → ℝ) → ℤ → Fin 1 → ℝ)
    (rho : Option ((Fin (D + 1) → ℝ) → ℤ → Fin 1 → ℝ)) (cl cm ρ : ℤ → ℝ) (hl : ∀ x t, lam x t 0 = cl t) (hmu : ∀ x t, mu x t 0 = cm t)
    (hρ : ∀ x t, rho.getD (fun _ _ _ => 1) x t 0 = ρ t)
    (hl0 : ∀ e, InElems P elems e → 0 ≤ cl (d.region e)) (hm0 : ∀ e, InElems P elems e → 0 < cm (d.region e)) (hanc : Anchored P elems tag)
    (ranks : List (View × CurvilinearBuild.Built (D + 1))) (plans : List ScatterPlan.Plan) (buf : ℕ → List ℝ) (arrival : ℕ → List ScatterPlan.Block)
    (hx : Exchange P views b ranks plans buf arrival) (faults : ℕ → List ℕ) (hf : FaultMaps P tag views faults) (a : ℕ → Adapter (D + 1) n o.fctRule.points.length) :
    ∃ (vol : ℕ → List ℝ) (s : ℕ → ElasticityState D o) (blocks : ℕ → List (ℕ × ℕ × (Fin (nbf (D + 1) o.p) → Fin (D + 1) → Fin (nbf (D + 1) o.p) → Fin (D + 1) → ℝ))),
      (∀ r, r < P → volumes o ranks plans r (buf r) (arrival r) = some (vol r) ∧ Construct.elasticity o lam mu rho (views r) (b r) (vol r) = some (s r) ∧
        DGAssembly.assemble (views r) (s r).op.localOp = some (blocks r)) ∧
      (∀ g slip, ∃ T, ElasticityDirect P elems views (fun r => (s r).op) blocks a faults g slip T) ∧
      (∀ (c1 c2 : ℝ) (g g1 g2 : ℕ → Option (ℕ → Bool → Fin (D + 1) → Fin o.fctRule.points.length → ℝ)) (σ σ1 σ2 T T1 T2 : List ℕ → ℕ → ℝ),
        (∀ r, r < P → (g r).getD 0 = c1 • (g1 r).getD 0 + c2 • (g2 r).getD 0) → σ = c1 • σ1 + c2 • σ2 →
        ElasticityDirect P elems views (fun r => (s r).op) blocks a faults g σ T → ElasticityDirect P elems views (fun r => (s r).op) blocks a faults g1 σ1 T1 →
        ElasticityDirect P elems views (fun r => (s r).op) blocks a faults g2 σ2 T2 → ∀ q ∈ (allFaults P views faults).flatten, T q = c1 • T1 q + c2 • T2 q) ∧
      ∀ (env : Env ℝ (List ℕ)) (g1 : ℕ → ℕ → Bool → Fin (D + 1) → Fin o.fctRule.points.length → ℝ),
        env.ranks P = allFaults P views faults → env.bc = n * D →
        (∀ slip, ElasticityDirect P elems views (fun r => (s r).op) blocks a faults (fun _ => none) slip (env.response slip)) →
        ElasticityDirect P elems views (fun r => (s r).op) blocks a faults (fun r => some (g1 r)) 0 env.boundary →
        ∀ (G : Mat ℝ) (tb : ℕ → ℝ), IsOperator env.response env.br env.bc (env.labels P) G → IsTraction env.boundary env.br (env.labels P) tb →
        ∀ (time : ℝ) (slip T : List ℕ → ℕ → ℝ),
          ElasticityDirect P elems views (fun r => (s r).op) blocks a faults (fun r => some fun f bd p q => time * g1 r f bd p q) slip T →
          ∀ x q, (env.labels P)[x]? = some q → ∀ j < env.br, updateTraction env P G tb time slip (env.br * x + j) = T q j := by
  obtain ⟨vol, s, blocks, h1, h2⟩ := Definite.C102_elasticity_unique hD h hs hv ho hip C_N hC lam mu rho cl cm ρ hl hmu hρ hl0 hm0 hanc ranks plans buf arrival hx
  have hop := Construct.opposite_straight (o := o) hD hs h.mesh.mesh hv
  have hm : ∀ r, r < P → (s r).op.method = .IP := fun r hr => by
    obtain ⟨vol', v1, v2⟩ := Construct.exchange_volumes (o := o) h hx r hr
    obtain ⟨s', t1, t2, -⟩ := Construct.C99_elasticity h hop lam mu rho C_N hC r hr vol' v2
    obtain ⟨f1, f2, -⟩ := h1 r hr
    obtain rfl := Option.some.inj (f1.symm.trans v1)
    obtain rfl := Option.some.inj (f2.symm.trans t1)
    exact t2.method.trans hip
  have hcomb := fun c1 c2 => elasticity_combine (n := n) h.mesh hf (fun r => (s r).op) hm blocks h2 a c1 c2
  refine ⟨vol, s, blocks, h1, fun g slip => ?_, fun c1 c2 g g1 g2 σ σ1 σ2 T T1 T2 hg hσ k k1 k2 q hq => ?_, fun env g1 hr hbc hresp hbnd G tb hG ht time slip T hT x q hx j hj => ?_⟩
  · have hrhs : ∀ r, ∃ B, r < P → DGAssembly.rhs (views r) ((s r).op.localRhs (elasticityData (views r) (a r) (g r) slip)) 0 = some B := fun r => by
      by_cases hr : r < P
      · obtain ⟨B, hB⟩ := DGAssembly.rhs_exists h.mesh r hr ((s r).op.localRhs (elasticityData (views r) (a r) (g r) slip)) 0
        exact ⟨B, fun _ => hB⟩
      · exact ⟨0, fun h => absurd h hr⟩
    choose R hR using hrhs
    obtain ⟨X, hX, -⟩ := h2 R
    classical
    let val : ℕ → ℕ → ℕ → ℝ := fun r f => elasticityTraction (s r).op (a r) (elasticityData (views r) (a r) (g r) slip) 0 f
      ((facetInfo (views r) f).getD ⟨0, 0, 0, 0, 0, 0, false, false, 0⟩) (fun j => X ((views r).elems.getD j []))
    refine ⟨fun q => if hq : ∃ z : ℕ × ℕ, z.1 < P ∧ z.2 ∈ faults z.1 ∧ label (views z.1) z.2 = q then val hq.choose.1 hq.choose.2 else 0, R, X, hR, hX, ?_⟩
    intro r hr f hff i hi
    refine ⟨0, ?_⟩
    have hq : ∃ z : ℕ × ℕ, z.1 < P ∧ z.2 ∈ faults z.1 ∧ label (views z.1) z.2 = label (views r) f := ⟨(r, f), hr, hff, rfl⟩
    beta_reduce
    rw [dif_pos hq]
    obtain ⟨e1, e2⟩ := hf.position hq.choose_spec.1 hr hq.choose_spec.2.1 hff hq.choose_spec.2.2
    rw [e1, e2]
    simp only [val, hi, Option.getD_some]
  · funext j
    exact hcomb c1 c2 g g1 g2 σ σ1 σ2 T T1 T2 hg (fun b _ e _ => by rw [hσ]; rfl) k k1 k2 q hq j
  · have hlab : env.labels P = (allFaults P views faults).flatten := by unfold Env.labels; rw [hr]
    refine green_of_direct P (hlab ▸ hf.once) (fun g => ElasticityDirect P elems views (fun r => (s r).op) blocks a faults g)
      (fun c1 c2 g g1 g2 => ∀ r, r < P → (g r).getD 0 = c1 • (g1 r).getD 0 + c2 • (g2 r).getD 0) ?_ (fun _ => none) (fun r => some (g1 r)) _ time
      (fun c1 c2 r _ => by simp) (fun r _ => by funext f bd p q; simp) hresp hbnd hG ht slip T hT x q hx j hj
    intro c1 c2 g g1 g2 σ σ1 σ2 T T1 T2 hg hσ k k1 k2 q hq j
    rw [hlab] at hq hσ
    rw [hbc] at hσ
    exact hcomb c1 c2 g g1 g2 σ σ1 σ2 T T1 T2 hg hσ k k1 k2 q hq j

end Tandem.Direct
