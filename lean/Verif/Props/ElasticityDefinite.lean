import Verif.Lemmas.Rigid
import Verif.Lemmas.ElasticityDefinite
import Verif.Props.PoissonDefinite
/-! # Property C102: the linear system of elasticity has exactly one solution -/
namespace Tandem.Definite
open Finset Spec Curvilinear RefElement
open Tandem.Construct (Options Setup Exchange ElasticityState volumes)
open Tandem.DGTopo (View facetInfo FacetInfo)

variable {D P : ℕ} {o : Options D} {elems : ℕ → List (List ℕ)} {num fnum tag : List ℕ → ℕ} {views : ℕ → View} {d : Domain (D + 1)}
variable {b : ℕ → CurvilinearBuild.Built (D + 1)}

open MvPolynomial in
/-- A function that vanishes at the points of a facet vanishes at its vertices. -/
theorem facet_vertices (hD : D = 1 ∨ D = 2) (ho : GoodOptions o) (hm : Spec.Mesh P (D + 1) elems) {e f : List ℕ} (he : InElems P elems e) (hf : IsFacet e f)
    (hfct : ∀ g, IsPoly D (2 * o.p) g → ∑ q, (Construct.elasticityRef o).w q * g o.fctRule.points[q] = simplexIntegral D g)
    (V : MvPolynomial (Fin (D + 1)) ℝ) (hV : V.totalDegree ≤ o.p)
    (h0 : ∀ q : Fin o.fctRule.points.length, (Construct.elasticityRef o).w q * eval (plexPoint d.x f o.fctRule.points[q]) V = 0) (a : ℕ) (ha : a ∈ f) : eval (d.x a) V = 0 := by
  have hpoly : IsPoly D o.p (fun χ => eval (plexPoint d.x f χ) V) := by
    simp only [← PatchTest.facet_points (d := d) hD hm he hf]
    refine Trace.isPoly_comp_affine o.p (fun ξ => eval (refToGeneral (d.corners e) ξ) V) ⟨Divergence.pull (d.corners e) V, (Divergence.pull_degree _ _).trans hV,
      fun ξ => (Divergence.eval_pull _ _ _).symm⟩ _ fun i => Trace.isPoly_facetParam _ i
  have h1 := vanish (n := D) (by omega) (Construct.elasticityRef o).w (fun q => o.fctRule.points[q]) hfct _ hpoly h0
  obtain ⟨s, hs, hes⟩ := he
  have hlen : f.length = D + 1 := by have := hf.1; have := hm.size s hs e hes; omega
  obtain ⟨k, hk, rfl⟩ := List.mem_iff_getElem.1 ha
  by_cases hk0 : k = 0
  · subst hk0
    have := h1 0
    rw [← this]
    congr 2
    funext i
    unfold plexPoint
    simp [List.getD_eq_getElem?_getD, List.getElem?_eq_getElem hk]
  · have := h1 (Pi.single ⟨k - 1, by omega⟩ 1)
    rw [← this]
    congr 2
    funext i
    unfold plexPoint
    have : k - 1 + 1 = k := by omega
    simp [Pi.single_apply, List.getD_eq_getElem?_getD, List.getElem?_eq_getElem hk, this]

open MvPolynomial in
/-- A displacement without strain that vanishes at the points of a facet of an element is zero. -/
theorem rigid_facet (hD : D = 1 ∨ D = 2) (ho : GoodOptions o) (hm : Spec.Mesh P (D + 1) elems) {e f : List ℕ} (he : InElems P elems e) (hf : IsFacet e f)
    (hdet : (edgeMatrix (d.corners e)).det ≠ 0)
    (hfct : ∀ g, IsPoly D (2 * o.p) g → ∑ q, (Construct.elasticityRef o).w q * g o.fctRule.points[q] = simplexIntegral D g)
    (V : Fin (D + 1) → MvPolynomial (Fin (D + 1)) ℝ) (hV : ∀ p, (V p).totalDegree ≤ o.p) (hr : ∀ p j, pderiv j (V p) + pderiv p (V j) = 0)
    (h0 : ∀ p (q : Fin o.fctRule.points.length), (Construct.elasticityRef o).w q * eval (plexPoint d.x f o.fctRule.points[q]) (V p) = 0) (y : Fin (D + 1) → ℝ) (p : Fin (D + 1)) :
    eval y (V p) = 0 := by
  obtain ⟨G, c, g1, g2⟩ := rigid_form V hr
  have hvert := fun a ha p => facet_vertices (d := d) hD ho hm he hf hfct (V p) (hV p) (h0 p) a ha
  obtain ⟨s, hs, hes⟩ := id he
  have hsz := hm.size s hs e hes
  have hso := hm.sorted s hs e hes
  have hnd : e.Nodup := hso.imp fun h => Nat.ne_of_lt h
  have hfnd : f.Nodup := hf.2.1.imp fun h => Nat.ne_of_lt h
  -- the vertex that is not on the facet
  obtain ⟨v, hv, hvf⟩ : ∃ v ∈ e, v ∉ f := by
    by_contra hh
    push Not at hh
    have := (List.subperm_of_subset hnd hh).length_le
    have := hf.1
    omega
  have hsub : ∀ a ∈ e, a ≠ v → a ∈ f := by
    intro a ha hav
    by_contra hh
    have h1 : (v :: a :: f).Nodup := by
      rw [List.nodup_cons, List.nodup_cons]
      refine ⟨?_, hh, hfnd⟩
      rw [List.mem_cons, not_or]
      exact ⟨Ne.symm hav, hvf⟩
    have h2 : (v :: a :: f) ⊆ e := by
      intro z hz
      rcases List.mem_cons.1 hz with rfl | hz
      · exact hv
      · rcases List.mem_cons.1 hz with rfl | hz
        · exact ha
        · exact hf.2.2 z hz
    have := (List.subperm_of_subset h1 h2).length_le
    have := hf.1
    simp at *
    omega
  obtain ⟨k, hk, hkv⟩ := List.mem_iff_getElem.1 hv
  have hcorner : ∀ m : Fin (D + 2), d.corners e m = d.x (e[m.val]'(by omega)) := fun m => by
    unfold Domain.corners
    rw [List.getD_eq_getElem?_getD, List.getElem?_eq_getElem (by omega)]; rfl
  have hz : ∀ m : Fin (D + 2), m ≠ ⟨k, by omega⟩ → ∀ p, c p + ∑ j, G p j * d.corners e m j = 0 := fun m hm p => by
    rw [hcorner, ← g2]
    refine hvert _ (hsub _ (List.getElem_mem _) fun hh => hm ?_) p
    have := (List.Nodup.getElem_inj_iff hnd).1 (hh.trans hkv.symm)
    exact Fin.ext this
  rw [g2]
  by_cases hk0 : k = 0
  · exact rigid_zero (d.corners e) hdet ⟨k, by omega⟩ (Fin.last (D + 1)) (by intro h; have := congrArg Fin.val h; simp at this; omega) G c g1 hz y p
  · exact rigid_zero (d.corners e) hdet ⟨k, by omega⟩ 0 (by intro h; have := congrArg Fin.val h; simp at this; omega) G c g1 hz y p

open MvPolynomial in
/-- The kernel of the quadratic form on a straight mesh: rigid motions on the elements, without jumps, zero where displacements are prescribed. -/
theorem elasticity_kernel (hD : D = 1 ∨ D = 2) (h : Setup P elems num fnum tag views d b) (hs : StraightDomain d) (hv : Curvilinear.Valid P elems d.x)
    (ho : GoodOptions o) (L M : List ℕ → Fin (nbf (D + 1) o.p) → ℝ) (cl cm : ℤ → ℝ)
    (hLe : ∀ e, InElems P elems e → L e = fun _ => cl (d.region e)) (hMe : ∀ e, InElems P elems e → M e = fun _ => cm (d.region e))
    (hl0 : ∀ e, InElems P elems e → 0 ≤ cl (d.region e)) (hm0 : ∀ e, InElems P elems e → 0 < cm (d.region e))
    (hanc : Anchored P elems tag) (s : ℕ → ElasticityState D o) (pen : List ℕ → ℝ)
    (hsam : ∀ r, r < P → Elasticity.Samples (views r) (s r).op .IP (Construct.elasticityRef o) (geometryOf o d) L M pen)
    (hmeas : ∀ r, r < P → Poisson.Measures (views r) (s r).area (s r).volume (areaOf o d (Construct.allElems P elems)) (volumeOf o d))
    (hpen : ∀ r, r < P → ∀ i info, i < (views r).numLocalFacets → facetInfo (views r) i = some info →
        (s r).op.penalty_ i = Elasticity.preparePenalty (D + 1) (o.p - 1) (s r).area (s r).volume (s r).op.lam (s r).op.mu i info)
    (blocks : ℕ → List (ℕ × ℕ × (Fin (nbf (D + 1) o.p) → Fin (D + 1) → Fin (nbf (D + 1) o.p) → Fin (D + 1) → ℝ)))
    (hb : ∀ r, r < P → DGAssembly.assemble (views r) (s r).op.localOp = some (blocks r))
    (X : List ℕ → Fin (nbf (D + 1) o.p) → Fin (D + 1) → ℝ)
    (hz : ∑ r ∈ Finset.range P, ∑ u ∈ Finset.range (elems r).length, ∑ k, ∑ p, X ((views r).elems.getD u []) k p *
        DGAssembly.rowApply Elasticity.mulVec (blocks r) (fun j => X ((views r).elems.getD j [])) u k p ≤ 0)
    (e : List ℕ) (he : InElems P elems e) : X e = 0 := by
  have hm := h.mesh.mesh
  have hop := Construct.opposite_straight (o := o) hD hs hm hv
  have haff := Construct.affine_elements (o := o) hD hs hm hv
  have hst := Cfl.AffineElements.straight hD haff
  haveI := Construct.nbf_pos D o.p
  have hDp : (0 : ℝ) ≤ ((D + 1 : ℕ) : ℝ) := Nat.cast_nonneg _
  have hw : ∀ q, 0 ≤ (Construct.elasticityRef o).w q := fun q => Construct.getD_all (p := fun w => 0 ≤ w) le_rfl _ ho.fctPos q
  have hW0 : ∀ q, 0 ≤ (Construct.elasticityRef o).W q := fun q => Construct.getD_all (p := fun w => 0 ≤ w) le_rfl _ (fun w hw => (ho.volPos w hw).le) q
  have hW : ∀ q, 0 < (Construct.elasticityRef o).W q := fun q => by
    have hq : q.val < o.volRule.weights.length := ho.vol.1 ▸ q.2
    change 0 < o.volRule.weights.getD q.val 0
    rw [List.getD_eq_getElem _ _ hq]
    exact ho.volPos _ (List.getElem_mem hq)
  have hcQ : ∀ c q, Elasticity.kCoefq (Construct.elasticityRef o).matE_Q_T (fun _ => c) q = c := fun c q => Construct.kCoefq_const _ _ _ (Construct.unity_volume hD ho q)
  have hcq : ∀ e f, InElems P elems e → IsFacet e f → ∀ c q,
      Elasticity.kCoefq ((Construct.elasticityRef o).matE_q_T ((geometryOf o d).localNo e f)) (fun _ => c) q = c := fun e f he hf c q =>
    Construct.kCoefq_const _ _ _ (Construct.unity_facet hD ho _ (Construct.localNo_lt hD hm e f he hf) q)
  have hco : Elasticity.Coercive P (D + 1) (o.p - 1) elems (Construct.elasticityRef o) (geometryOf o d) L M (areaOf o d (Construct.allElems P elems)) (volumeOf o d) := by
    refine Construct.elasticity_coercive_bounds hD (o.p - 1) (Construct.elasticityRef o) (geometryOf o d) (Cfl.BasisTables.gradients (Construct.elasticity_tables hD ho)) hst _ _ _ _
      hw hW0 (Construct.harea hop) (fun e _ => Construct.hvolume e) ?_ ?_ ?_ ?_ ?_ ?_ ?_
    · intro e he; rw [hMe e he, ciInf_const]; linarith [hm0 e he]
    · intro e he; rw [hMe e he, hLe e he, ciSup_const]
      have := mul_nonneg hDp (hl0 e he); linarith [hm0 e he]
    · intro e he q; rw [hLe e he, hcQ]; exact hl0 e he
    · intro e he q; rw [hMe e he, ciInf_const, hcQ]
    · intro e f he hf q; rw [hLe e he, hcq e f he hf]; exact hl0 e he
    · intro e f he hf q; rw [hMe e he, hcq e f he hf]; exact (hm0 e he).le
    · intro e f he hf q; rw [hLe e he, hMe e he, hcq e f he hf, hcq e f he hf, ciSup_const]
  obtain ⟨B, hB, htab⟩ := PatchTest.elasticity_tab hD ho
  have hfac : ∀ {e f}, InElems P elems e → IsFacet e f → (geometryOf o d).localNo e f = facetNo D e f := fun {e f} he hf =>
    ((Construct.geometry_affine (o := o) hD hs hm he).2.2 f hf).2.2
  -- the displacements of the elements as polynomials
  have hU : ∀ e, ∃ U : Fin (D + 1) → MvPolynomial (Fin (D + 1)) ℝ, InElems P elems e →
      (∀ p, (U p).totalDegree ≤ o.p) ∧ ∀ p ξ, ∑ l, X e l p * eval ξ (B l) = eval (refToGeneral (d.corners e) ξ) (U p) := fun e => by
    by_cases he : InElems P elems e
    · have h1 : ∀ p : Fin (D + 1), ∃ U : MvPolynomial (Fin (D + 1)) ℝ, U.totalDegree ≤ o.p ∧ ∀ ξ, ∑ l, X e l p * eval ξ (B l) = eval (refToGeneral (d.corners e) ξ) U := fun p => by
        obtain ⟨U, u1, u2⟩ := lift (d.corners e) (hv.volume e he) (∑ l, C (X e l p) * B l)
        refine ⟨U, u1.trans ?_, fun ξ => ?_⟩
        · refine totalDegree_finsetSum_le fun l _ => (totalDegree_mul _ _).trans ?_
          rw [totalDegree_C, zero_add]; exact htab.degree l
        · rw [← u2, map_sum]
          exact sum_congr rfl fun l _ => by rw [map_mul, eval_C]
      choose U hU using h1
      exact ⟨U, fun _ => ⟨fun p => (hU p).1, fun p => (hU p).2⟩⟩
    · exact ⟨0, fun h => absurd h he⟩
  choose U hU using hU
  have hpos : ∀ e, InElems P elems e → 0 < |(edgeMatrix (d.corners e)).det| := fun e he => abs_pos.2 (hv.volume e he)
  have hen : ∀ e, InElems P elems e → Elasticity.energyTerm (Construct.elasticityRef o) (geometryOf o d) L M X e =
      ∑ q, |(edgeMatrix (d.corners e)).det| * (Construct.elasticityRef o).W q *
        energyAt (cl (d.region e)) (cm (d.region e)) (U e) (refToGeneral (d.corners e) o.volRule.points[q]) := fun e he => by
    obtain ⟨ha1, ha2, -⟩ := Construct.geometry_affine (o := o) hD hs hm he
    have hgr := fun q r s => PatchTest.elastic_grad (d.corners e) (hv.volume e he) (X e) (U e) (hU e he).2 ((geometryOf o d).jInv e) (Construct.elasticityRef o).Dxi_Q q
      o.volRule.points[q] (fun i j => ha2 i j q) (fun l j => htab.DQ l j q) r s
    unfold Elasticity.energyTerm
    refine sum_congr rfl fun q _ => ?_
    unfold Elasticity.strain2 Elasticity.strain
    simp only [Elasticity.wj_eq, hLe e he, hMe e he, hcQ, hgr, ha1]
    unfold energyAt
    ring
  have hnrm : ∀ e f, InElems P elems e → IsFacet e f → Curvilinear.normal (facetNo D e f) (edgeMatrix (d.corners e)) ≠ 0 := fun e f he hf hn => by
    have hA := hco.areaPos e f he hf
    rw [Construct.harea hop e f he hf] at hA
    refine hA.ne' (sum_eq_zero fun q _ => ?_)
    unfold Poisson.normalLength
    simp only [PatchTest.normal_value (o := o) hD hs hm he hf, hn, Pi.zero_apply, mul_zero, sum_const_zero, Real.sqrt_zero]
  have htt : ∀ e f, InElems P elems e → IsFacet e f → Elasticity.tracTerm (Construct.elasticityRef o) (geometryOf o d) L M e f (X e) =
      ∑ i : Fin (D + 1) × Fin o.fctRule.points.length, (Construct.elasticityRef o).w i.2 *
        (elasticTraction (cl (d.region e)) (cm (d.region e)) (U e) (Curvilinear.normal (facetNo D e f) (edgeMatrix (d.corners e))) i.1
          (refToGeneral (d.corners e) (facetParam (facetNo D e f) o.fctRule.points[i.2])) ^ 2 /
          √(∑ j, Curvilinear.normal (facetNo D e f) (edgeMatrix (d.corners e)) j * Curvilinear.normal (facetNo D e f) (edgeMatrix (d.corners e)) j)) := fun e f he hf => by
    obtain ⟨-, -, ha3⟩ := Construct.geometry_affine (o := o) hD hs hm he
    unfold Elasticity.tracTerm
    refine sum_congr rfl fun i _ => ?_
    rw [hLe e he, hMe e he, PatchTest.traction_value (d.corners e) (hv.volume e he) (X e) (U e) (hU e he).2 _ _ ((Construct.elasticityRef o).matE_q_T ((geometryOf o d).localNo e f)) _ _ _ i.2
      (facetParam (facetNo D e f) o.fctRule.points[i.2]) (Construct.unity_facet hD ho _ (Construct.localNo_lt hD hm e f he hf) i.2)
      (fun k j => (ha3 f hf).1 k j i.2) (fun l j => by rw [hfac he hf]; exact htab.Dq _ l j i.2) i.1]
    unfold Poisson.normalLength
    simp only [PatchTest.normal_value (o := o) hD hs hm he hf]
  obtain ⟨k1, k2, k3⟩ := Elasticity.kernel h.mesh (Construct.elasticityRef o) (geometryOf o d) hop L M pen (fun r => (s r).op) hsam (o.p - 1)
    (fun r => (s r).area) (fun r => (s r).volume) _ _ hmeas hpen hco X (fun e he hf => by
      obtain ⟨ha1, -, -⟩ := Construct.geometry_affine (o := o) hD hs hm he
      rw [hen e he]
      refine sum_eq_zero fun q _ => ?_
      rw [energy_zero, mul_zero]
      intro r j
      refine congrFun (all_facets hD hm he (hv.volume e he) (fun j => eval (refToGeneral (d.corners e) o.volRule.points[q]) (stress (cl (d.region e)) (cm (d.region e)) (U e) r j)) ?_) j
      intro f hff t ht
      refine sharp_stress hD htab hW (d.corners e) _ _ (hl0 e he) (hm0 e he) (U e) (hU e he).1 (facetNo D e f) _ (hnrm e f he hff) _ (hpos e he) ?_ q r t ht
      rw [← htt e f he hff, hf f hff, hen e he]
      congr 1
      unfold Elasticity.sidePenalty Elasticity.stiffnessBounds
      rw [hLe e he, hMe e he, ciInf_const, ciSup_const, Construct.harea hop e f he hff, Construct.hvolume e]
      unfold Poisson.normalLength
      simp only [PatchTest.normal_value (o := o) hD hs hm he hff, ha1]
      rfl)
    blocks hb hz
  have hrig : ∀ e, InElems P elems e → ∀ r j, pderiv j (U e r) + pderiv r (U e j) = 0 := fun e he r j => by
    refine rigid_of_energy hD htab (d.corners e) (hv.volume e he) _ _ (hl0 e he) (hm0 e he) (U e) (hU e he).1 (fun q => ?_) r j
    have h0 := k1 e he
    rw [hen e he] at h0
    have hnn : ∀ q : Fin o.volRule.points.length, 0 ≤ energyAt (cl (d.region e)) (cm (d.region e)) (U e) (refToGeneral (d.corners e) o.volRule.points[q]) := fun q => by
      unfold energyAt
      have := mul_nonneg (hl0 e he) (sq_nonneg (∑ r, eval (refToGeneral (d.corners e) o.volRule.points[q]) (pderiv r (U e r))))
      have := hm0 e he
      positivity
    have h1 := (sum_eq_zero_iff_of_nonneg fun q _ => mul_nonneg (mul_pos (hpos e he) (hW q)).le (hnn q)).1 h0 q (mem_univ q)
    exact ((mul_eq_zero.1 h1).resolve_left (mul_pos (hpos e he) (hW q)).ne').le
  have hval : ∀ {e f} (he : InElems P elems e) (hf : IsFacet e f) p q, Elasticity.val ((Construct.elasticityRef o).E_q ((geometryOf o d).localNo e f)) (X e) p q =
      eval (plexPoint d.x f o.fctRule.points[q]) (U e p) := fun {e f} he hf p q => by
    rw [← PatchTest.facet_points (d := d) hD hm he hf, ← (hU e he).2, hfac he hf]
    exact sum_congr rfl fun l _ => by rw [htab.Eq, mul_comm]
  have hnl : ∀ {e f} (he : InElems P elems e) (hf : IsFacet e f) q, 0 < Poisson.normalLength ((geometryOf o d).normal f e) q := fun {e f} he hf q => by
    unfold Poisson.normalLength
    simp only [PatchTest.normal_value (o := o) hD hs hm he hf]
    refine Real.sqrt_pos.2 ?_
    obtain ⟨i, hi⟩ := Function.ne_iff.1 (hnrm e f he hf)
    exact sum_pos' (fun j _ => mul_self_nonneg _) ⟨i, mem_univ _, mul_self_pos.2 hi⟩
  have hsq : ∀ {e f} (he : InElems P elems e) (hf : IsFacet e f) q (t : ℝ),
      (Construct.elasticityRef o).w q * (Poisson.normalLength ((geometryOf o d).normal f e) q * t ^ 2) = 0 → (Construct.elasticityRef o).w q * t = 0 := fun {e f} he hf q t ht => by
    rcases mul_eq_zero.1 ht with h | h
    · rw [h, zero_mul]
    · rw [pow_eq_zero_iff (two_ne_zero) |>.1 ((mul_eq_zero.1 h).resolve_left (hnl he hf q).ne'), mul_zero]
  have hstep : ∀ e a, InElems P elems e → InElems P elems a → SharesFacet P elems e a → ∀ y p, eval y (U e p) = eval y (U a p) := by
    rintro e a he ha ⟨-, -, f, hf, hfa⟩ y p
    by_cases hea : e = a
    · subst hea; rfl
    · refine sub_eq_zero.1 ?_
      rw [← map_sub]
      refine rigid_facet (d := d) hD ho hm he hf (hv.volume e he) htab.fct (fun p => U e p - U a p)
        (fun p => (totalDegree_sub _ _).trans (max_le ((hU e he).1 p) ((hU a ha).1 p))) (fun p j => ?_) (fun p q => ?_) y p
      · have h1 := hrig e he p j
        have h2 := hrig a ha p j
        simp only [map_sub]
        linear_combination h1 - h2
      · have := k2 f e a he ha hea hf hfa (p, q)
        simp only [hval he hf, hval ha hfa] at this
        rw [map_sub]
        exact hsq he hf q _ this
  have hwalk : ∀ e a, Relation.ReflTransGen (SharesFacet P elems) e a → InElems P elems e → InElems P elems a → ∀ y p, eval y (U e p) = eval y (U a p) := by
    intro e a hw
    induction hw with
    | refl => intro _ _ _ _; rfl
    | tail _ hstep' ih => intro he ha y p; exact (ih he hstep'.1 y p).trans (hstep _ _ hstep'.1 ha hstep' y p)
  obtain ⟨a, f, hwk, ha, hf, honly, htag⟩ := hanc e he
  have h0 : ∀ y p, eval y (U a p) = 0 := fun y p =>
    rigid_facet (d := d) hD ho hm ha hf (hv.volume a ha) htab.fct (U a) (hU a ha).1 (hrig a ha) (fun p q => by
      have := k3 f a ha hf honly htag (p, q)
      simp only [hval ha hf] at this
      exact hsq ha hf q _ this) y p
  have hzero : ∀ p ξ, ∑ l : Fin (nbf (D + 1) o.p), X e l p * nodalFunction o.p o.nodes l ξ = 0 := fun p ξ => by
    rw [← h0 (refToGeneral (d.corners e) ξ) p, ← hwalk e a hwk he ha, ← (hU e he).2]
    exact sum_congr rfl fun l _ => by rw [hB]
  obtain ⟨c', -, hc'⟩ := PatchTest.C101_nodal_coefficients (d := d) hD ho 0 (by simp) e
  funext l p
  have := hc' (fun l => X e l p) (fun ξ => by rw [hzero, map_zero])
  have h2 := hc' 0 (fun ξ => by simp)
  exact congrFun (this.trans h2.symm) l

/-- What all ranks construct, and the kernel of the matrix they assemble. -/
theorem elasticity_states (hD : D = 1 ∨ D = 2) (h : Setup P elems num fnum tag views d b) (hs : StraightDomain d) (hv : Curvilinear.Valid P elems d.x)
    (ho : GoodOptions o) (hip : o.method = .IP) (C_N : ℝ) (hC : Cfl.gradConstant (D + 1) o.p = some C_N) (lam mu : (Fin (D + 1) → ℝ) → ℤ → Fin 1 → ℝ)
    (rho : Option ((Fin (D + 1) → ℝ) → ℤ → Fin 1 → ℝ)) (cl cm ρ : ℤ → ℝ) (hl : ∀ x t, lam x t 0 = cl t) (hmu : ∀ x t, mu x t 0 = cm t)
    (hρ : ∀ x t, rho.getD (fun _ _ _ => 1) x t 0 = ρ t)
    (hl0 : ∀ e, InElems P elems e → 0 ≤ cl (d.region e)) (hm0 : ∀ e, InElems P elems e → 0 < cm (d.region e)) (hanc : Anchored P elems tag)
    (ranks : List (View × CurvilinearBuild.Built (D + 1))) (plans : List ScatterPlan.Plan) (buf : ℕ → List ℝ) (arrival : ℕ → List ScatterPlan.Block)
    (hx : Exchange P views b ranks plans buf arrival) :
    ∃ (vol : ℕ → List ℝ) (s : ℕ → ElasticityState D o) (blocks : ℕ → List (ℕ × ℕ × (Fin (nbf (D + 1) o.p) → Fin (D + 1) → Fin (nbf (D + 1) o.p) → Fin (D + 1) → ℝ))),
      (∀ r, r < P → volumes o ranks plans r (buf r) (arrival r) = some (vol r) ∧ Construct.elasticity o lam mu rho (views r) (b r) (vol r) = some (s r) ∧
        DGAssembly.assemble (views r) (s r).op.localOp = some (blocks r)) ∧
      ∀ X : List ℕ → Fin (nbf (D + 1) o.p) → Fin (D + 1) → ℝ, ∑ r ∈ Finset.range P, ∑ u ∈ Finset.range (elems r).length, ∑ k, ∑ p, X ((views r).elems.getD u []) k p *
          DGAssembly.rowApply Elasticity.mulVec (blocks r) (fun j => X ((views r).elems.getD j [])) u k p ≤ 0 →
        ∀ e, InElems P elems e → X e = 0 := by
  have hop := Construct.opposite_straight (o := o) hD hs h.mesh.mesh hv
  have hvol : ∀ r, ∃ vol, r < P → volumes o ranks plans r (buf r) (arrival r) = some vol ∧
      ∀ (u : ℕ) (e : List ℕ), (views r).elems[u]? = some e → vol[u]? = some (volumeOf o d e) := fun r => by
    by_cases hr : r < P
    · obtain ⟨vol, h1⟩ := Construct.exchange_volumes (o := o) h hx r hr
      exact ⟨vol, fun _ => h1⟩
    · exact ⟨[], fun h => absurd h hr⟩
  choose vol hvol using hvol
  set L : List ℕ → Fin (nbf (D + 1) o.p) → ℝ := fun e => (elasticMaterial o d lam mu rho e).1 with hL
  set M : List ℕ → Fin (nbf (D + 1) o.p) → ℝ := fun e => (elasticMaterial o d lam mu rho e).2.1 with hM
  have hstate : ∀ r, ∃ s : ElasticityState D o, r < P → Construct.elasticity o lam mu rho (views r) (b r) (vol r) = some s ∧
      Elasticity.Samples (views r) s.op o.method (Construct.elasticityRef o) (geometryOf o d) L M (elasticPenalty o d (Construct.allElems P elems) L M) ∧
      Poisson.Measures (views r) s.area s.volume (areaOf o d (Construct.allElems P elems)) (volumeOf o d) ∧
      (∀ i info, i < (views r).numLocalFacets → facetInfo (views r) i = some info →
        s.op.penalty_ i = Elasticity.preparePenalty (D + 1) (o.p - 1) s.area s.volume s.op.lam s.op.mu i info) := fun r => by
    by_cases hr : r < P
    · obtain ⟨s, h1, h2, h3, h4, -⟩ := Construct.C99_elasticity h hop lam mu rho C_N hC r hr (vol r) (hvol r hr).2
      exact ⟨s, fun _ => ⟨h1, h2, h3, h4⟩⟩
    · exact ⟨Classical.arbitrary _, fun h => absurd h hr⟩
  choose s hs' using hstate
  have hsam : ∀ r, r < P → Elasticity.Samples (views r) (s r).op .IP (Construct.elasticityRef o) (geometryOf o d) L M
      (elasticPenalty o d (Construct.allElems P elems) L M) := fun r hr => by rw [← hip]; exact (hs' r hr).2.1
  have hLe : ∀ e, InElems P elems e → L e = fun _ => cl (d.region e) := fun e he => by
    simp only [hL, Construct.elastic_material hD hs ho lam mu rho cl cm ρ hl hmu hρ e (hv.volume e he)]
  have hMe : ∀ e, InElems P elems e → M e = fun _ => cm (d.region e) := fun e he => by
    simp only [hM, Construct.elastic_material hD hs ho lam mu rho cl cm ρ hl hmu hρ e (hv.volume e he)]
  obtain ⟨blocks, hb, -⟩ := Elasticity.C71_elasticity_symmetric h.mesh (Construct.elasticityRef o) (geometryOf o d) hop L M _ (fun r => (s r).op) hsam
  exact ⟨vol, s, blocks, fun r hr => ⟨(hvol r hr).1, (hs' r hr).1, hb r hr⟩, fun X hz => elasticity_kernel hD h hs hv ho L M cl cm hLe hMe hl0 hm0 hanc s _ hsam
    (fun r hr => (hs' r hr).2.2.1) (fun r hr => (hs' r hr).2.2.2) blocks hb X hz⟩

/-- **C102 (positive definite, elasticity)**: on every mesh of straight triangles or tetrahedra that is held by its boundary, for every number
of ranks, every partition and every order of the messages, with Lamé parameters `lam ≥ 0` and `mu > 0` that are constant on each region: all
ranks construct the operator and assemble the matrix, and the quadratic form of the global interior penalty matrix is positive for every vector
that is not zero on all elements. -/
theorem C102_elasticity_definite (hD : D = 1 ∨ D = 2) (h : Setup P elems num fnum tag views d b) (hs : StraightDomain d) (hv : Curvilinear.Valid P elems d.x)
    (ho : GoodOptions o) (hip : o.method = .IP) (C_N : ℝ) (hC : Cfl.gradConstant (D + 1) o.p = some C_N) (lam mu : (Fin (D + 1) → ℝ) → ℤ → Fin 1 → ℝ)
    (rho : Option ((Fin (D + 1) → ℝ) → ℤ → Fin 1 → ℝ)) (cl cm ρ : ℤ → ℝ) (hl : ∀ x t, lam x t 0 = cl t) (hmu : ∀ x t, mu x t 0 = cm t)
    (hρ : ∀ x t, rho.getD (fun _ _ _ => 1) x t 0 = ρ t)
    (hl0 : ∀ e, InElems P elems e → 0 ≤ cl (d.region e)) (hm0 : ∀ e, InElems P elems e → 0 < cm (d.region e)) (hanc : Anchored P elems tag)
    (ranks : List (View × CurvilinearBuild.Built (D + 1))) (plans : List ScatterPlan.Plan) (buf : ℕ → List ℝ) (arrival : ℕ → List ScatterPlan.Block)
    (hx : Exchange P views b ranks plans buf arrival) :
    ∃ (vol : ℕ → List ℝ) (s : ℕ → ElasticityState D o) (blocks : ℕ → List (ℕ × ℕ × (Fin (nbf (D + 1) o.p) → Fin (D + 1) → Fin (nbf (D + 1) o.p) → Fin (D + 1) → ℝ))),
      (∀ r, r < P → volumes o ranks plans r (buf r) (arrival r) = some (vol r) ∧ Construct.elasticity o lam mu rho (views r) (b r) (vol r) = some (s r) ∧
        DGAssembly.assemble (views r) (s r).op.localOp = some (blocks r)) ∧
      ∀ X : List ℕ → Fin (nbf (D + 1) o.p) → Fin (D + 1) → ℝ, (∃ e, InElems P elems e ∧ X e ≠ 0) →
        0 < ∑ r ∈ Finset.range P, ∑ u ∈ Finset.range (elems r).length, ∑ k, ∑ p, X ((views r).elems.getD u []) k p *
          DGAssembly.rowApply Elasticity.mulVec (blocks r) (fun j => X ((views r).elems.getD j [])) u k p := by
  obtain ⟨vol, s, blocks, h1, h2⟩ := elasticity_states hD h hs hv ho hip C_N hC lam mu rho cl cm ρ hl hmu hρ hl0 hm0 hanc ranks plans buf arrival hx
  refine ⟨vol, s, blocks, h1, fun X ⟨e, he, hne⟩ => ?_⟩
  by_contra hz
  exact hne (h2 X (not_lt.1 hz) e he)

/-- **C102 (exactly one solution, elasticity)**: under the same hypotheses the global linear system has a solution for every right-hand side,
and two solutions agree on all elements. -/
theorem C102_elasticity_unique (hD : D = 1 ∨ D = 2) (h : Setup P elems num fnum tag views d b) (hs : StraightDomain d) (hv : Curvilinear.Valid P elems d.x)
    (ho : GoodOptions o) (hip : o.method = .IP) (C_N : ℝ) (hC : Cfl.gradConstant (D + 1) o.p = some C_N) (lam mu : (Fin (D + 1) → ℝ) → ℤ → Fin 1 → ℝ)
    (rho : Option ((Fin (D + 1) → ℝ) → ℤ → Fin 1 → ℝ)) (cl cm ρ : ℤ → ℝ) (hl : ∀ x t, lam x t 0 = cl t) (hmu : ∀ x t, mu x t 0 = cm t)
    (hρ : ∀ x t, rho.getD (fun _ _ _ => 1) x t 0 = ρ t)
    (hl0 : ∀ e, InElems P elems e → 0 ≤ cl (d.region e)) (hm0 : ∀ e, InElems P elems e → 0 < cm (d.region e)) (hanc : Anchored P elems tag)
    (ranks : List (View × CurvilinearBuild.Built (D + 1))) (plans : List ScatterPlan.Plan) (buf : ℕ → List ℝ) (arrival : ℕ → List ScatterPlan.Block)
    (hx : Exchange P views b ranks plans buf arrival) :
    ∃ (vol : ℕ → List ℝ) (s : ℕ → ElasticityState D o) (blocks : ℕ → List (ℕ × ℕ × (Fin (nbf (D + 1) o.p) → Fin (D + 1) → Fin (nbf (D + 1) o.p) → Fin (D + 1) → ℝ))),
      (∀ r, r < P → volumes o ranks plans r (buf r) (arrival r) = some (vol r) ∧ Construct.elasticity o lam mu rho (views r) (b r) (vol r) = some (s r) ∧
        DGAssembly.assemble (views r) (s r).op.localOp = some (blocks r)) ∧
      ∀ rhs : ℕ → ℕ → Fin (nbf (D + 1) o.p) → Fin (D + 1) → ℝ, ∃ X : List ℕ → Fin (nbf (D + 1) o.p) → Fin (D + 1) → ℝ,
        (∀ r, r < P → ∀ u, u < (elems r).length →
          DGAssembly.rowApply Elasticity.mulVec (blocks r) (fun j => X ((views r).elems.getD j [])) u = rhs r u) ∧
        ∀ Y : List ℕ → Fin (nbf (D + 1) o.p) → Fin (D + 1) → ℝ,
          (∀ r, r < P → ∀ u, u < (elems r).length →
            DGAssembly.rowApply Elasticity.mulVec (blocks r) (fun j => Y ((views r).elems.getD j [])) u = rhs r u) →
          ∀ e, InElems P elems e → Y e = X e := by
  obtain ⟨vol, s, blocks, h1, h2⟩ := elasticity_states hD h hs hv ho hip C_N hC lam mu rho cl cm ρ hl hmu hρ hl0 hm0 hanc ranks plans buf arrival hx
  have hadd : ∀ (A : Fin (nbf (D + 1) o.p) → Fin (D + 1) → Fin (nbf (D + 1) o.p) → Fin (D + 1) → ℝ) x y, Elasticity.mulVec A (x + y) = Elasticity.mulVec A x + Elasticity.mulVec A y := fun A x y => by
    funext i p; simp [Elasticity.mulVec, mul_add, sum_add_distrib]
  have hsm : ∀ (A : Fin (nbf (D + 1) o.p) → Fin (D + 1) → Fin (nbf (D + 1) o.p) → Fin (D + 1) → ℝ) (c : ℝ) x, Elasticity.mulVec A (c • x) = c • Elasticity.mulVec A x := fun A c x => by
    funext i p; simp only [Elasticity.mulVec, Pi.smul_apply, smul_eq_mul, mul_sum]
    exact sum_congr rfl fun j _ => sum_congr rfl fun u _ => by ring
  have hinj : ∀ X : List ℕ → Fin (nbf (D + 1) o.p) → Fin (D + 1) → ℝ,
      (∀ r, r < P → ∀ u, u < (elems r).length → DGAssembly.rowApply Elasticity.mulVec (blocks r) (fun j => X ((views r).elems.getD j [])) u = 0) →
      ∀ e, InElems P elems e → X e = 0 := fun X hX => h2 X
      (le_of_eq (sum_eq_zero fun r hr => sum_eq_zero fun u hu => sum_eq_zero fun k _ => sum_eq_zero fun p _ => by
        rw [hX r (mem_range.1 hr) u (mem_range.1 hu), Pi.zero_apply, Pi.zero_apply, mul_zero]))
  refine ⟨vol, s, blocks, h1, fun rhs => ?_⟩
  obtain ⟨X, hX⟩ := DGAssembly.solvable h.mesh Elasticity.mulVec hadd hsm blocks hinj rhs
  refine ⟨X, hX, fun Y hY e he => ?_⟩
  have := hinj (fun e => Y e + (-1 : ℝ) • X e) (fun r hr u hu => by
    rw [DGAssembly.rowApply_add Elasticity.mulVec hadd, DGAssembly.rowApply_smul Elasticity.mulVec hsm, hX r hr u hu, hY r hr u hu]
    simp) e he
  simpa [sub_eq_add_neg, ← sub_eq_zero (a := Y e)] using this

open MvPolynomial in
/-- **C102 (the solution is the exact one, elasticity)**: if moreover polynomials `U` of at most the degree of the elements solve the boundary
value problem (C101), then the linear system that the ranks assemble, matrix and right-hand side, has the coefficients of `U` as its only
solution. -/
theorem C102_elasticity_exact (hD : D = 1 ∨ D = 2) (h : Setup P elems num fnum tag views d b) (hs : StraightDomain d) (hv : Curvilinear.Valid P elems d.x)
    (ho : GoodOptions o) (hip : o.method = .IP) (C_N : ℝ) (hC : Cfl.gradConstant (D + 1) o.p = some C_N) (lam mu : (Fin (D + 1) → ℝ) → ℤ → Fin 1 → ℝ)
    (rho : Option ((Fin (D + 1) → ℝ) → ℤ → Fin 1 → ℝ)) (cl cm ρ : ℤ → ℝ) (hl : ∀ x t, lam x t 0 = cl t) (hmu : ∀ x t, mu x t 0 = cm t)
    (hρ : ∀ x t, rho.getD (fun _ _ _ => 1) x t 0 = ρ t)
    (hl0 : ∀ e, InElems P elems e → 0 ≤ cl (d.region e)) (hm0 : ∀ e, InElems P elems e → 0 < cm (d.region e)) (hanc : Anchored P elems tag)
    (ranks : List (View × CurvilinearBuild.Built (D + 1))) (plans : List ScatterPlan.Plan) (buf : ℕ → List ℝ) (arrival : ℕ → List ScatterPlan.Block)
    (hx : Exchange P views b ranks plans buf arrival)
    (dat : ℕ → Elasticity.Data (D + 1) o.volRule.points.length o.fctRule.points.length) (U : List ℕ → Fin (D + 1) → MvPolynomial (Fin (D + 1)) ℝ)
    (hU : ∀ r, r < P → ElasticSolution (views r) d o cl cm (dat r) U) :
    ∃ (vol : ℕ → List ℝ) (s : ℕ → ElasticityState D o) (blocks : ℕ → List (ℕ × ℕ × (Fin (nbf (D + 1) o.p) → Fin (D + 1) → Fin (nbf (D + 1) o.p) → Fin (D + 1) → ℝ)))
      (rhs : ℕ → ℕ → Fin (nbf (D + 1) o.p) → Fin (D + 1) → ℝ),
      (∀ r, r < P → volumes o ranks plans r (buf r) (arrival r) = some (vol r) ∧ Construct.elasticity o lam mu rho (views r) (b r) (vol r) = some (s r) ∧
        DGAssembly.assemble (views r) (s r).op.localOp = some (blocks r) ∧ DGAssembly.rhs (views r) ((s r).op.localRhs (dat r)) 0 = some (rhs r)) ∧
      ∀ X : List ℕ → Fin (nbf (D + 1) o.p) → Fin (D + 1) → ℝ,
        (∀ r, r < P → ∀ u, u < (elems r).length →
          DGAssembly.rowApply Elasticity.mulVec (blocks r) (fun j => X ((views r).elems.getD j [])) u = rhs r u) ↔
        ∀ e, InElems P elems e → ∀ p ξ, ∑ l : Fin (nbf (D + 1) o.p), X e l p * nodalFunction o.p o.nodes l ξ = eval (plexPoint d.x e ξ) (U e p) := by
  by_cases hP : 0 < P
  swap
  · exact ⟨fun _ => [], fun _ => Classical.arbitrary _, fun _ => [], 0, fun r hr => by omega, fun X =>
      ⟨fun _ e ⟨r, hr, _⟩ => by omega, fun _ r hr => by omega⟩⟩
  obtain ⟨vol, s, blocks, h1, hsys⟩ := C102_elasticity_unique hD h hs hv ho hip C_N hC lam mu rho cl cm ρ hl hmu hρ hl0 hm0 hanc ranks plans buf arrival hx
  have hr : ∀ r, ∃ rhs, r < P → DGAssembly.rhs (views r) ((s r).op.localRhs (dat r)) 0 = some rhs ∧
      ∀ X : ℕ → Fin (nbf (D + 1) o.p) → Fin (D + 1) → ℝ,
        (∀ u e, (views r).elems[u]? = some e → ∀ p ξ, ∑ l : Fin (nbf (D + 1) o.p), X u l p * nodalFunction o.p o.nodes l ξ = eval (plexPoint d.x e ξ) (U e p)) →
        ∀ u, u < (elems r).length → DGAssembly.rowApply Elasticity.mulVec (blocks r) X u = rhs u := fun r => by
    by_cases hr : r < P
    · obtain ⟨vol', s', blocks', rhs, g1, g2, g3, g4, g5⟩ :=
        PatchTest.C101_elasticity hD h hs hv ho C_N hC lam mu rho cl cm ρ hl hmu hρ ranks plans buf arrival hx r hr (dat r) U (hU r hr)
      obtain ⟨f1, f2, f3⟩ := h1 r hr
      obtain rfl := Option.some.inj (f1.symm.trans g1)
      obtain rfl := Option.some.inj (f2.symm.trans g2)
      obtain rfl := Option.some.inj (f3.symm.trans g3)
      exact ⟨rhs, fun _ => ⟨g4, fun X hX => (g5 X hX).1⟩⟩
    · exact ⟨0, fun h => absurd h hr⟩
  choose rhs hrhs using hr
  have hnodal : ∀ e (p : Fin (D + 1)), ∃! c : Fin (nbf (D + 1) o.p) → ℝ, ∀ ξ, ∑ l : Fin (nbf (D + 1) o.p), c l * nodalFunction o.p o.nodes l ξ = eval (plexPoint d.x e ξ) (U e p) :=
    fun e p => PatchTest.C101_nodal_coefficients hD ho (U e p) ((hU 0 hP).degree e p) e
  have hsol : ∀ X : List ℕ → Fin (nbf (D + 1) o.p) → Fin (D + 1) → ℝ,
      (∀ e, InElems P elems e → ∀ p ξ, ∑ l : Fin (nbf (D + 1) o.p), X e l p * nodalFunction o.p o.nodes l ξ = eval (plexPoint d.x e ξ) (U e p)) →
      ∀ r, r < P → ∀ u, u < (elems r).length → DGAssembly.rowApply Elasticity.mulVec (blocks r) (fun j => X ((views r).elems.getD j [])) u = rhs r u :=
    fun X hX r hr u hu => (hrhs r hr).2 _ (fun j e hj p ξ => by
      have hin := ((h.mesh.view r hr).exactly _).1 (List.mem_of_getElem? hj) |>.1
      rw [List.getD_eq_getElem?_getD, hj]
      exact hX e hin p ξ) u hu
  refine ⟨vol, s, blocks, rhs, fun r hr => ⟨(h1 r hr).1, (h1 r hr).2.1, (h1 r hr).2.2, (hrhs r hr).1⟩, fun X => ⟨fun hX e he p ξ => ?_, hsol X⟩⟩
  obtain ⟨Z, -, huniq⟩ := hsys rhs
  choose c hc _ using hnodal
  rw [huniq X hX e he, ← huniq (fun e l p => c e p l) (hsol (fun e l p => c e p l) fun e _ p => hc e p) e he]
  exact hc e p ξ

end Tandem.Definite
