import Verif.Lemmas.PatchTest
/-! # Property C101: piecewise polynomial solutions are reproduced exactly -/
namespace Tandem.PatchTest
open Finset Spec Curvilinear Divergence RefElement Error
open Tandem.Construct (Options facetPoints Setup Exchange PoissonState ElasticityState volumes)
open Tandem.DGTopo (View facetInfo FacetInfo)
open Tandem.DGAssembly (upOf localNoOf)

variable {D P : ℕ} {o : Options D} {elems : ℕ → List (List ℕ)} {num fnum tag : List ℕ → ℕ} {views : ℕ → View} {d : Domain (D + 1)}
variable {b : ℕ → CurvilinearBuild.Built (D + 1)}

open MvPolynomial in
theorem flux_degree {n N : ℕ} (c : ℝ) (U : MvPolynomial (Fin n) ℝ) (h : U.totalDegree ≤ N) (i : Fin n) : (C c * pderiv i U).totalDegree ≤ N := by
  refine (totalDegree_mul _ _).trans ?_
  rw [totalDegree_C, zero_add]
  exact (CurvilinearBuild.pderiv_degree _ _).trans (by omega)

open MvPolynomial in
/-- **C101 (coefficients)**: polynomials of at most the degree of the elements have exactly one coefficient vector in the basis of the
elements, for each element. -/
theorem C101_modal_coefficients (hD : D = 1 ∨ D = 2) (p : ℕ) (U : MvPolynomial (Fin (D + 1)) ℝ) (hU : U.totalDegree ≤ p) (e : List ℕ) :
    ∃! c : Fin (nbf (D + 1) p) → ℝ, ∀ ξ, ∑ l : Fin (nbf (D + 1) p), c l * modalFunction (D + 1) p l ξ = eval (plexPoint d.x e ξ) U := by
  obtain ⟨c, h1, h2⟩ := (C78_modal_basis (D + 1) p (by omega)).2 (fun ξ => eval (plexPoint d.x e ξ) U)
    ⟨pull (d.corners e) U, (pull_degree _ _).trans hU, fun ξ => by rw [eval_pull, plexPoint_element]⟩
  exact ⟨c, fun ξ => (h1 ξ).symm, fun c' hc => h2 c' fun ξ => (hc ξ).symm⟩

open MvPolynomial in
/-- **C101 (Poisson)**: piecewise polynomial solutions solve the linear system: on every mesh of straight triangles or tetrahedra, for
every number of ranks and every partition, with a coefficient that is constant on each region, with either method: if polynomials `U` of
at most the degree of the elements (one for each element) solve the boundary value problem, then the row of every element of the linear
system that the rank assembles is solved by the coefficients of `U`, and the traction the operator computes on faults and facets with
prescribed values is the one of `U`: its normal component is the flux through the facet. -/
theorem C101_poisson (hD : D = 1 ∨ D = 2) (h : Setup P elems num fnum tag views d b) (hs : StraightDomain d) (hv : Curvilinear.Valid P elems d.x)
    (ho : GoodOptions o) (K : (Fin (D + 1) → ℝ) → ℤ → Fin 1 → ℝ) (k : ℤ → ℝ) (hK : ∀ x t, K x t 0 = k t)
    (ranks : List (View × CurvilinearBuild.Built (D + 1))) (plans : List ScatterPlan.Plan) (buf : ℕ → List ℝ) (arrival : ℕ → List ScatterPlan.Block)
    (hx : Exchange P views b ranks plans buf arrival) (r : ℕ) (hr : r < P)
    (dat : Poisson.Data o.volRule.points.length o.fctRule.points.length) (U : List ℕ → MvPolynomial (Fin (D + 1)) ℝ)
    (hU : PoissonSolution (views r) d o k dat U) :
    ∃ vol s blocks rhs, volumes o ranks plans r (buf r) (arrival r) = some vol ∧ Construct.poisson o K (views r) (b r) vol = some s ∧
      DGAssembly.assemble (views r) s.op.localOp = some blocks ∧ DGAssembly.rhs (views r) (s.op.localRhs dat) 0 = some rhs ∧
      ∀ X : ℕ → Fin (nbf (D + 1) o.p) → ℝ,
        (∀ u e, (views r).elems[u]? = some e → ∀ ξ, ∑ l, X u l * modalFunction (D + 1) o.p l ξ = eval (plexPoint d.x e ξ) (U e)) →
        (∀ u, u < (elems r).length → DGAssembly.rowApply Poisson.mulVec blocks X u = rhs u) ∧
        ∀ i info f e0 e1, facetInfo (views r) i = some info → (views r).facets[i]? = some f → (views r).elems[info.up0]? = some e0 →
          (views r).elems[info.up1]? = some e1 → info.bc = 3 ∨ info.bc = 5 → ∀ junk q, ∃ n, OuterUnit d.x e0 f n ∧
          (info.up0 ≠ info.up1 → ∑ j, n j * s.op.tractionSkeleton dat junk i info (X info.up0) (X info.up1) j q =
            poissonFlux (k (d.region e0)) (U e0) n (plexPoint d.x f o.fctRule.points[q])) ∧
          (info.up0 = info.up1 → ∑ j, n j * s.op.tractionBoundary dat junk i info (X info.up0) j q =
            poissonFlux (k (d.region e0)) (U e0) n (plexPoint d.x f o.fctRule.points[q])) := by
  have hm := h.mesh.mesh
  have hop := Construct.opposite_straight (o := o) hD hs hm hv
  obtain ⟨vol, hvol, hvol'⟩ := Construct.exchange_volumes (o := o) h hx r hr
  obtain ⟨s, hs1, hsam, -, -⟩ := Construct.C99_poisson h hop K r hr vol hvol'
  obtain ⟨B, hB, htab⟩ := poisson_tab hD ho
  have hin : ∀ {u e}, (views r).elems[u]? = some e → InElems P elems e := fun he =>
    ((h.mesh.view r hr).exactly _).1 (List.mem_of_getElem? he) |>.1
  have hmat : ∀ u e, (views r).elems[u]? = some e → s.op.K u = fun _ => k (d.region e) := fun u e he => by
    rw [hsam.K u e he, Construct.poisson_material hD hs ho K k hK e (hv.volume e (hin he))]
  -- values and fluxes at a side of a facet
  have hval : ∀ {e f : List ℕ}, InElems P elems e → IsFacet e f → ∀ (x : Fin (nbf (D + 1) o.p) → ℝ),
      (∀ ξ, ∑ l, x l * modalFunction (D + 1) o.p l ξ = eval (plexPoint d.x e ξ) (U e)) → ∀ q,
      Poisson.trace (s.op.ref.E_q (facetNo D e f)) x q = eval (plexPoint d.x f o.fctRule.points[q]) (U e) := fun {e f} he hf x hxe q => by
    rw [hsam.ref]
    refine trace_value (B := B) _ q (facetParam (facetNo D e f) o.fctRule.points[q]) (fun l => htab.Eq _ l q) x _ ?_
    rw [← facet_points hD hm he hf, plexPoint_element, ← hxe]
    exact sum_congr rfl fun l _ => by rw [hB]
  have hflux : ∀ {i : ℕ} {info : FacetInfo} {f e : List ℕ} (sd : Fin 2), facetInfo (views r) i = some info → (views r).facets[i]? = some f →
      (views r).elems[upOf info sd]? = some e → IsFacet e f → localNoOf info sd = facetNo D e f → ∀ (x : Fin (nbf (D + 1) o.p) → ℝ),
      (∀ ξ, ∑ l, x l * modalFunction (D + 1) o.p l ξ = eval (plexPoint d.x e ξ) (U e)) → ∀ (n : Fin (D + 1) → Fin o.fctRule.points.length → ℝ) q,
      Poisson.fluxOf n (s.op.KDx i info sd) x q =
        poissonFlux (k (d.region e)) (U e) (fun j => n j q) (plexPoint d.x f o.fctRule.points[q]) := fun {i info f e} sd hi hf he hef hno x hxe n q => by
    have hea := hin he
    unfold Poisson.Op.KDx
    rw [hmat _ e he, hno, ← facet_points hD hm hea hef, hsam.JInv i info f sd e hi hf he, hsam.ref]
    refine flux_value (B := B) (d.corners e) (hv.volume e hea) x (U e) (fun ξ => ?_) _ _ _ _ _ q _ ?_ ?_ (fun l j => htab.Dq _ l j q)
    · rw [plexPoint_element, ← hxe]; exact sum_congr rfl fun l _ => by rw [hB]
    · exact Construct.unity_facet hD ho _ (facetNo D e f).2 q
    · exact fun a c => ((Construct.geometry_affine (o := o) hD hs hm hea).2.2 f hef).1 a c q
  have hnorm : ∀ {i : ℕ} {info : FacetInfo} {f e : List ℕ}, facetInfo (views r) i = some info → (views r).facets[i]? = some f →
      (views r).elems[info.up0]? = some e → IsFacet e f → ∀ q,
      (fun j => s.op.n_q i j q) = Curvilinear.normal (facetNo D e f) (edgeMatrix (d.corners e)) := fun {i info f e} hi hf he hef q => by
    funext j
    rw [hsam.n_q i info f e hi hf he, normal_value hD hs hm (hin he) hef]
  have hsolve : ∀ X : ℕ → Fin (nbf (D + 1) o.p) → ℝ,
      (∀ u e, (views r).elems[u]? = some e → ∀ ξ, ∑ l, X u l * modalFunction (D + 1) o.p l ξ = eval (plexPoint d.x e ξ) (U e)) →
      ∃ blocks rhs, DGAssembly.assemble (views r) s.op.localOp = some blocks ∧ DGAssembly.rhs (views r) (s.op.localRhs dat) 0 = some rhs ∧
        ∀ u, u < (elems r).length → DGAssembly.rowApply Poisson.mulVec blocks X u = rhs u := by
    intro X hX
    refine Poisson.C73_consistency h.mesh r hr s.op dat X ?_ ?_ ?_
    · intro i info hi hinfo hne q
      obtain ⟨f, e0, e1, g1, g2, g3, g4, g5, g6, g7, g8, g9⟩ := sides h hr hi hinfo
      obtain ⟨s1, s2⟩ := hU.inside i info f e0 e1 hinfo g1 g2 g3 hne q
      refine ⟨?_, ?_⟩
      · rw [← s1]
        exact congrArg₂ (· - ·) ((congrArg (fun l => Poisson.trace (s.op.ref.E_q l) _ q) g8).trans (hval g6 g4 _ (hX _ _ g2) q))
          ((congrArg (fun l => Poisson.trace (s.op.ref.E_q l) _ q) g9).trans (hval g7 g5 _ (hX _ _ g3) q))
      · rw [hflux 0 hinfo g1 g2 g4 g8 _ (hX _ _ g2), hflux 1 hinfo g1 g3 g5 g9 _ (hX _ _ g3)]
        refine s2 _ ?_
        rw [hnorm hinfo g1 g2 g4]
        exact facet_normal hD hm g6 g4 (hv.volume e0 g6)
    · intro i info hi hinfo heq q
      obtain ⟨f, e0, e1, g1, g2, g3, g4, g5, g6, g7, g8, g9⟩ := sides h hr hi hinfo
      have := hU.boundary i info f e0 hinfo g1 g2 heq q
      split
      · next hbc =>
        rw [if_pos hbc] at this
        rw [hflux 0 hinfo g1 g2 g4 g8 _ (hX _ _ g2)]
        refine this _ ?_
        rw [hnorm hinfo g1 g2 g4]
        exact facet_normal hD hm g6 g4 (hv.volume e0 g6)
      · next hbc =>
        rw [if_neg hbc] at this
        exact ((congrArg (fun l => Poisson.trace (s.op.ref.E_q l) _ q) g8).trans (hval g6 g4 _ (hX _ _ g2) q)).trans this
    · intro u ds hu hds l
      obtain ⟨e, he⟩ : ∃ e, (views r).elems[u]? = some e := ⟨_, List.getElem?_eq_getElem (by
        have := DGTopo.numLocal_le (h.mesh.view r hr); rw [(h.mesh.view r hr).numLocal] at this; omega)⟩
      have hea := hin he
      have hXe : ∀ ξ, ∑ l, X u l * eval ξ (B l) = eval (refToGeneral (d.corners e) ξ) (U e) := fun ξ => by
        rw [plexPoint_element, ← hX u e he]; exact sum_congr rfl fun l _ => by rw [hB]
      obtain ⟨ha1, ha2, ha3⟩ := Construct.geometry_affine (o := o) hD hs hm hea
      have hgreen := green_tab hD htab (d.corners e) (hv.volume e hea) (fun j => C (k (d.region e)) * pderiv j (U e))
        (fun j => (Nat.add_le_add_left (flux_degree _ _ (hU.degree e) j) _).trans (by omega)) l
      have hvolume : Poisson.mulVec (s.op.assembleVolume u) (X u) l =
          ∑ q, (Construct.poissonRef o).W q * (|(edgeMatrix (d.corners e)).det| *
            ∑ i, (∑ j, (edgeMatrix (d.corners e))⁻¹ j i * (Construct.poissonRef o).Dxi_Q l j q) *
              eval (refToGeneral (d.corners e) o.volRule.points[q]) (C (k (d.region e)) * pderiv i (U e))) := by
        unfold Poisson.Op.assembleVolume
        rw [hmat u e he, hsam.ref, hsam.J_Q u e he, hsam.G_Q u e he]
        exact volume_value (B := B) (d.corners e) (hv.volume e hea) (X u) (U e) hXe _ _ _ _ _ _ _ (fun q => Construct.unity_volume hD ho q) ha1 ha2
          (fun a c q => htab.DQ a c q) l
      have hsum : (ds.map fun i => Poisson.outflux s.op (views r) X u i l).sum =
          ∑ n : Fin (D + 2), ∑ q, (Construct.poissonRef o).w q * ((Construct.poissonRef o).E_q n l q * ∑ i, Curvilinear.normal n (edgeMatrix (d.corners e)) i *
            eval (refToGeneral (d.corners e) (facetParam n o.fctRule.points[q])) (C (k (d.region e)) * pderiv i (U e))) := by
        refine sum_facets h hr he hds _ _ fun i f hi hf hef => ?_
        have hil : i < (views r).numLocalFacets := ((h.mesh.view r hr).localFacets i f hf).2
          ⟨_, (DGTopo.own_iff hr hm (h.mesh.view r hr) he).2.1 (by rw [(h.mesh.view r hr).numLocal]; exact hu), hef⟩
        obtain ⟨info, hinfo, -, -, hmem⟩ := DGAssembly.inside_iff h.mesh r hr i hil
        have hside := (hmem u ds hds hu).1 hi
        obtain ⟨f', e0, e1, g1, g2, g3, g4, g5, g6, g7, g8, g9⟩ := sides h hr hil hinfo
        obtain rfl := Option.some.inj (hf.symm.trans g1)
        unfold Poisson.outflux
        rw [hinfo]
        simp only
        split
        · next h0 =>
          rw [h0] at g2
          obtain rfl : e = e0 := Option.some.inj (he.symm.trans g2)
          have h0' : (views r).elems[upOf info 0]? = some e := by rw [← he]; exact congrArg _ h0
          refine sum_congr rfl fun q _ => ?_
          rw [hflux 0 hinfo g1 h0' g4 g8 _ (hX u e he) _ q, hnorm hinfo g1 h0' g4]
          unfold Poisson.Op.Es
          rw [show localNoOf info 0 = facetNo D e f from g8, hsam.ref, facet_points hD hm hea hef]
          unfold poissonFlux
          simp only [map_mul, eval_C]
        · next h0 =>
          have h1 : info.up1 = u := hside.resolve_left h0
          rw [h1] at g3
          obtain rfl : e = e1 := Option.some.inj (he.symm.trans g3)
          have h1' : (views r).elems[upOf info 1]? = some e := by rw [← he]; exact congrArg _ h1
          have hne : e0 ≠ e := fun hh => h0 (DGTopo.get_inj (h.mesh.view r hr).once (by rw [g2, hh]) he)
          have hopp := hop f e e0 hea g6 hne.symm hef g4
          rw [← sum_neg_distrib]
          refine sum_congr rfl fun q _ => ?_
          have hn : (fun j => s.op.n_q i j q) = fun j => - Curvilinear.normal (facetNo D e f) (edgeMatrix (d.corners e)) j := by
            funext j
            rw [hsam.n_q i info f e0 hinfo g1 g2, hopp, ← normal_value (o := o) hD hs hm hea hef j q]
          rw [hflux 1 hinfo g1 h1' g5 g9 _ (hX u e he) _ q, hn]
          unfold Poisson.Op.Es
          rw [show localNoOf info 1 = facetNo D e f from g9, hsam.ref, facet_points hD hm hea hef]
          unfold poissonFlux
          simp only [map_mul, eval_C, neg_mul, sum_neg_distrib, mul_neg, neg_neg]
      rw [hvolume, hsum, ← hgreen, hsam.ref, hsam.J_Q u e he]
      rw [← sub_eq_zero]
      simp only [ha1, hU.force u e he, poissonForce]
      rw [sub_add_cancel_left, ← sum_neg_distrib, ← sum_sub_distrib]
      refine sum_eq_zero fun q _ => ?_
      rw [plexPoint_element]
      ring
  choose c hc using fun e => (C101_modal_coefficients (d := d) hD o.p (U e) (hU.degree e) e).exists
  obtain ⟨blocks, rhs, h1, h2, -⟩ := hsolve (fun u => c ((views r).elems.getD u [])) fun u e he ξ => by
    rw [List.getD_eq_getElem?_getD, he, Option.getD_some]; exact hc e ξ
  refine ⟨vol, s, blocks, rhs, hvol, hs1, h1, h2, fun X hX => ?_⟩
  obtain ⟨blocks', rhs', h1', h2', h3'⟩ := hsolve X hX
  rw [Option.some.inj (h1.symm.trans h1'), Option.some.inj (h2.symm.trans h2')]
  refine ⟨h3', fun i info f e0 e1 hinfo g1 g2 g3 hbc junk q => ?_⟩
  have hi := Construct.info_local h hr hinfo g1
  obtain ⟨f', e0', e1', g1', g2', g3', g4, g5, g6, g7, g8, g9⟩ := sides h hr hi hinfo
  obtain rfl := Option.some.inj (g1.symm.trans g1')
  obtain rfl := Option.some.inj (g2.symm.trans g2')
  obtain rfl := Option.some.inj (g3.symm.trans g3')
  have hou := outer_unit (d := d) hD hm g6 g4 (hv.volume e0 g6) (s.op.n_q i) q (hnorm hinfo g1 g2 g4 q)
  have ht0 : Poisson.trace (s.op.Es info 0) (X info.up0) q = eval (plexPoint d.x f o.fctRule.points[q]) (U e0) :=
    (congrArg (fun l => Poisson.trace (s.op.ref.E_q l) _ q) g8).trans (hval g6 g4 _ (hX _ _ g2) q)
  have ht1 : Poisson.trace (s.op.Es info 1) (X info.up1) q = eval (plexPoint d.x f o.fctRule.points[q]) (U e1) :=
    (congrArg (fun l => Poisson.trace (s.op.ref.E_q l) _ q) g9).trans (hval g7 g5 _ (hX _ _ g3) q)
  have hf0 := hflux 0 hinfo g1 g2 g4 g8 _ (hX _ _ g2) (s.op.n_unit_q i) q
  have hf1 := hflux 1 hinfo g1 g3 g5 g9 _ (hX _ _ g3) (s.op.n_unit_q i) q
  rw [Poisson.flux_swap] at hf0 hf1
  have hgiven : (Poisson.bcSkeleton dat i info.bc).getD junk q = if info.bc = 3 then dat.slip i false q else if info.bc = 5 then dat.dirichlet i false q else 0 := by
    unfold Poisson.bcSkeleton
    rcases hbc with h3 | h5
    · simp [h3, DGAssembly.bcFault]
    · simp [h5, DGAssembly.bcFault, DGAssembly.bcDirichlet]
  have hgivenB : (Poisson.bcBoundary dat i info.bc).getD junk q = if info.bc = 3 then dat.slip i true q / 2 else if info.bc = 5 then dat.dirichlet i true q else 0 := by
    unfold Poisson.bcBoundary
    rcases hbc with h3 | h5
    · simp [h3, DGAssembly.bcFault]; ring
    · simp [h5, DGAssembly.bcFault, DGAssembly.bcDirichlet]
  refine ⟨_, hou, fun hne => ?_, fun heq => ?_⟩
  · obtain ⟨s1, s2⟩ := hU.inside i info f e0 e1 hinfo g1 g2 g3 hne q
    have hj : Poisson.trace (s.op.Es info 0) (X info.up0) q - Poisson.trace (s.op.Es info 1) (X info.up1) q - (Poisson.bcSkeleton dat i info.bc).getD junk q = 0 := by
      rw [ht0, ht1, hgiven, s1, sub_self]
    have ht : ∀ j, s.op.tractionSkeleton dat junk i info (X info.up0) (X info.up1) j q =
        0.5 * ((∑ l, s.op.KDx i info 0 l j q * X info.up0 l) + ∑ l, s.op.KDx i info 1 l j q * X info.up1 l) := fun j => by
      have : s.op.tractionSkeleton dat junk i info (X info.up0) (X info.up1) j q =
        0.5 * ((∑ l, s.op.KDx i info 0 l j q * X info.up0 l) + ∑ l, s.op.KDx i info 1 l j q * X info.up1 l) + -s.op.penalty i *
          (Poisson.trace (s.op.Es info 0) (X info.up0) q - Poisson.trace (s.op.Es info 1) (X info.up1) q - (Poisson.bcSkeleton dat i info.bc).getD junk q) *
            s.op.n_unit_q i j q := rfl
      rw [this, hj]; ring
    have hflip := s2 _ hou.1
    have e1 : ∑ j, s.op.n_unit_q i j q * s.op.tractionSkeleton dat junk i info (X info.up0) (X info.up1) j q =
        0.5 * ((∑ j, s.op.n_unit_q i j q * ∑ l, s.op.KDx i info 0 l j q * X info.up0 l) + ∑ j, s.op.n_unit_q i j q * ∑ l, s.op.KDx i info 1 l j q * X info.up1 l) := by
      rw [← sum_add_distrib, mul_sum]
      exact sum_congr rfl fun j _ => by rw [ht]; ring
    refine e1.trans ?_
    rw [hf0, hf1]
    change 0.5 * (_ + poissonFlux _ _ (fun j => Poisson.unitNormal (s.op.n_q i) j q) _) = _
    rw [← hflip]
    change 0.5 * (poissonFlux _ _ (fun j => Poisson.unitNormal (s.op.n_q i) j q) _ + _) = _
    ring
  · have hb := hU.boundary i info f e0 hinfo g1 g2 heq q
    rw [if_neg (by rcases hbc with h3 | h3 <;> omega)] at hb
    have hj : Poisson.trace (s.op.Es info 0) (X info.up0) q - (Poisson.bcBoundary dat i info.bc).getD junk q = 0 := by rw [ht0, hgivenB, hb, sub_self]
    have ht : ∀ j, s.op.tractionBoundary dat junk i info (X info.up0) j q = ∑ l, s.op.KDx i info 0 l j q * X info.up0 l := fun j => by
      have : s.op.tractionBoundary dat junk i info (X info.up0) j q = (∑ l, s.op.KDx i info 0 l j q * X info.up0 l) + -s.op.penalty i *
          (Poisson.trace (s.op.Es info 0) (X info.up0) q - (Poisson.bcBoundary dat i info.bc).getD junk q) * s.op.n_unit_q i j q := rfl
      rw [this, hj]; ring
    simp only [ht]
    exact hf0

open MvPolynomial in
/-- **C101 (nodal coefficients)**: the same for the basis of the nodes; the coefficients are the values at the nodes. -/
theorem C101_nodal_coefficients (hD : D = 1 ∨ D = 2) (ho : GoodOptions o) (U : MvPolynomial (Fin (D + 1)) ℝ) (hU : U.totalDegree ≤ o.p) (e : List ℕ) :
    ∃! c : Fin (nbf (D + 1) o.p) → ℝ, ∀ ξ, ∑ l : Fin (nbf (D + 1) o.p), c l * nodalFunction o.p o.nodes l ξ = eval (plexPoint d.x e ξ) U := by
  have hlen := ho.length
  refine ⟨fun l => eval (plexPoint d.x e (o.nodes[l.val]'(by omega))) U, fun ξ => ?_, fun c hc => funext fun l => ?_⟩
  · exact C78_reproduces (D + 1) o.p (by omega) o.nodes ho.length (ho.unit hD) (fun ξ => eval (plexPoint d.x e ξ) U)
      ⟨pull (d.corners e) U, (pull_degree _ _).trans hU, fun ξ => by rw [eval_pull, plexPoint_element]⟩ ξ
  · have := hc (o.nodes[l.val]'(by omega))
    rw [← this]
    simp only [(C78_lagrange (D + 1) o.p (by omega) o.nodes ho.length (ho.unit hD) _).2 l]
    simp

open MvPolynomial in
/-- **C101 (elasticity)**: the same for elasticity, with Lamé parameters that are constant on each region; the traction the operator
computes on facets with given slip or displacement is the one of `U`. -/
theorem C101_elasticity (hD : D = 1 ∨ D = 2) (h : Setup P elems num fnum tag views d b) (hs : StraightDomain d) (hv : Curvilinear.Valid P elems d.x)
    (ho : GoodOptions o) (C_N : ℝ) (hC : Cfl.gradConstant (D + 1) o.p = some C_N) (lam mu : (Fin (D + 1) → ℝ) → ℤ → Fin 1 → ℝ)
    (rho : Option ((Fin (D + 1) → ℝ) → ℤ → Fin 1 → ℝ)) (cl cm ρ : ℤ → ℝ) (hl : ∀ x t, lam x t 0 = cl t) (hmu : ∀ x t, mu x t 0 = cm t)
    (hρ : ∀ x t, rho.getD (fun _ _ _ => 1) x t 0 = ρ t)
    (ranks : List (View × CurvilinearBuild.Built (D + 1))) (plans : List ScatterPlan.Plan) (buf : ℕ → List ℝ) (arrival : ℕ → List ScatterPlan.Block)
    (hx : Exchange P views b ranks plans buf arrival) (r : ℕ) (hr : r < P)
    (dat : Elasticity.Data (D + 1) o.volRule.points.length o.fctRule.points.length) (U : List ℕ → Fin (D + 1) → MvPolynomial (Fin (D + 1)) ℝ)
    (hU : ElasticSolution (views r) d o cl cm dat U) :
    ∃ vol s blocks rhs, volumes o ranks plans r (buf r) (arrival r) = some vol ∧ Construct.elasticity o lam mu rho (views r) (b r) vol = some s ∧
      DGAssembly.assemble (views r) s.op.localOp = some blocks ∧ DGAssembly.rhs (views r) (s.op.localRhs dat) 0 = some rhs ∧
      ∀ X : ℕ → Fin (nbf (D + 1) o.p) → Fin (D + 1) → ℝ,
        (∀ u e, (views r).elems[u]? = some e → ∀ p ξ, ∑ l : Fin (nbf (D + 1) o.p), X u l p * nodalFunction o.p o.nodes l ξ = eval (plexPoint d.x e ξ) (U e p)) →
        (∀ u, u < (elems r).length → DGAssembly.rowApply Elasticity.mulVec blocks X u = rhs u) ∧
        ∀ i info f e0 e1, facetInfo (views r) i = some info → (views r).facets[i]? = some f → (views r).elems[info.up0]? = some e0 →
          (views r).elems[info.up1]? = some e1 → info.bc = 3 ∧ dat.slip.isSome ∨ info.bc = 5 ∧ dat.dirichlet.isSome → ∀ junk p q, ∃ n, OuterUnit d.x e0 f n ∧
          (info.up0 ≠ info.up1 → s.op.tractionSkeleton dat junk i info (X info.up0) (X info.up1) p q =
            elasticTraction (cl (d.region e0)) (cm (d.region e0)) (U e0) n p (plexPoint d.x f o.fctRule.points[q])) ∧
          (info.up0 = info.up1 → s.op.tractionBoundary dat junk i info (X info.up0) p q =
            elasticTraction (cl (d.region e0)) (cm (d.region e0)) (U e0) n p (plexPoint d.x f o.fctRule.points[q])) := by
  have hm := h.mesh.mesh
  have hop := Construct.opposite_straight (o := o) hD hs hm hv
  obtain ⟨vol, hvol, hvol'⟩ := Construct.exchange_volumes (o := o) h hx r hr
  obtain ⟨s, hs1, hsam, -, -, -, -⟩ := Construct.C99_elasticity h hop lam mu rho C_N hC r hr vol hvol'
  obtain ⟨B, hB, htab⟩ := elasticity_tab hD ho
  have hin : ∀ {u e}, (views r).elems[u]? = some e → InElems P elems e := fun he =>
    ((h.mesh.view r hr).exactly _).1 (List.mem_of_getElem? he) |>.1
  have hlam : ∀ u e, (views r).elems[u]? = some e → s.op.lam u = fun _ => cl (d.region e) := fun u e he => by
    rw [hsam.lam u e he, Construct.elastic_material hD hs ho lam mu rho cl cm ρ hl hmu hρ e (hv.volume e (hin he))]
  have hmu' : ∀ u e, (views r).elems[u]? = some e → s.op.mu u = fun _ => cm (d.region e) := fun u e he => by
    rw [hsam.mu u e he, Construct.elastic_material hD hs ho lam mu rho cl cm ρ hl hmu hρ e (hv.volume e (hin he))]
  -- values and tractions at a side of a facet
  have hval : ∀ {e f : List ℕ}, InElems P elems e → IsFacet e f → ∀ (x : Fin (nbf (D + 1) o.p) → Fin (D + 1) → ℝ),
      (∀ p ξ, ∑ l : Fin (nbf (D + 1) o.p), x l p * nodalFunction o.p o.nodes l ξ = eval (plexPoint d.x e ξ) (U e p)) → ∀ p q,
      Elasticity.val (s.op.ref.E_q (facetNo D e f)) x p q = eval (plexPoint d.x f o.fctRule.points[q]) (U e p) := fun {e f} he hf x hxe p q => by
    rw [hsam.ref]
    refine trace_value (B := B) _ q (facetParam (facetNo D e f) o.fctRule.points[q]) (fun l => htab.Eq _ l q) (fun l => x l p) _ ?_
    rw [← facet_points hD hm he hf, plexPoint_element, ← hxe]
    exact sum_congr rfl fun l _ => by rw [hB]
  have hany : ∀ {i : ℕ} {info : FacetInfo} {f e : List ℕ} (sd : Fin 2), facetInfo (views r) i = some info → (views r).facets[i]? = some f →
      (views r).elems[upOf info sd]? = some e → IsFacet e f → localNoOf info sd = facetNo D e f → ∀ (x : Fin (nbf (D + 1) o.p) → Fin (D + 1) → ℝ),
      (∀ p ξ, ∑ l : Fin (nbf (D + 1) o.p), x l p * nodalFunction o.p o.nodes l ξ = eval (plexPoint d.x e ξ) (U e p)) → ∀ p q,
      ∀ N : Fin (D + 1) → Fin o.fctRule.points.length → ℝ, Elasticity.trac (s.op.lamq info sd) (s.op.muq info sd) (s.op.Dx i info sd) N x p q =
        elasticTraction (cl (d.region e)) (cm (d.region e)) (U e) (fun j => N j q) p (plexPoint d.x f o.fctRule.points[q]) :=
      fun {i info f e} sd hi hf he hef hno x hxe p q N => by
    have hea := hin he
    unfold Elasticity.Op.lamq Elasticity.Op.muq Elasticity.Op.Dx
    rw [hlam _ e he, hmu' _ e he, hno, ← facet_points hD hm hea hef, hsam.JInv i info f sd e hi hf he, hsam.ref]
    refine traction_value (B := B) (d.corners e) (hv.volume e hea) x (U e) (fun p ξ => ?_) _ _ _ _ _ _ q _ ?_ ?_ (fun l j => htab.Dq _ l j q) p
    · rw [plexPoint_element, ← hxe]; exact sum_congr rfl fun l _ => by rw [hB]
    · exact Construct.unity_facet hD ho _ (facetNo D e f).2 q
    · exact fun a c => ((Construct.geometry_affine (o := o) hD hs hm hea).2.2 f hef).1 a c q
  have hflux : ∀ {i : ℕ} {info : FacetInfo} {f e : List ℕ} (sd : Fin 2), facetInfo (views r) i = some info → (views r).facets[i]? = some f →
      (views r).elems[upOf info sd]? = some e → IsFacet e f → localNoOf info sd = facetNo D e f → ∀ (x : Fin (nbf (D + 1) o.p) → Fin (D + 1) → ℝ),
      (∀ p ξ, ∑ l : Fin (nbf (D + 1) o.p), x l p * nodalFunction o.p o.nodes l ξ = eval (plexPoint d.x e ξ) (U e p)) → ∀ p q,
      s.op.tracs i info sd x p q =
        elasticTraction (cl (d.region e)) (cm (d.region e)) (U e) (fun j => s.op.n_q i j q) p (plexPoint d.x f o.fctRule.points[q]) :=
      fun {i info f e} sd hi hf he hef hno x hxe p q => hany sd hi hf he hef hno x hxe p q (s.op.n_q i)
  have hnorm : ∀ {i : ℕ} {info : FacetInfo} {f e : List ℕ}, facetInfo (views r) i = some info → (views r).facets[i]? = some f →
      (views r).elems[info.up0]? = some e → IsFacet e f → ∀ q,
      (fun j => s.op.n_q i j q) = Curvilinear.normal (facetNo D e f) (edgeMatrix (d.corners e)) := fun {i info f e} hi hf he hef q => by
    funext j
    rw [hsam.n_q i info f e hi hf he, normal_value hD hs hm (hin he) hef]
  have hsolve : ∀ X : ℕ → Fin (nbf (D + 1) o.p) → Fin (D + 1) → ℝ,
      (∀ u e, (views r).elems[u]? = some e → ∀ p ξ, ∑ l : Fin (nbf (D + 1) o.p), X u l p * nodalFunction o.p o.nodes l ξ = eval (plexPoint d.x e ξ) (U e p)) →
      ∃ blocks rhs, DGAssembly.assemble (views r) s.op.localOp = some blocks ∧ DGAssembly.rhs (views r) (s.op.localRhs dat) 0 = some rhs ∧
        ∀ u, u < (elems r).length → DGAssembly.rowApply Elasticity.mulVec blocks X u = rhs u := by
    intro X hX
    refine Elasticity.C73_elasticity_consistency h.mesh r hr s.op dat X ?_ ?_ ?_
    · intro i info hi hinfo hne p q
      obtain ⟨f, e0, e1, g1, g2, g3, g4, g5, g6, g7, g8, g9⟩ := sides h hr hi hinfo
      obtain ⟨s1, s2⟩ := hU.inside i info f e0 e1 hinfo g1 g2 g3 hne p q
      refine ⟨?_, ?_⟩
      · refine Eq.trans ?_ s1
        exact congrArg₂ (· - ·) ((congrArg (fun l => Elasticity.val (s.op.ref.E_q l) _ p q) g8).trans (hval g6 g4 _ (hX _ _ g2) p q))
          ((congrArg (fun l => Elasticity.val (s.op.ref.E_q l) _ p q) g9).trans (hval g7 g5 _ (hX _ _ g3) p q))
      · rw [hflux 0 hinfo g1 g2 g4 g8 _ (hX _ _ g2), hflux 1 hinfo g1 g3 g5 g9 _ (hX _ _ g3)]
        refine s2 _ ?_
        rw [hnorm hinfo g1 g2 g4]
        exact facet_normal hD hm g6 g4 (hv.volume e0 g6)
    · intro i info hi hinfo heq p q
      obtain ⟨f, e0, e1, g1, g2, g3, g4, g5, g6, g7, g8, g9⟩ := sides h hr hi hinfo
      have := hU.boundary i info f e0 hinfo g1 g2 heq p q
      split
      · next hbc =>
        rw [if_pos hbc] at this
        rw [hflux 0 hinfo g1 g2 g4 g8 _ (hX _ _ g2)]
        refine this _ ?_
        rw [hnorm hinfo g1 g2 g4]
        exact facet_normal hD hm g6 g4 (hv.volume e0 g6)
      · next hbc =>
        rw [if_neg hbc] at this
        exact ((congrArg (fun l => Elasticity.val (s.op.ref.E_q l) _ p q) g8).trans (hval g6 g4 _ (hX _ _ g2) p q)).trans this
    · intro u ds hu hds l p
      obtain ⟨e, he⟩ : ∃ e, (views r).elems[u]? = some e := ⟨_, List.getElem?_eq_getElem (by
        have := DGTopo.numLocal_le (h.mesh.view r hr); rw [(h.mesh.view r hr).numLocal] at this; omega)⟩
      have hea := hin he
      have hXe : ∀ p ξ, ∑ l, X u l p * eval ξ (B l) = eval (refToGeneral (d.corners e) ξ) (U e p) := fun p ξ => by
        rw [plexPoint_element, ← hX u e he]; exact sum_congr rfl fun l _ => by rw [hB]
      obtain ⟨ha1, ha2, ha3⟩ := Construct.geometry_affine (o := o) hD hs hm hea
      have hgreen := green_tab hD htab (d.corners e) (hv.volume e hea) (fun j => stress (cl (d.region e)) (cm (d.region e)) (U e) p j)
        (fun j => (Nat.add_le_add_left (stress_degree _ _ _ (hU.degree e) p j) _).trans (by omega)) l
      have hvolume : Elasticity.mulVec (s.op.assembleVolume u) (X u) l p =
          ∑ q, (Construct.elasticityRef o).W q * (|(edgeMatrix (d.corners e)).det| *
            ∑ i, (∑ j, (edgeMatrix (d.corners e))⁻¹ j i * (Construct.elasticityRef o).Dxi_Q l j q) *
              eval (refToGeneral (d.corners e) o.volRule.points[q]) (stress (cl (d.region e)) (cm (d.region e)) (U e) p i)) := by
        unfold Elasticity.Op.assembleVolume Elasticity.Op.lamWJ Elasticity.Op.muWJ
        rw [hlam u e he, hmu' u e he, hsam.ref, hsam.J_Q u e he, hsam.G_Q u e he]
        exact elastic_volume_value (B := B) (d.corners e) (hv.volume e hea) (X u) (U e) hXe _ _ _ _ _ _ _ _ (fun q => Construct.unity_volume hD ho q) ha1 ha2
          (fun a c q => htab.DQ a c q) l p
      have hsum : (ds.map fun i => Elasticity.outforce s.op (views r) X u i l p).sum =
          ∑ n : Fin (D + 2), ∑ q, (Construct.elasticityRef o).w q * ((Construct.elasticityRef o).E_q n l q * ∑ i, Curvilinear.normal n (edgeMatrix (d.corners e)) i *
            eval (refToGeneral (d.corners e) (facetParam n o.fctRule.points[q])) (stress (cl (d.region e)) (cm (d.region e)) (U e) p i)) := by
        refine sum_facets h hr he hds _ _ fun i f hi hf hef => ?_
        have hil : i < (views r).numLocalFacets := ((h.mesh.view r hr).localFacets i f hf).2
          ⟨_, (DGTopo.own_iff hr hm (h.mesh.view r hr) he).2.1 (by rw [(h.mesh.view r hr).numLocal]; exact hu), hef⟩
        obtain ⟨info, hinfo, -, -, hmem⟩ := DGAssembly.inside_iff h.mesh r hr i hil
        have hside := (hmem u ds hds hu).1 hi
        obtain ⟨f', e0, e1, g1, g2, g3, g4, g5, g6, g7, g8, g9⟩ := sides h hr hil hinfo
        obtain rfl := Option.some.inj (hf.symm.trans g1)
        unfold Elasticity.outforce
        rw [hinfo]
        simp only
        split
        · next h0 =>
          rw [h0] at g2
          obtain rfl : e = e0 := Option.some.inj (he.symm.trans g2)
          have h0' : (views r).elems[upOf info 0]? = some e := by rw [← he]; exact congrArg _ h0
          refine sum_congr rfl fun q _ => ?_
          rw [hflux 0 hinfo g1 h0' g4 g8 _ (hX u e he) p q, hnorm hinfo g1 h0' g4]
          unfold Elasticity.Op.Es
          rw [show localNoOf info 0 = facetNo D e f from g8, hsam.ref, facet_points hD hm hea hef]
          rfl
        · next h0 =>
          have h1 : info.up1 = u := hside.resolve_left h0
          rw [h1] at g3
          obtain rfl : e = e1 := Option.some.inj (he.symm.trans g3)
          have h1' : (views r).elems[upOf info 1]? = some e := by rw [← he]; exact congrArg _ h1
          have hne : e0 ≠ e := fun hh => h0 (DGTopo.get_inj (h.mesh.view r hr).once (by rw [g2, hh]) he)
          have hopp := hop f e e0 hea g6 hne.symm hef g4
          rw [← sum_neg_distrib]
          refine sum_congr rfl fun q _ => ?_
          have hn : (fun j => s.op.n_q i j q) = fun j => - Curvilinear.normal (facetNo D e f) (edgeMatrix (d.corners e)) j := by
            funext j
            rw [hsam.n_q i info f e0 hinfo g1 g2, hopp, ← normal_value (o := o) hD hs hm hea hef j q]
          rw [hflux 1 hinfo g1 h1' g5 g9 _ (hX u e he) p q, hn]
          unfold Elasticity.Op.Es
          rw [show localNoOf info 1 = facetNo D e f from g9, hsam.ref, facet_points hD hm hea hef]
          unfold elasticTraction
          simp only [neg_mul, sum_neg_distrib, mul_neg, neg_neg]
      rw [hvolume, hsum, ← hgreen, hsam.ref, hsam.J_Q u e he]
      rw [← sub_eq_zero]
      have hfo : ∀ q, Elasticity.forceOf dat u p q = elasticForce (cl (d.region e)) (cm (d.region e)) (U e) p (plexPoint d.x e o.volRule.points[q]) := fun q => by
        rw [← hU.force u e he p q]
        unfold Elasticity.forceOf
        cases dat.force <;> rfl
      simp only [ha1, hfo, elasticForce]
      rw [sub_add_cancel_left, ← sum_neg_distrib, ← sum_sub_distrib]
      refine sum_eq_zero fun q _ => ?_
      rw [plexPoint_element]
      ring
  choose c hc using fun e p => (C101_nodal_coefficients (d := d) hD ho (U e p) (hU.degree e p) e).exists
  obtain ⟨blocks, rhs, h1, h2, -⟩ := hsolve (fun u l p => c ((views r).elems.getD u []) p l) fun u e he p ξ => by
    rw [List.getD_eq_getElem?_getD, he, Option.getD_some]; exact hc e p ξ
  refine ⟨vol, s, blocks, rhs, hvol, hs1, h1, h2, fun X hX => ?_⟩
  obtain ⟨blocks', rhs', h1', h2', h3'⟩ := hsolve X hX
  rw [Option.some.inj (h1.symm.trans h1'), Option.some.inj (h2.symm.trans h2')]
  refine ⟨h3', fun i info f e0 e1 hinfo g1 g2 g3 hbc junk p q => ?_⟩
  have hi := Construct.info_local h hr hinfo g1
  obtain ⟨f', e0', e1', g1', g2', g3', g4, g5, g6, g7, g8, g9⟩ := sides h hr hi hinfo
  obtain rfl := Option.some.inj (g1.symm.trans g1')
  obtain rfl := Option.some.inj (g2.symm.trans g2')
  obtain rfl := Option.some.inj (g3.symm.trans g3')
  have hou := outer_unit (d := d) hD hm g6 g4 (hv.volume e0 g6) (s.op.n_q i) q (hnorm hinfo g1 g2 g4 q)
  have ht0 : Elasticity.val (s.op.Es info 0) (X info.up0) p q = eval (plexPoint d.x f o.fctRule.points[q]) (U e0 p) :=
    (congrArg (fun l => Elasticity.val (s.op.ref.E_q l) _ p q) g8).trans (hval g6 g4 _ (hX _ _ g2) p q)
  have ht1 : Elasticity.val (s.op.Es info 1) (X info.up1) p q = eval (plexPoint d.x f o.fctRule.points[q]) (U e1 p) :=
    (congrArg (fun l => Elasticity.val (s.op.ref.E_q l) _ p q) g9).trans (hval g7 g5 _ (hX _ _ g3) p q)
  have hf0 := hany 0 hinfo g1 g2 g4 g8 _ (hX _ _ g2) p q (s.op.n_unit_q i)
  have hf1 := hany 1 hinfo g1 g3 g5 g9 _ (hX _ _ g3) p q (s.op.n_unit_q i)
  have hgiven : (Elasticity.bcSkeleton dat i info.bc).getD junk p q = if info.bc = 3 then (dat.slip.map fun s => s i false p q).getD 0
        else if info.bc = 5 then (dat.dirichlet.map fun g => g i false p q).getD 0 else 0 := by
    unfold Elasticity.bcSkeleton
    rcases hbc with ⟨h3, hsome⟩ | ⟨h5, hsome⟩
    · obtain ⟨sl, hsl⟩ := Option.isSome_iff_exists.1 hsome
      simp [h3, hsl, DGAssembly.bcFault]
    · obtain ⟨sl, hsl⟩ := Option.isSome_iff_exists.1 hsome
      simp [h5, hsl, DGAssembly.bcFault, DGAssembly.bcDirichlet]
  have hgivenB : (Elasticity.bcBoundary dat i info.bc).getD junk p q = if info.bc = 3 then (dat.slip.map fun s => s i true p q).getD 0 / 2
        else if info.bc = 5 then (dat.dirichlet.map fun g => g i true p q).getD 0 else 0 := by
    unfold Elasticity.bcBoundary
    rcases hbc with ⟨h3, hsome⟩ | ⟨h5, hsome⟩
    · obtain ⟨sl, hsl⟩ := Option.isSome_iff_exists.1 hsome
      simp [h3, hsl, DGAssembly.bcFault]; ring
    · obtain ⟨sl, hsl⟩ := Option.isSome_iff_exists.1 hsome
      simp [h5, hsl, DGAssembly.bcFault, DGAssembly.bcDirichlet]
  refine ⟨_, hou, fun hne => ?_, fun heq => ?_⟩
  · obtain ⟨s1, s2⟩ := hU.inside i info f e0 e1 hinfo g1 g2 g3 hne p q
    have hj : Elasticity.val (s.op.Es info 0) (X info.up0) p q - Elasticity.val (s.op.Es info 1) (X info.up1) p q -
        (Elasticity.bcSkeleton dat i info.bc).getD junk p q = 0 := by
      rw [ht0, ht1, hgiven, s1, sub_self]
    have ht : s.op.tractionSkeleton dat junk i info (X info.up0) (X info.up1) p q =
        0.5 * (Elasticity.kTraction (s.op.lamq info 0) (s.op.muq info 0) (s.op.Dx i info 0) (s.op.n_unit_q i) (X info.up0) p q +
          Elasticity.kTraction (s.op.lamq info 1) (s.op.muq info 1) (s.op.Dx i info 1) (s.op.n_unit_q i) (X info.up1) p q) + -s.op.penalty i *
          (Elasticity.val (s.op.Es info 0) (X info.up0) p q - Elasticity.val (s.op.Es info 1) (X info.up1) p q -
            (Elasticity.bcSkeleton dat i info.bc).getD junk p q) := rfl
    rw [ht, hj, Elasticity.traction_eq, Elasticity.traction_eq, hf0, hf1]
    have hflip := s2 _ hou.1
    change 0.5 * (_ + elasticTraction _ _ _ (fun j => Poisson.unitNormal (s.op.n_q i) j q) _ _) + _ = _
    rw [← hflip]
    change 0.5 * (elasticTraction _ _ _ (fun j => Poisson.unitNormal (s.op.n_q i) j q) _ _ + _) + _ = _
    ring
  · have hb := hU.boundary i info f e0 hinfo g1 g2 heq p q
    rw [if_neg (by rcases hbc with h3 | h3 <;> omega)] at hb
    have hj : Elasticity.val (s.op.Es info 0) (X info.up0) p q - (Elasticity.bcBoundary dat i info.bc).getD junk p q = 0 := by rw [ht0, hgivenB, hb, sub_self]
    have ht : s.op.tractionBoundary dat junk i info (X info.up0) p q =
        Elasticity.kTraction (s.op.lamq info 0) (s.op.muq info 0) (s.op.Dx i info 0) (s.op.n_unit_q i) (X info.up0) p q + -s.op.penalty i *
          (Elasticity.val (s.op.Es info 0) (X info.up0) p q - (Elasticity.bcBoundary dat i info.bc).getD junk p q) := rfl
    rw [ht, hj, Elasticity.traction_eq, hf0]
    change elasticTraction _ _ _ (fun j => Poisson.unitNormal (s.op.n_q i) j q) _ _ + _ = _
    ring

end Tandem.PatchTest
