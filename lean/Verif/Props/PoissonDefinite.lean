import Verif.Lemmas.DefiniteStraight
import Verif.Props.PatchTest
import Verif.Lemmas.SystemSolve
import Verif.Spec.Definite
/-! # Property C102: the linear system of Poisson's equation has exactly one solution -/
namespace Tandem.Definite
open Finset Spec Curvilinear RefElement
open Tandem.Construct (Options Setup Exchange PoissonState volumes)
open Tandem.DGTopo (View facetInfo FacetInfo)

variable {D P : ℕ} {o : Options D} {elems : ℕ → List (List ℕ)} {num fnum tag : List ℕ → ℕ} {views : ℕ → View} {d : Domain (D + 1)}
variable {b : ℕ → CurvilinearBuild.Built (D + 1)}

/-- The kernel of the quadratic form on a straight mesh: constants on the elements, without jumps, zero where values are prescribed. -/
theorem poisson_kernel (hD : D = 1 ∨ D = 2) (h : Setup P elems num fnum tag views d b) (hs : StraightDomain d) (hv : Curvilinear.Valid P elems d.x)
    (ho : GoodOptions o) (K : (Fin (D + 1) → ℝ) → ℤ → Fin 1 → ℝ) (k : ℤ → ℝ) (hK : ∀ x t, K x t 0 = k t)
    (hk : ∀ e, InElems P elems e → 0 < k (d.region e)) (hanc : Anchored P elems tag) (s : ℕ → PoissonState D o)
    (hsam : ∀ r, r < P → Poisson.Samples (views r) (s r).op .IP (Construct.poissonRef o) (geometryOf o d) (poissonMaterial o d K)
        (poissonPenalty o d (Construct.allElems P elems) (poissonMaterial o d K)))
    (hmeas : ∀ r, r < P → Poisson.Measures (views r) (s r).area (s r).volume (areaOf o d (Construct.allElems P elems)) (volumeOf o d))
    (hpen : ∀ r, r < P → ∀ i info, i < (views r).numLocalFacets → facetInfo (views r) i = some info →
        (s r).op.penalty_ i = Poisson.preparePenalty (D + 1) (o.p - 1) (s r).area (s r).volume (s r).op.K i info)
    (blocks : ℕ → List (ℕ × ℕ × (Fin (nbf (D + 1) o.p) → Fin (nbf (D + 1) o.p) → ℝ)))
    (hb : ∀ r, r < P → DGAssembly.assemble (views r) (s r).op.localOp = some (blocks r))
    (X : List ℕ → Fin (nbf (D + 1) o.p) → ℝ)
    (hz : ∑ r ∈ Finset.range P, ∑ u ∈ Finset.range (elems r).length, ∑ k, X ((views r).elems.getD u []) k *
        DGAssembly.rowApply Poisson.mulVec (blocks r) (fun j => X ((views r).elems.getD j [])) u k ≤ 0)
    (e : List ℕ) (he : InElems P elems e) : X e = 0 := by
  have hm := h.mesh.mesh
  have hop := Construct.opposite_straight (o := o) hD hs hm hv
  have haff := Construct.affine_elements (o := o) hD hs hm hv
  have hst := Cfl.AffineElements.straight hD haff
  have hgt := Cfl.BasisTables.gradients (Construct.poisson_tables hD ho)
  have hmat : ∀ e, InElems P elems e → poissonMaterial o d K e = fun _ => k (d.region e) := fun e he =>
    Construct.poisson_material hD hs ho K k hK e (hv.volume e he)
  haveI := Construct.nbf_pos D o.p
  have hco : Poisson.Coercive P (D + 1) (o.p - 1) elems (Construct.poissonRef o) (geometryOf o d) (poissonMaterial o d K)
      (areaOf o d (Construct.allElems P elems)) (volumeOf o d) :=
    Construct.poisson_coercive_bounds hD (o.p - 1) (Construct.poissonRef o) (geometryOf o d) hgt hst _ _ _
      (fun q => Construct.getD_all (p := fun w => 0 ≤ w) le_rfl _ ho.fctPos q) (fun q => Construct.getD_all (p := fun w => 0 ≤ w) le_rfl _ (fun w hw => (ho.volPos w hw).le) q)
      (Construct.harea hop) (fun e _ => Construct.hvolume e)
      (fun e he => by rw [hmat e he, ciInf_const]; exact hk e he)
      (fun e he q => by rw [hmat e he, ciInf_const]; exact (Construct.kKq_const _ _ _ (Construct.unity_volume hD ho q)).ge)
      (fun e f he hf q => by
        have := Construct.kKq_const (k (d.region e)) ((Construct.poissonRef o).matE_q_T ((geometryOf o d).localNo e f)) q
          (Construct.unity_facet hD ho _ (Construct.localNo_lt hD hm e f he hf) q)
        rw [hmat e he, ciSup_const, this]
        exact (abs_of_pos (hk e he)).le)
  have hW : ∀ q, 0 < (Construct.poissonRef o).W q := fun q => by
    have hq : q.val < o.volRule.weights.length := ho.vol.1 ▸ q.2
    change 0 < o.volRule.weights.getD q.val 0
    rw [List.getD_eq_getElem _ _ hq]
    exact ho.volPos _ (List.getElem_mem hq)
  obtain ⟨B, hB, htab⟩ := PatchTest.poisson_tab hD ho
  have hfac : ∀ {e f}, InElems P elems e → IsFacet e f → (geometryOf o d).localNo e f = facetNo D e f := fun {e f} he hf =>
    ((Construct.geometry_affine (o := o) hD hs hm he).2.2 f hf).2.2
  obtain ⟨w1, w2, w3⟩ := TraceIneq.sum_weights hD o.p (Construct.poissonRef o).W (Construct.poissonRef o).w _ _ htab.vol htab.fct
  have hq0 : ∃ q : Fin o.fctRule.points.length, 0 < (Construct.poissonRef o).w q := by
    by_contra hh
    push Not at hh
    exact absurd w3 (not_lt.2 (sum_nonpos fun q _ => hh q))
  obtain ⟨q0, hq0⟩ := hq0
  obtain ⟨k1, k2, k3⟩ := Poisson.kernel h.mesh (Construct.poissonRef o) (geometryOf o d) hop _ _ (fun r => (s r).op) hsam (o.p - 1)
    (fun r => (s r).area) (fun r => (s r).volume) _ _ hmeas hpen hco
    (strict hD (o.p - 1) (Construct.poissonRef o) (geometryOf o d) hgt hst _ _ hW (Construct.harea hop) (fun e _ => Construct.hvolume e)
      (fun e he v hpar => all_facets hD hm he (hv.volume e he) v fun f hf t ht =>
        hpar f hf _ (fun r q => PatchTest.normal_value (o := o) hD hs hm he hf r q) t ht))
    X blocks hb hz
  -- the functions on the elements are constant
  have hgrad : ∀ e, InElems P elems e → ∃ c, ∀ ξ, ∑ l, X e l * MvPolynomial.eval ξ (B l) = c := by
    intro e he
    have hdet := hv.volume e he
    obtain ⟨ha1, ha2, ha3⟩ := Construct.geometry_affine (o := o) hD hs hm he
    refine flat hD htab (edgeMatrix (d.corners e))⁻¹ ?_ (X e) fun q r => ?_
    · rw [Matrix.det_nonsing_inv, Ring.inverse_eq_inv']; exact inv_ne_zero hdet
    · have hpos : 0 < |(edgeMatrix (d.corners e)).det| := abs_pos.2 hdet
      have h0 := (sum_eq_zero_iff_of_nonneg fun q _ => mul_nonneg (mul_nonneg (by rw [ha1]; exact hpos.le) (hW q).le) (sum_nonneg fun r _ => sq_nonneg _)).1 (k1 e he) q (mem_univ q)
      have h1 := (mul_eq_zero.1 h0).resolve_left (mul_pos (by rw [ha1]; exact hpos) (hW q)).ne'
      have h2 := (sum_eq_zero_iff_of_nonneg fun r _ => sq_nonneg _).1 h1 r (mem_univ r)
      have h3 := pow_eq_zero_iff (two_ne_zero) |>.1 h2
      unfold Poisson.gradOf at h3
      simpa only [ha2] using h3
  choose c hc using hgrad
  have htr : ∀ {e f} (he : InElems P elems e) (hf : IsFacet e f) q, Poisson.trace ((Construct.poissonRef o).E_q ((geometryOf o d).localNo e f)) (X e) q = c e he :=
    fun {e f} he hf q => by
      rw [hfac he hf]
      exact PatchTest.trace_value (B := B) _ q (facetParam (facetNo D e f) o.fctRule.points[q]) (fun l => htab.Eq _ l q) (X e) _ (hc e he _)
  have hsq : ∀ {e f} (he : InElems P elems e) (hf : IsFacet e f) (t : ℝ),
      ∑ q, (Construct.poissonRef o).w q * (Poisson.normalLength ((geometryOf o d).normal f e) q * t ^ 2) = 0 → t = 0 := fun {e f} he hf t ht => by
    have hA := hco.areaPos e f he hf
    rw [Construct.harea hop e f he hf] at hA
    simp only [← mul_assoc] at ht
    rw [← sum_mul] at ht
    exact pow_eq_zero_iff (two_ne_zero) |>.1 ((mul_eq_zero.1 ht).resolve_left hA.ne')
  have hstep : ∀ e a (he : InElems P elems e) (ha : InElems P elems a), SharesFacet P elems e a → c e he = c a ha := by
    rintro e a he ha ⟨-, -, f, hf, hfa⟩
    by_cases hea : e = a
    · subst hea; rfl
    · have := k2 f e a he ha hea hf hfa
      simp only [htr he hf, htr ha hfa] at this
      exact sub_eq_zero.1 (hsq he hf _ this)
  have hwalk : ∀ e a, Relation.ReflTransGen (SharesFacet P elems) e a → ∀ (he : InElems P elems e) (ha : InElems P elems a), c e he = c a ha := by
    intro e a hw
    induction hw with
    | refl => intro _ _; rfl
    | tail _ hstep' ih => intro he ha; exact (ih he hstep'.1).trans (hstep _ _ hstep'.1 ha hstep')
  obtain ⟨a, f, hw, ha, hf, honly, htag⟩ := hanc e he
  have h0 : c a ha = 0 := by
    have := k3 f a ha hf honly htag
    simp only [htr ha hf] at this
    exact hsq ha hf _ this
  have hzero : ∀ x, ∑ l : Fin (nbf (D + 1) o.p), X e l * modalFunction (D + 1) o.p l x = 0 := fun x => by
    rw [← h0, ← hwalk e a hw he ha, ← hc e he x]
    exact sum_congr rfl fun l _ => by rw [hB]
  obtain ⟨c', -, hc'⟩ := (C78_modal_basis (D + 1) o.p (by omega)).2 (fun _ => 0) (isPoly_const _ _ 0)
  rw [hc' (X e) fun x => (hzero x).symm, hc' 0 fun x => by simp]

/-- What all ranks construct. -/
theorem poisson_states (hD : D = 1 ∨ D = 2) (h : Setup P elems num fnum tag views d b) (hs : StraightDomain d) (hv : Curvilinear.Valid P elems d.x)
    (hip : o.method = .IP) (K : (Fin (D + 1) → ℝ) → ℤ → Fin 1 → ℝ)
    (ranks : List (View × CurvilinearBuild.Built (D + 1))) (plans : List ScatterPlan.Plan) (buf : ℕ → List ℝ) (arrival : ℕ → List ScatterPlan.Block)
    (hx : Exchange P views b ranks plans buf arrival) :
    ∃ (vol : ℕ → List ℝ) (s : ℕ → PoissonState D o) (blocks : ℕ → List (ℕ × ℕ × (Fin (nbf (D + 1) o.p) → Fin (nbf (D + 1) o.p) → ℝ))),
      (∀ r, r < P → volumes o ranks plans r (buf r) (arrival r) = some (vol r) ∧ Construct.poisson o K (views r) (b r) (vol r) = some (s r) ∧
        DGAssembly.assemble (views r) (s r).op.localOp = some (blocks r)) ∧
      (∀ r, r < P → Poisson.Samples (views r) (s r).op .IP (Construct.poissonRef o) (geometryOf o d) (poissonMaterial o d K)
        (poissonPenalty o d (Construct.allElems P elems) (poissonMaterial o d K))) ∧
      (∀ r, r < P → Poisson.Measures (views r) (s r).area (s r).volume (areaOf o d (Construct.allElems P elems)) (volumeOf o d)) ∧
      ∀ r, r < P → ∀ i info, i < (views r).numLocalFacets → facetInfo (views r) i = some info →
        (s r).op.penalty_ i = Poisson.preparePenalty (D + 1) (o.p - 1) (s r).area (s r).volume (s r).op.K i info := by
  have hop := Construct.opposite_straight (o := o) hD hs h.mesh.mesh hv
  have hvol : ∀ r, ∃ vol, r < P → volumes o ranks plans r (buf r) (arrival r) = some vol ∧
      ∀ (u : ℕ) (e : List ℕ), (views r).elems[u]? = some e → vol[u]? = some (volumeOf o d e) := fun r => by
    by_cases hr : r < P
    · obtain ⟨vol, h1⟩ := Construct.exchange_volumes (o := o) h hx r hr
      exact ⟨vol, fun _ => h1⟩
    · exact ⟨[], fun h => absurd h hr⟩
  choose vol hvol using hvol
  have hstate : ∀ r, ∃ s : PoissonState D o, r < P → Construct.poisson o K (views r) (b r) (vol r) = some s ∧
      Poisson.Samples (views r) s.op o.method (Construct.poissonRef o) (geometryOf o d) (poissonMaterial o d K)
        (poissonPenalty o d (Construct.allElems P elems) (poissonMaterial o d K)) ∧
      Poisson.Measures (views r) s.area s.volume (areaOf o d (Construct.allElems P elems)) (volumeOf o d) ∧
      ∀ i info, i < (views r).numLocalFacets → facetInfo (views r) i = some info →
        s.op.penalty_ i = Poisson.preparePenalty (D + 1) (o.p - 1) s.area s.volume s.op.K i info := fun r => by
    by_cases hr : r < P
    · obtain ⟨s, h1⟩ := Construct.C99_poisson h hop K r hr (vol r) (hvol r hr).2
      exact ⟨s, fun _ => h1⟩
    · exact ⟨Classical.arbitrary _, fun h => absurd h hr⟩
  choose s hs' using hstate
  have hsam : ∀ r, r < P → Poisson.Samples (views r) (s r).op .IP (Construct.poissonRef o) (geometryOf o d) (poissonMaterial o d K)
        (poissonPenalty o d (Construct.allElems P elems) (poissonMaterial o d K)) := fun r hr => by rw [← hip]; exact (hs' r hr).2.1
  obtain ⟨blocks, hb, -⟩ := Poisson.C71_poisson_symmetric h.mesh (Construct.poissonRef o) (geometryOf o d) hop _ _ (fun r => (s r).op) hsam
  exact ⟨vol, s, blocks, fun r hr => ⟨(hvol r hr).1, (hs' r hr).1, hb r hr⟩, hsam, fun r hr => (hs' r hr).2.2.1, fun r hr => (hs' r hr).2.2.2⟩

/-- **C102 (positive definite)**: on every mesh of straight triangles or tetrahedra that is held by its boundary, for every number of ranks,
every partition and every order of the messages, with a coefficient that is constant and positive on each region: all ranks construct the
operator and assemble the matrix, and the quadratic form of the global interior penalty matrix is positive for every vector that is not
zero on all elements. -/
theorem C102_poisson_definite (hD : D = 1 ∨ D = 2) (h : Setup P elems num fnum tag views d b) (hs : StraightDomain d) (hv : Curvilinear.Valid P elems d.x)
    (ho : GoodOptions o) (hip : o.method = .IP) (K : (Fin (D + 1) → ℝ) → ℤ → Fin 1 → ℝ) (k : ℤ → ℝ) (hK : ∀ x t, K x t 0 = k t)
    (hk : ∀ e, InElems P elems e → 0 < k (d.region e)) (hanc : Anchored P elems tag)
    (ranks : List (View × CurvilinearBuild.Built (D + 1))) (plans : List ScatterPlan.Plan) (buf : ℕ → List ℝ) (arrival : ℕ → List ScatterPlan.Block)
    (hx : Exchange P views b ranks plans buf arrival) :
    ∃ (vol : ℕ → List ℝ) (s : ℕ → PoissonState D o) (blocks : ℕ → List (ℕ × ℕ × (Fin (nbf (D + 1) o.p) → Fin (nbf (D + 1) o.p) → ℝ))),
      (∀ r, r < P → volumes o ranks plans r (buf r) (arrival r) = some (vol r) ∧ Construct.poisson o K (views r) (b r) (vol r) = some (s r) ∧
        DGAssembly.assemble (views r) (s r).op.localOp = some (blocks r)) ∧
      ∀ X : List ℕ → Fin (nbf (D + 1) o.p) → ℝ, (∃ e, InElems P elems e ∧ X e ≠ 0) →
        0 < ∑ r ∈ Finset.range P, ∑ u ∈ Finset.range (elems r).length, ∑ k, X ((views r).elems.getD u []) k *
          DGAssembly.rowApply Poisson.mulVec (blocks r) (fun j => X ((views r).elems.getD j [])) u k := by
  obtain ⟨vol, s, blocks, h1, h2, h3, h4⟩ := poisson_states (o := o) hD h hs hv hip K ranks plans buf arrival hx
  refine ⟨vol, s, blocks, h1, fun X ⟨e, he, hne⟩ => ?_⟩
  by_contra hz
  exact hne (poisson_kernel hD h hs hv ho K k hK hk hanc s h2 h3 h4 blocks (fun r hr => (h1 r hr).2.2) X (not_lt.1 hz) e he)

/-- **C102 (exactly one solution)**: under the same hypotheses the global linear system has a solution for every right-hand side, and two
solutions agree on all elements. -/
theorem C102_poisson_unique (hD : D = 1 ∨ D = 2) (h : Setup P elems num fnum tag views d b) (hs : StraightDomain d) (hv : Curvilinear.Valid P elems d.x)
    (ho : GoodOptions o) (hip : o.method = .IP) (K : (Fin (D + 1) → ℝ) → ℤ → Fin 1 → ℝ) (k : ℤ → ℝ) (hK : ∀ x t, K x t 0 = k t)
    (hk : ∀ e, InElems P elems e → 0 < k (d.region e)) (hanc : Anchored P elems tag)
    (ranks : List (View × CurvilinearBuild.Built (D + 1))) (plans : List ScatterPlan.Plan) (buf : ℕ → List ℝ) (arrival : ℕ → List ScatterPlan.Block)
    (hx : Exchange P views b ranks plans buf arrival) :
    ∃ (vol : ℕ → List ℝ) (s : ℕ → PoissonState D o) (blocks : ℕ → List (ℕ × ℕ × (Fin (nbf (D + 1) o.p) → Fin (nbf (D + 1) o.p) → ℝ))),
      (∀ r, r < P → volumes o ranks plans r (buf r) (arrival r) = some (vol r) ∧ Construct.poisson o K (views r) (b r) (vol r) = some (s r) ∧
        DGAssembly.assemble (views r) (s r).op.localOp = some (blocks r)) ∧
      ∀ rhs : ℕ → ℕ → Fin (nbf (D + 1) o.p) → ℝ, ∃ X : List ℕ → Fin (nbf (D + 1) o.p) → ℝ,
        (∀ r, r < P → ∀ u, u < (elems r).length →
          DGAssembly.rowApply Poisson.mulVec (blocks r) (fun j => X ((views r).elems.getD j [])) u = rhs r u) ∧
        ∀ Y : List ℕ → Fin (nbf (D + 1) o.p) → ℝ,
          (∀ r, r < P → ∀ u, u < (elems r).length →
            DGAssembly.rowApply Poisson.mulVec (blocks r) (fun j => Y ((views r).elems.getD j [])) u = rhs r u) →
          ∀ e, InElems P elems e → Y e = X e := by
  obtain ⟨vol, s, blocks, h1, h2, h3, h4⟩ := poisson_states (o := o) hD h hs hv hip K ranks plans buf arrival hx
  have hadd : ∀ (A : Fin (nbf (D + 1) o.p) → Fin (nbf (D + 1) o.p) → ℝ) x y, Poisson.mulVec A (x + y) = Poisson.mulVec A x + Poisson.mulVec A y := fun A x y => by
    funext i; simp [Poisson.mulVec, mul_add, sum_add_distrib]
  have hsm : ∀ (A : Fin (nbf (D + 1) o.p) → Fin (nbf (D + 1) o.p) → ℝ) (c : ℝ) x, Poisson.mulVec A (c • x) = c • Poisson.mulVec A x := fun A c x => by
    funext i; simp only [Poisson.mulVec, Pi.smul_apply, smul_eq_mul, mul_sum]
    exact sum_congr rfl fun j _ => by ring
  have hinj : ∀ X : List ℕ → Fin (nbf (D + 1) o.p) → ℝ,
      (∀ r, r < P → ∀ u, u < (elems r).length → DGAssembly.rowApply Poisson.mulVec (blocks r) (fun j => X ((views r).elems.getD j [])) u = 0) →
      ∀ e, InElems P elems e → X e = 0 := fun X hX e he =>
    poisson_kernel hD h hs hv ho K k hK hk hanc s h2 h3 h4 blocks (fun r hr => (h1 r hr).2.2) X
      (le_of_eq (sum_eq_zero fun r hr => sum_eq_zero fun u hu => sum_eq_zero fun k _ => by
        rw [hX r (mem_range.1 hr) u (mem_range.1 hu), Pi.zero_apply, mul_zero])) e he
  refine ⟨vol, s, blocks, h1, fun rhs => ?_⟩
  obtain ⟨X, hX⟩ := DGAssembly.solvable h.mesh Poisson.mulVec hadd hsm blocks hinj rhs
  refine ⟨X, hX, fun Y hY e he => ?_⟩
  have := hinj (fun e => Y e + (-1 : ℝ) • X e) (fun r hr u hu => by
    rw [DGAssembly.rowApply_add Poisson.mulVec hadd, DGAssembly.rowApply_smul Poisson.mulVec hsm, hX r hr u hu, hY r hr u hu]
    simp) e he
  simpa [sub_eq_add_neg, ← sub_eq_zero (a := Y e)] using this

open MvPolynomial in
/-- **C102 (the solution is the exact one)**: if moreover polynomials `U` of at most the degree of the elements solve the boundary value problem
(C101), then the linear system that the ranks assemble, matrix and right-hand side, has the coefficients of `U` as its only solution. -/
theorem C102_poisson_exact (hD : D = 1 ∨ D = 2) (h : Setup P elems num fnum tag views d b) (hs : StraightDomain d) (hv : Curvilinear.Valid P elems d.x)
    (ho : GoodOptions o) (hip : o.method = .IP) (K : (Fin (D + 1) → ℝ) → ℤ → Fin 1 → ℝ) (k : ℤ → ℝ) (hK : ∀ x t, K x t 0 = k t)
    (hk : ∀ e, InElems P elems e → 0 < k (d.region e)) (hanc : Anchored P elems tag)
    (ranks : List (View × CurvilinearBuild.Built (D + 1))) (plans : List ScatterPlan.Plan) (buf : ℕ → List ℝ) (arrival : ℕ → List ScatterPlan.Block)
    (hx : Exchange P views b ranks plans buf arrival)
    (dat : ℕ → Poisson.Data o.volRule.points.length o.fctRule.points.length) (U : List ℕ → MvPolynomial (Fin (D + 1)) ℝ)
    (hU : ∀ r, r < P → PoissonSolution (views r) d o k (dat r) U) :
    ∃ (vol : ℕ → List ℝ) (s : ℕ → PoissonState D o) (blocks : ℕ → List (ℕ × ℕ × (Fin (nbf (D + 1) o.p) → Fin (nbf (D + 1) o.p) → ℝ)))
      (rhs : ℕ → ℕ → Fin (nbf (D + 1) o.p) → ℝ),
      (∀ r, r < P → volumes o ranks plans r (buf r) (arrival r) = some (vol r) ∧ Construct.poisson o K (views r) (b r) (vol r) = some (s r) ∧
        DGAssembly.assemble (views r) (s r).op.localOp = some (blocks r) ∧ DGAssembly.rhs (views r) ((s r).op.localRhs (dat r)) 0 = some (rhs r)) ∧
      ∀ X : List ℕ → Fin (nbf (D + 1) o.p) → ℝ,
        (∀ r, r < P → ∀ u, u < (elems r).length →
          DGAssembly.rowApply Poisson.mulVec (blocks r) (fun j => X ((views r).elems.getD j [])) u = rhs r u) ↔
        ∀ e, InElems P elems e → ∀ ξ, ∑ l : Fin (nbf (D + 1) o.p), X e l * modalFunction (D + 1) o.p l ξ = eval (plexPoint d.x e ξ) (U e) := by
  by_cases hP : 0 < P
  swap
  · exact ⟨fun _ => [], fun _ => Classical.arbitrary _, fun _ => [], 0, fun r hr => by omega, fun X =>
      ⟨fun _ e ⟨r, hr, _⟩ => by omega, fun _ r hr => by omega⟩⟩
  obtain ⟨vol, s, blocks, h1, hsys⟩ := C102_poisson_unique hD h hs hv ho hip K k hK hk hanc ranks plans buf arrival hx
  have hr : ∀ r, ∃ rhs, r < P → DGAssembly.rhs (views r) ((s r).op.localRhs (dat r)) 0 = some rhs ∧
      ∀ X : ℕ → Fin (nbf (D + 1) o.p) → ℝ,
        (∀ u e, (views r).elems[u]? = some e → ∀ ξ, ∑ l : Fin (nbf (D + 1) o.p), X u l * modalFunction (D + 1) o.p l ξ = eval (plexPoint d.x e ξ) (U e)) →
        ∀ u, u < (elems r).length → DGAssembly.rowApply Poisson.mulVec (blocks r) X u = rhs u := fun r => by
    by_cases hr : r < P
    · obtain ⟨vol', s', blocks', rhs, g1, g2, g3, g4, g5⟩ := PatchTest.C101_poisson hD h hs hv ho K k hK ranks plans buf arrival hx r hr (dat r) U (hU r hr)
      obtain ⟨f1, f2, f3⟩ := h1 r hr
      obtain rfl := Option.some.inj (f1.symm.trans g1)
      obtain rfl := Option.some.inj (f2.symm.trans g2)
      obtain rfl := Option.some.inj (f3.symm.trans g3)
      exact ⟨rhs, fun _ => ⟨g4, fun X hX => (g5 X hX).1⟩⟩
    · exact ⟨0, fun h => absurd h hr⟩
  choose rhs hrhs using hr
  have hmodal : ∀ e, ∃! c : Fin (nbf (D + 1) o.p) → ℝ, ∀ ξ, ∑ l : Fin (nbf (D + 1) o.p), c l * modalFunction (D + 1) o.p l ξ = eval (plexPoint d.x e ξ) (U e) :=
    fun e => PatchTest.C101_modal_coefficients hD o.p (U e) ((hU 0 hP).degree e) e
  have hsol : ∀ X : List ℕ → Fin (nbf (D + 1) o.p) → ℝ,
      (∀ e, InElems P elems e → ∀ ξ, ∑ l : Fin (nbf (D + 1) o.p), X e l * modalFunction (D + 1) o.p l ξ = eval (plexPoint d.x e ξ) (U e)) →
      ∀ r, r < P → ∀ u, u < (elems r).length → DGAssembly.rowApply Poisson.mulVec (blocks r) (fun j => X ((views r).elems.getD j [])) u = rhs r u :=
    fun X hX r hr u hu => (hrhs r hr).2 _ (fun j e hj ξ => by
      have hin := ((h.mesh.view r hr).exactly _).1 (List.mem_of_getElem? hj) |>.1
      rw [List.getD_eq_getElem?_getD, hj]
      exact hX e hin ξ) u hu
  refine ⟨vol, s, blocks, rhs, fun r hr => ⟨(h1 r hr).1, (h1 r hr).2.1, (h1 r hr).2.2, (hrhs r hr).1⟩, fun X => ⟨fun hX e he ξ => ?_, hsol X⟩⟩
  obtain ⟨Z, -, huniq⟩ := hsys rhs
  choose c hc _ using hmodal
  rw [huniq X hX e he, ← huniq c (hsol c fun e _ => hc e) e he]
  exact hc e ξ

end Tandem.Definite
