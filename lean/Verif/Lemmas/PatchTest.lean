import Verif.Lemmas.SimplexDivergence
import Verif.Spec.PatchTest
import Verif.Props.ConstructMatrix
/-! # Lemmas for C101: polynomial functions on affine elements in the tables of the operators -/
namespace Tandem.PatchTest
open Finset Spec Curvilinear Divergence RefElement Error
open Tandem.Construct (Options facetPoints)

variable {D Nbf Nq nq : ℕ}

open MvPolynomial in
/-- The tables are those of the polynomials `B`, at the points of rules that are exact to degree `M`. -/
structure Tab (M p : ℕ) (W : Fin Nq → ℝ) (w : Fin nq → ℝ) (xi : Fin Nq → Fin (D + 1) → ℝ) (chi : Fin nq → Fin D → ℝ)
    (B : Fin Nbf → MvPolynomial (Fin (D + 1)) ℝ) (E_Q : Fin Nbf → Fin Nq → ℝ) (E_q : ℕ → Fin Nbf → Fin nq → ℝ)
    (Dxi_Q : Fin Nbf → Fin (D + 1) → Fin Nq → ℝ) (Dxi_q : ℕ → Fin Nbf → Fin (D + 1) → Fin nq → ℝ) : Prop where
  vol : ∀ f, IsPoly (D + 1) M f → ∑ q, W q * f (xi q) = simplexIntegral (D + 1) f
  fct : ∀ f, IsPoly D M f → ∑ q, w q * f (chi q) = simplexIntegral D f
  degree : ∀ k, (B k).totalDegree ≤ p
  EQ : ∀ k q, E_Q k q = eval (xi q) (B k)
  Eq : ∀ (l : Fin (D + 2)) k q, E_q l k q = eval (facetParam l (chi q)) (B k)
  DQ : ∀ k e q, Dxi_Q k e q = eval (xi q) (pderiv e (B k))
  Dq : ∀ (l : Fin (D + 2)) k e q, Dxi_q l k e q = eval (facetParam l (chi q)) (pderiv e (B k))

open MvPolynomial in
theorem gradient_eval {n : ℕ} (f : (Fin n → ℝ) → ℝ) (p : MvPolynomial (Fin n) ℝ) (hf : ∀ x, f x = eval x p) (g x : Fin n → ℝ)
    (hg : IsGradient f g x) (d : Fin n) : g d = eval x (pderiv d p) := by
  have h1 := hg (Pi.single d 1)
  simp only [hf] at h1
  have := h1.unique (CurvilinearBuild.hasDerivAt_eval p x d)
  rw [← this]
  simp [Pi.single_apply]

variable {o : Options D}

open MvPolynomial in
/-- From values and gradients of polynomials to their tables. -/
theorem tab_of (ho : GoodOptions o) {n : ℕ} (phi : Fin n → (Fin (D + 1) → ℝ) → ℝ) (hphi : ∀ k, IsPoly (D + 1) o.p (phi k))
    (E : List (Fin (D + 1) → ℝ) → Fin n → ℕ → ℝ) (hE : ∀ points k (q : ℕ) (hq : q < points.length), E points k q = phi k points[q])
    (G : List (Fin (D + 1) → ℝ) → Fin n → Fin (D + 1) → ℕ → ℝ)
    (hG : ∀ points k (q : ℕ) (hq : q < points.length), IsGradient (phi k) (fun e => G points k e q) points[q]) :
    ∃ B : Fin n → MvPolynomial (Fin (D + 1)) ℝ, (∀ k x, phi k x = eval x (B k)) ∧
      Tab (2 * o.p) o.p (fun q : Fin o.volRule.points.length => o.volRule.weights.getD q 0) (fun q : Fin o.fctRule.points.length => o.fctRule.weights.getD q 0)
        (fun q => o.volRule.points[q]) (fun q => o.fctRule.points[q]) B
        (fun k q => E o.volRule.points k q) (fun l k q => E (facetPoints o l) k q)
        (fun k e q => G o.volRule.points k e q) (fun l k e q => G (facetPoints o l) k e q) := by
  choose B hB1 hB2 using hphi
  have hfl : ∀ (l : Fin (D + 2)), facetPoints o l = o.fctRule.points.map (Curvilinear.facetParam l) := fun l => by
    unfold facetPoints; rw [dif_pos l.2]
  have hgt : ∀ points k e (q : ℕ) (hq : q < points.length), G points k e q = eval points[q] (pderiv e (B k)) := fun points k e q hq =>
    gradient_eval _ _ (hB2 k) _ _ (hG points k q hq) e
  refine ⟨B, hB2, fun f hf => Construct.quad_fin _ ho.vol f hf, fun f hf => Construct.quad_fin _ ho.fct f hf, hB1,
    fun k q => (hE _ k q q.2).trans (hB2 k _), fun l k q => ?_, fun k e q => hgt _ k e q q.2, fun l k e q => ?_⟩
  · beta_reduce
    rw [hE (facetPoints o l) k q (by rw [hfl]; simp), hB2]
    simp only [hfl, List.getElem_map]; rfl
  · beta_reduce
    rw [hgt (facetPoints o l) k e q (by rw [hfl]; simp)]
    simp only [hfl, List.getElem_map]; rfl

open MvPolynomial in
theorem poisson_tab (hD : D = 1 ∨ D = 2) (ho : GoodOptions o) :
    ∃ B : Fin (nbf (D + 1) o.p) → MvPolynomial (Fin (D + 1)) ℝ, (∀ (k : Fin (nbf (D + 1) o.p)) x, modalFunction (D + 1) o.p k x = eval x (B k)) ∧
      Tab (2 * o.p) o.p (Construct.poissonRef o).W (Construct.poissonRef o).w (fun q => o.volRule.points[q]) (fun q => o.fctRule.points[q]) B
        (Construct.poissonRef o).E_Q (Construct.poissonRef o).E_q (Construct.poissonRef o).Dxi_Q (Construct.poissonRef o).Dxi_q :=
  tab_of ho (fun k : Fin (nbf (D + 1) o.p) => modalFunction (D + 1) o.p k) (C78_modal_basis (D + 1) o.p (by omega)).1
    (fun points k q => (modalBasis o.p points 1).val ![k.val, q])
    (fun points k q hq => by
      have := (C78_evaluation o.p [] points 1 k q hq).1
      rw [permute2] at this
      exact this)
    (fun points k e q => (modalGradient o.p points 1).val ![k.val, e.val, q])
    (fun points k q hq => by
      have := (C78_gradient (D + 1) o.p (by omega) [] points 1 k q hq).1
      simp only [permute3] at this
      exact this)

open MvPolynomial in
theorem elasticity_tab (hD : D = 1 ∨ D = 2) (ho : GoodOptions o) :
    ∃ B : Fin (nbf (D + 1) o.p) → MvPolynomial (Fin (D + 1)) ℝ, (∀ (k : Fin (nbf (D + 1) o.p)) x, nodalFunction o.p o.nodes k x = eval x (B k)) ∧
      Tab (2 * o.p) o.p (Construct.elasticityRef o).W (Construct.elasticityRef o).w (fun q => o.volRule.points[q]) (fun q => o.fctRule.points[q]) B
        (Construct.elasticityRef o).E_Q (Construct.elasticityRef o).E_q (Construct.elasticityRef o).Dxi_Q (Construct.elasticityRef o).Dxi_q :=
  tab_of ho (fun k : Fin (nbf (D + 1) o.p) => nodalFunction o.p o.nodes k) (fun k => (C78_lagrange _ _ (by omega) _ ho.length (ho.unit hD) k).1)
    (fun points k q => (nodalBasis o.p o.nodes points 1).val ![k.val, q]) (fun points k q hq => basis_col _ _ _ _ _ hq)
    (fun points k e q => (nodalGradient o.p o.nodes points 1).val ![k.val, e.val, q]) (fun points k q hq => grad_perm1 _ (by omega) _ _ _ _ hq)

section
variable {M p : ℕ} {W : Fin Nq → ℝ} {w : Fin nq → ℝ} {xi : Fin Nq → Fin (D + 1) → ℝ} {chi : Fin nq → Fin D → ℝ}
  {B : Fin Nbf → MvPolynomial (Fin (D + 1)) ℝ} {E_Q : Fin Nbf → Fin Nq → ℝ} {E_q : ℕ → Fin Nbf → Fin nq → ℝ}
  {Dxi_Q : Fin Nbf → Fin (D + 1) → Fin Nq → ℝ} {Dxi_q : ℕ → Fin Nbf → Fin (D + 1) → Fin nq → ℝ}

open MvPolynomial in
/-- The gradient of a function with the coefficients `x`, which is the polynomial `U` on the element. -/
theorem grad_rep (verts : Fin (D + 2) → Fin (D + 1) → ℝ) (hdet : (edgeMatrix verts).det ≠ 0) (x : Fin Nbf → ℝ) (U : MvPolynomial (Fin (D + 1)) ℝ)
    (hx : ∀ ξ, ∑ l, x l * eval ξ (B l) = eval (refToGeneral verts ξ) U) (ξ : Fin (D + 1) → ℝ) (i : Fin (D + 1)) :
    ∑ l, (∑ j, (edgeMatrix verts)⁻¹ j i * eval ξ (pderiv j (B l))) * x l = eval (refToGeneral verts ξ) (pderiv i U) := by
  have hpoly : ∑ l, C (x l) * B l = pull verts U := by
    refine MvPolynomial.funext fun ξ => ?_
    rw [eval_pull, ← hx, map_sum]
    exact sum_congr rfl fun l _ => by rw [map_mul, eval_C]
  have hj : ∀ j, ∑ l, eval ξ (pderiv j (B l)) * x l = ∑ i, edgeMatrix verts i j * eval (refToGeneral verts ξ) (pderiv i U) := fun j => by
    have := congrArg (fun P => eval ξ (pderiv j P)) hpoly
    simp only [pderiv_pull, map_sum, pderiv_C_mul, map_mul, eval_C, eval_pull] at this
    rw [← this]
    exact sum_congr rfl fun l _ => mul_comm _ _
  have hinv : ∀ m, ∑ j, edgeMatrix verts m j * (edgeMatrix verts)⁻¹ j i = if m = i then 1 else 0 := fun m => by
    have := congrFun (congrFun (Matrix.mul_nonsing_inv (edgeMatrix verts) (isUnit_iff_ne_zero.2 hdet)) m) i
    rwa [Matrix.mul_apply, Matrix.one_apply] at this
  calc ∑ l, (∑ j, (edgeMatrix verts)⁻¹ j i * eval ξ (pderiv j (B l))) * x l
      = ∑ j, (edgeMatrix verts)⁻¹ j i * ∑ l, eval ξ (pderiv j (B l)) * x l := by
        simp only [sum_mul, mul_sum]
        rw [sum_comm]
        exact sum_congr rfl fun j _ => sum_congr rfl fun l _ => by ring
    _ = ∑ m, (∑ j, edgeMatrix verts m j * (edgeMatrix verts)⁻¹ j i) * eval (refToGeneral verts ξ) (pderiv m U) := by
        simp only [hj, sum_mul, mul_sum]
        rw [sum_comm]
        exact sum_congr rfl fun j _ => sum_congr rfl fun l _ => by ring
    _ = _ := by simp [hinv]

open MvPolynomial in
/-- Green's formula in terms of the tables. -/
theorem green_tab (hD : D = 1 ∨ D = 2) (t : Tab M p W w xi chi B E_Q E_q Dxi_Q Dxi_q)
    (verts : Fin (D + 2) → Fin (D + 1) → ℝ) (hdet : (edgeMatrix verts).det ≠ 0) (S : Fin (D + 1) → MvPolynomial (Fin (D + 1)) ℝ)
    (hS : ∀ i, p + (S i).totalDegree ≤ M) (k : Fin Nbf) :
    ∑ q, W q * (|(edgeMatrix verts).det| * ∑ i, (∑ j, (edgeMatrix verts)⁻¹ j i * Dxi_Q k j q) * eval (refToGeneral verts (xi q)) (S i)) +
      ∑ q, W q * (|(edgeMatrix verts).det| * (E_Q k q * ∑ i, eval (refToGeneral verts (xi q)) (pderiv i (S i)))) =
      ∑ l : Fin (D + 2), ∑ q, w q * (E_q l k q * ∑ i, Curvilinear.normal l (edgeMatrix verts) i * eval (refToGeneral verts (facetParam l (chi q))) (S i)) := by
  have h := green hD t.vol t.fct verts hdet (B k) S (fun i => (Nat.add_le_add_right (t.degree k) _).trans (hS i))
  simp only [t.EQ, t.Eq, t.DQ]
  rw [← h, ← sum_add_distrib]
  refine sum_congr rfl fun q _ => ?_
  rw [sum_add_distrib, ← mul_sum]
  ring
end

/-! ## Facets -/

open Tandem.DGTopo (View facetInfo FacetInfo)
open Tandem.DGAssembly (upOf localNoOf)

variable {P : ℕ} {elems : ℕ → List (List ℕ)} {num fnum tag : List ℕ → ℕ} {views : ℕ → View} {d : Domain (D + 1)}

theorem plexPoint_element (e : List ℕ) (ξ : Fin (D + 1) → ℝ) : refToGeneral (d.corners e) ξ = plexPoint d.x e ξ := rfl

/-- Points and normals of a facet, from one of its elements. -/
theorem facet_points (hD : D = 1 ∨ D = 2) (hm : Spec.Mesh P (D + 1) elems) {e f : List ℕ} (he : InElems P elems e) (hf : IsFacet e f) (χ : Fin D → ℝ) :
    refToGeneral (d.corners e) (facetParam (facetNo D e f) χ) = plexPoint d.x f χ := by
  obtain ⟨s, hs, hes⟩ := he
  have hl := localFace_spec hD e f (hm.size s hs e hes) (hm.sorted s hs e hes) hf
  funext i
  rw [Construct.facetNo_localFace e f hl.1, C58_facet_param]
  unfold plexPoint Domain.corners
  rw [hl.2.1 0]
  congr 1
  exact sum_congr rfl fun j _ => by rw [hl.2.1 j.succ]; rfl

theorem facet_normal (hD : D = 1 ∨ D = 2) (hm : Spec.Mesh P (D + 1) elems) {e f : List ℕ} (he : InElems P elems e) (hf : IsFacet e f)
    (hdet : (edgeMatrix (d.corners e)).det ≠ 0) : PerpTo d.x f (Curvilinear.normal (facetNo D e f) (edgeMatrix (d.corners e))) := by
  obtain ⟨s, hs, hes⟩ := he
  have hl := localFace_spec hD e f (hm.size s hs e hes) (hm.sorted s hs e hes) hf
  have hflen : f.length = D + 1 := by have := hf.1; have := hm.size s hs e hes; omega
  rw [Construct.facetNo_localFace e f hl.1]
  have hn := (C58_normal D (by omega) (Fin.ofNat (D + 2) (localFace D e f)) (edgeMatrix (d.corners e)) hdet).1
  have hk : ∀ a ∈ f, ∑ i, Curvilinear.normal (Fin.ofNat (D + 2) (localFace D e f)) (edgeMatrix (d.corners e)) i * (d.x a i - d.x (f.getD 0 0) i) = 0 := by
    intro a ha
    obtain ⟨k, hk, rfl⟩ := List.getElem_of_mem ha
    have hc : ∀ (k : Fin (D + 1)) i, d.corners e (f2v (Fin.ofNat (D + 2) (localFace D e f)) k) i = d.x (f.getD k 0) i := fun k i => by
      unfold Domain.corners; rw [hl.2.1 k]
    have h1 := hn ⟨k, by omega⟩
    rw [edgeMatrix_mul] at h1
    rw [← h1]
    unfold dot
    refine sum_congr rfl fun i _ => ?_
    rw [Pi.sub_apply, hc, hc]
    simp [List.getD_eq_getElem?_getD, List.getElem?_eq_getElem hk]
  intro a ha b hb
  have h1 := hk a ha
  have h2 := hk b hb
  have h3 := congrArg₂ (· - ·) h1 h2
  simp only [← sum_sub_distrib, sub_zero] at h3
  rw [← h3]
  exact sum_congr rfl fun i _ => by ring

/-- The unit normal of the code. -/
theorem outer_unit (hD : D = 1 ∨ D = 2) (hm : Spec.Mesh P (D + 1) elems) {e f : List ℕ} (he : InElems P elems e) (hf : IsFacet e f)
    (hdet : (edgeMatrix (d.corners e)).det ≠ 0) (N : Fin (D + 1) → Fin nq → ℝ) (q : Fin nq)
    (hN : (fun j => N j q) = Curvilinear.normal (facetNo D e f) (edgeMatrix (d.corners e))) :
    OuterUnit d.x e f (fun j => Poisson.unitNormal N j q) := by
  have hperp := facet_normal (d := d) hD hm he hf hdet
  rw [← hN] at hperp
  obtain ⟨s, hs, hes⟩ := he
  have hsz := hm.size s hs e hes
  have hl := localFace_spec hD e f hsz (hm.sorted s hs e hes) hf
  have hflen : f.length = D + 1 := by have := hf.1; omega
  have hn := (C58_normal D (by omega) (Fin.ofNat (D + 2) (localFace D e f)) (edgeMatrix (d.corners e)) hdet).2
  rw [← Construct.facetNo_localFace e f hl.1, ← hN, Construct.facetNo_localFace e f hl.1] at hn
  have hout : ∀ a ∈ e, a ∉ f → ∀ b ∈ f, ∑ i, N i q * (d.x a i - d.x b i) < 0 := by
    intro a ha haf b hb
    obtain ⟨m, hm', rfl⟩ := List.getElem_of_mem ha
    obtain ⟨k, hk, rfl⟩ := List.getElem_of_mem hb
    have hmiss : (⟨m, by omega⟩ : Fin (D + 2)) = missing (Fin.ofNat (D + 2) (localFace D e f)) := by
      by_contra hne
      obtain ⟨z, hz⟩ := Fin.exists_succAbove_eq hne
      refine haf ?_
      have h1 := hl.2.1 z
      have h2 : f2v (Fin.ofNat (D + 2) (localFace D e f)) z = ⟨m, by omega⟩ := hz
      rw [h2, List.getD_eq_getElem _ _ hm', List.getD_eq_getElem _ _ (by omega)] at h1
      rw [h1]; exact List.getElem_mem _
    have h1 := hn ⟨k, by omega⟩
    rw [edgeMatrix_mul, ← hmiss] at h1
    unfold dot at h1
    refine lt_of_eq_of_lt (sum_congr rfl fun i _ => ?_) h1
    rw [Pi.sub_apply]
    have hc : d.corners e (f2v (Fin.ofNat (D + 2) (localFace D e f)) ⟨k, by omega⟩) i = d.x f[k] i := by
      unfold Domain.corners; rw [hl.2.1, List.getD_eq_getElem _ _ hk]
    rw [hc]
    unfold Domain.corners
    rw [List.getD_eq_getElem _ _ hm']
  have hpos : 0 < ∑ j, N j q * N j q := by
    by_contra hc
    have h0 : ∀ j, N j q = 0 := fun j => by
      have hz : ∑ j, N j q * N j q = 0 := le_antisymm (not_lt.1 hc) (sum_nonneg fun j _ => mul_self_nonneg _)
      exact mul_self_eq_zero.1 ((sum_eq_zero_iff_of_nonneg fun j _ => mul_self_nonneg _).1 hz j (mem_univ j))
    have h1 := hn 0
    unfold dot at h1
    simp [h0] at h1
  have hroot : 0 < Real.sqrt (∑ j, N j q * N j q) := Real.sqrt_pos.2 hpos
  have hun : ∀ j, Poisson.unitNormal N j q = (Real.sqrt (∑ j, N j q * N j q))⁻¹ * N j q := fun j => by
    unfold Poisson.unitNormal; rw [if_pos hpos]; ring
  simp only [hun]
  refine ⟨fun a ha b hb => ?_, ?_, fun a ha haf b hb => ?_⟩
  · simp only [mul_assoc]
    rw [← mul_sum, hperp a ha b hb, mul_zero]
  · have : ∀ j, (Real.sqrt (∑ j, N j q * N j q))⁻¹ * N j q * ((Real.sqrt (∑ j, N j q * N j q))⁻¹ * N j q) =
        (Real.sqrt (∑ j, N j q * N j q) * Real.sqrt (∑ j, N j q * N j q))⁻¹ * (N j q * N j q) := fun j => by rw [mul_inv]; ring
    simp only [this]
    rw [← mul_sum, Real.mul_self_sqrt hpos.le, inv_mul_cancel₀ hpos.ne']
  · simp only [mul_assoc]
    rw [← mul_sum]
    exact mul_neg_of_pos_of_neg (inv_pos.2 hroot) (hout a ha haf b hb)

/-- The two sides of a facet. -/
theorem sides {b : ℕ → CurvilinearBuild.Built (D + 1)} (h : Construct.Setup P elems num fnum tag views d b) {r : ℕ} (hr : r < P) {i : ℕ} {info : FacetInfo}
    (hi : i < (views r).numLocalFacets) (hinfo : facetInfo (views r) i = some info) :
    ∃ f e0 e1, (views r).facets[i]? = some f ∧ (views r).elems[info.up0]? = some e0 ∧ (views r).elems[info.up1]? = some e1 ∧
      IsFacet e0 f ∧ IsFacet e1 f ∧ InElems P elems e0 ∧ InElems P elems e1 ∧ info.localNo0 = facetNo D e0 f ∧ info.localNo1 = facetNo D e1 f := by
  obtain ⟨info', f, e0, e1, g1, g2, g3, g4, g5, g6, -, -, -, ⟨d0, k0, k0'⟩, ⟨d1, k1, k1'⟩, -⟩ := DGTopo.C33_facet_info h.mesh r hr i hi
  obtain rfl := Option.some.inj (hinfo.symm.trans g1)
  refine ⟨f, e0, e1, g2, g3, g4, g5, g6, ((h.mesh.view r hr).exactly e0).1 (List.mem_of_getElem? g3) |>.1,
    ((h.mesh.view r hr).exactly e1).1 (List.mem_of_getElem? g4) |>.1, ?_, ?_⟩
  · rw [Construct.facetNo_eq (Construct.local_number h hr g3 k0 k0' g2)]
  · rw [Construct.facetNo_eq (Construct.local_number h hr g4 k1 k1' g2)]

/-- A sum over the facets of an element. -/
theorem sum_facets {b : ℕ → CurvilinearBuild.Built (D + 1)} (h : Construct.Setup P elems num fnum tag views d b) {r : ℕ} (hr : r < P) {u : ℕ} {e ds : List ℕ}
    (he : (views r).elems[u]? = some e) (hds : (views r).down[u]? = some ds) (F : ℕ → ℝ) (G : Fin (D + 2) → ℝ)
    (hF : ∀ i f, i ∈ ds → (views r).facets[i]? = some f → IsFacet e f → F i = G (facetNo D e f)) : (ds.map F).sum = ∑ l, G l := by
  obtain ⟨ds', hds', hlen, -, hmem⟩ := (h.mesh.view r hr).down u e he
  obtain rfl := Option.some.inj (hds.symm.trans hds')
  have hl : ds.map F = List.ofFn G := by
    refine List.ext_getElem (by simp [hlen]) fun l h1 h2 => ?_
    rw [List.getElem_map, List.getElem_ofFn]
    have h1 : l < ds.length := by simpa using h1
    obtain ⟨f, hf, hef⟩ := (hmem ds[l]).1 (List.getElem_mem h1)
    rw [hF _ f (List.getElem_mem h1) hf hef, Construct.facetNo_eq (Construct.local_number h hr he hds (List.getElem?_eq_getElem h1) hf)]
  rw [hl, List.sum_ofFn]

theorem normal_value (hD : D = 1 ∨ D = 2) (hs : StraightDomain d) (hm : Spec.Mesh P (D + 1) elems) {e f : List ℕ} (he : InElems P elems e) (hf : IsFacet e f) (i : Fin (D + 1))
    (q : Fin o.fctRule.points.length) : (geometryOf o d).normal f e i q = Curvilinear.normal (facetNo D e f) (edgeMatrix (d.corners e)) i := by
  have h3 := ((Construct.geometry_affine (o := o) hD hs hm he).2.2 f hf).2.1 i q
  obtain ⟨s, hs', hes⟩ := he
  have hl := Curvilinear.localFace_spec hD e f (hm.size s hs' e hes) (hm.sorted s hs' e hes) hf
  rw [h3, Construct.facetNo_localFace e f hl.1]
  rfl

/-! ## Values, fluxes and volume integrals of Poisson's equation -/

open MvPolynomial in
theorem trace_value {B : Fin Nbf → MvPolynomial (Fin (D + 1)) ℝ} (E : Fin Nbf → Fin nq → ℝ) (q : Fin nq) (ξ : Fin (D + 1) → ℝ) (hE : ∀ l, E l q = eval ξ (B l))
    (x : Fin Nbf → ℝ) (v : ℝ) (hx : ∑ l, x l * eval ξ (B l) = v) : Poisson.trace E x q = v := by
  rw [← hx]
  exact sum_congr rfl fun l _ => by rw [hE, mul_comm]

open MvPolynomial in
theorem flux_value {Nbm : ℕ} {B : Fin Nbf → MvPolynomial (Fin (D + 1)) ℝ} (verts : Fin (D + 2) → Fin (D + 1) → ℝ) (hdet : (edgeMatrix verts).det ≠ 0)
    (x : Fin Nbf → ℝ) (U : MvPolynomial (Fin (D + 1)) ℝ) (hx : ∀ ξ, ∑ l, x l * eval ξ (B l) = eval (refToGeneral verts ξ) U)
    (c : ℝ) (matE : Fin nq → Fin Nbm → ℝ) (JI : Fin (D + 1) → Fin (D + 1) → Fin nq → ℝ) (Dxi : Fin Nbf → Fin (D + 1) → Fin nq → ℝ) (n : Fin (D + 1) → Fin nq → ℝ)
    (q : Fin nq) (ξ : Fin (D + 1) → ℝ) (h1 : ∑ t, matE q t = 1) (hJ : ∀ i j, JI i j q = (edgeMatrix verts)⁻¹ i j)
    (hDxi : ∀ l e, Dxi l e q = eval ξ (pderiv e (B l))) :
    Poisson.fluxOf n (Poisson.kKDxq (fun _ => c) matE JI Dxi) x q = poissonFlux c U (fun i => n i q) (refToGeneral verts ξ) := by
  have hK : ∀ l i, Poisson.kKDxq (fun _ => c) matE JI Dxi l i q = c * ∑ j, (edgeMatrix verts)⁻¹ j i * eval ξ (pderiv j (B l)) := fun l i => by
    unfold Poisson.kKDxq
    rw [sum_comm]
    rw [mul_sum]
    refine sum_congr rfl fun j _ => ?_
    rw [hJ, hDxi, ← sum_mul, ← sum_mul, ← mul_sum, h1]
    ring
  rw [Poisson.flux_swap]
  unfold poissonFlux
  refine sum_congr rfl fun i _ => ?_
  rw [← grad_rep verts hdet x U hx ξ i]
  simp only [hK]
  congr 1
  rw [mul_sum]
  exact sum_congr rfl fun l _ => by ring

open MvPolynomial in
theorem volume_value {Nbm : ℕ} {B : Fin Nbf → MvPolynomial (Fin (D + 1)) ℝ} (verts : Fin (D + 2) → Fin (D + 1) → ℝ) (hdet : (edgeMatrix verts).det ≠ 0)
    (x : Fin Nbf → ℝ) (U : MvPolynomial (Fin (D + 1)) ℝ) (hx : ∀ ξ, ∑ l, x l * eval ξ (B l) = eval (refToGeneral verts ξ) U)
    (c : ℝ) (J W : Fin Nq → ℝ) (matE : Fin Nq → Fin Nbm → ℝ) (G : Fin (D + 1) → Fin (D + 1) → Fin Nq → ℝ) (Dxi : Fin Nbf → Fin (D + 1) → Fin Nq → ℝ)
    (xi : Fin Nq → Fin (D + 1) → ℝ) (h1 : ∀ q, ∑ t, matE q t = 1) (hJ : ∀ q, J q = |(edgeMatrix verts).det|) (hG : ∀ i j q, G i j q = (edgeMatrix verts)⁻¹ i j)
    (hDxi : ∀ l e q, Dxi l e q = eval (xi q) (pderiv e (B l))) (k : Fin Nbf) :
    Poisson.mulVec (Poisson.kAssembleVolume J W (fun _ => c) matE (Poisson.kDxQ G Dxi)) x k =
      ∑ q, W q * (|(edgeMatrix verts).det| * ∑ i, (∑ j, (edgeMatrix verts)⁻¹ j i * Dxi k j q) * eval (refToGeneral verts (xi q)) (C c * pderiv i U)) := by
  have hg : ∀ q i, ∑ l, Poisson.kDxQ G Dxi l i q * x l = eval (refToGeneral verts (xi q)) (pderiv i U) := fun q i => by
    rw [← grad_rep verts hdet x U hx (xi q) i]
    refine sum_congr rfl fun l _ => ?_
    unfold Poisson.kDxQ
    congr 1
    exact sum_congr rfl fun j _ => by rw [hG, hDxi]
  have hk : ∀ q i, ∑ j, (edgeMatrix verts)⁻¹ j i * Dxi k j q = Poisson.kDxQ G Dxi k i q := fun q i => sum_congr rfl fun j _ => by rw [hG]
  simp only [hk]
  unfold Poisson.mulVec Poisson.kAssembleVolume
  simp only [sum_mul]
  rw [sum_comm]
  refine sum_congr rfl fun q _ => ?_
  have hm : ∀ l, ∑ m, ∑ i, J q * W q * c * matE q m * Poisson.kDxQ G Dxi k i q * Poisson.kDxQ G Dxi l i q * x l =
      ∑ i, J q * W q * c * Poisson.kDxQ G Dxi k i q * (Poisson.kDxQ G Dxi l i q * x l) := fun l => by
    rw [sum_comm]
    refine sum_congr rfl fun i _ => ?_
    calc _ = (∑ m, matE q m) * (J q * W q * c * Poisson.kDxQ G Dxi k i q * Poisson.kDxQ G Dxi l i q * x l) := by
          rw [sum_mul]; exact sum_congr rfl fun m _ => by ring
      _ = _ := by rw [h1]; ring
  simp only [hm]
  rw [sum_comm]
  simp only [← mul_sum, hg]
  simp only [map_mul, eval_C, hJ, mul_sum]
  exact sum_congr rfl fun i _ => by ring

/-! ## Elasticity -/

open MvPolynomial in
theorem eval_stress {n : ℕ} (lam mu : ℝ) (U : Fin n → MvPolynomial (Fin n) ℝ) (p i : Fin n) (y : Fin n → ℝ) :
    eval y (stress lam mu U p i) = (if p = i then lam * ∑ j, eval y (pderiv j (U j)) else 0) + mu * (eval y (pderiv i (U p)) + eval y (pderiv p (U i))) := by
  unfold stress
  split <;> simp

open MvPolynomial in
theorem stress_degree {n N : ℕ} (lam mu : ℝ) (U : Fin n → MvPolynomial (Fin n) ℝ) (h : ∀ p, (U p).totalDegree ≤ N) (p i : Fin n) :
    (stress lam mu U p i).totalDegree ≤ N := by
  have hd : ∀ p i, (pderiv i (U p)).totalDegree ≤ N := fun p i => (CurvilinearBuild.pderiv_degree _ _).trans (by have := h p; omega)
  have hc : ∀ c (V : MvPolynomial (Fin n) ℝ), V.totalDegree ≤ N → (C c * V).totalDegree ≤ N := fun c V hV => by
    refine (totalDegree_mul _ _).trans ?_
    rw [totalDegree_C, zero_add]; exact hV
  unfold stress
  refine (totalDegree_add _ _).trans (max_le ?_ (hc _ _ ((totalDegree_add _ _).trans (max_le (hd _ _) (hd _ _)))))
  split
  · exact hc _ _ ((totalDegree_finset_sum _ _).trans (Finset.sup_le fun j _ => hd _ _))
  · simp

open MvPolynomial in
theorem elastic_grad {n : ℕ} {B : Fin Nbf → MvPolynomial (Fin (D + 1)) ℝ} (verts : Fin (D + 2) → Fin (D + 1) → ℝ) (hdet : (edgeMatrix verts).det ≠ 0)
    (x : Fin Nbf → Fin (D + 1) → ℝ) (U : Fin (D + 1) → MvPolynomial (Fin (D + 1)) ℝ) (hx : ∀ p ξ, ∑ l, x l p * eval ξ (B l) = eval (refToGeneral verts ξ) (U p))
    (JI : Fin (D + 1) → Fin (D + 1) → Fin n → ℝ) (Dxi : Fin Nbf → Fin (D + 1) → Fin n → ℝ) (q : Fin n) (ξ : Fin (D + 1) → ℝ)
    (hJ : ∀ i j, JI i j q = (edgeMatrix verts)⁻¹ i j) (hDxi : ∀ l e, Dxi l e q = eval ξ (pderiv e (B l))) (r s : Fin (D + 1)) :
    Elasticity.grad (Elasticity.kDx JI Dxi) x r s q = eval (refToGeneral verts ξ) (pderiv s (U r)) := by
  rw [← grad_rep verts hdet (fun l => x l r) (U r) (hx r) ξ s]
  refine sum_congr rfl fun l _ => ?_
  unfold Elasticity.kDx
  congr 1
  exact sum_congr rfl fun j _ => by rw [hJ, hDxi]

open MvPolynomial in
theorem traction_value {Nbm : ℕ} {B : Fin Nbf → MvPolynomial (Fin (D + 1)) ℝ} (verts : Fin (D + 2) → Fin (D + 1) → ℝ) (hdet : (edgeMatrix verts).det ≠ 0)
    (x : Fin Nbf → Fin (D + 1) → ℝ) (U : Fin (D + 1) → MvPolynomial (Fin (D + 1)) ℝ) (hx : ∀ p ξ, ∑ l, x l p * eval ξ (B l) = eval (refToGeneral verts ξ) (U p))
    (lam mu : ℝ) (matE : Fin nq → Fin Nbm → ℝ) (JI : Fin (D + 1) → Fin (D + 1) → Fin nq → ℝ) (Dxi : Fin Nbf → Fin (D + 1) → Fin nq → ℝ) (n : Fin (D + 1) → Fin nq → ℝ)
    (q : Fin nq) (ξ : Fin (D + 1) → ℝ) (h1 : ∑ t, matE q t = 1) (hJ : ∀ i j, JI i j q = (edgeMatrix verts)⁻¹ i j)
    (hDxi : ∀ l e, Dxi l e q = eval ξ (pderiv e (B l))) (p : Fin (D + 1)) :
    Elasticity.trac (Elasticity.kCoefq matE fun _ => lam) (Elasticity.kCoefq matE fun _ => mu) (Elasticity.kDx JI Dxi) n x p q =
      elasticTraction lam mu U (fun i => n i q) p (refToGeneral verts ξ) := by
  unfold Elasticity.trac elasticTraction
  rw [Construct.kCoefq_const _ _ _ h1, Construct.kCoefq_const _ _ _ h1]
  simp only [elastic_grad verts hdet x U hx JI Dxi q ξ hJ hDxi, eval_stress, mul_add, sum_add_distrib, mul_ite, mul_zero, sum_ite_eq, mem_univ, if_true, add_mul, mul_sum, sum_mul]
  congr 1
  · exact sum_congr rfl fun i _ => by ring
  · congr 1 <;> exact sum_congr rfl fun i _ => by ring

open MvPolynomial in
theorem elastic_volume_value {Nbm : ℕ} {B : Fin Nbf → MvPolynomial (Fin (D + 1)) ℝ} (verts : Fin (D + 2) → Fin (D + 1) → ℝ) (hdet : (edgeMatrix verts).det ≠ 0)
    (x : Fin Nbf → Fin (D + 1) → ℝ) (U : Fin (D + 1) → MvPolynomial (Fin (D + 1)) ℝ) (hx : ∀ p ξ, ∑ l, x l p * eval ξ (B l) = eval (refToGeneral verts ξ) (U p))
    (lam mu : ℝ) (J W : Fin Nq → ℝ) (matE : Fin Nq → Fin Nbm → ℝ) (G : Fin (D + 1) → Fin (D + 1) → Fin Nq → ℝ) (Dxi : Fin Nbf → Fin (D + 1) → Fin Nq → ℝ)
    (xi : Fin Nq → Fin (D + 1) → ℝ) (h1 : ∀ q, ∑ t, matE q t = 1) (hJ : ∀ q, J q = |(edgeMatrix verts).det|) (hG : ∀ i j q, G i j q = (edgeMatrix verts)⁻¹ i j)
    (hDxi : ∀ l e q, Dxi l e q = eval (xi q) (pderiv e (B l))) (k : Fin Nbf) (p : Fin (D + 1)) :
    Elasticity.mulVec (Elasticity.kAssembleVolume (Elasticity.kWJQ matE (fun _ => lam) W J) (Elasticity.kWJQ matE (fun _ => mu) W J) (Elasticity.kDx G Dxi)) x k p =
      ∑ q, W q * (|(edgeMatrix verts).det| * ∑ i, (∑ j, (edgeMatrix verts)⁻¹ j i * Dxi k j q) * eval (refToGeneral verts (xi q)) (stress lam mu U p i)) := by
  have hk : ∀ q i, ∑ j, (edgeMatrix verts)⁻¹ j i * Dxi k j q = Elasticity.kDx G Dxi k i q := fun q i => sum_congr rfl fun j _ => by rw [hG]
  have hw : ∀ c q, Elasticity.kWJQ matE (fun _ => c) W J q = c * (W q * |(edgeMatrix verts).det|) := fun c q => by
    unfold Elasticity.kWJQ
    rw [← hJ q]
    calc _ = (∑ t, matE q t) * (c * W q * J q) := by rw [sum_mul]; exact sum_congr rfl fun t _ => by ring
      _ = _ := by rw [h1]; ring
  rw [Elasticity.volume_mul]
  refine sum_congr rfl fun q _ => ?_
  simp only [hk, hw, elastic_grad verts hdet x U hx G Dxi q (xi q) (fun i j => hG i j q) (fun l e => hDxi l e q), eval_stress, mul_add, sum_add_distrib,
    mul_ite, mul_zero, sum_ite_eq, mem_univ, if_true, add_mul, mul_sum, sum_mul]
  congr 1
  · exact sum_congr rfl fun i _ => by ring
  · congr 1 <;> exact sum_congr rfl fun i _ => by ring

end Tandem.PatchTest
