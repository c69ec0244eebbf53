import Verif.Props.Construct
import Verif.Props.CurvilinearMesh
import Verif.Props.GeometryData
/-! # Property C99: the constructors on straight meshes -/
namespace Tandem.Construct
open RefElement Error CurvilinearBuild Finset Spec
open Tandem.DGTopo (View FacetInfo facetInfo)
open Tandem.Poisson (Measures)

variable {D P : ℕ} {elems : ℕ → List (List ℕ)} {num fnum tag : List ℕ → ℕ} {views : ℕ → View}
variable {o : Options D} {d : Domain (D + 1)} {b : ℕ → Built (D + 1)}

/-- The Jacobian is the matrix of the edges. -/
theorem jacobian_alone (hD : D = 1 ∨ D = 2) (hs : StraightDomain d) (e : List ℕ) (points : List (Fin (D + 1) → ℝ)) (q : ℕ) (hq : q < points.length) :
    jacobian (d.alone e).geo 0 (geoGrad (d.alone e).geo points) q = Curvilinear.edgeMatrix (d.corners e) := by
  have hgeo : (d.alone e).geo = ⟨d.degree, d.refNodes, position d.transform d.refNodes (fun u => d.corners ([e].getD u [])) none⟩ := by
    unfold Domain.alone Domain.built build Domain.mesh
    simp only [hs.curved, Option.map_none, Option.getD_some]
  have := jacobian_eq (d.alone e).geo (by omega) (by rw [hgeo]; exact hs.length) (by rw [hgeo]; exact hs.nodes) points 0 q hq
    (Curvilinear.refToGeneral (d.corners e)) (fun _ => Curvilinear.edgeMatrix (d.corners e)) ?_
  · exact this
  · rw [hgeo]
    intro i
    refine ⟨⟨isPoly_mono _ 1 _ hs.degree _ (isPoly_refToGeneral _ i), fun k hk => ?_⟩, fun ξ => gradient_affine _ i ξ⟩
    unfold position
    simp only [hs.transform, id]
    have : d.refNodes.getD k 0 = d.refNodes[k] := by
      rw [List.getD_eq_getElem?_getD, List.getElem?_eq_getElem hk]; rfl
    rw [this]; rfl

theorem facetNo_localFace (e f : List ℕ) (h : Curvilinear.localFace D e f < D + 2) : facetNo D e f = Fin.ofNat (D + 2) (Curvilinear.localFace D e f) := by
  unfold facetNo Curvilinear.localFace at *
  rw [dif_pos h]
  exact Fin.ext (Nat.mod_eq_of_lt h).symm

/-- On straight elements the geometry is that of the vertices. -/
theorem geometry_affine (hD : D = 1 ∨ D = 2) (hs : StraightDomain d) (hm : Spec.Mesh P (D + 1) elems) {e : List ℕ} (he : InElems P elems e) :
    (∀ q, (geometryOf o d).absDetJ e q = |(Curvilinear.edgeMatrix (d.corners e)).det|) ∧
    (∀ i j q, (geometryOf o d).jInv e i j q = (Curvilinear.edgeMatrix (d.corners e))⁻¹ i j) ∧
    ∀ f, IsFacet e f → (∀ i j q, (geometryOf o d).jInvFacet f e i j q = (Curvilinear.edgeMatrix (d.corners e))⁻¹ i j) ∧
      (∀ i q, (geometryOf o d).normal f e i q = (Curvilinear.affineGeometry d.x o.volRule.points.length o.fctRule.points.length).normal f e i q) ∧
      (geometryOf o d).localNo e f = facetNo D e f := by
  obtain ⟨s, hs', hes⟩ := he
  have hsz := hm.size s hs' e hes
  have hso := hm.sorted s hs' e hes
  refine ⟨fun q => ?_, fun i j q => ?_, fun f hf => ?_⟩
  · change |(jacobian (d.alone e).geo 0 (geoGrad (d.alone e).geo o.volRule.points) q).det| = _
    rw [jacobian_alone hD hs e _ _ q.2]
  · change (jacobian (d.alone e).geo 0 (geoGrad (d.alone e).geo o.volRule.points) q)⁻¹ i j = _
    rw [jacobian_alone hD hs e _ _ q.2]
  · have hl := Curvilinear.localFace_spec hD e f hsz hso hf
    refine ⟨fun i j q => ?_, fun i q => ?_, ?_⟩
    · change (jacobian (d.alone e).geo 0 (geoGrad (d.alone e).geo (o.fctRule.points.map _)) q)⁻¹ i j = _
      rw [jacobian_alone hD hs e _ _ (by simp)]
    · change Curvilinear.normal (facetNo D e f) (jacobian (d.alone e).geo 0 (geoGrad (d.alone e).geo (o.fctRule.points.map _)) q) i = _
      rw [jacobian_alone hD hs e _ _ (by simp), facetNo_localFace e f hl.1]
      rfl
    · change Curvilinear.localFace D e f = _
      rw [facetNo_localFace e f hl.1]
      exact (Nat.mod_eq_of_lt hl.1).symm

/-- Normals of the two sides of a facet are opposite. -/
theorem opposite_straight (hD : D = 1 ∨ D = 2) (hs : StraightDomain d) (hm : Spec.Mesh P (D + 1) elems) (hv : Curvilinear.Valid P elems d.x) :
    (geometryOf o d).Opposite P elems := by
  intro f e e' he he' hne hf hf'
  have := Curvilinear.C58_mesh_opposite hD P elems hm d.x hv o.volRule.points.length o.fctRule.points.length f e e' he he' hne hf hf'
  funext i q
  rw [((geometry_affine (o := o) hD hs hm he').2.2 f hf').2.1 i q, ((geometry_affine (o := o) hD hs hm he).2.2 f hf).2.1 i q, this]

theorem affine_elements (hD : D = 1 ∨ D = 2) (hs : StraightDomain d) (hm : Spec.Mesh P (D + 1) elems) (hv : Curvilinear.Valid P elems d.x) :
    AffineElements P elems (geometryOf o d) where
  map e he := by
    obtain ⟨h1, h2, h3⟩ := geometry_affine (o := o) hD hs hm he
    refine ⟨Curvilinear.edgeMatrix (d.corners e), hv.volume e he, h1, h2, fun f hf => ⟨(h3 f hf).1, facetNo D e f, (h3 f hf).2.2, 1, by simp, fun r q => ?_⟩⟩
    obtain ⟨s, hs', hes⟩ := he
    have hl := Curvilinear.localFace_spec hD e f (hm.size s hs' e hes) (hm.sorted s hs' e hes) hf
    rw [(h3 f hf).2.1, one_mul, facetNo_localFace e f hl.1]
    rfl
  localNo e f f' he hf hf' h := by
    obtain ⟨s, hs', hes⟩ := he
    have hfs := Ghosts.facets_spec (D + 1) (by omega) e (hm.size s hs' e hes) (hm.sorted s hs' e hes)
    change (Ghosts.facets (D + 1) e).idxOf f = (Ghosts.facets (D + 1) e).idxOf f' at h
    exact (List.idxOf_inj ((hfs.2 f).2 hf)).1 h

/-! ## Tables of the reference element -/

theorem _root_.Tandem.Spec.GoodOptions.unit (hD : D = 1 ∨ D = 2) (ho : GoodOptions o) : IsUnit (vandermonde o.p o.nodes).det :=
  (C78_unisolvent _ _ (by omega) _ ho.length).2 ho.nodes

theorem quad_fin {n N : ℕ} (rule : Rule n) (h : ExactQuadrature n N rule.points rule.weights) (f : (Fin n → ℝ) → ℝ) (hf : IsPoly n N f) :
    ∑ q : Fin rule.points.length, rule.weights.getD q 0 * f rule.points[q] = simplexIntegral n f := by
  rw [← h.2 f hf, quad_sum _ _ h.1, range_fin]
  exact sum_congr rfl fun q _ => by rw [List.getD_eq_getElem _ _ q.2]; rfl

theorem basisTables_of (hD : D = 1 ∨ D = 2) (ho : GoodOptions o) {n : ℕ} (phi : Fin n → (Fin (D + 1) → ℝ) → ℝ) (hphi : ∀ k, IsPoly (D + 1) o.p (phi k))
    (E : List (Fin (D + 1) → ℝ) → Fin n → ℕ → ℝ) (hE : ∀ points k (q : ℕ) (hq : q < points.length), E points k q = phi k points[q])
    (G : List (Fin (D + 1) → ℝ) → Fin n → Fin (D + 1) → ℕ → ℝ)
    (hG : ∀ points k (q : ℕ) (hq : q < points.length), IsGradient (phi k) (fun e => G points k e q) points[q]) :
    BasisTables D (o.p - 1) (fun q : Fin o.volRule.points.length => o.volRule.weights.getD q 0) (fun q : Fin o.fctRule.points.length => o.fctRule.weights.getD q 0)
      (fun k q => E o.volRule.points k q) (fun l k q => E (facetPoints o l) k q)
      (fun k e q => G o.volRule.points k e q) (fun l k e q => G (facetPoints o l) k e q) := by
  have hp : o.p - 1 + 1 = o.p := Nat.sub_add_cancel ho.degree
  have hfl : ∀ (l : Fin (D + 2)), facetPoints o l = o.fctRule.points.map (Curvilinear.facetParam l) := fun l => by
    unfold facetPoints; rw [dif_pos l.2]
  have hgr : ∀ k x, IsGradient (phi k) (fun e => G [x] k e 0) x := fun k x => hG [x] k 0 (by simp)
  have hgt : ∀ points k e (q : ℕ) (hq : q < points.length), G points k e q = G [points[q]] k e 0 := fun points k e q hq =>
    congrFun (gradient_unique _ _ _ _ (hG points k q hq) (hgr k points[q])) e
  refine ⟨fun q => o.volRule.points[q], fun q => o.fctRule.points[q], phi, fun k x e => G [x] k e 0, ?_, ?_, ?_, hgr, ?_, ?_, ?_, ?_⟩
  · rw [hp]; exact fun f hf => quad_fin _ ho.vol f hf
  · rw [hp]; exact fun f hf => quad_fin _ ho.fct f hf
  · rw [hp]; exact hphi
  · exact fun k q => hE _ k q q.2
  · intro l k q
    beta_reduce
    rw [hE (facetPoints o l) k q (by rw [hfl]; simp)]
    simp only [hfl, List.getElem_map]; rfl
  · exact fun k e q => hgt _ k e q q.2
  · intro l k e q
    beta_reduce
    rw [hgt (facetPoints o l) k e q (by rw [hfl]; simp)]
    simp only [hfl, List.getElem_map]; rfl

theorem poisson_tables (hD : D = 1 ∨ D = 2) (ho : GoodOptions o) :
    BasisTables D (o.p - 1) (poissonRef o).W (poissonRef o).w (poissonRef o).E_Q (poissonRef o).E_q (poissonRef o).Dxi_Q (poissonRef o).Dxi_q :=
  basisTables_of hD ho (fun k : Fin (nbf (D + 1) o.p) => modalFunction (D + 1) o.p k) (C78_modal_basis (D + 1) o.p (by omega)).1
    (fun points k q => (modalBasis o.p points 1).val ![k.val, q])
    (fun points k q hq => by
      have := (C78_evaluation o.p [] points 1 k q hq).1
      rw [permute2] at this
      exact this)
    (fun points k e q => (modalGradient o.p points 1).val ![k.val, e.val, q])
    (fun points k q hq => by
      have := (C78_gradient (D + 1) o.p (by omega) [] points 1 k q hq).1
      simp only [permute3] at this
      exact this)

theorem elasticity_tables (hD : D = 1 ∨ D = 2) (ho : GoodOptions o) :
    BasisTables D (o.p - 1) (elasticityRef o).W (elasticityRef o).w (elasticityRef o).E_Q (elasticityRef o).E_q (elasticityRef o).Dxi_Q (elasticityRef o).Dxi_q :=
  basisTables_of hD ho (fun k : Fin (nbf (D + 1) o.p) => nodalFunction o.p o.nodes k) (fun k => (C78_lagrange _ _ (by omega) _ ho.length (ho.unit hD) k).1)
    (fun points k q => (nodalBasis o.p o.nodes points 1).val ![k.val, q]) (fun points k q hq => basis_col _ _ _ _ _ hq)
    (fun points k e q => (nodalGradient o.p o.nodes points 1).val ![k.val, e.val, q]) (fun points k q hq => grad_perm1 _ (by omega) _ _ _ _ hq)

/-- The stored inverse mass matrix of the reference element inverts the mass matrix of the quadrature. -/
theorem elasticity_inverse (hD : D = 1 ∨ D = 2) (ho : GoodOptions o) :
    IsInverse (elasticityRef o).MinvRef (massWith (elasticityRef o).E_Q (elasticityRef o).W (fun _ => 1)) := by
  have hD' : D + 1 = 1 ∨ D + 1 = 2 ∨ D + 1 = 3 := by omega
  have hl := fun k => (C78_lagrange _ _ (by omega) _ ho.length (ho.unit hD) k).1
  have hmass : ∀ k l, massWith (elasticityRef o).E_Q (elasticityRef o).W (fun _ => 1) k l = nodalMass o.p o.nodes o.massRule k l := by
    intro k l
    rw [C82_nodal _ _ hD' _ ho.mass, quad_prod _ ho.vol _ _ (hl k) (hl l), range_fin]
    refine sum_congr rfl fun q _ => ?_
    change (nodalBasis o.p o.nodes o.volRule.points 1).val ![k.val, q.val] * (o.volRule.weights.getD q.val 0 * 1) *
      (nodalBasis o.p o.nodes o.volRule.points 1).val ![l.val, q.val] = _
    rw [basis_col _ _ _ _ _ q.2, basis_col _ _ _ _ _ q.2, List.getD_eq_getElem _ _ q.2]
    ring
  have hinv := (C82_nodal_inverse _ _ hD' _ ho.mass _ (ho.unit hD)).1
  intro k l
  simp only [hmass]
  have := congrFun (congrFun hinv k) l
  rw [Matrix.mul_apply, Matrix.one_apply] at this
  exact this

/-- A table of the material functions sums up to one at every point. -/
theorem unity_volume (hD : D = 1 ∨ D = 2) (ho : GoodOptions o) (q : Fin o.volRule.points.length) :
    ∑ t, Material.matE o.p o.nodes o.volRule.points q t = 1 := by
  simp only [Material.matE_eq]
  exact C78_partition_of_unity _ _ (by omega) _ ho.length (ho.unit hD) _

theorem unity_facet (hD : D = 1 ∨ D = 2) (ho : GoodOptions o) (l : ℕ) (hl : l < D + 2) (q : Fin o.fctRule.points.length) :
    ∑ t, facetMatE o l q t = 1 := by
  have hlen : q.val < (facetPoints o l).length := by unfold facetPoints; rw [dif_pos hl]; simp
  have : ∀ t, facetMatE o l q t = nodalFunction o.p o.nodes t (facetPoints o l)[q.val] := fun t =>
    Material.matE_eq o.p o.nodes (facetPoints o l) ⟨q, hlen⟩ t
  simp only [this]
  exact C78_partition_of_unity _ _ (by omega) _ ho.length (ho.unit hD) _

/-! ## Material that is constant on each region -/

theorem regular_alone (hD : D = 1 ∨ D = 2) (hs : StraightDomain d) (ho : GoodOptions o) (e : List ℕ)
    (hdet : (Curvilinear.edgeMatrix (d.corners e)).det ≠ 0) : Material.Regular o.p (d.alone e) o.volRule o.nodes 0 :=
  ⟨ho.vol, fun q hq => ho.volPos _ (by rw [List.getD_eq_getElem _ _ (by rw [← ho.vol.1]; exact hq)]; exact List.getElem_mem _), ho.length, ho.unit hD,
    fun q hq => by rw [jacobian_alone hD hs e _ _ hq]; exact hdet⟩

theorem region_alone (hs : StraightDomain d) (e : List ℕ) : getVolumeTag (d.alone e) 0 = some (d.region e) := by
  unfold Domain.alone Domain.built build Domain.mesh
  simp only [hs.curved, Option.map_none, Option.getD_some]
  rfl

theorem constant_coefficients (hD : D = 1 ∨ D = 2) (hs : StraightDomain d) (ho : GoodOptions o) (e : List ℕ)
    (hdet : (Curvilinear.edgeMatrix (d.corners e)).det ≠ 0) (post : ℝ → ℝ) (K : (Fin (D + 1) → ℝ) → ℤ → Fin 1 → ℝ) (k : ℤ → ℝ)
    (hK : ∀ x t, post (K x t 0) = k t) :
    Material.coefficients (d.alone e) o.volRule o.p o.nodes post K 0 = some fun _ => k (d.region e) := by
  have hr := regular_alone hD hs ho e hdet
  have := Material.C98_reproduces (by omega) o.p (d.alone e) o.volRule o.nodes 0 hr (fun x t i => post (K x t i)) (d.region e) (region_alone hs e)
    (fun _ => k (d.region e)) (isPoly_const _ _ _) (fun q => hK _ _)
  unfold Material.poisson at this
  rw [Material.coefficients_eq _ _ _ _ _ _ _ _ (region_alone hs e)] at this ⊢
  exact this

end Tandem.Construct
