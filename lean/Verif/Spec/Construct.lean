import Verif.Model.Construct
import Verif.Spec.DGAssembly
import Verif.Spec.CurvilinearBuild
import Verif.Spec.RefElement
/-! # Specification of the data of the operators by element, independent of the distribution (C99) -/
namespace Tandem.Spec
open CurvilinearBuild RefElement
open Tandem.DGTopo (View)

/-- The domain: coordinates of the vertices, region of each element, for curved meshes the further nodes of each element, the
transformation of the domain, and degree and nodes of the elements of the geometry.  Elements are lists of vertices. -/
structure Domain (D : ℕ) where
  x : ℕ → Fin D → ℝ
  region : List ℕ → ℤ
  curved : Option (Equidistant.Convention × ℕ × (List ℕ → ℕ → Fin D → ℝ))
  transform : (Fin D → ℝ) → Fin D → ℝ
  degree : ℕ
  refNodes : List (Fin D → ℝ)

/-- Corners of an element. -/
def Domain.corners {D : ℕ} (d : Domain D) (e : List ℕ) : Fin (D + 1) → Fin D → ℝ := fun i => d.x (e.getD i 0)

/-- The mesh with the elements `es`. -/
def Domain.mesh {D : ℕ} (d : Domain D) (es : List (List ℕ)) : MeshIn D where
  numElements := es.length
  verts := some fun u => d.corners (es.getD u [])
  tags := some (es.map d.region)
  elementData := d.curved.map fun c => ⟨c.1, c.2.1, fun u => c.2.2 (es.getD u [])⟩

/-- The geometry of the mesh with the elements `es`. -/
noncomputable def Domain.built {D : ℕ} (d : Domain D) (es : List (List ℕ)) : Option (Built D) :=
  build (d.mesh es) d.transform d.degree d.refNodes

/-- The geometry of a mesh that consists of one element. -/
noncomputable def Domain.alone {D : ℕ} (d : Domain D) (e : List ℕ) : Built D :=
  (d.built [e]).getD ⟨⟨d.degree, d.refNodes, fun _ _ => 0⟩, [], 0⟩

/-- The local number of facet `f` in element `e`. -/
def facetNo (D : ℕ) (e f : List ℕ) : Fin (D + 2) :=
  if h : (Ghosts.facets (D + 1) e).idxOf f < D + 2 then ⟨_, h⟩ else 0

/-- Facet data of an element, computed from this element alone. -/
noncomputable def facetData {D : ℕ} (o : Construct.Options D) (d : Domain (D + 1)) (f e : List ℕ) : FctData (D + 1) :=
  prepareFacet (d.alone e).geo o.fctRule ⟨fun _ => 0, fun _ => facetNo D e f⟩

/-- Data of an element, computed from this element alone. -/
noncomputable def elementData {D : ℕ} (o : Construct.Options D) (d : Domain (D + 1)) (e : List ℕ) : VolData (D + 1) :=
  prepareVolume (d.alone e).geo o.volRule 0

/-- The geometry at the points, element by element. -/
noncomputable def geometryOf {D : ℕ} (o : Construct.Options D) (d : Domain (D + 1)) :
    Geometry (D + 1) o.volRule.points.length o.fctRule.points.length where
  absDetJ e q := (elementData o d e).absDetJ q
  jInv e i j q := (elementData o d e).jInv q i j
  jInvFacet f e i j q := (facetData o d f e).jInv0 q i j
  normal f e i q := (facetData o d f e).normal q i
  localNo e f := (Ghosts.facets (D + 1) e).idxOf f

/-- The material coefficients of Poisson's equation, element by element. -/
noncomputable def poissonMaterial {D : ℕ} (o : Construct.Options D) (d : Domain (D + 1)) (K : (Fin (D + 1) → ℝ) → ℤ → Fin 1 → ℝ) (e : List ℕ) :
    Fin (nbf (D + 1) o.p) → ℝ := (Material.poisson (d.alone e) o.volRule o.p o.nodes K 0).getD 0

/-- The material coefficients of elasticity (`lam`, `mu`, `1 / rho`), element by element. -/
noncomputable def elasticMaterial {D : ℕ} (o : Construct.Options D) (d : Domain (D + 1)) (lam mu : (Fin (D + 1) → ℝ) → ℤ → Fin 1 → ℝ)
    (rho : Option ((Fin (D + 1) → ℝ) → ℤ → Fin 1 → ℝ)) (e : List ℕ) :
    (Fin (nbf (D + 1) o.p) → ℝ) × (Fin (nbf (D + 1) o.p) → ℝ) × (Fin (nbf (D + 1) o.p) → ℝ) :=
  (Material.elasticity (d.alone e) o.volRule o.p o.nodes lam mu rho 0).getD 0

/-- The view lists the facets of an element in the order of the code. -/
def FacetOrder (D : ℕ) (v : View) : Prop :=
  ∀ (u : ℕ) (e ds : List ℕ), v.elems[u]? = some e → v.down[u]? = some ds → ds.map (fun i => v.facets[i]?) = (Ghosts.facets D e).map some

open Classical in
/-- The area of a facet of the mesh with the set `S` of elements, computed from one of its elements. -/
noncomputable def areaOf {D : ℕ} (o : Construct.Options D) (d : Domain (D + 1)) (S : Set (List ℕ)) (f : List ℕ) : ℝ :=
  if h : ∃ e, e ∈ S ∧ IsFacet e f then (facetData o d f h.choose).area else 0

/-- Volume of an element. -/
noncomputable def volumeOf {D : ℕ} (o : Construct.Options D) (d : Domain (D + 1)) (e : List ℕ) : ℝ := (elementData o d e).volume

open Classical in
/-- The penalty of a facet from the contributions of its elements: the contribution of the only element on the boundary, a quarter
of the sum of the contributions inside. -/
noncomputable def facetPenalty (S : Set (List ℕ)) (side : List ℕ → ℝ) (f : List ℕ) : ℝ :=
  (if {e | e ∈ S ∧ IsFacet e f}.ncard = 1 then 1 else 1 / 4) * ∑ᶠ e ∈ {e | e ∈ S ∧ IsFacet e f}, side e

/-- The penalty of Poisson's equation: an element contributes `(dim + 1) C area / volume k₁² / k₀` with the greatest and least
coefficient `k₁` and `k₀` and the constant `C` of the trace inequality for the gradients. -/
noncomputable def poissonPenalty {D : ℕ} (o : Construct.Options D) (d : Domain (D + 1)) (S : Set (List ℕ)) (K : List ℕ → Fin (nbf (D + 1) o.p) → ℝ) (f : List ℕ) : ℝ :=
  facetPenalty S (fun e => (((D + 1 : ℕ) : ℝ) + 1) * (Poisson.traceConstant (D + 1) (o.p - 1) * (areaOf o d S f / volumeOf o d e) *
    ((⨆ m, K e m) * (⨆ m, K e m) / ⨅ m, K e m))) f

/-- The penalty of elasticity, with the bounds `c₀`, `c₁` of the stiffness of the element in place of `k₀`, `k₁`. -/
noncomputable def elasticPenalty {D : ℕ} (o : Construct.Options D) (d : Domain (D + 1)) (S : Set (List ℕ)) (lam mu : List ℕ → Fin (nbf (D + 1) o.p) → ℝ) (f : List ℕ) : ℝ :=
  facetPenalty S (fun e => (((D + 1 : ℕ) : ℝ) + 1) * (Poisson.traceConstant (D + 1) (o.p - 1) * (areaOf o d S f / volumeOf o d e) *
    ((Elasticity.stiffnessBounds (D + 1) (lam e) (mu e)).2 * (Elasticity.stiffnessBounds (D + 1) (lam e) (mu e)).2 /
      (Elasticity.stiffnessBounds (D + 1) (lam e) (mu e)).1))) f

/-- The domain has straight elements, and the nodes of its elements determine polynomials. -/
structure StraightDomain {D : ℕ} (d : Domain (D + 1)) : Prop where
  curved : d.curved = none
  transform : d.transform = id
  degree : 1 ≤ d.degree
  length : d.refNodes.length = nbf (D + 1) d.degree
  nodes : Unisolvent (D + 1) d.degree d.refNodes

/-- The quadrature rules are exact to twice the degree and have positive (volume) and nonnegative (facet) weights, and the nodes
determine polynomials. -/
structure GoodOptions {D : ℕ} (o : Construct.Options D) : Prop where
  degree : 1 ≤ o.p
  vol : ExactQuadrature (D + 1) (2 * o.p) o.volRule.points o.volRule.weights
  fct : ExactQuadrature D (2 * o.p) o.fctRule.points o.fctRule.weights
  mass : ExactQuadrature (D + 1) (2 * o.p) o.massRule.points o.massRule.weights
  volPos : ∀ w ∈ o.volRule.weights, 0 < w
  fctPos : ∀ w ∈ o.fctRule.weights, 0 ≤ w
  length : o.nodes.length = nbf (D + 1) o.p
  nodes : Unisolvent (D + 1) o.p o.nodes

end Tandem.Spec
