import Verif.Props.CurvilinearBuild
import Verif.Lemmas.SimplexMoments
import Mathlib.Algebra.MvPolynomial.PDeriv
import Mathlib.LinearAlgebra.Matrix.Determinant.Basic
/-! # C89: geometric data of elements and facets, source and slip functions -/
namespace Tandem.CurvilinearBuild
open RefElement Error Finset Curvilinear

variable {D : ℕ}

/-! ## Derivatives of polynomials -/

theorem hasDerivAt_eval (p : MvPolynomial (Fin D) ℝ) (x : Fin D → ℝ) (d : Fin D) :
    HasDerivAt (fun t : ℝ => MvPolynomial.eval (fun e => x e + t * (Pi.single d 1 : Fin D → ℝ) e) p)
      (MvPolynomial.eval x (MvPolynomial.pderiv d p)) 0 := by
  induction p using MvPolynomial.induction_on with
  | C a => simpa using hasDerivAt_const (0:ℝ) a
  | add p q hp hq => simpa only [map_add] using hp.fun_add hq
  | mul_X p i hp =>
    have hx : HasDerivAt (fun t : ℝ => x i + t * (Pi.single d 1 : Fin D → ℝ) i) ((Pi.single d 1 : Fin D → ℝ) i) 0 := by
      simpa using ((hasDerivAt_id (0:ℝ)).mul_const ((Pi.single d 1 : Fin D → ℝ) i)).const_add (x i)
    have := hp.fun_mul hx
    simp only [map_mul, MvPolynomial.eval_X, Derivation.leibniz, map_add, smul_eq_mul]
    refine this.congr_deriv ?_
    rw [MvPolynomial.pderiv_X]
    simp only [zero_mul, add_zero]
    by_cases h : i = d
    · subst h; simp; ring
    · simp [Pi.single_apply, h, Ne.symm h]; ring

theorem pderiv_degree (p : MvPolynomial (Fin D) ℝ) (d : Fin D) :
    (MvPolynomial.pderiv d p).totalDegree ≤ p.totalDegree - 1 := by
  rw [MvPolynomial.as_sum p, map_sum]
  refine (MvPolynomial.totalDegree_finset_sum _ _).trans (Finset.sup_le fun m hm => ?_)
  rw [← MvPolynomial.as_sum p, MvPolynomial.pderiv_monomial]
  by_cases h0 : p.coeff m * (m d : ℝ) = 0
  · rw [h0]; simp
  · rw [MvPolynomial.totalDegree_monomial _ h0]
    have hle := MvPolynomial.le_totalDegree hm
    have hd : 1 ≤ m d := by
      rcases Nat.eq_zero_or_pos (m d) with h | h
      · simp [h] at h0
      · exact h
    rw [Finsupp.sum_fintype _ _ (fun _ => rfl)] at hle ⊢
    have : ∑ i, (m - Finsupp.single d 1 : Fin D →₀ ℕ) i + 1 = ∑ i, m i := by
      rw [← Finset.add_sum_erase _ _ (mem_univ d), ← Finset.add_sum_erase univ (fun i => m i) (mem_univ d)]
      have e : ∑ x ∈ univ.erase d, (m - Finsupp.single d 1 : Fin D →₀ ℕ) x = ∑ x ∈ univ.erase d, m x := by
        refine sum_congr rfl fun x hx => ?_
        have := ne_of_mem_erase hx
        simp [Finsupp.single_apply, Ne.symm this]
      rw [e]
      simp
      omega
    omega

/-- The partial derivatives of a polynomial of degree at most `N` are polynomials of degree at most
`N - 1`. -/
theorem isPoly_gradient (N : ℕ) (f : (Fin D → ℝ) → ℝ) (hf : Spec.IsPoly D N f) (g : (Fin D → ℝ) → Fin D → ℝ)
    (hg : ∀ ξ, Spec.IsGradient f (g ξ) ξ) (d : Fin D) : Spec.IsPoly D (N - 1) (fun ξ => g ξ d) := by
  obtain ⟨p, hp, hf⟩ := hf
  refine ⟨MvPolynomial.pderiv d p, (pderiv_degree p d).trans (by omega), fun ξ => ?_⟩
  have h1 := hg ξ (Pi.single d 1)
  simp only [hf] at h1
  have := h1.unique (hasDerivAt_eval p ξ d)
  rw [← this]
  simp [Pi.single_apply]

theorem isPoly_det (K : ℕ) (A : (Fin D → ℝ) → Matrix (Fin D) (Fin D) ℝ)
    (hA : ∀ i j, Spec.IsPoly D K (fun ξ => A ξ i j)) : Spec.IsPoly D (D * K) (fun ξ => (A ξ).det) := by
  simp only [Matrix.det_apply']
  refine isPoly_sum D _ univ _ fun σ _ => isPoly_const_mul D _ _ _ ?_
  have := isPoly_prod D univ (fun _ => K) (fun i ξ => A ξ (σ i) i) fun i _ => hA _ _
  simpa using this

theorem integral_const (hD : D = 1 ∨ D = 2 ∨ D = 3) (c : ℝ) :
    Spec.simplexIntegral D (fun _ => c) = c / D.factorial := by
  have := Functions.simplex_sum D hD {()} (fun _ => c) (fun _ _ => 0)
  simpa [Functions.moment, div_eq_mul_inv] using this

/-! ## Elements -/

/-- C89 (data of an element): at each quadrature point `prepare_volume` stores the image of the point, the
absolute value of the determinant and the inverse of the Jacobian of the element map there; the volume is
the quadrature of the former. -/
theorem C89_volume_data (hD : D = 2 ∨ D = 3) (g : Geo D) (hlen : g.nodes.length = nbf D g.degree)
    (hu : Spec.Unisolvent D g.degree g.nodes) (rule : Rule D) (hr : rule.points.length = rule.weights.length)
    (el : ℕ) (F : (Fin D → ℝ) → Fin D → ℝ) (DF : (Fin D → ℝ) → Matrix (Fin D) (Fin D) ℝ)
    (hF : Spec.ElementMap D g.degree g.nodes (g.verts el) F DF) :
    (∀ q (hq : q < rule.points.length),
      (prepareVolume g rule el).coords q = F rule.points[q] ∧
      (prepareVolume g rule el).absDetJ q = |(DF rule.points[q]).det| ∧
      ((DF rule.points[q]).det ≠ 0 → (prepareVolume g rule el).jInv q * DF rule.points[q] = 1)) ∧
    (prepareVolume g rule el).volume
      = ((rule.points.zip rule.weights).map fun pw => pw.2 * |(DF pw.1).det|).sum := by
  constructor
  · intro q hq
    unfold prepareVolume
    simp only
    rw [geoMap_eq g (by omega) hlen hu rule.points el q hq F DF hF, jacobian_eq g hD hlen hu rule.points el q hq F DF hF]
    exact ⟨rfl, rfl, fun h => Matrix.nonsing_inv_mul _ (isUnit_iff_ne_zero.2 h)⟩
  · rw [zip_sum rule hr fun ξ => |(DF ξ).det|]
    unfold prepareVolume
    simp only
    rw [range_fin]
    refine sum_congr rfl fun q _ => ?_
    rw [jacobian_eq g hD hlen hu rule.points el q q.2 F DF hF]
    rfl

/-- C89 (volume): if the element is not folded (the determinant of the Jacobian has the same sign at all
quadrature points) and the quadrature is exact for degree `D (N - 1)`, the volume is the absolute value of
the integral of the determinant over the reference simplex. -/
theorem C89_volume (hD : D = 2 ∨ D = 3) (g : Geo D) (hlen : g.nodes.length = nbf D g.degree)
    (hu : Spec.Unisolvent D g.degree g.nodes) (rule : Rule D)
    (hr : Spec.ExactQuadrature D (D * (g.degree - 1)) rule.points rule.weights) (hw : ∀ w ∈ rule.weights, 0 ≤ w)
    (el : ℕ) (F : (Fin D → ℝ) → Fin D → ℝ) (DF : (Fin D → ℝ) → Matrix (Fin D) (Fin D) ℝ)
    (hF : Spec.ElementMap D g.degree g.nodes (g.verts el) F DF)
    (hs : (∀ ξ ∈ rule.points, 0 ≤ (DF ξ).det) ∨ ∀ ξ ∈ rule.points, (DF ξ).det ≤ 0) :
    (prepareVolume g rule el).volume = |Spec.simplexIntegral D fun ξ => (DF ξ).det| := by
  rw [(C89_volume_data hD g hlen hu rule hr.1 el F DF hF).2]
  have hp : Spec.IsPoly D (D * (g.degree - 1)) (fun ξ => (DF ξ).det) :=
    isPoly_det _ DF fun i j => isPoly_gradient g.degree _ (hF i).1.1 (fun ξ => DF ξ i) (fun ξ => (hF i).2 ξ) j
  rw [← hr.2 _ hp]
  rcases hs with h | h
  · rw [abs_of_nonneg]
    · congr 1
      refine List.map_congr_left fun pw hpw => ?_
      rw [abs_of_nonneg (h _ (List.of_mem_zip hpw).1)]
    · refine List.sum_nonneg fun x hx => ?_
      obtain ⟨pw, hpw, rfl⟩ := List.mem_map.1 hx
      exact mul_nonneg (hw _ (List.of_mem_zip hpw).2) (h _ (List.of_mem_zip hpw).1)
  · have e : (rule.points.zip rule.weights).map (fun pw => pw.2 * |(DF pw.1).det|)
        = (rule.points.zip rule.weights).map (fun pw => -1 * (pw.2 * (DF pw.1).det)) := by
      refine List.map_congr_left fun pw hpw => ?_
      rw [abs_of_nonpos (h _ (List.of_mem_zip hpw).1)]; ring
    rw [e, List.sum_map_mul_left, abs_of_nonpos, neg_one_mul]
    have : 0 ≤ ((rule.points.zip rule.weights).map (fun pw => -1 * (pw.2 * (DF pw.1).det))).sum := by
      refine List.sum_nonneg fun x hx => ?_
      obtain ⟨pw, hpw, rfl⟩ := List.mem_map.1 hx
      have := mul_nonneg (hw _ (List.of_mem_zip hpw).2) (neg_nonneg.2 (h _ (List.of_mem_zip hpw).1))
      linarith
    rw [List.sum_map_mul_left] at this
    linarith

theorem gradient_affine (verts : Fin (D + 1) → Fin D → ℝ) (i : Fin D) (ξ : Fin D → ℝ) :
    Spec.IsGradient (fun x => refToGeneral verts x i) (edgeMatrix verts i) ξ := by
  intro v
  have e : (fun t : ℝ => refToGeneral verts (fun d => ξ d + t * v d) i)
      = fun t : ℝ => refToGeneral verts ξ i + t * ∑ d, edgeMatrix verts i d * v d := by
    funext t
    unfold refToGeneral edgeMatrix
    simp only [Matrix.of_apply, add_mul, sum_add_distrib, sub_mul, sum_sub_distrib, mul_sum, mul_sub]
    have h1 : ∑ x, t * v x * verts x.succ i = ∑ x, t * (verts x.succ i * v x) := sum_congr rfl fun _ _ => by ring
    have h2 : (∑ x, t * v x) * verts 0 i = ∑ x, t * (verts 0 i * v x) := by
      rw [sum_mul]; exact sum_congr rfl fun _ _ => by ring
    rw [h1, h2]; ring
  rw [e]
  simpa using ((hasDerivAt_id (0:ℝ)).mul_const (∑ d, edgeMatrix verts i d * v d)).const_add (refToGeneral verts ξ i)

/-- C89 (volume of straight elements): without curved elements and without transformation, the volume of
an element is that of the simplex, whatever the degree of the reference element. -/
theorem C89_volume_straight (hD : D = 2 ∨ D = 3) (m : MeshIn D) (N : ℕ) (hN : 1 ≤ N) (refNodes : List (Fin D → ℝ))
    (hlen : refNodes.length = nbf D N) (hu : Spec.Unisolvent D N refNodes) (b : Built D)
    (hb : build m id N refNodes = some b) (verts : ℕ → Fin (D + 1) → Fin D → ℝ) (hv : m.verts = some verts)
    (he : m.elementData = none) (rule : Rule D) (hr : Spec.ExactQuadrature D 0 rule.points rule.weights) (el : ℕ) :
    (prepareVolume b.geo rule el).volume
      = |(Matrix.of fun i j : Fin D => verts el j.succ i - verts el 0 i).det| / D.factorial := by
  obtain ⟨g1, g2, _⟩ := C89_nodes hD m id N refNodes b hb verts hv
  have hl' : b.geo.nodes.length = nbf D b.geo.degree := by rw [g1, g2]; exact hlen
  have hu' : Spec.Unisolvent D b.geo.degree b.geo.nodes := by rw [g1, g2]; exact hu
  obtain ⟨F, DF, hF, _⟩ := C62_geometry b.geo hD hl' hu' el
  have hrep := (C89_reproduces hD m N hN refNodes hu b hb verts hv el F DF hF).1 he
  have hDF : ∀ ξ, DF ξ = edgeMatrix (verts el) := by
    intro ξ
    funext i
    refine gradient_unique (fun x => F x i) _ _ ξ ((hF i).2 ξ) ?_
    simp only [hrep]
    exact gradient_affine (verts el) i ξ
  rw [(C89_volume_data hD b.geo hl' hu' rule hr.1 el F DF hF).2]
  simp only [hDF]
  rw [hr.2 (fun _ => |(edgeMatrix (verts el)).det|) (isPoly_const D 0 _), integral_const (by omega)]
  rfl

/-! ## Facets -/

/-- C89 (data of a facet): let two elements share a facet, parametrised by `P.G` with tangents `P.T`, and
let both maps be regular at the quadrature points.  Then at each quadrature point `prepare_bndskl` stores
the point of the facet (from both sides), the inverses of the Jacobians of both elements at this very point,
a normal that is perpendicular to the tangents, points out of the first element and has the length of the
length or area element of the facet, and the unit vector in its direction.  The area is the quadrature of
the area element. -/
theorem C89_facet_data (hD : D = 1 ∨ D = 2) (m : MeshIn (D + 1)) (transform : (Fin (D + 1) → ℝ) → Fin (D + 1) → ℝ)
    (N : ℕ) (refNodes : List (Fin (D + 1) → ℝ)) (hc : Spec.ConformingElement D N facetParam refNodes)
    (b : Built (D + 1)) (hb : build m transform N refNodes = some b)
    (verts : ℕ → Fin (D + 2) → Fin (D + 1) → ℝ) (hv : m.verts = some verts) (info : Facet D)
    (hn : Neighbours m verts (info.up 0) (info.up 1) (info.localNo 0) (info.localNo 1))
    (rule : Rule D) (hr : rule.points.length = rule.weights.length)
    (F0 F1 : (Fin (D + 1) → ℝ) → Fin (D + 1) → ℝ) (DF0 DF1 : (Fin (D + 1) → ℝ) → Matrix (Fin (D + 1)) (Fin (D + 1)) ℝ)
    (h0 : Spec.ElementMap (D + 1) b.geo.degree b.geo.nodes (b.geo.verts (info.up 0)) F0 DF0)
    (h1 : Spec.ElementMap (D + 1) b.geo.degree b.geo.nodes (b.geo.verts (info.up 1)) F1 DF1)
    (hd0 : ∀ χ ∈ rule.points, (DF0 (facetParam (info.localNo 0) χ)).det ≠ 0)
    (hd1 : ∀ χ ∈ rule.points, (DF1 (facetParam (info.localNo 1) χ)).det ≠ 0)
    (P : Spec.FacetPiece D) (hG : ∀ χ, P.G χ = F0 (facetParam (info.localNo 0) χ))
    (hT : ∀ χ i, Spec.IsGradient (fun χ => P.G χ i) (fun k => P.T χ k i) χ) :
    (∀ q (hq : q < rule.points.length),
      let v := prepareFacet b.geo rule info
      let χ := rule.points[q]
      (v.coords q = P.G χ ∧ v.coords q = F1 (facetParam (info.localNo 1) χ)) ∧
      v.jInv0 q * DF0 (facetParam (info.localNo 0) χ) = 1 ∧ v.jInv1 q * DF1 (facetParam (info.localNo 1) χ) = 1 ∧
      (∀ k, dot (v.normal q) (P.T χ k) = 0) ∧
      dot (v.normal q) ((DF0 (facetParam (info.localNo 0) χ)).mulVec
        (Equidistant.refVertices (D + 1) (missing (info.localNo 0)) - facetParam (info.localNo 0) χ)) < 0 ∧
      v.normalLength q = Spec.areaElement D (P.T χ) ∧ Real.sqrt (dot (v.normal q) (v.normal q)) = Spec.areaElement D (P.T χ) ∧
      0 < Spec.areaElement D (P.T χ) ∧ v.unitNormal q = (1 / Spec.areaElement D (P.T χ)) • v.normal q) ∧
    (prepareFacet b.geo rule info).area
      = ((rule.points.zip rule.weights).map fun pw => pw.2 * Spec.areaElement D (P.T pw.1)).sum := by
  obtain ⟨g1, g2, _⟩ := C89_nodes (by omega) m transform N refNodes b hb verts hv
  have hl : b.geo.nodes.length = nbf (D + 1) b.geo.degree := by rw [g1, g2]; exact hc.length
  have hu : Spec.Unisolvent (D + 1) b.geo.degree b.geo.nodes := by rw [g1, g2]; exact hc.unisolvent
  have hng := C89_no_gaps hD m transform N refNodes hc b hb verts hv _ _ _ _ hn F0 F1 DF0 DF1 h0 h1
  have hJ0 : ∀ q (hq : q < rule.points.length),
      jacobian b.geo (info.up 0) (geoGrad b.geo (rule.points.map (facetParam (info.localNo 0)))) q
        = DF0 (facetParam (info.localNo 0) rule.points[q]) := by
    intro q hq
    rw [jacobian_eq b.geo (by omega) hl hu _ _ q (by simpa using hq) F0 DF0 h0, List.getElem_map]
  have hJ1 : ∀ q (hq : q < rule.points.length),
      jacobian b.geo (info.up 1) (geoGrad b.geo (rule.points.map (facetParam (info.localNo 1)))) q
        = DF1 (facetParam (info.localNo 1) rule.points[q]) := by
    intro q hq
    rw [jacobian_eq b.geo (by omega) hl hu _ _ q (by simpa using hq) F1 DF1 h1, List.getElem_map]
  have harea : ∀ χ ∈ rule.points, Curvilinear.norm (normal (info.localNo 0) (DF0 (facetParam (info.localNo 0) χ)))
      = Spec.areaElement D (P.T χ) := fun χ hχ =>
    area_eq hD (info.localNo 0) F0 DF0 (fun i ξ => (h0 i).2 ξ) P hG hT χ (hd0 χ hχ)
  constructor
  · intro q hq
    have hmem := List.getElem_mem hq
    have k0 := hd0 _ hmem
    have k1 := hd1 _ hmem
    have hco : (prepareFacet b.geo rule info).coords q = F0 (facetParam (info.localNo 0) rule.points[q]) := by
      unfold prepareFacet
      simp only
      rw [geoMap_eq b.geo (by omega) hl hu _ _ q (by simpa using hq) F0 DF0 h0, List.getElem_map]
    have hno : (prepareFacet b.geo rule info).normal q
        = normal (info.localNo 0) (DF0 (facetParam (info.localNo 0) rule.points[q])) := by
      unfold prepareFacet
      simp only
      rw [hJ0 q hq]
    have hn0 := C58_normal D (by omega) (info.localNo 0) _ k0
    have hin : dot (normal (info.localNo 0) (DF0 (facetParam (info.localNo 0) rule.points[q])))
        ((DF0 (facetParam (info.localNo 0) rule.points[q])).mulVec
        (Equidistant.refVertices (D + 1) (missing (info.localNo 0)) - facetParam (info.localNo 0) rule.points[q])) < 0 := by
      set f := info.localNo 0
      set χ := rule.points[q]
      have e : Equidistant.refVertices (D + 1) (missing f) - facetParam f χ
          = (Equidistant.refVertices (D + 1) (missing f) - Equidistant.refVertices (D + 1) (f2v f 0))
            + ∑ d : Fin D, (-χ d) • (Equidistant.refVertices (D + 1) (f2v f d.succ) - Equidistant.refVertices (D + 1) (f2v f 0)) := by
        funext i
        simp only [facetParam, Pi.sub_apply, Pi.add_apply, Finset.sum_apply, Pi.smul_apply, smul_eq_mul, mul_sub,
          sum_sub_distrib, neg_mul, sum_neg_distrib, sub_mul, one_mul, sum_mul]
        ring
      rw [e, Matrix.mulVec_add, dot_add, Matrix.mulVec_sum]
      have hz : dot (normal f (DF0 (facetParam f χ))) (∑ d : Fin D, (DF0 (facetParam f χ)).mulVec
          ((-χ d) • (Equidistant.refVertices (D + 1) (f2v f d.succ) - Equidistant.refVertices (D + 1) (f2v f 0)))) = 0 := by
        rw [dot_eq, dotProduct_sum, sum_eq_zero]
        intro d _
        rw [← dot_eq, Matrix.mulVec_smul, dot_smul, hn0.1, mul_zero]
      rw [hz, add_zero]
      exact hn0.2 0
    have hpos : 0 < dot (normal (info.localNo 0) (DF0 (facetParam (info.localNo 0) rule.points[q])))
        (normal (info.localNo 0) (DF0 (facetParam (info.localNo 0) rule.points[q]))) := by
      rcases (Finset.sum_nonneg fun d _ => mul_self_nonneg
        (normal (info.localNo 0) (DF0 (facetParam (info.localNo 0) rule.points[q])) d)).lt_or_eq with h | h
      · exact h
      · have hz : normal (info.localNo 0) (DF0 (facetParam (info.localNo 0) rule.points[q])) = 0 := by
          funext d
          have := (sum_eq_zero_iff_of_nonneg fun d _ => mul_self_nonneg _).1 h.symm d (mem_univ d)
          exact mul_self_eq_zero.1 this
        rw [hz] at hin
        simp [dot] at hin
    have ha := harea _ hmem
    intro v χ
    refine ⟨⟨?_, ?_⟩, ?_, ?_, ?_, ?_, ?_, ?_, ?_, ?_⟩
    · rw [show v.coords q = _ from hco, hG]
    · rw [show v.coords q = _ from hco, hng]
    · show (jacobian b.geo (info.up 0) (geoGrad b.geo (rule.points.map (facetParam (info.localNo 0)))) q)⁻¹ * _ = 1
      rw [hJ0 q hq]
      exact Matrix.nonsing_inv_mul _ (isUnit_iff_ne_zero.2 k0)
    · show (jacobian b.geo (info.up 1) (geoGrad b.geo (rule.points.map (facetParam (info.localNo 1)))) q)⁻¹ * _ = 1
      rw [hJ1 q hq]
      exact Matrix.nonsing_inv_mul _ (isUnit_iff_ne_zero.2 k1)
    · intro k
      rw [show v.normal q = _ from hno, tangent_eq (info.localNo 0) F0 DF0 (fun i ξ => (h0 i).2 ξ) P hG hT]
      exact hn0.1 k.succ
    · rw [show v.normal q = _ from hno]; exact hin
    · rw [← ha, ← hno]; rfl
    · rw [← ha, ← hno]; rfl
    · rw [← ha]; exact Real.sqrt_pos.2 hpos
    · have hun : v.unitNormal q = normalized (v.normal q) := rfl
      rw [hun, show v.normal q = _ from hno, ← ha]
      unfold normalized
      rw [if_pos hpos]
      funext d
      simp only [Pi.smul_apply, smul_eq_mul, Curvilinear.norm]
      ring
  · rw [zip_sum rule hr fun χ => Spec.areaElement D (P.T χ)]
    unfold prepareFacet
    simp only
    rw [range_fin]
    refine sum_congr rfl fun q _ => ?_
    rw [hJ0 q q.2, harea _ (List.getElem_mem q.2)]
    rfl

/-! ## Functions on elements and facets -/

/-- C89 (source functions): a function of the user is evaluated at the images of the quadrature points,
with the tag of the element. -/
theorem C89_volume_function {Q : ℕ} (hD : D = 2 ∨ D = 3) (b : Built D) (hlen : b.geo.nodes.length = nbf D b.geo.degree)
    (hu : Spec.Unisolvent D b.geo.degree b.geo.nodes) (rule : Rule D) (hr : rule.points.length = rule.weights.length)
    (el : ℕ) (F : (Fin D → ℝ) → Fin D → ℝ) (DF : (Fin D → ℝ) → Matrix (Fin D) (Fin D) ℝ)
    (hF : Spec.ElementMap D b.geo.degree b.geo.nodes (b.geo.verts el) F DF) (tag : ℤ)
    (ht : getVolumeTag b el = some tag) (u : (Fin D → ℝ) → Fin Q → ℝ) (w : (Fin D → ℝ) → ℤ → Fin Q → ℝ)
    (p : Fin Q) (q : ℕ) (hq : q < rule.points.length) :
    volumeFunctional u (prepareVolume b.geo rule el) p q = u (F rule.points[q]) p ∧
    volumeFunctionalRegion w b (prepareVolume b.geo rule el) el p q = some (w (F rule.points[q]) tag p) := by
  have := ((C89_volume_data hD b.geo hlen hu rule hr el F DF hF).1 q hq).1
  unfold volumeFunctional volumeFunctionalRegion
  rw [this, ht]
  exact ⟨rfl, rfl⟩

/-- C89 (slip functions): on interior facets the value is that of the user's function, with the sign
changed if the normal points away from the reference normal; so the two sides of a facet, whose normals
are opposite, get opposite values unless the reference normal is tangential.  On the boundary the sign
is never changed. -/
theorem C89_slip {Q : ℕ} (u : (Fin D → ℝ) → Fin Q → ℝ) (ref : Fin D → ℝ) (v w : FctData D) (p : Fin Q) (q : ℕ)
    (hc : w.coords q = v.coords q) (hn : w.normal q = -v.normal q) :
    (0 < dot ref (v.normal q) → facetFunctionalRef u ref v false p q = u (v.coords q) p) ∧
    (dot ref (v.normal q) < 0 → facetFunctionalRef u ref v false p q = -u (v.coords q) p) ∧
    (dot ref (v.normal q) ≠ 0 → facetFunctionalRef u ref w false p q = -facetFunctionalRef u ref v false p q) ∧
    (dot ref (v.normal q) = 0 → facetFunctionalRef u ref w false p q = facetFunctionalRef u ref v false p q) ∧
    facetFunctionalRef u ref v true p q = u (v.coords q) p ∧ facetFunctional u v p q = u (v.coords q) p := by
  have hneg : dot ref (w.normal q) = -dot ref (v.normal q) := by
    rw [hn]; simp [dot, sum_neg_distrib]
  unfold facetFunctionalRef facetFunctional
  rw [hc, hneg]
  refine ⟨fun h => ?_, fun h => ?_, fun h => ?_, fun h => ?_, by simp, rfl⟩
  · simp [not_lt.2 h.le]
  · simp [h]
  · rcases lt_or_gt_of_ne h with h | h
    · simp [h, not_lt.2 h.le]
    · simp [h, not_lt.2 h.le]
  · simp [h]

/-- Two triangles, `(0,0), (1,0), (0,1)` and `(1,0), (0,1), (1,1)`. -/
noncomputable def exampleVerts : ℕ → Fin 3 → Fin 2 → ℝ :=
  fun el => if el = 0 then ![![0, 0], ![1, 0], ![0, 1]] else ![![1, 0], ![0, 1], ![1, 1]]

/-- The hypotheses are met: the triangles share the edge from `(1,0)` to `(0,1)`; with elements of degree
2, their curved images under any transformation have no gap. -/
example (transform : (Fin 2 → ℝ) → Fin 2 → ℝ) (conv : Equidistant.Convention) :
    let m : MeshIn 2 := ⟨2, some exampleVerts, none, none⟩
    ∃ b, build m transform 2 (Equidistant.nodes conv 2 2) = some b ∧ Neighbours m exampleVerts 0 1 2 0 ∧
      Spec.ConformingElement 1 2 facetParam (Equidistant.nodes conv 2 2) ∧
      ∃ F0 DF0 F1 DF1, Spec.ElementMap 2 b.geo.degree b.geo.nodes (b.geo.verts 0) F0 DF0 ∧
        Spec.ElementMap 2 b.geo.degree b.geo.nodes (b.geo.verts 1) F1 DF1 ∧
        ∀ χ, F0 (facetParam 2 χ) = F1 (facetParam 0 χ) := by
  intro m
  have hn : Neighbours m exampleVerts 0 1 2 0 := by
    refine ⟨fun k => ?_, fun e M h => by cases h⟩
    fin_cases k <;> rfl
  have hc := C89_equidistant (D := 1) conv (by omega) 2 (by omega)
  refine ⟨_, rfl, hn, hc, ?_⟩
  obtain ⟨F0, DF0, h0, _⟩ := C62_geometry (D := 2) ⟨2, Equidistant.nodes conv 2 2, _⟩ (by omega) hc.length hc.unisolvent 0
  obtain ⟨F1, DF1, h1, _⟩ := C62_geometry (D := 2) ⟨2, Equidistant.nodes conv 2 2, _⟩ (by omega) hc.length hc.unisolvent 1
  exact ⟨F0, DF0, F1, DF1, h0, h1, fun χ =>
    C89_no_gaps (D := 1) (by omega) m transform 2 _ hc _ rfl exampleVerts rfl 0 1 2 0 hn F0 F1 DF0 DF1 h0 h1 χ⟩

/-- The volume of the first triangle is one half. -/
example (rule : Rule 2) (hr : Spec.ExactQuadrature 2 0 rule.points rule.weights) (conv : Equidistant.Convention) :
    ∃ b, build ⟨2, some exampleVerts, none, none⟩ id 3 (Equidistant.nodes conv 2 3) = some b ∧
      (prepareVolume b.geo rule 0).volume = 1 / 2 := by
  have hc := C89_equidistant (D := 1) conv (by omega) 3 (by omega)
  refine ⟨_, rfl, ?_⟩
  rw [C89_volume_straight (D := 2) (by omega) ⟨2, some exampleVerts, none, none⟩ 3 (by omega) _ hc.length hc.unisolvent _ rfl exampleVerts rfl rfl rule hr 0,
    Matrix.det_fin_two]
  simp [exampleVerts]

/-- A slip function on a facet whose normal is opposite to the reference normal. -/
example (v : FctData 2) (h : v.normal 0 = ![-1, 0]) :
    facetFunctionalRef (Q := 1) (fun _ _ => 5) ![1, 0] v false 0 0 = -5 := by
  have := (C89_slip (Q := 1) (fun _ _ => 5) ![1, 0] v ⟨v.jInv0, v.jInv1, fun _ => -v.normal 0, v.unitNormal,
    v.normalLength, v.coords, v.area⟩ 0 0 rfl rfl).2.1 (by rw [h]; simp [dot])
  exact this

end Tandem.CurvilinearBuild
