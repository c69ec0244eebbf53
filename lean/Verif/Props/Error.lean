import Verif.Model.Error
import Verif.Spec.Error
import Verif.Props.RefElement
import Verif.Props.Curvilinear
import Verif.Props.QuadTable
/-! # C62: finite element functions and error norms -/
namespace Tandem.Error
open RefElement Finset

variable {D : ℕ}

/-- A gradient is unique. -/
theorem gradient_unique (f : (Fin D → ℝ) → ℝ) (g g' p : Fin D → ℝ) (h : Spec.IsGradient f g p)
    (h' : Spec.IsGradient f g' p) : g = g' := by
  funext d
  have := (h (Pi.single d 1)).unique (h' (Pi.single d 1))
  simpa [Pi.single_apply] using this

theorem getD_points (points : List (Fin D → ℝ)) (q : ℕ) (hq : q < points.length) :
    points.getD q 0 = points[q] := List.getD_eq_getElem _ _ hq

/-- The polynomial with given nodal values is the combination of the nodal functions. -/
theorem interp_eq (N : ℕ) (hD : D = 1 ∨ D = 2 ∨ D = 3) (nodes : List (Fin D → ℝ))
    (hlen : nodes.length = nbf D N) (hV : IsUnit (vandermonde N nodes).det) (c : ℕ → ℝ)
    (u : (Fin D → ℝ) → ℝ) (hu : Spec.Interpolates D N nodes c u) :
    u = fun x => ∑ k : Fin (nbf D N), c k * nodalFunction N nodes k x := by
  funext x
  rw [← C78_reproduces D N hD nodes hlen hV u hu.1 x]
  exact sum_congr rfl fun k _ => by rw [hu.2 k.val (by omega)]

theorem basis_row (N : ℕ) (nodes points : List (Fin D → ℝ)) (k : Fin (nbf D N)) (q : ℕ) (hq : q < points.length) :
    (nodalBasis N nodes points perm10).val ![q, k.val] = nodalFunction N nodes k points[q] := by
  have := (C78_evaluation N nodes points perm10 k q hq).2.1
  rw [permute2] at this
  exact this

theorem basis_col (N : ℕ) (nodes points : List (Fin D → ℝ)) (k : Fin (nbf D N)) (q : ℕ) (hq : q < points.length) :
    (nodalBasis N nodes points 1).val ![k.val, q] = nodalFunction N nodes k points[q] := by
  have := (C78_evaluation N nodes points 1 k q hq).2.1
  rw [permute2] at this
  exact this

theorem grad_perm201 (N : ℕ) (hD : D = 2 ∨ D = 3) (nodes points : List (Fin D → ℝ)) (k : Fin (nbf D N)) (q : ℕ)
    (hq : q < points.length) : Spec.IsGradient (nodalFunction N nodes k)
      (fun d => (nodalGradient N nodes points perm201).val ![q, k.val, d.val]) points[q] := by
  have := (C78_gradient D N hD nodes points perm201 k q hq).2.1
  simp only [permute3] at this
  exact this

theorem grad_perm1 (N : ℕ) (hD : D = 2 ∨ D = 3) (nodes points : List (Fin D → ℝ)) (k : Fin (nbf D N)) (q : ℕ)
    (hq : q < points.length) : Spec.IsGradient (nodalFunction N nodes k)
      (fun d => (nodalGradient N nodes points 1).val ![k.val, d.val, q]) points[q] := by
  have := (C78_gradient D N hD nodes points 1 k q hq).2.1
  simp only [permute3] at this
  exact this

/-- C62 (values): `map` returns the values at the points of the polynomials whose nodal values are the
degrees of freedom of the element. -/
theorem C62_map (f : FEF D) (hD : D = 1 ∨ D = 2 ∨ D = 3) (hlen : f.nodes.length = nbf D f.degree)
    (hV : Spec.Unisolvent D f.degree f.nodes) (points : List (Fin D → ℝ)) (elNo q j : ℕ)
    (hq : q < points.length) (u : (Fin D → ℝ) → ℝ)
    (hu : Spec.Interpolates D f.degree f.nodes (fun k => f.data k j elNo) u) :
    map f elNo (evaluationMatrix f points) q j = u points[q] := by
  rw [interp_eq f.degree hD f.nodes hlen ((C78_unisolvent D f.degree hD f.nodes hlen).2 hV) _ u hu]
  unfold map evaluationMatrix
  rw [range_fin]
  exact sum_congr rfl fun k _ => by rw [basis_row _ _ _ _ _ hq, mul_comm]

/-- The map of the geometry. -/
theorem geoMap_eq (g : Geo D) (hD : D = 1 ∨ D = 2 ∨ D = 3) (hlen : g.nodes.length = nbf D g.degree)
    (hV : Spec.Unisolvent D g.degree g.nodes) (points : List (Fin D → ℝ)) (elNo q : ℕ)
    (hq : q < points.length) (F : (Fin D → ℝ) → Fin D → ℝ) (DF : (Fin D → ℝ) → Matrix (Fin D) (Fin D) ℝ)
    (hF : Spec.ElementMap D g.degree g.nodes (g.verts elNo) F DF) :
    geoMap g elNo (geoBasis g points) q = F points[q] := by
  funext i
  have := congrFun (interp_eq g.degree hD g.nodes hlen ((C78_unisolvent D g.degree hD g.nodes hlen).2 hV) _ _ (hF i).1)
    points[q]
  rw [this]
  unfold geoMap geoBasis
  rw [range_fin]
  exact sum_congr rfl fun k _ => by rw [basis_col _ _ _ _ _ hq]

/-- The Jacobian of the geometry. -/
theorem jacobian_eq (g : Geo D) (hD : D = 2 ∨ D = 3) (hlen : g.nodes.length = nbf D g.degree)
    (hV : Spec.Unisolvent D g.degree g.nodes) (points : List (Fin D → ℝ)) (elNo q : ℕ)
    (hq : q < points.length) (F : (Fin D → ℝ) → Fin D → ℝ) (DF : (Fin D → ℝ) → Matrix (Fin D) (Fin D) ℝ)
    (hF : Spec.ElementMap D g.degree g.nodes (g.verts elNo) F DF) :
    jacobian g elNo (geoGrad g points) q = DF points[q] := by
  have hD' : D = 1 ∨ D = 2 ∨ D = 3 := by omega
  funext i
  refine gradient_unique (fun x => F x i) _ _ points[q] ?_ ((hF i).2 _)
  rw [interp_eq g.degree hD' g.nodes hlen ((C78_unisolvent D g.degree hD' g.nodes hlen).2 hV) _ _ (hF i).1]
  have := isGradient_sum (fun k : Fin (nbf D g.degree) => g.verts elNo k i) _ _ points[q] fun k =>
    grad_perm1 g.degree hD g.nodes points k q hq
  convert this using 2 with j
  unfold jacobian geoGrad
  rw [Matrix.of_apply, range_fin]

/-- C62 (element maps): every element has exactly one polynomial map, and `map` and `jacobian` of the
geometry return its values and its partial derivatives. -/
theorem C62_geometry (g : Geo D) (hD : D = 2 ∨ D = 3) (hlen : g.nodes.length = nbf D g.degree)
    (hV : Spec.Unisolvent D g.degree g.nodes) (elNo : ℕ) :
    ∃ F DF, Spec.ElementMap D g.degree g.nodes (g.verts elNo) F DF ∧
      ∀ (points : List (Fin D → ℝ)) (q : ℕ) (hq : q < points.length),
        geoMap g elNo (geoBasis g points) q = F points[q] ∧
        jacobian g elNo (geoGrad g points) q = DF points[q] := by
  have hD' : D = 1 ∨ D = 2 ∨ D = 3 := by omega
  have hU := (C78_unisolvent D g.degree hD' g.nodes hlen).2 hV
  have hE : Spec.ElementMap D g.degree g.nodes (g.verts elNo)
      (fun ξ i => ∑ k : Fin (nbf D g.degree), g.verts elNo k i * nodalFunction g.degree g.nodes k ξ)
      (fun ξ => jacobian g elNo (geoGrad g [ξ]) 0) := by
    intro i
    refine ⟨⟨isPoly_sum D _ univ _ fun k _ => isPoly_const_mul D _ _ _
      (C78_lagrange D g.degree (by omega) g.nodes hlen hU k).1, fun k hk => ?_⟩, fun ξ => ?_⟩
    · simp only
      rw [sum_eq_single ⟨k, by omega⟩]
      · rw [(C78_lagrange D g.degree (by omega) g.nodes hlen hU ⟨k, by omega⟩).2 ⟨k, by omega⟩]
        simp
      · intro k' _ hne
        rw [(C78_lagrange D g.degree (by omega) g.nodes hlen hU k').2 ⟨k, by omega⟩, if_neg hne, mul_zero]
      · simp
    · have := isGradient_sum (fun k : Fin (nbf D g.degree) => g.verts elNo k i) _ _ ξ fun k =>
        grad_perm1 g.degree hD g.nodes [ξ] k 0 (by simp)
      convert this using 2 with j
      unfold jacobian geoGrad
      beta_reduce
      rw [Matrix.of_apply, range_fin]
  exact ⟨_, _, hE, fun points q hq => ⟨geoMap_eq g hD' hlen hV points elNo q hq _ _ hE,
    jacobian_eq g hD hlen hV points elNo q hq _ _ hE⟩⟩

/-- C62 (gradient): wherever the element map is invertible, `gradient` returns the partial derivatives
of the finite element function with respect to the physical coordinates. -/
theorem C62_gradient (f : FEF D) (g : Geo D) (hD : D = 2 ∨ D = 3) (hlen : f.nodes.length = nbf D f.degree)
    (hV : Spec.Unisolvent D f.degree f.nodes) (hglen : g.nodes.length = nbf D g.degree)
    (hgV : Spec.Unisolvent D g.degree g.nodes) (points : List (Fin D → ℝ)) (elNo q i : ℕ)
    (hq : q < points.length) (P : Spec.Piece D)
    (hu : Spec.Interpolates D f.degree f.nodes (fun k => f.data k i elNo) (P.u i))
    (hF : Spec.ElementMap D g.degree g.nodes (g.verts elNo) P.F P.DF) (hdet : (P.DF points[q]).det ≠ 0)
    (γ : Fin D → ℝ) (hγ : Spec.PhysicalGradient P i points[q] γ) (j : Fin D) :
    gradient f elNo (gradientEvaluationTensor f points)
      (fun q => (jacobian g elNo (geoGrad g points) q)⁻¹) q i j = γ j := by
  have hD' : D = 1 ∨ D = 2 ∨ D = 3 := by omega
  obtain ⟨w, w', hw, hw', hg⟩ := hγ
  rw [hg]
  have hgr : Spec.IsGradient (P.u i) (fun d => refGradient f elNo (gradientEvaluationTensor f points) q i d) points[q] := by
    rw [interp_eq f.degree hD' f.nodes hlen ((C78_unisolvent D f.degree hD' f.nodes hlen).2 hV) _ _ hu]
    have := isGradient_sum (fun k : Fin (nbf D f.degree) => f.data k i elNo) _ _ points[q] fun k =>
      grad_perm201 f.degree hD f.nodes points k q hq
    convert this using 2 with j
    unfold refGradient gradientEvaluationTensor
    rw [range_fin]
    exact sum_congr rfl fun k _ => mul_comm _ _
  unfold gradient
  simp only
  rw [jacobian_eq g hD hglen hgV points elNo q hq P.F P.DF hF]
  set ξ := points[q]
  have key : ∀ v : Fin D → ℝ,
      ∑ d : Fin D, refGradient f elNo (gradientEvaluationTensor f points) q i d * v d = w' ((P.DF ξ).mulVec v) := by
    intro v
    have h1 := hgr v
    have h2 : HasDerivAt (fun t : ℝ => P.F (fun d => ξ d + t * v d)) ((P.DF ξ).mulVec v) 0 := by
      rw [hasDerivAt_pi]
      intro i'
      exact ((hF i').2 ξ v)
    have h0 : P.F (fun d => ξ d + 0 * v d) = P.F ξ := by simp
    have h3 : HasDerivAt (w ∘ fun t : ℝ => P.F (fun d => ξ d + t * v d)) (w' ((P.DF ξ).mulVec v)) 0 := by
      refine HasFDerivAt.comp_hasDerivAt (x := (0:ℝ)) ?_ h2
      rw [h0]; exact hw'
    have hc : Filter.Tendsto (fun t : ℝ => fun d => ξ d + t * v d) (nhds 0) (nhds ξ) := by
      have : Continuous fun t : ℝ => fun d => ξ d + t * v d := by fun_prop
      have := this.tendsto 0
      simpa using this
    have e : (fun t => P.u i (fun d => ξ d + t * v d)) =ᶠ[nhds 0] (w ∘ fun t : ℝ => P.F (fun d => ξ d + t * v d)) := by
      filter_upwards [hc.eventually hw] with t ht
      exact ht.symm
    exact h1.unique (h3.congr_of_eventuallyEq e)
  have := key ((P.DF ξ)⁻¹.mulVec (Pi.single j 1))
  rw [Matrix.mulVec_mulVec, Matrix.mul_nonsing_inv _ (isUnit_iff_ne_zero.2 hdet), Matrix.one_mulVec] at this
  rw [← this]
  refine sum_congr rfl fun d _ => ?_
  simp [Matrix.mulVec_single_one]

/-- What determines an element: degree, nodes and node positions of its geometry, degree, nodes and
degrees of freedom of the function on it. -/
structure Elem (D : ℕ) where
  gdegree : ℕ
  gnodes : List (Fin D → ℝ)
  verts : ℕ → Fin D → ℝ
  degree : ℕ
  nodes : List (Fin D → ℝ)
  dofs : ℕ → ℕ → ℝ

/-- The elements of a rank, in order. -/
def elems (r : Geo D × FEF D) : List (Elem D) :=
  (List.range r.2.numElements).map fun el =>
    ⟨r.1.degree, r.1.nodes, r.1.verts el, r.2.degree, r.2.nodes, fun k j => r.2.data k j el⟩

/-- The piece `P` describes the element: its map interpolates the node positions, its functions
interpolate the degrees of freedom. -/
def Describes (Q : ℕ) (e : Elem D) (P : Spec.Piece D) : Prop :=
  Spec.ElementMap D e.gdegree e.gnodes e.verts P.F P.DF ∧
    ∀ j < Q, Spec.Interpolates D e.degree e.nodes (fun k => e.dofs k j) (P.u j)

/-- The spaces of a rank are usable: as many nodes as basis functions, and they are unisolvent. -/
def Usable (Q : ℕ) (r : Geo D × FEF D) : Prop :=
  r.2.numQuantities = Q ∧ r.1.nodes.length = nbf D r.1.degree ∧ Spec.Unisolvent D r.1.degree r.1.nodes ∧
    r.2.nodes.length = nbf D r.2.degree ∧ Spec.Unisolvent D r.2.degree r.2.nodes

theorem zip_sum (rule : Rule D) (hr : rule.points.length = rule.weights.length) (h : (Fin D → ℝ) → ℝ) :
    ((rule.points.zip rule.weights).map fun pw => pw.2 * h pw.1).sum
      = ∑ q : Fin rule.points.length, rule.weights.getD q 0 * h rule.points[q] := by
  rw [← List.sum_ofFn]
  congr 1
  refine List.ext_getElem ?_ fun i h1 h2 => ?_
  · simp [hr]
  · simp at h1 h2
    simp [List.getElem?_eq_getElem, h1]

theorem l2Element_eq (rule : Rule D) (hr : rule.points.length = rule.weights.length) (hD : D = 2 ∨ D = 3)
    (Q : ℕ) (r : Geo D × FEF D) (hu : Usable Q r) (reference : (Fin D → ℝ) → ℕ → ℝ) (el : ℕ)
    (P : Spec.Piece D) (hP : Describes Q ⟨r.1.degree, r.1.nodes, r.1.verts el, r.2.degree, r.2.nodes,
      fun k j => r.2.data k j el⟩ P) :
    l2Element rule r.1 r.2 reference el
      = ((rule.points.zip rule.weights).map fun pw => pw.2 * Spec.errorDensity Q P reference pw.1).sum := by
  obtain ⟨hQ, h1, h2, h3, h4⟩ := hu
  have hD' : D = 1 ∨ D = 2 ∨ D = 3 := by omega
  rw [zip_sum rule hr]
  unfold l2Element Spec.errorDensity
  simp only
  rw [sum_comm, range_fin, hQ]
  refine sum_congr rfl fun q _ => ?_
  rw [mul_sum, mul_sum]
  refine sum_congr rfl fun j hj => ?_
  rw [geoMap_eq r.1 hD' h1 h2 rule.points el q q.2 P.F P.DF hP.1,
    jacobian_eq r.1 hD h1 h2 rule.points el q q.2 P.F P.DF hP.1,
    C62_map r.2 hD' h3 h4 rule.points el q j q.2 (P.u j) (hP.2 j (mem_range.1 hj))]
  simp only [Fin.getElem_fin]
  ring

theorem range_list (n : ℕ) (f : ℕ → ℝ) : ∑ k ∈ range n, f k = ((List.range n).map f).sum := by
  induction n with
  | zero => simp
  | succ n ih => rw [sum_range_succ, ih, List.range_succ]; simp

theorem forall2_sum {α β : Type*} {R : α → β → Prop} (f : α → ℝ) (g : β → ℝ) (h : ∀ a b, R a b → f a = g b) :
    ∀ (l : List α) (m : List β), List.Forall₂ R l m → (l.map f).sum = (m.map g).sum := by
  intro l m hlm
  induction hlm with
  | nil => rfl
  | cons h1 _ ih => simp [h _ _ h1, ih]

theorem forall2_append_left {α β : Type*} {R : α → β → Prop} (l1 l2 : List α) (m : List β)
    (h : List.Forall₂ R (l1 ++ l2) m) : ∃ m1 m2, m = m1 ++ m2 ∧ List.Forall₂ R l1 m1 ∧ List.Forall₂ R l2 m2 := by
  induction l1 generalizing m with
  | nil => exact ⟨[], m, rfl, .nil, h⟩
  | cons a l ih =>
    cases h with
    | cons h1 h2 =>
      obtain ⟨m1, m2, rfl, h3, h4⟩ := ih _ h2
      exact ⟨_ :: m1, m2, rfl, .cons h1 h3, h4⟩

theorem rank_sum (rule : Rule D) (hr : rule.points.length = rule.weights.length)
    (hD : D = 2 ∨ D = 3) (Q : ℕ) (reference : (Fin D → ℝ) → ℕ → ℝ)
    (local_ : Geo D → FEF D → ℕ → ℝ) (dens : Spec.Piece D → (Fin D → ℝ) → ℝ)
    (hl : ∀ r : Geo D × FEF D, Usable Q r → ∀ el P, Describes Q ⟨r.1.degree, r.1.nodes, r.1.verts el, r.2.degree, r.2.nodes,
      fun k j => r.2.data k j el⟩ P → local_ r.1 r.2 el = ((rule.points.zip rule.weights).map fun pw => pw.2 * dens P pw.1).sum) :
    ∀ (ranks : List (Geo D × FEF D)) (pieces : List (Spec.Piece D)), (∀ r ∈ ranks, Usable Q r) →
      List.Forall₂ (Describes Q) (ranks.flatMap elems) pieces →
      (ranks.map fun r => ∑ el ∈ range r.2.numElements, local_ r.1 r.2 el).sum
        = (pieces.map fun P => ((rule.points.zip rule.weights).map fun pw => pw.2 * dens P pw.1).sum).sum := by
  intro ranks
  induction ranks with
  | nil =>
    intro pieces _ hp
    cases hp
    simp
  | cons r ranks ih =>
    intro pieces hu hp
    rw [List.flatMap_cons] at hp
    obtain ⟨m1, m2, rfl, h1, h2⟩ := forall2_append_left _ _ _ hp
    rw [List.map_cons, List.sum_cons, List.map_append, List.sum_append, ih m2 (fun r' h' => hu r' (List.mem_cons_of_mem _ h')) h2]
    congr 1
    rw [range_list]
    unfold elems at h1
    rw [List.forall₂_map_left_iff] at h1
    exact forall2_sum _ _ (fun el P h => hl r (hu r List.mem_cons_self) el P h) _ _ h1

/-- C62 (L2 error): on the target rank, `L2` returns the square root of the sum over the elements of all
ranks of the quadrature of the squared difference, weighted with the volume element. -/
theorem C62_L2 (rule : Rule D) (hr : rule.points.length = rule.weights.length) (hD : D = 2 ∨ D = 3) (Q : ℕ)
    (ranks : List (Geo D × FEF D)) (hu : ∀ r ∈ ranks, Usable Q r) (reference : (Fin D → ℝ) → ℕ → ℝ)
    (pieces : List (Spec.Piece D)) (hp : List.Forall₂ (Describes Q) (ranks.flatMap elems) pieces) (targetRank : ℕ) :
    l2 rule ranks reference targetRank targetRank = some (Real.sqrt ((pieces.map fun P =>
      ((rule.points.zip rule.weights).map fun pw => pw.2 * Spec.errorDensity Q P reference pw.1).sum).sum)) := by
  unfold l2 reduce
  rw [if_pos rfl, rank_sum rule hr hD Q reference (fun g f el => l2Element rule g f reference el)
    (fun P => Spec.errorDensity Q P reference) (fun r h el P hP => l2Element_eq rule hr hD Q r h reference el P hP)
    ranks pieces hu hp]

/-- C62 (other ranks): only the target rank gets a result. -/
theorem C62_target (rule : Rule D) (ranks : List (Geo D × FEF D)) (reference : (Fin D → ℝ) → ℕ → ℝ)
    (targetRank rank : ℕ) : ((l2 rule ranks reference targetRank rank).isSome ↔ rank = targetRank) ∧
      ((h1 rule ranks reference targetRank rank).isSome ↔ rank = targetRank) := by
  unfold l2 h1 reduce
  constructor <;> split <;> simp_all

theorem sum_elems (local_ : Geo D → FEF D → ℕ → ℝ) (φ : Elem D → ℝ) (Q : ℕ)
    (h : ∀ (g : Geo D) (f : FEF D) el, f.numQuantities = Q → local_ g f el
      = φ ⟨g.degree, g.nodes, g.verts el, f.degree, f.nodes, fun k j => f.data k j el⟩) :
    ∀ ranks : List (Geo D × FEF D), (∀ r ∈ ranks, r.2.numQuantities = Q) →
    (ranks.map fun r => ∑ el ∈ range r.2.numElements, local_ r.1 r.2 el).sum = ((ranks.flatMap elems).map φ).sum := by
  intro ranks
  induction ranks with
  | nil => simp
  | cons r ranks ih =>
    intro hQ
    rw [List.map_cons, List.sum_cons, List.flatMap_cons, List.map_append, List.sum_append,
      ih fun r' h' => hQ r' (List.mem_cons_of_mem _ h'), range_list]
    congr 2
    unfold elems
    rw [List.map_map]
    exact List.map_congr_left fun el _ => h _ _ _ (hQ r List.mem_cons_self)

/-- C62 (partition): the result depends on the elements only, not on how they are distributed among
the ranks nor on their order. -/
theorem C62_partition (rule : Rule D) (Q : ℕ) (ranks ranks' : List (Geo D × FEF D))
    (hQ : ∀ r ∈ ranks, r.2.numQuantities = Q) (hQ' : ∀ r ∈ ranks', r.2.numQuantities = Q)
    (hperm : (ranks.flatMap elems).Perm (ranks'.flatMap elems)) (reference : (Fin D → ℝ) → ℕ → ℝ) (t : ℕ) :
    l2 rule ranks reference t t = l2 rule ranks' reference t t ∧
    h1 rule ranks reference t t = h1 rule ranks' reference t t := by
  unfold l2 h1 reduce
  simp only [if_true, Option.some.injEq]
  have key : ∀ (local_ : Geo D → FEF D → ℕ → ℝ) (φ : Elem D → ℝ),
      (∀ (g : Geo D) (f : FEF D) el, f.numQuantities = Q → local_ g f el
        = φ ⟨g.degree, g.nodes, g.verts el, f.degree, f.nodes, fun k j => f.data k j el⟩) →
      (ranks.map fun r => ∑ el ∈ range r.2.numElements, local_ r.1 r.2 el).sum
        = (ranks'.map fun r => ∑ el ∈ range r.2.numElements, local_ r.1 r.2 el).sum := by
    intro local_ φ h
    rw [sum_elems local_ φ Q h ranks hQ, sum_elems local_ φ Q h ranks' hQ']
    exact (hperm.map φ).sum_eq
  constructor
  · congr 1
    refine key (fun g f el => l2Element rule g f reference el) (fun e => l2Element rule
      ⟨e.gdegree, e.gnodes, fun _ => e.verts⟩ ⟨e.degree, e.nodes, [], Q, 1, fun k j _ => e.dofs k j⟩ reference 0) ?_
    rintro g f el rfl
    rfl
  · congr 1
    refine key (fun g f el => h1Element rule g f reference el) (fun e => h1Element rule
      ⟨e.gdegree, e.gnodes, fun _ => e.verts⟩ ⟨e.degree, e.nodes, [], Q, 1, fun k j _ => e.dofs k j⟩ reference 0) ?_
    rintro g f el rfl
    rfl

/-- The squared result for nonnegative densities. -/
theorem quad_nonneg (rule : Rule D) (hw : ∀ w ∈ rule.weights, 0 < w) (h : (Fin D → ℝ) → ℝ) (h0 : ∀ ξ, 0 ≤ h ξ) :
    0 ≤ ((rule.points.zip rule.weights).map fun pw => pw.2 * h pw.1).sum := by
  refine List.sum_nonneg fun x hx => ?_
  obtain ⟨pw, hpw, rfl⟩ := List.mem_map.1 hx
  exact mul_nonneg (hw _ (List.of_mem_zip hpw).2).le (h0 _)

theorem density_nonneg (Q : ℕ) (P : Spec.Piece D) (reference : (Fin D → ℝ) → ℕ → ℝ) (ξ : Fin D → ℝ) :
    0 ≤ Spec.errorDensity Q P reference ξ :=
  mul_nonneg (abs_nonneg _) (sum_nonneg fun _ _ => sq_nonneg _)

theorem list_sum_zero (l : List ℝ) (h : ∀ x ∈ l, 0 ≤ x) : l.sum = 0 ↔ ∀ x ∈ l, x = 0 := by
  induction l with
  | nil => simp
  | cons a l ih =>
    have h1 := h a List.mem_cons_self
    have h2 := List.sum_nonneg fun x hx => h x (List.mem_cons_of_mem _ hx)
    rw [List.sum_cons, List.forall_mem_cons, ← ih fun x hx => h x (List.mem_cons_of_mem _ hx)]
    constructor
    · intro hs; constructor <;> linarith
    · rintro ⟨rfl, h3⟩; rw [h3, add_zero]

/-- C62 (zero error): if the weights are positive and the element maps are not degenerate, the result is
zero exactly if the finite element function has the values of the reference at all quadrature points of
all elements. -/
theorem C62_zero (rule : Rule D) (hr : rule.points.length = rule.weights.length)
    (hw : ∀ w ∈ rule.weights, 0 < w) (hD : D = 2 ∨ D = 3) (Q : ℕ)
    (ranks : List (Geo D × FEF D)) (hu : ∀ r ∈ ranks, Usable Q r) (reference : (Fin D → ℝ) → ℕ → ℝ)
    (pieces : List (Spec.Piece D)) (hp : List.Forall₂ (Describes Q) (ranks.flatMap elems) pieces)
    (hdet : ∀ P ∈ pieces, ∀ ξ ∈ rule.points, (P.DF ξ).det ≠ 0) (targetRank : ℕ) :
    l2 rule ranks reference targetRank targetRank = some 0 ↔
      ∀ P ∈ pieces, ∀ ξ ∈ rule.points, ∀ j < Q, reference (P.F ξ) j = P.u j ξ := by
  rw [C62_L2 rule hr hD Q ranks hu reference pieces hp targetRank, Option.some.injEq]
  have hnn : ∀ x ∈ pieces.map fun P => ((rule.points.zip rule.weights).map fun pw => pw.2 * Spec.errorDensity Q P reference pw.1).sum,
      0 ≤ x := by
    intro x hx
    obtain ⟨P, _, rfl⟩ := List.mem_map.1 hx
    exact quad_nonneg rule hw _ (density_nonneg Q P reference)
  rw [Real.sqrt_eq_zero (List.sum_nonneg hnn), list_sum_zero _ hnn, List.forall_mem_map]
  refine forall₂_congr fun P hP => ?_
  rw [list_sum_zero _ fun x hx => by
    obtain ⟨pw, hpw, rfl⟩ := List.mem_map.1 hx
    exact mul_nonneg (hw _ (List.of_mem_zip hpw).2).le (density_nonneg Q P reference _), List.forall_mem_map]
  have hz : ∀ pw ∈ rule.points.zip rule.weights, (pw.2 * Spec.errorDensity Q P reference pw.1 = 0 ↔
      ∀ j < Q, reference (P.F pw.1) j = P.u j pw.1) := by
    intro pw hpw
    obtain ⟨h1, h2⟩ := List.of_mem_zip hpw
    have h3 := (hw _ h2).ne'
    have h4 : |(P.DF pw.1).det| ≠ 0 := abs_ne_zero.2 (hdet P hP _ h1)
    unfold Spec.errorDensity
    rw [mul_eq_zero, mul_eq_zero, or_iff_right h3, or_iff_right h4, sum_eq_zero_iff_of_nonneg fun _ _ => sq_nonneg _]
    simp only [mem_range, pow_eq_zero_iff two_ne_zero, sub_eq_zero]
  constructor
  · intro h ξ hξ
    obtain ⟨i, hi, rfl⟩ := List.getElem_of_mem hξ
    have hm : (rule.points[i], rule.weights[i]'(by omega)) ∈ rule.points.zip rule.weights := by
      rw [List.mem_iff_getElem]
      exact ⟨i, by simp [hi]; omega, by simp⟩
    exact (hz _ hm).1 (h _ hm)
  · intro h pw hpw
    exact (hz pw hpw).2 (h _ (List.of_mem_zip hpw).1)

theorem simplexIntegral_congr (hD : D = 1 ∨ D = 2 ∨ D = 3) (f g : (Fin D → ℝ) → ℝ)
    (h : ∀ x, Spec.InRefSimplex x → f x = g x) : Spec.simplexIntegral D f = Spec.simplexIntegral D g := by
  rcases hD with rfl | rfl | rfl
  · refine intervalIntegral.integral_congr fun x hx => h _ ?_
    rw [Set.uIcc_of_le zero_le_one] at hx
    refine ⟨fun i => ?_, ?_⟩
    · fin_cases i; simpa using hx.1
    · simpa using hx.2
  · refine intervalIntegral.integral_congr fun y hy => ?_
    rw [Set.uIcc_of_le zero_le_one] at hy
    refine intervalIntegral.integral_congr fun x hx => h _ ?_
    rw [Set.uIcc_of_le (by linarith [hy.2])] at hx
    refine ⟨fun i => ?_, ?_⟩
    · fin_cases i
      · simpa using hx.1
      · simpa using hy.1
    · rw [Fin.sum_univ_two]; simp; linarith [hx.2]
  · refine intervalIntegral.integral_congr fun z hz => ?_
    rw [Set.uIcc_of_le zero_le_one] at hz
    refine intervalIntegral.integral_congr fun y hy => ?_
    rw [Set.uIcc_of_le (by linarith [hz.2])] at hy
    refine intervalIntegral.integral_congr fun x hx => h _ ?_
    rw [Set.uIcc_of_le (by linarith [hy.2])] at hx
    refine ⟨fun i => ?_, ?_⟩
    · fin_cases i
      · simpa using hx.1
      · simpa using hy.1
      · simpa using hz.1
    · rw [Fin.sum_univ_three]; simp; linarith [hx.2]

/-- C62 (accuracy): with the rule of order 20 that the program selects, the square of the result is the
integral of the squared error over all elements up to a relative error of `10^-11`, provided that the
integrand is a polynomial of degree at most 20 on the reference simplex. -/
theorem C62_accuracy (hD : D = 2 ∨ D = 3) (Q : ℕ)
    (ranks : List (Geo D × FEF D)) (hu : ∀ r ∈ ranks, Usable Q r) (reference : (Fin D → ℝ) → ℕ → ℝ)
    (pieces : List (Spec.Piece D)) (hp : List.Forall₂ (Describes Q) (ranks.flatMap elems) pieces)
    (p : Spec.Piece D → MvPolynomial (Fin D) ℝ) (hdeg : ∀ P ∈ pieces, (p P).totalDegree ≤ 20)
    (hpoly : ∀ P ∈ pieces, ∀ ξ, Spec.InRefSimplex ξ →
      Spec.errorDensity Q P reference ξ = MvPolynomial.eval ξ (p P)) (targetRank : ℕ) :
    ∃ x, l2 (QuadTable.programRule D 20).rule ranks reference targetRank targetRank = some x ∧ 0 ≤ x ∧
      |x ^ 2 - (pieces.map fun P => Spec.simplexIntegral D (Spec.errorDensity Q P reference)).sum|
        ≤ 1 / 10 ^ 11 * (pieces.map fun P => Spec.coeffSum (p P)).sum := by
  have hD' : D = 1 ∨ D = 2 ∨ D = 3 := by omega
  obtain ⟨N, _, hN, ha, hw, hin⟩ := QuadTable.C84_program D 20 hD' le_rfl
  set rule := (QuadTable.programRule D 20).rule
  refine ⟨_, C62_L2 rule ha.1 hD Q ranks hu reference pieces hp targetRank, Real.sqrt_nonneg _, ?_⟩
  rw [Real.sq_sqrt (List.sum_nonneg fun x hx => by
    obtain ⟨P, _, rfl⟩ := List.mem_map.1 hx
    exact quad_nonneg rule hw _ (density_nonneg Q P reference))]
  clear hp
  induction pieces with
  | nil => simp
  | cons P pieces ih =>
    have ih := ih (fun P' h' => hdeg P' (List.mem_cons_of_mem _ h')) (fun P' h' => hpoly P' (List.mem_cons_of_mem _ h'))
    simp only [List.map_cons, List.sum_cons]
    have h1 := ha.2 (p P) ((hdeg P List.mem_cons_self).trans hN)
    rw [← simplexIntegral_congr hD' _ _ (hpoly P List.mem_cons_self)] at h1
    have e : ((rule.points.zip rule.weights).map fun pw => pw.2 * MvPolynomial.eval pw.1 (p P))
        = ((rule.points.zip rule.weights).map fun pw => pw.2 * Spec.errorDensity Q P reference pw.1) :=
      List.map_congr_left fun pw hpw => by
        rw [hpoly P List.mem_cons_self _ (hin _ (List.of_mem_zip hpw).1)]
    rw [e] at h1
    rw [mul_add]
    refine le_trans ?_ (add_le_add h1 ih)
    refine le_trans (le_of_eq ?_) (abs_add_le _ _)
    congr 1; ring

theorem isPoly_comp (N : ℕ) (f : (Fin D → ℝ) → ℝ) (hf : Spec.IsPoly D N f) (F : (Fin D → ℝ) → Fin D → ℝ)
    (hF : ∀ d, Spec.IsPoly D 1 (fun ξ => F ξ d)) : Spec.IsPoly D N (fun ξ => f (F ξ)) := by
  obtain ⟨p, hp, hf⟩ := hf
  have e : (fun ξ => f (F ξ)) = fun ξ : Fin D → ℝ => ∑ m ∈ p.support, p.coeff m * ∏ d, (F ξ d) ^ m d := by
    funext x; rw [hf, MvPolynomial.eval_eq']
  rw [e]
  refine isPoly_sum D N _ _ fun m hm => isPoly_const_mul D N _ _ ?_
  have hdeg := (MvPolynomial.le_totalDegree hm).trans hp
  rw [Finsupp.sum_fintype _ _ (fun _ => rfl)] at hdeg
  refine isPoly_mono D _ N hdeg _ (isPoly_prod D univ (fun d => m d) _ fun d _ => ?_)
  have := isPoly_prod D (range (m d)) (fun _ => 1) (fun _ ξ => F ξ d) (fun _ _ => hF d)
  simpa using this

/-- C62 (straight elements): if the elements are straight and function and reference are polynomials of
degree at most 10, then the integrand is a polynomial of degree at most 20, as `C62_accuracy` requires. -/
theorem C62_straight (Q : ℕ) (e : Elem D) (P : Spec.Piece D) (hP : Describes Q e P)
    (A : Matrix (Fin D) (Fin D) ℝ) (b : Fin D → ℝ) (hA : ∀ ξ, P.F ξ = A.mulVec ξ + b)
    (hdeg : e.degree ≤ 10) (reference : (Fin D → ℝ) → ℕ → ℝ)
    (href : ∀ j < Q, Spec.IsPoly D 10 (fun x => reference x j)) :
    ∃ p : MvPolynomial (Fin D) ℝ, p.totalDegree ≤ 20 ∧
      ∀ ξ, Spec.errorDensity Q P reference ξ = MvPolynomial.eval ξ p := by
  have hDF : ∀ ξ, P.DF ξ = A := by
    intro ξ
    funext i
    refine gradient_unique (fun x => P.F x i) _ _ ξ ((hP.1 i).2 ξ) fun v => ?_
    have e : (fun t : ℝ => P.F (fun d => ξ d + t * v d) i) = fun t => (A.mulVec ξ i + b i) + t * ∑ d, A i d * v d := by
      funext t
      rw [hA]
      simp only [Pi.add_apply, Matrix.mulVec, dotProduct, mul_add, sum_add_distrib, mul_sum]
      rw [add_right_comm]
      congr 2
      funext d; ring
    rw [e]
    have := ((hasDerivAt_id (0:ℝ)).mul_const (∑ d, A i d * v d)).const_add (A.mulVec ξ i + b i)
    simpa using this
  have hF1 : ∀ d, Spec.IsPoly D 1 (fun ξ => P.F ξ d) := by
    intro d
    have e : (fun ξ => P.F ξ d) = fun ξ => (∑ k, A d k * ξ k) + b d := by funext ξ; rw [hA]; rfl
    rw [e]
    exact isPoly_add D 1 _ _ (isPoly_sum D 1 univ _ fun k _ => isPoly_const_mul D 1 _ _ (isPoly_coord D k))
      (isPoly_const D 1 _)
  suffices h : Spec.IsPoly D 20 (Spec.errorDensity Q P reference) by
    obtain ⟨p, h1, h2⟩ := h
    exact ⟨p, h1, h2⟩
  have e : Spec.errorDensity Q P reference = fun ξ => |A.det| * ∑ j ∈ range Q,
      (reference (P.F ξ) j + (-1) * P.u j ξ) * (reference (P.F ξ) j + (-1) * P.u j ξ) := by
    funext ξ
    unfold Spec.errorDensity
    rw [hDF]
    congr 1
    exact sum_congr rfl fun j _ => by ring
  rw [e]
  refine isPoly_const_mul D 20 _ _ (isPoly_sum D 20 _ _ fun j hj => ?_)
  have h1 : Spec.IsPoly D 10 fun ξ => reference (P.F ξ) j + (-1) * P.u j ξ :=
    isPoly_add D 10 _ _ (isPoly_comp 10 _ (href j (mem_range.1 hj)) P.F hF1)
      (isPoly_const_mul D 10 _ _ (isPoly_mono D _ 10 hdeg _ (hP.2 j (mem_range.1 hj)).1))
  exact isPoly_mul D 10 10 _ _ h1 h1

/-- The element contribution of `H1_semi` for the index of the program. -/
theorem h1Element_eq (rule : Rule D) (hr : rule.points.length = rule.weights.length) (hD : D = 2 ∨ D = 3)
    (Q : ℕ) (r : Geo D × FEF D) (hu : Usable Q r) (reference : (Fin D → ℝ) → ℕ → ℝ) (el : ℕ)
    (P : Spec.Piece D) (hP : Describes Q ⟨r.1.degree, r.1.nodes, r.1.verts el, r.2.degree, r.2.nodes,
      fun k j => r.2.data k j el⟩ P) (γ : ℕ → (Fin D → ℝ) → Fin D → ℝ)
    (hγ : ∀ ξ ∈ rule.points, (P.DF ξ).det ≠ 0 ∧ ∀ i < Q, Spec.PhysicalGradient P i ξ (γ i ξ)) :
    h1Element rule r.1 r.2 reference el
      = ((rule.points.zip rule.weights).map fun pw => pw.2 * (|(P.DF pw.1).det| *
          ∑ i ∈ range Q, ∑ d : Fin D, (reference (P.F pw.1) (h1Index Q i d) - γ i pw.1 d) ^ 2)).sum := by
  obtain ⟨hQ, h1, h2, h3, h4⟩ := hu
  have hD' : D = 1 ∨ D = 2 ∨ D = 3 := by omega
  rw [zip_sum rule hr (fun ξ => |(P.DF ξ).det| *
          ∑ i ∈ range Q, ∑ d : Fin D, (reference (P.F ξ) (h1Index Q i d) - γ i ξ d) ^ 2)]
  unfold h1Element
  simp only
  rw [hQ]
  have e : ∀ i ∈ range Q, ∀ d : Fin D, ∀ q : Fin rule.points.length,
      rule.weights.getD q 0 * |(jacobian r.1 el (geoGrad r.1 rule.points) q).det|
        * (reference (geoMap r.1 el (geoBasis r.1 rule.points) q) (h1Index Q i d)
          - gradient r.2 el (gradientEvaluationTensor r.2 rule.points)
            (fun q => (jacobian r.1 el (geoGrad r.1 rule.points) q)⁻¹) q i d)
        * (reference (geoMap r.1 el (geoBasis r.1 rule.points) q) (h1Index Q i d)
          - gradient r.2 el (gradientEvaluationTensor r.2 rule.points)
            (fun q => (jacobian r.1 el (geoGrad r.1 rule.points) q)⁻¹) q i d)
      = rule.weights.getD q 0 * |(P.DF rule.points[q]).det| *
        (reference (P.F rule.points[q]) (h1Index Q i d) - γ i rule.points[q] d) ^ 2 := by
    intro i hi d q
    have hm : rule.points[q] ∈ rule.points := List.getElem_mem q.2
    rw [geoMap_eq r.1 hD' h1 h2 rule.points el q q.2 P.F P.DF hP.1,
      C62_gradient r.2 r.1 hD h3 h4 h1 h2 rule.points el q i q.2 P (hP.2 i (mem_range.1 hi)) hP.1 (hγ _ hm).1
        (γ i rule.points[q]) ((hγ _ hm).2 i (mem_range.1 hi)) d,
      jacobian_eq r.1 hD h1 h2 rule.points el q q.2 P.F P.DF hP.1]
    simp only [Fin.getElem_fin]
    ring
  have e2 : ∀ i ∈ range Q, ∀ d : Fin D, ∑ q ∈ range rule.points.length, (
      rule.weights.getD q 0 * |(jacobian r.1 el (geoGrad r.1 rule.points) q).det|
        * (reference (geoMap r.1 el (geoBasis r.1 rule.points) q) (h1Index Q i d)
          - gradient r.2 el (gradientEvaluationTensor r.2 rule.points)
            (fun q => (jacobian r.1 el (geoGrad r.1 rule.points) q)⁻¹) q i d)
        * (reference (geoMap r.1 el (geoBasis r.1 rule.points) q) (h1Index Q i d)
          - gradient r.2 el (gradientEvaluationTensor r.2 rule.points)
            (fun q => (jacobian r.1 el (geoGrad r.1 rule.points) q)⁻¹) q i d))
      = ∑ q : Fin rule.points.length, rule.weights.getD q 0 * |(P.DF rule.points[q]).det| *
        (reference (P.F rule.points[q]) (h1Index Q i d) - γ i rule.points[q] d) ^ 2 := by
    intro i hi d
    rw [range_fin]
    exact sum_congr rfl fun q _ => e i hi d q
  rw [sum_congr rfl fun i hi => sum_congr rfl fun d _ => e2 i hi d]
  rw [sum_congr rfl fun i _ => sum_comm, sum_comm]
  refine sum_congr rfl fun q _ => ?_
  rw [mul_sum, mul_sum]
  refine sum_congr rfl fun i _ => ?_
  rw [mul_sum, mul_sum]
  exact sum_congr rfl fun d _ => by ring

/-- The pieces of all ranks with their gradients: the sum over the ranks for the index of the program. -/
theorem h1_eq (rule : Rule D) (hr : rule.points.length = rule.weights.length) (hD : D = 2 ∨ D = 3) (Q : ℕ)
    (ranks : List (Geo D × FEF D)) (hu : ∀ r ∈ ranks, Usable Q r) (reference : (Fin D → ℝ) → ℕ → ℝ)
    (pieces : List (Spec.Piece D)) (γ : Spec.Piece D → ℕ → (Fin D → ℝ) → Fin D → ℝ)
    (hγ : ∀ P ∈ pieces, ∀ ξ ∈ rule.points, (P.DF ξ).det ≠ 0 ∧ ∀ i < Q, Spec.PhysicalGradient P i ξ (γ P i ξ))
    (hp : List.Forall₂ (Describes Q) (ranks.flatMap elems) pieces) (targetRank : ℕ) :
    h1 rule ranks reference targetRank targetRank = some (Real.sqrt ((pieces.map fun P =>
      ((rule.points.zip rule.weights).map fun pw => pw.2 * (|(P.DF pw.1).det| *
          ∑ i ∈ range Q, ∑ d : Fin D, (reference (P.F pw.1) (h1Index Q i d) - γ P i pw.1 d) ^ 2)).sum).sum)) := by
  unfold h1 reduce
  rw [if_pos rfl]
  congr 2
  induction ranks generalizing pieces with
  | nil => cases hp; simp
  | cons r ranks ih =>
    rw [List.flatMap_cons] at hp
    obtain ⟨m1, m2, rfl, k1, k2⟩ := forall2_append_left _ _ _ hp
    rw [List.map_cons, List.sum_cons, List.map_append, List.sum_append,
      ih (fun r' h' => hu r' (List.mem_cons_of_mem _ h')) m2
        (fun P hP => hγ P (List.mem_append_right _ hP)) k2]
    congr 1
    rw [range_list]
    unfold elems at k1
    rw [List.forall₂_map_left_iff] at k1
    have hγ1 := fun P hP => hγ P (List.mem_append_left m2 hP)
    clear hp hγ
    generalize List.range r.2.numElements = l at k1
    induction k1 with
    | nil => rfl
    | cons a b ih2 =>
      rw [List.map_cons, List.sum_cons, List.map_cons, List.sum_cons,
        ih2 fun P hP => hγ1 P (List.mem_cons_of_mem _ hP),
        h1Element_eq rule hr hD Q r (hu r List.mem_cons_self) reference _ _ a (γ _) (hγ1 _ List.mem_cons_self)]

/-- C62 (H1 semi-norm): for scalar functions and for functions with as many components as dimensions,
`H1_semi` returns the square root of the sum over all elements of the quadrature of the squared
distance of the gradients with respect to the physical coordinates. -/
theorem C62_H1 (rule : Rule D) (hr : rule.points.length = rule.weights.length) (hD : D = 2 ∨ D = 3) (Q : ℕ)
    (hQ : Q = 1 ∨ Q = D)
    (ranks : List (Geo D × FEF D)) (hu : ∀ r ∈ ranks, Usable Q r) (reference : (Fin D → ℝ) → ℕ → ℝ)
    (pieces : List (Spec.Piece D)) (γ : Spec.Piece D → ℕ → (Fin D → ℝ) → Fin D → ℝ)
    (hγ : ∀ P ∈ pieces, ∀ ξ ∈ rule.points, (P.DF ξ).det ≠ 0 ∧ ∀ i < Q, Spec.PhysicalGradient P i ξ (γ P i ξ))
    (hp : List.Forall₂ (Describes Q) (ranks.flatMap elems) pieces) (targetRank : ℕ) :
    h1 rule ranks reference targetRank targetRank = some (Real.sqrt ((pieces.map fun P =>
      ((rule.points.zip rule.weights).map fun pw =>
        pw.2 * Spec.gradientErrorDensity Q P (γ P) reference pw.1).sum).sum)) := by
  rw [h1_eq rule hr hD Q ranks hu reference pieces γ hγ hp targetRank]
  unfold Spec.gradientErrorDensity h1Index
  have : ∀ i ∈ range Q, ∀ d : Fin D, i * Q + d.val = i * D + d.val := by
    intro i hi d
    rcases hQ with rfl | rfl
    · have : i = 0 := by simpa using hi
      simp [this]
    · rfl
  congr 4
  funext P
  congr 2
  funext pw
  congr 2
  exact sum_congr rfl fun i hi => sum_congr rfl fun d _ => by rw [this i hi d]

/-! ## Facets -/

/-- The facets of a rank. -/
def facets (r : FacetRank D) : List (FacetRank D × ℕ) := (List.range r.fun_.numElements).map fun b => (r, b)

/-- The piece `P` describes facet `b` of a rank: it is the restriction of the map of the first element
of the facet to the facet, and its functions interpolate the degrees of freedom. -/
def DescribesFacet (Q : ℕ) (points : List (Fin D → ℝ)) (x : FacetRank D × ℕ) (P : Spec.FacetPiece D) : Prop :=
  ∃ (fct el : ℕ) (f : Fin (D + 2)) (F : (Fin (D + 1) → ℝ) → Fin (D + 1) → ℝ)
    (DF : (Fin (D + 1) → ℝ) → Matrix (Fin (D + 1)) (Fin (D + 1)) ℝ),
    x.1.fctNos[x.2]? = some fct ∧ (x.1.mesh.upward fct)[0]? = some el ∧
    (x.1.mesh.downward el).Nodup ∧ (x.1.mesh.downward el)[f.val]? = some fct ∧
    Spec.ElementMap (D + 1) x.1.geo.degree x.1.geo.nodes (x.1.geo.verts el) F DF ∧
    (∀ χ ∈ points, (DF (Curvilinear.facetParam f χ)).det ≠ 0) ∧
    (∀ χ, P.G χ = F (Curvilinear.facetParam f χ)) ∧
    (∀ χ i, Spec.IsGradient (fun χ => P.G χ i) (fun k => P.T χ k i) χ) ∧
    ∀ j < Q, Spec.Interpolates D x.1.fun_.degree x.1.fun_.nodes (fun k => x.1.fun_.data k j x.2) (P.u j)

/-- The spaces of a rank are usable. -/
def UsableFacets (Q : ℕ) (r : FacetRank D) : Prop :=
  r.fun_.numQuantities = Q ∧ r.geo.nodes.length = nbf (D + 1) r.geo.degree ∧
    Spec.Unisolvent (D + 1) r.geo.degree r.geo.nodes ∧
    r.fun_.nodes.length = nbf D r.fun_.degree ∧ Spec.Unisolvent D r.fun_.degree r.fun_.nodes

/-- The tangents of a facet are the images of its edges. -/
theorem tangent_eq (f : Fin (D + 2)) (F : (Fin (D + 1) → ℝ) → Fin (D + 1) → ℝ)
    (DF : (Fin (D + 1) → ℝ) → Matrix (Fin (D + 1)) (Fin (D + 1)) ℝ)
    (hF : ∀ i ξ, Spec.IsGradient (fun x => F x i) (DF ξ i) ξ) (P : Spec.FacetPiece D)
    (hG : ∀ χ, P.G χ = F (Curvilinear.facetParam f χ))
    (hT : ∀ χ i, Spec.IsGradient (fun χ => P.G χ i) (fun k => P.T χ k i) χ) (χ : Fin D → ℝ) (k : Fin D) :
    P.T χ k = (DF (Curvilinear.facetParam f χ)).mulVec
      (Equidistant.refVertices (D + 1) (Curvilinear.f2v f k.succ) - Equidistant.refVertices (D + 1) (Curvilinear.f2v f 0)) := by
  funext i
  have h1 := hT χ i (Pi.single k 1)
  set w := Equidistant.refVertices (D + 1) (Curvilinear.f2v f k.succ) - Equidistant.refVertices (D + 1) (Curvilinear.f2v f 0)
  have h2 := hF i (Curvilinear.facetParam f χ) w
  have e : (fun t : ℝ => P.G (fun d => χ d + t * (Pi.single k 1 : Fin D → ℝ) d) i)
      = fun t : ℝ => F (fun d => Curvilinear.facetParam f χ d + t * w d) i := by
    funext t
    rw [hG]
    congr 1
    funext d
    have hs : ∑ x, (χ x + t * (Pi.single k 1 : Fin D → ℝ) x) = ∑ x, χ x + t := by
      rw [sum_add_distrib, ← mul_sum]; simp
    have hs2 : ∑ x, (χ x + t * (Pi.single k 1 : Fin D → ℝ) x) * Equidistant.refVertices (D + 1) (Curvilinear.f2v f x.succ) d
        = ∑ x, χ x * Equidistant.refVertices (D + 1) (Curvilinear.f2v f x.succ) d
          + t * Equidistant.refVertices (D + 1) (Curvilinear.f2v f k.succ) d := by
      simp only [add_mul, sum_add_distrib]
      congr 1
      rw [sum_eq_single k]
      · simp
      · intro b _ hb; simp [Pi.single_apply, hb]
      · simp
    simp only [Curvilinear.facetParam, hs, hs2, w, Pi.sub_apply]
    ring
  rw [e] at h1
  have := h1.unique h2
  have e3 : ∑ x, P.T χ x i * (Pi.single k 1 : Fin D → ℝ) x = P.T χ k i := by simp [Pi.single_apply]
  rw [e3] at this
  rw [this]
  rfl

/-- The length of the normal is the area element of the facet. -/
theorem area_eq (hD : D = 1 ∨ D = 2) (f : Fin (D + 2)) (F : (Fin (D + 1) → ℝ) → Fin (D + 1) → ℝ)
    (DF : (Fin (D + 1) → ℝ) → Matrix (Fin (D + 1)) (Fin (D + 1)) ℝ)
    (hF : ∀ i ξ, Spec.IsGradient (fun x => F x i) (DF ξ i) ξ) (P : Spec.FacetPiece D)
    (hG : ∀ χ, P.G χ = F (Curvilinear.facetParam f χ))
    (hT : ∀ χ i, Spec.IsGradient (fun χ => P.G χ i) (fun k => P.T χ k i) χ) (χ : Fin D → ℝ)
    (hdet : (DF (Curvilinear.facetParam f χ)).det ≠ 0) :
    Curvilinear.norm (Curvilinear.normal f (DF (Curvilinear.facetParam f χ))) = Spec.areaElement D (P.T χ) := by
  have ht := tangent_eq f F DF hF P hG hT χ
  rcases hD with rfl | rfl
  · rw [Curvilinear.C58_normal_length.1 f _ hdet]
    unfold Curvilinear.norm Curvilinear.dot
    rw [show Spec.areaElement 1 (P.T χ) = Real.sqrt (∑ i, P.T χ 0 i ^ 2) from rfl, ht 0]
    congr 1
    exact sum_congr rfl fun i _ => (sq _).symm
  · rw [Curvilinear.C58_normal_length.2 f _ hdet]
    unfold Curvilinear.norm Curvilinear.dot
    rw [show Spec.areaElement 2 (P.T χ) = Real.sqrt (∑ i, (crossProduct (P.T χ 0) (P.T χ 1)) i ^ 2) from rfl, ht 0, ht 1]
    congr 1
    refine sum_congr rfl fun i _ => ?_
    rw [← sq]
    congr 1
    fin_cases i <;> simp [Curvilinear.cross, crossProduct]

theorem l2Facet_eq (rule : Rule D) (hr : rule.points.length = rule.weights.length) (hD : D = 1 ∨ D = 2)
    (Q : ℕ) (r : FacetRank D) (hu : UsableFacets Q r) (reference : (Fin (D + 1) → ℝ) → ℕ → ℝ) (b : ℕ)
    (P : Spec.FacetPiece D) (hP : DescribesFacet Q rule.points (r, b) P) :
    l2Facet rule r.mesh r.geo r.fun_ r.fctNos reference b
      = some ((rule.points.zip rule.weights).map fun pw => pw.2 * Spec.facetErrorDensity Q P reference pw.1).sum := by
  obtain ⟨hQ, h1, h2, h3, h4⟩ := hu
  obtain ⟨fct, el, f, F, DF, k1, k2, k3, k4, k5, k6, k7, k8, k9⟩ := hP
  have hidx : (r.mesh.downward el).idxOf fct = f.val := by
    obtain ⟨hlt, he⟩ := List.getElem?_eq_some_iff.1 k4
    rw [← he]
    exact k3.idxOf_getElem _ _
  have hDD : D + 1 = 1 ∨ D + 1 = 2 ∨ D + 1 = 3 := by omega
  unfold l2Facet
  rw [k1]
  simp only [Option.bind_eq_bind, Option.bind_some, k2]
  have hlt : (r.mesh.downward el).idxOf fct < D + 2 := by rw [hidx]; exact f.2
  rw [dif_pos hlt]
  have hf : (⟨(r.mesh.downward el).idxOf fct, hlt⟩ : Fin (D + 2)) = f := Fin.ext hidx
  rw [hf, zip_sum rule hr]
  congr 1
  rw [range_fin, hQ]
  refine sum_congr rfl fun q _ => ?_
  unfold Spec.facetErrorDensity
  rw [mul_sum, mul_sum]
  refine sum_congr rfl fun j hj => ?_
  have hq : q.val < (rule.points.map (Curvilinear.facetParam f)).length := by simp
  have hm : rule.points[q.val] ∈ rule.points := List.getElem_mem _
  rw [geoMap_eq r.geo hDD h1 h2 _ el q hq F DF k5, jacobian_eq r.geo (by omega) h1 h2 _ el q hq F DF k5,
    C62_map r.fun_ (by omega) h3 h4 rule.points b q j q.2 (P.u j) (k9 j (mem_range.1 hj))]
  simp only [List.getElem_map, Fin.getElem_fin]
  rw [area_eq hD f F DF (fun i ξ => (k5 i).2 ξ) P k7 k8 _ (k6 _ hm), k7]
  ring

theorem mapM_some {α β : Type*} (f : α → Option β) (g : α → β) (l : List α) (h : ∀ a ∈ l, f a = some (g a)) :
    l.mapM f = some (l.map g) := by
  induction l with
  | nil => rfl
  | cons a l ih =>
    rw [List.mapM_cons, h a List.mem_cons_self, ih fun b hb => h b (List.mem_cons_of_mem _ hb)]
    rfl

theorem mapM_forall2 {α β γ : Type*} {R : α → γ → Prop} (f : α → Option β) (g : γ → β)
    (h : ∀ a c, R a c → f a = some (g c)) : ∀ (l : List α) (m : List γ), List.Forall₂ R l m → l.mapM f = some (m.map g) := by
  intro l m hlm
  induction hlm with
  | nil => rfl
  | cons h1 _ ih => rw [List.mapM_cons, h _ _ h1, ih]; rfl

/-- C62 (L2 error on facets): on the target rank, the facet version of `L2` returns the square root of
the sum over the facets of all ranks of the quadrature of the squared difference, weighted with the
length or area element of the facet. -/
theorem C62_facets (rule : Rule D) (hr : rule.points.length = rule.weights.length) (hD : D = 1 ∨ D = 2) (Q : ℕ)
    (ranks : List (FacetRank D)) (hu : ∀ r ∈ ranks, UsableFacets Q r)
    (reference : (Fin (D + 1) → ℝ) → ℕ → ℝ) (pieces : List (Spec.FacetPiece D))
    (hp : List.Forall₂ (DescribesFacet Q rule.points) (ranks.flatMap facets) pieces) (targetRank : ℕ) :
    l2Facets rule ranks reference targetRank targetRank = some (Real.sqrt ((pieces.map fun P =>
      ((rule.points.zip rule.weights).map fun pw => pw.2 * Spec.facetErrorDensity Q P reference pw.1).sum).sum)) := by
  have key : ∃ c : List ℝ, (ranks.mapM fun r => l2FacetLocal rule r reference) = some c ∧ c.sum = (pieces.map fun P =>
      ((rule.points.zip rule.weights).map fun pw => pw.2 * Spec.facetErrorDensity Q P reference pw.1).sum).sum := by
    induction ranks generalizing pieces with
    | nil => cases hp; exact ⟨[], rfl, by simp⟩
    | cons r ranks ih =>
      rw [List.flatMap_cons] at hp
      obtain ⟨m1, m2, rfl, k1, k2⟩ := forall2_append_left _ _ _ hp
      obtain ⟨c, hc, hs⟩ := ih (fun r' h' => hu r' (List.mem_cons_of_mem _ h')) m2 k2
      unfold facets at k1
      rw [List.forall₂_map_left_iff] at k1
      have := mapM_forall2 (l2Facet rule r.mesh r.geo r.fun_ r.fctNos reference) (fun P =>
        ((rule.points.zip rule.weights).map fun pw => pw.2 * Spec.facetErrorDensity Q P reference pw.1).sum)
        (fun b P h => l2Facet_eq rule hr hD Q r (hu r List.mem_cons_self) reference b P h) _ _ k1
      refine ⟨(m1.map fun P => ((rule.points.zip rule.weights).map fun pw =>
        pw.2 * Spec.facetErrorDensity Q P reference pw.1).sum).sum :: c, ?_, ?_⟩
      · rw [List.mapM_cons, hc]
        unfold l2FacetLocal
        rw [this]
        rfl
      · rw [List.sum_cons, hs, List.map_append, List.sum_append]
  obtain ⟨c, hc, hs⟩ := key
  unfold l2Facets
  rw [hc]
  unfold reduce
  rw [Option.bind_some, if_pos rfl, hs]

/-- C62 (names): a function made with names has one quantity per name and returns these names; a
function made without names returns `q0`, `q1`, ... -/
theorem C62_names (degree : ℕ) (nodes : List (Fin D → ℝ)) (names : List String) (n numElements q : ℕ) :
    (names ≠ [] → ∀ hq : q < (ofNames degree nodes names numElements).numQuantities,
      name (ofNames degree nodes names numElements) q = some (names[q]'hq)) ∧
    (q < (ofNumber degree nodes n numElements).numQuantities →
      name (ofNumber degree nodes n numElements) q = some ("q" ++ toString q)) := by
  constructor
  · intro h hq
    unfold name ofNames
    simp only [List.isEmpty_iff, h, if_false]
    exact List.getElem?_eq_getElem hq
  · intro _
    rfl

/-! ## Concrete cases -/

/-- One reference tetrahedron with linear functions, `u_0 = 0` and `u_1 = z`. -/
noncomputable def exampleRank (Q : ℕ) : Geo 3 × FEF 3 :=
  (⟨1, Equidistant.nodes .VTK 3 1, fun _ k => (Equidistant.nodes .VTK 3 1).getD k 0⟩,
    ⟨1, Equidistant.nodes .VTK 3 1, [], Q, 1, fun k j _ => if j = 1 then (Equidistant.nodes .VTK 3 1).getD k 0 2 else 0⟩)

/-- The same element and functions, described mathematically. -/
noncomputable def examplePiece : Spec.Piece 3 := ⟨id, fun _ => 1, fun j ξ => if j = 1 then ξ 2 else 0⟩

theorem example_usable (Q : ℕ) : Usable Q (exampleRank Q) := by
  have h1 := (Equidistant.C61_lattice .VTK 3 1 (by decide) (by decide)).2.1
  have h2 := (C78_unisolvent 3 1 (by decide) _ h1).1 (C78_equidistant .VTK 3 1 (by decide) (by decide))
  exact ⟨rfl, h1, h2, h1, h2⟩

theorem example_describes (Q : ℕ) :
    List.Forall₂ (Describes Q) ([exampleRank Q].flatMap elems) [examplePiece] := by
  have : [exampleRank Q].flatMap elems = [⟨1, Equidistant.nodes .VTK 3 1, fun k => (Equidistant.nodes .VTK 3 1).getD k 0,
      1, Equidistant.nodes .VTK 3 1, fun k j => if j = 1 then (Equidistant.nodes .VTK 3 1).getD k 0 2 else 0⟩] := rfl
  rw [this]
  refine .cons ⟨fun i => ⟨⟨isPoly_coord 3 i, fun k hk => ?_⟩, fun ξ v => ?_⟩, fun j hj => ⟨?_, fun k hk => ?_⟩⟩ .nil
  · simp only [examplePiece, id]
    rw [List.getD_eq_getElem _ _ hk]
  · simp only [examplePiece, id]
    have e : ∑ d, (1 : Matrix (Fin 3) (Fin 3) ℝ) i d * v d = v i := by simp [Matrix.one_apply]
    rw [e]
    have := ((hasDerivAt_id (0:ℝ)).mul_const (v i)).const_add (ξ i)
    simpa using this
  · simp only [examplePiece]
    by_cases h : j = 1
    · simp only [h, if_true]; exact isPoly_coord 3 2
    · simp only [h, if_false]; exact isPoly_const 3 1 0
  · simp only [examplePiece]
    rw [List.getD_eq_getElem _ _ hk]

/-- The gradients of the example. -/
theorem example_gradient (i : ℕ) (ξ : Fin 3 → ℝ) :
    Spec.PhysicalGradient examplePiece i ξ (if i = 1 then Pi.single 2 1 else 0) := by
  by_cases h : i = 1
  · refine ⟨fun x => x 2, ContinuousLinearMap.proj (R := ℝ) (φ := fun _ : Fin 3 => ℝ) 2, ?_, ?_, ?_⟩
    · simp [examplePiece, h]
    · exact (ContinuousLinearMap.proj (R := ℝ) (φ := fun _ : Fin 3 => ℝ) 2).hasFDerivAt
    · intro d; simp [h, Pi.single_apply, eq_comm]
  · refine ⟨fun _ => 0, 0, ?_, hasFDerivAt_const _ _, ?_⟩
    · simp [examplePiece, h]
    · intro d; simp [h]

/-- C62 (wrong reference entry): for two quantities in three dimensions `H1_semi` compares the
derivatives of the second quantity with entries 2, 3, 4 of the reference, not 3, 4, 5: here the
reference has the exact gradients everywhere, and yet the result is not zero. -/
theorem C62_H1_wrong_entry (rule : Rule 3) (hr : rule.points.length = rule.weights.length)
    (hw : ∀ w ∈ rule.weights, 0 < w) (hne : rule.weights ≠ []) (targetRank : ℕ) :
    let reference : (Fin 3 → ℝ) → ℕ → ℝ := fun _ n => if n = 5 then 1 else 0
    (∀ ξ, Spec.PhysicalGradient examplePiece 0 ξ (fun d => reference ξ d) ∧
      Spec.PhysicalGradient examplePiece 1 ξ (fun d => reference ξ (3 + d))) ∧
    ∃ x, h1 rule [exampleRank 2] reference targetRank targetRank = some x ∧ 0 < x := by
  intro reference
  refine ⟨fun ξ => ⟨?_, ?_⟩, ?_⟩
  · have := example_gradient 0 ξ
    rw [if_neg (by decide)] at this
    convert this using 1
    funext d; fin_cases d <;> simp [reference]
  · have := example_gradient 1 ξ
    rw [if_pos rfl] at this
    convert this using 1
    funext d; fin_cases d <;> simp [reference]
  · refine ⟨_, h1_eq rule hr (by decide) 2 [exampleRank 2] (by
      intro r hr; rw [List.mem_singleton.1 hr]; exact example_usable 2) reference [examplePiece]
      (fun _ i _ => if i = 1 then Pi.single 2 1 else 0) (fun P hP ξ _ => by
        rw [List.mem_singleton.1 hP]
        exact ⟨by simp [examplePiece], fun i _ => example_gradient i ξ⟩) (example_describes 2) targetRank, ?_⟩
    rw [Real.sqrt_pos]
    simp only [List.map_cons, List.map_nil, List.sum_cons, List.sum_nil, add_zero]
    have e : ∀ pw : (Fin 3 → ℝ) × ℝ, pw.2 * (|(examplePiece.DF pw.1).det| * ∑ i ∈ range 2, ∑ d : Fin 3,
        (reference (examplePiece.F pw.1) (h1Index 2 i d) - (if i = 1 then Pi.single 2 1 else 0 : Fin 3 → ℝ) d) ^ 2) = pw.2 := by
      intro pw
      simp [examplePiece, sum_range_succ, Fin.sum_univ_three, h1Index, reference]
    simp only [e]
    have : (rule.points.zip rule.weights).map (fun pw => pw.2) = rule.weights := by
      exact List.map_snd_zip (by omega)
    rw [this]
    exact List.sum_pos _ hw hne

/-- The hypotheses of the theorems on the volume errors are met: with the same data and one quantity
too many, the error against the reference `(0, z)` is zero, whatever the rule. -/
example (rule : Rule 3) (hr : rule.points.length = rule.weights.length) (hw : ∀ w ∈ rule.weights, 0 < w) :
    l2 rule [exampleRank 2] (fun x j => if j = 1 then x 2 else 0) 0 0 = some 0 := by
  rw [C62_zero rule hr hw (by decide) 2 [exampleRank 2] (by
      intro r hr; rw [List.mem_singleton.1 hr]; exact example_usable 2) _ [examplePiece] (example_describes 2)
      (by intro P hP ξ _; rw [List.mem_singleton.1 hP]; simp [examplePiece])]
  intro P hP ξ _ j _
  rw [List.mem_singleton.1 hP]
  rfl

/-- ... and against the reference `(0, z + 1)` it is the root of the sum of the weights. -/
example (rule : Rule 3) (hr : rule.points.length = rule.weights.length) :
    l2 rule [exampleRank 2] (fun x j => if j = 1 then x 2 + 1 else 0) 0 0 = some (Real.sqrt rule.weights.sum) := by
  rw [C62_L2 rule hr (by decide) 2 [exampleRank 2] (by
      intro r hr; rw [List.mem_singleton.1 hr]; exact example_usable 2) _ [examplePiece] (example_describes 2)]
  simp only [List.map_cons, List.map_nil, List.sum_cons, List.sum_nil, add_zero]
  have e : ∀ pw : (Fin 3 → ℝ) × ℝ, pw.2 * Spec.errorDensity 2 examplePiece (fun x j => if j = 1 then x 2 + 1 else 0) pw.1 = pw.2 := by
    intro pw
    simp [Spec.errorDensity, examplePiece, sum_range_succ]
  simp only [e]
  rw [List.map_snd_zip (by omega)]

/-- The straight element of the example meets the hypothesis of `C62_straight`. -/
example : ∃ p : MvPolynomial (Fin 3) ℝ, p.totalDegree ≤ 20 ∧ ∀ ξ,
    Spec.errorDensity 2 examplePiece (fun x j => x 0 * x 1) ξ = MvPolynomial.eval ξ p := by
  have h := example_describes 2
  cases h with
  | cons h _ =>
    refine C62_straight 2 _ _ h 1 0 (fun ξ => by simp [examplePiece]) (by change 1 ≤ 10; norm_num) _ fun j _ => ?_
    exact isPoly_mono 3 2 10 (by norm_num) _ (isPoly_mul 3 1 1 _ _ (isPoly_coord 3 0) (isPoly_coord 3 1))

/-- One reference triangle; the function on its facet 2, the edge between vertices 1 and 2, is the
parameter. -/
noncomputable def exampleFacetRank : FacetRank 1 :=
  ⟨⟨fun _ => [0], fun _ => [0, 1, 2]⟩,
    ⟨1, Equidistant.nodes .VTK 2 1, fun _ k => (Equidistant.nodes .VTK 2 1).getD k 0⟩,
    ⟨1, Equidistant.nodes .VTK 1 1, ["u"], 1, 1, fun k _ _ => (Equidistant.nodes .VTK 1 1).getD k 0 0⟩, [2]⟩

/-- The same facet, described mathematically: from (1,0) to (0,1). -/
noncomputable def exampleFacetPiece : Spec.FacetPiece 1 :=
  ⟨fun χ => Curvilinear.facetParam (D := 1) 2 χ, fun _ _ => ![-1, 1], fun _ χ => χ 0⟩

/-- The hypotheses of the theorem on facets are met: the error against the reference `y` is zero, that
against `y + 1` is the square root of the length of the edge times the sum of the weights. -/
example (rule : Rule 1) (hr : rule.points.length = rule.weights.length) :
    l2Facets rule [exampleFacetRank] (fun x _ => x 1 + 1) 0 0
      = some (Real.sqrt (Real.sqrt 2 * rule.weights.sum)) := by
  have u1 := (Equidistant.C61_lattice .VTK 1 1 (by decide) (by decide)).2.1
  have u2 := (Equidistant.C61_lattice .VTK 2 1 (by decide) (by decide)).2.1
  have v1 := (C78_unisolvent 1 1 (by decide) _ u1).1 (C78_equidistant .VTK 1 1 (by decide) (by decide))
  have v2 := (C78_unisolvent 2 1 (by decide) _ u2).1 (C78_equidistant .VTK 2 1 (by decide) (by decide))
  have hfp : ∀ χ : Fin 1 → ℝ, Curvilinear.facetParam (D := 1) 2 χ = ![1 - χ 0, χ 0] := by
    intro χ
    funext i
    fin_cases i <;>
      simp [Curvilinear.facetParam, Curvilinear.f2v, Equidistant.refVertices, Fin.succAbove, Fin.rev, Fin.lt_def]
  rw [C62_facets rule hr (by decide) 1 [exampleFacetRank] (by
    intro r hr; rw [List.mem_singleton.1 hr]; exact ⟨rfl, u2, v2, u1, v1⟩) _ [exampleFacetPiece]]
  · simp only [List.map_cons, List.map_nil, List.sum_cons, List.sum_nil, add_zero]
    have e : ∀ pw : (Fin 1 → ℝ) × ℝ, pw.2 * Spec.facetErrorDensity 1 exampleFacetPiece (fun x _ => x 1 + 1) pw.1
        = Real.sqrt 2 * pw.2 := by
      intro pw
      simp only [Spec.facetErrorDensity, exampleFacetPiece, hfp, Spec.areaElement]
      simp
      norm_num
      ring
    simp only [e]
    rw [show (fun pw : (Fin 1 → ℝ) × ℝ => Real.sqrt 2 * pw.2) = (fun w => Real.sqrt 2 * w) ∘ Prod.snd from rfl,
      ← List.map_map, List.map_snd_zip (by omega), List.sum_map_mul_left, List.map_id']
  · refine .cons ⟨2, 0, 2, id, fun _ => 1, rfl, rfl, by decide, rfl, fun i => ⟨⟨isPoly_coord 2 i, fun k hk => ?_⟩, fun ξ v => ?_⟩,
      fun χ _ => by simp, fun _ => rfl, fun χ i => ?_, fun j hj => ⟨isPoly_coord 1 0, fun k hk => ?_⟩⟩ .nil
    · simp only [id]
      exact (congrFun (List.getD_eq_getElem _ _ hk) i).symm
    · simp only [id]
      have e : ∑ d, (1 : Matrix (Fin 2) (Fin 2) ℝ) i d * v d = v i := by simp [Matrix.one_apply]
      rw [e]
      have := ((hasDerivAt_id (0:ℝ)).mul_const (v i)).const_add (ξ i)
      simpa using this
    · intro v
      simp only [exampleFacetPiece, hfp]
      fin_cases i
      · have := ((hasDerivAt_id (0:ℝ)).mul_const (v 0)).const_add (χ 0) |>.const_sub 1
        simpa using this
      · have := ((hasDerivAt_id (0:ℝ)).mul_const (v 0)).const_add (χ 0)
        simpa using this
    · exact (congrFun (List.getD_eq_getElem _ _ hk) 0).symm

end Tandem.Error
