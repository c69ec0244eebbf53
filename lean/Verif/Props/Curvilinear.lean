import Verif.Lemmas.Curvilinear
import Verif.Props.Simplex
import Verif.Spec.DGAssembly
/-! # Property C58: maps of simplices, facet parametrisations and normals -/
namespace Tandem.Curvilinear
open Equidistant Matrix

/-- C58 (affine map): the map of the reference simplex sends its vertices to the vertices of the
simplex, and, for a simplex that is not degenerate, the two maps are inverse to each other. -/
theorem C58_affine (D : ℕ) (verts : Fin (D + 1) → Fin D → ℝ) :
    (∀ k, refToGeneral verts (refVertices D k) = verts k) ∧
    ((edgeMatrix verts).det ≠ 0 →
      (∀ x, refToGeneral verts (generalToRef verts x) = x) ∧
      ∀ xi, generalToRef verts (refToGeneral verts xi) = xi) := by
  have hA : ∀ xi, refToGeneral verts xi = fun i => verts 0 i + (edgeMatrix verts *ᵥ xi) i := by
    intro xi
    funext i
    unfold refToGeneral edgeMatrix
    simp only [Matrix.mulVec, dotProduct, Matrix.of_apply]
    rw [sub_mul, one_mul, Finset.sum_mul]
    have : ∀ d : Fin D, (verts d.succ i - verts 0 i) * xi d = xi d * verts d.succ i - xi d * verts 0 i :=
      fun d => by ring
    simp only [this, Finset.sum_sub_distrib]
    ring
  refine ⟨fun k => ?_, fun h => ⟨fun x => ?_, fun xi => ?_⟩⟩
  · funext i
    unfold refToGeneral
    refine Fin.cases ?_ (fun k => ?_) k
    · simp [refVertices]
    · simp [refVertices, Fin.val_inj]
  · rw [hA]
    unfold generalToRef
    rw [Matrix.mulVec_mulVec, Matrix.mul_nonsing_inv _ (isUnit_iff_ne_zero.2 h), Matrix.one_mulVec]
    funext i
    simp
  · rw [hA]
    unfold generalToRef
    have : (fun i => verts 0 i + (edgeMatrix verts *ᵥ xi) i - verts 0 i) = edgeMatrix verts *ᵥ xi := by
      funext i; simp
    rw [this, Matrix.mulVec_mulVec, Matrix.nonsing_inv_mul _ (isUnit_iff_ne_zero.2 h),
      Matrix.one_mulVec]

/-- C58 (faces): the faces used by the geometry are those of `Simplex::downward`, for triangles and
tetrahedra. -/
theorem C58_faces :
    Simplex.downward 20 2 1 (List.range 3) = some ((List.finRange 3).map fun f =>
      (List.finRange 2).map fun k => (f2v (D := 1) f k).val) ∧
    Simplex.downward 20 3 2 (List.range 4) = some ((List.finRange 4).map fun f =>
      (List.finRange 3).map fun k => (f2v (D := 2) f k).val) := by
  decide +kernel

/-- C58 (facet parameters): the point with parameters `χ` of face `f` is the point of the face with
barycentric coordinates `1 - Σχ, χ₁, …` with respect to the vertices of the face in ascending order;
on any simplex, it is mapped to that point of the facet. -/
theorem C58_facet_param (D : ℕ) (verts : Fin (D + 2) → Fin (D + 1) → ℝ) (f : Fin (D + 2))
    (chi : Fin D → ℝ) (i : Fin (D + 1)) :
    refToGeneral verts (facetParam f chi) i =
      (1 - ∑ d, chi d) * verts (f2v f 0) i + ∑ d : Fin D, chi d * verts (f2v f d.succ) i := by
  have h := (C58_affine (D + 1) verts).1
  have hlin : ∀ (b : Fin (D + 1) → ℝ) (p : Fin (D + 1) → Fin (D + 1) → ℝ), ∑ k, b k = 1 →
      refToGeneral verts (fun i => ∑ k, b k * p k i) i = ∑ k, b k * refToGeneral verts (p k) i := by
    intro b p hb
    unfold refToGeneral
    have e1 : ∀ k, b k * ((1 - ∑ d, p k d) * verts 0 i + ∑ d, p k d * verts d.succ i)
        = b k * verts 0 i - (∑ d, b k * p k d) * verts 0 i + ∑ d, (b k * p k d) * verts d.succ i := by
      intro k
      rw [mul_add, ← mul_assoc, mul_sub, mul_one, Finset.mul_sum, Finset.mul_sum, sub_mul]
      congr 1
      exact Finset.sum_congr rfl fun _ _ => by ring
    simp only [e1, Finset.sum_add_distrib, Finset.sum_sub_distrib, ← Finset.sum_mul, hb]
    rw [Finset.sum_comm (f := fun d k => b k * p k d)]
    congr 1
    · ring
    · rw [Finset.sum_comm]
      exact Finset.sum_congr rfl fun _ _ => by rw [Finset.sum_mul]
  have hfp : facetParam f chi = fun i => ∑ k : Fin (D + 1),
      (Fin.cons (α := fun _ => ℝ) (1 - ∑ d, chi d) chi k) * refVertices (D + 1) (f2v f k) i := by
    funext i
    rw [Fin.sum_univ_succ]
    simp [facetParam]
  rw [hfp, hlin _ _ (by rw [Fin.sum_univ_succ]; simp), Fin.sum_univ_succ]
  simp [h]

/-- C58 (agreement): if two simplices share a facet (the same vertices in the same order), then each
parameter gives the same point of the facet from both sides. -/
theorem C58_facet_agree (D : ℕ) (verts0 verts1 : Fin (D + 2) → Fin (D + 1) → ℝ)
    (f0 f1 : Fin (D + 2)) (h : ∀ k, verts0 (f2v f0 k) = verts1 (f2v f1 k)) (chi : Fin D → ℝ) :
    refToGeneral verts0 (facetParam f0 chi) = refToGeneral verts1 (facetParam f1 chi) := by
  funext i
  rw [C58_facet_param, C58_facet_param]
  simp only [h]

/-- C58 (normal): at a point with Jacobian `J`, the normal of a face is perpendicular to the image of
the face and points away from the missing vertex. -/
theorem C58_normal (D : ℕ) (hD : D = 0 ∨ D = 1 ∨ D = 2) (f : Fin (D + 2))
    (J : Matrix (Fin (D + 1)) (Fin (D + 1)) ℝ) (hJ : J.det ≠ 0) :
    (∀ k, dot (normal f J)
      (J *ᵥ (refVertices (D + 1) (f2v f k) - refVertices (D + 1) (f2v f 0))) = 0) ∧
    (∀ k, dot (normal f J)
      (J *ᵥ (refVertices (D + 1) (missing f) - refVertices (D + 1) (f2v f k))) < 0) := by
  have h1 := normal_tangent hD f J hJ
  refine ⟨h1, fun k => ?_⟩
  have : refVertices (D + 1) (missing f) - refVertices (D + 1) (f2v f k)
      = inward f + (-1 : ℝ) • tangent f k := by
    funext i
    simp [inward, tangent]
  rw [this, Matrix.mulVec_add, dot_add, Matrix.mulVec_smul, dot_smul, h1, normal_inward hD f J hJ]
  have := abs_pos.2 hJ
  linarith

/-- C58 (length of the normal): in two dimensions the length of the normal is that of the image of the
edge; in three it is that of the cross product of two edges of the face (twice its area). -/
theorem C58_normal_length :
    (∀ (f : Fin 3) (J : Matrix (Fin 2) (Fin 2) ℝ), J.det ≠ 0 →
      norm (normal f J) = norm (J *ᵥ (refVertices 2 (f2v f 1) - refVertices 2 (f2v f 0)))) ∧
    (∀ (f : Fin 4) (J : Matrix (Fin 3) (Fin 3) ℝ), J.det ≠ 0 →
      norm (normal f J) = norm (cross (J *ᵥ (refVertices 3 (f2v f 1) - refVertices 3 (f2v f 0)))
        (J *ᵥ (refVertices 3 (f2v f 2) - refVertices 3 (f2v f 0))))) := by
  -- a vector with the same products with the edges has the same length
  have key : ∀ {D : ℕ} (f : Fin (D + 2)) (J : Matrix (Fin (D + 1)) (Fin (D + 1)) ℝ), J.det ≠ 0 →
      (D = 0 ∨ D = 1 ∨ D = 2) → ∀ c : Fin (D + 1) → ℝ, (∀ k, dot c (J *ᵥ tangent f k) = 0) →
      |dot c (J *ᵥ inward f)| = |J.det| → norm (normal f J) = norm c := by
    intro D f J hJ hD c hc hi
    obtain ⟨s, hs, he⟩ : ∃ s : ℝ, s * s = 1 ∧ dot c (J *ᵥ inward f) = s * -|J.det| := by
      rcases abs_eq (abs_nonneg J.det) |>.1 hi with h | h
      · exact ⟨-1, by norm_num, by rw [h]; ring⟩
      · exact ⟨1, by norm_num, by rw [h]; ring⟩
    have hc' : c = s • normal f J := by
      have hz : dot (c + (-s) • normal f J) (c + (-s) • normal f J) = 0 := by
        have hall : ∀ v, dot (c + (-s) • normal f J) v = 0 := by
          intro v
          obtain ⟨a, e, hv⟩ := decomp f (J⁻¹ *ᵥ v)
          have hv' : v = J *ᵥ (∑ k, a k • tangent f k.succ + e • inward f) := by
            rw [← hv, Matrix.mulVec_mulVec, Matrix.mul_nonsing_inv _ (isUnit_iff_ne_zero.2 hJ),
              Matrix.one_mulVec]
          rw [hv', Matrix.mulVec_add, Matrix.mulVec_smul, dot_add, dot_smul, dot_comm _ (J *ᵥ inward f),
            dot_add, dot_smul, dot_comm _ c, he, dot_comm _ (normal f J), normal_inward hD f J hJ]
          have : dot (c + -s • normal f J) (J *ᵥ ∑ k, a k • tangent f k.succ) = 0 := by
            rw [Matrix.mulVec_sum]
            simp only [Matrix.mulVec_smul]
            rw [dot_eq, dotProduct_sum]
            apply Finset.sum_eq_zero
            intro k _
            rw [← dot_eq, dot_smul, dot_comm, dot_add, dot_smul, dot_comm _ c, hc, dot_comm,
              normal_tangent hD f J hJ]
            ring
          rw [this]; ring
        exact hall _
      have : c + (-s) • normal f J = 0 := by
        by_contra hne
        exact absurd hz (dot_self_pos _ hne).ne'
      have h2 : c - s • normal f J = 0 := by rw [sub_eq_add_neg, ← neg_smul]; exact this
      exact sub_eq_zero.1 h2
    unfold norm
    rw [hc', smul_dot, dot_smul, ← mul_assoc, hs, one_mul]
  constructor
  · intro f J hJ
    set t := J *ᵥ (refVertices 2 (f2v f 1) - refVertices 2 (f2v f 0)) with ht
    have h1 : norm t = norm (![-t 1, t 0] : Fin 2 → ℝ) := by
      unfold norm dot
      congr 1
      simp [Fin.sum_univ_succ]; ring
    rw [h1]
    refine key (D := 1) f J hJ (by simp) _ (fun k => ?_) ?_
    · fin_cases k
      · simp [dot, tangent, Matrix.mulVec_zero]
      · show dot ![-t 1, t 0] (J *ᵥ tangent f 1) = 0
        rw [show J *ᵥ tangent f 1 = t from rfl]
        simp [dot, Fin.sum_univ_succ]; ring
    · rw [abs_eq_abs, ht, show J.det = _ from Matrix.det_fin_two J]
      simp only [dot, Matrix.mulVec, dotProduct, Fin.sum_univ_succ, inward, missing]
      fin_cases f <;> simp [f2v, refVertices, Fin.succAbove, Fin.rev] <;>
        first
        | (left; ring1)
        | (right; ring1)
  · intro f J hJ
    refine key (D := 2) f J hJ (by simp) _ (fun k => ?_) ?_
    · have hx : ∀ a b : Fin 3 → ℝ, dot (cross a b) a = 0 ∧ dot (cross a b) b = 0 := by
        intro a b
        constructor <;> simp [dot, cross, Fin.sum_univ_succ] <;> ring
      fin_cases k
      · simp [dot, tangent, Matrix.mulVec_zero]
      · exact (hx _ _).1
      · exact (hx _ _).2
    · rw [abs_eq_abs, show J.det = _ from Matrix.det_fin_three J]
      simp only [dot, cross, Matrix.mulVec, dotProduct, Fin.sum_univ_succ, inward,
        missing]
      fin_cases f <;> simp [f2v, refVertices, Fin.succAbove, Fin.rev] <;>
        first
        | (left; ring1)
        | (right; ring1)

/-- C58 (opposite normals): if two elements have the same tangents at a point of a common facet, then
their normals there are opposite exactly if the elements lie on different sides of the facet (the
second missing vertex lies on the outer side of the first element), and otherwise they are equal. -/
theorem C58_normals_opposite (D : ℕ) (hD : D = 0 ∨ D = 1 ∨ D = 2) (f0 f1 : Fin (D + 2))
    (J0 J1 : Matrix (Fin (D + 1)) (Fin (D + 1)) ℝ) (h0 : J0.det ≠ 0) (h1 : J1.det ≠ 0)
    (ht : ∀ k, J0 *ᵥ (refVertices (D + 1) (f2v f0 k) - refVertices (D + 1) (f2v f0 0))
      = J1 *ᵥ (refVertices (D + 1) (f2v f1 k) - refVertices (D + 1) (f2v f1 0))) :
    let other := dot (normal f0 J0)
      (J1 *ᵥ (refVertices (D + 1) (missing f1) - refVertices (D + 1) (f2v f1 0)))
    other ≠ 0 ∧ (0 < other → normal f1 J1 = -normal f0 J0) ∧
      (other < 0 → normal f1 J1 = normal f0 J0) := by
  intro other
  have ht' : ∀ k, J0 *ᵥ tangent f0 k = J1 *ᵥ tangent f1 k := ht
  obtain ⟨a, c, hd⟩ := decomp f0 (J0⁻¹ *ᵥ (J1 *ᵥ inward f1))
  have hw : J1 *ᵥ inward f1 = J0 *ᵥ (∑ k, a k • tangent f0 k.succ + c • inward f0) := by
    rw [← hd, Matrix.mulVec_mulVec, Matrix.mul_nonsing_inv _ (isUnit_iff_ne_zero.2 h0),
      Matrix.one_mulVec]
  have hdet := det_shared hD f0 f1 J0 J1 ht' a c hw
  have hsum : ∀ (b : Fin D → ℝ) (e : ℝ), dot (normal f0 J0)
      (J0 *ᵥ (∑ k, b k • tangent f0 k.succ + e • inward f0)) = -e * |J0.det| := by
    intro b e
    rw [Matrix.mulVec_add, Matrix.mulVec_smul, dot_add, dot_smul, normal_inward hD f0 J0 h0,
      Matrix.mulVec_sum]
    simp only [Matrix.mulVec_smul]
    rw [dot_eq, dotProduct_sum, Finset.sum_eq_zero]
    · ring
    · intro k _
      rw [← dot_eq, dot_smul, normal_tangent hD f0 J0 h0, mul_zero]
  have hother : other = -c * |J0.det| := by
    show dot (normal f0 J0) (J1 *ᵥ inward f1) = _
    rw [hw, hsum]
  have hp0 := abs_pos.2 h0
  have hp1 := abs_pos.2 h1
  have hc : c ≠ 0 := by
    rintro rfl
    rw [abs_zero, zero_mul] at hdet
    linarith
  -- products of both normals with every vector
  have hall : ∀ s : ℝ, s * |c| = -c → normal f1 J1 = (-s) • normal f0 J0 := by
    intro s hs
    have hz : ∀ v, dot (normal f1 J1 + s • normal f0 J0) v = 0 := by
      intro v
      obtain ⟨b, e, hv⟩ := decomp f1 (J1⁻¹ *ᵥ v)
      have hv' : v = J1 *ᵥ (∑ k, b k • tangent f1 k.succ + e • inward f1) := by
        rw [← hv, Matrix.mulVec_mulVec, Matrix.mul_nonsing_inv _ (isUnit_iff_ne_zero.2 h1),
          Matrix.one_mulVec]
      rw [hv', Matrix.mulVec_add, Matrix.mulVec_smul, dot_add, dot_smul, Matrix.mulVec_sum]
      simp only [Matrix.mulVec_smul]
      have hzero : dot (normal f1 J1 + s • normal f0 J0) (∑ k, b k • J1 *ᵥ tangent f1 k.succ) = 0 := by
        rw [dot_eq, dotProduct_sum]
        apply Finset.sum_eq_zero
        intro k _
        rw [← dot_eq, dot_smul, dot_comm, dot_add, dot_smul, dot_comm _ (normal f1 J1),
          normal_tangent hD f1 J1 h1, ← ht', dot_comm, normal_tangent hD f0 J0 h0]
        ring
      rw [hzero, dot_comm, dot_add, dot_smul, dot_comm _ (normal f1 J1), normal_inward hD f1 J1 h1,
        dot_comm _ (normal f0 J0)]
      have : dot (normal f0 J0) (J1 *ᵥ inward f1) = -c * |J0.det| := hother
      rw [this, hdet]
      have : s * (-c * |J0.det|) = |c| * |J0.det| := by
        have h2 : s * -c = |c| := by
          rw [← hs, ← mul_assoc]
          have : s * s = 1 := by
            have habs : |s| * |c| = |c| := by rw [← abs_abs c, ← abs_mul, abs_abs, hs, abs_neg]
            have h3 : |s| = 1 := by
              have := abs_pos.2 hc
              exact mul_right_cancel₀ this.ne' (by rw [habs, one_mul])
            rw [← abs_mul_abs_self, h3, one_mul]
          rw [this, one_mul]
        rw [← mul_assoc, h2]
      rw [this]; ring
    have hzz : normal f1 J1 + s • normal f0 J0 = 0 := by
      by_contra hne
      exact absurd (hz _) (dot_self_pos _ hne).ne'
    rw [neg_smul]
    exact eq_neg_of_add_eq_zero_left hzz
  refine ⟨?_, fun hpos => ?_, fun hneg => ?_⟩
  · rw [hother]
    exact mul_ne_zero (neg_ne_zero.2 hc) hp0.ne'
  · have hcn : c < 0 := by
      rw [hother] at hpos
      have := (mul_pos_iff_of_pos_right hp0).1 hpos
      linarith
    rw [hall 1 (by rw [abs_of_neg hcn, one_mul]), neg_smul, one_smul]
  · have hcp : 0 < c := by
      rw [hother, neg_mul] at hneg
      have : 0 < c * |J0.det| := by linarith
      exact (mul_pos_iff_of_pos_right hp0).1 this
    rw [hall (-1) (by rw [abs_of_pos hcp]; ring), neg_neg, one_smul]

end Tandem.Curvilinear
