import Verif.Props.Curvilinear
import Verif.Props.Ghosts
/-! # Property C58 on a mesh: the two normals of a facet are opposite -/
namespace Tandem.Curvilinear
open Equidistant Matrix Spec

variable {D : ℕ}

/-- Vertices of an element of a mesh with vertex coordinates `X`. -/
def elemVerts (X : ℕ → Fin (D + 1) → ℝ) (e : List ℕ) (k : Fin (D + 2)) : Fin (D + 1) → ℝ :=
  X (e.getD k 0)

/-- The local number of a facet in an element, as found by `LocalSimplexMesh::downward`. -/
def localFace (D : ℕ) (e f : List ℕ) : ℕ := (Ghosts.facets (D + 1) e).idxOf f

/-- The geometry that the code computes (models of `jacobian`, `jacobianInv`, `absDetJ`, `normal`) on a
mesh of straight simplices. -/
noncomputable def affineGeometry (X : ℕ → Fin (D + 1) → ℝ) (Nq nq : ℕ) : Geometry (D + 1) Nq nq :=
  ⟨fun e _ => |(edgeMatrix (elemVerts X e)).det|,
   fun e i j _ => (edgeMatrix (elemVerts X e))⁻¹ i j,
   fun _ e i j _ => (edgeMatrix (elemVerts X e))⁻¹ i j,
   fun f e i _ => normal (Fin.ofNat (D + 2) (localFace D e f)) (edgeMatrix (elemVerts X e)) i,
   localFace D⟩

/-- No element is degenerate, and two elements with a common facet lie on different sides of it: some
affine function vanishes on the facet, is negative at the other vertex of one and positive at the
other vertex of the other. -/
structure Valid (P : ℕ) (elems : ℕ → List (List ℕ)) (X : ℕ → Fin (D + 1) → ℝ) : Prop where
  volume : ∀ e, InElems P elems e → (edgeMatrix (elemVerts X e)).det ≠ 0
  apart : ∀ f e e', InElems P elems e → InElems P elems e' → e ≠ e' → IsFacet e f → IsFacet e' f →
    ∃ (g : Fin (D + 1) → ℝ) (c : ℝ), (∀ v ∈ f, g ⬝ᵥ X v + c = 0) ∧
      (∀ v ∈ e, v ∉ f → g ⬝ᵥ X v + c < 0) ∧ ∀ v ∈ e', v ∉ f → 0 < g ⬝ᵥ X v + c

theorem edgeMatrix_mul (verts : Fin (D + 2) → Fin (D + 1) → ℝ) (a b : Fin (D + 2)) :
    edgeMatrix verts *ᵥ (refVertices (D + 1) a - refVertices (D + 1) b) = verts a - verts b := by
  have h : ∀ a, edgeMatrix verts *ᵥ refVertices (D + 1) a = verts a - verts 0 := by
    intro a
    funext i
    refine Fin.cases ?_ (fun a => ?_) a
    · simp [Matrix.mulVec, dotProduct, refVertices]
    · simp [Matrix.mulVec, dotProduct, refVertices, edgeMatrix, Fin.val_inj]
  rw [Matrix.mulVec_sub, h, h]
  simp

/-- The entries of the facet with a local number. -/
theorem localFace_spec (hD : D = 1 ∨ D = 2) (e f : List ℕ) (he : e.length = D + 2)
    (hs : e.Pairwise (· < ·)) (hf : IsFacet e f) :
    localFace D e f < D + 2 ∧
    (∀ k, e.getD (f2v (Fin.ofNat (D + 2) (localFace D e f)) k) 0 = f.getD k 0) ∧
    e.getD (missing (Fin.ofNat (D + 2) (localFace D e f))) 0 ∉ f := by
  have hm := ((Ghosts.facets_spec (D + 1) (by omega) e he hs).2 f).2 hf
  unfold localFace
  rcases hD with rfl | rfl
  · obtain ⟨a, b, c, rfl⟩ : ∃ a b c, e = [a, b, c] := by
      match e, he with
      | [a, b, c], _ => exact ⟨a, b, c, rfl⟩
    have hfs : Ghosts.facets (1 + 1) [a, b, c] = [[a, b], [a, c], [b, c]] := rfl
    rw [hfs] at hm ⊢
    simp only [List.pairwise_cons, List.mem_cons, List.not_mem_nil, or_false] at hs
    have h1 := hs.1 b (by simp)
    have h2 := hs.1 c (by simp)
    have h3 := hs.2.1 c (by simp)
    simp only [List.mem_cons, List.not_mem_nil, or_false] at hm
    rcases hm with rfl | rfl | rfl
    · rw [show List.idxOf [a, b] [[a, b], [a, c], [b, c]] = 0 by simp]
      refine ⟨by omega, fun k => ?_, ?_⟩
      · fin_cases k <;> rfl
      · simp [missing, Fin.rev]; omega
    · rw [show List.idxOf [a, c] [[a, b], [a, c], [b, c]] = 1 by
        rw [List.idxOf_cons_ne _ (by simp; omega)]; simp]
      refine ⟨by omega, fun k => ?_, ?_⟩
      · fin_cases k <;> rfl
      · simp [missing, Fin.rev]; omega
    · rw [show List.idxOf [b, c] [[a, b], [a, c], [b, c]] = 2 by
        rw [List.idxOf_cons_ne _ (by simp; omega), List.idxOf_cons_ne _ (by simp; omega)]; simp]
      refine ⟨by omega, fun k => ?_, ?_⟩
      · fin_cases k <;> rfl
      · simp [missing, Fin.rev]; omega
  · obtain ⟨a, b, c, d, rfl⟩ : ∃ a b c d, e = [a, b, c, d] := by
      match e, he with
      | [a, b, c, d], _ => exact ⟨a, b, c, d, rfl⟩
    have hfs : Ghosts.facets (2 + 1) [a, b, c, d] = [[a, b, c], [a, b, d], [a, c, d], [b, c, d]] := rfl
    rw [hfs] at hm ⊢
    simp only [List.pairwise_cons, List.mem_cons, List.not_mem_nil, or_false] at hs
    have h1 := hs.1 b (by simp)
    have h2 := hs.1 c (by simp)
    have h3 := hs.2.1 c (by simp)
    have h4 := hs.2.1 d (by simp)
    have h5 := hs.2.2.1 d (by simp)
    simp only [List.mem_cons, List.not_mem_nil, or_false] at hm
    rcases hm with rfl | rfl | rfl | rfl
    · rw [show List.idxOf [a, b, c] [[a, b, c], [a, b, d], [a, c, d], [b, c, d]] = 0 by simp]
      refine ⟨by omega, fun k => ?_, ?_⟩
      · fin_cases k <;> rfl
      · simp [missing, Fin.rev]; omega
    · rw [show List.idxOf [a, b, d] [[a, b, c], [a, b, d], [a, c, d], [b, c, d]] = 1 by
        rw [List.idxOf_cons_ne _ (by simp; omega)]; simp]
      refine ⟨by omega, fun k => ?_, ?_⟩
      · fin_cases k <;> rfl
      · simp [missing, Fin.rev]; omega
    · rw [show List.idxOf [a, c, d] [[a, b, c], [a, b, d], [a, c, d], [b, c, d]] = 2 by
        rw [List.idxOf_cons_ne _ (by simp; omega), List.idxOf_cons_ne _ (by simp; omega)]; simp]
      refine ⟨by omega, fun k => ?_, ?_⟩
      · fin_cases k <;> rfl
      · simp [missing, Fin.rev]; omega
    · rw [show List.idxOf [b, c, d] [[a, b, c], [a, b, d], [a, c, d], [b, c, d]] = 3 by
        rw [List.idxOf_cons_ne _ (by simp; omega), List.idxOf_cons_ne _ (by simp; omega),
          List.idxOf_cons_ne _ (by simp; omega)]; simp]
      refine ⟨by omega, fun k => ?_, ?_⟩
      · fin_cases k <;> rfl
      · simp [missing, Fin.rev]; omega

/-- C58 (mesh): on every conforming mesh of triangles or tetrahedra, without degenerate elements and
with neighbours on different sides of their common facet, the normals that the code computes for a
facet from its two elements are opposite: this is what the operators of C70-C75 assume. -/
theorem C58_mesh_opposite (hD : D = 1 ∨ D = 2) (P : ℕ) (elems : ℕ → List (List ℕ))
    (hm : Mesh P (D + 1) elems) (X : ℕ → Fin (D + 1) → ℝ) (hv : Valid P elems X) (Nq nq : ℕ) :
    (affineGeometry X Nq nq).Opposite P elems := by
  intro f e e' he he' hne hf hf'
  have hsz : ∀ e, InElems P elems e → e.length = D + 2 ∧ e.Pairwise (· < ·) := by
    rintro e ⟨s, hs, h⟩
    exact ⟨hm.size s hs e h, hm.sorted s hs e h⟩
  obtain ⟨l1, l2, l3⟩ := localFace_spec hD e f (hsz e he).1 (hsz e he).2 hf
  obtain ⟨m1, m2, m3⟩ := localFace_spec hD e' f (hsz e' he').1 (hsz e' he').2 hf'
  set f0 : Fin (D + 2) := Fin.ofNat (D + 2) (localFace D e f) with hf0
  set f1 : Fin (D + 2) := Fin.ofNat (D + 2) (localFace D e' f) with hf1
  set J0 := edgeMatrix (elemVerts X e) with hJ0
  set J1 := edgeMatrix (elemVerts X e') with hJ1
  have hd0 := hv.volume e he
  have hd1 := hv.volume e' he'
  have hD' : D = 0 ∨ D = 1 ∨ D = 2 := by omega
  have hvert : ∀ k, elemVerts X e (f2v f0 k) = elemVerts X e' (f2v f1 k) := by
    intro k
    unfold elemVerts
    rw [l2 k, m2 k]
  have ht : ∀ k, J0 *ᵥ (refVertices (D + 1) (f2v f0 k) - refVertices (D + 1) (f2v f0 0))
      = J1 *ᵥ (refVertices (D + 1) (f2v f1 k) - refVertices (D + 1) (f2v f1 0)) := by
    intro k
    rw [hJ0, hJ1, edgeMatrix_mul, edgeMatrix_mul, hvert, hvert]
  obtain ⟨-, hopp, -⟩ := C58_normals_opposite D hD' f0 f1 J0 J1 hd0 hd1 ht
  have hside : 0 < dot (normal f0 J0)
      (J1 *ᵥ (refVertices (D + 1) (missing f1) - refVertices (D + 1) (f2v f1 0))) := by
    obtain ⟨g, c, g1, g2, g3⟩ := hv.apart f e e' he he' hne hf hf'
    have hflen : f.length = D + 1 := by have := hf.1; have := (hsz e he).1; omega
    have hfm : ∀ k : Fin (D + 1), f.getD k 0 ∈ f := by
      intro k
      rw [List.getD_eq_getElem?_getD, List.getElem?_eq_getElem (by omega), Option.getD_some]
      exact List.getElem_mem _
    have hem : ∀ (e : List ℕ), e.length = D + 2 → ∀ m : Fin (D + 2), e.getD m 0 ∈ e := by
      intro e hl m
      rw [List.getD_eq_getElem?_getD, List.getElem?_eq_getElem (by omega), Option.getD_some]
      exact List.getElem_mem _
    obtain ⟨a, b, hab⟩ := decomp f0 (J0⁻¹ *ᵥ (J1 *ᵥ inward f1))
    have hw : J1 *ᵥ inward f1 = J0 *ᵥ (∑ k, a k • tangent f0 k.succ + b • inward f0) := by
      rw [← hab, Matrix.mulVec_mulVec, Matrix.mul_nonsing_inv _ (isUnit_iff_ne_zero.2 hd0),
        Matrix.one_mulVec]
    have ht0 : ∀ k, g ⬝ᵥ (J0 *ᵥ tangent f0 k) = 0 := by
      intro k
      rw [hJ0, tangent, edgeMatrix_mul, dotProduct_sub]
      have e1 := g1 _ (hfm k)
      have e2 := g1 _ (hfm 0)
      unfold elemVerts
      rw [l2 k, l2 0]
      linarith
    have hi0 : g ⬝ᵥ (J0 *ᵥ inward f0) < 0 := by
      rw [hJ0, inward, edgeMatrix_mul, dotProduct_sub]
      have e2 := g1 _ (hfm 0)
      have e3 := g2 _ (hem e (hsz e he).1 (missing f0)) l3
      unfold elemVerts
      rw [l2 0]
      linarith
    have hi1 : 0 < g ⬝ᵥ (J1 *ᵥ inward f1) := by
      rw [hJ1, inward, edgeMatrix_mul, dotProduct_sub]
      have e2 := g1 _ (hfm 0)
      have e3 := g3 _ (hem e' (hsz e' he').1 (missing f1)) m3
      unfold elemVerts
      rw [m2 0]
      linarith
    have hlin : ∀ (h : Fin (D + 1) → ℝ), (∀ k, h ⬝ᵥ (J0 *ᵥ tangent f0 k) = 0) →
        h ⬝ᵥ (J1 *ᵥ inward f1) = b * h ⬝ᵥ (J0 *ᵥ inward f0) := by
      intro h hh
      rw [hw, Matrix.mulVec_add, Matrix.mulVec_smul, dotProduct_add, dotProduct_smul, Matrix.mulVec_sum]
      simp only [Matrix.mulVec_smul]
      rw [dotProduct_sum, Finset.sum_eq_zero, zero_add, smul_eq_mul]
      intro k _
      rw [dotProduct_smul, hh, smul_zero]
    have hb : b < 0 := by
      have := hlin g ht0
      rw [this] at hi1
      by_contra hb
      have := mul_nonpos_of_nonneg_of_nonpos (not_lt.1 hb) hi0.le
      linarith
    show 0 < dot (normal f0 J0) (J1 *ᵥ inward f1)
    rw [dot_eq, hlin _ fun k => normal_tangent hD' f0 J0 hd0 k, ← dot_eq, normal_inward hD' f0 J0 hd0]
    have := abs_pos.2 hd0
    nlinarith
  funext i q
  show normal f1 J1 i = - normal f0 J0 i
  rw [hopp hside]
  rfl

/-! ## The hypotheses are met: two triangles of the unit square on two ranks -/

def sqElems (r : ℕ) : List (List ℕ) := if r = 0 then [[0, 1, 2]] else [[1, 2, 3]]

noncomputable def sqX (v : ℕ) : Fin 2 → ℝ :=
  if v = 0 then ![0, 0] else if v = 1 then ![1, 0] else if v = 2 then ![0, 1] else ![1, 1]

theorem sqMesh : Mesh 2 2 sqElems where
  dim := by decide
  size := by decide
  sorted := by decide
  small := by decide
  nodup := by decide
  disjoint := by
    have : ∀ s ∈ List.range 2, ∀ t ∈ List.range 2, s = t ∨ ∀ e ∈ sqElems s, ¬ e ∈ sqElems t := by decide
    exact fun s t hs ht hne e => (this s (List.mem_range.2 hs) t (List.mem_range.2 ht)).resolve_left hne e
  conforming := by
    have hall : ∀ s, s < 2 → ∀ a ∈ sqElems s, a = [0, 1, 2] ∨ a = [1, 2, 3] := by decide
    intro s t u hs ht hu a ha b hb c hc f h1 h2 h3
    rcases hall s hs a ha with rfl | rfl <;> rcases hall t ht b hb with rfl | rfl <;>
      rcases hall u hu c hc with rfl | rfl <;> simp

example : Valid (D := 1) 2 sqElems sqX := by
  have hall : ∀ s, s < 2 → ∀ a ∈ sqElems s, a = [0, 1, 2] ∨ a = [1, 2, 3] := by decide
  have hcommon : ∀ f, IsFacet [0, 1, 2] f → IsFacet [1, 2, 3] f → f = [1, 2] := by
    intro f h1 h2
    have := ((Ghosts.facets_spec 2 (by decide) [0, 1, 2] rfl (by decide)).2 f).2 h1
    have h3 : f ∈ [[0, 1], [0, 2], [1, 2]] := this
    simp only [List.mem_cons, List.not_mem_nil, or_false] at h3
    rcases h3 with rfl | rfl | rfl
    · exact absurd h2 (by decide)
    · exact absurd h2 (by decide)
    · rfl
  constructor
  · rintro e ⟨s, hs, he⟩
    rcases hall s hs e he with rfl | rfl <;> rw [Matrix.det_fin_two] <;>
      simp [edgeMatrix, elemVerts, sqX]
  · rintro f e e' ⟨s, hs, he⟩ ⟨s', hs', he'⟩ hne hf hf'
    rcases hall s hs e he with rfl | rfl <;> rcases hall s' hs' e' he' with rfl | rfl
    · exact absurd rfl hne
    · rw [hcommon f hf hf']
      exact ⟨![1, 1], -1, by simp [sqX], by simp [sqX], by simp [sqX]⟩
    · rw [hcommon f hf' hf]
      exact ⟨![-1, -1], 1, by simp [sqX], by simp [sqX], by simp [sqX]⟩
    · exact absurd rfl hne

end Tandem.Curvilinear
