import Verif.Model.Curvilinear
import Mathlib.Tactic.FinCases
import Mathlib.Tactic.Ring
import Mathlib.Tactic.Linarith
import Mathlib.Tactic.Positivity
import Mathlib.Tactic.FieldSimp
import Mathlib.Tactic.NormNum
import Mathlib.Tactic.LinearCombination
/-! # Lemmas on the geometry -/
namespace Tandem.Curvilinear
open Equidistant Matrix

variable {D : ℕ}

theorem dot_eq (a b : Fin D → ℝ) : dot a b = a ⬝ᵥ b := rfl

theorem dot_comm (a b : Fin D → ℝ) : dot a b = dot b a := by
  simp only [dot, mul_comm]

theorem dot_self_nonneg (a : Fin D → ℝ) : 0 ≤ dot a a :=
  Finset.sum_nonneg fun _ _ => mul_self_nonneg _

theorem dot_self_pos (a : Fin D → ℝ) (h : a ≠ 0) : 0 < dot a a := by
  refine lt_of_le_of_ne (dot_self_nonneg a) fun e => h ?_
  funext d
  have := (Finset.sum_eq_zero_iff_of_nonneg (fun i _ => mul_self_nonneg (a i))).1 e.symm d
    (Finset.mem_univ d)
  exact mul_self_eq_zero.1 this

theorem dot_add (a b c : Fin D → ℝ) : dot a (b + c) = dot a b + dot a c := by
  simp [dot, mul_add, Finset.sum_add_distrib]

theorem dot_smul (r : ℝ) (a b : Fin D → ℝ) : dot a (r • b) = r * dot a b := by
  simp only [dot, Pi.smul_apply, smul_eq_mul, Finset.mul_sum]
  exact Finset.sum_congr rfl fun _ _ => by ring

theorem smul_dot (r : ℝ) (a b : Fin D → ℝ) : dot (r • a) b = r * dot a b := by
  rw [dot_comm, dot_smul, dot_comm]

theorem neg_dot (a b : Fin D → ℝ) : dot (-a) b = - dot a b := by
  simp [dot]

/-- The reference normal is perpendicular to its face and points away from the missing vertex. -/
theorem refNormal_spec (hD : D = 0 ∨ D = 1 ∨ D = 2) (f : Fin (D + 2)) :
    (∀ k, dot (refNormal D f) (refVertices (D + 1) (f2v f k) - refVertices (D + 1) (f2v f 0)) = 0) ∧
    dot (refNormal D f) (refVertices (D + 1) (missing f) - refVertices (D + 1) (f2v f 0)) = -1 := by
  have h10 : ¬ (1 : ℝ) < 0 := by norm_num
  rcases hD with rfl | rfl | rfl
  · fin_cases f
    · constructor
      · intro k
        fin_cases k
        simp [dot]
      · simp [refNormal, rawNormal, dot, missing, f2v, refVertices]
    · constructor
      · intro k
        fin_cases k
        simp [dot]
      · simp [refNormal, rawNormal, dot, missing, f2v, refVertices]
        norm_num
  · fin_cases f <;> constructor
    all_goals try (intro k; fin_cases k)
    all_goals simp [refNormal, rawNormal, dot, missing, f2v, refVertices, Fin.sum_univ_succ, Fin.succAbove, Fin.rev, h10]
  · fin_cases f <;> constructor
    all_goals try (intro k; fin_cases k)
    all_goals simp [refNormal, rawNormal, cross, dot, missing, f2v, refVertices, Fin.sum_univ_succ, Fin.succAbove, Fin.rev, h10]
/-- Tangent `k` of face `f` of the reference simplex. -/
noncomputable def tangent (f : Fin (D + 2)) (k : Fin (D + 1)) : Fin (D + 1) → ℝ :=
  refVertices (D + 1) (f2v f k) - refVertices (D + 1) (f2v f 0)

/-- The edge from face `f` to the missing vertex. -/
noncomputable def inward (f : Fin (D + 2)) : Fin (D + 1) → ℝ :=
  refVertices (D + 1) (missing f) - refVertices (D + 1) (f2v f 0)

theorem decomp (f : Fin (D + 2)) (v : Fin (D + 1) → ℝ) :
    ∃ (a : Fin D → ℝ) (c : ℝ), v = ∑ k, a k • tangent f k.succ + c • inward f := by
  set β : Fin (D + 2) → ℝ := Fin.cons (-∑ d, v d) v with hβ
  refine ⟨fun k => β (f2v f k.succ), β (missing f), ?_⟩
  have h0 : ∑ m, β m = 0 := by rw [Fin.sum_univ_succ]; simp [hβ]
  have h1 : v = ∑ m, β m • refVertices (D + 1) m := by
    funext i
    rw [Fin.sum_univ_succ]
    simp [hβ, refVertices, Fin.val_inj]
  have h2 : ∑ m, β m • (refVertices (D + 1) m - refVertices (D + 1) (f2v f 0)) = v := by
    simp only [smul_sub, Finset.sum_sub_distrib]
    rw [← Finset.sum_smul, h0, zero_smul, sub_zero, ← h1]
  conv_lhs => rw [← h2, Fin.sum_univ_succAbove _ f.rev]
  rw [Fin.sum_univ_succ]
  simp only [tangent, inward, missing, f2v, sub_self, smul_zero, zero_add]
  exact add_comm _ _

/-- The matrix of the edges of face `f`, the inward one last. -/
noncomputable def edges (f : Fin (D + 2)) : Fin (D + 1) → Fin (D + 1) → ℝ :=
  Fin.snoc (α := fun _ => Fin (D + 1) → ℝ) (fun k : Fin D => tangent f k.succ) (inward f)

theorem det_edges (hD : D = 0 ∨ D = 1 ∨ D = 2) (f : Fin (D + 2)) :
    |(Matrix.of fun i k => edges f k i).det| = 1 := by
  rcases hD with rfl | rfl | rfl
  · rw [Matrix.det_fin_one]
    fin_cases f <;> simp [edges, tangent, inward, missing, f2v, refVertices, Fin.snoc]
  · rw [Matrix.det_fin_two]
    fin_cases f <;> simp [edges, tangent, inward, missing, f2v, refVertices, Fin.snoc, Fin.succAbove, Fin.rev]
  · rw [Matrix.det_fin_three]
    fin_cases f <;> simp [edges, tangent, inward, missing, f2v, refVertices, Fin.snoc, Fin.succAbove, Fin.rev]

theorem normal_dot (f : Fin (D + 2)) (J : Matrix (Fin (D + 1)) (Fin (D + 1)) ℝ) (hJ : J.det ≠ 0)
    (x : Fin (D + 1) → ℝ) : dot (normal f J) (J *ᵥ x) = |J.det| * dot (refNormal D f) x := by
  unfold normal
  rw [smul_dot, dot_eq, dot_eq, Matrix.mulVec_transpose, ← Matrix.dotProduct_mulVec,
    Matrix.mulVec_mulVec, Matrix.nonsing_inv_mul _ (isUnit_iff_ne_zero.2 hJ), Matrix.one_mulVec]

theorem normal_tangent (hD : D = 0 ∨ D = 1 ∨ D = 2) (f : Fin (D + 2))
    (J : Matrix (Fin (D + 1)) (Fin (D + 1)) ℝ) (hJ : J.det ≠ 0) (k : Fin (D + 1)) :
    dot (normal f J) (J *ᵥ tangent f k) = 0 := by
  rw [normal_dot f J hJ, tangent, (refNormal_spec hD f).1 k, mul_zero]

theorem normal_inward (hD : D = 0 ∨ D = 1 ∨ D = 2) (f : Fin (D + 2))
    (J : Matrix (Fin (D + 1)) (Fin (D + 1)) ℝ) (hJ : J.det ≠ 0) :
    dot (normal f J) (J *ᵥ inward f) = -|J.det| := by
  rw [normal_dot f J hJ, inward, (refNormal_spec hD f).2, mul_neg_one]

/-- The determinants of two elements that share a facet. -/
theorem det_shared (hD : D = 0 ∨ D = 1 ∨ D = 2) (f0 f1 : Fin (D + 2))
    (J0 J1 : Matrix (Fin (D + 1)) (Fin (D + 1)) ℝ)
    (ht : ∀ k, J0 *ᵥ tangent f0 k = J1 *ᵥ tangent f1 k) (a : Fin D → ℝ) (c : ℝ)
    (hw : J1 *ᵥ inward f1 = J0 *ᵥ (∑ k, a k • tangent f0 k.succ + c • inward f0)) :
    |J1.det| = |c| * |J0.det| := by
  set R0 : Matrix (Fin (D + 1)) (Fin (D + 1)) ℝ := Matrix.of fun i k => edges f0 k i with hR0
  set R1 : Matrix (Fin (D + 1)) (Fin (D + 1)) ℝ := Matrix.of fun i k => edges f1 k i with hR1
  have hcol : ∀ (J : Matrix (Fin (D + 1)) (Fin (D + 1)) ℝ) (f : Fin (D + 2)) i k,
      (J * Matrix.of fun i k => edges f k i) i k = (J *ᵥ edges f k) i := fun _ _ _ _ => rfl
  set x : Fin (D + 1) → ℝ := Fin.snoc (α := fun _ => ℝ) a c with hx
  have hxs : ∑ k, a k • tangent f0 k.succ + c • inward f0 = R0 *ᵥ x := by
    funext i
    simp only [Matrix.mulVec, dotProduct, Fin.sum_univ_castSucc, hx, hR0, Matrix.of_apply, edges,
      Fin.snoc_castSucc, Fin.snoc_last, Pi.add_apply, Finset.sum_apply, Pi.smul_apply, smul_eq_mul]
    congr 1
    · exact Finset.sum_congr rfl fun _ _ => mul_comm _ _
    · exact mul_comm _ _
  have hup : J1 * R1 = (J0 * R0).updateCol (Fin.last D) ((J0 * R0) *ᵥ x) := by
    ext i k
    refine Fin.lastCases ?_ (fun k => ?_) k
    · rw [Matrix.updateCol_self, hR1, hcol, ← Matrix.mulVec_mulVec, ← hxs, ← hw]
      simp [edges]
    · rw [Matrix.updateCol_ne (Fin.castSucc_lt_last k).ne, hR1, hR0, hcol, hcol]
      simp only [edges, Fin.snoc_castSucc]
      rw [ht]
  have hd := congrArg Matrix.det hup
  rw [← Matrix.cramer_apply, Matrix.cramer_eq_adjugate_mulVec, Matrix.mulVec_mulVec,
    Matrix.adjugate_mul, Matrix.smul_mulVec, Matrix.one_mulVec, Pi.smul_apply, hx, Fin.snoc_last,
    Matrix.det_mul, Matrix.det_mul, smul_eq_mul] at hd
  have := congrArg abs hd
  rw [abs_mul, abs_mul, abs_mul, det_edges hD, det_edges hD, mul_one, mul_one] at this
  rw [this, mul_comm]

end Tandem.Curvilinear
