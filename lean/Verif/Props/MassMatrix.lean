import Verif.Props.RefElement
import Verif.Lemmas.DubinerOrtho
/-! # C82: mass matrices of the reference elements -/
namespace Tandem.RefElement
open Functions Finset

theorem quad_sum {D : ℕ} (P : List (Fin D → ℝ)) (W : List ℝ) (h : P.length = W.length)
    (f : (Fin D → ℝ) → ℝ) : ((P.zip W).map fun pw => pw.2 * f pw.1).sum
      = ∑ q ∈ range P.length, W.getD q 0 * f (P.getD q 0) := by
  induction P generalizing W with
  | nil => simp
  | cons p P ih =>
    cases W with
    | nil => simp at h
    | cons w W =>
      rw [List.zip_cons_cons, List.map_cons, List.sum_cons, ih W (by simpa using h), List.length_cons,
        sum_range_succ']
      simp [add_comm]

/-- Products of two functions of the space are integrated by the rule. -/
theorem quad_prod {D N : ℕ} (rule : Rule D) (hq : Spec.ExactQuadrature D (2 * N) rule.points rule.weights)
    (f g : (Fin D → ℝ) → ℝ) (hf : Spec.IsPoly D N f) (hg : Spec.IsPoly D N g) :
    Spec.simplexIntegral D (fun x => f x * g x)
      = ∑ q ∈ range rule.points.length,
          rule.weights.getD q 0 * (f (rule.points.getD q 0) * g (rule.points.getD q 0)) := by
  rw [← hq.2 _ (by rw [two_mul]; exact isPoly_mul D N N f g hf hg)]
  exact quad_sum _ _ hq.1 (fun x => f x * g x)

theorem index_inj (D N : ℕ) (hD : 0 < D) (i j : Fin (nbf D N)) (h : index D N i = index D N j) : i = j := by
  have hl := length_indices D N hD
  have h1 := i.2
  have h2 := j.2
  unfold index at h
  rw [List.getD_eq_getElem _ _ (by omega), List.getD_eq_getElem _ _ (by omega)] at h
  exact Fin.ext ((nodup_indices D N hD).getElem_inj_iff.1 h)

theorem modalMass_eq (D N : ℕ) (hD : D = 1 ∨ D = 2 ∨ D = 3) (rule : Rule D)
    (hq : Spec.ExactQuadrature D (2 * N) rule.points rule.weights) (i j : Fin (nbf D N)) :
    modalMass N rule i j = ∑ q ∈ range rule.points.length, rule.weights.getD q 0
        * (dubinerP D (index D N i) (rule.points.getD q 0) * dubinerP D (index D N j) (rule.points.getD q 0)) ∧
    modalMass N rule i j = if i = j then dubNorm D (index D N i) else 0 := by
  have hD0 : 0 < D := by omega
  have h1 := quad_prod rule hq _ _ (modal_isPoly D N i hD0 i.2) (modal_isPoly D N j hD0 j.2)
  have hidx : (index D N i = index D N j) ↔ i = j := ⟨index_inj D N hD0 i j, fun h => by rw [h]⟩
  have h2 := dubiner_ortho D hD (index D N i) (index D N j)
  simp only [hidx] at h2
  rw [← h1, h2]
  have : modalMass N rule i j = if i = j then dubNorm D (index D N i) else 0 := by
    unfold modalMass
    simp only [Matrix.of_apply]
    refine if_congr Iff.rfl ?_ rfl |>.trans (b := if i = j then ∑ q ∈ range rule.points.length,
        rule.weights.getD q 0 * (dubinerP D (index D N i) (rule.points.getD q 0)
          * dubinerP D (index D N j) (rule.points.getD q 0)) else 0) ?_
    · refine sum_congr rfl fun q _ => ?_
      have e := fun k => modalBasis_val N rule.points 1 k q
      have e' : ∀ k, (permute (1 : Equiv.Perm (Fin 2)) ![k, q]) = ![k, q] := fun k => rfl
      simp only [e'] at e
      rw [e, e]; ring
    · by_cases h : i = j
      · rw [if_pos h] at h2; rw [if_pos h, if_pos h, ← h1, h2]
      · rw [if_neg h, if_neg h]
  exact ⟨this, this⟩

/-- C82 (modal): with a quadrature rule that is exact for degree `2N`, every entry of the mass matrix
of the modal element, including the entries off the diagonal that are never computed, is the integral
of the product of the two basis functions over the reference simplex. -/
theorem C82_modal (D N : ℕ) (hD : D = 1 ∨ D = 2 ∨ D = 3) (rule : Rule D)
    (hq : Spec.ExactQuadrature D (2 * N) rule.points rule.weights) (i j : Fin (nbf D N)) :
    modalMass N rule i j
      = Spec.simplexIntegral D (fun x => modalFunction D N i x * modalFunction D N j x) := by
  have hD0 : 0 < D := by omega
  simp only [modalFunction_eq]
  rw [quad_prod rule hq _ _ (modal_isPoly D N i hD0 i.2) (modal_isPoly D N j hD0 j.2),
    (modalMass_eq D N hD rule hq i j).1]

/-- C82 (inverse, modal). -/
theorem C82_modal_inverse (D N : ℕ) (hD : D = 1 ∨ D = 2 ∨ D = 3) (rule : Rule D)
    (hq : Spec.ExactQuadrature D (2 * N) rule.points rule.weights) :
    modalInvMass N rule * modalMass N rule = 1 ∧ modalMass N rule * modalInvMass N rule = 1 := by
  have h1 : modalMass N rule = Matrix.diagonal fun i : Fin (nbf D N) => dubNorm D (index D N i) := by
    ext i j
    rw [(modalMass_eq D N hD rule hq i j).2, Matrix.diagonal_apply]
  have h2 : modalInvMass N rule = Matrix.diagonal fun i : Fin (nbf D N) => 1 / dubNorm D (index D N i) := by
    ext i j
    unfold modalInvMass
    rw [Matrix.of_apply, Matrix.diagonal_apply, h1]
    by_cases h : i = j
    · subst h; simp
    · rw [if_neg h, if_neg h, Matrix.diagonal_apply_ne _ h]
  have hp := fun j => (dubNorm_pos D hD j).ne'
  rw [h1, h2, Matrix.diagonal_mul_diagonal, Matrix.diagonal_mul_diagonal, ← Matrix.diagonal_one]
  constructor <;> congr 1 <;> funext i <;> have := hp (index D N i) <;> field_simp

/-- C82 (nodal): every entry of the mass matrix of the nodal element is the integral of the product of
the two nodal functions. -/
theorem C82_nodal (D N : ℕ) (hD : D = 1 ∨ D = 2 ∨ D = 3) (rule : Rule D)
    (hq : Spec.ExactQuadrature D (2 * N) rule.points rule.weights) (nodes : List (Fin D → ℝ))
    (i j : Fin (nbf D N)) :
    nodalMass N nodes rule i j
      = Spec.simplexIntegral D (fun x => nodalFunction N nodes i x * nodalFunction N nodes j x) := by
  have hD0 : 0 < D := by omega
  have hp : ∀ i : Fin (nbf D N), Spec.IsPoly D N (nodalFunction N nodes i) := by
    intro i
    have e : nodalFunction N nodes i
        = fun x => ∑ k : Fin (nbf D N), vInv N nodes k i * dubinerP D (index D N k) x := by
      funext x; exact nodalFunction_eq N nodes i x
    rw [e]
    exact isPoly_sum D N univ _ fun k _ => isPoly_const_mul D N _ _ (modal_isPoly D N k hD0 k.2)
  rw [quad_prod rule hq _ _ (hp i) (hp j)]
  unfold nodalMass
  rw [Matrix.mul_apply]
  simp only [Matrix.mul_apply, Matrix.transpose_apply, nodalFunction_eq,
    (modalMass_eq D N hD rule hq _ _).1, sum_mul, mul_sum]
  rw [sum_comm' (t' := univ) (s' := fun _ => univ) (by simp)]
  simp only [sum_comm (t := range rule.points.length)]
  refine sum_congr rfl fun q _ => ?_
  rw [sum_comm]
  exact sum_congr rfl fun k _ => sum_congr rfl fun l _ => by ring

/-- C82 (inverse, nodal): for unisolvent nodes the two matrices are inverse to each other. -/
theorem C82_nodal_inverse (D N : ℕ) (hD : D = 1 ∨ D = 2 ∨ D = 3) (rule : Rule D)
    (hq : Spec.ExactQuadrature D (2 * N) rule.points rule.weights) (nodes : List (Fin D → ℝ))
    (hV : IsUnit (vandermonde N nodes).det) :
    nodalInvMass N nodes rule * nodalMass N nodes rule = 1 ∧
    nodalMass N nodes rule * nodalInvMass N nodes rule = 1 := by
  have h1 : nodalInvMass N nodes rule * nodalMass N nodes rule = 1 := by
    unfold nodalInvMass nodalMass
    have e1 : (vandermonde N nodes).transpose * (vInv N nodes).transpose = 1 := by
      rw [← Matrix.transpose_mul, vInv, Matrix.nonsing_inv_mul _ hV, Matrix.transpose_one]
    calc _ = vandermonde N nodes * (modalInvMass N rule * ((vandermonde N nodes).transpose
          * (vInv N nodes).transpose) * modalMass N rule) * vInv N nodes := by
          simp only [Matrix.mul_assoc]
      _ = _ := by
          rw [e1, Matrix.mul_one, (C82_modal_inverse D N hD rule hq).1, Matrix.mul_one, vInv,
            Matrix.mul_nonsing_inv _ hV]
  exact ⟨h1, mul_eq_one_comm.1 h1⟩

end Tandem.RefElement
