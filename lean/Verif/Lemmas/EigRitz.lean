import Verif.Lemmas.EigDeflate
import Mathlib.LinearAlgebra.Matrix.ToLin
import Mathlib.LinearAlgebra.Matrix.NonsingularInverse
/-! # The random subspace and Ritz pairs -/
namespace Tandem.EigDeflate
open Matrix Spec

variable {M n : ℕ}

theorem orth_of_span (Y Z : Cols M n) (h : Submodule.span ℝ (Set.range Y) = Submodule.span ℝ (Set.range Z))
    (hZ : LinearIndependent ℝ Z) : Orthonormal' (orthonormalize Y) ∧
    Submodule.span ℝ (Set.range (orthonormalize Y)) = Submodule.span ℝ (Set.range Z) := by
  have hY := indep_of_span Z Y h.symm hZ
  have hi := mgs_inv Y hY
  exact ⟨fun i j => hi.norm i j i.2 j.2, (span_range_eq _ _ hi.span).trans h⟩

theorem span_apply (T : (Fin M → ℝ) →ₗ[ℝ] Fin M → ℝ) (Y Z : Cols M n)
    (h : Submodule.span ℝ (Set.range Y) = Submodule.span ℝ (Set.range Z)) :
    Submodule.span ℝ (Set.range (applyCols T Y)) = Submodule.span ℝ (Set.range fun j => T (Z j)) := by
  have e : ∀ W : Cols M n, Submodule.span ℝ (Set.range fun j => T (W j))
      = (Submodule.span ℝ (Set.range W)).map T := by
    intro W
    rw [Submodule.map_span, ← Set.range_comp]
    rfl
  have : applyCols T Y = fun j => T (Y j) := rfl
  rw [this, e, e, h]

theorem subspace_spec (T : (Fin M → ℝ) →ₗ[ℝ] Fin M → ℝ) (its : ℕ) (X : Cols M n)
    (h : LinearIndependent ℝ fun j => (T ^ (its + 1)) (X j)) :
    Orthonormal' (subspace T its X) ∧ Submodule.span ℝ (Set.range (subspace T its X))
      = Submodule.span ℝ (Set.range fun j => (T ^ (its + 1)) (X j)) := by
  have hind : ∀ i ≤ its, LinearIndependent ℝ fun j => (T ^ (i + 1)) (X j) := by
    intro i hi
    have e : (fun j => (T ^ (its + 1)) (X j)) = (T ^ (its - i)) ∘ fun j => (T ^ (i + 1)) (X j) := by
      funext j
      rw [Function.comp, ← Module.End.mul_apply, ← pow_add]
      congr 2
      omega
    rw [e] at h
    exact LinearIndependent.of_comp _ h
  have hsucc : ∀ i j, T ((T ^ i) (X j)) = (T ^ (i + 1)) (X j) := by
    intro i j
    rw [pow_succ', Module.End.mul_apply]
  unfold subspace
  simp only
  have h1 : Submodule.span ℝ (Set.range (applyCols T X)) = Submodule.span ℝ (Set.range fun j => (T ^ 1) (X j)) := by
    rw [pow_one]
    exact span_apply T X X rfl
  split
  · rename_i h0
    subst h0
    exact orth_of_span _ _ h1 (hind 0 le_rfl)
  · rename_i h0
    obtain ⟨m, rfl⟩ : ∃ m, its = m + 1 := ⟨its - 1, by omega⟩
    rw [Nat.add_sub_cancel]
    have h2 := span_apply T _ _ h1
    simp only [hsucc] at h2
    have h3 := orth_of_span _ _ h2 (hind 1 (by omega))
    have key : ∀ i ≤ m, Orthonormal' ((List.range i).foldl (fun X _ => orthonormalize (applyCols T X))
          (orthonormalize (applyCols T (applyCols T X)))) ∧
        Submodule.span ℝ (Set.range ((List.range i).foldl (fun X _ => orthonormalize (applyCols T X))
          (orthonormalize (applyCols T (applyCols T X)))))
          = Submodule.span ℝ (Set.range fun j => (T ^ (i + 1 + 1)) (X j)) := by
      intro i
      induction i with
      | zero => intro _; exact h3
      | succ i ih =>
        intro hi
        rw [List.range_succ, List.foldl_append]
        simp only [List.foldl_cons, List.foldl_nil]
        have h4 := span_apply T _ _ (ih (by omega)).2
        simp only [hsucc] at h4
        exact orth_of_span _ _ h4 (hind (i + 2) (by omega))
    exact key m le_rfl

/-! ### Ritz pairs -/

theorem mult_eq (Q : Cols M n) (x : Fin n → ℝ) : multRedundant Q x = ∑ k, x k • Q k := by
  funext i
  simp only [multRedundant, Finset.sum_apply, Pi.smul_apply, smul_eq_mul]
  exact Finset.sum_congr rfl fun k _ => mul_comm _ _

theorem dot_sum (u : Fin M → ℝ) (c : Fin n → ℝ) (Q : Cols M n) :
    u ⬝ᵥ (∑ k, c k • Q k) = ∑ k, c k * (u ⬝ᵥ Q k) := by
  rw [dotProduct_sum]
  simp only [dotProduct_smul, smul_eq_mul]

theorem expand (Q : Cols M n) (hQ : Orthonormal' Q) (u : Fin M → ℝ)
    (hu : u ∈ Submodule.span ℝ (Set.range Q)) : u = ∑ k, (u ⬝ᵥ Q k) • Q k := by
  rw [Submodule.mem_span_range_iff_exists_fun] at hu
  obtain ⟨c, rfl⟩ := hu
  refine Finset.sum_congr rfl fun k _ => ?_
  congr 1
  rw [dotProduct_comm, dot_sum, Finset.sum_eq_single k]
  · rw [hQ k k, if_pos rfl, mul_one]
  · intro l _ hl; rw [hQ k l, if_neg (Ne.symm hl), mul_zero]
  · intro h; exact absurd (Finset.mem_univ k) h

theorem symm_dot (A : Matrix (Fin M) (Fin M) ℝ) (hA : A.IsSymm) (x y : Fin M → ℝ) :
    x ⬝ᵥ A *ᵥ y = y ⬝ᵥ A *ᵥ x := by
  rw [Matrix.dotProduct_mulVec, ← Matrix.mulVec_transpose, hA.eq, dotProduct_comm]

theorem ptap_symm (A : Matrix (Fin M) (Fin M) ℝ) (hA : A.IsSymm) (Q : Cols M n) (i j : Fin n) :
    symmetrize (ptap A.mulVec Q) i j = Q i ⬝ᵥ A *ᵥ Q j := by
  rw [symmetrize_eq]
  unfold ptap
  rw [vdot_eq, vdot_eq, symm_dot A hA (Q j) (Q i)]
  ring

/-- All Ritz pairs. -/
theorem ritz_all (A : Matrix (Fin M) (Fin M) ℝ) (hA : A.IsSymm) (Q : Cols M n) (hQ : Orthonormal' Q)
    (E : Eig n) (hE : IsEigh (symmetrize (ptap A.mulVec Q)) E.w E.vec) :
    RitzPairs A (Submodule.span ℝ (Set.range Q)) E.w (fun j => multRedundant Q fun l => E.vec l j) ∧
    ∀ u ∈ Submodule.span ℝ (Set.range Q),
      u = ∑ j, (u ⬝ᵥ multRedundant Q fun l => E.vec l j) • multRedundant Q fun l => E.vec l j := by
  obtain ⟨_, hvec, heig⟩ := hE
  set Z : Cols M n := fun j => multRedundant Q fun l => E.vec l j with hZ
  have hZQ : ∀ i j, Q i ⬝ᵥ Z j = E.vec i j := by
    intro i j
    rw [hZ]
    simp only
    rw [mult_eq, dot_sum, Finset.sum_eq_single i]
    · rw [hQ i i, if_pos rfl, mul_one]
    · intro l _ hl; rw [hQ i l, if_neg (Ne.symm hl), mul_zero]
    · intro h; exact absurd (Finset.mem_univ i) h
  have hZS : ∀ j, Z j ∈ Submodule.span ℝ (Set.range Q) := by
    intro j
    rw [hZ]
    simp only
    rw [mult_eq]
    exact Submodule.sum_mem _ fun k _ => Submodule.smul_mem _ _ (Submodule.subset_span ⟨k, rfl⟩)
  have hZZ : Orthonormal' Z := by
    intro i j
    rw [expand Q hQ (Z i) (hZS i), dotProduct_comm, dot_sum]
    rw [← hvec i j]
    simp only [dotProduct]
    refine Finset.sum_congr rfl fun l _ => ?_
    have e1 : (∑ x, Z i x * Q l x) = E.vec l i := by
      have := hZQ l i
      rw [dotProduct_comm] at this
      exact this
    have e2 : (∑ x, Z j x * Q l x) = E.vec l j := by
      have := hZQ l j
      rw [dotProduct_comm] at this
      exact this
    rw [e1, e2]
  refine ⟨⟨hZZ, hZS, fun j u hu => ?_⟩, fun u hu => ?_⟩
  · have hQi : ∀ i, Q i ⬝ᵥ A *ᵥ Z j = E.w j * (Q i ⬝ᵥ Z j) := by
      intro i
      rw [hZQ, ← heig i j, hZ]
      simp only
      rw [mult_eq, Matrix.mulVec_sum]
      simp only [Matrix.mulVec_smul]
      rw [dotProduct_sum]
      refine Finset.sum_congr rfl fun l _ => ?_
      rw [dotProduct_smul, ptap_symm A hA, smul_eq_mul, mul_comm]
    rw [expand Q hQ u hu, dotProduct_comm, dot_sum, dotProduct_comm, dot_sum, Finset.mul_sum]
    refine Finset.sum_congr rfl fun l _ => ?_
    rw [dotProduct_comm (A *ᵥ Z j), hQi, dotProduct_comm (Z j)]
    ring
  · have hd : ∀ l, u ⬝ᵥ Z l = ∑ a, E.vec a l * (u ⬝ᵥ Q a) := by
      intro l
      rw [hZ]
      simp only
      rw [mult_eq, dot_sum]
    -- the matrix of eigenvectors is orthogonal, so its rows are orthonormal, too
    have hrow : ∀ a b, ∑ l, E.vec a l * E.vec b l = if a = b then 1 else 0 := by
      intro a b
      have hm : (Matrix.of E.vec)ᵀ * Matrix.of E.vec = 1 := by
        ext i j
        rw [Matrix.mul_apply, Matrix.one_apply]
        simpa [dotProduct] using hvec i j
      have hm' := mul_eq_one_comm.1 hm
      have := congrFun (congrFun hm' a) b
      rw [Matrix.mul_apply, Matrix.one_apply] at this
      simpa using this
    have h1 : ∀ l, Z l = ∑ b, E.vec b l • Q b := fun l => by
      rw [hZ]
      simp only
      rw [mult_eq]
    have h2 : (∑ l, (u ⬝ᵥ Z l) • Z l) = ∑ b, (u ⬝ᵥ Q b) • Q b := by
      simp only [hd]
      have : ∀ l, (∑ a, E.vec a l * (u ⬝ᵥ Q a)) • Z l
          = ∑ b, (∑ a, (E.vec a l * E.vec b l) * (u ⬝ᵥ Q a)) • Q b := by
        intro l
        rw [h1 l, Finset.smul_sum]
        refine Finset.sum_congr rfl fun b _ => ?_
        rw [smul_smul, Finset.sum_mul]
        congr 1
        exact Finset.sum_congr rfl fun a _ => by ring
      rw [Finset.sum_congr rfl fun l _ => this l, Finset.sum_comm]
      refine Finset.sum_congr rfl fun b _ => ?_
      rw [← Finset.sum_smul]
      congr 1
      rw [Finset.sum_comm]
      simp only [← Finset.sum_mul, hrow]
      simp
    rw [h2]
    exact expand Q hQ u hu

/-- The quadratic form in terms of all Ritz pairs. -/
theorem ritz_form (A : Matrix (Fin M) (Fin M) ℝ) (S : Submodule ℝ (Fin M → ℝ)) (w : Fin n → ℝ)
    (Z : Cols M n) (h : RitzPairs A S w Z) (u : Fin M → ℝ) (hu : u ∈ S)
    (hx : u = ∑ j, (u ⬝ᵥ Z j) • Z j) :
    u ⬝ᵥ A *ᵥ u = ∑ j, w j * (u ⬝ᵥ Z j) ^ 2 ∧ u ⬝ᵥ u = ∑ j, (u ⬝ᵥ Z j) ^ 2 := by
  constructor
  · calc u ⬝ᵥ A *ᵥ u = u ⬝ᵥ A *ᵥ ∑ j, (u ⬝ᵥ Z j) • Z j := by rw [← hx]
      _ = ∑ j, w j * (u ⬝ᵥ Z j) ^ 2 := by
        rw [Matrix.mulVec_sum, dotProduct_sum]
        refine Finset.sum_congr rfl fun j _ => ?_
        rw [Matrix.mulVec_smul, dotProduct_smul, h.2.2 j u hu, smul_eq_mul]
        ring
  · calc u ⬝ᵥ u = u ⬝ᵥ ∑ j, (u ⬝ᵥ Z j) • Z j := by rw [← hx]
      _ = ∑ j, (u ⬝ᵥ Z j) ^ 2 := by
        rw [dot_sum]
        exact Finset.sum_congr rfl fun j _ => by ring

/-- Ritz pairs in an invariant subspace are eigenpairs. -/
theorem ritz_exact (A : Matrix (Fin M) (Fin M) ℝ) (S : Submodule ℝ (Fin M → ℝ)) (w : Fin n → ℝ)
    (Z : Cols M n) (h : RitzPairs A S w Z) (hS : ∀ u ∈ S, A *ᵥ u ∈ S) (j : Fin n) :
    A *ᵥ Z j = w j • Z j := by
  set d := A *ᵥ Z j - w j • Z j with hd
  have hdS : d ∈ S := Submodule.sub_mem _ (hS _ (h.2.1 j)) (Submodule.smul_mem _ _ (h.2.1 j))
  have h0 : d ⬝ᵥ d = 0 := by
    have := h.2.2 j d hdS
    calc d ⬝ᵥ d = d ⬝ᵥ (A *ᵥ Z j - w j • Z j) := rfl
      _ = d ⬝ᵥ A *ᵥ Z j - w j * (d ⬝ᵥ Z j) := by
          rw [dotProduct_sub, dotProduct_smul, smul_eq_mul]
      _ = 0 := by rw [this, sub_self]
  exact sub_eq_zero.1 (dotProduct_self_eq_zero.1 h0)

end Tandem.EigDeflate
