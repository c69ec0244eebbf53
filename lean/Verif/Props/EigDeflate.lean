import Verif.Lemmas.EigRitz
import Mathlib.Analysis.Matrix.Spectrum
import Mathlib.Tactic.NormNum
/-! # Property C87: randomised eigenpairs and the deflation preconditioner -/
namespace Tandem.EigDeflate
open Matrix Spec

variable {M : ℕ}

/-- C87 (orthonormalisation): linearly independent columns are replaced by orthonormal columns, and the
first `l` new columns span the same space as the first `l` old ones, for every `l`. -/
theorem C87_orthonormalize {n : ℕ} (X : Cols M n) (h : LinearIndependent ℝ X) :
    Orthonormal' (orthonormalize X) ∧
    ∀ l, Submodule.span ℝ (orthonormalize X '' Set.Iic l) = Submodule.span ℝ (X '' Set.Iic l) := by
  have hi := mgs_inv X h
  exact ⟨fun i j => hi.norm i j i.2 j.2, hi.span⟩

/-- C87 (symmetrisation): the loop over the upper triangle computes `(A + Aᵀ)/2`. -/
theorem C87_symmetrize {n : ℕ} (A : Fin n → Fin n → ℝ) (i j : Fin n) :
    symmetrize A i j = (A i j + A j i) / 2 := by
  rw [symmetrize_eq]; ring

/-- C87 (largest eigenvalues): for a symmetric matrix, with `S` the image of the random space under
`A^(power_its + 1)`, the result consists of Ritz pairs of `A` in `S`, in ascending order; these are the
largest ones (the Rayleigh quotient of what is left of `S` is not larger); every Ritz value lies between
the bounds of the Rayleigh quotient; and in an invariant space they are eigenpairs. -/
theorem C87_max (A : Matrix (Fin M) (Fin M) ℝ) (hA : A.IsSymm) (k o its : ℕ) (X : Cols M (k + o))
    (eigh : (Fin (k + o) → Fin (k + o) → ℝ) → Eig (k + o))
    (heigh : ∀ R : Fin (k + o) → Fin (k + o) → ℝ, (∀ i j, R i j = R j i) → IsEigh R (eigh R).w (eigh R).vec)
    (hX : LinearIndependent ℝ fun j => (A ^ (its + 1)) *ᵥ X j)
    (S : Submodule ℝ (Fin M → ℝ)) (hS : S = Submodule.span ℝ (Set.range fun j => (A ^ (its + 1)) *ᵥ X j))
    (r : Result M k) (hr : r = randEigsMax A.mulVec k o its X eigh) :
    RitzPairs A S r.eigs r.V ∧ Monotone r.eigs ∧
    (∀ u ∈ S, (∀ j, u ⬝ᵥ r.V j = 0) → ∀ j, u ⬝ᵥ A *ᵥ u ≤ r.eigs j * (u ⬝ᵥ u)) ∧
    (∀ a b : ℝ, (∀ v, a * (v ⬝ᵥ v) ≤ v ⬝ᵥ A *ᵥ v ∧ v ⬝ᵥ A *ᵥ v ≤ b * (v ⬝ᵥ v)) →
      ∀ j, a ≤ r.eigs j ∧ r.eigs j ≤ b) ∧
    ((∀ u ∈ S, A *ᵥ u ∈ S) → ∀ j, A *ᵥ r.V j = r.eigs j • r.V j) := by
  have hpow : ∀ i v, (Matrix.mulVecLin A ^ i) v = (A ^ i) *ᵥ v := by
    intro i
    induction i with
    | zero => intro v; simp
    | succ i ih =>
      intro v
      rw [pow_succ, pow_succ, Module.End.mul_apply, ih, Matrix.mulVecLin_apply, Matrix.mulVec_mulVec]
  have hsub := subspace_spec (Matrix.mulVecLin A) its X (by simpa only [hpow] using hX)
  simp only [hpow] at hsub
  rw [← hS] at hsub
  obtain ⟨hQ, hspan⟩ := hsub
  have hop : ⇑(Matrix.mulVecLin A) = A.mulVec := by funext v; simp
  rw [hop] at hQ hspan
  set Q := subspace A.mulVec its X with hQdef
  have hsymm : ∀ i j, symmetrize (ptap A.mulVec Q) i j = symmetrize (ptap A.mulVec Q) j i := by
    intro i j
    rw [ptap_symm A hA, ptap_symm A hA, symm_dot A hA]
  have hE := heigh _ hsymm
  set E := eigh (symmetrize (ptap A.mulVec Q)) with hEdef
  obtain ⟨hall, hexp⟩ := ritz_all A hA Q hQ E hE
  rw [hspan] at hall hexp
  set Z : Cols M (k + o) := fun j => multRedundant Q fun l => E.vec l j with hZ
  have he : ∀ j, r.eigs j = E.w ⟨j.val + o, by omega⟩ := fun j => by rw [hr]; rfl
  have hV : ∀ j, r.V j = Z ⟨j.val + o, by omega⟩ := fun j => by rw [hr]; rfl
  have hritz : RitzPairs A S r.eigs r.V := by
    refine ⟨fun i j => ?_, fun j => ?_, fun j u hu => ?_⟩
    · rw [hV, hV, hall.1]
      simp [Fin.ext_iff]
    · rw [hV]; exact hall.2.1 _
    · rw [hV, he]; exact hall.2.2 _ u hu
  refine ⟨hritz, fun i j hij => ?_, fun u hu hperp j => ?_, fun a b hab j => ?_, fun hinv => ?_⟩
  · rw [he, he]
    exact hE.1 (Fin.mk_le_mk.2 (by have := Fin.le_iff_val_le_val.1 hij; omega))
  · obtain ⟨h1, h2⟩ := ritz_form A S E.w Z hall u hu (hexp u hu)
    rw [h1, h2, Finset.mul_sum]
    refine Finset.sum_le_sum fun l _ => ?_
    by_cases hl : l.val < o
    · have : E.w l ≤ r.eigs j := by
        rw [he]; exact hE.1 (Fin.le_iff_val_le_val.2 (by simp only; omega))
      exact mul_le_mul_of_nonneg_right this (sq_nonneg _)
    · have h0 := hperp ⟨l.val - o, by omega⟩
      rw [hV] at h0
      have : (⟨(⟨l.val - o, by omega⟩ : Fin k).val + o, by simp only; omega⟩ : Fin (k + o)) = l :=
        Fin.ext (by simp only; omega)
      rw [this] at h0
      rw [h0]
      simp
  · have h1 := hab (r.V j)
    rw [hritz.2.2 j _ (hritz.2.1 j), hritz.1 j j, if_pos rfl] at h1
    constructor <;> linarith [h1.1, h1.2]
  · exact ritz_exact A S r.eigs r.V hritz hinv

/-- C87 (smallest eigenvalues): for a symmetric positive definite matrix and an exact solver, with `S`
the image of the random space under `A^-(power_its + 1)`, the values are positive and ascending, their
reciprocals and the vectors are Ritz pairs of the inverse in `S`, and they are the largest ones for the
inverse; in an invariant space they are eigenpairs of `A`. -/
theorem C87_min (A : Matrix (Fin M) (Fin M) ℝ) (hA : A.IsSymm) (hpos : ∀ v, v ≠ 0 → 0 < v ⬝ᵥ A *ᵥ v)
    (k o its : ℕ) (X : Cols M (k + o)) (hX : LinearIndependent ℝ X)
    (eigh : (Fin (k + o) → Fin (k + o) → ℝ) → Eig (k + o))
    (heigh : ∀ R : Fin (k + o) → Fin (k + o) → ℝ, (∀ i j, R i j = R j i) → IsEigh R (eigh R).w (eigh R).vec)
    (solve : (Fin M → ℝ) → Fin M → ℝ) (hsolve : ∀ b, A *ᵥ solve b = b)
    (S : Submodule ℝ (Fin M → ℝ)) (hS : S = Submodule.span ℝ (Set.range fun j => (A⁻¹ ^ (its + 1)) *ᵥ X j))
    (r : Result M k) (hr : r = randEigsMin solve k o its X eigh) :
    (∀ j, 0 < r.eigs j) ∧ Monotone r.eigs ∧ RitzPairs A⁻¹ S (fun j => (r.eigs j)⁻¹) r.V ∧
    (∀ u ∈ S, (∀ j, u ⬝ᵥ r.V j = 0) → ∀ j, u ⬝ᵥ A⁻¹ *ᵥ u ≤ (r.eigs j)⁻¹ * (u ⬝ᵥ u)) ∧
    ((∀ u ∈ S, A *ᵥ u ∈ S) → ∀ j, A *ᵥ r.V j = r.eigs j • r.V j) := by
  have hdet : IsUnit A.det := by
    rw [isUnit_iff_ne_zero]
    intro h0
    obtain ⟨v, hv, hv0⟩ := Matrix.exists_mulVec_eq_zero_iff.2 h0
    have := hpos v hv
    rw [hv0, dotProduct_zero] at this
    exact lt_irrefl _ this
  have hinvl : A⁻¹ * A = 1 := Matrix.nonsing_inv_mul A hdet
  have hinvr : A * A⁻¹ = 1 := Matrix.mul_nonsing_inv A hdet
  have hsol : solve = A⁻¹.mulVec := by
    funext b
    have := congrArg (fun v => A⁻¹ *ᵥ v) (hsolve b)
    simpa only [Matrix.mulVec_mulVec, hinvl, Matrix.one_mulVec] using this
  have hB : A⁻¹.IsSymm := by
    rw [Matrix.IsSymm, Matrix.transpose_nonsing_inv, hA.eq]
  have hBpos : ∀ v, v ≠ 0 → 0 < v ⬝ᵥ A⁻¹ *ᵥ v := by
    intro v hv
    have hw : A *ᵥ (A⁻¹ *ᵥ v) = v := by rw [Matrix.mulVec_mulVec, hinvr, Matrix.one_mulVec]
    have hne : A⁻¹ *ᵥ v ≠ 0 := by
      intro h0
      rw [h0, Matrix.mulVec_zero] at hw
      exact hv hw.symm
    have := hpos _ hne
    rw [hw, dotProduct_comm] at this
    exact this
  have hpow : ∀ i v, (Matrix.mulVecLin A⁻¹ ^ i) v = (A⁻¹ ^ i) *ᵥ v := by
    intro i
    induction i with
    | zero => intro v; simp
    | succ i ih =>
      intro v
      rw [pow_succ, pow_succ, Module.End.mul_apply, ih, Matrix.mulVecLin_apply, Matrix.mulVec_mulVec]
  have hXi : LinearIndependent ℝ fun j => (A⁻¹ ^ (its + 1)) *ᵥ X j := by
    have e : X = (Matrix.mulVecLin (A ^ (its + 1))) ∘ fun j => (A⁻¹ ^ (its + 1)) *ᵥ X j := by
      funext j
      rw [Function.comp, Matrix.mulVecLin_apply, Matrix.mulVec_mulVec,
        ← (show Commute A A⁻¹ from hinvr.trans hinvl.symm).mul_pow, hinvr, one_pow, Matrix.one_mulVec]
    rw [e] at hX
    exact LinearIndependent.of_comp _ hX
  have hsub := subspace_spec (Matrix.mulVecLin A⁻¹) its X (by simpa only [hpow] using hXi)
  simp only [hpow] at hsub
  rw [← hS] at hsub
  obtain ⟨hQ, hspan⟩ := hsub
  have hop : ⇑(Matrix.mulVecLin A⁻¹) = A⁻¹.mulVec := by funext v; simp
  rw [hop] at hQ hspan
  set Q := subspace A⁻¹.mulVec its X with hQdef
  have hsymm : ∀ i j, symmetrize (ptap A⁻¹.mulVec Q) i j = symmetrize (ptap A⁻¹.mulVec Q) j i := by
    intro i j
    rw [ptap_symm _ hB, ptap_symm _ hB, symm_dot _ hB]
  have hE := heigh _ hsymm
  set E := eigh (symmetrize (ptap A⁻¹.mulVec Q)) with hEdef
  obtain ⟨hall, hexp⟩ := ritz_all A⁻¹ hB Q hQ E hE
  rw [hspan] at hall hexp
  set Z : Cols M (k + o) := fun j => multRedundant Q fun l => E.vec l j with hZ
  have hw : ∀ j, 0 < E.w j := by
    intro j
    have hne : Z j ≠ 0 := by
      intro h0
      have := hall.1 j j
      rw [h0, dotProduct_zero, if_pos rfl] at this
      exact zero_ne_one this
    have := hBpos _ hne
    rw [hall.2.2 j _ (hall.2.1 j), hall.1 j j, if_pos rfl, mul_one] at this
    exact this
  have he : ∀ j, r.eigs j = 1 / E.w (Fin.rev ⟨j.val, by omega⟩) := fun j => by
    rw [hr, hsol]
    unfold randEigsMin
    simp only [reverse_eq]
    rfl
  have hV : ∀ j, r.V j = Z (Fin.rev ⟨j.val, by omega⟩) := fun j => by
    rw [hr, hsol]
    unfold randEigsMin
    simp only [reverse_eq]
    rfl
  have hei : ∀ j, (r.eigs j)⁻¹ = E.w (Fin.rev ⟨j.val, by omega⟩) := fun j => by
    rw [he, one_div, inv_inv]
  have hritz : RitzPairs A⁻¹ S (fun j => (r.eigs j)⁻¹) r.V := by
    refine ⟨fun i j => ?_, fun j => ?_, fun j u hu => ?_⟩
    · rw [hV, hV, hall.1]
      simp [Fin.ext_iff]
      congr 1
      apply propext
      have := i.2
      have := j.2
      omega
    · rw [hV]; exact hall.2.1 _
    · simp only
      rw [hV, hei]; exact hall.2.2 _ u hu
  refine ⟨fun j => ?_, fun i j hij => ?_, hritz, fun u hu hperp j => ?_, fun hinv j => ?_⟩
  · rw [he]; exact one_div_pos.2 (hw _)
  · rw [he, he]
    refine one_div_le_one_div_of_le (hw _) (hE.1 ?_)
    rw [Fin.rev_le_rev]
    exact hij
  · obtain ⟨h1, h2⟩ := ritz_form A⁻¹ S E.w Z hall u hu (hexp u hu)
    rw [h1, h2, Finset.mul_sum]
    refine Finset.sum_le_sum fun l _ => ?_
    by_cases hl : l.val < o
    · have : E.w l ≤ (r.eigs j)⁻¹ := by
        rw [hei]
        refine hE.1 (Fin.le_iff_val_le_val.2 ?_)
        rw [Fin.val_rev]
        simp only
        have := j.2
        omega
      exact mul_le_mul_of_nonneg_right this (sq_nonneg _)
    · have hl2 := l.2
      have h0 := hperp ⟨k + o - 1 - l.val, by omega⟩
      rw [hV] at h0
      have : Fin.rev (⟨(⟨k + o - 1 - l.val, by omega⟩ : Fin k).val, by simp only; omega⟩ : Fin (k + o)) = l :=
        Fin.ext (by rw [Fin.val_rev]; simp only; omega)
      rw [this] at h0
      rw [h0]
      simp
  · -- `A` maps the finite-dimensional space `S` onto itself, so `A⁻¹` does, too
    have hSinv : ∀ u ∈ S, A⁻¹ *ᵥ u ∈ S := by
      have hmap : S.map (Matrix.mulVecLin A) = S := by
        apply Submodule.eq_of_le_of_finrank_eq
        · rintro _ ⟨u, hu, rfl⟩
          rw [Matrix.mulVecLin_apply]
          exact hinv u hu
        · refine LinearEquiv.finrank_eq (Submodule.equivMapOfInjective _ ?_ S).symm
          intro x y hxy
          rw [Matrix.mulVecLin_apply, Matrix.mulVecLin_apply] at hxy
          have := congrArg (fun v => A⁻¹ *ᵥ v) hxy
          simpa only [Matrix.mulVec_mulVec, hinvl, Matrix.one_mulVec] using this
      intro u hu
      rw [← hmap] at hu
      obtain ⟨w, hw', rfl⟩ := hu
      rw [Matrix.mulVecLin_apply, Matrix.mulVec_mulVec, hinvl, Matrix.one_mulVec]
      exact hw'
    have h1 := ritz_exact A⁻¹ S _ r.V hritz hSinv j
    have hpj : 0 < r.eigs j := by rw [he]; exact one_div_pos.2 (hw _)
    have h2 := congrArg (fun v => A *ᵥ v) h1
    simp only [Matrix.mulVec_mulVec, hinvr, Matrix.one_mulVec, Matrix.mulVec_smul] at h2
    conv_rhs => rw [h2]
    rw [smul_smul, mul_inv_cancel₀ hpj.ne', one_smul]

/-- C87 (full space): with as many columns as rows every space is invariant, so the values and vectors
are exact eigenpairs; the functions refuse more columns than rows, which could not be independent. -/
theorem C87_full (A : Matrix (Fin M) (Fin M) ℝ) (hA : A.IsSymm) (k o its : ℕ) (X : Cols M (k + o))
    (eigh : (Fin (k + o) → Fin (k + o) → ℝ) → Eig (k + o))
    (heigh : ∀ R : Fin (k + o) → Fin (k + o) → ℝ, (∀ i j, R i j = R j i) → IsEigh R (eigh R).w (eigh R).vec)
    (hX : LinearIndependent ℝ fun j => (A ^ (its + 1)) *ᵥ X j) :
    refused M k o = false ∧ (k + o = M → ∀ j,
      A *ᵥ (randEigsMax A.mulVec k o its X eigh).V j
        = (randEigsMax A.mulVec k o its X eigh).eigs j • (randEigsMax A.mulVec k o its X eigh).V j) := by
  have hle := hX.fintype_card_le_finrank
  rw [Fintype.card_fin, Module.finrank_fin_fun] at hle
  refine ⟨by unfold refused; simpa using hle, fun hM => ?_⟩
  refine (C87_max A hA k o its X eigh heigh hX _ rfl _ rfl).2.2.2.2 fun u _ => ?_
  have htop : Submodule.span ℝ (Set.range fun j => (A ^ (its + 1)) *ᵥ X j) = ⊤ :=
    hX.span_eq_top_of_card_eq_finrank' (by rw [Fintype.card_fin, Module.finrank_fin_fun, hM])
  rw [htop]
  exact Submodule.mem_top

/-! ### The preconditioner -/

theorem coarse_eq {n p : ℕ} (owner : Fin M → Fin p) (Q : Cols M n) (eigs : Fin n → ℝ) (r : Fin M → ℝ) :
    coarse owner Q eigs r = ∑ k, ((Q k ⬝ᵥ r) / eigs k) • Q k := by
  unfold coarse
  simp only
  rw [mult_eq]
  refine Finset.sum_congr rfl fun k _ => ?_
  congr 2
  unfold rcLocal
  simp only [dotProduct]
  rw [← Finset.sum_fiberwise (s := Finset.univ) (g := owner)]

/-- C87 (any distribution): without smoothing the preconditioner is `Q Λ⁻¹ Qᵀ`, however the rows are
distributed over the ranks. -/
theorem C87_apply {n p : ℕ} (owner : Fin M → Fin p) (A : (Fin M → ℝ) → Fin M → ℝ)
    (smooth : ℕ → (Fin M → ℝ) → (Fin M → ℝ) → Fin M → ℝ) (Q : Cols M n) (eigs : Fin n → ℝ)
    (x : Fin M → ℝ) :
    apply owner A smooth 0 0 Q eigs x = ∑ k, ((Q k ⬝ᵥ x) / eigs k) • Q k := by
  unfold apply
  simp only [lt_irrefl, if_false]
  exact coarse_eq owner Q eigs x

theorem richardson_error (A : Matrix (Fin M) (Fin M) ℝ) (al : ℝ) (its : ℕ) : ∀ (v y : Fin M → ℝ),
    v - richardson A.mulVec al its (A *ᵥ v) y = ((1 - al • A) ^ its) *ᵥ (v - y) := by
  induction its with
  | zero => intro v y; simp [richardson]
  | succ its ih =>
    intro v y
    rw [richardson, ih, pow_succ, ← Matrix.mulVec_mulVec]
    congr 1
    rw [Matrix.sub_mulVec, Matrix.one_mulVec, Matrix.smul_mulVec, ← Matrix.mulVec_sub, sub_sub]

/-- C87 (deflation): if `Q` consists of eigenvectors of the symmetric matrix `A` for the eigenvalues
`eigs`, then the preconditioner (with any number of Richardson steps after the correction) removes the
deflated part of the error entirely, and a part that is an eigenvector orthogonal to `Q` is multiplied
by `(1 - α μ)^npost`. -/
theorem C87_deflates {n p : ℕ} (owner : Fin M → Fin p) (A : Matrix (Fin M) (Fin M) ℝ) (hA : A.IsSymm)
    (al : ℝ) (npost : ℕ) (Q : Cols M n) (eigs : Fin n → ℝ) (hQ : Orthonormal' Q)
    (hne : ∀ k, eigs k ≠ 0) (heig : ∀ k, A *ᵥ Q k = eigs k • Q k) (c : Fin n → ℝ) (u : Fin M → ℝ) (mu : ℝ)
    (hu : A *ᵥ u = mu • u) (hperp : ∀ k, Q k ⬝ᵥ u = 0) (v : Fin M → ℝ) (hv : v = (∑ k, c k • Q k) + u) :
    v - apply owner A.mulVec (richardson A.mulVec al) 0 npost Q eigs (A *ᵥ v) = (1 - al * mu) ^ npost • u := by
  have hAv : ∀ k, Q k ⬝ᵥ A *ᵥ v = eigs k * c k := by
    intro k
    rw [symm_dot A hA, heig, dotProduct_smul, smul_eq_mul, dotProduct_comm, hv, dotProduct_add, hperp, add_zero,
      dot_sum, Finset.sum_eq_single k]
    · rw [hQ k k, if_pos rfl, mul_one]
    · intro l _ hl; rw [hQ k l, if_neg (Ne.symm hl), mul_zero]
    · intro h; exact absurd (Finset.mem_univ k) h
  have hco : coarse owner Q eigs (A *ᵥ v) = ∑ k, c k • Q k := by
    rw [coarse_eq]
    refine Finset.sum_congr rfl fun k _ => ?_
    rw [hAv, mul_div_cancel_left₀ _ (hne k)]
  have hpow : ∀ m, ((1 - al • A) ^ m) *ᵥ u = (1 - al * mu) ^ m • u := by
    intro m
    induction m with
    | zero => simp
    | succ m ih =>
      rw [pow_succ, ← Matrix.mulVec_mulVec, Matrix.sub_mulVec, Matrix.one_mulVec, Matrix.smul_mulVec, hu,
        smul_smul]
      have : u - (al * mu) • u = (1 - al * mu) • u := by rw [sub_smul, one_smul]
      rw [this, Matrix.mulVec_smul, ih, smul_smul, pow_succ, mul_comm]
  unfold apply
  simp only [lt_irrefl, if_false]
  rw [hco]
  split
  · rw [richardson_error, hv, add_sub_cancel_left, hpow]
  · rename_i h
    obtain rfl : npost = 0 := by omega
    rw [hv, add_sub_cancel_left, pow_zero, one_smul]

/-- C87 (relaxation): with relaxation factor 1, positive bounds `e_min ≤ μ ≤ e_max` of the spectrum give
a factor at most `(e_max - e_min)/(e_max + e_min) < 1` per step. -/
theorem C87_relaxation (e_min e_max mu : ℝ) (h0 : 0 < e_min) (h1 : e_min ≤ mu) (h2 : mu ≤ e_max) :
    |1 - alpha 1 e_min e_max * mu| ≤ (e_max - e_min) / (e_max + e_min) ∧
    (e_max - e_min) / (e_max + e_min) < 1 := by
  have hs : 0 < e_max + e_min := by linarith
  constructor
  · have e : 1 - alpha 1 e_min e_max * mu = (e_max + e_min - 2 * mu) / (e_max + e_min) := by
      unfold alpha
      rw [add_comm e_min e_max]
      field_simp
    rw [e, abs_div, abs_of_pos hs]
    apply div_le_div_of_nonneg_right _ hs.le
    rw [abs_le]
    constructor <;> linarith
  · rw [div_lt_one hs]; linarith

/-- C87 (pre-smoothing is lost): with pre-smoothing and without post-smoothing the result contains only
the correction of the residual of the pre-smoothed solution, not that solution itself: it always lies in
the span of `Q`, and for a pre-smoother that solves the system exactly the result is zero. -/
theorem C87_presmoothing_lost {n p : ℕ} (owner : Fin M → Fin p) (A : (Fin M → ℝ) → Fin M → ℝ)
    (smooth : ℕ → (Fin M → ℝ) → (Fin M → ℝ) → Fin M → ℝ) (npre : ℕ) (hpre : 0 < npre) (Q : Cols M n)
    (eigs : Fin n → ℝ) (x : Fin M → ℝ) :
    apply owner A smooth npre 0 Q eigs x ∈ Submodule.span ℝ (Set.range Q) ∧
    (A (smooth npre x 0) = x → apply owner A smooth npre 0 Q eigs x = 0) := by
  have e : apply owner A smooth npre 0 Q eigs x
      = ∑ k, ((Q k ⬝ᵥ (x + (-1 : ℝ) • A (smooth npre x 0))) / eigs k) • Q k := by
    unfold apply
    simp only [lt_irrefl, if_false, if_pos hpre]
    exact coarse_eq owner Q eigs _
  constructor
  · rw [e]
    exact Submodule.sum_mem _ fun k _ => Submodule.smul_mem _ _ (Submodule.subset_span ⟨k, rfl⟩)
  · intro h
    rw [e, h]
    have : x + (-1 : ℝ) • x = 0 := by rw [neg_one_smul, add_neg_cancel]
    rw [this]
    simp

/-! ### The hypotheses can be met -/

/-- Every symmetric matrix has the eigenvalues and eigenvectors that `dsyev` is to return. -/
theorem eigh_exists {n : ℕ} (R : Fin n → Fin n → ℝ) (h : ∀ i j, R i j = R j i) : ∃ E : Eig n,
    IsEigh R E.w E.vec := by
  have hH : (Matrix.of R).IsHermitian := by
    ext i j
    rw [Matrix.conjTranspose_apply, star_trivial]
    exact h j i
  have hc : Fintype.card (Fin n) = n := Fintype.card_fin n
  let e : Fin n ≃ Fin n := Fin.revPerm.trans ((finCongr hc.symm).trans (Fintype.equivOfCardEq (Fintype.card_fin _)))
  refine ⟨⟨fun i => hH.eigenvalues (e i), fun l j => hH.eigenvectorBasis (e j) l⟩, ?_, ?_, ?_⟩
  · intro i j hij
    simp only
    have e0 : ∀ i, hH.eigenvalues (e i) = hH.eigenvalues₀ (finCongr hc.symm i.rev) := by
      intro i
      unfold Matrix.IsHermitian.eigenvalues
      congr 1
      simp [e]
    rw [e0, e0]
    apply hH.eigenvalues₀_antitone
    rw [Fin.le_iff_val_le_val]
    simp only [finCongr_apply, Fin.val_cast]
    exact Fin.le_iff_val_le_val.1 (Fin.rev_le_rev.2 hij)
  · intro i j
    have := orthonormal_iff_ite.1 hH.eigenvectorBasis.orthonormal (e i) (e j)
    rw [EuclideanSpace.inner_eq_star_dotProduct] at this
    simp only [star_trivial, EmbeddingLike.apply_eq_iff_eq] at this
    rw [dotProduct_comm]
    exact this
  · intro a j
    have := congrFun (hH.mulVec_eigenvectorBasis (e j)) a
    simpa [Matrix.mulVec, dotProduct] using this

/-- Two dimensions, one eigenvalue, one extra vector, one power iteration: the hypotheses of both
theorems hold for the matrix with diagonal 1, 2 and the unit vectors. -/
example : ∃ (A : Matrix (Fin 2) (Fin 2) ℝ) (X : Cols 2 (1 + 1)) (S : Submodule ℝ (Fin 2 → ℝ)),
    A.IsSymm ∧ (∀ v, v ≠ 0 → 0 < v ⬝ᵥ A *ᵥ v) ∧ LinearIndependent ℝ X ∧
    (S = Submodule.span ℝ (Set.range fun j => (A⁻¹ ^ (1 + 1)) *ᵥ X j)) ∧
    LinearIndependent ℝ (fun j => (A ^ (1 + 1)) *ᵥ X j) := by
  refine ⟨Matrix.diagonal ![1, 2], fun j => Pi.single j 1, _, Matrix.isSymm_diagonal _, ?_, ?_, rfl, ?_⟩
  · intro v hv
    have e : v ⬝ᵥ Matrix.diagonal ![1, 2] *ᵥ v = v 0 * v 0 + 2 * (v 1 * v 1) := by
      simp [dotProduct, Matrix.mulVec_diagonal, Fin.sum_univ_two]; ring
    rw [e]
    by_contra h
    apply hv
    have h0 : v 0 * v 0 = 0 := by nlinarith [mul_self_nonneg (v 0), mul_self_nonneg (v 1)]
    have h1 : v 1 * v 1 = 0 := by nlinarith [mul_self_nonneg (v 0), mul_self_nonneg (v 1)]
    funext i
    fin_cases i
    · simpa using h0
    · simpa using h1
  · exact Pi.linearIndependent_single_one (Fin 2) ℝ
  · have e : (fun j : Fin 2 => (Matrix.diagonal ![(1:ℝ), 2] ^ (1 + 1)) *ᵥ (Pi.single j (1:ℝ) : Fin 2 → ℝ))
        = (fun j => (![1, 4] j : ℝ) • (Pi.single j (1:ℝ) : Fin 2 → ℝ)) := by
      funext j i
      rw [Matrix.diagonal_pow, Matrix.mulVec_diagonal]
      fin_cases j <;> fin_cases i <;> norm_num [Pi.single_apply]
    show LinearIndependent ℝ (fun j : Fin 2 => (Matrix.diagonal ![(1:ℝ), 2] ^ (1 + 1)) *ᵥ (Pi.single j (1:ℝ) : Fin 2 → ℝ))
    rw [e]
    have := (Pi.linearIndependent_single_one (Fin 2) ℝ).units_smul (fun j => Units.mk0 (![(1:ℝ), 4] j) (by
      fin_cases j <;> norm_num))
    exact this

/-- Deflation is not vacuous: the first unit vector for the same matrix; the other one is an eigenvector
orthogonal to it. -/
example : Orthonormal' (fun _ : Fin 1 => ![(1:ℝ), 0]) ∧
    (Matrix.diagonal ![(1:ℝ), 2]) *ᵥ ![1, 0] = (1:ℝ) • ![1, 0] ∧
    (Matrix.diagonal ![(1:ℝ), 2]) *ᵥ ![0, 1] = (2:ℝ) • ![0, 1] ∧ (![(1:ℝ), 0] ⬝ᵥ ![0, 1] = 0) := by
  refine ⟨fun i j => ?_, ?_, ?_, ?_⟩
  · have : i = j := Subsingleton.elim _ _
    simp [this]
  · funext i; fin_cases i <;> simp [Matrix.mulVec_diagonal]
  · funext i; fin_cases i <;> simp [Matrix.mulVec_diagonal]
  · simp

end Tandem.EigDeflate
