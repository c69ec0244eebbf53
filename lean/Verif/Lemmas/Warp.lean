import Verif.Model.WarpAndBlend
import Verif.Lemmas.Functions
import Verif.Lemmas.JacobiPoly
import Verif.Lemmas.RefElement
/-! # The warp function is odd and interpolates -/
namespace Tandem.WarpAndBlend
open Functions RefElement Quadrature Curvilinear Equidistant

/-! ### Symmetry of the Gauss-Jacobi points -/

theorem jacobi_neg (n a : ℕ) (x : ℝ) : jacobiP n a a (-x) = (-1) ^ n * jacobiP n a a x := by
  rw [jacobi_eq, jacobi_eq]
  unfold Spec.jacobi
  rw [← Finset.sum_range_reflect, Finset.mul_sum]
  refine Finset.sum_congr rfl fun s hs => ?_
  rw [Finset.mem_range] at hs
  rw [show n + 1 - 1 - s = n - s by omega, show n - (n - s) = s by omega,
    show (-x - 1) / 2 = -((x + 1) / 2) by ring, show (-x + 1) / 2 = -((x - 1) / 2) by ring, neg_pow ((x + 1) / 2),
    neg_pow ((x - 1) / 2)]
  have : (-1 : ℝ) ^ n = (-1) ^ s * (-1) ^ (n - s) := by rw [← pow_add]; congr 1; omega
  rw [this]
  ring

theorem jacobiD_neg (n a : ℕ) (x : ℝ) :
    jacobiPDerivative n a a (-x) = -((-1) ^ n * jacobiPDerivative n a a x) := by
  unfold jacobiPDerivative
  split
  · simp
  · rename_i h
    obtain ⟨m, rfl⟩ : ∃ m, n = m + 1 := ⟨n - 1, by omega⟩
    rw [Nat.add_sub_cancel, jacobi_neg, pow_succ]
    ring

theorem newton_neg (n a : ℕ) (fuel : ℕ) : ∀ (x P dP P' dP' : ℝ), P' / dP' = -(P / dP) →
    (newton n a a fuel (-x) P' dP').1 = -(newton n a a fuel x P dP).1 := by
  induction fuel with
  | zero => intro x P dP P' dP' _; rfl
  | succ fuel ih =>
    intro x P dP P' dP' h
    have hx : -x - P' / dP' = -(x - P / dP) := by rw [h]; ring
    unfold newton
    simp only
    rw [hx, jacobi_neg, jacobiD_neg]
    have habs : |(-1 : ℝ) ^ n * jacobiP n a a (x - P / dP)| = |jacobiP n a a (x - P / dP)| := by
      rw [abs_mul, abs_pow, abs_neg, abs_one, one_pow, one_mul]
    rw [habs]
    split
    · refine ih _ _ _ _ _ ?_
      have hpow : ((-1 : ℝ) ^ n) ≠ 0 := pow_ne_zero _ (by norm_num)
      rw [div_neg, mul_div_mul_left _ _ hpow]
    · rfl

theorem guess_neg (n a i : ℕ) (hi : i < n) : guess n a a (n - 1 - i + 1) = -guess n a a (i + 1) := by
  unfold guess
  rw [← Real.cos_pi_sub]
  congr 1
  have hn : (0.5 * (1 + a + a) + n : ℝ) ≠ 0 := by positivity
  have e : ((n - 1 - i + 1 : ℕ) : ℝ) = n - i := by
    rw [show n - 1 - i + 1 = n - i by omega, Nat.cast_sub hi.le]
  rw [e]
  push_cast
  field_simp
  ring

theorem points_get (n a b i : ℕ) (hi : i < n) : (gaussJacobi n a b).points.getD i 0
    = (newton n a b maxIterations (guess n a b (i + 1)) 0 1).1 := by
  unfold gaussJacobi
  simp [List.getD_eq_getElem?_getD, hi]

theorem points_len (n a b : ℕ) : (gaussJacobi n a b).points.length = n := by
  unfold gaussJacobi; simp

theorem points_neg (n a i : ℕ) (hi : i < n) : (gaussJacobi n a a).points.getD (n - 1 - i) 0
    = -(gaussJacobi n a a).points.getD i 0 := by
  rw [points_get _ _ _ _ (by omega), points_get _ _ _ _ hi, guess_neg _ _ _ hi]
  exact newton_neg _ _ _ _ _ _ _ _ (by norm_num)

theorem gll_len (N : ℕ) (hN : 0 < N) : (gllPoints (N + 1) 0 0).length = N + 1 := by
  unfold gllPoints
  simp only [List.cons_append, List.length_cons, List.length_append, List.length_reverse, points_len,
    List.length_nil]
  omega

theorem gll_first (N : ℕ) : (gllPoints (N + 1) 0 0).getD 0 0 = -1 := by
  unfold gllPoints; simp

theorem gll_mid (N i : ℕ) (hi : i < N - 1) : (gllPoints (N + 1) 0 0).getD (i + 1) 0
    = (gaussJacobi (N - 1) 1 1).points.getD (N - 2 - i) 0 := by
  unfold gllPoints
  rw [List.cons_append, List.getD_cons_succ, List.getD_append _ _ _ _ (by
    rw [List.length_reverse, points_len]; omega)]
  rw [List.getD_eq_getElem?_getD, List.getElem?_reverse (by rw [points_len]; omega), points_len,
    List.getD_eq_getElem?_getD]
  rw [show N + 1 - 2 = N - 1 by omega]
  congr 2

theorem gll_last (N : ℕ) (hN : 0 < N) : (gllPoints (N + 1) 0 0).getD N 0 = 1 := by
  unfold gllPoints
  obtain ⟨m, rfl⟩ : ∃ m, N = m + 1 := ⟨N - 1, by omega⟩
  rw [List.cons_append, List.getD_cons_succ, List.getD_append_right _ _ _ _ (by
    rw [List.length_reverse, points_len]; omega), List.length_reverse, points_len]
  simp

theorem gll_neg (N i : ℕ) (hN : 0 < N) (hi : i ≤ N) : (gllPoints (N + 1) 0 0).getD (N - i) 0
    = -(gllPoints (N + 1) 0 0).getD i 0 := by
  rcases Nat.eq_zero_or_pos i with h | h
  · subst h; rw [Nat.sub_zero, gll_last N hN, gll_first]; ring
  rcases Nat.eq_or_lt_of_le hi with h' | h'
  · subst h'; rw [Nat.sub_self, gll_last i hN, gll_first]
  obtain ⟨j, rfl⟩ : ∃ j, i = j + 1 := ⟨i - 1, by omega⟩
  rw [show N - (j + 1) = (N - 2 - j) + 1 by omega, gll_mid _ _ (by omega), gll_mid _ _ (by omega)]
  have := points_neg (N - 1) 1 j (by omega)
  rw [show N - 1 - 1 - j = N - 2 - j by omega] at this
  rw [show N - 2 - (N - 2 - j) = j by omega, this, neg_neg]

theorem eqPoint_neg (N i : ℕ) (hN : 0 < N) (hi : i ≤ N) : eqPoint N (N - i) = -eqPoint N i := by
  unfold eqPoint
  have : (N : ℝ) ≠ 0 := by positivity
  rw [Nat.cast_sub hi]
  field_simp
  ring

theorem diff_neg (N i : ℕ) (hN : 0 < N) (hi : i ≤ N) : diff N (N - i) = -diff N i := by
  unfold diff
  rw [gll_neg N i hN hi, eqPoint_neg N i hN hi]
  ring

/-! ### The warp function is odd -/

theorem vandT_symm (N : ℕ) (hN : 0 < N) :
    Matrix.diagonal (fun j : Fin (N + 1) => (-1 : ℝ) ^ j.val) * vandT N
      = (vandT N).submatrix id Fin.rev := by
  ext j i
  rw [Matrix.diagonal_mul]
  simp only [vandT, Matrix.of_apply, Matrix.submatrix_apply, id_eq]
  rw [Fin.val_rev, show N + 1 - (i.val + 1) = N - i.val by omega, eqPoint_neg N i.val hN (by omega),
    jacobi_neg]

theorem warpRaw_neg (N : ℕ) (hN : 0 < N) (r : ℝ) : warpRaw N (-r) = -warpRaw N r := by
  set S := Matrix.diagonal (fun j : Fin (N + 1) => (-1 : ℝ) ^ j.val) with hS
  have hSS : S * S = 1 := by
    rw [hS, Matrix.diagonal_mul_diagonal, ← Matrix.diagonal_one]
    congr 1
    funext j
    rw [← mul_pow]; norm_num
  have hSi : S⁻¹ = S := Matrix.inv_eq_right_inv hSS
  have h1 : (vandT N)⁻¹ * S = ((vandT N)⁻¹).submatrix Fin.revPerm id := by
    have e : (S * vandT N)⁻¹ = ((vandT N).submatrix id Fin.rev)⁻¹ := by rw [← vandT_symm N hN]
    rw [Matrix.mul_inv_rev, hSi] at e
    rw [e]
    have := Matrix.inv_submatrix_equiv (vandT N) (Equiv.refl _) (Fin.revPerm (n := N + 1))
    exact this
  have h2 : (fun i : Fin (N + 1) => jacobiP i 0 0 (-r))
      = Matrix.mulVec S fun i : Fin (N + 1) => jacobiP i 0 0 r := by
    funext i
    rw [hS, Matrix.mulVec_diagonal, jacobi_neg]
  unfold warpRaw
  simp only
  rw [h2, Matrix.mulVec_mulVec, h1]
  set L := Matrix.mulVec (vandT N)⁻¹ fun i : Fin (N + 1) => jacobiP i 0 0 r with hL
  have h3 : Matrix.mulVec (((vandT N)⁻¹).submatrix Fin.revPerm id)
      (fun i : Fin (N + 1) => jacobiP i 0 0 r) = fun i => L (Fin.rev i) := by
    funext i
    rfl
  rw [h3, ← Finset.sum_neg_distrib, ← Equiv.sum_comp Fin.revPerm]
  refine Finset.sum_congr rfl fun i _ => ?_
  simp only [Fin.revPerm_apply, Fin.rev_rev]
  rw [Fin.val_rev, show N + 1 - (i.val + 1) = N - i.val by omega, diff_neg N i.val hN (by omega)]
  ring

theorem warpfactor_neg (N : ℕ) (hN : 0 < N) (r : ℝ) : warpfactor N (-r) = -warpfactor N r := by
  unfold warpfactor
  rw [abs_neg, warpRaw_neg N hN]
  split
  · rw [show -r * -r = r * r by ring]; ring
  · rfl

/-! ### The warp function interpolates -/

theorem vandT_det (N : ℕ) (hN : 0 < N) : (vandT N).det ≠ 0 := by
  intro hdet
  rw [← Matrix.det_transpose] at hdet
  obtain ⟨c, hc, h0⟩ := Matrix.exists_mulVec_eq_zero_iff.2 hdet
  have hNr : (0:ℝ) < N := by exact_mod_cast hN
  set p : Polynomial ℝ := ∑ j : Fin (N + 1), c j • jpoly j 0 0 with hp
  have hdeg : p.natDegree ≤ N := by
    refine Polynomial.natDegree_sum_le_of_forall_le _ _ fun j _ => ?_
    exact (Polynomial.natDegree_smul_le _ _).trans ((natDegree_jpoly_le _ _ _).trans (by omega))
  have heval : ∀ i : Fin (N + 1), p.eval ((i.val : ℝ) / N) = 0 := by
    intro i
    have := congrFun h0 i
    simp only [Matrix.mulVec, dotProduct, Matrix.transpose_apply, vandT, Matrix.of_apply,
      Pi.zero_apply] at this
    rw [hp, Polynomial.eval_finset_sum, ← this]
    refine Finset.sum_congr rfl fun j _ => ?_
    rw [Polynomial.eval_smul, eval_jpoly, jacobi_eq, smul_eq_mul, mul_comm]
    congr 2
    unfold eqPoint
    ring
  have hzero : p = 0 := by
    refine Polynomial.eq_zero_of_natDegree_lt_card_of_eval_eq_zero p
      (f := fun i : Fin (N + 1) => (i.val : ℝ) / N) ?_ heval ?_
    · intro i j hij
      simp only at hij
      rw [div_left_inj' hNr.ne'] at hij
      exact Fin.ext (by exact_mod_cast hij)
    · rw [Fintype.card_fin]; omega
  apply hc
  funext k
  have h2 : wint 0 0 (p * jpoly k 0 0) = 0 := by rw [hzero, zero_mul, map_zero]
  rw [hp, Finset.sum_mul, map_sum, Finset.sum_eq_single k] at h2
  · rw [smul_mul_assoc, map_smul, smul_eq_mul, wint_norm] at h2
    rcases mul_eq_zero.1 h2 with h | h
    · exact h
    · exfalso
      have : (0:ℝ) < ((k.val + 0).factorial * (k.val + 0).factorial : ℝ)
          / (k.val.factorial * (k.val + 0 + 0).factorial * (2 * k.val + 0 + 0 + 1)) := by positivity
      push_cast at h this
      exact this.ne' h
  · intro j _ hjk
    rw [smul_mul_assoc, map_smul, wint_jj _ _ _ _ (fun h => hjk (Fin.ext h)), smul_zero]
  · intro h; exact absurd (Finset.mem_univ k) h

theorem warpRaw_eq (N : ℕ) (hN : 0 < N) (i : ℕ) (hi : i ≤ N) : warpRaw N (eqPoint N i) = diff N i := by
  unfold warpRaw
  simp only
  have h1 : (fun j : Fin (N + 1) => jacobiP j 0 0 (eqPoint N i))
      = Matrix.mulVec (vandT N) (Pi.single (⟨i, by omega⟩ : Fin (N + 1)) 1) := by
    funext j
    rw [Matrix.mulVec_single_one]
    rfl
  rw [h1, Matrix.mulVec_mulVec, Matrix.nonsing_inv_mul _ (isUnit_iff_ne_zero.2 (vandT_det N hN)),
    Matrix.one_mulVec, Finset.sum_eq_single (⟨i, by omega⟩ : Fin (N + 1))]
  · rw [Pi.single_eq_same, one_mul]
  · intro j _ hj; rw [Pi.single_eq_of_ne hj, zero_mul]
  · intro h; exact absurd (Finset.mem_univ _) h

/-- On an edge the blended warp is the displacement from the equidistant to the Gauss-Lobatto point. -/
theorem warp_edge (N : ℕ) (hN : 0 < N) (hN' : N ≤ 2 ^ 16) (x y : ℝ) (i : ℕ) (hi : i ≤ N)
    (hx : x = i / N) (hy : y = 1 - i / N) :
    warpfactor N (x - y) * (4 * (y * x)) = diff N i := by
  have hNr : (0:ℝ) < N := by exact_mod_cast hN
  have hr : x - y = eqPoint N i := by rw [hx, hy]; unfold eqPoint; ring
  have hb : 4 * (y * x) = 1 - eqPoint N i * eqPoint N i := by rw [hx, hy]; unfold eqPoint; ring
  rw [hr, hb]
  rcases Nat.eq_zero_or_pos i with h | h
  · subst h
    have e1 : eqPoint N 0 = -1 := by unfold eqPoint; simp
    have e2 : diff N 0 = 0 := by unfold diff; rw [gll_first, e1]; ring
    rw [e2, e1]; norm_num
  rcases Nat.eq_or_lt_of_le hi with h' | h'
  · subst h'
    have e1 : eqPoint i i = 1 := by unfold eqPoint; field_simp; norm_num
    have e2 : diff i i = 0 := by unfold diff; rw [gll_last i hN, e1]; ring
    rw [e2, e1]; norm_num
  have hi1 : (1:ℝ) ≤ i := by exact_mod_cast h
  have hi2 : (i:ℝ) + 1 ≤ N := by exact_mod_cast h'
  have hN2 : (N:ℝ) ≤ 65536 := by exact_mod_cast hN'
  have hdist : epsilon < 2 / N := by
    unfold epsilon
    rw [lt_div_iff₀ hNr]
    norm_num
    linarith
  have habs : |eqPoint N i| < 1 - epsilon := by
    have e1 : eqPoint N i ≤ 1 - 2 / N := by
      unfold eqPoint
      have : 2 * (i:ℝ) / N + 2 / N ≤ 2 := by rw [← add_div, div_le_iff₀ hNr]; linarith
      linarith
    have e2 : -(1 - 2 / N) ≤ eqPoint N i := by
      unfold eqPoint
      have : 2 / (N:ℝ) ≤ 2 * i / N := by gcongr; linarith
      linarith
    have := abs_le.2 ⟨e2, e1⟩
    linarith
  have hlt : |eqPoint N i| < 1 := by
    have : 0 < epsilon := by unfold epsilon; positivity
    linarith
  have hne : 1 - eqPoint N i * eqPoint N i ≠ 0 := by
    have := sq_lt_one_iff_abs_lt_one (eqPoint N i) |>.2 hlt
    intro h0
    rw [sq] at this
    linarith
  unfold warpfactor
  rw [if_pos habs, div_mul_cancel₀ _ hne, warpRaw_eq N hN i hi]

end Tandem.WarpAndBlend
