import Verif.Lemmas.HypPoly
import Verif.Spec.LSPoly
import Mathlib.Analysis.SpecialFunctions.Integrals.Basic
import Mathlib.Analysis.SpecialFunctions.ImproperIntegrals
import Mathlib.MeasureTheory.Integral.IntervalIntegral.FundThmCalculus
import Mathlib.Analysis.SpecialFunctions.Pow.Deriv
import Mathlib.Analysis.SpecialFunctions.Pow.Continuity
import Mathlib.Analysis.Calculus.Deriv.Polynomial
import Mathlib.Topology.Algebra.Polynomial
import Mathlib.Algebra.Polynomial.RingDivision
/-! # Least-squares optimality of the normalised Jacobi polynomials -/
namespace Tandem.LSPoly
open Polynomial Finset MeasureTheory intervalIntegral

/-- The weight on `[0,1]`. -/
noncomputable def wt (a b u : ℝ) : ℝ := (1 - u) ^ a * u ^ b

theorem wt_integrable (a b : ℝ) (ha : -1 < a) (hb : -1 < b) (p : ℝ[X]) :
    IntervalIntegrable (fun u => wt a b u * p.eval u) volume 0 1 := by
  have h1 : IntervalIntegrable (fun u => wt a b u * p.eval u) volume 0 (1/2) := by
    have : (fun u => wt a b u * p.eval u) = fun u : ℝ => u ^ b * ((1 - u) ^ a * p.eval u) := by
      funext u; unfold wt; ring
    rw [this]
    refine (intervalIntegrable_rpow' hb).mul_continuousOn ?_
    refine ContinuousOn.mul ?_ p.continuous.continuousOn
    refine ContinuousOn.rpow_const (by fun_prop) fun u hu => Or.inl ?_
    rw [Set.uIcc_of_le (by norm_num)] at hu
    have := hu.2
    intro h; linarith
  have h2 : IntervalIntegrable (fun u => wt a b u * p.eval u) volume (1/2) 1 := by
    have : (fun u => wt a b u * p.eval u) = fun u : ℝ => (1 - u) ^ a * (u ^ b * p.eval u) := by
      funext u; unfold wt; ring
    rw [this]
    have hi : IntervalIntegrable (fun u : ℝ => (1 - u) ^ a) volume (1/2) 1 := by
      have := (intervalIntegrable_rpow' (a := 1/2) (b := 0) ha).comp_sub_left 1
      norm_num at this
      exact this
    refine hi.mul_continuousOn ?_
    refine ContinuousOn.mul ?_ p.continuous.continuousOn
    refine ContinuousOn.rpow_const (by fun_prop) fun u hu => Or.inl ?_
    rw [Set.uIcc_of_le (by norm_num)] at hu
    have := hu.1
    intro h; linarith
  exact h1.trans h2

/-- The weighted integral as a linear functional. -/
noncomputable def rint (a b : ℝ) (p : ℝ[X]) : ℝ := ∫ u in (0:ℝ)..1, wt a b u * p.eval u

theorem rint_add (a b : ℝ) (ha : -1 < a) (hb : -1 < b) (p q : ℝ[X]) :
    rint a b (p + q) = rint a b p + rint a b q := by
  unfold rint
  rw [← integral_add (wt_integrable a b ha hb p) (wt_integrable a b ha hb q)]
  refine integral_congr fun u _ => ?_
  simp only [eval_add]; ring

theorem rint_C_mul (a b c : ℝ) (p : ℝ[X]) : rint a b (C c * p) = c * rint a b p := by
  unfold rint
  rw [← intervalIntegral.integral_const_mul]
  refine integral_congr fun u _ => ?_
  simp only [eval_mul, eval_C]; ring

theorem ae_Ioo {f g : ℝ → ℝ} (h : ∀ u ∈ Set.Ioo (0:ℝ) 1, f u = g u) :
    ∫ u in (0:ℝ)..1, f u = ∫ u in (0:ℝ)..1, g u := by
  rw [integral_of_le (by norm_num), integral_of_le (by norm_num), integral_Ioc_eq_integral_Ioo,
    integral_Ioc_eq_integral_Ioo]
  exact setIntegral_congr_fun measurableSet_Ioo h

theorem rint_X (a b : ℝ) (p : ℝ[X]) : rint a b (X * p) = rint a (b + 1) p := by
  unfold rint
  refine ae_Ioo fun u hu => ?_
  unfold wt
  rw [eval_mul, eval_X, Real.rpow_add_one hu.1.ne']
  ring

theorem rint_XX (a b : ℝ) (p : ℝ[X]) : rint a b ((X - X ^ 2) * p) = rint (a + 1) (b + 1) p := by
  unfold rint
  refine ae_Ioo fun u hu => ?_
  unfold wt
  have h1 : 1 - u ≠ 0 := by have := hu.2; intro h; linarith
  rw [eval_mul, eval_sub, eval_pow, eval_X, Real.rpow_add_one hu.1.ne', Real.rpow_add_one h1]
  ring

/-- Integration by parts. -/
theorem rint_parts (a b : ℝ) (ha : -1 < a) (hb : -1 < b) (q : ℝ[X]) :
    rint a b ((X - X ^ 2) * derivative q + (C (b + 1) - C (a + b + 2) * X) * q) = 0 := by
  have key := integral_eq_sub_of_hasDerivAt_of_le (a := 0) (b := 1)
    (f := fun u : ℝ => (1 - u) ^ (a + 1) * u ^ (b + 1) * q.eval u)
    (f' := fun u => wt a b u *
      ((X - X ^ 2) * derivative q + (C (b + 1) - C (a + b + 2) * X) * q).eval u)
    (by norm_num) ?_ ?_ (wt_integrable a b ha hb _)
  · unfold rint
    rw [key]
    simp only [sub_self, sub_zero]
    rw [Real.zero_rpow (by linarith), Real.zero_rpow (by linarith)]
    ring
  · refine ContinuousOn.mul (ContinuousOn.mul ?_ ?_) q.continuous.continuousOn
    · exact ContinuousOn.rpow_const (by fun_prop) fun u _ => Or.inr (by linarith)
    · exact ContinuousOn.rpow_const (by fun_prop) fun u _ => Or.inr (by linarith)
  · intro u hu
    have h1 : 1 - u ≠ 0 := by have := hu.2; intro h; linarith
    have d1 : HasDerivAt (fun u : ℝ => (1 - u) ^ (a + 1)) (-1 * (a + 1) * (1 - u) ^ (a + 1 - 1)) u :=
      ((hasDerivAt_id u).const_sub 1).rpow_const (Or.inl h1)
    have d2 : HasDerivAt (fun u : ℝ => u ^ (b + 1)) (1 * (b + 1) * u ^ (b + 1 - 1)) u :=
      (hasDerivAt_id u).rpow_const (Or.inl hu.1.ne')
    have := (d1.fun_mul d2).fun_mul (q.hasDerivAt u)
    refine this.congr_deriv ?_
    unfold wt
    rw [add_sub_cancel_right, add_sub_cancel_right, Real.rpow_add_one hu.1.ne', Real.rpow_add_one h1]
    simp only [eval_add, eval_mul, eval_sub, eval_pow, eval_X, eval_C]
    ring

/-- Orthogonality to all polynomials of lower degree. -/
theorem rint_ortho (n : ℕ) : ∀ (a b : ℝ) (_ : -1 < a) (_ : -1 < b) (p : ℝ[X]) (_ : p.degree < n),
    rint a b (hp a b n * p) = 0 := by
  induction n with
  | zero =>
    intro a b ha hb p hp
    have : p = 0 := by
      by_contra h
      rw [degree_eq_natDegree h] at hp
      exact absurd hp (by norm_cast)
    rw [this]
    simp [rint]
  | succ n ih =>
    intro a b ha hb p hp'
    have h1 := rint_parts a b ha hb (hp (a + 1) (b + 1) n * p)
    have e : (X - X ^ 2) * derivative (hp (a + 1) (b + 1) n * p)
        + (C (b + 1) - C (a + b + 2) * X) * (hp (a + 1) (b + 1) n * p)
        = C (b + 1) * (hp a b (n + 1) * p)
          + (X - X ^ 2) * (hp (a + 1) (b + 1) n * derivative p) := by
      rw [derivative_mul]
      linear_combination p * hp_rodrigues a b n ha hb
    rw [e, rint_add a b ha hb, rint_C_mul, rint_XX] at h1
    have h2 : rint (a + 1) (b + 1) (hp (a + 1) (b + 1) n * derivative p) = 0 := by
      refine ih (a + 1) (b + 1) (by linarith) (by linarith) _ ?_
      by_cases h0 : p = 0
      · rw [h0, derivative_zero, degree_zero]; exact WithBot.bot_lt_coe n
      · have hlt := degree_derivative_lt h0
        have hn : p.degree ≤ n := by
          rw [degree_eq_natDegree h0] at hp' ⊢
          norm_cast at hp' ⊢
          omega
        exact lt_of_lt_of_le hlt hn
    rw [h2, add_zero] at h1
    rcases mul_eq_zero.1 h1 with h | h
    · exfalso; linarith
    · exact h

theorem rint_pos (a b : ℝ) (ha : -1 < a) (hb : -1 < b) (p : ℝ[X]) (h0 : p ≠ 0) :
    0 < rint a b (p ^ 2) := by
  unfold rint
  have hi := wt_integrable a b ha hb (p ^ 2)
  have hnn : ∀ u ∈ Set.Ioc (0:ℝ) 1, 0 ≤ wt a b u * (p ^ 2).eval u := by
    intro u hu
    unfold wt
    rw [eval_pow]
    exact mul_nonneg (mul_nonneg (Real.rpow_nonneg (by linarith [hu.2]) _)
      (Real.rpow_nonneg hu.1.le _)) (sq_nonneg _)
  rw [integral_pos_iff_support_of_nonneg_ae']
  · refine ⟨by norm_num, ?_⟩
    have hsub : Set.Ioo (0:ℝ) 1 \ (p.roots.toFinset : Set ℝ)
        ⊆ Function.support (fun u => wt a b u * (p ^ 2).eval u) ∩ Set.Ioc 0 1 := by
      intro u hu
      obtain ⟨hu1, hu2⟩ := hu
      refine ⟨?_, ⟨hu1.1, hu1.2.le⟩⟩
      rw [Function.mem_support]
      have hr : p.eval u ≠ 0 := by
        intro h
        apply hu2
        simp only [Finset.mem_coe, Multiset.mem_toFinset]
        exact (mem_roots h0).2 h
      unfold wt
      rw [eval_pow]
      have h1 : 0 < 1 - u := by linarith [hu1.2]
      exact mul_ne_zero (mul_ne_zero (Real.rpow_pos_of_pos h1 _).ne' (Real.rpow_pos_of_pos hu1.1 _).ne')
        (pow_ne_zero _ hr)
    refine lt_of_lt_of_le ?_ (measure_mono hsub)
    rw [measure_sdiff_null (Set.Finite.measure_zero (Finset.finite_toSet _) _), Real.volume_Ioo]
    norm_num
  · filter_upwards [ae_restrict_mem measurableSet_uIoc] with u hu
    rw [Set.uIoc_of_le (by norm_num)] at hu
    exact hnn u hu
  · exact hi

/-- Scaling of a polynomial on `[0,1]` to `[0,e]`. -/
noncomputable def scale (e : ℝ) (p : ℝ[X]) : ℝ[X] := p.comp (C e⁻¹ * X)

theorem lsNorm_eq (α β e : ℝ) (he : 0 < e) (p : ℝ[X]) :
    Spec.lsNorm α β e p = e * (2 ^ α * 2 ^ β) * rint α β ((p.comp (C e * X)) ^ 2) := by
  unfold Spec.lsNorm rint
  have := integral_comp_mul_left (a := 0) (b := 1)
    (fun l => (1 - (2 * l / e - 1)) ^ α * (1 + (2 * l / e - 1)) ^ β * p.eval l ^ 2) he.ne'
  rw [mul_zero, mul_one, smul_eq_mul] at this
  rw [show ∀ I J : ℝ, (I = e * (2 ^ α * 2 ^ β) * J ↔ e⁻¹ * I = (2 ^ α * 2 ^ β) * J) from
    fun I J => by rw [inv_mul_eq_iff_eq_mul₀ he.ne', mul_assoc], ← this, ← intervalIntegral.integral_const_mul]
  refine ae_Ioo fun u hu => ?_
  unfold wt
  rw [show 1 - (2 * (e * u) / e - 1) = 2 * (1 - u) by field_simp; ring,
    show 1 + (2 * (e * u) / e - 1) = 2 * u by field_simp; ring,
    Real.mul_rpow (by norm_num) (by linarith [hu.2]), Real.mul_rpow (by norm_num) hu.1.le]
  simp only [eval_pow, eval_comp, eval_mul, eval_C, eval_X]
  ring

theorem scale_comp (e : ℝ) (he : e ≠ 0) (p : ℝ[X]) : (scale e p).comp (C e * X) = p := by
  unfold scale
  rw [comp_assoc]
  simp only [mul_comp, C_comp, X_comp]
  rw [← mul_assoc, ← C_mul, inv_mul_cancel₀ he, C_1, one_mul, comp_X]

theorem comp_scale (e : ℝ) (he : e ≠ 0) (p : ℝ[X]) : scale e (p.comp (C e * X)) = p := by
  unfold scale
  rw [comp_assoc]
  simp only [mul_comp, C_comp, X_comp]
  rw [← mul_assoc, ← C_mul, mul_inv_cancel₀ he, C_1, one_mul, comp_X]

theorem eval_scale (e l : ℝ) (p : ℝ[X]) : (scale e p).eval l = p.eval (l / e) := by
  unfold scale
  rw [eval_comp, eval_mul, eval_C, eval_X]; congr 1; rw [div_eq_inv_mul]

theorem natDegree_comp_lin (c : ℝ) (p : ℝ[X]) : (p.comp (C c * X)).natDegree ≤ p.natDegree := by
  refine natDegree_comp_le.trans ?_
  have : (C c * X : ℝ[X]).natDegree ≤ 1 := (natDegree_C_mul_le _ _).trans natDegree_X_le
  calc p.natDegree * (C c * X : ℝ[X]).natDegree ≤ p.natDegree * 1 := Nat.mul_le_mul_left _ this
    _ = p.natDegree := mul_one _

/-- The scaled polynomial is the least-squares residual polynomial. -/
theorem hp_optimal (α β e : ℝ) (hα : -1 < α) (hβ : -1 < β) (he : 0 < e) (n : ℕ) :
    Spec.IsLeastSquares α β e n (scale e (hp α (β + 1) n)) := by
  refine ⟨(natDegree_comp_lin _ _).trans (natDegree_hp _ _ _), ?_, ?_⟩
  · rw [eval_scale, zero_div, eval_hp_zero]
  · intro S hS hS0 hne
    rw [lsNorm_eq _ _ _ he, lsNorm_eq _ _ _ he, scale_comp e he.ne']
    have hc : 0 < e * ((2:ℝ) ^ α * 2 ^ β) := by positivity
    refine mul_lt_mul_of_pos_left ?_ hc
    set T := S.comp (C e * X) with hT
    have hT0 : (T - hp α (β + 1) n).eval 0 = 0 := by
      rw [eval_sub, eval_hp_zero, hT, eval_comp, eval_mul, eval_X, mul_zero, hS0, sub_self]
    obtain ⟨q, hq⟩ := dvd_iff_isRoot.2 hT0
    rw [C_0, sub_zero] at hq
    have hTe : T = hp α (β + 1) n + X * q := by rw [← hq]; ring
    have hdT : T.natDegree ≤ n := (natDegree_comp_lin _ _).trans hS
    have hq0 : q ≠ 0 := by
      intro h
      apply hne
      rw [h, mul_zero, add_zero] at hTe
      rw [← hTe, hT, comp_scale e he.ne']
    have hdq : q.degree < n := by
      have h1 : (X * q).natDegree ≤ n := by
        rw [← hq]; exact (natDegree_sub_le _ _).trans (max_le hdT (natDegree_hp _ _ _))
      rw [natDegree_X_mul hq0] at h1
      rw [degree_eq_natDegree hq0]
      exact_mod_cast h1
    have hort := rint_ortho n α (β + 1) hα (by linarith) q hdq
    have hpos := rint_pos α β hα hβ (X * q) (mul_ne_zero X_ne_zero hq0)
    have e2 : T ^ 2 = hp α (β + 1) n ^ 2 + (C 2 * (X * (hp α (β + 1) n * q)) + (X * q) ^ 2) := by
      rw [hTe]
      have : (C 2 : ℝ[X]) = 2 := rfl
      rw [this]; ring
    rw [e2, rint_add α β hα hβ, rint_add α β hα hβ, rint_C_mul, rint_X, hort]
    linarith

end Tandem.LSPoly
