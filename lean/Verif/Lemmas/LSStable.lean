import Verif.Lemmas.HypPoly
import Mathlib.Analysis.Calculus.Deriv.MeanValue
import Mathlib.Analysis.Calculus.Deriv.Polynomial
import Mathlib.Topology.Algebra.Polynomial
import Mathlib.Algebra.Polynomial.Roots
/-! # The normalised Jacobi polynomials are bounded by one -/
namespace Tandem.LSPoly
open Polynomial

theorem hp_at_one (a b : ℝ) (ha : -1 < a) (hb : -1 < b) (hs : -1 < a + b) (n : ℕ) :
    ((n : ℝ) + 1 + b) * (hp a b (n + 1)).eval 1 = -((n : ℝ) + 1 + a) * (hp a b n).eval 1 := by
  induction n with
  | zero =>
    have := congrArg (eval 1) (hp_one a b hb)
    simp only [eval_mul, eval_C, eval_add, eval_X] at this
    rw [hp_zero, eval_one]
    push_cast
    linear_combination -this
  | succ n ih =>
    have hn : (0:ℝ) ≤ n := Nat.cast_nonneg n
    have := congrArg (eval 1) (hp_rec a b n hb hs)
    simp only [eval_mul, eval_C, eval_add, eval_X] at this
    have h1 : 2 * ((n : ℝ) + 1) + a + b ≠ 0 := by intro h; linarith
    have h2 : (n : ℝ) + 1 + a + b + 1 ≠ 0 := by intro h; linarith
    have h3 : 2 * ((n : ℝ) + 1 + a + b + 1) * (2 * ((n : ℝ) + 1) + a + b) ≠ 0 :=
      mul_ne_zero (mul_ne_zero two_ne_zero h2) h1
    refine mul_left_cancel₀ h3 ?_
    push_cast at *
    linear_combination -this - 2 * (2 * ((n : ℝ) + 1) + a + b + 2) * (n + 1) * ih

theorem hp_at_one_le (a b : ℝ) (ha : -1 < a) (hab : a ≤ b) (hs : -1 < a + b) (n : ℕ) :
    |(hp a b n).eval 1| ≤ 1 := by
  induction n with
  | zero => rw [hp_zero]; simp
  | succ n ih =>
    have hn : (0:ℝ) ≤ n := Nat.cast_nonneg n
    have hb : -1 < b := by linarith
    have := congrArg abs (hp_at_one a b ha hb hs n)
    rw [abs_mul, abs_mul, abs_neg, abs_of_pos (by linarith : 0 < (n : ℝ) + 1 + b),
      abs_of_pos (by linarith : 0 < (n : ℝ) + 1 + a)] at this
    have h1 : ((n : ℝ) + 1 + b) * |(hp a b (n + 1)).eval 1| ≤ ((n : ℝ) + 1 + b) * 1 := by
      rw [this]
      have h2 : ((n : ℝ) + 1 + a) * |(hp a b n).eval 1| ≤ ((n : ℝ) + 1 + a) * 1 :=
        mul_le_mul_of_nonneg_left ih (by linarith)
      linarith
    exact le_of_mul_le_mul_left h1 (by linarith)

/-- The auxiliary function that is monotone on both sides of its minimum. -/
noncomputable def aux (a b : ℝ) (n : ℕ) : ℝ[X] :=
  hp a b n ^ 2 + C (n * (n + a + b + 1))⁻¹ * ((X - X ^ 2) * derivative (hp a b n) ^ 2)

theorem derivative_aux (a b : ℝ) (n : ℕ) (hb : -1 < b) (hn : (n : ℝ) * (n + a + b + 1) ≠ 0) :
    derivative (aux a b n)
      = C (n * (n + a + b + 1))⁻¹ * (derivative (hp a b n) ^ 2
          * (C (-1 - 2 * b) + C (2 * (a + b + 1)) * X)) := by
  have o := hp_ode a b n hb
  set F := hp a b n
  set k := (n : ℝ) * (n + a + b + 1)
  have hk : (C k⁻¹ * C k : ℝ[X]) = 1 := by rw [← C_mul, inv_mul_cancel₀ hn, C_1]
  unfold aux
  rw [derivative_add, derivative_C_mul, derivative_mul, derivative_pow, derivative_pow, derivative_sub,
    derivative_X_pow, derivative_X]
  have e1 : (C (-1 - 2 * b) : ℝ[X]) = 1 - 2 * C (b + 1) := by
    simp only [map_sub, map_add, map_neg, map_mul, map_one, map_ofNat]; ring
  have e2 : (C (2 * (a + b + 1)) : ℝ[X]) = 2 * C (a + b + 2) - 2 := by
    simp only [map_sub, map_add, map_neg, map_mul, map_one, map_ofNat]; ring
  rw [e1, e2]
  simp only [Nat.cast_ofNat, map_ofNat, Nat.add_one_sub_one, pow_one]
  linear_combination 2 * C k⁻¹ * derivative F * o - 2 * F * derivative F * hk

theorem aux_zero (a b : ℝ) (n : ℕ) : (aux a b n).eval 0 = 1 := by
  unfold aux
  simp only [eval_add, eval_mul, eval_C, eval_sub, eval_pow, eval_X, eval_hp_zero]
  ring

theorem aux_one (a b : ℝ) (ha : -1 < a) (hab : a ≤ b) (hs : -1 < a + b) (n : ℕ) :
    (aux a b n).eval 1 ≤ 1 := by
  unfold aux
  simp only [eval_add, eval_mul, eval_C, eval_sub, eval_pow, eval_X]
  have := hp_at_one_le a b ha hab hs n
  rw [← sq_le_one_iff_abs_le_one] at this
  norm_num
  simpa using this

/-- The auxiliary function dominates the square and is monotone towards one of the ends. -/
theorem aux_mono (a b : ℝ) (ha : -1 < a) (hab : a ≤ b) (hb : -1/2 ≤ b) (hs : -1 < a + b) (n : ℕ)
    (hn : 0 < n) (u : ℝ) (h0 : 0 ≤ u) (h1 : u ≤ 1) :
    (hp a b n).eval u ^ 2 ≤ (aux a b n).eval u ∧
      (AntitoneOn (fun y => (aux a b n).eval y) (Set.Icc 0 u) ∨
        MonotoneOn (fun y => (aux a b n).eval y) (Set.Icc u 1)) := by
  have hn' : (1:ℝ) ≤ n := by exact_mod_cast hn
  have hk : 0 < (n : ℝ) * (n + a + b + 1) := mul_pos (by linarith) (by linarith)
  have hki : 0 < ((n : ℝ) * (n + a + b + 1))⁻¹ := inv_pos.2 hk
  have hle : (hp a b n).eval u ^ 2 ≤ (aux a b n).eval u := by
    unfold aux
    simp only [eval_add, eval_mul, eval_C, eval_sub, eval_pow, eval_X]
    have : 0 ≤ (u - u ^ 2) * eval u (derivative (hp a b n)) ^ 2 :=
      mul_nonneg (by nlinarith) (sq_nonneg _)
    nlinarith [mul_nonneg hki.le this]
  have hd : ∀ x, deriv (fun y => (aux a b n).eval y) x
      = ((n : ℝ) * (n + a + b + 1))⁻¹ * ((derivative (hp a b n)).eval x ^ 2
          * (-1 - 2 * b + 2 * (a + b + 1) * x)) := by
    intro x
    have := ((aux a b n).hasDerivAt x).deriv
    rw [this, derivative_aux a b n (by linarith) hk.ne']
    simp only [eval_mul, eval_C, eval_add, eval_pow, eval_X]
  refine ⟨hle, ?_⟩
  rcases le_total (2 * (a + b + 1) * u) (1 + 2 * b) with hc | hc
  · left
    refine antitoneOn_of_deriv_nonpos (convex_Icc 0 u) (aux a b n).continuous.continuousOn
      (aux a b n).differentiable.differentiableOn fun x hx => ?_
    rw [interior_Icc] at hx
    rw [hd]
    have : 2 * (a + b + 1) * x ≤ 2 * (a + b + 1) * u :=
      mul_le_mul_of_nonneg_left hx.2.le (by linarith)
    exact mul_nonpos_of_nonneg_of_nonpos hki.le
      (mul_nonpos_of_nonneg_of_nonpos (sq_nonneg _) (by linarith))
  · right
    refine monotoneOn_of_deriv_nonneg (convex_Icc u 1) (aux a b n).continuous.continuousOn
      (aux a b n).differentiable.differentiableOn fun x hx => ?_
    rw [interior_Icc] at hx
    rw [hd]
    have : 2 * (a + b + 1) * u ≤ 2 * (a + b + 1) * x :=
      mul_le_mul_of_nonneg_left hx.1.le (by linarith)
    exact mul_nonneg hki.le (mul_nonneg (sq_nonneg _) (by linarith))

theorem hp_bounded (a b : ℝ) (ha : -1 < a) (hab : a ≤ b) (hb : -1/2 ≤ b) (hs : -1 < a + b) (n : ℕ)
    (u : ℝ) (h0 : 0 ≤ u) (h1 : u ≤ 1) : |(hp a b n).eval u| ≤ 1 := by
  rcases Nat.eq_zero_or_pos n with hn | hn
  · subst hn; rw [hp_zero]; simp
  obtain ⟨hle, hmo⟩ := aux_mono a b ha hab hb hs n hn u h0 h1
  rw [← sq_le_one_iff_abs_le_one]
  rcases hmo with hmo | hmo
  · have := hmo (Set.left_mem_Icc.2 h0) (Set.right_mem_Icc.2 h0) h0
    simp only [aux_zero] at this
    linarith
  · have := hmo (Set.left_mem_Icc.2 h1) (Set.right_mem_Icc.2 h1) h1
    have h3 := aux_one a b ha hab hs n
    simp only at this
    linarith

theorem aux_ne (a b : ℝ) (hb : -1 < b) (hs : -1 < a + b) (n : ℕ) (hn : 0 < n)
    (s : Set ℝ) (hinf : s.Infinite) : ¬ ∀ u ∈ s, (aux a b n).eval u = 1 := by
  intro h
  have hn' : (1:ℝ) ≤ n := by exact_mod_cast hn
  have hk : 0 < (n : ℝ) * (n + a + b + 1) := mul_pos (by linarith) (by linarith)
  have h1 : aux a b n - 1 = 0 := by
    refine eq_zero_of_infinite_isRoot _ (hinf.mono fun u hu => ?_)
    simp only [Set.mem_setOf_eq, IsRoot.def, eval_sub, eval_one, h u hu, sub_self]
  have h2 := congrArg derivative (sub_eq_zero.1 h1)
  rw [derivative_aux a b n hb hk.ne', derivative_one] at h2
  have hC : (C (n * (n + a + b + 1))⁻¹ : ℝ[X]) ≠ 0 := by
    rw [Ne, C_eq_zero]; exact inv_ne_zero hk.ne'
  have hD : derivative (hp a b n) ≠ 0 := by
    intro hd
    have := congrArg (fun p => p.coeff 0) hd
    simp only [coeff_derivative, coeff_hp, coeff_zero] at this
    have st := hc_step a b n 0 hb
    have e : hc a b n 0 = 1 := rfl
    rw [e] at st
    push_cast at *
    have h3 : hc a b n (0 + 1) = 0 := by linarith
    rw [h3] at st
    nlinarith
  have hG : (C (-1 - 2 * b) + C (2 * (a + b + 1)) * X : ℝ[X]) ≠ 0 := by
    intro hg
    have := congrArg (fun p => p.coeff 1) hg
    simp only [coeff_add, coeff_C_mul, coeff_X_one, coeff_zero, mul_one] at this
    rw [coeff_C_ne_zero (by norm_num)] at this
    linarith
  exact mul_ne_zero hC (mul_ne_zero (pow_ne_zero 2 hD) hG) h2

theorem hp_strict (a b : ℝ) (ha : -1 < a) (hab : a ≤ b) (hb : -1/2 ≤ b) (hs : -1 < a + b) (n : ℕ)
    (hn : 0 < n) (u : ℝ) (h0 : 0 < u) (h1 : u < 1) : |(hp a b n).eval u| < 1 := by
  refine lt_of_le_of_ne (hp_bounded a b ha hab hb hs n u h0.le h1.le) fun heq => ?_
  obtain ⟨hle, hmo⟩ := aux_mono a b ha hab hb hs n hn u h0.le h1.le
  have hsq : (hp a b n).eval u ^ 2 = 1 := by rw [← sq_abs, heq, one_pow]
  rcases hmo with hmo | hmo
  · refine aux_ne a b (by linarith) hs n hn (Set.Icc 0 u) (Set.Icc_infinite h0) fun v hv => ?_
    have g1 := hmo (Set.left_mem_Icc.2 h0.le) hv hv.1
    have g2 := hmo hv (Set.right_mem_Icc.2 h0.le) hv.2
    have g3 := aux_zero a b n
    simp only at g1 g2
    linarith
  · refine aux_ne a b (by linarith) hs n hn (Set.Icc u 1) (Set.Icc_infinite h1) fun v hv => ?_
    have g1 := hmo (Set.left_mem_Icc.2 h1.le) hv hv.1
    have g2 := hmo hv (Set.right_mem_Icc.2 h1.le) hv.2
    have g3 := aux_one a b ha hab hs n
    simp only at g1 g2
    linarith

end Tandem.LSPoly
