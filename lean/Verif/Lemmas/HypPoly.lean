import Mathlib.Algebra.Polynomial.Derivative
import Mathlib.Algebra.Polynomial.AlgebraMap
import Mathlib.Algebra.Polynomial.BigOperators
import Mathlib.Algebra.Polynomial.Degree.Lemmas
import Mathlib.Data.Real.Basic
import Mathlib.Tactic.Ring
import Mathlib.Tactic.FieldSimp
import Mathlib.Tactic.Linarith
import Mathlib.Tactic.Positivity
import Mathlib.Tactic.LinearCombination
/-! # Jacobi polynomials with real parameters, normalised to one at the left end -/
namespace Tandem.LSPoly
open Polynomial Finset

/-- The coefficients of `₂F₁(-n, n+a+b+1; b+1; u)`. -/
noncomputable def hc (a b : ℝ) (n : ℕ) : ℕ → ℝ
  | 0 => 1
  | k + 1 => hc a b n k * (((k : ℝ) - n) * (n + a + b + 1 + k) / ((b + 1 + k) * (k + 1)))

theorem hc_big (a b : ℝ) (n k : ℕ) (h : n < k) : hc a b n k = 0 := by
  obtain ⟨d, rfl⟩ : ∃ d, k = n + 1 + d := ⟨k - (n + 1), by omega⟩
  induction d with
  | zero => simp [hc]
  | succ d ih =>
    rw [show n + 1 + (d + 1) = (n + 1 + d) + 1 by ring, hc, ih (by omega), zero_mul]

/-- The polynomial. -/
noncomputable def hp (a b : ℝ) (n : ℕ) : ℝ[X] := ∑ k ∈ range (n + 1), C (hc a b n k) * X ^ k

theorem coeff_hp (a b : ℝ) (n k : ℕ) : (hp a b n).coeff k = hc a b n k := by
  unfold hp
  rw [finset_sum_coeff]
  simp only [coeff_C_mul, coeff_X_pow, mul_ite, mul_one, mul_zero]
  rw [sum_ite_eq]
  split
  · rfl
  · rename_i h; rw [mem_range] at h; rw [hc_big a b n k (by omega)]

theorem natDegree_hp (a b : ℝ) (n : ℕ) : (hp a b n).natDegree ≤ n := by
  refine natDegree_sum_le_of_forall_le _ _ fun k hk => ?_
  rw [mem_range] at hk
  exact (natDegree_C_mul_X_pow_le _ _).trans (by omega)

theorem hp_zero (a b : ℝ) : hp a b 0 = 1 := by
  ext k
  rw [coeff_hp, coeff_one]
  cases k with
  | zero => simp [hc]
  | succ k => rw [hc_big _ _ _ _ (by omega)]; simp

theorem eval_hp_zero (a b : ℝ) (n : ℕ) : (hp a b n).eval 0 = 1 := by
  rw [← coeff_zero_eq_eval_zero, coeff_hp, hc]

theorem hc_step (a b : ℝ) (n k : ℕ) (hb : -1 < b) :
    ((b + 1 + k) * (k + 1)) * hc a b n (k + 1) = ((k : ℝ) - n) * (n + a + b + 1 + k) * hc a b n k := by
  have hk : (0:ℝ) ≤ k := Nat.cast_nonneg k
  have h1 : b + 1 + k ≠ 0 := by linarith
  have h3 : (k : ℝ) + 1 ≠ 0 := by linarith
  rw [hc]
  field_simp

theorem den_ne (b : ℝ) (k : ℕ) (hb : -1 < b) : (b + 1 + k) * ((k : ℝ) + 1) ≠ 0 := by
  have hk : (0:ℝ) ≤ k := Nat.cast_nonneg k
  have h1 : 0 < b + 1 + k := by linarith
  positivity

/-- Raising the degree. -/
theorem hc_up (a b : ℝ) (n k : ℕ) (hb : -1 < b) :
    (n + a + b + 1) * ((b + 1 + k) * (k + 1)) * hc a b (n + 1) (k + 1)
      = -((n : ℝ) + 1) * (n + a + b + 1 + k) * (n + a + b + 2 + k) * hc a b n k := by
  induction k with
  | zero =>
    have := hc_step a b (n + 1) 0 hb
    have e : ∀ m, hc a b m 0 = 1 := fun m => rfl
    rw [e] at this ⊢
    push_cast at *
    linear_combination (n + a + b + 1) * this
  | succ k ih =>
    have s1 := hc_step a b (n + 1) (k + 1) hb
    have s2 := hc_step a b n k hb
    refine mul_left_cancel₀ (den_ne b k hb) ?_
    push_cast at *
    linear_combination (n + a + b + 1) * ((b + 1 + k) * ((k : ℝ) + 1)) * s1
      + ((k : ℝ) - n) * (n + a + b + 3 + k) * ih
      + ((n : ℝ) + 1) * (n + a + b + 2 + k) * (n + a + b + 3 + k) * s2

/-- Lowering the degree. -/
theorem hc_down (a b : ℝ) (n k : ℕ) (hb : -1 < b) :
    ((n : ℝ) + 1) * ((b + 1 + k) * (k + 1)) * hc a b n (k + 1)
      = -((k : ℝ) - (n + 1)) * (k - n) * (n + a + b + 1) * hc a b (n + 1) k := by
  induction k with
  | zero =>
    have := hc_step a b n 0 hb
    have e : ∀ m, hc a b m 0 = 1 := fun m => rfl
    rw [e] at this ⊢
    push_cast at *
    linear_combination ((n : ℝ) + 1) * this
  | succ k ih =>
    have s1 := hc_step a b n (k + 1) hb
    have s2 := hc_step a b (n + 1) k hb
    refine mul_left_cancel₀ (den_ne b k hb) ?_
    push_cast at *
    linear_combination ((n : ℝ) + 1) * ((b + 1 + k) * ((k : ℝ) + 1)) * s1
      + ((k : ℝ) + 1 - n) * (n + a + b + 2 + k) * ih
      + ((k : ℝ) - n) * ((k : ℝ) + 1 - n) * (n + a + b + 1) * s2

/-- The three-term recurrence. -/
theorem hp_rec (a b : ℝ) (m : ℕ) (hb : -1 < b) (hs : -1 < a + b) :
    C (-(2 * (m + 1 + a + b + 1) * (2 * (m + 1) + a + b) * (m + 2 + b)) : ℝ) * hp a b (m + 2)
      = (C ((2 * (m + 1) + a + b + 1) * ((a * a - b * b)
            - (2 * (m + 1) + a + b + 2) * (2 * (m + 1) + a + b)) : ℝ)
          + C (2 * (2 * (m + 1) + a + b + 1) * (2 * (m + 1) + a + b + 2) * (2 * (m + 1) + a + b) : ℝ)
            * X) * hp a b (m + 1)
        + C (2 * (m + 1 + a) * (2 * (m + 1) + a + b + 2) * (m + 1) : ℝ) * hp a b m := by
  ext k
  rw [add_mul, mul_assoc (C _) X]
  simp only [coeff_add, coeff_C_mul, coeff_hp]
  cases k with
  | zero =>
    rw [mul_coeff_zero, coeff_X_zero]
    have e : ∀ m, hc a b m 0 = 1 := fun m => rfl
    rw [e, e, e]
    ring
  | succ k =>
    rw [coeff_X_mul, coeff_hp]
    have u := hc_up a b (m + 1) k hb
    have d := hc_down a b m k hb
    have t := hc_step a b (m + 1) k hb
    refine mul_left_cancel₀ (den_ne b k hb) ?_
    push_cast at *
    linear_combination (-2 * (2 * ((m : ℝ) + 1) + a + b) * (m + 2 + b)) * u
      - (2 * ((m : ℝ) + 1) + a + b + 1) * ((a * a - b * b)
            - (2 * (m + 1) + a + b + 2) * (2 * (m + 1) + a + b)) * t
      - 2 * ((m : ℝ) + 1 + a) * (2 * (m + 1) + a + b + 2) * d

theorem hp_one (a b : ℝ) (hb : -1 < b) : C (-(1 + b)) * hp a b 1 = C (-(1 + b)) + C (a + b + 2) * X := by
  have st := hc_step a b 1 0 hb
  have e : ∀ m, hc a b m 0 = 1 := fun m => rfl
  unfold hp
  simp only [sum_range_succ, sum_range_zero]
  rw [mul_add, zero_add, pow_zero, mul_one, pow_one, ← mul_assoc, ← C_mul, ← C_mul]
  rw [e] at *
  congr 3
  · ring
  · push_cast at st
    linear_combination -st

/-- The derivative is the polynomial for the next parameters. -/
theorem hc_deriv (a b : ℝ) (n k : ℕ) (hb : -1 < b) :
    ((k : ℝ) + 1) * (b + 1) * hc a b (n + 1) (k + 1)
      = -((n : ℝ) + 1) * (n + a + b + 2) * hc (a + 1) (b + 1) n k := by
  induction k with
  | zero =>
    have := hc_step a b (n + 1) 0 hb
    have e : ∀ a b m, hc a b m 0 = 1 := fun a b m => rfl
    rw [e] at this ⊢
    push_cast at *
    linear_combination this
  | succ k ih =>
    have s1 := hc_step a b (n + 1) (k + 1) hb
    have s2 := hc_step (a + 1) (b + 1) n k (by linarith)
    refine mul_left_cancel₀ (den_ne (b + 1) k (by linarith)) ?_
    push_cast at *
    linear_combination (b + 1) * ((k : ℝ) + 1) * s1 + ((k : ℝ) - n) * (n + a + b + 3 + k) * ih
      + ((n : ℝ) + 1) * (n + a + b + 2) * s2

theorem derivative_hp (a b : ℝ) (n : ℕ) (hb : -1 < b) :
    C (b + 1) * derivative (hp a b (n + 1))
      = C (-((n : ℝ) + 1) * (n + a + b + 2)) * hp (a + 1) (b + 1) n := by
  ext k
  rw [coeff_C_mul, coeff_C_mul, coeff_derivative, coeff_hp, coeff_hp]
  have := hc_deriv a b n k hb
  linear_combination this

/-- The hypergeometric differential equation. -/
theorem hp_ode (a b : ℝ) (n : ℕ) (hb : -1 < b) :
    (X - X ^ 2) * derivative (derivative (hp a b n))
      + (C (b + 1) - C (a + b + 2) * X) * derivative (hp a b n) + C (n * (n + a + b + 1)) * hp a b n
      = 0 := by
  ext k
  have e1 : ∀ p : ℝ[X], X ^ 2 * p = X * (X * p) := fun p => by ring
  rw [sub_mul, sub_mul, e1, mul_assoc (C _) X]
  simp only [coeff_add, coeff_sub, coeff_C_mul, coeff_zero]
  cases k with
  | zero =>
    have := hc_step a b n 0 hb
    simp only [mul_coeff_zero, coeff_X_zero, coeff_derivative, coeff_hp]
    push_cast at *
    linear_combination this
  | succ k =>
    have := hc_step a b n (k + 1) hb
    rw [coeff_X_mul, coeff_X_mul, coeff_X_mul]
    cases k with
    | zero =>
      simp only [mul_coeff_zero, coeff_X_zero, coeff_derivative, coeff_hp]
      push_cast at *
      linear_combination this
    | succ k =>
      rw [coeff_X_mul]
      simp only [coeff_derivative, coeff_hp]
      push_cast at *
      linear_combination this

/-- The relation behind the Rodrigues formula. -/
theorem hp_rodrigues (a b : ℝ) (n : ℕ) (ha : -1 < a) (hb : -1 < b) :
    (X - X ^ 2) * derivative (hp (a + 1) (b + 1) n)
      + (C (b + 1) - C (a + b + 2) * X) * hp (a + 1) (b + 1) n = C (b + 1) * hp a b (n + 1) := by
  have hk : C (-((n : ℝ) + 1) * (n + a + b + 2)) ≠ 0 := by
    have hn : (0:ℝ) ≤ n := Nat.cast_nonneg n
    rw [Ne, C_eq_zero]
    have h1 : 0 < (n : ℝ) + 1 := by linarith
    have h2 : 0 < (n : ℝ) + a + b + 2 := by linarith
    have := mul_pos h1 h2
    intro h
    linarith
  refine mul_left_cancel₀ hk ?_
  have d := derivative_hp a b n hb
  have d' := congrArg derivative d
  rw [derivative_C_mul, derivative_C_mul] at d'
  have o := hp_ode a b (n + 1) hb
  have e : (C (((n + 1 : ℕ) : ℝ) * (((n + 1 : ℕ) : ℝ) + a + b + 1)) : ℝ[X])
      = -C (-((n : ℝ) + 1) * (n + a + b + 2)) := by
    rw [← C_neg]; congr 1; push_cast; ring
  rw [e] at o
  linear_combination (-(X - X ^ 2)) * d' - (C (b + 1) - C (a + b + 2) * X) * d + C (b + 1) * o

end Tandem.LSPoly
