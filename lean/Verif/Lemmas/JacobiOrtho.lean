import Verif.Lemmas.Functions
import Mathlib.Algebra.Group.ForwardDiff
import Mathlib.MeasureTheory.Integral.IntervalIntegral.FundThmCalculus
import Mathlib.Analysis.SpecialFunctions.Integrals.Basic
import Mathlib.Algebra.Polynomial.Eval.Degree
/-! # Orthogonality of the Jacobi polynomials -/
namespace Tandem.Functions
open Finset intervalIntegral fwdDiff

theorem beta_int (p q : ℕ) : ∫ u in (0:ℝ)..1, u ^ p * (1 - u) ^ q
    = (p.factorial * q.factorial : ℝ) / ((p + q + 1).factorial : ℝ) := by
  induction q generalizing p with
  | zero =>
    simp only [pow_zero, mul_one, integral_pow]
    rw [Nat.add_zero, Nat.factorial_succ]
    have : ((p.factorial : ℕ) : ℝ) ≠ 0 := by positivity
    push_cast
    field_simp
    simp
  | succ q ih =>
    have hd : ∀ u : ℝ, HasDerivAt (fun u : ℝ => u ^ (p + 1) * (1 - u) ^ (q + 1))
        ((p + 1) * (u ^ p * (1 - u) ^ (q + 1)) - (q + 1) * (u ^ (p + 1) * (1 - u) ^ q)) u := by
      intro u
      have h1 := (hasDerivAt_pow (p + 1) u)
      have h2 : HasDerivAt (fun u : ℝ => (1 - u) ^ (q + 1)) (((q + 1 : ℕ) : ℝ) * (1 - u) ^ q * (-1)) u := by
        have := ((hasDerivAt_id' u).const_sub 1).fun_pow (q + 1)
        simpa only [Nat.add_sub_cancel] using this
      have := h1.fun_mul h2
      refine this.congr_deriv ?_
      rw [Nat.add_sub_cancel]
      push_cast
      ring
    have hint := integral_eq_sub_of_hasDerivAt (a := 0) (b := 1) (fun u _ => hd u)
      (by apply Continuous.intervalIntegrable; fun_prop)
    rw [integral_sub (by apply Continuous.intervalIntegrable; fun_prop)
      (by apply Continuous.intervalIntegrable; fun_prop), integral_const_mul, integral_const_mul,
      ih (p + 1)] at hint
    have e0 : ((1:ℝ)) ^ (p + 1) * (1 - 1) ^ (q + 1) - 0 ^ (p + 1) * (1 - 0) ^ (q + 1) = 0 := by simp
    rw [e0] at hint
    have hp : ((p : ℝ) + 1) ≠ 0 := by positivity
    have : ∫ u in (0:ℝ)..1, u ^ p * (1 - u) ^ (q + 1)
        = (q + 1) * (((p + 1).factorial * q.factorial : ℝ) / ((p + 1 + q + 1).factorial : ℝ)) / (p + 1) := by
      rw [eq_div_iff hp]; linarith
    rw [this, Nat.factorial_succ p, Nat.factorial_succ q, show p + 1 + q + 1 = p + (q + 1) + 1 by ring]
    push_cast
    have h3 : (((p + (q + 1) + 1).factorial : ℕ) : ℝ) ≠ 0 := by positivity
    field_simp

/-- The rising factorial `(t+c)(t+c+1)...(t+c+k-1)`. -/
theorem fwdDiff_asc (c k : ℕ) : Δ_[1] (fun t : ℕ => ((t + c).ascFactorial k : ℝ))
    = fun t => (k : ℝ) * ((t + (c + 1)).ascFactorial (k - 1) : ℝ) := by
  funext t
  unfold fwdDiff
  cases k with
  | zero => simp
  | succ k =>
    have h1 : (t + 1 + c).ascFactorial (k + 1) = (t + (c + 1) + k) * (t + (c + 1)).ascFactorial k := by
      rw [show t + 1 + c = t + (c + 1) by ring, Nat.ascFactorial_succ]
    have h2 : (t + c).ascFactorial (k + 1) = (t + c) * (t + (c + 1)).ascFactorial k := by
      have := Nat.succ_ascFactorial (t + c) k
      have h3 := Nat.ascFactorial_succ (n := t + c) (k := k)
      rw [h3, ← this]
      rfl
    simp only
    rw [h1, h2, Nat.add_sub_cancel]
    push_cast
    ring

theorem fwdDiff_iter_asc (n : ℕ) : ∀ c k : ℕ, (fwdDiff 1)^[n] (fun t : ℕ => ((t + c).ascFactorial k : ℝ))
    = fun t => (k.descFactorial n : ℝ) * ((t + (c + n)).ascFactorial (k - n) : ℝ) := by
  induction n with
  | zero => intro c k; funext t; simp
  | succ n ih =>
    intro c k
    rw [Function.iterate_succ_apply', ih c k]
    have : (fun t : ℕ => (k.descFactorial n : ℝ) * ((t + (c + n)).ascFactorial (k - n) : ℝ))
        = (k.descFactorial n : ℝ) • (fun t : ℕ => ((t + (c + n)).ascFactorial (k - n) : ℝ)) := rfl
    rw [this, fwdDiff_const_smul, fwdDiff_asc]
    funext t
    simp only [Pi.smul_apply, smul_eq_mul]
    rw [Nat.descFactorial_succ, Nat.sub_sub]
    by_cases h : n ≤ k
    · push_cast
      rw [show c + (n + 1) = c + n + 1 by ring]
      ring
    · have : k - n = 0 := by omega
      rw [this]; simp

theorem alt_asc (n k b : ℕ) : ∑ s ∈ range (n + 1), (-1 : ℝ) ^ s * (n.choose s : ℝ)
      * (((n - s) + (b + 1)).ascFactorial k : ℝ)
    = (k.descFactorial n : ℝ) * ((0 + (b + 1 + n)).ascFactorial (k - n) : ℝ) := by
  have h := fwdDiff_iter_eq_sum_shift (1 : ℕ) (fun t : ℕ => ((t + (b + 1)).ascFactorial k : ℝ)) n 0
  rw [fwdDiff_iter_asc] at h
  simp only at h
  rw [h, ← Finset.sum_range_reflect]
  refine Finset.sum_congr rfl fun s hs => ?_
  rw [mem_range] at hs
  have e : n + 1 - 1 - s = n - s := by omega
  rw [e, Nat.sub_sub_self (by omega), Nat.choose_symm (by omega)]
  simp

/-- Moments of the Jacobi polynomial, transported to `[0,1]`. -/
theorem jacobi_moment (n a b k : ℕ) :
    ∫ u in (0:ℝ)..1, (1 - u) ^ a * u ^ b * Spec.jacobi n a b (2 * u - 1) * u ^ k
    = ((n + a).factorial * (n + b).factorial : ℝ) / (n.factorial * (n + a + b + k + 1).factorial)
      * ((k.descFactorial n : ℝ) * ((b + 1 + n).ascFactorial (k - n) : ℝ)) := by
  have e : ∀ u : ℝ, (1 - u) ^ a * u ^ b * Spec.jacobi n a b (2 * u - 1) * u ^ k
      = ∑ s ∈ range (n + 1), ((n + a).choose (n - s) : ℝ) * ((n + b).choose s : ℝ) * (-1) ^ s
          * (u ^ (n - s + b + k) * (1 - u) ^ (a + s)) := by
    intro u
    unfold Spec.jacobi
    rw [mul_sum, sum_mul]
    refine sum_congr rfl fun s _ => ?_
    rw [show (2 * u - 1 - 1) / 2 = (-1) * (1 - u) by ring, show (2 * u - 1 + 1) / 2 = u by ring,
      mul_pow, pow_add, pow_add, pow_add]
    ring
  rw [integral_congr (fun u _ => e u), integral_finset_sum
    (fun s _ => by apply Continuous.intervalIntegrable; fun_prop)]
  have h := alt_asc n k b
  rw [Nat.zero_add] at h
  rw [← h, mul_sum]
  refine sum_congr rfl fun s hs => ?_
  rw [mem_range] at hs
  rw [integral_const_mul, beta_int]
  have c1 : ((n + a).choose (n - s) : ℝ) = ((n + a).factorial : ℝ) / ((n - s).factorial * (a + s).factorial) := by
    rw [Nat.cast_choose ℝ (by omega : n - s ≤ n + a), show n + a - (n - s) = a + s by omega]
  have c2 : ((n + b).choose s : ℝ) = ((n + b).factorial : ℝ) / (s.factorial * (n - s + b).factorial) := by
    rw [Nat.cast_choose ℝ (by omega : s ≤ n + b), show n + b - s = n - s + b by omega]
  have c3 : (n.choose s : ℝ) = (n.factorial : ℝ) / (s.factorial * (n - s).factorial) := by
    rw [Nat.cast_choose ℝ (by omega : s ≤ n)]
  have c4 : ((n - s + b + k).factorial : ℝ) = (n - s + b).factorial * ((n - s) + (b + 1)).ascFactorial k := by
    have := Nat.factorial_mul_ascFactorial (n - s + b) k
    rw [← this]; push_cast; rfl
  rw [c1, c2, c3, c4, show n - s + b + k + (a + s) + 1 = n + a + b + k + 1 by omega]
  have g1 : (((n - s).factorial : ℕ) : ℝ) ≠ 0 := by positivity
  have g2 : (((a + s).factorial : ℕ) : ℝ) ≠ 0 := by positivity
  have g3 : ((s.factorial : ℕ) : ℝ) ≠ 0 := by positivity
  have g4 : (((n - s + b).factorial : ℕ) : ℝ) ≠ 0 := by positivity
  have g5 : ((n.factorial : ℕ) : ℝ) ≠ 0 := by positivity
  have g6 : (((n + a + b + k + 1).factorial : ℕ) : ℝ) ≠ 0 := by positivity
  field_simp

end Tandem.Functions
