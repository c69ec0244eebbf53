import Verif.Lemmas.JacobiOrtho
import Verif.Lemmas.DubinerSpan
import Mathlib.Algebra.Polynomial.AlgebraMap
import Mathlib.Algebra.Polynomial.Monic
import Mathlib.Algebra.Polynomial.Degree.Lemmas
import Mathlib.Data.Nat.Choose.Vandermonde
import Mathlib.MeasureTheory.Integral.IntervalIntegral.Basic
import Mathlib.Topology.Algebra.Polynomial
/-! # The Jacobi polynomials on `[0,1]`: degree, leading coefficient, orthogonality, norm -/
namespace Tandem.Functions
open Finset intervalIntegral Polynomial

/-- The Jacobi polynomial transported to `[0,1]`. -/
noncomputable def jpoly (n a b : ℕ) : ℝ[X] := jform n a b X 1

theorem eval_jpoly (n a b : ℕ) (u : ℝ) : (jpoly n a b).eval u = Spec.jacobi n a b (2 * u - 1) := by
  have := map_jform (aeval u : ℝ[X] →ₐ[ℝ] ℝ) n a b X 1
  rw [aeval_X, map_one, jform_real, homJacobi_at_one] at this
  rw [← this, jpoly, coe_aeval_eq_eval]

/-- The leading coefficient. -/
def jlead (n a b : ℕ) : ℕ := (2 * n + a + b).choose n

theorem jlead_pos (n a b : ℕ) : 0 < jlead n a b := Nat.choose_pos (by omega)

theorem jlead_sum (n a b : ℕ) :
    ∑ s ∈ range (n + 1), ((n + a).choose (n - s) : ℝ) * ((n + b).choose s : ℝ) = jlead n a b := by
  rw [jlead, show 2 * n + a + b = (n + b) + (n + a) by ring, Nat.add_choose_eq,
    Nat.sum_antidiagonal_eq_sum_range_succ_mk]
  push_cast
  exact sum_congr rfl fun s _ => by ring

theorem jterm_monic (n s : ℕ) (hs : s ≤ n) : ((X - 1 : ℝ[X]) ^ s * X ^ (n - s)).Monic ∧
    ((X - 1 : ℝ[X]) ^ s * X ^ (n - s)).natDegree = n := by
  have h1 : ((X - 1 : ℝ[X]) ^ s).Monic := by
    have := (monic_X_sub_C (1 : ℝ)).pow s
    simpa using this
  have d1 : ((X - 1 : ℝ[X]) ^ s).natDegree = s := by
    have := natDegree_X_sub_C (1 : ℝ)
    rw [C_1] at this
    rw [natDegree_pow, this, mul_one]
  have h2 : (X ^ (n - s) : ℝ[X]).Monic := monic_X_pow _
  refine ⟨h1.mul h2, ?_⟩
  rw [h1.natDegree_mul h2, d1, natDegree_X_pow]; omega

theorem coeff_jpoly (n a b : ℕ) : (jpoly n a b).coeff n = jlead n a b := by
  unfold jpoly jform
  rw [finset_sum_coeff, ← jlead_sum]
  refine sum_congr rfl fun s hs => ?_
  rw [mem_range] at hs
  obtain ⟨h1, h2⟩ := jterm_monic n s (by omega)
  have h3 : ((X - 1 : ℝ[X]) ^ s * X ^ (n - s)).coeff n = 1 := by
    have := h1.coeff_natDegree
    rwa [h2] at this
  rw [coeff_smul, h3, smul_eq_mul, mul_one]

theorem natDegree_jpoly_le (n a b : ℕ) : (jpoly n a b).natDegree ≤ n := by
  unfold jpoly jform
  refine natDegree_sum_le_of_forall_le _ _ fun s hs => ?_
  rw [mem_range] at hs
  exact (natDegree_smul_le _ _).trans (jterm_monic n s (by omega)).2.le

theorem natDegree_jpoly (n a b : ℕ) : (jpoly n a b).natDegree = n := by
  refine natDegree_eq_of_le_of_coeff_ne_zero (natDegree_jpoly_le n a b) ?_
  rw [coeff_jpoly]
  exact_mod_cast (jlead_pos n a b).ne'

theorem jpoly_ne_zero (n a b : ℕ) : jpoly n a b ≠ 0 := by
  intro h
  have := coeff_jpoly n a b
  rw [h, coeff_zero] at this
  exact (jlead_pos n a b).ne' (by exact_mod_cast this.symm)

/-- The weighted integral as a linear functional on polynomials. -/
noncomputable def wint (a b : ℕ) : ℝ[X] →ₗ[ℝ] ℝ where
  toFun p := ∫ u in (0:ℝ)..1, (1 - u) ^ a * u ^ b * p.eval u
  map_add' p q := by
    rw [← integral_add (by apply Continuous.intervalIntegrable; fun_prop)
      (by apply Continuous.intervalIntegrable; fun_prop)]
    refine integral_congr fun u _ => ?_
    simp only [eval_add]; ring
  map_smul' c p := by
    rw [RingHom.id_apply, smul_eq_mul, ← integral_const_mul]
    refine integral_congr fun u _ => ?_
    simp only [eval_smul, smul_eq_mul]; ring

theorem wint_apply (a b : ℕ) (p : ℝ[X]) :
    wint a b p = ∫ u in (0:ℝ)..1, (1 - u) ^ a * u ^ b * p.eval u := rfl

theorem wint_moment (n a b k : ℕ) : wint a b (jpoly n a b * X ^ k)
    = ((n + a).factorial * (n + b).factorial : ℝ) / (n.factorial * (n + a + b + k + 1).factorial)
      * ((k.descFactorial n : ℝ) * ((b + 1 + n).ascFactorial (k - n) : ℝ)) := by
  rw [← jacobi_moment, wint_apply]
  refine integral_congr fun u _ => ?_
  simp only [eval_mul, eval_pow, eval_X, eval_jpoly]; ring

/-- Orthogonality to all polynomials of lower degree. -/
theorem wint_ortho (n a b : ℕ) (p : ℝ[X]) (hp : p.degree < n) : wint a b (jpoly n a b * p) = 0 := by
  by_cases h0 : p = 0
  · simp [h0]
  have hp' : p.natDegree < n := (natDegree_lt_iff_degree_lt h0).2 hp
  rw [as_sum_range' p n hp', mul_sum, map_sum]
  refine sum_eq_zero fun k hk => ?_
  rw [mem_range] at hk
  rw [← C_mul_X_pow_eq_monomial, ← smul_eq_C_mul, mul_smul_comm, map_smul, wint_moment,
    Nat.descFactorial_of_lt hk]
  simp

theorem wint_top (n a b : ℕ) (p : ℝ[X]) (hp : p.natDegree ≤ n) : wint a b (jpoly n a b * p)
    = p.coeff n * (((n + a).factorial * (n + b).factorial : ℝ) / ((2 * n + a + b + 1).factorial)) := by
  have e : p = p.coeff n • X ^ n + (p - p.coeff n • X ^ n) := by ring
  have hlt : (p - p.coeff n • X ^ n).degree < (n : WithBot ℕ) := by
    rw [degree_lt_iff_coeff_zero]
    intro m hm
    rw [coeff_sub, coeff_smul, coeff_X_pow]
    by_cases h : m = n
    · subst h; simp
    · rw [if_neg h, coeff_eq_zero_of_natDegree_lt (by omega)]; simp
  have e2 : wint a b (jpoly n a b * p) = p.coeff n • wint a b (jpoly n a b * X ^ n) := by
    conv_lhs => rw [e, mul_add, map_add, wint_ortho _ _ _ _ hlt, mul_smul_comm, map_smul, add_zero]
  rw [e2, wint_moment, smul_eq_mul, Nat.descFactorial_self, Nat.sub_self, Nat.ascFactorial_zero,
    show n + a + b + n + 1 = 2 * n + a + b + 1 by ring]
  have g5 : ((n.factorial : ℕ) : ℝ) ≠ 0 := by positivity
  have g6 : (((2 * n + a + b + 1).factorial : ℕ) : ℝ) ≠ 0 := by positivity
  push_cast
  field_simp

theorem wint_norm (n a b : ℕ) : wint a b (jpoly n a b * jpoly n a b)
    = ((n + a).factorial * (n + b).factorial : ℝ)
      / (n.factorial * (n + a + b).factorial * (2 * n + a + b + 1)) := by
  rw [wint_top n a b _ (natDegree_jpoly_le n a b), coeff_jpoly, jlead,
    Nat.cast_choose ℝ (by omega : n ≤ 2 * n + a + b), show 2 * n + a + b - n = n + a + b by omega,
    Nat.factorial_succ (2 * n + a + b)]
  push_cast
  have g1 : ((n.factorial : ℕ) : ℝ) ≠ 0 := by positivity
  have g2 : (((n + a + b).factorial : ℕ) : ℝ) ≠ 0 := by positivity
  have g3 : (((2 * n + a + b).factorial : ℕ) : ℝ) ≠ 0 := by positivity
  have g4 : (2 * (n:ℝ) + a + b + 1) ≠ 0 := by positivity
  field_simp

theorem wint_jj (n m a b : ℕ) (h : n ≠ m) : wint a b (jpoly n a b * jpoly m a b) = 0 := by
  rcases lt_or_gt_of_ne h with h | h
  · rw [mul_comm]
    refine wint_ortho _ _ _ _ ?_
    refine degree_le_natDegree.trans_lt ?_
    rw [natDegree_jpoly]; exact_mod_cast h
  · refine wint_ortho _ _ _ _ ?_
    refine degree_le_natDegree.trans_lt ?_
    rw [natDegree_jpoly]; exact_mod_cast h

/-- The case used by the Dubiner functions. -/
theorem wint_zero (n m a : ℕ) : wint a 0 (jpoly n a 0 * jpoly m a 0)
    = if n = m then 1 / (2 * n + a + 1 : ℝ) else 0 := by
  by_cases h : n = m
  · subst h
    rw [if_pos rfl, wint_norm]
    have g1 : ((n.factorial : ℕ) : ℝ) ≠ 0 := by positivity
    have g2 : (((n + a).factorial : ℕ) : ℝ) ≠ 0 := by positivity
    simp only [Nat.add_zero, Nat.cast_zero, add_zero]
    field_simp
  · rw [if_neg h, wint_jj _ _ _ _ h]

end Tandem.Functions
