import Verif.Lemmas.DubinerOrtho
/-! # Integrals of monomials over the reference simplex -/
namespace Tandem.Functions
open Finset intervalIntegral

/-- `∫ ∏ x_d^{m_d} = ∏ m_d! / (Σ m_d + D)!`. -/
noncomputable def moment (D : ℕ) (m : Fin D → ℕ) : ℝ :=
  (∏ d, ((m d).factorial : ℝ)) / ((∑ d, m d + D).factorial : ℝ)

theorem seg_int (i k : ℕ) (c : ℝ) : ∫ x in (0:ℝ)..c, x ^ i * (c - x) ^ k
    = c ^ (i + k + 1) * ((i.factorial * k.factorial : ℝ) / ((i + k + 1).factorial : ℝ)) := by
  rw [scale, ← beta_int]
  have e : ∀ u : ℝ, (c * u) ^ i * (c - c * u) ^ k = c ^ (i + k) * (u ^ i * (1 - u) ^ k) := by
    intro u
    rw [show c - c * u = c * (1 - u) by ring, mul_pow, mul_pow, pow_add]; ring
  rw [integral_congr (fun u _ => e u), integral_const_mul, pow_succ]; ring

theorem seg_int0 (i : ℕ) (c : ℝ) : ∫ x in (0:ℝ)..c, x ^ i
    = c ^ (i + 1) * ((i.factorial : ℝ) / ((i + 1).factorial : ℝ)) := by
  have := seg_int i 0 c
  simpa using this

theorem simplex_sum (D : ℕ) (hD : D = 1 ∨ D = 2 ∨ D = 3) {ι : Type*} (s : Finset ι) (c : ι → ℝ) (m : ι → Fin D → ℕ) :
    Spec.simplexIntegral D (fun x => ∑ t ∈ s, c t * ∏ d, x d ^ m t d) = ∑ t ∈ s, c t * moment D (m t) := by
  rcases hD with rfl | rfl | rfl
  · simp only [Spec.simplexIntegral, moment, Fin.prod_univ_one, Fin.sum_univ_one, Matrix.cons_val_zero]
    rw [integral_finset_sum (fun t _ => by apply Continuous.intervalIntegrable; fun_prop)]
    refine sum_congr rfl fun t _ => ?_
    rw [integral_const_mul, seg_int0, one_pow, one_mul]
  · simp only [Spec.simplexIntegral, moment, Fin.prod_univ_two, Fin.sum_univ_two, Matrix.cons_val_zero,
      Matrix.cons_val_one]
    have e1 : ∀ y : ℝ, ∫ x in (0:ℝ)..(1 - y), ∑ t ∈ s, c t * (x ^ m t 0 * y ^ m t 1)
        = ∑ t ∈ s, c t * ((m t 0).factorial / (m t 0 + 1).factorial) * (y ^ m t 1 * (1 - y) ^ (m t 0 + 1)) := by
      intro y
      rw [integral_finset_sum (fun t _ => by apply Continuous.intervalIntegrable; fun_prop)]
      refine sum_congr rfl fun t _ => ?_
      rw [integral_const_mul, integral_mul_const, seg_int0]; ring
    simp only [e1]
    rw [integral_finset_sum (fun t _ => by apply Continuous.intervalIntegrable; fun_prop)]
    refine sum_congr rfl fun t _ => ?_
    rw [integral_const_mul, seg_int, one_pow, one_mul, show m t 1 + (m t 0 + 1) + 1 = m t 0 + m t 1 + 2 by ring]
    have k1 : (((m t 0 + 1).factorial : ℕ) : ℝ) ≠ 0 := by positivity
    have k2 : (((m t 0 + m t 1 + 2).factorial : ℕ) : ℝ) ≠ 0 := by positivity
    field_simp
  · simp only [Spec.simplexIntegral, moment, Fin.prod_univ_three, Fin.sum_univ_three, Matrix.cons_val_zero,
      Matrix.cons_val_one, Matrix.cons_val]
    have e1 : ∀ y z : ℝ, ∫ x in (0:ℝ)..(1 - y - z), ∑ t ∈ s, c t * (x ^ m t 0 * y ^ m t 1 * z ^ m t 2)
        = ∑ t ∈ s, c t * ((m t 0).factorial / (m t 0 + 1).factorial) * z ^ m t 2
          * (y ^ m t 1 * (1 - z - y) ^ (m t 0 + 1)) := by
      intro y z
      rw [integral_finset_sum (fun t _ => by apply Continuous.intervalIntegrable; fun_prop)]
      refine sum_congr rfl fun t _ => ?_
      rw [integral_const_mul, integral_mul_const, integral_mul_const, seg_int0,
        show 1 - y - z = 1 - z - y by ring]; ring
    simp only [e1]
    have e2 : ∀ z : ℝ, ∫ y in (0:ℝ)..(1 - z), ∑ t ∈ s, c t * ((m t 0).factorial / (m t 0 + 1).factorial) * z ^ m t 2
          * (y ^ m t 1 * (1 - z - y) ^ (m t 0 + 1))
        = ∑ t ∈ s, c t * ((m t 0).factorial / (m t 0 + 1).factorial)
          * ((m t 1).factorial * (m t 0 + 1).factorial / (m t 1 + (m t 0 + 1) + 1).factorial)
          * (z ^ m t 2 * (1 - z) ^ (m t 1 + (m t 0 + 1) + 1)) := by
      intro z
      rw [integral_finset_sum (fun t _ => by apply Continuous.intervalIntegrable; fun_prop)]
      refine sum_congr rfl fun t _ => ?_
      rw [integral_const_mul, seg_int]; ring
    simp only [e2]
    rw [integral_finset_sum (fun t _ => by apply Continuous.intervalIntegrable; fun_prop)]
    refine sum_congr rfl fun t _ => ?_
    rw [integral_const_mul, seg_int, one_pow, one_mul,
      show m t 2 + (m t 1 + (m t 0 + 1) + 1) + 1 = m t 0 + m t 1 + m t 2 + 3 by ring]
    have k1 : (((m t 0 + 1).factorial : ℕ) : ℝ) ≠ 0 := by positivity
    have k2 : (((m t 1 + (m t 0 + 1) + 1).factorial : ℕ) : ℝ) ≠ 0 := by positivity
    have k3 : (((m t 0 + m t 1 + m t 2 + 3).factorial : ℕ) : ℝ) ≠ 0 := by positivity
    field_simp

/-- A quadrature is exact for degree `N` as soon as it is exact for the monomials. -/
theorem exact_of_monomials (D N : ℕ) (hD : D = 1 ∨ D = 2 ∨ D = 3) (P : List (Fin D → ℝ)) (W : List ℝ)
    (hl : P.length = W.length)
    (h : ∀ m : Fin D → ℕ, ∑ d, m d ≤ N →
      ((P.zip W).map fun pw => pw.2 * ∏ d, pw.1 d ^ m d).sum = moment D m) :
    Spec.ExactQuadrature D N P W := by
  refine ⟨hl, ?_⟩
  rintro f ⟨p, hp, hf⟩
  have hf' : f = fun x => ∑ t ∈ p.support, p.coeff t * ∏ d, x d ^ t d := by
    funext x; rw [hf, MvPolynomial.eval_eq']
  rw [hf', simplex_sum D hD p.support (fun t => p.coeff t) (fun t d => t d)]
  have lin : ∀ l : List ((Fin D → ℝ) × ℝ),
      (l.map fun pw => pw.2 * ∑ t ∈ p.support, p.coeff t * ∏ d, pw.1 d ^ t d).sum
        = ∑ t ∈ p.support, p.coeff t * (l.map fun pw => pw.2 * ∏ d, pw.1 d ^ t d).sum := by
    intro l
    induction l with
    | nil => simp
    | cons a l ih =>
      rw [List.map_cons, List.sum_cons, ih]
      simp only [List.map_cons, List.sum_cons, mul_add, sum_add_distrib]
      rw [mul_sum]
      congr 1
      exact sum_congr rfl fun t _ => by ring
  rw [lin]
  refine sum_congr rfl fun t ht => ?_
  rw [h (fun d => t d)]
  have := (MvPolynomial.le_totalDegree ht).trans hp
  rwa [Finsupp.sum_fintype _ _ (fun _ => rfl)] at this

end Tandem.Functions
