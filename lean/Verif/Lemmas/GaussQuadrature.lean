import Verif.Lemmas.JacobiPoly
import Mathlib.LinearAlgebra.Lagrange
import Mathlib.Algebra.Polynomial.FieldDivision
import Mathlib.Topology.Order.IntermediateValue
/-! # Gauss quadrature with the roots of a Jacobi polynomial -/
namespace Tandem.Functions
open Finset intervalIntegral Polynomial

theorem wint_pos (a b : ℕ) (p : ℝ[X]) (h0 : p ≠ 0) (hp : ∀ u ∈ Set.Ioo (0:ℝ) 1, 0 ≤ p.eval u) :
    0 < wint a b p := by
  rw [wint_apply]
  have hex : ∃ c ∈ Set.Ioo (0:ℝ) 1, p.eval c ≠ 0 := by
    by_contra hc
    push Not at hc
    refine h0 (eq_zero_of_infinite_isRoot p ((Set.Ioo_infinite (by norm_num : (0:ℝ) < 1)).mono ?_))
    intro c hc'
    exact hc c hc'
  obtain ⟨c, hc, hc0⟩ := hex
  have hpc := lt_of_le_of_ne (hp c hc) hc0.symm
  have hnn : ∀ u ∈ Set.Ioc (0:ℝ) 1, 0 ≤ p.eval u := by
    intro u hu
    rcases lt_or_eq_of_le hu.2 with h | h
    · exact hp u ⟨hu.1, h⟩
    · have hcl : IsClosed {u : ℝ | 0 ≤ p.eval u} := isClosed_le continuous_const p.continuous
      have : closure (Set.Ioo (0:ℝ) 1) ⊆ {u : ℝ | 0 ≤ p.eval u} := hcl.closure_subset_iff.2 hp
      rw [closure_Ioo (by norm_num)] at this
      exact this ⟨hu.1.le, hu.2⟩
  have := integral_lt_integral_of_continuousOn_of_le_of_exists_lt (f := fun _ => (0:ℝ))
    (g := fun u => (1 - u) ^ a * u ^ b * p.eval u) (a := 0) (b := 1) (by norm_num)
    (by fun_prop) (by fun_prop)
    (fun u hu => mul_nonneg (mul_nonneg (pow_nonneg (by linarith [hu.2]) _) (pow_nonneg hu.1.le _)) (hnn u hu))
    ⟨c, ⟨hc.1.le, hc.2.le⟩, mul_pos (mul_pos (pow_pos (by linarith [hc.2]) _) (pow_pos hc.1 _)) hpc⟩
  simpa using this

/-- No factor of positive degree has constant sign on the interval. -/
theorem no_factor (n a b : ℕ) (q Q : ℝ[X]) (h : jpoly n a b = q * Q) (hd : 0 < q.natDegree)
    (hs : (∀ u ∈ Set.Ioo (0:ℝ) 1, 0 ≤ q.eval u) ∨ (∀ u ∈ Set.Ioo (0:ℝ) 1, q.eval u ≤ 0)) : False := by
  have hne := jpoly_ne_zero n a b
  rw [h] at hne
  have hq0 : q ≠ 0 := left_ne_zero_of_mul hne
  have hQ0 : Q ≠ 0 := right_ne_zero_of_mul hne
  have hdeg := natDegree_jpoly n a b
  rw [h, natDegree_mul hq0 hQ0] at hdeg
  have h1 : wint a b (jpoly n a b * Q) = 0 := by
    refine wint_ortho n a b Q ?_
    rw [degree_eq_natDegree hQ0]
    exact_mod_cast (by omega : Q.natDegree < n)
  have e : jpoly n a b * Q = q * Q ^ 2 := by rw [h]; ring
  rw [e] at h1
  have hne2 : q * Q ^ 2 ≠ 0 := mul_ne_zero hq0 (pow_ne_zero 2 hQ0)
  rcases hs with hs | hs
  · have := wint_pos a b (q * Q ^ 2) hne2 fun u hu => by
      rw [eval_mul, eval_pow]; exact mul_nonneg (hs u hu) (sq_nonneg _)
    linarith
  · have := wint_pos a b (-(q * Q ^ 2)) (neg_ne_zero.2 hne2) fun u hu => by
      rw [eval_neg, eval_mul, eval_pow]
      have := mul_nonneg (neg_nonneg.2 (hs u hu)) (sq_nonneg (Q.eval u))
      linarith
    rw [map_neg] at this
    linarith

/-- The Jacobi polynomial has `n` distinct roots, all inside the interval. -/
theorem jpoly_roots (n a b : ℕ) : (jpoly n a b).roots.Nodup ∧ (jpoly n a b).roots.card = n ∧
    ∀ u ∈ (jpoly n a b).roots, u ∈ Set.Ioo (0:ℝ) 1 := by
  have hne := jpoly_ne_zero n a b
  refine ⟨?_, ?_, ?_⟩
  · rw [Multiset.nodup_iff_count_le_one]
    intro r
    rw [count_roots]
    by_contra hc
    have h2 : 2 ≤ (jpoly n a b).rootMultiplicity r := by omega
    obtain ⟨Q, hQ⟩ := (le_rootMultiplicity_iff hne).1 h2
    refine no_factor n a b _ Q hQ ?_ (Or.inl fun u _ => ?_)
    · rw [natDegree_pow, natDegree_X_sub_C]; norm_num
    · rw [eval_pow]; exact sq_nonneg _
  · obtain ⟨q, h1, h2, h3⟩ := exists_prod_multiset_X_sub_C_mul (jpoly n a b)
    rw [natDegree_jpoly] at h2
    by_contra hc
    have hd : 0 < q.natDegree := by omega
    have hq0 : q ≠ 0 := fun h => by rw [h] at hd; simp at hd
    refine no_factor n a b q _ (by rw [← h1]; ring) hd ?_
    have hnz : ∀ u, q.eval u ≠ 0 := fun u hu => by
      have : u ∈ q.roots := (mem_roots hq0).2 hu
      rw [h3] at this; simp at this
    by_cases hs : 0 ≤ q.eval 0
    · left
      intro u _
      by_contra hneg
      push Not at hneg
      have := intermediate_value_univ u 0 q.continuous
      obtain ⟨v, hv⟩ := this ⟨hneg.le, hs⟩
      exact hnz v hv
    · right
      intro u _
      by_contra hpos
      push Not at hpos hs
      have := intermediate_value_univ 0 u q.continuous
      obtain ⟨v, hv⟩ := this ⟨hs.le, hpos.le⟩
      exact hnz v hv
  · intro r hr
    have hr' := (mem_roots hne).1 hr
    have e := mul_divByMonic_eq_iff_isRoot.2 hr'
    by_contra hc
    refine no_factor n a b (X - C r) _ e.symm (by rw [natDegree_X_sub_C]; norm_num) ?_
    by_cases h0 : r ≤ 0
    · left; intro u hu; simp; linarith [hu.1]
    · right
      intro u hu
      have : 1 ≤ r := by
        by_contra h1
        push Not at h0 h1
        exact hc ⟨h0, h1⟩
      simp; linarith [hu.2]

/-- The roots as a set. -/
noncomputable def jroots (n a b : ℕ) : Finset ℝ := (jpoly n a b).roots.toFinset

theorem card_jroots (n a b : ℕ) : (jroots n a b).card = n := by
  rw [jroots, Multiset.toFinset_card_of_nodup (jpoly_roots n a b).1, (jpoly_roots n a b).2.1]

theorem mem_jroots (n a b : ℕ) (u : ℝ) : u ∈ jroots n a b ↔ (jpoly n a b).eval u = 0 := by
  rw [jroots, Multiset.mem_toFinset, mem_roots (jpoly_ne_zero n a b)]; rfl

/-- The interpolatory weight of a root. -/
noncomputable def gw (n a b : ℕ) (u : ℝ) : ℝ := wint a b (Lagrange.basis (jroots n a b) id u)

theorem gauss_interp (n a b : ℕ) (hn : 0 < n) (q : ℝ[X]) (hq : q.natDegree ≤ 2 * n - 1) :
    wint a b q = ∑ u ∈ jroots n a b, q.eval u * gw n a b u := by
  set P := jpoly n a b with hP
  have hne := jpoly_ne_zero n a b
  have hdP : P.degree = n := by rw [hP, degree_eq_natDegree hne, natDegree_jpoly]
  have e : P * (q / P) + q % P = q := EuclideanDomain.div_add_mod q P
  have hr : (q % P).degree < n := by
    have := EuclideanDomain.mod_lt q hne
    have h' : (q % P).degree < P.degree := this
    rwa [hdP] at h'
  have hdiv : (q / P).degree < n := by
    by_cases hlt : q.degree < P.degree
    · rw [(Polynomial.div_eq_zero_iff hne).2 hlt, degree_zero]; exact WithBot.bot_lt_coe n
    · push Not at hlt
      have h1 := degree_add_div hne hlt
      have h2 : q.degree ≤ ((2 * n - 1 : ℕ) : WithBot ℕ) := degree_le_of_natDegree_le hq
      by_cases h0 : q / P = 0
      · rw [h0, degree_zero]; exact WithBot.bot_lt_coe n
      rw [← h1, hdP, degree_eq_natDegree h0] at h2
      rw [degree_eq_natDegree h0]
      have h3 : n + (q / P).natDegree ≤ 2 * n - 1 := by exact_mod_cast h2
      exact_mod_cast (by omega : (q / P).natDegree < n)
  have h1 : wint a b q = wint a b (q % P) := by
    conv_lhs => rw [← e, map_add, wint_ortho n a b _ hdiv, zero_add]
  have hcard : (q % P).degree < ((jroots n a b).card : WithBot ℕ) := by rwa [card_jroots]
  have h2 := Lagrange.eq_interpolate (s := jroots n a b) (v := id) (f := q % P)
    Function.injective_id.injOn hcard
  rw [h1, h2, Lagrange.interpolate_apply, map_sum]
  refine sum_congr rfl fun u hu => ?_
  rw [← smul_eq_C_mul, map_smul, smul_eq_mul, gw]
  have h3 : q.eval u = (q % P).eval u := by
    conv_lhs => rw [← e, eval_add, eval_mul, (mem_jroots n a b u).1 hu, zero_mul, zero_add]
  rw [h3]; rfl

/-- The weights are positive. -/
theorem gw_pos (n a b : ℕ) (u : ℝ) (hu : u ∈ jroots n a b) : 0 < gw n a b u := by
  have hn : 0 < n := by
    rcases Nat.eq_zero_or_pos n with rfl | h
    · have h := card_jroots 0 a b
      rw [Finset.card_eq_zero] at h
      rw [h] at hu; simp at hu
    · exact h
  have hd : (Lagrange.basis (jroots n a b) id u).natDegree = n - 1 := by
    rw [Lagrange.natDegree_basis Function.injective_id.injOn hu, card_jroots]
  have hb0 : Lagrange.basis (jroots n a b) id u ≠ 0 := Lagrange.basis_ne_zero Function.injective_id.injOn hu
  have h := gauss_interp n a b hn ((Lagrange.basis (jroots n a b) id u) ^ 2) (by
    rw [natDegree_pow, hd]; omega)
  have hp := wint_pos a b _ (pow_ne_zero 2 hb0) (fun v _ => by rw [eval_pow]; exact sq_nonneg _)
  rw [h, sum_eq_single u] at hp
  · have e := Lagrange.eval_basis_self (s := jroots n a b) (v := id) Function.injective_id.injOn hu
    simp only [id] at e
    rw [eval_pow, e] at hp
    simpa using hp
  · intro v hv hvu
    have e := Lagrange.eval_basis_of_ne (s := jroots n a b) (v := id) (Ne.symm hvu) hv
    simp only [id] at e
    rw [eval_pow, e]; simp
  · intro h; exact absurd hu h

/-- The weight in terms of the derivative and of the previous polynomial. -/
theorem gw_formula (m a b : ℕ) (u : ℝ) (hu : u ∈ jroots (m + 1) a b) :
    gw (m + 1) a b u * ((jpoly (m + 1) a b).derivative.eval u * (jpoly m a b).eval u)
      = (2 * m + 2 + a + b) * ((m + a).factorial * (m + b).factorial)
        / ((m + 1).factorial * (m + 1 + a + b).factorial) := by
  have hroot := (mem_jroots _ _ _ _).1 hu
  have hne := jpoly_ne_zero (m + 1) a b
  obtain ⟨Q, hQ⟩ : ∃ Q, jpoly (m + 1) a b = (X - C u) * Q :=
    ⟨_, (mul_divByMonic_eq_iff_isRoot.2 hroot).symm⟩
  have hQ0 : Q ≠ 0 := fun h => hne (by rw [hQ, h, mul_zero])
  have hdQ : Q.natDegree = m := by
    have := natDegree_jpoly (m + 1) a b
    rw [hQ, natDegree_mul (X_sub_C_ne_zero u) hQ0, natDegree_X_sub_C] at this
    omega
  have hcQ : Q.coeff m = jlead (m + 1) a b := by
    have := coeff_jpoly (m + 1) a b
    rw [hQ, sub_mul, coeff_sub, coeff_X_mul, coeff_C_mul,
      coeff_eq_zero_of_natDegree_lt (by omega : Q.natDegree < m + 1)] at this
    linarith
  have hder : (jpoly (m + 1) a b).derivative.eval u = Q.eval u := by
    rw [hQ, derivative_mul]; simp
  have hdeg : (jpoly m a b * Q).natDegree ≤ 2 * (m + 1) - 1 := by
    rw [natDegree_mul (jpoly_ne_zero m a b) hQ0, natDegree_jpoly, hdQ]; omega
  have h1 := gauss_interp (m + 1) a b (by omega) (jpoly m a b * Q) hdeg
  rw [wint_top m a b Q hdQ.le, hcQ, sum_eq_single u] at h1
  · rw [hder, show gw (m + 1) a b u * (Q.eval u * (jpoly m a b).eval u)
      = (jpoly m a b * Q).eval u * gw (m + 1) a b u by rw [eval_mul]; ring, ← h1, jlead,
      Nat.cast_choose ℝ (by omega : m + 1 ≤ 2 * (m + 1) + a + b),
      show 2 * (m + 1) + a + b - (m + 1) = m + 1 + a + b by omega,
      show 2 * (m + 1) + a + b = 2 * m + a + b + 1 + 1 by ring, Nat.factorial_succ (2 * m + a + b + 1)]
    have g1 : (((m + 1).factorial : ℕ) : ℝ) ≠ 0 := by positivity
    have g2 : (((m + 1 + a + b).factorial : ℕ) : ℝ) ≠ 0 := by positivity
    have g3 : (((2 * m + a + b + 1).factorial : ℕ) : ℝ) ≠ 0 := by positivity
    push_cast
    field_simp
    ring
  · intro v hv hvu
    have hv' := (mem_jroots _ _ _ _).1 hv
    rw [hQ, eval_mul, eval_sub, eval_X, eval_C] at hv'
    have : Q.eval v = 0 := by
      rcases mul_eq_zero.1 hv' with h | h
      · exact absurd (sub_eq_zero.1 h) hvu
      · exact h
    rw [eval_mul, this]; ring
  · intro h; exact absurd hu h

end Tandem.Functions
