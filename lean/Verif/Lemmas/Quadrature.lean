import Verif.Model.Quadrature
import Verif.Spec.Quadrature
import Verif.Lemmas.GaussQuadrature
import Verif.Props.Combinatorics
import Mathlib.Analysis.Calculus.Deriv.Polynomial
/-! # The Gauss-Jacobi rule -/
namespace Tandem.Quadrature
open Functions RefElement Finset intervalIntegral Polynomial

theorem newton_snd (n a b : ℕ) : ∀ (fuel : ℕ) (x P dP : ℝ),
    (newton n a b (fuel + 1) x P dP).2 = jacobiPDerivative n a b (newton n a b (fuel + 1) x P dP).1 := by
  intro fuel
  induction fuel with
  | zero => intro x P dP; simp [newton]
  | succ fuel ih =>
    intro x P dP
    unfold newton
    simp only
    split
    · exact ih _ _ _
    · rfl

/-- The weight that belongs to a point. -/
noncomputable def wgt (n a b : ℕ) (x : ℝ) : ℝ :=
  weightFactor n a b / (jacobiP (n + 1) a b x * jacobiPDerivative n a b x)

theorem gaussJacobi_weights (n a b : ℕ) :
    (gaussJacobi n a b).weights = (gaussJacobi n a b).points.map (wgt n a b) := by
  unfold gaussJacobi
  simp only [List.map_map]
  refine List.map_congr_left fun i _ => ?_
  simp only [Function.comp_apply, wgt]
  rw [show maxIterations = 99 + 1 from rfl, newton_snd]

theorem prodFromTo (n b : ℕ) : Spec.productFromTo (n + 1) (n + b) = (n + 1).ascFactorial b := by
  unfold Spec.productFromTo
  rw [show n + b + 1 - (n + 1) = b by omega]
  induction b with
  | zero => simp
  | succ b ih => rw [List.range_succ, List.map_append, List.prod_append, ih, Nat.ascFactorial_succ]; simp; ring

theorem asc_le (n b M : ℕ) (h : n + b ≤ M) : (n + 1).ascFactorial b ≤ M ^ b := by
  calc (n + 1).ascFactorial b ≤ (n + b) ^ b := Nat.ascFactorial_le_pow_add n b
    _ ≤ M ^ b := Nat.pow_le_pow_left h b

theorem rangeProd_eq (n b M : ℕ) (h : n + b ≤ M) (hM : M < 2 ^ 64 - 1) (hov : M ^ b < 2 ^ 64) :
    rangeProd (n + 1) (n + b) * n.factorial = (n + b).factorial := by
  unfold rangeProd
  rw [Combinatorics.C08_rangeProduct (n + 1) (n + b) (by omega) _ (by omega), prodFromTo,
    Nat.mod_eq_of_lt ((asc_le n b M h).trans_lt hov), Option.getD_some, ← Nat.factorial_mul_ascFactorial]
  push_cast; ring

theorem deriv_jpoly (n a b : ℕ) (u : ℝ) :
    (jpoly n a b).derivative.eval u = 2 * jacobiPDerivative n a b (2 * u - 1) := by
  have h1 := (jpoly n a b).hasDerivAt u
  have h2 : HasDerivAt (fun u : ℝ => 2 * u - 1) 2 u := by
    simpa using ((hasDerivAt_id' u).const_mul 2).sub_const 1
  have h3 := (jacobi_deriv n a b (2 * u - 1)).comp u h2
  have e : (fun x => Polynomial.eval x (jpoly n a b)) = (fun x => Spec.jacobi n a b x) ∘ fun u => 2 * u - 1 := by
    funext x; exact eval_jpoly n a b x
  rw [e] at h1
  rw [h1.unique h3]; ring

/-- The program's weights are the classical ones (unless the products of integers overflow). -/
theorem wgt_gauss (n a b : ℕ) (hM : n + a + b < 2 ^ 64 - 1) (hov : (n + a + b) ^ b < 2 ^ 64) (x : ℝ) :
    wgt n a b x = Spec.gaussWeight n a b x := by
  have r1 := rangeProd_eq n b (n + a + b) (by omega) hM hov
  have r2 := rangeProd_eq (n + a) b (n + a + b) (by omega) hM hov
  unfold wgt weightFactor Spec.gaussWeight
  rw [jacobi_eq, (jacobi_deriv n a b x).deriv]
  set R1 := rangeProd (n + 1) (n + b) with hR1
  set R2 := rangeProd (n + a + 1) (n + a + b) with hR2
  have k1 : ((n.factorial : ℕ) : ℝ) ≠ 0 := by positivity
  have k2 : (((n + a).factorial : ℕ) : ℝ) ≠ 0 := by positivity
  have k4 : (((n + a + b).factorial : ℕ) : ℝ) ≠ 0 := by positivity
  have hR1v : R1 = (n + b).factorial / n.factorial := by rw [eq_div_iff k1]; exact r1
  have hR2v : R2 = (n + a + b).factorial / (n + a).factorial := by rw [eq_div_iff k2]; exact r2
  have f1 : ((n + 1).factorial : ℝ) = (n + 1) * n.factorial := by rw [Nat.factorial_succ]; push_cast; ring
  rw [hR1v, hR2v, f1]
  congr 1
  have c1 : ((n : ℝ) + a + b + 1) ≠ 0 := by positivity
  have c2 : ((n : ℝ) + 1) ≠ 0 := by positivity
  field_simp

theorem gaussWeight_eq (n a b : ℕ) (hn : 0 < n)
    (u : ℝ) (hu : u ∈ jroots n a b) : Spec.gaussWeight n a b (2 * u - 1) = 2 ^ (a + b + 1) * gw n a b u := by
  obtain ⟨m, rfl⟩ : ∃ m, n = m + 1 := ⟨n - 1, by omega⟩
  have hg := gw_formula m a b u hu
  rw [deriv_jpoly, eval_jpoly] at hg
  have hroot := (mem_jroots _ _ _ _).1 hu
  rw [eval_jpoly, ← homJacobi_at_one] at hroot
  have hrec := recursion_hom m a b (2 * u - 1) 1
  rw [hroot, factors_two] at hrec
  simp only [recursion, mul_zero, zero_sub, mul_one] at hrec
  unfold Spec.gaussWeight
  rw [(jacobi_deriv (m + 1) a b (2 * u - 1)).deriv, ← homJacobi_at_one, ← hrec, homJacobi_at_one]
  set P := Spec.jacobi m a b (2 * u - 1) with hP
  set dP := jacobiPDerivative (m + 1) a b (2 * u - 1) with hdP
  have f1 : ((m + 1 + a).factorial : ℝ) = (m + 1 + a) * (m + a).factorial := by
    rw [show m + 1 + a = m + a + 1 by ring, Nat.factorial_succ]; push_cast; ring
  have f2 : ((m + 1 + b).factorial : ℝ) = (m + 1 + b) * (m + b).factorial := by
    rw [show m + 1 + b = m + b + 1 by ring, Nat.factorial_succ]; push_cast; ring
  have f3 : ((m + 1 + 1).factorial : ℝ) = (m + 2) * (m + 1).factorial := by
    rw [Nat.factorial_succ]; push_cast; ring
  rw [f1, f2, f3]
  have k1 : (((m + 1).factorial : ℕ) : ℝ) ≠ 0 := by positivity
  have k2 : (((m + a).factorial : ℕ) : ℝ) ≠ 0 := by positivity
  have k3 : (((m + b).factorial : ℕ) : ℝ) ≠ 0 := by positivity
  have k4 : (((m + 1 + a + b).factorial : ℕ) : ℝ) ≠ 0 := by positivity
  have hprod : gw (m + 1) a b u * (2 * dP * P) ≠ 0 := by
    rw [hg]; positivity
  have hd0 : dP ≠ 0 := by
    intro h; rw [h] at hprod; simp at hprod
  have hp0 : P ≠ 0 := by
    intro h; rw [h] at hprod; simp at hprod
  have hgv : gw (m + 1) a b u = (2 * m + 2 + a + b) * ((m + a).factorial * (m + b).factorial)
        / ((m + 1).factorial * (m + 1 + a + b).factorial) / (2 * dP * P) := by
    rw [eq_div_iff (by positivity), hg]
  rw [hgv]
  have c4 : (2 * ((m : ℝ) + 2) + a + b - 2) ≠ 0 := by
    have : (2 * ((m : ℝ) + 2) + a + b - 2) = 2 * m + 2 + a + b := by ring
    rw [this]; positivity
  have c5 : (2 * ((m : ℝ) + 2) + a + b) ≠ 0 := by positivity
  have c6 : ((m : ℝ) + 1 + a) ≠ 0 := by positivity
  have c7 : ((m : ℝ) + 1 + b) ≠ 0 := by positivity
  have c8 : ((m : ℝ) + 2 + a + b) ≠ 0 := by positivity
  have c9 : ((m : ℝ) + 2) ≠ 0 := by positivity
  have c10 : ((m : ℝ) + 1 + a + b + 1) ≠ 0 := by positivity
  have c11 : ((m : ℝ) + 1 + 1) ≠ 0 := by positivity
  push_cast
  rw [pow_succ]
  field_simp
  ring

theorem wgt_eq (n a b : ℕ) (hn : 0 < n) (hM : n + a + b < 2 ^ 64 - 1) (hov : (n + a + b) ^ b < 2 ^ 64)
    (u : ℝ) (hu : u ∈ jroots n a b) : wgt n a b (2 * u - 1) = 2 ^ (a + b + 1) * gw n a b u := by
  rw [wgt_gauss n a b hM hov, gaussWeight_eq n a b hn u hu]

theorem toU (n a b : ℕ) (xs : List ℝ) (h : Spec.JacobiNodes n a b xs) :
    (xs.map fun x => (x + 1) / 2).Nodup ∧ (xs.map fun x => (x + 1) / 2).toFinset = jroots n a b := by
  have hnd : (xs.map fun x => (x + 1) / 2).Nodup := by
    refine h.1.map fun x y e => ?_
    linarith
  refine ⟨hnd, eq_of_subset_of_card_le ?_ ?_⟩
  · intro u hu
    rw [List.mem_toFinset, List.mem_map] at hu
    obtain ⟨x, hx, rfl⟩ := hu
    rw [mem_jroots, eval_jpoly, show 2 * ((x + 1) / 2) - 1 = x by ring]
    exact h.2.2 x hx
  · rw [card_jroots, List.toFinset_card_of_nodup hnd, List.length_map, h.2.1]

/-- Sums over the points are sums over the roots. -/
theorem sum_nodes (n a b : ℕ) (xs : List ℝ) (h : Spec.JacobiNodes n a b xs) (F : ℝ → ℝ) :
    (xs.map F).sum = ∑ u ∈ jroots n a b, F (2 * u - 1) := by
  obtain ⟨h1, h2⟩ := toU n a b xs h
  rw [← h2, List.sum_toFinset _ h1, List.map_map]
  congr 1
  refine List.map_congr_left fun x _ => ?_
  simp only [Function.comp_apply]
  rw [show 2 * ((x + 1) / 2) - 1 = x by ring]

theorem zip_map_self {α β : Type*} (l : List α) (f : α → β) : l.zip (l.map f) = l.map fun x => (x, f x) := by
  induction l with
  | nil => rfl
  | cons a l ih => simp [ih]

theorem gauss_exact (n a b : ℕ) (hn : 0 < n) (xs : List ℝ) (h : Spec.JacobiNodes n a b xs) :
    Spec.ExactWeighted (2 * n - 1) a b xs (xs.map (Spec.gaussWeight n a b)) := by
  refine ⟨by rw [List.length_map], fun p hp => ?_⟩
  rw [zip_map_self, List.map_map]
  have e1 := sum_nodes n a b _ h (fun x => Spec.gaussWeight n a b x * p.eval x)
  have e2 : ((fun pw : ℝ × ℝ => pw.2 * p.eval pw.1) ∘ fun x => (x, Spec.gaussWeight n a b x)) = fun x => Spec.gaussWeight n a b x * p.eval x := rfl
  rw [e2, e1]
  have hq : (p.comp (C 2 * X - 1)).natDegree ≤ 2 * n - 1 := by
    refine natDegree_comp_le.trans ?_
    have : (C 2 * X - 1 : ℝ[X]).natDegree ≤ 1 := by compute_degree
    calc _ ≤ p.natDegree * 1 := Nat.mul_le_mul_left _ this
      _ ≤ _ := by omega
  have hg := gauss_interp n a b hn _ hq
  have e3 : ∑ u ∈ jroots n a b, Spec.gaussWeight n a b (2 * u - 1) * p.eval (2 * u - 1)
      = 2 ^ (a + b + 1) * wint a b (p.comp (C 2 * X - 1)) := by
    rw [hg, mul_sum]
    refine sum_congr rfl fun u hu => ?_
    rw [gaussWeight_eq n a b hn u hu]
    simp; ring
  rw [e3, wint_apply]
  have e4 := mul_integral_comp_mul_sub (a := 0) (b := 1) (c := 2) (d := 1)
    (f := fun x : ℝ => (1 - x) ^ a * (1 + x) ^ b * p.eval x)
  rw [show (2:ℝ) * 0 - 1 = -1 by ring, show (2:ℝ) * 1 - 1 = 1 by ring] at e4
  rw [← e4, pow_succ, mul_comm _ (2:ℝ), mul_assoc, ← integral_const_mul]
  congr 1
  refine integral_congr fun u _ => ?_
  simp only [eval_comp, eval_sub, eval_mul, eval_C, eval_X, eval_one]
  rw [show 1 - (2 * u - 1) = 2 * (1 - u) by ring, show 1 + (2 * u - 1) = 2 * u by ring, mul_pow, mul_pow, pow_add]
  ring

end Tandem.Quadrature
