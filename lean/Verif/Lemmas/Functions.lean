import Verif.Model.Functions
import Verif.Spec.Functions
import Mathlib.Analysis.Calculus.Deriv.Pow
import Mathlib.Data.Nat.Choose.Cast
import Mathlib.Tactic.Ring
import Mathlib.Tactic.FieldSimp
import Mathlib.Tactic.LinearCombination
import Mathlib.Tactic.Positivity
/-! # Jacobi polynomials: recurrence and derivative of the explicit formula -/
namespace Tandem.Functions
open Finset

/-- `1/k!`, extended by zero to the negative integers. -/
noncomputable def invf (k : ℤ) : ℝ := if 0 ≤ k then ((k.toNat.factorial : ℝ))⁻¹ else 0

theorem invf_neg {k : ℤ} (h : k < 0) : invf k = 0 := by
  unfold invf; rw [if_neg (by omega)]

theorem invf_nat (k : ℕ) : invf k = ((k.factorial : ℝ))⁻¹ := by
  unfold invf; rw [if_pos (by omega)]; simp

theorem invf_pred (k : ℤ) : invf (k - 1) = (k : ℝ) * invf k := by
  rcases lt_trichotomy k 0 with h | h | h
  · rw [invf_neg h, invf_neg (by omega), mul_zero]
  · subst h; rw [invf_neg (by omega)]; simp
  · obtain ⟨m, rfl⟩ : ∃ m : ℕ, k = m + 1 := ⟨(k - 1).toNat, by omega⟩
    rw [show ((m : ℤ) + 1 - 1) = ((m : ℕ) : ℤ) by ring, invf_nat,
      show ((m : ℤ) + 1) = ((m + 1 : ℕ) : ℤ) by push_cast; ring, invf_nat, Nat.factorial_succ]
    have h1 : ((m + 1 : ℕ) : ℝ) ≠ 0 := by positivity
    have h2 : ((m.factorial : ℕ) : ℝ) ≠ 0 := by positivity
    push_cast at *
    field_simp

/-- The coefficients of the explicit formula, for all integers `n`, `s`, up to the factor
`(n+a)! (n+b)!`. -/
noncomputable def co (a b : ℕ) (n s : ℤ) : ℝ :=
  invf (n - s) * invf (s + a) * invf s * invf (n + b - s)

theorem co_neg (a b : ℕ) (n : ℤ) {s : ℤ} (h : s < 0) : co a b n s = 0 := by
  unfold co; rw [invf_neg h]; ring

theorem co_big (a b : ℕ) (n : ℤ) {s : ℤ} (h : n < s) : co a b n s = 0 := by
  unfold co; rw [invf_neg (by omega : n - s < 0)]; ring

/-- The binary form with coefficients `c`. -/
noncomputable def hom (m : ℕ) (c : ℤ → ℝ) (u v : ℝ) : ℝ :=
  ∑ s ∈ range (m + 1), c s * u ^ s * v ^ (m - s)

theorem v_hom (m : ℕ) (c : ℤ → ℝ) (u v : ℝ) (h : c (m + 1) = 0) :
    v * hom m c u v = hom (m + 1) c u v := by
  unfold hom
  rw [sum_range_succ _ (m + 1), show (((m + 1 : ℕ) : ℤ)) = (m : ℤ) + 1 by push_cast; ring, h,
    mul_sum]
  simp only [zero_mul, add_zero]
  refine sum_congr rfl fun s hs => ?_
  rw [mem_range] at hs
  rw [show m + 1 - s = (m - s) + 1 by omega, pow_succ]
  ring

theorem u_hom (m : ℕ) (c : ℤ → ℝ) (u v : ℝ) (h : c (-1) = 0) :
    u * hom m c u v = hom (m + 1) (fun s => c (s - 1)) u v := by
  unfold hom
  rw [sum_range_succ' _ (m + 1), mul_sum]
  simp only [Nat.cast_zero, zero_sub, h, zero_mul, add_zero]
  refine sum_congr rfl fun s hs => ?_
  rw [mem_range] at hs
  rw [show m + 1 - (s + 1) = m - s by omega, pow_succ]
  push_cast
  rw [show (s : ℤ) + 1 - 1 = s by ring]
  ring

theorem hom_lin (m : ℕ) (c d : ℤ → ℝ) (p q u v : ℝ) :
    hom m (fun s => p * c s + q * d s) u v = p * hom m c u v + q * hom m d u v := by
  unfold hom
  rw [mul_sum, mul_sum, ← sum_add_distrib]
  exact sum_congr rfl fun s _ => by ring

theorem hom_congr (m : ℕ) (c d : ℤ → ℝ) (u v : ℝ) (h : ∀ s, c s = d s) :
    hom m c u v = hom m d u v := by
  unfold hom
  exact sum_congr rfl fun s _ => by rw [h]

/-- The three-term recurrence, coefficient by coefficient. -/
theorem co_rec (a b m : ℕ) (s : ℤ) :
    (2 * (m + 2) * (m + 2 + a + b) * (2 * (m + 2) + a + b - 2) : ℝ)
        * ((m + 2 + a) * (m + 1 + a) * (m + 2 + b) * (m + 1 + b)) * co a b (m + 2) s
      = (2 * (m + 2) + a + b - 1) * ((a * a - b * b)
            * (co a b (m + 1) s - co a b (m + 1) (s - 1))
          + (2 * (m + 2) + a + b) * (2 * (m + 2) + a + b - 2)
            * (co a b (m + 1) s + co a b (m + 1) (s - 1))) * ((m + 1 + a) * (m + 1 + b))
        - 2 * (m + 1 + a) * (m + 1 + b) * (2 * (m + 2) + a + b)
          * (co a b m s - 2 * co a b m (s - 1) + co a b m (s - 2)) := by
  have A1 : invf ((m : ℤ) + 1 - s) = ((m : ℝ) + 2 - s) * invf (m + 2 - s) := by
    have := invf_pred ((m : ℤ) + 2 - s)
    rw [show (m : ℤ) + 2 - s - 1 = m + 1 - s by ring] at this
    rw [this]; push_cast; ring
  have A2 : invf ((m : ℤ) - s) = ((m : ℝ) + 1 - s) * (((m : ℝ) + 2 - s) * invf (m + 2 - s)) := by
    have := invf_pred ((m : ℤ) + 1 - s)
    rw [show (m : ℤ) + 1 - s - 1 = m - s by ring] at this
    rw [this, A1]; push_cast; ring
  have D1 : invf ((m : ℤ) + 1 + b - s) = ((m : ℝ) + 2 + b - s) * invf (m + 2 + b - s) := by
    have := invf_pred ((m : ℤ) + 2 + b - s)
    rw [show (m : ℤ) + 2 + b - s - 1 = m + 1 + b - s by ring] at this
    rw [this]; push_cast; ring
  have D2 : invf ((m : ℤ) + b - s)
      = ((m : ℝ) + 1 + b - s) * (((m : ℝ) + 2 + b - s) * invf (m + 2 + b - s)) := by
    have := invf_pred ((m : ℤ) + 1 + b - s)
    rw [show (m : ℤ) + 1 + b - s - 1 = m + b - s by ring] at this
    rw [this, D1]; push_cast; ring
  have B1 : invf (s - 1 + a) = ((s : ℝ) + a) * invf (s + a) := by
    have := invf_pred (s + a)
    rw [show s + a - 1 = s - 1 + a by ring] at this
    rw [this]; push_cast; ring
  have B2 : invf (s - 2 + a) = ((s : ℝ) - 1 + a) * (((s : ℝ) + a) * invf (s + a)) := by
    have := invf_pred (s - 1 + a)
    rw [show s - 1 + a - 1 = s - 2 + a by ring] at this
    rw [this, B1]; push_cast; ring
  have C1 : invf (s - 1) = (s : ℝ) * invf s := invf_pred s
  have C2 : invf (s - 2) = ((s : ℝ) - 1) * ((s : ℝ) * invf s) := by
    have := invf_pred (s - 1)
    rw [show s - 1 - 1 = s - 2 by ring] at this
    rw [this, C1]; push_cast; ring
  unfold co
  rw [show (m : ℤ) + 1 - (s - 1) = m + 2 - s by ring, show (m : ℤ) - (s - 1) = m + 1 - s by ring,
    show (m : ℤ) - (s - 2) = m + 2 - s by ring,
    show (m : ℤ) + 1 + b - (s - 1) = m + 2 + b - s by ring,
    show (m : ℤ) + b - (s - 1) = m + 1 + b - s by ring,
    show (m : ℤ) + b - (s - 2) = m + 2 + b - s by ring, A2, A1, B2, B1, C2, C1, D2, D1]
  ring

/-- The explicit formula in terms of `co`. -/
theorem hom_eq (n a b : ℕ) (x y : ℝ) :
    Spec.homJacobi n a b x y
      = ((n + a).factorial * (n + b).factorial : ℝ) * hom n (co a b n) ((x - y) / 2) ((x + y) / 2) := by
  unfold Spec.homJacobi hom
  rw [mul_sum]
  refine sum_congr rfl fun s hs => ?_
  rw [mem_range] at hs
  have hk : s ≤ n := by omega
  have e1 : ((n + a).choose (n - s) : ℝ) = (n + a).factorial * (invf (n - s) * invf (s + a)) := by
    rw [show ((n : ℤ) - s) = ((n - s : ℕ) : ℤ) by omega,
      show ((s : ℤ) + a) = ((s + a : ℕ) : ℤ) by omega, invf_nat, invf_nat,
      Nat.cast_choose ℝ (by omega : n - s ≤ n + a), show n + a - (n - s) = s + a by omega]
    have h1 : (((n - s).factorial : ℕ) : ℝ) ≠ 0 := by positivity
    have h2 : (((s + a).factorial : ℕ) : ℝ) ≠ 0 := by positivity
    field_simp
  have e2 : ((n + b).choose s : ℝ) = (n + b).factorial * (invf s * invf (n + b - s)) := by
    rw [show ((n : ℤ) + b - s) = ((n + b - s : ℕ) : ℤ) by omega, invf_nat, invf_nat,
      Nat.cast_choose ℝ (by omega : s ≤ n + b)]
    have h1 : (((n + b - s).factorial : ℕ) : ℝ) ≠ 0 := by positivity
    have h2 : ((s.factorial : ℕ) : ℝ) ≠ 0 := by positivity
    field_simp
  rw [e1, e2]
  unfold co
  ring

/-- The recurrence of the homogenised Jacobi polynomials. -/
theorem homJacobi_rec (a b m : ℕ) (x y : ℝ) :
    (2 * (m + 2) * (m + 2 + a + b) * (2 * (m + 2) + a + b - 2) : ℝ) * Spec.homJacobi (m + 2) a b x y
      = (2 * (m + 2) + a + b - 1) * ((a * a - b * b) * y
            + (2 * (m + 2) + a + b) * (2 * (m + 2) + a + b - 2) * x) * Spec.homJacobi (m + 1) a b x y
        - 2 * (m + 1 + a) * (m + 1 + b) * (2 * (m + 2) + a + b) * y * y * Spec.homJacobi m a b x y := by
  rw [hom_eq, hom_eq, hom_eq]
  generalize hu : (x - y) / 2 = u
  generalize hv : (x + y) / 2 = v
  have hx : x = u + v := by rw [← hu, ← hv]; ring
  have hy : y = v - u := by rw [← hu, ← hv]; ring
  rw [hx, hy]
  have f1 : ∀ c : ℕ, (((m + 2 + c).factorial : ℕ) : ℝ)
      = (m + 2 + c) * (m + 1 + c) * ((m + c).factorial : ℝ) := by
    intro c
    rw [show m + 2 + c = (m + c) + 1 + 1 by ring, Nat.factorial_succ, Nat.factorial_succ]
    push_cast; ring
  have f2 : ∀ c : ℕ, (((m + 1 + c).factorial : ℕ) : ℝ) = (m + 1 + c) * ((m + c).factorial : ℝ) := by
    intro c
    rw [show m + 1 + c = (m + c) + 1 by ring, Nat.factorial_succ]
    push_cast; ring
  rw [f1 a, f1 b, f2 a, f2 b]
  -- the products by `u`, `v` as forms of the next degree
  have v1 : v * hom (m + 1) (co a b ((m + 1 : ℕ) : ℤ)) u v
      = hom (m + 2) (fun s => co a b (m + 1) s) u v := by
    rw [v_hom _ _ _ _ (co_big _ _ _ (by push_cast; omega))]
    exact hom_congr _ _ _ _ _ fun s => by push_cast; rfl
  have u1 : u * hom (m + 1) (co a b ((m + 1 : ℕ) : ℤ)) u v
      = hom (m + 2) (fun s => co a b (m + 1) (s - 1)) u v := by
    rw [u_hom _ _ _ _ (co_neg _ _ _ (by omega))]
    exact hom_congr _ _ _ _ _ fun s => by push_cast; rfl
  have vv : v * (v * hom m (co a b m) u v) = hom (m + 2) (fun s => co a b m s) u v := by
    rw [v_hom _ _ _ _ (co_big _ _ _ (by omega)),
      v_hom _ _ _ _ (co_big _ _ _ (by push_cast; omega))]
  have uv : u * (v * hom m (co a b m) u v) = hom (m + 2) (fun s => co a b m (s - 1)) u v := by
    rw [v_hom _ _ _ _ (co_big _ _ _ (by omega)), u_hom _ _ _ _ (co_neg _ _ _ (by omega))]
  have uu : u * (u * hom m (co a b m) u v) = hom (m + 2) (fun s => co a b m (s - 2)) u v := by
    rw [u_hom _ _ _ _ (co_neg _ _ _ (by omega)),
      u_hom _ (fun s => co a b m (s - 1)) _ _ (co_neg _ _ _ (by omega))]
    exact hom_congr _ _ _ _ _ fun s => by rw [show s - 1 - 1 = s - 2 by ring]
  have key : (2 * (m + 2) * (m + 2 + a + b) * (2 * (m + 2) + a + b - 2) : ℝ)
        * ((m + 2 + a) * (m + 1 + a) * (m + 2 + b) * (m + 1 + b))
        * hom (m + 2) (co a b ((m + 2 : ℕ) : ℤ)) u v
      = (2 * (m + 2) + a + b - 1) * ((a * a - b * b)
            * (hom (m + 2) (fun s => co a b (m + 1) s) u v
              - hom (m + 2) (fun s => co a b (m + 1) (s - 1)) u v)
          + (2 * (m + 2) + a + b) * (2 * (m + 2) + a + b - 2)
            * (hom (m + 2) (fun s => co a b (m + 1) s) u v
              + hom (m + 2) (fun s => co a b (m + 1) (s - 1)) u v)) * ((m + 1 + a) * (m + 1 + b))
        - 2 * (m + 1 + a) * (m + 1 + b) * (2 * (m + 2) + a + b)
          * (hom (m + 2) (fun s => co a b m s) u v
            - 2 * hom (m + 2) (fun s => co a b m (s - 1)) u v
            + hom (m + 2) (fun s => co a b m (s - 2)) u v) := by
    unfold hom
    simp only [mul_sum, sum_mul, ← sum_add_distrib, ← sum_sub_distrib]
    refine sum_congr rfl fun s _ => ?_
    have := co_rec a b m s
    push_cast
    linear_combination u ^ s * v ^ (m + 2 - s) * this
  rw [← v1, ← u1, ← vv, ← uv, ← uu] at key
  linear_combination ((m + a).factorial * (m + b).factorial : ℝ) * key

theorem homJacobi_zero (a b : ℕ) (x y : ℝ) : Spec.homJacobi 0 a b x y = 1 := by
  simp [Spec.homJacobi]

theorem homJacobi_one (a b : ℕ) (x y : ℝ) :
    Spec.homJacobi 1 a b x y = ((1 / 2) * a - (1 / 2) * b) * y + (1 + (1 / 2) * (a + b)) * x := by
  simp [Spec.homJacobi, sum_range_succ]
  ring

theorem c4_ne (m a b : ℕ) :
    (2 * (m + 2) * (m + 2 + a + b) * (2 * (m + 2) + a + b - 2) : ℝ) ≠ 0 := by
  have : (2 * (m + 2) + a + b - 2 : ℝ) = 2 * m + 2 + a + b := by ring
  rw [this]
  positivity

theorem factors_two (m a b : ℕ) :
    factors (m + 2) a b = ⟨2 * (m + 2) + a + b - 1, a * a - b * b,
      (2 * (m + 2) + a + b) * (2 * (m + 2) + a + b - 2),
      2 * (m + 1 + a) * (m + 1 + b) * (2 * (m + 2) + a + b),
      2 * (m + 2) * (m + 2 + a + b) * (2 * (m + 2) + a + b - 2)⟩ := by
  unfold factors
  push_cast
  have h1 : (m + 2 + a - 1 : ℝ) = m + 1 + a := by ring
  have h2 : (m + 2 + b - 1 : ℝ) = m + 1 + b := by ring
  simp only [h1, h2]

theorem recursion_hom (m a b : ℕ) (x y : ℝ) :
    recursion x y (factors (m + 2) a b) (Spec.homJacobi (m + 1) a b x y) (Spec.homJacobi m a b x y)
      = Spec.homJacobi (m + 2) a b x y := by
  unfold recursion
  rw [factors_two, div_eq_iff (c4_ne m a b), mul_comm (Spec.homJacobi (m + 2) a b x y), homJacobi_rec]

theorem sf_fold (n a b : ℕ) (x y : ℝ) :
    (List.range' 2 n).foldl
      (fun (st : ℝ × ℝ) m => (st.2, recursion x y (factors m a b) st.2 st.1))
      (1, ((1 / 2) * a - (1 / 2) * b) * y + (1 + (1 / 2) * (a + b)) * x)
      = (Spec.homJacobi n a b x y, Spec.homJacobi (n + 1) a b x y) := by
  induction n with
  | zero => simp only [List.range'_zero, List.foldl_nil]; rw [homJacobi_zero, homJacobi_one]
  | succ n ih =>
    rw [List.range'_concat, List.foldl_append, ih]
    simp only [List.foldl_cons, List.foldl_nil]
    rw [show 2 + 1 * n = n + 2 by ring, recursion_hom]

theorem sf_eq (n a b : ℕ) (x y : ℝ) : sfJacobiP n a b x y = Spec.homJacobi n a b x y := by
  unfold sfJacobiP
  split
  · rename_i h; rw [h, homJacobi_zero]
  · rename_i h
    rw [sf_fold, show n - 1 + 1 = n by omega]

theorem jacobi_fold (n a b : ℕ) (x : ℝ) :
    (List.range' 2 n).foldl (jacobiStep a b x)
      (1, (1 / 2) * a - (1 / 2) * b + (1 + (1 / 2) * (a + b)) * x)
      = (Spec.homJacobi n a b x 1, Spec.homJacobi (n + 1) a b x 1) := by
  rw [← sf_fold]
  have : jacobiStep a b x
      = fun (st : ℝ × ℝ) m => (st.2, recursion x 1 (factors m a b) st.2 st.1) := by
    funext st m
    unfold jacobiStep recursion factors
    simp
  rw [this, mul_one]

theorem homJacobi_at_one (n a b : ℕ) (x : ℝ) : Spec.homJacobi n a b x 1 = Spec.jacobi n a b x := rfl

theorem jacobi_eq (n a b : ℕ) (x : ℝ) : jacobiP n a b x = Spec.jacobi n a b x := by
  unfold jacobiP
  split
  · rename_i h; rw [h, ← homJacobi_at_one, homJacobi_zero]
  · rename_i h
    rw [jacobi_fold, show n - 1 + 1 = n by omega]; rfl

theorem homJacobi_homog (n a b : ℕ) (x y : ℝ) (hy : y ≠ 0) :
    Spec.homJacobi n a b x y = y ^ n * Spec.jacobi n a b (x / y) := by
  unfold Spec.homJacobi Spec.jacobi
  rw [mul_sum]
  refine sum_congr rfl fun s hs => ?_
  rw [mem_range] at hs
  have e1 : (x - y) / 2 = y * ((x / y - 1) / 2) := by field_simp
  have e2 : (x + y) / 2 = y * ((x / y + 1) / 2) := by field_simp
  rw [e1, e2, mul_pow, mul_pow]
  have : y ^ n = y ^ s * y ^ (n - s) := by rw [← pow_add]; congr 1; omega
  rw [this]; ring

/-! ## Derivatives -/

/-- The loop of `SingularityFreeJacobiPAndDerivatives` computes value and partial derivatives: along
any differentiable curve the chain rule holds. -/
theorem d_fold (n a b : ℕ) (x y : ℝ) :
    ∃ st : DSt, (List.range' 2 n).foldl (dStep a b x y)
        ⟨1, 0, 0, sfJacobiP 1 a b x y, 1 + (1 / 2) * (a + b), (1 / 2) * ((a : ℝ) - b)⟩ = st ∧
      st.Pm_1 = Spec.homJacobi n a b x y ∧ st.Pm = Spec.homJacobi (n + 1) a b x y ∧
      ∀ (X Y : ℝ → ℝ) (X' Y' t : ℝ), X t = x → Y t = y → HasDerivAt X X' t → HasDerivAt Y Y' t →
        HasDerivAt (fun t => Spec.homJacobi n a b (X t) (Y t)) (st.ddxPm_1 * X' + st.ddyPm_1 * Y') t ∧
        HasDerivAt (fun t => Spec.homJacobi (n + 1) a b (X t) (Y t)) (st.ddxPm * X' + st.ddyPm * Y')
          t := by
  induction n with
  | zero =>
    refine ⟨_, rfl, ?_, ?_, ?_⟩
    · simp [homJacobi_zero]
    · simp [sf_eq]
    · intro X Y X' Y' t hx hy dX dY
      have e1 : (fun t => Spec.homJacobi (0 + 1) a b (X t) (Y t)) = fun t =>
          ((1 / 2) * (a : ℝ) - (1 / 2) * b) * Y t + (1 + (1 / 2) * ((a : ℝ) + b)) * X t := by
        funext t
        exact homJacobi_one a b _ _
      rw [e1]
      simp only [homJacobi_zero, List.range'_zero, List.foldl_nil]
      constructor
      · simpa using hasDerivAt_const t (1 : ℝ)
      · refine ((dY.const_mul ((1 / 2) * (a : ℝ) - (1 / 2) * b)).fun_add
          (dX.const_mul (1 + (1 / 2) * ((a : ℝ) + b)))).congr_deriv ?_
        ring
  | succ n ih =>
    obtain ⟨st, e, h1, h2, h3⟩ := ih
    rw [List.range'_concat, List.foldl_append, e]
    simp only [List.foldl_cons, List.foldl_nil]
    rw [show 2 + 1 * n = n + 2 by ring]
    refine ⟨_, rfl, ?_, ?_, ?_⟩
    · exact h2
    · simp only [dStep]
      rw [h2, h1, recursion_hom]
    · intro X Y X' Y' t hx hy dX dY
      obtain ⟨d1, d2⟩ := h3 X Y X' Y' t hx hy dX dY
      refine ⟨d2, ?_⟩
      have e : (fun t => Spec.homJacobi (n + 1 + 1) a b (X t) (Y t))
          = fun t => ((factors (n + 2) a b).c0 * ((factors (n + 2) a b).c1 * Y t
              + (factors (n + 2) a b).c2 * X t) * Spec.homJacobi (n + 1) a b (X t) (Y t)
            - (factors (n + 2) a b).c3 * Y t * Y t * Spec.homJacobi n a b (X t) (Y t))
            / (factors (n + 2) a b).c4 := by
        funext t
        rw [← recursion_hom]
        rfl
      rw [e]
      simp only [dStep, ← h1, ← h2]
      generalize factors (n + 2) a b = c
      have := (((((dY.const_mul c.c1).fun_add (dX.const_mul c.c2)).const_mul c.c0).fun_mul d2).fun_sub
        (((dY.const_mul c.c3).fun_mul dY).fun_mul d1)).div_const c.c4
      refine this.congr_deriv ?_
      simp only [hx, hy, ← h1, ← h2]
      ring

theorem sfd_eq (n a b : ℕ) (x y : ℝ) :
    (sfJacobiPAndDerivatives n a b x y).1 = Spec.homJacobi n a b x y ∧
    ∀ (X Y : ℝ → ℝ) (X' Y' t : ℝ), X t = x → Y t = y → HasDerivAt X X' t → HasDerivAt Y Y' t →
      HasDerivAt (fun t => Spec.homJacobi n a b (X t) (Y t))
        ((sfJacobiPAndDerivatives n a b x y).2.1 * X'
          + (sfJacobiPAndDerivatives n a b x y).2.2 * Y') t := by
  unfold sfJacobiPAndDerivatives
  split
  · rename_i h
    subst h
    refine ⟨(homJacobi_zero a b x y).symm, ?_⟩
    intro X Y X' Y' t _ _ _ _
    simp only [homJacobi_zero]
    simpa using hasDerivAt_const t (1 : ℝ)
  · rename_i h
    obtain ⟨st, e, h1, h2, h3⟩ := d_fold (n - 1) a b x y
    rw [e]
    rw [show n - 1 + 1 = n by omega] at h2 h3
    exact ⟨h2, fun X Y X' Y' t hx hy dX dY => (h3 X Y X' Y' t hx hy dX dY).2⟩

/-- Derivative of a binary form along the line `u = (x-1)/2`, `v = (x+1)/2`. -/
theorem hom_deriv (m : ℕ) (c : ℤ → ℝ) (x : ℝ) :
    HasDerivAt (fun x : ℝ => hom (m + 1) c ((x - 1) / 2) ((x + 1) / 2))
      (hom m (fun s => (1 / 2) * ((s + 1) * c (s + 1) + (m + 1 - s) * c s))
        ((x - 1) / 2) ((x + 1) / 2)) x := by
  have du : HasDerivAt (fun x : ℝ => (x - 1) / 2) (1 / 2) x :=
    ((hasDerivAt_id x).sub_const 1).div_const 2
  have dv : HasDerivAt (fun x : ℝ => (x + 1) / 2) (1 / 2) x :=
    ((hasDerivAt_id x).add_const 1).div_const 2
  have key : HasDerivAt (fun x : ℝ => ∑ s ∈ range (m + 1 + 1),
      c s * ((x - 1) / 2) ^ s * ((x + 1) / 2) ^ (m + 1 - s))
      (∑ s ∈ range (m + 1 + 1), (c s * (s * ((x - 1) / 2) ^ (s - 1) * (1 / 2))
          * ((x + 1) / 2) ^ (m + 1 - s)
        + c s * ((x - 1) / 2) ^ s
          * ((m + 1 - s : ℕ) * ((x + 1) / 2) ^ (m + 1 - s - 1) * (1 / 2)))) x := by
    refine HasDerivAt.fun_sum fun s _ => ?_
    exact ((du.pow s).const_mul (c s)).mul (dv.pow (m + 1 - s))
  refine key.congr_deriv ?_
  unfold hom
  rw [sum_add_distrib, sum_range_succ' (fun s : ℕ => c s * ((s : ℝ) * ((x - 1) / 2) ^ (s - 1) * (1 / 2))
    * ((x + 1) / 2) ^ (m + 1 - s)), sum_range_succ (fun s : ℕ => c s * ((x - 1) / 2) ^ s
          * (((m + 1 - s : ℕ) : ℝ) * ((x + 1) / 2) ^ (m + 1 - s - 1) * (1 / 2)))]
  simp only [Nat.cast_zero, zero_mul, mul_zero, add_zero, Nat.sub_self]
  rw [← sum_add_distrib]
  refine sum_congr rfl fun s hs => ?_
  rw [mem_range] at hs
  rw [show m + 1 - (s + 1) = m - s by omega, show m + 1 - s - 1 = m - s by omega,
    show s + 1 - 1 = s by omega, Nat.cast_sub (by omega : s ≤ m + 1)]
  push_cast
  ring

theorem co_deriv (a b m : ℕ) (s : ℤ) :
    ((s : ℝ) + 1) * co a b (m + 1) (s + 1) + (m + 1 - s) * co a b (m + 1) s
      = ((m : ℝ) + 1 + a + b + 1) * co (a + 1) (b + 1) m s := by
  have A : invf ((m : ℤ) - s) = ((m : ℝ) + 1 - s) * invf (m + 1 - s) := by
    have := invf_pred ((m : ℤ) + 1 - s)
    rw [show (m : ℤ) + 1 - s - 1 = m - s by ring] at this
    rw [this]; push_cast; ring
  have B : invf (s + a) = ((s : ℝ) + 1 + a) * invf (s + 1 + a) := by
    have := invf_pred (s + 1 + a)
    rw [show s + 1 + a - 1 = s + a by ring] at this
    rw [this]; push_cast; ring
  have C : invf s = ((s : ℝ) + 1) * invf (s + 1) := by
    have := invf_pred (s + 1)
    rw [show s + 1 - 1 = s by ring] at this
    rw [this]; push_cast; ring
  have D : invf ((m : ℤ) + b - s) = ((m : ℝ) + 1 + b - s) * invf (m + 1 + b - s) := by
    have := invf_pred ((m : ℤ) + 1 + b - s)
    rw [show (m : ℤ) + 1 + b - s - 1 = m + b - s by ring] at this
    rw [this]; push_cast; ring
  unfold co
  push_cast
  rw [show (m : ℤ) + 1 - (s + 1) = m - s by ring, show (m : ℤ) + 1 + b - (s + 1) = m + b - s by ring,
    show s + ((a : ℤ) + 1) = s + 1 + a by ring, show (m : ℤ) + (b + 1) - s = m + 1 + b - s by ring,
    A, B, C, D]
  ring

theorem jacobi_deriv (n a b : ℕ) (x : ℝ) :
    HasDerivAt (fun x => Spec.jacobi n a b x) (jacobiPDerivative n a b x) x := by
  unfold jacobiPDerivative
  split
  · rename_i h
    subst h
    have : (fun x => Spec.jacobi 0 a b x) = fun _ => 1 := by
      funext x; rw [← homJacobi_at_one, homJacobi_zero]
    rw [this]
    exact hasDerivAt_const x 1
  · rename_i h
    obtain ⟨m, rfl⟩ : ∃ m, n = m + 1 := ⟨n - 1, by omega⟩
    rw [jacobi_eq, show m + 1 - 1 = m by omega]
    have e : (fun x => Spec.jacobi (m + 1) a b x)
        = fun x => ((m + 1 + a).factorial * (m + 1 + b).factorial : ℝ)
            * hom (m + 1) (co a b (m + 1)) ((x - 1) / 2) ((x + 1) / 2) := by
      funext x
      rw [← homJacobi_at_one, hom_eq]
      push_cast; rfl
    rw [e]
    refine ((hom_deriv m (co a b (m + 1)) x).const_mul _).congr_deriv ?_
    rw [← homJacobi_at_one, hom_eq, show m + (a + 1) = m + 1 + a by ring,
      show m + (b + 1) = m + 1 + b by ring]
    have : hom m (fun s => (1 / 2) * (((s : ℝ) + 1) * co a b (m + 1) (s + 1)
          + (m + 1 - s) * co a b (m + 1) s)) ((x - 1) / 2) ((x + 1) / 2)
        = (1 / 2) * ((m : ℝ) + 1 + a + b + 1) * hom m (co (a + 1) (b + 1) m)
          ((x - 1) / 2) ((x + 1) / 2) := by
      unfold hom
      rw [mul_sum]
      refine sum_congr rfl fun s _ => ?_
      have := co_deriv a b m s
      linear_combination (1 / 2) * ((x - 1) / 2) ^ s * ((x + 1) / 2) ^ (m - s) * this
    rw [this]
    push_cast
    ring

end Tandem.Functions
