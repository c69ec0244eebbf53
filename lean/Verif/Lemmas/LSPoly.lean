import Verif.Model.LSPoly
import Verif.Lemmas.LSOptimal
import Verif.Lemmas.LSStable
/-! # The solver `KSPSolve_LSPoly` applies the least-squares residual polynomial -/
namespace Tandem.LSPoly
open Polynomial

/-- The invariant of `ResidualP` after `n` calls of `ResidualP_Next`. -/
structure RInv (a b e : ℝ) (n : ℕ) (rp : ResidualP) : Prop where
  alpha : rp.alpha = a
  beta : rp.beta = b
  emax : rp.emax = e
  idx : rp.n = (n : ℤ) - 1
  ne : rp.P0n ≠ 0
  ne1 : rp.P0n_1 ≠ 0
  ratio : 0 < n → rp.P0n_1 * (n + b) = -n * rp.P0n

theorem init_inv (α β e : ℝ) : RInv α (β + 1) e 0 (init α β e) :=
  ⟨rfl, rfl, rfl, rfl, one_ne_zero, one_ne_zero, fun h => absurd h (lt_irrefl 0)⟩

theorem abs_ne_sq (a b : ℝ) (h : ¬ |a| ≠ |b|) : a * a - b * b = 0 := by
  rw [ne_eq, not_not] at h
  rw [← abs_mul_abs_self a, ← abs_mul_abs_self b, h, sub_self]

/-- The normalisation factor of line 63. -/
theorem tmp_eq (a b : ℝ) (n : ℕ) (ha : -1 < a) (hb : -1 < b) (hs : -1 < a + b) (h0 : a + b ≠ 0)
    (rho : ℝ) (hr : 0 < n → rho * (n + b) = -n) :
    psiJ a b n - phiJ a b n - xiJ a b n * rho = -((n + 1 + b) / (n + 1)) := by
  have hn : (0:ℝ) ≤ n := Nat.cast_nonneg n
  have h1 : (n : ℝ) + 1 ≠ 0 := by intro h; linarith
  have h2 : (n : ℝ) + a + b + 1 ≠ 0 := by intro h; linarith
  have h3 : 2 * (n : ℝ) + a + b ≠ 0 := by
    rcases Nat.eq_zero_or_pos n with h | h
    · subst h; push_cast; intro h'; apply h0; linarith
    · have : (1:ℝ) ≤ n := by exact_mod_cast h
      intro h'; linarith
  have hpsi : psiJ a b n = (2 * (n : ℝ) + a + b + 1) * (a * a - b * b)
      / (2 * ((n : ℝ) + 1) * (n + a + b + 1) * (2 * (n : ℝ) + a + b)) := by
    unfold psiJ
    simp only [Int.cast_natCast]
    split
    · rfl
    · rename_i h; rw [abs_ne_sq a b h]; simp
  rw [hpsi]
  rcases Nat.eq_zero_or_pos n with h | h
  · subst h
    unfold phiJ xiJ
    simp only [Nat.cast_zero, Int.cast_zero, lt_irrefl, if_false] at *
    rw [mul_zero, zero_add] at h3
    have h4 : a + b + 1 ≠ 0 := by intro h; linarith
    simp only [zero_add, mul_zero, zero_mul, mul_one, sub_zero, div_one]
    field_simp
    ring
  · have h5 : (n : ℝ) + b ≠ 0 := by
      have : (1:ℝ) ≤ n := by exact_mod_cast h
      intro h'; linarith
    have hrho : rho = -n / (n + b) := by rw [eq_div_iff h5]; exact hr h
    rw [hrho]
    unfold phiJ xiJ
    simp only [Int.cast_natCast]
    rw [if_pos (by exact_mod_cast h)]
    field_simp
    ring

/-- One call of `ResidualP_Next`. -/
theorem next_spec (a b e : ℝ) (n : ℕ) (ha : -1 < a) (hb : -1 < b) (hs : -1 < a + b) (h0 : a + b ≠ 0)
    (rp : ResidualP) (inv : RInv a b e n rp) :
    RInv a b e (n + 1) (next rp).1 ∧ (next rp).2.psi = 1 + (next rp).2.xi ∧
    scale e (hp a b (n + 1))
      = (C (next rp).2.psi + C (next rp).2.phi * X) * scale e (hp a b n)
        - C (next rp).2.xi * scale e (hp a b (n - 1)) := by
  have hn : (0:ℝ) ≤ n := Nat.cast_nonneg n
  have hidx : rp.n + 1 = (n : ℤ) := by rw [inv.idx]; ring
  have hτ : (-((n + 1 + b) / (n + 1)) : ℝ) ≠ 0 := by
    have : 0 < ((n : ℝ) + 1 + b) / (n + 1) := div_pos (by linarith) (by linarith)
    intro h; linarith
  have ht := tmp_eq a b n ha hb hs h0 (rp.P0n_1 / rp.P0n) (fun h => by
    have := inv.ratio h
    rw [div_mul_eq_mul_div, this, mul_div_assoc, div_self inv.ne, mul_one])
  set τ : ℝ := -((n + 1 + b) / (n + 1)) with hτdef
  have tmp1 : psiJ a b n - phiJ a b n - xiJ a b n * rp.P0n_1 / rp.P0n = τ := by
    rw [mul_div_assoc]; exact ht
  have tmp2 : (psiJ a b n - phiJ a b n) * rp.P0n / rp.P0n_1 - xiJ a b n = τ * (rp.P0n / rp.P0n_1) := by
    rw [← tmp1]
    have := inv.ne; have := inv.ne1
    field_simp
  have p1 : (psiJ a b n - phiJ a b n) * rp.P0n - xiJ a b n * rp.P0n_1 = τ * rp.P0n := by
    rw [← tmp1]
    have := inv.ne; have := inv.ne1
    field_simp
  have e1 : (next rp).1 = ⟨a, b, e, rp.P0n, τ * rp.P0n, n⟩ := by
    unfold next
    simp only [hidx, inv.alpha, inv.beta, inv.emax, p1]
  have ephi : (next rp).2.phi = 2 * phiJ a b n / e / τ := by
    unfold next
    simp only [hidx, inv.alpha, inv.beta, inv.emax, tmp1]
  have epsi : (next rp).2.psi = (psiJ a b n - phiJ a b n) / τ := by
    unfold next
    simp only [hidx, inv.alpha, inv.beta, inv.emax, tmp1]
  have exi : (next rp).2.xi = xiJ a b n * (rp.P0n_1 / rp.P0n) / τ := by
    unfold next
    simp only [hidx, inv.alpha, inv.beta, inv.emax, tmp2]
    have := inv.ne; have := inv.ne1
    field_simp
  refine ⟨?_, ?_, ?_⟩
  · rw [e1]
    refine ⟨rfl, rfl, rfl, by push_cast; ring, mul_ne_zero hτ inv.ne, inv.ne, fun _ => ?_⟩
    have h1 : (n : ℝ) + 1 ≠ 0 := by intro h; linarith
    simp only [hτdef]
    push_cast
    field_simp
  · rw [epsi, exi, div_eq_iff hτ, add_mul, div_mul_cancel₀ _ hτ, one_mul]
    linarith
  · -- the recurrence
    have main : C τ * hp a b (n + 1) = (C (psiJ a b n - phiJ a b n) + C (2 * phiJ a b n) * X) * hp a b n
        - C (xiJ a b n * (rp.P0n_1 / rp.P0n)) * hp a b (n - 1) := by
      cases n with
      | zero =>
        have hx : xiJ a b ((0 : ℕ) : ℤ) = 0 := by unfold xiJ; simp
        rw [hx, zero_mul, sub_zero] at ht
        rw [hx, ht, zero_mul, C_0, zero_mul, sub_zero, hp_zero, mul_one]
        have hph : 2 * phiJ a b ((0 : ℕ) : ℤ) = a + b + 2 := by
          unfold phiJ
          simp only [Nat.cast_zero, Int.cast_zero]
          have h4 : a + b + 1 ≠ 0 := by intro h; linarith
          simp only [zero_add, mul_zero, mul_one]
          field_simp
        rw [hph]
        have := hp_one a b hb
        rw [show (0:ℕ) + 1 = 1 from rfl]
        have hτ0 : τ = -(1 + b) := by rw [hτdef]; push_cast; ring
        rw [hτ0]; exact this
      | succ m =>
        rw [show m + 1 + 1 = m + 2 from rfl, Nat.add_sub_cancel]
        have hm : (0:ℝ) ≤ m := Nat.cast_nonneg m
        have hrec := hp_rec a b m hb hs
        have h1 : (m : ℝ) + 2 ≠ 0 := by intro h; linarith
        have h2 : (m : ℝ) + 1 + a + b + 1 ≠ 0 := by intro h; linarith
        have h3 : 2 * ((m : ℝ) + 1) + a + b ≠ 0 := by intro h; linarith
        have h5 : (m : ℝ) + 1 + b ≠ 0 := by intro h; linarith
        have hrat : rp.P0n_1 / rp.P0n = -((m : ℝ) + 1) / (m + 1 + b) := by
          have := inv.ratio (Nat.succ_pos m)
          push_cast at this
          rw [div_eq_div_iff inv.ne h5]
          linarith
        set K : ℝ := 2 * (m + 2) * ((m : ℝ) + 1 + a + b + 1) * (2 * ((m : ℝ) + 1) + a + b) with hK
        have hK0 : K ≠ 0 := mul_ne_zero (mul_ne_zero (mul_ne_zero two_ne_zero h1) h2) h3
        have c1 : K * τ = -(2 * (m + 1 + a + b + 1) * (2 * (m + 1) + a + b) * (m + 2 + b)) := by
          rw [hK, hτdef]; push_cast
          rw [show (m : ℝ) + 1 + 1 = m + 2 by ring]
          field_simp
        have c3 : K * phiJ a b ((m + 1 : ℕ) : ℤ)
            = (2 * (m + 1) + a + b + 1) * (2 * (m + 1) + a + b + 2) * (2 * (m + 1) + a + b) := by
          unfold phiJ
          push_cast
          rw [hK, show (m : ℝ) + 1 + 1 = m + 2 by ring]
          field_simp
        have c2 : K * psiJ a b ((m + 1 : ℕ) : ℤ) = (2 * (m + 1) + a + b + 1) * (a * a - b * b) := by
          unfold psiJ
          push_cast
          rw [hK, show (m : ℝ) + 1 + 1 = m + 2 by ring]
          split
          · field_simp
          · rename_i h; rw [abs_ne_sq a b h]; simp
        have c4 : K * (xiJ a b ((m + 1 : ℕ) : ℤ) * (rp.P0n_1 / rp.P0n))
            = -(2 * (m + 1 + a) * (2 * (m + 1) + a + b + 2) * (m + 1)) := by
          rw [hrat]
          unfold xiJ
          rw [if_pos (by push_cast; omega)]
          push_cast
          rw [hK, show (m : ℝ) + 1 + 1 = m + 2 by ring]
          field_simp
        have hKC : (C K : ℝ[X]) ≠ 0 := by rw [Ne, C_eq_zero]; exact hK0
        refine mul_left_cancel₀ hKC ?_
        have d1 : C K * C τ = C (K * τ) := (C_mul).symm
        have d2 : C K * C (psiJ a b ((m + 1 : ℕ) : ℤ) - phiJ a b ((m + 1 : ℕ) : ℤ))
            = C (K * psiJ a b ((m + 1 : ℕ) : ℤ) - K * phiJ a b ((m + 1 : ℕ) : ℤ)) := by
          rw [← C_mul, mul_sub]
        have d3 : C K * C (2 * phiJ a b ((m + 1 : ℕ) : ℤ)) = C (2 * (K * phiJ a b ((m + 1 : ℕ) : ℤ))) := by
          rw [← C_mul]; congr 1; ring
        have d4 : C K * C (xiJ a b ((m + 1 : ℕ) : ℤ) * (rp.P0n_1 / rp.P0n))
            = C (K * (xiJ a b ((m + 1 : ℕ) : ℤ) * (rp.P0n_1 / rp.P0n))) := C_mul.symm
        rw [c1] at d1
        rw [c2, c3] at d2
        rw [c3] at d3
        rw [c4] at d4
        have f2 : ((2 * ((m : ℝ) + 1) + a + b + 1) * (a * a - b * b)
            - (2 * (m + 1) + a + b + 1) * (2 * (m + 1) + a + b + 2) * (2 * (m + 1) + a + b))
            = ((2 * (m + 1) + a + b + 1) * ((a * a - b * b)
            - (2 * (m + 1) + a + b + 2) * (2 * (m + 1) + a + b)) : ℝ) := by ring
        have f3 : (2 * ((2 * ((m : ℝ) + 1) + a + b + 1) * (2 * (m + 1) + a + b + 2) * (2 * (m + 1) + a + b)))
            = (2 * (2 * (m + 1) + a + b + 1) * (2 * (m + 1) + a + b + 2) * (2 * (m + 1) + a + b) : ℝ) := by
          ring
        rw [f2] at d2
        rw [f3] at d3
        rw [C_neg] at d4
        linear_combination hrec + hp a b (m + 2) * d1 - hp a b (m + 1) * d2 - hp a b (m + 1) * X * d3
          + hp a b m * d4
    have sm := congrArg (scale e) main
    unfold scale at sm ⊢
    simp only [mul_comp, C_comp, X_comp, sub_comp, add_comp] at sm
    have hτC : (C τ : ℝ[X]) ≠ 0 := by rw [Ne, C_eq_zero]; exact hτ
    refine mul_left_cancel₀ hτC ?_
    rw [sm, epsi, ephi, exi]
    have g1 : C τ * C ((psiJ a b n - phiJ a b n) / τ) = C (psiJ a b n - phiJ a b n) := by
      rw [← C_mul, mul_div_cancel₀ _ hτ]
    have g2 : C τ * C (2 * phiJ a b n / e / τ) = C (2 * phiJ a b n) * C e⁻¹ := by
      rw [← C_mul, mul_div_cancel₀ _ hτ, ← C_mul, div_eq_mul_inv]
    have g3 : C τ * C (xiJ a b n * (rp.P0n_1 / rp.P0n) / τ) = C (xiJ a b n * (rp.P0n_1 / rp.P0n)) := by
      rw [← C_mul, mul_div_cancel₀ _ hτ]
    linear_combination (-((hp a b n).comp (C e⁻¹ * X))) * g1 - X * (hp a b n).comp (C e⁻¹ * X) * g2
      + (hp a b (n - 1)).comp (C e⁻¹ * X) * g3

end Tandem.LSPoly
