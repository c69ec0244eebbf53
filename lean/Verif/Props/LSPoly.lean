import Verif.Lemmas.LSPoly
import Mathlib.Algebra.Polynomial.Module.AEval
/-! # C85: the least-squares polynomial Krylov method -/
namespace Tandem.LSPoly
open Polynomial

variable {V : Type*} [AddCommGroup V] [Module ℝ V]

/-- The residual polynomial after `n` updates. -/
noncomputable def resP (α β e : ℝ) (n : ℕ) : ℝ[X] := scale e (hp α (β + 1) n)

/-- The polynomial that maps the preconditioned residual to the correction. -/
noncomputable def corP (α β e : ℝ) (n : ℕ) : ℝ[X] := -(resP α β e n).divX

theorem resP_zero (α β e : ℝ) : resP α β e 0 = 1 := by
  unfold resP scale; rw [hp_zero, one_comp]

theorem resP_cor (α β e : ℝ) (n : ℕ) : 1 - X * corP α β e n = resP α β e n := by
  have h := X_mul_divX_add (resP α β e n)
  have h0 : (resP α β e n).coeff 0 = 1 := by
    rw [coeff_zero_eq_eval_zero]; unfold resP; rw [eval_scale, zero_div, eval_hp_zero]
  rw [h0, C_1] at h
  unfold corP
  linear_combination h

theorem corP_zero (α β e : ℝ) : corP α β e 0 = 0 := by
  unfold corP; rw [resP_zero, divX_one, neg_zero]

/-- The invariant of the loop after `n` updates. -/
structure SInv (k : Ksp V) (x0 : V) (n : ℕ) (s : St V) : Prop where
  rp : RInv k.alpha (k.beta + 1) (k.estbias * k.emax) n s.rp
  x : s.x = x0 + aeval (k.pc ∘ₗ k.A) (corP k.alpha k.beta (k.estbias * k.emax) n) (k.pc (k.b - k.A x0))
  delta : s.delta = aeval (k.pc ∘ₗ k.A) (corP k.alpha k.beta (k.estbias * k.emax) n
    - corP k.alpha k.beta (k.estbias * k.emax) (n - 1)) (k.pc (k.b - k.A x0))

/-- The iterate after `n` updates. -/
noncomputable def iter (k : Ksp V) (x0 : V) (n : ℕ) : V :=
  x0 + aeval (k.pc ∘ₗ k.A) (corP k.alpha k.beta (k.estbias * k.emax) n) (k.pc (k.b - k.A x0))

theorem pre_res (k : Ksp V) (x0 : V) (n : ℕ) : k.pc (k.b - k.A (iter k x0 n))
    = aeval (k.pc ∘ₗ k.A) (resP k.alpha k.beta (k.estbias * k.emax) n) (k.pc (k.b - k.A x0)) := by
  rw [← resP_cor, map_sub (aeval _), map_one, map_mul, aeval_X, iter]
  simp only [map_add, LinearMap.sub_apply, Module.End.one_apply, Module.End.mul_apply,
    LinearMap.comp_apply, map_sub]
  abel

theorem err_iter (k : Ksp V) (x0 xs : V) (h : k.A xs = k.b) (n : ℕ) : iter k x0 n - xs
    = aeval (k.pc ∘ₗ k.A) (resP k.alpha k.beta (k.estbias * k.emax) n) (x0 - xs) := by
  have hr : k.pc (k.b - k.A x0) = -((k.pc ∘ₗ k.A) (x0 - xs)) := by
    rw [← h]
    simp only [LinearMap.comp_apply, map_sub]
    abel
  rw [← resP_cor, map_sub (aeval _), map_one, mul_comm X, map_mul, aeval_X, iter, hr, map_neg]
  simp only [LinearMap.sub_apply, Module.End.one_apply, Module.End.mul_apply]
  abel

theorem update_inv (k : Ksp V) (x0 : V) (hα : -1 < k.alpha) (hβ : -1 < k.beta)
    (hne : k.alpha + k.beta ≠ -1) (n : ℕ) (s : St V) (inv : SInv k x0 n s) :
    SInv k x0 (n + 1) (update k s (k.pc (k.b - k.A s.x))) := by
  obtain ⟨h1, h2, h3⟩ := next_spec k.alpha (k.beta + 1) (k.estbias * k.emax) n hα (by linarith)
    (by linarith) (fun h => hne (by linarith)) s.rp inv.rp
  have hx : s.x = iter k x0 n := inv.x
  have hc : corP k.alpha k.beta (k.estbias * k.emax) (n + 1)
      = corP k.alpha k.beta (k.estbias * k.emax) n
        + (C (next s.rp).2.xi * (corP k.alpha k.beta (k.estbias * k.emax) n
            - corP k.alpha k.beta (k.estbias * k.emax) (n - 1))
          - C (next s.rp).2.phi * resP k.alpha k.beta (k.estbias * k.emax) n) := by
    refine mul_left_cancel₀ X_ne_zero ?_
    have a1 := resP_cor k.alpha k.beta (k.estbias * k.emax) (n + 1)
    have a2 := resP_cor k.alpha k.beta (k.estbias * k.emax) n
    have a3 := resP_cor k.alpha k.beta (k.estbias * k.emax) (n - 1)
    have h2' : (C (next s.rp).2.psi : ℝ[X]) = 1 + C (next s.rp).2.xi := by rw [h2, C_add, C_1]
    have h3' : resP k.alpha k.beta (k.estbias * k.emax) (n + 1)
      = (C (next s.rp).2.psi + C (next s.rp).2.phi * X) * resP k.alpha k.beta (k.estbias * k.emax) n
        - C (next s.rp).2.xi * resP k.alpha k.beta (k.estbias * k.emax) (n - 1) := h3
    rw [h2'] at h3'
    linear_combination -a1 + a2 + C (next s.rp).2.xi * a2 - C (next s.rp).2.xi * a3 - h3'
  have hd : (update k s (k.pc (k.b - k.A s.x))).delta
      = aeval (k.pc ∘ₗ k.A) (corP k.alpha k.beta (k.estbias * k.emax) (n + 1)
          - corP k.alpha k.beta (k.estbias * k.emax) n) (k.pc (k.b - k.A x0)) := by
    rw [hc, add_sub_cancel_left]
    unfold update
    simp only
    rw [inv.delta, hx, pre_res]
    generalize k.pc (k.b - k.A x0) = ρ
    simp only [map_sub, map_mul, LinearMap.sub_apply, Module.End.mul_apply, aeval_C,
      Module.algebraMap_end_apply, neg_smul, smul_sub]
    abel
  refine ⟨h1, ?_, ?_⟩
  · show s.x + (update k s (k.pc (k.b - k.A s.x))).delta = _
    rw [hd, inv.x, map_sub (aeval _), LinearMap.sub_apply]
    abel
  · rw [hd, Nat.add_sub_cancel]

/-- What the loop leaves behind. -/
theorem loop_spec (k : Ksp V) (x0 : V) (hα : -1 < k.alpha) (hβ : -1 < k.beta)
    (hne : k.alpha + k.beta ≠ -1) (fuel : ℕ) : ∀ (n : ℕ) (s : St V), SInv k x0 n s → s.its = n →
    s.reason = 0 → ∃ m, n ≤ m ∧ m ≤ n + fuel ∧ (loop k fuel n s).x = iter k x0 m ∧
      (∀ j, n ≤ j → j < m → k.normtype ≠ .none →
        k.converged j (resNorm k (k.b - k.A (iter k x0 j))) = 0) ∧
      ((loop k fuel n s).reason = 0 → m = n + fuel ∧ (loop k fuel n s).its = m) ∧
      ((loop k fuel n s).reason ≠ 0 → m < n + fuel ∧ (loop k fuel n s).its = m + 1 ∧
        k.normtype ≠ .none ∧ (loop k fuel n s).rnorm = resNorm k (k.b - k.A (iter k x0 m)) ∧
        (loop k fuel n s).reason = k.converged m (resNorm k (k.b - k.A (iter k x0 m)))) := by
  induction fuel with
  | zero =>
    intro n s inv hits hr
    refine ⟨n, le_refl _, le_refl _, inv.x, fun j h1 h2 => by omega, fun _ => ⟨rfl, hits⟩, fun h => ?_⟩
    exact absurd hr h
  | succ fuel ih =>
    intro n s inv hits hr
    have hx : s.x = iter k x0 n := inv.x
    by_cases hnt : k.normtype = .none
    · have hl : loop k (fuel + 1) n s
          = loop k fuel (n + 1) (update k { s with its := s.its + 1 } (k.pc (k.b - k.A s.x))) := by
        rw [loop]; simp only [hnt]
      rw [hl]
      have inv' := update_inv k x0 hα hβ hne n { s with its := s.its + 1 } ⟨inv.rp, inv.x, inv.delta⟩
      obtain ⟨m, h1, h2, h3, h4, h5, h6⟩ := ih (n + 1) _ inv' (by unfold update; simp only [hits])
        (by unfold update; simp only [hr])
      refine ⟨m, by omega, by omega, h3, fun j _ _ h => absurd hnt h, fun h => ?_, fun h => ?_⟩
      · have := h5 h; exact ⟨by omega, this.2⟩
      · exact absurd hnt (h6 h).2.2.1
    · have hl : loop k (fuel + 1) n s
          = if k.converged n (resNorm k (k.b - k.A s.x)) ≠ 0 then
              { s with its := s.its + 1, rnorm := resNorm k (k.b - k.A s.x),
                       reason := k.converged n (resNorm k (k.b - k.A s.x)) }
            else loop k fuel (n + 1) (update k { s with
              its := s.its + 1, rnorm := resNorm k (k.b - k.A s.x),
              reason := k.converged n (resNorm k (k.b - k.A s.x)) } (k.pc (k.b - k.A s.x))) := by
        rw [loop]
        cases hh : k.normtype with
        | none => exact absurd hh hnt
        | preconditioned => simp only
        | unpreconditioned => simp only
      by_cases hc : k.converged n (resNorm k (k.b - k.A s.x)) = 0
      · rw [if_neg (by rw [not_not]; exact hc)] at hl
        rw [hl]
        have inv' := update_inv k x0 hα hβ hne n { s with
              its := s.its + 1, rnorm := resNorm k (k.b - k.A s.x),
              reason := k.converged n (resNorm k (k.b - k.A s.x)) } ⟨inv.rp, inv.x, inv.delta⟩
        obtain ⟨m, h1, h2, h3, h4, h5, h6⟩ := ih (n + 1) _ inv' (by unfold update; simp only [hits])
          (by unfold update; simp only [hc])
        refine ⟨m, by omega, by omega, h3, fun j g1 g2 g3 => ?_, fun h => ?_, fun h => ?_⟩
        · rcases Nat.eq_or_lt_of_le g1 with g | g
          · subst g; rw [← hx]; exact hc
          · exact h4 j g g2 g3
        · have := h5 h; exact ⟨by omega, this.2⟩
        · have := h6 h; exact ⟨by omega, this.2⟩
      · rw [if_pos hc] at hl
        rw [hl]
        refine ⟨n, le_refl _, by omega, hx, fun j _ _ => by omega, fun h => absurd h hc,
          fun _ => ⟨by omega, by simp only [hits], hnt, ?_, ?_⟩⟩
        · simp only; rw [hx]
        · simp only; rw [hx]

theorem finish_x (k : Ksp V) (s : St V) : (finish k s).x = s.x ∧ (finish k s).its = s.its := by
  unfold finish
  split
  · cases k.normtype with
    | none => simp only; split <;> exact ⟨rfl, rfl⟩
    | preconditioned => simp only; split <;> exact ⟨rfl, rfl⟩
    | unpreconditioned => simp only; split <;> exact ⟨rfl, rfl⟩
  · exact ⟨rfl, rfl⟩

theorem start_inv (k : Ksp V) (x0 : V) :
    SInv k x0 0 ⟨x0, 0, init k.alpha k.beta (k.estbias * k.emax), 0, 0, 0⟩ := by
  refine ⟨init_inv _ _ _, ?_, ?_⟩
  · rw [corP_zero, map_zero, LinearMap.zero_apply, add_zero]
  · rw [corP_zero, sub_zero, map_zero, LinearMap.zero_apply]

/-- C85: every iterate's error is the least-squares residual polynomial of the preconditioned operator
applied to the initial error; the solver returns the first iterate that passes the convergence test,
or the one after `max_it` updates.  (For `alpha + beta = -1` see `C85_wrong_weight`.) -/
theorem C85_iterates (k : Ksp V) (x0 : V) (hα : -1 < k.alpha) (hβ : -1 < k.beta)
    (hne : k.alpha + k.beta ≠ -1) (he : 0 < k.estbias * k.emax) :
    ∃ (R : ℕ → ℝ[X]) (xs : ℕ → V),
      (∀ n, Spec.IsLeastSquares k.alpha k.beta (k.estbias * k.emax) n (R n)) ∧ xs 0 = x0 ∧
      (∀ n xstar, k.A xstar = k.b → xs n - xstar = aeval (k.pc ∘ₗ k.A) (R n) (x0 - xstar)) ∧
      (∀ n, k.pc (k.b - k.A (xs n)) = aeval (k.pc ∘ₗ k.A) (R n) (k.pc (k.b - k.A x0))) ∧
      ∃ m ≤ k.maxIt, (solve k x0).x = xs m ∧
        (k.normtype = .none → m = k.maxIt) ∧
        (∀ j < m, k.normtype ≠ .none → k.converged j (resNorm k (k.b - k.A (xs j))) = 0) ∧
        (m < k.maxIt → k.converged m (resNorm k (k.b - k.A (xs m))) ≠ 0) := by
  refine ⟨resP k.alpha k.beta (k.estbias * k.emax), iter k x0, fun n => hp_optimal _ _ _ hα hβ he n,
    ?_, fun n xstar h => err_iter k x0 xstar h n, fun n => pre_res k x0 n, ?_⟩
  · unfold iter; rw [corP_zero, map_zero, LinearMap.zero_apply, add_zero]
  · obtain ⟨m, _, h2, h3, h4, h5, h6⟩ := loop_spec k x0 hα hβ hne k.maxIt 0 _ (start_inv k x0) rfl rfl
    rw [zero_add] at h2 h5 h6
    refine ⟨m, h2, ?_, fun hn => ?_, fun j hj hn => h4 j (Nat.zero_le j) hj hn, fun hm => ?_⟩
    · unfold solve; rw [(finish_x _ _).1, h3]
    · by_contra hmm
      by_cases hr : (loop k k.maxIt 0 ⟨x0, 0, init k.alpha k.beta (k.estbias * k.emax), 0, 0, 0⟩).reason = 0
      · exact hmm (h5 hr).1
      · exact (h6 hr).2.2.1 hn
    · by_cases hr : (loop k k.maxIt 0 ⟨x0, 0, init k.alpha k.beta (k.estbias * k.emax), 0, 0, 0⟩).reason = 0
      · exact absurd (h5 hr).1 (by omega)
      · have := h6 hr
        rw [← this.2.2.2.2]; exact hr

/-- C85: the solver always reports a reason, never makes more than `max_it` iterations, and the
reported residual norm is the one of the returned vector; without a norm it reports success, and a
failure report means that the test was not passed by the returned vector. -/
theorem C85_report (k : Ksp V) (x0 : V) (hα : -1 < k.alpha) (hβ : -1 < k.beta)
    (hne : k.alpha + k.beta ≠ -1) :
    (solve k x0).reason ≠ 0 ∧ (solve k x0).its ≤ k.maxIt ∧
      (k.normtype = .none → (solve k x0).reason = convergedIts ∧ (solve k x0).its = k.maxIt) ∧
      (k.normtype ≠ .none →
        (solve k x0).rnorm = resNorm k (k.b - k.A (solve k x0).x) ∧
        (((∃ j ≤ k.maxIt, (solve k x0).reason = k.converged j (solve k x0).rnorm))
          ∨ ((solve k x0).reason = divergedIts ∧ (solve k x0).its = k.maxIt
            ∧ k.converged k.maxIt (solve k x0).rnorm = 0))) := by
  obtain ⟨m, _, h2, h3, h4, h5, h6⟩ := loop_spec k x0 hα hβ hne k.maxIt 0 _ (start_inv k x0) rfl rfl
  rw [zero_add] at h2 h5 h6
  unfold solve
  set s := loop k k.maxIt 0 ⟨x0, 0, init k.alpha k.beta (k.estbias * k.emax), 0, 0, 0⟩ with hs
  by_cases hr : s.reason = 0
  · obtain ⟨g1, g2⟩ := h5 hr
    have hits : s.its ≥ k.maxIt := by omega
    cases hn : k.normtype with
    | none =>
      have hf : finish k s = { s with reason := convergedIts } := by
        unfold finish; rw [if_pos hr, hn]; simp only; rw [if_pos hits]
      rw [hf]
      refine ⟨by show convergedIts ≠ 0; decide, by show s.its ≤ _; omega,
        fun _ => ⟨rfl, by show s.its = _; omega⟩, fun h => absurd rfl h⟩
    | preconditioned =>
      have hf : finish k s = { s with
          rnorm := resNorm k (k.b - k.A s.x),
          reason := if k.converged k.maxIt (resNorm k (k.b - k.A s.x)) = 0 then divergedIts
            else k.converged k.maxIt (resNorm k (k.b - k.A s.x)) } := by
        unfold finish; rw [if_pos hr, hn]; simp only; rw [if_pos hits]
      rw [hf]
      refine ⟨?_, by show s.its ≤ _; omega, fun h => (by cases h), fun _ => ⟨rfl, ?_⟩⟩
      · simp only; split
        · decide
        · assumption
      · simp only
        split
        · right; exact ⟨rfl, by omega, by assumption⟩
        · left; exact ⟨k.maxIt, le_refl _, rfl⟩
    | unpreconditioned =>
      have hf : finish k s = { s with
          rnorm := resNorm k (k.b - k.A s.x),
          reason := if k.converged k.maxIt (resNorm k (k.b - k.A s.x)) = 0 then divergedIts
            else k.converged k.maxIt (resNorm k (k.b - k.A s.x)) } := by
        unfold finish; rw [if_pos hr, hn]; simp only; rw [if_pos hits]
      rw [hf]
      refine ⟨?_, by show s.its ≤ _; omega, fun h => (by cases h), fun _ => ⟨rfl, ?_⟩⟩
      · simp only; split
        · decide
        · assumption
      · simp only
        split
        · right; exact ⟨rfl, by omega, by assumption⟩
        · left; exact ⟨k.maxIt, le_refl _, rfl⟩
  · obtain ⟨g1, g2, g3, g4, g5⟩ := h6 hr
    have hf : finish k s = s := by unfold finish; rw [if_neg hr]
    rw [hf]
    refine ⟨hr, by omega, fun h => absurd h g3, fun _ => ⟨by rw [h3]; exact g4, Or.inl ⟨m, by omega, ?_⟩⟩⟩
    rw [g4]; exact g5

theorem ls_unique (α β e : ℝ) (hα : -1 < α) (hβ : -1 < β) (he : 0 < e) (n : ℕ) (R : ℝ[X])
    (h : Spec.IsLeastSquares α β e n R) : R = resP α β e n := by
  have h' := hp_optimal α β e hα hβ he n
  by_contra hne
  have h1 := h.2.2 _ h'.1 h'.2.1 (Ne.symm hne)
  have h2 := h'.2.2 R h.1 h.2.1 hne
  exact absurd h1 (not_lt.2 h2.le)

/-- C85: with `alpha ≤ beta + 1` (the defaults are `alpha = beta = 0`) no eigencomponent of the error is
amplified as long as the eigenvalues of the preconditioned operator lie in `[0, estbias * emax]`; those
strictly inside are strictly reduced. -/
theorem C85_no_amplification (α β e : ℝ) (hα : -1 < α) (hβ : -1 < β) (hab : α ≤ β + 1) (he : 0 < e)
    (n : ℕ) (R : ℝ[X]) (h : Spec.IsLeastSquares α β e n R) (l : ℝ) (h0 : 0 ≤ l) (h1 : l ≤ e) :
    |R.eval l| ≤ 1 ∧ (0 < n → 0 < l → l < e → |R.eval l| < 1) := by
  rw [ls_unique α β e hα hβ he n R h]
  unfold resP
  rw [eval_scale]
  refine ⟨hp_bounded α (β + 1) hα hab (by linarith) (by linarith) n _ (div_nonneg h0 he.le)
    ((div_le_one he).2 h1), fun hn g0 g1 => ?_⟩
  exact hp_strict α (β + 1) hα hab (by linarith) (by linarith) n hn _ (div_pos g0 he)
    ((div_lt_one he).2 g1)

theorem aeval_eigen (T : V →ₗ[ℝ] V) (v : V) (l : ℝ) (h : T v = l • v) (p : ℝ[X]) :
    aeval T p v = p.eval l • v := by
  induction p using Polynomial.induction_on' with
  | add p q hp hq => rw [map_add, LinearMap.add_apply, hp, hq, eval_add, add_smul]
  | monomial n a =>
    have hpow : ∀ n : ℕ, (T ^ n) v = l ^ n • v := by
      intro n
      induction n with
      | zero => simp
      | succ n ih =>
        rw [pow_succ', Module.End.mul_apply, ih, map_smul, h, smul_smul, pow_succ]
    rw [aeval_monomial, Module.End.mul_apply, hpow, Module.algebraMap_end_apply, smul_smul,
      eval_monomial]

/-- C85: used as a smoother (no norm, `max_it` sweeps) the method never amplifies a component of the
error, and strictly reduces every component inside the interval. -/
theorem C85_smoother (k : Ksp V) (x0 xstar : V) (hα : -1 < k.alpha) (hβ : -1 < k.beta)
    (hne : k.alpha + k.beta ≠ -1) (hab : k.alpha ≤ k.beta + 1) (he : 0 < k.estbias * k.emax)
    (hx : k.A xstar = k.b) (N : ℕ) (v : Fin N → V) (l : Fin N → ℝ)
    (hv : ∀ i, k.pc (k.A (v i)) = l i • v i) (h0 : ∀ i, 0 ≤ l i) (h1 : ∀ i, l i ≤ k.estbias * k.emax)
    (hsum : x0 - xstar = ∑ i, v i) :
    ∃ c : Fin N → ℝ, (solve k x0).x - xstar = ∑ i, c i • v i ∧ (∀ i, |c i| ≤ 1) ∧
      (k.normtype = .none → 0 < k.maxIt → ∀ i, 0 < l i → l i < k.estbias * k.emax → |c i| < 1) := by
  obtain ⟨R, xs, hR, _, herr, _, m, _, hm, hmn, _⟩ := C85_iterates k x0 hα hβ hne he
  refine ⟨fun i => (R m).eval (l i), ?_, fun i => ?_, fun hn hmax i g0 g1 => ?_⟩
  · rw [hm, herr m xstar hx, hsum, map_sum]
    exact Finset.sum_congr rfl fun i _ => aeval_eigen _ _ _ (hv i) _
  · exact (C85_no_amplification _ _ _ hα hβ hab he m _ (hR m) _ (h0 i) (h1 i)).1
  · exact (C85_no_amplification _ _ _ hα hβ hab he m _ (hR m) _ (h0 i) (h1 i)).2
      (by rw [hmn hn]; exact hmax) g0 g1

/-- A solver for the `1 × 1` system `x = 0` with one sweep. -/
noncomputable def demo (α β : ℝ) : Ksp ℝ :=
  ⟨α, β, 2, 1, LinearMap.id, LinearMap.id, 0, 1, .none, fun v => |v|, fun _ _ => 0⟩

/-- C85 (finding): for `alpha + beta = -1`, e.g. the Chebyshev weight `alpha = beta = -1/2`, the test
`fabs(a) != fabs(b)` drops the first recurrence coefficient, and the first iterate is not the
least-squares one. -/
theorem C85_wrong_weight : ∃ (k : Ksp ℝ) (x0 : ℝ), k.alpha = -1/2 ∧ k.beta = -1/2 ∧
    k.normtype = .none ∧ k.maxIt = 1 ∧ 0 < k.estbias * k.emax ∧ k.A 0 = k.b ∧
    ∀ R : ℝ[X], Spec.IsLeastSquares k.alpha k.beta (k.estbias * k.emax) 1 R →
      (solve k x0).x - 0 ≠ aeval (k.pc ∘ₗ k.A) R (x0 - 0) := by
  refine ⟨demo (-1/2) (-1/2), 1, rfl, rfl, rfl, rfl, by norm_num [demo], by simp [demo], ?_⟩
  intro R hR
  have hu := ls_unique _ _ _ (by norm_num [demo]) (by norm_num [demo]) (by norm_num [demo]) 1 R hR
  have hsol : (solve (demo (-1/2) (-1/2)) 1).x = 0 := by
    unfold solve
    rw [(finish_x _ _).1]
    have e1 : |(-1/2 : ℝ)| = 1/2 := by rw [abs_of_neg (by norm_num)]; norm_num
    have e2 : |(-1/2 + 1 : ℝ)| = 1/2 := by rw [abs_of_pos (by norm_num)]; norm_num
    simp only [demo, loop, update, next, init, psiJ, phiJ, xiJ]
    rw [e1, e2]
    norm_num
  rw [hsol, aeval_eigen _ _ (1:ℝ) (by simp [demo]), hu]
  unfold resP
  rw [eval_scale]
  have h1 := congrArg (eval (1/2)) (hp_one (-1/2) (-1/2 + 1) (by norm_num))
  simp only [eval_mul, eval_C, eval_add, eval_X] at h1
  simp only [demo, one_mul, sub_zero, smul_eq_mul, mul_one]
  intro h
  rw [← h] at h1
  norm_num at h1

/-- The hypotheses are met by the default parameters. -/
example : (-1 : ℝ) < (demo 0 0).alpha ∧ (-1 : ℝ) < (demo 0 0).beta ∧
    (demo 0 0).alpha + (demo 0 0).beta ≠ -1 ∧ (demo 0 0).alpha ≤ (demo 0 0).beta + 1 ∧
    0 < (demo 0 0).estbias * (demo 0 0).emax := by
  norm_num [demo]

/-- With the default weight the first residual polynomial is `1 - 3λ/(2e)`: one sweep turns the error
`1` into `1/4` for `λ = 1`, `e = 2`. -/
example : (solve (demo 0 0) 1).x = 1/4 := by
  unfold solve
  rw [(finish_x _ _).1]
  simp only [demo, loop, update, next, init, psiJ, phiJ, xiJ]
  norm_num

end Tandem.LSPoly
