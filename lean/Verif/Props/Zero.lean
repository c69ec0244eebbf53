import Verif.Lemmas.Zero
import Mathlib.Data.Rat.Floor
import Mathlib.Topology.Order.Compact
import Mathlib.Topology.Instances.Real.Lemmas
/-! # Property C11: `zeroIn` -/
namespace Tandem.Zero

variable {K : Type} [Field K] [LinearOrder K] [IsStrictOrderedRing K]

/-- C11 (result): whatever the function, if `zeroIn(a, b, F, tol)` returns `x` then `x` lies between
`a` and `b` and either `F(x) = 0`, or some point `c` between `a` and `b` brackets a sign change with
`x`, is at distance at most `tol + 4 eps |x|`, and `x` is the better approximation. -/
theorem C11_result (F : K → Option K) (eps tol : K) (heps : 0 ≤ eps) (htol : 0 ≤ tol) (fuel : Nat)
    (a b x : K) (h : zeroIn F eps tol fuel a b = .root x) :
    (min a b ≤ x ∧ x ≤ max a b) ∧
      (F x = some 0 ∨ ∃ c Fx Fc, (min a b ≤ c ∧ c ≤ max a b) ∧ F x = some Fx ∧ F c = some Fc ∧
        Fx * Fc < 0 ∧ |Fx| ≤ |Fc| ∧ |x - c| ≤ tol + 4 * eps * |x|) := by
  unfold zeroIn at h
  split at h
  · cases h
  · rename_i Fa hFa
    split at h
    · rename_i h0
      cases h
      exact ⟨⟨min_le_left _ _, le_max_left _ _⟩, Or.inl (by rw [hFa, h0])⟩
    · rename_i na
      split at h
      · cases h
      · rename_i Fb hFb
        split at h
        · cases h
        · rename_i hs
          exact loop_good F eps tol _ _ heps htol fuel _ (init_inv F a b Fa Fb hFa hFb na hs) x h

/-- C11 (termination): if the tolerance `2 eps |x| + tol/2` is bounded below by `δ` on the interval
(e.g. `δ = tol/2`), the loop ends after fewer than `2 |a - b| / δ` passes. -/
theorem C11_terminates (F : K → Option K) (eps tol δ : K) (heps : 0 ≤ eps) (htol : 0 ≤ tol)
    (a b : K) (hδ : ∀ x, min a b ≤ x → x ≤ max a b → δ ≤ 2 * eps * |x| + tol / 2)
    (fuel : Nat) (hf : |a - b| < fuel * (δ / 2)) :
    zeroIn F eps tol fuel a b ≠ .outOfFuel := by
  unfold zeroIn
  split
  · simp
  · rename_i Fa hFa
    split
    · simp
    · rename_i na
      split
      · simp
      · rename_i Fb hFb
        split
        · simp
        · rename_i hs
          apply loop_terminates F eps tol _ _ δ heps htol (fun x hx => hδ x hx.1 hx.2) fuel _
            (init_inv F a b Fa Fb hFa hFb na hs)
          rw [init_width]; exact hf

/-- C11 (termination, no absolute tolerance): the tolerance `2 eps |x|` vanishes at the origin; still, if around the origin `F` keeps
one sign and stays at least `m` away from zero, and no value exceeds `M`, every pass shrinks the bracket by a fixed amount. -/
theorem C11_terminates_off_zero (F : K → Option K) (eps tol ρ m M : K) (heps : 0 ≤ eps) (htol : 0 ≤ tol) (hρ : 0 < ρ) (hm : 0 < m)
    (a b : K)
    (hnear : (∀ x y, min a b ≤ x → x ≤ max a b → |x| < ρ → F x = some y → m ≤ y) ∨
      (∀ x y, min a b ≤ x → x ≤ max a b → |x| < ρ → F x = some y → y ≤ -m))
    (hM : ∀ x y, min a b ≤ x → x ≤ max a b → F x = some y → |y| ≤ M)
    (fuel : Nat) (hf : |a - b| < fuel * min (m * m / (4 * M * M) * (ρ / 2)) (eps * (ρ / 2))) :
    zeroIn F eps tol fuel a b ≠ .outOfFuel := by
  unfold zeroIn
  split
  · simp
  · rename_i Fa hFa
    split
    · simp
    · rename_i na
      split
      · simp
      · rename_i Fb hFb
        split
        · simp
        · rename_i hs
          apply loop_terminates_near F eps tol _ _ ρ m M _ heps htol hρ hm ?_ (fun x y hx => hM x y hx.1 hx.2) rfl fuel _
            (init_inv F a b Fa Fb hFa hFb na hs) (Or.inl rfl)
          · rw [init_width]; exact hf
          · rcases hnear with h | h
            · exact Or.inl (fun x y hx => h x y hx.1 hx.2)
            · exact Or.inr (fun x y hx => h x y hx.1 hx.2)

/-- If `F` is finite on the interval, no exception is thrown in the loop; with opposite signs at its ends none is thrown at all. -/
theorem returns_of_terminates (F : K → Option K) (eps tol : K) (heps : 0 ≤ eps) (htol : 0 ≤ tol)
    (a b : K) (fuel : Nat) (hterm : zeroIn F eps tol fuel a b ≠ .outOfFuel)
    (hfin : ∀ x, min a b ≤ x → x ≤ max a b → F x ≠ none)
    (hsign : ∀ Fa Fb, F a = some Fa → F b = some Fb → Fa * Fb ≤ 0) :
    ∃ x, zeroIn F eps tol fuel a b = .root x := by
  have hnan : ∀ (n : Nat) (s : St K), Inv F (min a b) (max a b) s → loop F eps tol n s ≠ .nanInf ∧
      loop F eps tol n s ≠ .sameSign := by
    intro n
    induction n with
    | zero => intro s _; unfold loop; split <;> simp
    | succ n ih =>
      intro s hs
      unfold loop
      by_cases hb : s.Fb = 0
      · rw [if_pos hb]; simp
      · rw [if_neg hb]
        simp only
        split
        · simp
        · rename_i hc
          split
          · rename_i hN
            exfalso
            obtain ⟨h2, hw⟩ := inv2_of_inv hs hb
            have ht : 0 ≤ tol1 eps tol (swapBest (reanchor s)) := by unfold tol1; positivity
            obtain ⟨u, hu, u0, u1, _⟩ := newB_between eps tol (swapBest (reanchor s)) ht
              (by by_contra hcc; exact hc (Or.inl (not_lt.1 hcc)))
            have hh := hull_between h2.hb h2.hc u0 (by linarith)
            rw [← hu] at hh
            exact hfin _ hh.1 hh.2 hN
          · rename_i Fb' hF
            exact ih _ (pass_inv F eps tol _ _ s hs heps htol hb hc Fb' hF).1
  cases hz : zeroIn F eps tol fuel a b with
  | root x => exact ⟨x, rfl⟩
  | outOfFuel => exact absurd hz hterm
  | nanInf =>
    exfalso
    unfold zeroIn at hz
    split at hz
    · rename_i h
      exact hfin a (min_le_left _ _) (le_max_left _ _) h
    · rename_i Fa hFa
      split at hz
      · cases hz
      · rename_i na
        split at hz
        · rename_i h
          exact hfin b (min_le_right _ _) (le_max_right _ _) h
        · rename_i Fb hFb
          split at hz
          · cases hz
          · rename_i hs
            exact (hnan fuel _ (init_inv F a b Fa Fb hFa hFb na hs)).1 hz
  | sameSign =>
    exfalso
    unfold zeroIn at hz
    split at hz
    · cases hz
    · rename_i Fa hFa
      split at hz
      · cases hz
      · rename_i na
        split at hz
        · cases hz
        · rename_i Fb hFb
          split at hz
          · rename_i hs
            have h1 := (copysign_eq_iff Fa Fb na hs.1).1 hs.2
            have h2 := hsign Fa Fb hFa hFb
            linarith
          · rename_i hs
            exact (hnan fuel _ (init_inv F a b Fa Fb hFa hFb na hs)).2 hz

/-- C11 (success): if `F` is finite on the interval and has opposite signs (or a zero) at its ends,
`zeroIn` with enough passes does return a root approximation. -/
theorem C11_succeeds (F : K → Option K) (eps tol δ : K) (heps : 0 ≤ eps) (htol : 0 ≤ tol)
    (a b : K) (hδ : ∀ x, min a b ≤ x → x ≤ max a b → δ ≤ 2 * eps * |x| + tol / 2)
    (fuel : Nat) (hf : |a - b| < fuel * (δ / 2))
    (hfin : ∀ x, min a b ≤ x → x ≤ max a b → F x ≠ none)
    (hsign : ∀ Fa Fb, F a = some Fa → F b = some Fb → Fa * Fb ≤ 0) :
    ∃ x, zeroIn F eps tol fuel a b = .root x := by
  exact returns_of_terminates F eps tol heps htol a b fuel (C11_terminates F eps tol δ heps htol a b hδ fuel hf) hfin hsign

/-- C11 (success, real functions): for every continuous real function with opposite signs (or a zero) at the ends, `zeroIn` with a
positive machine epsilon returns a root approximation after finitely many passes, if the tolerance is positive or the function
is not zero at the origin (or the origin is not in the interval). -/
theorem C11_succeeds_continuous (f : ℝ → ℝ) (eps tol a b : ℝ) (hf : ContinuousOn f (Set.Icc (min a b) (max a b))) (heps : 0 < eps)
    (htol : 0 ≤ tol) (h : 0 < tol ∨ (min a b ≤ 0 → 0 ≤ max a b → f 0 ≠ 0)) (hsign : f a * f b ≤ 0) :
    ∃ n, ∀ fuel, n ≤ fuel → ∃ x, zeroIn (fun x => some (f x)) eps tol fuel a b = .root x := by
  suffices hsuf : ∃ n : ℕ, ∀ fuel, n ≤ fuel → zeroIn (fun x => some (f x)) eps tol fuel a b ≠ .outOfFuel by
    obtain ⟨n, hn⟩ := hsuf
    refine ⟨n, fun fuel hfu => returns_of_terminates _ eps tol heps.le htol a b fuel (hn fuel hfu) (by simp) ?_⟩
    intro Fa Fb h1 h2
    cases h1; cases h2; exact hsign
  have hbig : ∀ D δ : ℝ, 0 < δ → ∃ n : ℕ, ∀ fuel : ℕ, n ≤ fuel → D < fuel * δ := by
    intro D δ hδ
    obtain ⟨n, hn⟩ := exists_nat_gt (D / δ)
    refine ⟨n, fun fuel hfu => ?_⟩
    rw [div_lt_iff₀ hδ] at hn
    have : (n : ℝ) ≤ fuel := by exact_mod_cast hfu
    exact lt_of_lt_of_le hn (mul_le_mul_of_nonneg_right this hδ.le)
  by_cases ht : 0 < tol
  · obtain ⟨n, hn⟩ := hbig |a - b| (tol / 2 / 2) (by positivity)
    exact ⟨n, fun fuel hfu => C11_terminates _ eps tol (tol / 2) heps.le htol a b
      (fun x _ _ => by have := abs_nonneg x; nlinarith) fuel (hn fuel hfu)⟩
  have h0 : min a b ≤ 0 → 0 ≤ max a b → f 0 ≠ 0 := h.resolve_left ht
  have hmm : min a b ≤ max a b := le_trans (min_le_left _ _) (le_max_left _ _)
  by_cases hin : min a b ≤ 0 ∧ 0 ≤ max a b
  · have hf0 := h0 hin.1 hin.2
    have hm : 0 < |f 0| / 2 := by have := abs_pos.2 hf0; positivity
    obtain ⟨ρ, hρ, hnear⟩ := Metric.continuousWithinAt_iff.1 (hf 0 hin) (|f 0| / 2) hm
    obtain ⟨x0, _, hx0⟩ := isCompact_Icc.exists_isMaxOn ⟨0, hin⟩ (continuous_abs.comp_continuousOn hf)
    have hM : ∀ x, min a b ≤ x → x ≤ max a b → |f x| ≤ |f x0| := fun x h1 h2 => hx0 ⟨h1, h2⟩
    have hM0 : 0 < |f x0| := lt_of_lt_of_le (abs_pos.2 hf0) (hM 0 hin.1 hin.2)
    obtain ⟨n, hn⟩ := hbig |a - b| (min (|f 0| / 2 * (|f 0| / 2) / (4 * |f x0| * |f x0|) * (ρ / 2)) (eps * (ρ / 2)))
      (lt_min (by positivity) (by positivity))
    refine ⟨n, fun fuel hfu => C11_terminates_off_zero _ eps tol ρ (|f 0| / 2) |f x0| heps.le htol hρ hm a b ?_ ?_ fuel (hn fuel hfu)⟩
    · have key : ∀ x, min a b ≤ x → x ≤ max a b → |x| < ρ → |f x - f 0| < |f 0| / 2 := by
        intro x h1 h2 h3
        have := hnear ⟨h1, h2⟩ (by rw [Real.dist_eq, sub_zero]; exact h3)
        rwa [Real.dist_eq] at this
      rcases lt_or_gt_of_ne hf0 with hs | hs
      · right
        intro x y h1 h2 h3 h4
        cases h4
        have := abs_lt.1 (key x h1 h2 h3)
        rw [abs_of_neg hs] at *
        linarith [this.2]
      · left
        intro x y h1 h2 h3 h4
        cases h4
        have := abs_lt.1 (key x h1 h2 h3)
        rw [abs_of_pos hs] at *
        linarith [this.1]
    · intro x y h1 h2 h4
      cases h4
      exact hM x h1 h2
  · -- the origin is outside
    have hd : ∃ d, 0 < d ∧ ∀ x, min a b ≤ x → x ≤ max a b → d ≤ |x| := by
      by_cases h1 : min a b ≤ 0
      · have h2 : max a b < 0 := by by_contra hc; exact hin ⟨h1, not_lt.1 hc⟩
        exact ⟨-max a b, by linarith, fun x _ h3 => by rw [abs_of_neg (by linarith)]; linarith⟩
      · push Not at h1
        exact ⟨min a b, h1, fun x h3 _ => by rw [abs_of_pos (by linarith)]; exact h3⟩
    obtain ⟨d, hd0, hd1⟩ := hd
    obtain ⟨n, hn⟩ := hbig |a - b| (2 * eps * d / 2) (by positivity)
    refine ⟨n, fun fuel hfu => C11_terminates _ eps tol (2 * eps * d) heps.le htol a b (fun x h1 h2 => ?_) fuel (hn fuel hfu)⟩
    have := mul_le_mul_of_nonneg_left (hd1 x h1 h2) (by positivity : 0 ≤ 2 * eps)
    linarith

/-- C11 (finding): the condition on the origin cannot be dropped.  Without an absolute tolerance, a function whose only sign
change is at the origin and that is nowhere zero keeps `zeroIn` looping for ever (in exact arithmetic), although its values at the
ends of the interval have opposite signs. -/
theorem C11_zero_tolerance_loops (F : K → Option K) (eps a b : K) (heps : 0 ≤ eps) (heps4 : eps < 1 / 4) (ha : a < 0) (hb : 0 < b)
    (hneg : ∀ x, a ≤ x → x ≤ 0 → ∃ y, F x = some y ∧ y < 0) (hpos : ∀ x, 0 < x → x ≤ b → ∃ y, F x = some y ∧ 0 < y)
    (fuel : Nat) : zeroIn F eps 0 fuel a b = .outOfFuel := by
  have hmin : min a b = a := min_eq_left (by linarith)
  have hmax : max a b = b := max_eq_right (by linarith)
  have hval : ∀ x y, Hull a b x → F x = some y → (x ≤ 0 → y < 0) ∧ (0 < x → 0 < y) := by
    intro x y hx hy
    constructor
    · intro h; obtain ⟨z, hz, hz'⟩ := hneg x hx.1 h; rw [hz] at hy; cases hy; exact hz'
    · intro h; obtain ⟨z, hz, hz'⟩ := hpos x h hx.2; rw [hz] at hy; cases hy; exact hz'
  have hsome : ∀ x, Hull a b x → ∃ y, F x = some y ∧ y ≠ 0 := by
    intro x hx
    rcases le_or_gt x 0 with h | h
    · obtain ⟨y, h1, h2⟩ := hneg x hx.1 h; exact ⟨y, h1, h2.ne⟩
    · obtain ⟨y, h1, h2⟩ := hpos x h hx.2; exact ⟨y, h1, h2.ne'⟩
  have hloop : ∀ (n : Nat) (s : St K), Inv F a b s → s.Fb ≠ 0 → loop F eps 0 n s = .outOfFuel := by
    intro n
    induction n with
    | zero => intro s _ h0; unfold loop; rw [if_neg h0]
    | succ n ih =>
      intro s hs h0
      unfold loop
      rw [if_neg h0]
      simp only
      obtain ⟨h2, hw⟩ := inv2_of_inv hs h0
      set t := swapBest (reanchor s) with ht
      have hopp := h2.opp
      have hvb := hval _ _ h2.hb h2.hFb
      have hvc := hval _ _ h2.hc h2.hFc
      have hlt : tol1 eps 0 t < |xm t| := by
        unfold tol1 xm
        rw [abs_div, abs_of_pos (by norm_num : (0:K) < 2)]
        rcases le_or_gt t.b 0 with hb1 | hb1 <;> rcases le_or_gt t.c 0 with hc1 | hc1
        · have := mul_pos_of_neg_of_neg (hvb.1 hb1) (hvc.1 hc1); linarith
        · rw [abs_of_pos (by linarith : 0 < t.c - t.b), abs_of_nonpos hb1]
          nlinarith
        · rw [abs_of_neg (by linarith : t.c - t.b < 0), abs_of_pos hb1]
          nlinarith
        · have := mul_pos (hvb.2 hb1) (hvc.2 hc1); linarith
      have ht0 : 0 ≤ tol1 eps 0 t := by unfold tol1; positivity
      have hc : ¬ (|xm t| ≤ tol1 eps 0 t ∨ t.Fb = 0) := by
        rintro (h | h)
        · linarith
        · exact h2.nb h
      rw [if_neg hc]
      obtain ⟨u, hu, u0, u1, _⟩ := newB_between eps 0 t ht0 hlt
      have hh := hull_between h2.hb h2.hc u0 (by linarith)
      rw [← hu] at hh
      obtain ⟨y, hy, hy0⟩ := hsome _ hh
      rw [hy]
      exact ih _ (pass_inv F eps 0 a b s hs heps le_rfl h0 hc y hy).1 hy0
  obtain ⟨ya, hya, hya'⟩ := hneg a le_rfl ha.le
  obtain ⟨yb, hyb, hyb'⟩ := hpos b hb le_rfl
  unfold zeroIn
  rw [hya]
  simp only
  rw [if_neg hya'.ne, hyb]
  simp only
  have hns : ¬ (yb ≠ 0 ∧ copysign ya yb = ya) := by
    rintro ⟨h1, h2⟩
    have := (copysign_eq_iff ya yb hya'.ne h1).1 h2
    have := mul_neg_of_neg_of_pos hya' hyb'
    linarith
  rw [if_neg hns]
  have hi := init_inv F a b ya yb hya hyb hya'.ne hns
  rw [hmin, hmax] at hi
  exact hloop fuel _ hi hyb'.ne'

/-- The bracket `[-1, 1]` of a step function. -/
example : zeroIn (fun x : ℚ => some (if x ≤ 0 then -1 else 1)) (1 / 2 ^ 52) 0 1000000 (-1) 1 = .outOfFuel :=
  C11_zero_tolerance_loops _ _ _ _ (by norm_num) (by norm_num) (by norm_num) (by norm_num)
    (fun x _ h => ⟨-1, by simp [h], by norm_num⟩) (fun x h _ => ⟨1, by simp [h], by norm_num⟩) _

/-- A bracket over the origin with zero tolerance: `x^3 + x - 1` on `[-1, 2]`. -/
example : ∃ n, ∀ fuel, n ≤ fuel → ∃ x, zeroIn (fun x : ℝ => some (x ^ 3 + x - 1)) (1 / 2 ^ 52) 0 fuel (-1) 2 = .root x :=
  C11_succeeds_continuous _ _ _ _ _ (by fun_prop) (by norm_num) le_rfl (Or.inr (by norm_num)) (by norm_num)

/-- C11 (rejection): values of equal strict sign at the end points are rejected with an exception;
a zero at `a` is returned at once; otherwise a zero at `b` is returned. -/
theorem C11_endpoints (F : K → Option K) (eps tol : K) (fuel : Nat) (a b Fa Fb : K)
    (hFa : F a = some Fa) (hFb : F b = some Fb) :
    (0 < Fa * Fb → zeroIn F eps tol fuel a b = .sameSign) ∧
    (Fa = 0 → zeroIn F eps tol fuel a b = .root a) ∧
    (Fa ≠ 0 → Fb = 0 → zeroIn F eps tol fuel a b = .root b) := by
  refine ⟨?_, ?_, ?_⟩
  · intro h
    have na : Fa ≠ 0 := by rintro rfl; simp at h
    have nb : Fb ≠ 0 := by rintro rfl; simp at h
    simp only [zeroIn, hFa, hFb, if_neg na]
    rw [if_pos ⟨nb, (copysign_eq_iff Fa Fb na nb).2 h⟩]
  · intro h; simp [zeroIn, hFa, h]
  · intro na h
    simp only [zeroIn, hFa, hFb, if_neg na]
    rw [if_neg (fun hh => hh.1 h)]
    unfold loop
    simp [h]

/-- Non-vacuity: `F(x) = x^3 - 2` on `[0, 2]` over the rationals meets all hypotheses of
`C11_succeeds` (and hence of `C11_terminates` and, through its result, `C11_result`). -/
example : ∃ x : ℚ, zeroIn (fun x : ℚ => some (x ^ 3 - 2)) (1 / 2 ^ 52) (1 / 100) 1000 0 2 = .root x :=
  C11_succeeds _ _ _ (1 / 200) (by norm_num) (by norm_num) 0 2
    (fun x _ _ => by have := abs_nonneg x; linarith) 1000 (by norm_num) (by simp)
    (by intro Fa Fb h1 h2; simp at h1 h2; subst h1; subst h2; norm_num)

end Tandem.Zero
