import Verif.Props.Quadrature
import Verif.Lemmas.QuadPerturb
import Mathlib.Analysis.Real.Pi.Bounds
import Mathlib.Analysis.Complex.Exponential
/-! # Certified bounds for the Newton iteration of the Gauss-Jacobi rule -/
namespace Tandem.NewtonCert
open Finset Functions Quadrature

def addL : List ℚ → List ℚ → List ℚ
  | [], m => m
  | l, [] => l
  | a :: l, b :: m => (a + b) :: addL l m

def smulL (c : ℚ) : List ℚ → List ℚ
  | [] => []
  | a :: l => (c * a) :: smulL c l

def mulLin (α β : ℚ) (l : List ℚ) : List ℚ := addL (smulL α l) (0 :: smulL β l)

def powLin (α β : ℚ) : ℕ → List ℚ → List ℚ
  | 0, l => l
  | k + 1, l => mulLin α β (powLin α β k l)

/-- Value of the polynomial with the given coefficients. -/
noncomputable def ev : List ℚ → ℝ → ℝ
  | [], _ => 0
  | c :: l, h => c + h * ev l h

def der : List ℚ → List ℚ
  | [] => []
  | _ :: l => addL l (0 :: der l)

def absEv : List ℚ → ℚ → ℚ
  | [], _ => 0
  | c :: l, t => |c| + t * absEv l t

theorem ev_addL (l m : List ℚ) (h : ℝ) : ev (addL l m) h = ev l h + ev m h := by
  induction l, m using addL.induct with
  | case1 m => simp [addL, ev]
  | case2 l hl => cases l <;> simp [addL, ev]
  | case3 a l b m ih => simp only [addL, ev, ih]; push_cast; ring

theorem ev_smulL (c : ℚ) (l : List ℚ) (h : ℝ) : ev (smulL c l) h = c * ev l h := by
  induction l with
  | nil => simp [smulL, ev]
  | cons a l ih => simp only [smulL, ev, ih]; push_cast; ring

theorem ev_mulLin (α β : ℚ) (l : List ℚ) (h : ℝ) : ev (mulLin α β l) h = (α + β * h) * ev l h := by
  simp only [mulLin, ev_addL, ev, ev_smulL]; push_cast; ring

theorem ev_powLin (α β : ℚ) (k : ℕ) (l : List ℚ) (h : ℝ) :
    ev (powLin α β k l) h = (α + β * h) ^ k * ev l h := by
  induction k with
  | zero => simp [powLin]
  | succ k ih => rw [powLin, ev_mulLin, ih, pow_succ]; ring

theorem ev_der (l : List ℚ) (h : ℝ) : HasDerivAt (ev l) (ev (der l) h) h := by
  induction l with
  | nil => exact (hasDerivAt_const h (0:ℝ)).congr_deriv (by simp [der, ev])
  | cons c l ih =>
    have := ((hasDerivAt_id' h).fun_mul ih).const_add (c : ℝ)
    refine (this.congr_deriv ?_)
    rw [der, ev_addL, ev]; push_cast; ring

theorem absEv_nonneg (l : List ℚ) (t : ℚ) (ht : 0 ≤ t) : 0 ≤ absEv l t := by
  induction l with
  | nil => simp [absEv]
  | cons c l ih => rw [absEv]; positivity

theorem abs_ev (l : List ℚ) (t : ℚ) (h : ℝ) (hh : |h| ≤ t) : |ev l h| ≤ absEv l t := by
  have ht : (0 : ℚ) ≤ t := by
    have := (abs_nonneg h).trans hh; exact_mod_cast this
  induction l with
  | nil => simp [ev, absEv]
  | cons c l ih =>
    rw [ev, absEv]
    refine (abs_add_le _ _).trans ?_
    rw [abs_mul]
    push_cast
    have := mul_le_mul hh ih (abs_nonneg _) (by exact_mod_cast ht)
    linarith

/-- The coefficients of `h ↦ P_n^{(a,b)}(r + h)`. -/
def jacSum (n a b : ℕ) (r : ℚ) : ℕ → List ℚ
  | 0 => []
  | s + 1 => addL (smulL (((n + a).choose (n - s) * (n + b).choose s : ℕ) : ℚ)
      (powLin ((r - 1) / 2) (1 / 2) s (powLin ((r + 1) / 2) (1 / 2) (n - s) [1]))) (jacSum n a b r s)

def jacT (n a b : ℕ) (r : ℚ) : List ℚ := jacSum n a b r (n + 1)

theorem ev_jacT (n a b : ℕ) (r : ℚ) (h : ℝ) : ev (jacT n a b r) h = Spec.jacobi n a b (r + h) := by
  unfold jacT Spec.jacobi
  generalize n + 1 = k
  induction k with
  | zero => simp [jacSum, ev]
  | succ k ih =>
    rw [jacSum, ev_addL, ih, ev_smulL, ev_powLin, ev_powLin, sum_range_succ, add_comm]
    simp only [ev]
    push_cast
    rw [show ((r : ℝ) - 1) / 2 + 1 / 2 * h = (r + h - 1) / 2 by ring,
      show ((r : ℝ) + 1) / 2 + 1 / 2 * h = (r + h + 1) / 2 by ring]
    ring

theorem deriv_jacT (n a b : ℕ) (r : ℚ) (h : ℝ) :
    ev (der (jacT n a b r)) h = jacobiPDerivative n a b (r + h) := by
  have h1 := ev_der (jacT n a b r) h
  have h2 : HasDerivAt (fun h : ℝ => (r : ℝ) + h) 1 h := by simpa using (hasDerivAt_id' h).const_add (r : ℝ)
  have h3 := (jacobi_deriv n a b (r + h)).comp h h2
  have e : ev (jacT n a b r) = (fun x => Spec.jacobi n a b x) ∘ fun h : ℝ => (r : ℝ) + h := by
    funext x; exact ev_jacT n a b r x
  rw [e] at h1
  rw [h1.unique h3, mul_one]

/-- Lower bound of the slope for `|h| ≤ T`. -/
def slope (c1 : ℚ) (rest : List ℚ) (T : ℚ) : ℚ :=
  |c1| - T * absEv rest T - T * absEv (der (c1 :: rest)) T

/-- The certificate that Newton's method for the polynomial `c` converges from every `|h| ≤ T` and stops
with `|h| ≤ F`, where the iteration is stopped if the value is at most `tol`. -/
def newtonOk (tol : ℚ) (c : List ℚ) (T F : ℚ) : Bool :=
  match c with
  | c0 :: c1 :: rest =>
    let B := slope c1 rest T
    decide (0 < T) && decide (0 < B) && decide (2 * (T * absEv (der (c1 :: rest)) T) ≤ B)
      && decide (2 * |c0| ≤ B * T) && decide (|c0| + tol ≤ B * F)
      && decide (2 * |c0| + B * T / 2 ^ 99 ≤ B * F)
  | _ => false

theorem newton_step (tol : ℚ) (c0 c1 : ℚ) (rest : List ℚ) (T F : ℚ)
    (hok : newtonOk tol (c0 :: c1 :: rest) T F = true) :
    (∀ h : ℝ, |h| ≤ T → |h - ev (c0 :: c1 :: rest) h / ev (der (c0 :: c1 :: rest)) h|
      ≤ |(c0:ℝ)| / slope c1 rest T + |h| / 2) ∧
    (∀ h : ℝ, |h| ≤ T → |ev (c0 :: c1 :: rest) h| ≤ tol → |h| ≤ F) := by
  simp only [newtonOk, Bool.and_eq_true, decide_eq_true_eq] at hok
  obtain ⟨⟨⟨⟨⟨hT, hB⟩, h2⟩, h3⟩, h4⟩, -⟩ := hok
  set B := slope c1 rest T with hBdef
  have hT' : (0 : ℝ) < T := by exact_mod_cast hT
  have hB' : (0 : ℝ) < B := by exact_mod_cast hB
  have key : ∀ h : ℝ, |h| ≤ T → |ev (der (c1 :: rest)) h| ≤ absEv (der (c1 :: rest)) T ∧
      (B : ℝ) + T * absEv (der (c1 :: rest)) T ≤ |ev (c1 :: rest) h| := by
    intro h hh
    refine ⟨abs_ev _ _ _ hh, ?_⟩
    have e1 := abs_ev rest T h hh
    have e2 : |(c1 : ℝ)| - |h * ev rest h| ≤ |ev (c1 :: rest) h| := by
      rw [ev]
      have := abs_sub_abs_le_abs_sub (c1 : ℝ) (-(h * ev rest h))
      rwa [abs_neg, sub_neg_eq_add] at this
    have e3 : |h * ev rest h| ≤ T * absEv rest T := by
      rw [abs_mul]; exact mul_le_mul hh e1 (abs_nonneg _) hT'.le
    have e4 : (B : ℝ) = |(c1 : ℝ)| - T * absEv rest T - T * absEv (der (c1 :: rest)) T := by
      rw [hBdef, slope]; push_cast; ring
    rw [e4]; linarith
  have hf : ∀ h : ℝ, ev (c0 :: c1 :: rest) h = c0 + h * ev (c1 :: rest) h := fun h => rfl
  have hd : ∀ h : ℝ, ev (der (c0 :: c1 :: rest)) h = ev (c1 :: rest) h + h * ev (der (c1 :: rest)) h := by
    intro h; rw [der, ev_addL]; simp [ev]
  have hB3 : ∀ h : ℝ, |h| ≤ T → (B : ℝ) ≤ |ev (der (c0 :: c1 :: rest)) h| := by
    intro h hh
    obtain ⟨k1, k2⟩ := key h hh
    rw [hd]
    have e2 : |ev (c1 :: rest) h| - |h * ev (der (c1 :: rest)) h| ≤ |ev (c1 :: rest) h + h * ev (der (c1 :: rest)) h| := by
      have := abs_sub_abs_le_abs_sub (ev (c1 :: rest) h) (-(h * ev (der (c1 :: rest)) h))
      rwa [abs_neg, sub_neg_eq_add] at this
    have e3 : |h * ev (der (c1 :: rest)) h| ≤ T * absEv (der (c1 :: rest)) T := by
      rw [abs_mul]; exact mul_le_mul hh k1 (abs_nonneg _) hT'.le
    linarith
  constructor
  · intro h hh
    obtain ⟨k1, k2⟩ := key h hh
    have hB4 := hB3 h hh
    have hne : ev (der (c0 :: c1 :: rest)) h ≠ 0 := by
      intro h0; rw [h0, abs_zero] at hB4; linarith
    have e1 : h - ev (c0 :: c1 :: rest) h / ev (der (c0 :: c1 :: rest)) h
        = (h * (h * ev (der (c1 :: rest)) h) - c0) / ev (der (c0 :: c1 :: rest)) h := by
      rw [eq_div_iff hne, sub_mul, div_mul_cancel₀ _ hne, hf, hd]; ring
    rw [e1, abs_div, div_le_iff₀ (hB'.trans_le hB4)]
    have e2 : |h * (h * ev (der (c1 :: rest)) h) - c0| ≤ |h| * (T * absEv (der (c1 :: rest)) T) + |(c0 : ℝ)| := by
      refine (abs_sub _ _).trans ?_
      rw [abs_mul, abs_mul]
      have := mul_le_mul_of_nonneg_left (mul_le_mul hh k1 (abs_nonneg _) hT'.le) (abs_nonneg h)
      linarith
    have h2' : 2 * ((T : ℝ) * absEv (der (c1 :: rest)) T) ≤ B := by exact_mod_cast h2
    have e3 : (|(c0:ℝ)| / B + |h| / 2) * B ≤ (|(c0:ℝ)| / B + |h| / 2) * |ev (der (c0 :: c1 :: rest)) h| := by
      refine mul_le_mul_of_nonneg_left hB4 (by positivity)
    have e4 : (|(c0:ℝ)| / B + |h| / 2) * B = |(c0:ℝ)| + |h| * (B / 2) := by
      field_simp
    have e5 : |h| * (T * absEv (der (c1 :: rest)) T) ≤ |h| * (B / 2) :=
      mul_le_mul_of_nonneg_left (by linarith) (abs_nonneg h)
    linarith
  · intro h hh hv
    obtain ⟨k1, k2⟩ := key h hh
    have h4' : |(c0 : ℝ)| + tol ≤ B * F := by exact_mod_cast h4
    rw [hf] at hv
    have e1 : |h * ev (c1 :: rest) h| ≤ |(c0:ℝ)| + tol := by
      have e : h * ev (c1 :: rest) h = (c0 + h * ev (c1 :: rest) h) - c0 := by ring
      rw [e]
      refine (abs_sub _ _).trans ?_
      linarith
    rw [abs_mul] at e1
    have e2 : |h| * B ≤ |h| * |ev (c1 :: rest) h| := by
      refine mul_le_mul_of_nonneg_left ?_ (abs_nonneg h)
      have : (0 : ℝ) ≤ T * absEv (der (c1 :: rest)) T := by
        have := absEv_nonneg (der (c1 :: rest)) T hT.le
        have : (0 : ℝ) ≤ absEv (der (c1 :: rest)) T := by exact_mod_cast this
        positivity
      linarith
    have : B * |h| ≤ B * F := by linarith
    exact le_of_mul_le_mul_left this hB'

/-- The iterates stay within the certified interval and shrink. -/
theorem newton_iter (tol : ℚ) (c : List ℚ) (T F : ℚ) (hok : newtonOk tol c T F = true) (h : ℝ) (hh : |h| ≤ T)
    (N : ℝ → ℝ) (hN : ∀ h, N h = h - ev c h / ev (der c) h) (k : ℕ) :
    |N^[k] h| ≤ T ∧ (|ev c (N^[k] h)| ≤ tol ∨ k = 99 → |N^[k] h| ≤ F) := by
  obtain ⟨c0, c1, rest, rfl⟩ : ∃ c0 c1 rest, c = c0 :: c1 :: rest := by
    match c, hok with
    | c0 :: c1 :: rest, _ => exact ⟨c0, c1, rest, rfl⟩
    | [_], h => simp [newtonOk] at h
    | [], h => simp [newtonOk] at h
  obtain ⟨s1, s2⟩ := newton_step tol c0 c1 rest T F hok
  simp only [newtonOk, Bool.and_eq_true, decide_eq_true_eq] at hok
  obtain ⟨⟨⟨⟨⟨hT, hB⟩, h2⟩, h3⟩, h4⟩, h5⟩ := hok
  set B := slope c1 rest T with hBdef
  have hT' : (0 : ℝ) < T := by exact_mod_cast hT
  have hB' : (0 : ℝ) < B := by exact_mod_cast hB
  have h3' : 2 * |(c0:ℝ)| ≤ B * T := by exact_mod_cast h3
  have hc0 : |(c0:ℝ)| / B ≤ T / 2 := by rw [div_le_iff₀ hB']; linarith
  have main : ∀ k, |N^[k] h| ≤ T ∧ |N^[k] h| ≤ 2 * (|(c0:ℝ)| / B) + T / 2 ^ k := by
    intro k
    induction k with
    | zero =>
      have : 0 ≤ |(c0:ℝ)| / B := by positivity
      simp only [Function.iterate_zero, id, pow_zero, div_one]
      exact ⟨hh, by linarith⟩
    | succ k ih =>
      rw [Function.iterate_succ_apply', hN]
      have := s1 _ ih.1
      rw [pow_succ]
      constructor
      · linarith [ih.1]
      · have e : (T : ℝ) / (2 ^ k * 2) = T / 2 ^ k / 2 := by rw [div_div]
        rw [e]; linarith [ih.2]
  refine ⟨(main k).1, fun hc => ?_⟩
  rcases hc with hc | rfl
  · exact s2 _ (main k).1 hc
  · have h5' : 2 * |(c0:ℝ)| + B * T / 2 ^ 99 ≤ B * F := by exact_mod_cast h5
    have e : 2 * (|(c0:ℝ)| / B) + T / 2 ^ 99 = (2 * |(c0:ℝ)| + B * T / 2 ^ 99) / B := by
      field_simp
    refine (main 99).2.trans ?_
    rw [e, div_le_iff₀ hB']; linarith

/-! ## The initial guess -/

def cosT (y : ℚ) : ℕ → ℚ
  | 0 => 0
  | k + 1 => cosT y k + (-1) ^ k * y ^ (2 * k) / ((2 * k).factorial : ℕ)

theorem cos_taylor (y : ℚ) (K : ℕ) (hy : |y| ≤ K) (hK : 0 < K) :
    |Real.cos y - cosT y K| ≤ ((|y| ^ (2 * K) / ((2 * K).factorial : ℕ) * 2 : ℚ) : ℝ) := by
  have hn : ‖(Complex.I * (y : ℂ))‖ = |(y : ℝ)| := by
    rw [norm_mul, Complex.norm_I, one_mul]
    have : (y : ℂ) = ((y : ℝ) : ℂ) := by push_cast; rfl
    rw [this, Complex.norm_real, Real.norm_eq_abs]
  have hy' : |(y : ℝ)| ≤ K := by exact_mod_cast hy
  have h := Complex.exp_bound' (x := Complex.I * (y : ℂ)) (n := 2 * K) (by
    rw [hn, div_le_iff₀ (by positivity)]
    push_cast
    linarith)
  rw [hn] at h
  have hre : (Complex.exp (Complex.I * (y : ℂ)) - ∑ m ∈ range (2 * K), (Complex.I * (y : ℂ)) ^ m / m.factorial).re
      = Real.cos y - cosT y K := by
    rw [Complex.sub_re]
    congr 1
    · rw [mul_comm, Complex.exp_mul_I]
      have : (y : ℂ) = ((y : ℝ) : ℂ) := by push_cast; rfl
      rw [this, ← Complex.ofReal_cos, ← Complex.ofReal_sin, Complex.add_re, Complex.ofReal_re,
        Complex.re_ofReal_mul, Complex.I_re]
      ring
    · clear hn hy' h hy hK
      induction K with
      | zero => simp [cosT]
      | succ K ih =>
        rw [show 2 * (K + 1) = 2 * K + 1 + 1 by ring, sum_range_succ, sum_range_succ, Complex.add_re, Complex.add_re, ih,
          cosT]
        have e0 : (y : ℂ) = ((y : ℝ) : ℂ) := by push_cast; rfl
        have e1 : ((Complex.I * (y : ℂ)) ^ (2 * K) / ((2 * K).factorial : ℂ)).re
            = (-1) ^ K * (y:ℝ) ^ (2 * K) / ((2 * K).factorial : ℕ) := by
          rw [mul_pow, pow_mul, Complex.I_sq, e0]
          have : ((-1 : ℂ) ^ K * ((y : ℝ) : ℂ) ^ (2 * K) / ((2 * K).factorial : ℂ))
              = (((-1) ^ K * (y:ℝ) ^ (2 * K) / ((2 * K).factorial : ℕ) : ℝ) : ℂ) := by push_cast; rfl
          rw [this, Complex.ofReal_re]
        have e2 : ((Complex.I * (y : ℂ)) ^ (2 * K + 1) / ((2 * K + 1).factorial : ℂ)).re = 0 := by
          rw [mul_pow, pow_succ, pow_mul, Complex.I_sq, e0]
          have : ((-1 : ℂ) ^ K * Complex.I * ((y : ℝ) : ℂ) ^ (2 * K + 1) / ((2 * K + 1).factorial : ℂ))
              = (((-1) ^ K * (y:ℝ) ^ (2 * K + 1) / ((2 * K + 1).factorial : ℕ) : ℝ) : ℂ) * Complex.I := by
            push_cast; ring
          rw [this, Complex.re_ofReal_mul, Complex.I_re, mul_zero]
        rw [e1, e2]; push_cast; ring
  rw [← hre]
  refine (Complex.abs_re_le_norm _).trans (h.trans (le_of_eq ?_))
  push_cast; rfl

/-- The guess lies within `T` of `r`. -/
def guessOk (n a i : ℕ) (r T : ℚ) : Bool :=
  let t : ℚ := (2 * a + 4 * i + 3) / (2 * (1 + a) + 4 * n)
  let y : ℚ := 314159265 / 100000000 * t
  decide (|y| ≤ 10) && decide (|cosT y 10 - r| + |y| ^ (2 * 10) / (2432902008176640000) * 2
    + t / 10000000 ≤ T)

theorem guess_close (n a i : ℕ) (r T : ℚ) (h : guessOk n a i r T = true) :
    |Real.cos (Real.pi * (a / 2 + (i + 1) - 1 / 4) / ((1 + a + (0 : ℕ)) / 2 + n)) - r| ≤ T := by
  simp only [guessOk, Bool.and_eq_true, decide_eq_true_eq] at h
  set t : ℚ := (2 * a + 4 * i + 3) / (2 * (1 + a) + 4 * n) with ht
  set y : ℚ := 314159265 / 100000000 * t with hy
  have ht0 : (0 : ℝ) ≤ t := by rw [ht]; push_cast; positivity
  have e : Real.pi * (a / 2 + (i + 1) - 1 / 4) / ((1 + a + (0 : ℕ)) / 2 + n) = Real.pi * t := by
    rw [ht]; push_cast; rw [mul_div_assoc]
    congr 1
    rw [div_eq_div_iff (by positivity) (by positivity)]
    ring
  rw [e]
  have h1 := cos_taylor y 10 h.1 (by norm_num)
  have h2 : |Real.cos (Real.pi * t) - Real.cos y| ≤ t / 10000000 := by
    refine (Real.abs_cos_sub_cos_le _ _).trans ?_
    have e2 : Real.pi * t - y = (Real.pi - 314159265 / 100000000) * t := by rw [hy]; push_cast; ring
    rw [e2, abs_mul, abs_of_nonneg ht0]
    have p1 := Real.pi_gt_d20
    have p2 := Real.pi_lt_d20
    have : |Real.pi - 314159265 / 100000000| ≤ 1 / 10000000 := by
      rw [abs_le]; constructor <;> norm_num at p1 p2 ⊢ <;> linarith
    calc _ ≤ 1 / 10000000 * (t : ℝ) := mul_le_mul_of_nonneg_right this ht0
      _ = _ := by ring
  have h3 : |(cosT y 10 : ℝ) - r| + ((|y| ^ (2 * 10) / (Nat.factorial (2 * 10) : ℕ) * 2 : ℚ) : ℝ) + t / 10000000 ≤ T := by
    have := h.2
    rw [show Nat.factorial (2 * 10) = 2432902008176640000 by decide +kernel]
    exact_mod_cast this
  have e4 : Real.cos (Real.pi * t) - r = (Real.cos (Real.pi * t) - Real.cos y) + (Real.cos y - cosT y 10) + (cosT y 10 - r) := by
    ring
  rw [e4]
  refine (abs_add_le _ _).trans ((add_le_add (abs_add_le _ _) le_rfl).trans ?_)
  linarith

end Tandem.NewtonCert
