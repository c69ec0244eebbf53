import Verif.Lemmas.NewtonCert
/-! # Certified Gauss-Jacobi rules -/
namespace Tandem.NewtonCert
open Finset Functions Quadrature QuadTable

def tolQ : ℚ := 10 / 2 ^ 52

theorem point_close (n a i : ℕ) (hi : i < n) (r T F : ℚ) (h1 : newtonOk tolQ (jacT n a 0 r) T F = true)
    (h2 : guessOk n a i r T = true) :
    ∃ x, (gaussJacobi n a 0).points[i]? = some x ∧ |x - r| ≤ F := by
  obtain ⟨k, hk, e1, e2, e3⟩ := C57_newton n a 0 i hi
  set N : ℝ → ℝ := fun x => x - Spec.jacobi n a 0 x / deriv (Spec.jacobi n a 0) x with hN
  set x₀ := Real.cos (Real.pi * (a / 2 + (i + 1) - 1 / 4) / ((1 + a + (0 : ℕ)) / 2 + n)) with hx0
  refine ⟨_, e1, ?_⟩
  set c := jacT n a 0 r with hc
  let M : ℝ → ℝ := fun h => h - ev c h / ev (der c) h
  have hNM : ∀ h : ℝ, N (r + h) = r + M h := by
    intro h
    simp only [hN, M, hc]
    rw [ev_jacT, deriv_jacT, (jacobi_deriv n a 0 (r + h)).deriv]; ring
  have hit : ∀ k (h : ℝ), N^[k] (r + h) = r + M^[k] h := by
    intro k
    induction k with
    | zero => intro h; rfl
    | succ k ih => intro h; rw [Function.iterate_succ_apply, Function.iterate_succ_apply, hNM, ih]
  have hg : |x₀ - r| ≤ T := guess_close n a i r T h2
  obtain ⟨-, m2⟩ := newton_iter tolQ c T F h1 (x₀ - r) hg M (fun _ => rfl) k
  have ex : N^[k] x₀ = r + M^[k] (x₀ - r) := by
    rw [← hit]; congr 1; ring
  rw [ex, add_sub_cancel_left]
  refine m2 ?_
  rcases Nat.lt_or_ge k 99 with hk' | hk'
  · left
    rw [hc, ev_jacT, ← ex]
    have := e2 hk'
    rw [tolQ]; push_cast; exact this
  · right; omega

/-- The head coefficient and the deviation from it for `|h| ≤ F`. -/
def headOf : List ℚ → ℚ
  | [] => 0
  | c :: _ => c

def devOf (F : ℚ) : List ℚ → ℚ
  | [] => 0
  | _ :: l => F * absEv l F

theorem dev_le (l : List ℚ) (F : ℚ) (h : ℝ) (hh : |h| ≤ F) : |ev l h - headOf l| ≤ devOf F l := by
  cases l with
  | nil => simp [ev, headOf, devOf]
  | cons c l =>
    simp only [ev, headOf, devOf, add_sub_cancel_left, abs_mul]
    push_cast
    exact mul_le_mul hh (abs_ev l F h hh) (abs_nonneg _) ((abs_nonneg h).trans hh)

def factorQ (n a : ℕ) : ℚ := -(2 * n + a + 2) * 2 ^ a / ((n + a + 1) * (n + 1))

theorem factor_eq (n a : ℕ) (h : n + a < 2 ^ 64 - 1) : weightFactor n a 0 = factorQ n a := by
  have r1 := rangeProd_eq n 0 (n + a) (by omega) h (by simp)
  have r2 := rangeProd_eq (n + a) 0 (n + a) (by omega) h (by simp)
  have k1 : ((n.factorial : ℕ) : ℝ) ≠ 0 := by positivity
  have k2 : (((n + a).factorial : ℕ) : ℝ) ≠ 0 := by positivity
  have f1 : rangeProd (n + 1) (n + 0) = 1 := by
    rw [add_zero] at r1 ⊢
    exact mul_right_cancel₀ k1 (by rw [r1, one_mul])
  have f2 : rangeProd (n + a + 1) (n + a + 0) = 1 := by
    rw [add_zero] at r2 ⊢
    exact mul_right_cancel₀ k2 (by rw [r2, one_mul])
  unfold weightFactor factorQ
  rw [f1, f2]; push_cast; simp

def weightOk (n a : ℕ) (r F w δ : ℚ) : Bool :=
  let X := jacT (n + 1) a 0 r
  let Y := der (jacT n a 0 r)
  let x := headOf X
  let y := headOf Y
  let ξ := devOf F X
  let η := devOf F Y
  decide (0 < w) && decide (ξ < |x|) && decide (η < |y|) &&
    decide (|factorQ n a - w * x * y| + w * (|x| * η + |y| * ξ + ξ * η) ≤ δ * w * ((|x| - ξ) * (|y| - η)))

theorem weight_close (n a : ℕ) (hn : n + a < 2 ^ 64 - 1) (r F w δ : ℚ) (hδ : 0 ≤ δ)
    (hok : weightOk n a r F w δ = true) (x : ℝ) (hx : |x - r| ≤ F) : |wgt n a 0 x - w| ≤ δ * w := by
  simp only [weightOk, Bool.and_eq_true, decide_eq_true_eq] at hok
  obtain ⟨⟨⟨hw, h1⟩, h2⟩, h3⟩ := hok
  have d1 := dev_le (jacT (n + 1) a 0 r) F (x - r) hx
  have d2 := dev_le (der (jacT n a 0 r)) F (x - r) hx
  rw [ev_jacT, add_sub_cancel] at d1
  rw [deriv_jacT, add_sub_cancel] at d2
  set x0 := headOf (jacT (n + 1) a 0 r)
  set y0 := headOf (der (jacT n a 0 r))
  set ξ := devOf F (jacT (n + 1) a 0 r)
  set η := devOf F (der (jacT n a 0 r))
  unfold wgt
  rw [factor_eq n a hn, jacobi_eq]
  set X := Spec.jacobi (n + 1) a 0 x
  set Y := jacobiPDerivative n a 0 x
  have hw' : (0 : ℝ) < w := by exact_mod_cast hw
  have h1' : (ξ : ℝ) < |(x0 : ℝ)| := by exact_mod_cast h1
  have h2' : (η : ℝ) < |(y0 : ℝ)| := by exact_mod_cast h2
  have hδ' : (0 : ℝ) ≤ δ := by exact_mod_cast hδ
  have h3' : |(factorQ n a : ℝ) - w * x0 * y0| + w * (|(x0 : ℝ)| * η + |(y0 : ℝ)| * ξ + ξ * η)
      ≤ δ * w * ((|(x0 : ℝ)| - ξ) * (|(y0 : ℝ)| - η)) := by exact_mod_cast h3
  have hξ : (0 : ℝ) ≤ ξ := (abs_nonneg _).trans d1
  have hη : (0 : ℝ) ≤ η := (abs_nonneg _).trans d2
  have aX : |(x0 : ℝ)| - ξ ≤ |X| := by
    have := abs_sub_abs_le_abs_sub (x0 : ℝ) X
    rw [abs_sub_comm] at this
    linarith
  have aY : |(y0 : ℝ)| - η ≤ |Y| := by
    have := abs_sub_abs_le_abs_sub (y0 : ℝ) Y
    rw [abs_sub_comm] at this
    linarith
  have pX : 0 < |X| := by linarith
  have pY : 0 < |Y| := by linarith
  have hXY : X * Y ≠ 0 := mul_ne_zero (abs_pos.1 pX) (abs_pos.1 pY)
  have e : (factorQ n a : ℝ) / (X * Y) - w = ((factorQ n a : ℝ) - w * (X * Y)) / (X * Y) := by
    rw [sub_div, mul_div_assoc, div_self hXY, mul_one]
  rw [e, abs_div, div_le_iff₀ (abs_pos.2 hXY), abs_mul X Y]
  have b1 : |(factorQ n a : ℝ) - w * (X * Y)| ≤ |(factorQ n a : ℝ) - w * x0 * y0|
      + w * (|(x0 : ℝ)| * η + |(y0 : ℝ)| * ξ + ξ * η) := by
    have e2 : (factorQ n a : ℝ) - w * (X * Y) = ((factorQ n a : ℝ) - w * x0 * y0)
        - w * (x0 * (Y - y0) + (y0 * (X - x0) + (X - x0) * (Y - y0))) := by ring
    rw [e2]
    refine (abs_sub _ _).trans ?_
    rw [abs_mul (w : ℝ), abs_of_pos hw']
    have t1 : |x0 * (Y - y0) + (y0 * (X - x0) + (X - x0) * (Y - y0))|
        ≤ |(x0 : ℝ)| * η + |(y0 : ℝ)| * ξ + ξ * η := by
      refine (abs_add_le _ _).trans ?_
      have s1 := abs_add_le ((y0:ℝ) * (X - x0)) ((X - x0) * (Y - y0))
      rw [abs_mul, abs_mul] at s1
      rw [abs_mul]
      have s2 := mul_le_mul_of_nonneg_left d2 (abs_nonneg (x0 : ℝ))
      have s3 := mul_le_mul_of_nonneg_left d1 (abs_nonneg (y0 : ℝ))
      have s4 := mul_le_mul d1 d2 (abs_nonneg _) hξ
      linarith
    have := mul_le_mul_of_nonneg_left t1 hw'.le
    linarith
  have b2 : (|(x0 : ℝ)| - ξ) * (|(y0 : ℝ)| - η) ≤ |X| * |Y| :=
    mul_le_mul aX aY (by linarith) pX.le
  have := mul_le_mul_of_nonneg_left b2 (mul_nonneg hδ' hw'.le)
  linarith

/-- A certificate for one point: the approximate root, the interval around it that contains the guess,
the bound for the final point, the approximate weight. -/
structure Cert where
  r : ℚ
  T : ℚ
  F : ℚ
  w : ℚ

def certOk (n a : ℕ) (δ : ℚ) (i : ℕ) (c : Cert) : Bool :=
  newtonOk tolQ (jacT n a 0 c.r) c.T c.F && guessOk n a i c.r c.T && weightOk n a c.r c.F c.w δ
    && decide (c.F ≤ 2 * δ) && decide (|c.r| + c.F ≤ 1)

def certsOk (n a : ℕ) (δ : ℚ) : ℕ → List Cert → Bool
  | i, [] => decide (i = n)
  | i, c :: l => certOk n a δ i c && certsOk n a δ (i + 1) l

/-- The point and the weight of the rule on `[0,1]` are close to rational numbers. -/
def Near1 (δ : ℝ) (c : Cert) (e : ℝ × ℝ) : Prop :=
  |e.1 - (c.r + 1) / 2| ≤ δ ∧ 0 ≤ e.1 ∧ e.1 ≤ 1 ∧ |e.2 - c.w / 2| ≤ δ * (c.w / 2)

theorem certs_near (n a : ℕ) (hn : n + a < 2 ^ 64 - 1) (δ : ℚ) (hδ : 0 ≤ δ) (l : List Cert)
    (h : certsOk n a δ 0 l = true) :
    List.Forall₂ (Near1 δ) l (changeInterval (gaussJacobi n a 0) 0 1).entries := by
  rw [unit_entries]
  have hlen : (gaussJacobi n a 0).points.length = n := by simp [gaussJacobi]
  have key : ∀ (l : List Cert) (i : ℕ), certsOk n a δ i l = true → i ≤ n ∧
      List.Forall₂ (Near1 δ) l (((gaussJacobi n a 0).points.drop i).map fun x => ((x + 1) / 2, wgt n a 0 x * 0.5)) := by
    intro l
    induction l with
    | nil =>
      intro i hi
      simp only [certsOk, decide_eq_true_eq] at hi
      subst hi
      rw [List.drop_eq_nil_of_le (by omega)]
      exact ⟨le_rfl, .nil⟩
    | cons c l ih =>
      intro i hi
      simp only [certsOk, Bool.and_eq_true] at hi
      obtain ⟨hc, hl⟩ := hi
      obtain ⟨h1, h2⟩ := ih (i + 1) hl
      have hin : i < n := by omega
      refine ⟨by omega, ?_⟩
      simp only [certOk, Bool.and_eq_true, decide_eq_true_eq] at hc
      obtain ⟨⟨⟨⟨c1, c2⟩, c3⟩, c4⟩, c5⟩ := hc
      obtain ⟨x, hx, hxr⟩ := point_close n a i hin c.r c.T c.F c1 c2
      obtain ⟨hi', ex⟩ := List.getElem?_eq_some_iff.1 hx
      rw [List.drop_eq_getElem_cons hi', ex, List.map_cons]
      refine .cons ?_ h2
      have w1 := weight_close n a hn c.r c.F c.w δ hδ c3 x hxr
      have c4' : (c.F : ℝ) ≤ 2 * δ := by exact_mod_cast c4
      have c5' : |(c.r : ℝ)| + c.F ≤ 1 := by exact_mod_cast c5
      have hx1 : |x| ≤ 1 := by
        have : x = (x - c.r) + c.r := by ring
        rw [this]
        refine (abs_add_le _ _).trans ?_
        linarith
      obtain ⟨x1, x2⟩ := abs_le.1 hx1
      refine ⟨?_, by simp only; linarith, by simp only; linarith, ?_⟩
      · simp only
        rw [show (x + 1) / 2 - ((c.r : ℝ) + 1) / 2 = (x - c.r) / 2 by ring, abs_div, abs_two]
        linarith
      · simp only
        rw [show wgt n a 0 x * 0.5 - (c.w : ℝ) / 2 = (wgt n a 0 x - c.w) / 2 by ring, abs_div, abs_two]
        linarith
  exact (key l 0 h).2

/-! ## Moments of rational rules on the interval -/

def sumQ (m : ℕ) : List Cert → ℚ
  | [] => 0
  | c :: l => c.w / 2 * ((c.r + 1) / 2) ^ m + sumQ m l

def lineOk (N : ℕ) (ε : ℚ) (l : List Cert) : Bool :=
  allBelow (fun m => decide (|sumQ m l - 1 / (m + 1)| ≤ ε)) (N + 1)
    && l.all fun c => decide (0 < c.w) && decide (|c.r| ≤ 1)

noncomputable def certRule (l : List Cert) : RefElement.Rule 1 :=
  ⟨l.map fun c => ![((c.r : ℝ) + 1) / 2], l.map fun c => (c.w : ℝ) / 2⟩

theorem line_good (N : ℕ) (ε : ℚ) (l : List Cert) (h : lineOk N ε l = true) : Good 1 N ε (certRule l) := by
  simp only [lineOk, Bool.and_eq_true, List.all_eq_true, decide_eq_true_eq] at h
  obtain ⟨h1, h2⟩ := h
  rw [allBelow_iff] at h1
  refine ⟨almost_of_moments 1 N (by simp) _ _ _ (by simp [certRule]) ?_, ?_, ?_⟩
  · intro m hm
    rw [Fin.sum_univ_one] at hm
    have h3 := h1 (m 0) (by omega)
    simp only [decide_eq_true_eq] at h3
    have e1 : ∀ l : List Cert, (((certRule l).points.zip (certRule l).weights).map
        fun pw => pw.2 * ∏ d, pw.1 d ^ m d).sum = (sumQ (m 0) l : ℝ) := by
      intro l
      induction l with
      | nil => simp [certRule, sumQ]
      | cons c l ih =>
        have : ((certRule (c :: l)).points.zip (certRule (c :: l)).weights)
            = (![((c.r : ℝ) + 1) / 2], (c.w : ℝ) / 2) :: ((certRule l).points.zip (certRule l).weights) := rfl
        rw [this, List.map_cons, List.sum_cons, ih, sumQ]
        simp
    rw [e1]
    unfold Functions.moment
    simp only [Fin.prod_univ_one, Fin.sum_univ_one]
    rw [Nat.factorial_succ]
    have e2 : (((m 0).factorial : ℕ) : ℝ) / (((m 0 + 1) * (m 0).factorial : ℕ) : ℝ) = 1 / ((m 0 : ℝ) + 1) := by
      have : (((m 0).factorial : ℕ) : ℝ) ≠ 0 := by positivity
      push_cast
      field_simp
    rw [e2]
    have h4 := (Rat.cast_le (K := ℝ)).2 h3
    push_cast at h4
    exact h4
  · intro w hw
    obtain ⟨c, hc, rfl⟩ := List.mem_map.1 hw
    have : (0 : ℝ) < c.w := by exact_mod_cast (h2 c hc).1
    linarith
  · intro x hx
    obtain ⟨c, hc, rfl⟩ := List.mem_map.1 hx
    have : |(c.r : ℝ)| ≤ 1 := by exact_mod_cast (h2 c hc).2
    obtain ⟨a1, a2⟩ := abs_le.1 this
    constructor
    · intro d
      fin_cases d
      simp only [Fin.zero_eta, Matrix.cons_val_zero]
      linarith
    · simp only [Fin.sum_univ_one, Matrix.cons_val_zero]
      linarith

end Tandem.NewtonCert
