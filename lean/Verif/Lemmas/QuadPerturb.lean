import Verif.Lemmas.QuadTable
/-! # Rules whose points and weights are perturbed -/
namespace Tandem.QuadTable
open Finset Functions RefElement Quadrature

theorem pow_close (a b δ : ℝ) (ha : 0 ≤ a) (ha1 : a ≤ 1) (hb : 0 ≤ b) (hb1 : b ≤ 1) (h : |a - b| ≤ δ) (k : ℕ) :
    |a ^ k - b ^ k| ≤ k * δ := by
  induction k with
  | zero => simp
  | succ k ih =>
    have e : a ^ (k + 1) - b ^ (k + 1) = a * (a ^ k - b ^ k) + (a - b) * b ^ k := by ring
    rw [e]
    refine (abs_add_le _ _).trans ?_
    rw [abs_mul, abs_mul, abs_of_nonneg ha, abs_of_nonneg (pow_nonneg hb k)]
    have h1 : a * |a ^ k - b ^ k| ≤ 1 * |a ^ k - b ^ k| := mul_le_mul_of_nonneg_right ha1 (abs_nonneg _)
    have h2 : |a - b| * b ^ k ≤ |a - b| * 1 := mul_le_mul_of_nonneg_left (pow_le_one₀ hb hb1) (abs_nonneg _)
    push_cast
    linarith

theorem mono_close (D : ℕ) (x y : Fin D → ℝ) (δ : ℝ) (hx : ∀ d, 0 ≤ x d ∧ x d ≤ 1) (hy : ∀ d, 0 ≤ y d ∧ y d ≤ 1)
    (h : ∀ d, |x d - y d| ≤ δ) (m : Fin D → ℕ) (s : Finset (Fin D)) :
    |∏ d ∈ s, x d ^ m d - ∏ d ∈ s, y d ^ m d| ≤ (∑ d ∈ s, m d : ℕ) * δ := by
  classical
  induction s using Finset.induction_on with
  | empty => simp
  | insert d s hd ih =>
    rw [prod_insert hd, prod_insert hd, sum_insert hd]
    have e : x d ^ m d * ∏ d ∈ s, x d ^ m d - y d ^ m d * ∏ d ∈ s, y d ^ m d
        = x d ^ m d * (∏ d ∈ s, x d ^ m d - ∏ d ∈ s, y d ^ m d)
          + (x d ^ m d - y d ^ m d) * ∏ d ∈ s, y d ^ m d := by ring
    rw [e]
    refine (abs_add_le _ _).trans ?_
    have p1 : 0 ≤ x d ^ m d := pow_nonneg (hx d).1 _
    have p2 : x d ^ m d ≤ 1 := pow_le_one₀ (hx d).1 (hx d).2
    have p3 : 0 ≤ ∏ d ∈ s, y d ^ m d := prod_nonneg fun d _ => pow_nonneg (hy d).1 _
    have p4 : ∏ d ∈ s, y d ^ m d ≤ 1 := prod_le_one (fun d _ => pow_nonneg (hy d).1 _)
      fun d _ => pow_le_one₀ (hy d).1 (hy d).2
    rw [abs_mul, abs_mul, abs_of_nonneg p1, abs_of_nonneg p3]
    have q := pow_close _ _ δ (hx d).1 (hx d).2 (hy d).1 (hy d).2 (h d) (m d)
    have h1 : x d ^ m d * |∏ d ∈ s, x d ^ m d - ∏ d ∈ s, y d ^ m d|
        ≤ 1 * |∏ d ∈ s, x d ^ m d - ∏ d ∈ s, y d ^ m d| := mul_le_mul_of_nonneg_right p2 (abs_nonneg _)
    have h2 : |x d ^ m d - y d ^ m d| * ∏ d ∈ s, y d ^ m d ≤ |x d ^ m d - y d ^ m d| * 1 :=
      mul_le_mul_of_nonneg_left p4 (abs_nonneg _)
    push_cast at ih ⊢
    linarith

/-- Entries that belong to each other are close: the weight up to a relative and the coordinates up to
an absolute error of `δ`. -/
def Near {D : ℕ} (δ : ℝ) (e e' : (Fin D → ℝ) × ℝ) : Prop :=
  |e'.2 - e.2| ≤ δ * e.2 ∧ ∀ d, |e'.1 d - e.1 d| ≤ δ ∧ 0 ≤ e'.1 d ∧ e'.1 d ≤ 1

theorem coord_le {D : ℕ} (x : Fin D → ℝ) (h : Spec.InRefSimplex x) (d : Fin D) : 0 ≤ x d ∧ x d ≤ 1 :=
  ⟨h.1 d, (single_le_sum (fun d _ => h.1 d) (mem_univ d)).trans h.2⟩

theorem perturb_sum {D : ℕ} (δ : ℝ) (m : Fin D → ℕ) (l l' : List ((Fin D → ℝ) × ℝ))
    (hl : ∀ e ∈ l, Spec.InRefSimplex e.1 ∧ 0 < e.2) (h : List.Forall₂ (Near δ) l l') :
    |(l'.map fun pw => pw.2 * ∏ d, pw.1 d ^ m d).sum - (l.map fun pw => pw.2 * ∏ d, pw.1 d ^ m d).sum|
      ≤ ((∑ d, m d : ℕ) + 1) * δ * (l.map fun pw => pw.2).sum := by
  induction h with
  | nil => simp
  | @cons e e' l l' he _ ih =>
    simp only [List.map_cons, List.sum_cons]
    have hi := ih fun e he => hl e (by simp [he])
    obtain ⟨g1, g2⟩ := hl e (by simp)
    have c := mono_close D e'.1 e.1 δ (fun d => (he.2 d).2) (coord_le _ g1) (fun d => (he.2 d).1) m univ
    have p3 : 0 ≤ ∏ d, e'.1 d ^ m d := prod_nonneg fun d _ => pow_nonneg (he.2 d).2.1 _
    have p4 : ∏ d, e'.1 d ^ m d ≤ 1 := prod_le_one (fun d _ => pow_nonneg (he.2 d).2.1 _)
      fun d _ => pow_le_one₀ (he.2 d).2.1 (he.2 d).2.2
    have k : |e'.2 * ∏ d, e'.1 d ^ m d - e.2 * ∏ d, e.1 d ^ m d| ≤ ((∑ d, m d : ℕ) + 1) * δ * e.2 := by
      have e1 : e'.2 * ∏ d, e'.1 d ^ m d - e.2 * ∏ d, e.1 d ^ m d
        = (e'.2 - e.2) * ∏ d, e'.1 d ^ m d + e.2 * (∏ d, e'.1 d ^ m d - ∏ d, e.1 d ^ m d) := by ring
      rw [e1]
      refine (abs_add_le _ _).trans ?_
      rw [abs_mul, abs_mul, abs_of_pos g2, abs_of_nonneg p3]
      have h1 : |e'.2 - e.2| * ∏ d, e'.1 d ^ m d ≤ |e'.2 - e.2| * 1 :=
        mul_le_mul_of_nonneg_left p4 (abs_nonneg _)
      have h2 := mul_le_mul_of_nonneg_left c g2.le
      have h3 := he.1
      linarith
    rw [add_sub_add_comm]
    refine (abs_add_le _ _).trans ?_
    linarith

theorem moment_zero_le (D : ℕ) : moment D (fun _ => 0) ≤ 1 := by
  unfold moment
  simp only [Nat.factorial_zero, Nat.cast_one, prod_const_one]
  rw [div_le_one (by positivity)]
  exact_mod_cast Nat.factorial_pos _

theorem moment_error {D N : ℕ} (hD : D = 1 ∨ D = 2 ∨ D = 3) {ε : ℝ} {P : List (Fin D → ℝ)} {W : List ℝ}
    (h : Spec.AlmostExact D N ε P W) (m : Fin D → ℕ) (hm : ∑ d, m d ≤ N) :
    |((P.zip W).map fun pw => pw.2 * ∏ d, pw.1 d ^ m d).sum - moment D m| ≤ ε := by
  have hcast : ∀ x : Fin D → ℝ, MvPolynomial.eval x (MvPolynomial.monomial (Finsupp.equivFunOnFinite.symm m) (1:ℝ))
      = ∏ d, x d ^ m d := by
    intro x
    rw [MvPolynomial.eval_monomial, one_mul, Finsupp.prod_fintype _ _ (fun _ => pow_zero _)]
    rfl
  have h1 := h.2 (MvPolynomial.monomial (Finsupp.equivFunOnFinite.symm m) (1:ℝ)) (by
    refine (MvPolynomial.totalDegree_monomial_le _ _).trans ?_
    rw [Finsupp.sum_fintype _ _ (fun _ => rfl)]; simpa using hm)
  simp only [hcast] at h1
  have h2 := simplex_sum D hD {()} (fun _ => (1:ℝ)) (fun _ => m)
  simp only [sum_singleton, one_mul] at h2
  rw [h2] at h1
  refine h1.trans (le_of_eq ?_)
  unfold Spec.coeffSum
  rw [MvPolynomial.support_monomial, if_neg one_ne_zero, sum_singleton, MvPolynomial.coeff_monomial, if_pos rfl,
    abs_one, mul_one]

/-- A rule close to a good rule is almost as good. -/
theorem perturb {D N : ℕ} (hD : D = 1 ∨ D = 2 ∨ D = 3) {ε δ : ℝ} (hδ : 0 ≤ δ) {r : Rule D} (hg : Good D N ε r)
    (r' : Rule D) (hl : r'.points.length = r'.weights.length)
    (h : List.Forall₂ (Near δ) (r.points.zip r.weights) (r'.points.zip r'.weights)) :
    Spec.AlmostExact D N (ε + (N + 1) * δ * (1 + ε)) r'.points r'.weights := by
  refine almost_of_moments D N hD _ _ _ hl fun m hm => ?_
  have hl' : ∀ e ∈ r.points.zip r.weights, Spec.InRefSimplex e.1 ∧ 0 < e.2 := by
    intro e he
    have := List.of_mem_zip (a := e.1) (b := e.2) he
    exact ⟨hg.inside _ this.1, hg.pos _ this.2⟩
  have h1 := perturb_sum δ m _ _ hl' h
  have h2 := moment_error hD hg.almost m hm
  have h3 := moment_error hD hg.almost (fun _ => 0) (by simp)
  simp only [pow_zero, prod_const_one, mul_one] at h3
  have h4 := moment_zero_le D
  have h5 : ((r.points.zip r.weights).map fun pw => pw.2).sum ≤ 1 + ε := by
    have := (abs_le.1 h3).2; linarith
  have h6 : 0 ≤ 1 + ε := by
    have := (abs_nonneg _).trans h3; linarith
  have h7 : (((∑ d, m d : ℕ) : ℝ) + 1) * δ ≤ (N + 1) * δ := by
    refine mul_le_mul_of_nonneg_right ?_ hδ
    have : ((∑ d, m d : ℕ) : ℝ) ≤ N := by exact_mod_cast hm
    linarith
  have h8 : (((∑ d, m d : ℕ) : ℝ) + 1) * δ * ((r.points.zip r.weights).map fun pw => pw.2).sum
      ≤ (N + 1) * δ * (1 + ε) := by
    refine (mul_le_mul_of_nonneg_left h5 (by positivity)).trans ?_
    exact mul_le_mul_of_nonneg_right h7 h6
  rw [abs_le] at h1 h2 ⊢
  constructor <;> linarith [h1.1, h1.2, h2.1, h2.2]

end Tandem.QuadTable
