import Verif.Lemmas.Quadrature
import Verif.Lemmas.SimplexMoments
import Verif.Props.MassMatrix
/-! # C57: quadrature rules, C63: choice of the quadrature rule -/
namespace Tandem.Quadrature
open Functions RefElement Finset Polynomial

/-- The entries of the rule on `[0,1]`. -/
theorem unit_entries (n a b : ℕ) : (changeInterval (gaussJacobi n a b) 0 1).entries
    = (gaussJacobi n a b).points.map fun x => ((x + 1) / 2, wgt n a b x * 0.5) := by
  unfold changeInterval Interval.entries
  simp only [gaussJacobi_weights]
  have ha : (gaussJacobi n a b).a = -1 := rfl
  have hb : (gaussJacobi n a b).b = 1 := rfl
  rw [ha, hb, List.map_map, List.zip_map', ]
  refine List.map_congr_left fun x _ => ?_
  simp only [Function.comp_apply, Prod.mk.injEq]
  constructor <;> ring

theorem zip_entries {D : ℕ} (l : List ((Fin D → ℝ) × ℝ)) (o : ℤ) :
    (ofEntries l o).rule.points.zip (ofEntries l o).rule.weights = l := by
  unfold ofEntries
  simp only
  rw [List.zip_map']
  exact List.map_id l

theorem sum_flatMap {α β : Type*} (l : List α) (g : α → List β) (f : β → ℝ) :
    ((l.flatMap g).map f).sum = (l.map fun a => ((g a).map f).sum).sum := by
  induction l with
  | nil => rfl
  | cons a l ih => simp [List.flatMap_cons, ih]

theorem sum_mul_left' {α : Type*} (l : List α) (c : ℝ) (f : α → ℝ) :
    (l.map fun a => c * f a).sum = c * (l.map f).sum := by
  induction l with
  | nil => simp
  | cons a l ih => simp [ih, mul_add]

theorem pow_wint (a i k : ℕ) : wint a 0 (X ^ i * (1 - X) ^ k)
    = (i.factorial * (a + k).factorial : ℝ) / ((i + (a + k) + 1).factorial : ℝ) := by
  rw [wint_apply, ← beta_int]
  refine intervalIntegral.integral_congr fun u _ => ?_
  simp only [eval_mul, eval_pow, eval_X, eval_sub, eval_one]
  rw [pow_add]; ring

theorem deg_pow (i k M : ℕ) (h : i + k ≤ M) : (X ^ i * (1 - X) ^ k : ℝ[X]).natDegree ≤ M := by
  refine natDegree_mul_le.trans ?_
  have h1 : (1 - X : ℝ[X]).natDegree ≤ 1 := by compute_degree
  have h2 := (natDegree_pow_le (p := (1 - X : ℝ[X])) (n := k)).trans (Nat.mul_le_mul_left k h1)
  rw [natDegree_X_pow]; omega

theorem order_bound (q : ℕ) : q ≤ 2 * pointsPerDim q - 1 := by unfold pointsPerDim; omega

/-- C57 (weights): the weights the program computes are the classical Gauss-Jacobi weights at the points
it computes (`b = 0` in all uses; for `b > 0` the products of integers must not overflow). -/
theorem C57_weights (n a b : ℕ) (hM : n + a + b < 2 ^ 64 - 1) (hov : (n + a + b) ^ b < 2 ^ 64) :
    (gaussJacobi n a b).weights = (gaussJacobi n a b).points.map (Spec.gaussWeight n a b) := by
  rw [gaussJacobi_weights]
  exact List.map_congr_left fun x _ => wgt_gauss n a b hM hov x

/-- C57 (Gauss-Jacobi): the classical weights at the `n` roots of the Jacobi polynomial integrate all
polynomials of degree at most `2n-1` exactly against `(1-x)^a (1+x)^b` on `[-1,1]`; the weights are
positive and the points are inside the interval. -/
theorem C57_gauss_formula (n a b : ℕ) (hn : 0 < n) (xs : List ℝ) (h : Spec.JacobiNodes n a b xs) :
    Spec.ExactWeighted (2 * n - 1) a b xs (xs.map (Spec.gaussWeight n a b)) ∧
    ∀ x ∈ xs, 0 < Spec.gaussWeight n a b x ∧ -1 < x ∧ x < 1 := by
  refine ⟨gauss_exact n a b hn xs h, fun x hx => ?_⟩
  have key : (x + 1) / 2 ∈ jroots n a b := by
    rw [mem_jroots, eval_jpoly, show 2 * ((x + 1) / 2) - 1 = x by ring]
    exact h.2.2 x hx
  constructor
  · have := gaussWeight_eq n a b hn _ key
    rw [show 2 * ((x + 1) / 2) - 1 = x by ring] at this
    rw [this]
    exact mul_pos (by positivity) (gw_pos n a b _ key)
  · have := (jpoly_roots n a b).2.2 ((x + 1) / 2) (Multiset.mem_toFinset.1 key)
    exact ⟨by linarith [this.1], by linarith [this.2]⟩

/-- C57 (roots exist): for all parameters the Jacobi polynomial does have `n` different roots inside
`(-1,1)`. -/
theorem C57_roots_exist (n a b : ℕ) : ∃ xs : List ℝ, Spec.JacobiNodes n a b xs ∧ ∀ x ∈ xs, -1 < x ∧ x < 1 := by
  refine ⟨(jroots n a b).toList.map fun u => 2 * u - 1, ⟨?_, ?_, ?_⟩, ?_⟩
  · exact (Finset.nodup_toList _).map fun u v e => by linarith
  · rw [List.length_map, Finset.length_toList, card_jroots]
  · intro x hx
    obtain ⟨u, hu, rfl⟩ := List.mem_map.1 hx
    rw [← eval_jpoly]
    exact (mem_jroots n a b u).1 (Finset.mem_toList.1 hu)
  · intro x hx
    obtain ⟨u, hu, rfl⟩ := List.mem_map.1 hx
    have := (jpoly_roots n a b).2.2 u (Multiset.mem_toFinset.1 (Finset.mem_toList.1 hu))
    exact ⟨by linarith [this.1], by linarith [this.2]⟩

/-- C57 (interval): `changeInterval` turns a rule that is exact on the old interval into one that is
exact on the new interval, for every function. -/
theorem C57_interval (r : Interval) (hr : r.a ≠ r.b) (hl : r.points.length = r.weights.length)
    (start stop : ℝ) (f : ℝ → ℝ)
    (h : ((r.points.zip r.weights).map fun pw => pw.2 *
        f ((stop - start) / (r.b - r.a) * (pw.1 - r.a) + start)).sum
      = ∫ x in r.a..r.b, f ((stop - start) / (r.b - r.a) * (x - r.a) + start)) :
    (((changeInterval r start stop).points.zip (changeInterval r start stop).weights).map
      fun pw => pw.2 * f pw.1).sum = ∫ x in start..stop, f x := by
  have hd : r.b - r.a ≠ 0 := sub_ne_zero.2 hr.symm
  unfold changeInterval
  simp only
  have e1 : ∀ (P W : List ℝ), P.length = W.length → (((P.map fun p => 0.5 * (stop - start) * (p - 0.5 * (r.a + r.b))
        / (0.5 * (r.b - r.a)) + 0.5 * (start + stop)).zip
      (W.map fun w => w * (0.5 * (stop - start) / (0.5 * (r.b - r.a))))).map fun pw => pw.2 * f pw.1).sum
      = (stop - start) / (r.b - r.a) * ((P.zip W).map fun pw => pw.2 *
        f ((stop - start) / (r.b - r.a) * (pw.1 - r.a) + start)).sum := by
    intro P
    induction P with
    | nil => intro W _; simp
    | cons p P ih =>
      intro W hW
      cases W with
      | nil => simp at hW
      | cons w W =>
        simp only [List.map_cons, List.zip_cons_cons, List.sum_cons]
        rw [ih W (by simpa using hW)]
        have e2 : 0.5 * (stop - start) * (p - 0.5 * (r.a + r.b)) / (0.5 * (r.b - r.a)) + 0.5 * (start + stop)
            = (stop - start) / (r.b - r.a) * (p - r.a) + start := by
          field_simp; ring
        rw [e2]
        have e3 : (0.5 * (stop - start) / (0.5 * (r.b - r.a)) : ℝ) = (stop - start) / (r.b - r.a) := by
          field_simp
        rw [e3]; ring
  rw [e1 _ _ hl, h]
  have e4 := intervalIntegral.mul_integral_comp_mul_sub (a := r.a) (b := r.b)
    (c := (stop - start) / (r.b - r.a)) (d := (stop - start) / (r.b - r.a) * r.a - start) (f := f)
  have e5 : (stop - start) / (r.b - r.a) * r.b - ((stop - start) / (r.b - r.a) * r.a - start) = stop := by
    field_simp; ring
  rw [e5, show (stop - start) / (r.b - r.a) * r.a - ((stop - start) / (r.b - r.a) * r.a - start) = start by ring] at e4
  rw [← e4]
  congr 1
  refine intervalIntegral.integral_congr fun x _ => ?_
  congr 1; ring

/-- The sum of a one-dimensional rule on `[0,1]` for `x^i (1-x)^k`. -/
noncomputable def S (E : List (ℝ × ℝ)) (i k : ℕ) : ℝ := (E.map fun e => e.2 * (e.1 ^ i * (1 - e.1) ^ k)).sum

/-- `2^a ∫ (1-x)^a x^i (1-x)^k` over `[0,1]`. -/
noncomputable def M (a i k : ℕ) : ℝ :=
  2 ^ a * ((i.factorial * (a + k).factorial : ℝ) / ((i + (a + k) + 1).factorial : ℝ))

theorem tensor_moment1 (E0 : List (ℝ × ℝ)) (m : Fin 1 → ℕ) :
    ((E0.map fun e => ((![e.1] : Fin 1 → ℝ), e.2)).map fun pw => pw.2 * ∏ d, pw.1 d ^ m d).sum = S E0 (m 0) 0 := by
  rw [List.map_map, S]
  refine congrArg List.sum (List.map_congr_left fun e _ => ?_)
  simp

theorem tensor_moment2 (E1 E0 : List (ℝ × ℝ)) (m : Fin 2 → ℕ) :
    ((E1.flatMap fun e1 => E0.map fun e0 => ((![e1.1, e0.1 * (1 - e1.1)] : Fin 2 → ℝ), 0.5 * e1.2 * e0.2)).map
      fun pw => pw.2 * ∏ d, pw.1 d ^ m d).sum = 0.5 * S E1 (m 0) (m 1) * S E0 (m 1) 0 := by
  rw [sum_flatMap]
  have inner : ∀ e1 : ℝ × ℝ, ((E0.map fun e0 => ((![e1.1, e0.1 * (1 - e1.1)] : Fin 2 → ℝ), 0.5 * e1.2 * e0.2)).map
            fun pw => pw.2 * ∏ d, pw.1 d ^ m d).sum
        = 0.5 * S E0 (m 1) 0 * (e1.2 * (e1.1 ^ m 0 * (1 - e1.1) ^ m 1)) := by
    intro e1
    rw [show 0.5 * S E0 (m 1) 0 * (e1.2 * (e1.1 ^ m 0 * (1 - e1.1) ^ m 1))
      = 0.5 * (e1.2 * (e1.1 ^ m 0 * (1 - e1.1) ^ m 1)) * S E0 (m 1) 0 by ring, S, List.map_map, ← sum_mul_left']
    congr 1
    refine List.map_congr_left fun e0 _ => ?_
    simp only [Function.comp_apply, Fin.prod_univ_two, Matrix.cons_val_zero, Matrix.cons_val_one, mul_pow, pow_zero]
    ring
  simp only [inner, sum_mul_left']
  unfold S; ring

theorem tensor_moment3 (E2 E1 E0 : List (ℝ × ℝ)) (m : Fin 3 → ℕ) :
    ((E2.flatMap fun e2 => E1.flatMap fun e1 => E0.map fun e0 =>
        ((![e2.1, e1.1 * (1 - e2.1), e0.1 * (1 - e1.1) * (1 - e2.1)] : Fin 3 → ℝ), 0.125 * e2.2 * e1.2 * e0.2)).map
      fun pw => pw.2 * ∏ d, pw.1 d ^ m d).sum
      = 0.125 * S E2 (m 0) (m 1 + m 2) * S E1 (m 1) (m 2) * S E0 (m 2) 0 := by
  rw [sum_flatMap]
  have inner : ∀ e2 e1 : ℝ × ℝ, ((E0.map fun e0 =>
        ((![e2.1, e1.1 * (1 - e2.1), e0.1 * (1 - e1.1) * (1 - e2.1)] : Fin 3 → ℝ), 0.125 * e2.2 * e1.2 * e0.2)).map
            fun pw => pw.2 * ∏ d, pw.1 d ^ m d).sum
        = 0.125 * S E0 (m 2) 0
          * (e2.2 * (e2.1 ^ m 0 * (1 - e2.1) ^ (m 1 + m 2))) * (e1.2 * (e1.1 ^ m 1 * (1 - e1.1) ^ m 2)) := by
    intro e2 e1
    rw [show 0.125 * S E0 (m 2) 0
          * (e2.2 * (e2.1 ^ m 0 * (1 - e2.1) ^ (m 1 + m 2))) * (e1.2 * (e1.1 ^ m 1 * (1 - e1.1) ^ m 2))
        = 0.125 * (e2.2 * (e2.1 ^ m 0 * (1 - e2.1) ^ (m 1 + m 2))) * (e1.2 * (e1.1 ^ m 1 * (1 - e1.1) ^ m 2))
          * S E0 (m 2) 0 by ring, S, List.map_map, ← sum_mul_left']
    congr 1
    refine List.map_congr_left fun e0 _ => ?_
    simp only [Function.comp_apply, Fin.prod_univ_three, Matrix.cons_val_zero, Matrix.cons_val_one,
      Matrix.cons_val, mul_pow, pow_add, pow_zero]
    ring
  have mid : ∀ e2 : ℝ × ℝ, ((E1.flatMap fun e1 => E0.map fun e0 =>
        ((![e2.1, e1.1 * (1 - e2.1), e0.1 * (1 - e1.1) * (1 - e2.1)] : Fin 3 → ℝ), 0.125 * e2.2 * e1.2 * e0.2)).map
            fun pw => pw.2 * ∏ d, pw.1 d ^ m d).sum
        = 0.125 * S E0 (m 2) 0 * S E1 (m 1) (m 2) * (e2.2 * (e2.1 ^ m 0 * (1 - e2.1) ^ (m 1 + m 2))) := by
    intro e2
    rw [sum_flatMap]
    simp only [inner, sum_mul_left']
    unfold S; ring
  simp only [mid, sum_mul_left']
  unfold S; ring

theorem moment1 (m : Fin 1 → ℕ) : moment 1 m = M 0 (m 0) 0 := by
  simp [moment, M]

theorem moment2 (m : Fin 2 → ℕ) : moment 2 m = 0.5 * M 1 (m 0) (m 1) * M 0 (m 1) 0 := by
  rw [moment, M, M, Fin.prod_univ_two, Fin.sum_univ_two]
  simp only [pow_zero, one_mul, Nat.add_zero, Nat.factorial_zero, Nat.cast_one, mul_one, pow_one]
  rw [show m 0 + (1 + m 1) + 1 = m 0 + m 1 + 2 by ring, add_comm 1 (m 1)]
  have k1 : (((m 1 + 1).factorial : ℕ) : ℝ) ≠ 0 := by positivity
  have k2 : (((m 0 + m 1 + 2).factorial : ℕ) : ℝ) ≠ 0 := by positivity
  field_simp
  norm_num

theorem moment3 (m : Fin 3 → ℕ) :
    moment 3 m = 0.125 * M 2 (m 0) (m 1 + m 2) * M 1 (m 1) (m 2) * M 0 (m 2) 0 := by
  rw [moment, M, M, M, Fin.prod_univ_three, Fin.sum_univ_three]
  simp only [pow_zero, one_mul, Nat.add_zero, Nat.factorial_zero, Nat.cast_one, mul_one, pow_one]
  rw [show m 0 + (2 + (m 1 + m 2)) + 1 = m 0 + m 1 + m 2 + 3 by ring,
    show m 1 + (1 + m 2) + 1 = 2 + (m 1 + m 2) by ring, add_comm 1 (m 2)]
  have k1 : (((m 2 + 1).factorial : ℕ) : ℝ) ≠ 0 := by positivity
  have k2 : (((m 0 + m 1 + m 2 + 3).factorial : ℕ) : ℝ) ≠ 0 := by positivity
  have k3 : (((2 + (m 1 + m 2)).factorial : ℕ) : ℝ) ≠ 0 := by positivity
  field_simp
  norm_num

theorem M_bound (a i k : ℕ) : 0 ≤ M a i k ∧ M a i k ≤ 2 ^ a := by
  unfold M
  refine ⟨by positivity, mul_le_of_le_one_right (by positivity) ?_⟩
  rw [div_le_one (by positivity)]
  have h1 : i.factorial * (a + k).factorial ≤ (i + (a + k)).factorial :=
    Nat.le_of_dvd (Nat.factorial_pos _) (Nat.factorial_mul_factorial_dvd_factorial_add _ _)
  have h2 : (i + (a + k)).factorial ≤ (i + (a + k) + 1).factorial := Nat.factorial_le (by omega)
  exact_mod_cast h1.trans h2

/-- Moments of the tensor product rule from those of the one-dimensional rules. -/
theorem tensor_close (D q : ℕ) (hD : D = 1 ∨ D = 2 ∨ D = 3) (η : ℝ) (h0 : 0 ≤ η) (h1 : η ≤ 1)
    (h : ∀ a < D, ∀ i k, i + k ≤ q →
      |S (changeInterval (gaussJacobi (pointsPerDim q) a 0) 0 1).entries i k - M a i k| ≤ η)
    (m : Fin D → ℕ) (hm : ∑ d, m d ≤ q) :
    |(((tensorRule D q).rule.points.zip (tensorRule D q).rule.weights).map
      fun pw => pw.2 * ∏ d, pw.1 d ^ m d).sum - moment D m| ≤ 8 * η := by
  have prod : ∀ x y X Y B C : ℝ, |x - X| ≤ B → |y - Y| ≤ C → |x * y - X * Y| ≤ B * |Y| + |x| * C := by
    intro x y X Y B C hB hC
    have e : x * y - X * Y = (x - X) * Y + x * (y - Y) := by ring
    rw [e]
    refine (abs_add_le _ _).trans ?_
    rw [abs_mul, abs_mul]
    exact add_le_add (mul_le_mul_of_nonneg_right hB (abs_nonneg _)) (mul_le_mul_of_nonneg_left hC (abs_nonneg _))
  have absM : ∀ a i k, |M a i k| ≤ 2 ^ a := fun a i k => by
    rw [abs_of_nonneg (M_bound a i k).1]; exact (M_bound a i k).2
  have absS : ∀ x X c : ℝ, |x - X| ≤ η → |X| ≤ c → |x| ≤ c + 1 := by
    intro x X c h2 h3
    have := abs_add_le (x - X) X
    rw [sub_add_cancel] at this
    linarith
  rcases hD with rfl | rfl | rfl
  · simp only [tensorRule, tensor1, zip_entries]
    rw [Fin.sum_univ_one] at hm
    rw [tensor_moment1, moment1]
    exact (h 0 (by omega) _ _ (by omega)).trans (by linarith)
  · simp only [tensorRule, tensor2, zip_entries]
    rw [Fin.sum_univ_two] at hm
    rw [tensor_moment2, moment2]
    have a1 := h 1 (by omega) (m 0) (m 1) (by omega)
    have a0 := h 0 (by omega) (m 1) 0 (by omega)
    set x := S (changeInterval (gaussJacobi (pointsPerDim q) 1 0) 0 1).entries (m 0) (m 1)
    set y := S (changeInterval (gaussJacobi (pointsPerDim q) 0 0) 0 1).entries (m 1) 0
    have b1 := absS _ _ _ a1 (absM _ _ _)
    have b0 := absM 0 (m 1) 0
    have p := prod _ _ _ _ _ _ a1 a0
    rw [show 0.5 * x * y - 0.5 * M 1 (m 0) (m 1) * M 0 (m 1) 0 = 0.5 * (x * y - M 1 (m 0) (m 1) * M 0 (m 1) 0) by ring,
      abs_mul, abs_of_pos (by norm_num : (0:ℝ) < 0.5)]
    have q1 := mul_le_mul_of_nonneg_left b0 h0
    have q2 := mul_le_mul_of_nonneg_right b1 h0
    norm_num at q1 q2 ⊢
    linarith
  · simp only [tensorRule, tensor3, zip_entries]
    rw [Fin.sum_univ_three] at hm
    rw [tensor_moment3, moment3]
    have a2 := h 2 (by omega) (m 0) (m 1 + m 2) (by omega)
    have a1 := h 1 (by omega) (m 1) (m 2) (by omega)
    have a0 := h 0 (by omega) (m 2) 0 (by omega)
    set x := S (changeInterval (gaussJacobi (pointsPerDim q) 2 0) 0 1).entries (m 0) (m 1 + m 2)
    set y := S (changeInterval (gaussJacobi (pointsPerDim q) 1 0) 0 1).entries (m 1) (m 2)
    set z := S (changeInterval (gaussJacobi (pointsPerDim q) 0 0) 0 1).entries (m 2) 0
    have b2 := absS _ _ _ a2 (absM _ _ _)
    have b1 := absS _ _ _ a1 (absM _ _ _)
    have p := prod _ _ _ _ _ _ a2 a1
    have c1 := absM 1 (m 1) (m 2)
    have c0 := absM 0 (m 2) 0
    have q1 := mul_le_mul_of_nonneg_left c1 h0
    have q2 := mul_le_mul_of_nonneg_right b2 h0
    have p' : |x * y - M 2 (m 0) (m 1 + m 2) * M 1 (m 1) (m 2)| ≤ 7 * η := by
      norm_num at q1 q2; linarith
    have pp := prod _ _ _ _ _ _ p' a0
    have xy : |x * y| ≤ 15 := by
      rw [abs_mul]
      norm_num at b2 b1
      nlinarith [abs_nonneg x, abs_nonneg y]
    rw [show 0.125 * x * y * z - 0.125 * M 2 (m 0) (m 1 + m 2) * M 1 (m 1) (m 2) * M 0 (m 2) 0
      = 0.125 * (x * y * z - M 2 (m 0) (m 1 + m 2) * M 1 (m 1) (m 2) * M 0 (m 2) 0) by ring,
      abs_mul, abs_of_pos (by norm_num : (0:ℝ) < 0.125)]
    have q3 := mul_le_mul_of_nonneg_left c0 (by positivity : 0 ≤ 7 * η)
    have q4 := mul_le_mul_of_nonneg_right xy h0
    rw [pow_zero, mul_one] at q3
    refine (mul_le_mul_of_nonneg_left (pp.trans (add_le_add q3 q4)) (by norm_num)).trans ?_
    linarith

/-- The one-dimensional sums in terms of the points. -/
theorem S_points (n a i k : ℕ) (hM : n + a < 2 ^ 64 - 1) :
    S (changeInterval (gaussJacobi n a 0) 0 1).entries i k
      = ((gaussJacobi n a 0).points.map fun x =>
          Spec.gaussWeight n a 0 x * 0.5 * (((x + 1) / 2) ^ i * (1 - (x + 1) / 2) ^ k)).sum := by
  rw [S, unit_entries, List.map_map]
  congr 1
  refine List.map_congr_left fun x _ => ?_
  simp only [Function.comp_apply, wgt_gauss n a 0 (by omega) (by simp)]

theorem S_roots (n a i k : ℕ) (hn : 0 < n) (hik : i + k ≤ 2 * n - 1) (xs : List ℝ)
    (h : Spec.JacobiNodes n a 0 xs) :
    (xs.map fun x => Spec.gaussWeight n a 0 x * 0.5 * (((x + 1) / 2) ^ i * (1 - (x + 1) / 2) ^ k)).sum = M a i k := by
  rw [sum_nodes n a 0 xs h, M, ← pow_wint, gauss_interp n a 0 hn _ (deg_pow i k _ hik), mul_sum]
  refine sum_congr rfl fun u hu => ?_
  rw [gaussWeight_eq n a 0 hn u hu, show (2 * u - 1 + 1) / 2 = u by ring, add_zero, pow_succ]
  simp only [eval_mul, eval_pow, eval_X, eval_sub, eval_one]
  ring

/-- With points that are the roots, the tensor product rule is exact. -/
theorem simplex_exact (D q : ℕ) (hD : D = 1 ∨ D = 2 ∨ D = 3) (hq : q < 2 ^ 32)
    (h : ∀ a < D, Spec.JacobiNodes (pointsPerDim q) a 0 (gaussJacobi (pointsPerDim q) a 0).points) :
    Spec.ExactQuadrature D q (tensorRule D q).rule.points (tensorRule D q).rule.weights := by
  have hn : 0 < pointsPerDim q := by unfold pointsPerDim; omega
  have hb := order_bound q
  refine exact_of_monomials D q hD _ _ ?_ fun m hm => ?_
  · rcases hD with rfl | rfl | rfl <;> simp [tensorRule, tensor1, tensor2, tensor3, ofEntries]
  have := tensor_close D q hD 0 le_rfl zero_le_one (fun a ha i k hik => by
    rw [S_points _ _ _ _ (by unfold pointsPerDim; omega), S_roots _ _ _ _ hn (by omega) _ (h a ha), sub_self, abs_zero]) m hm
  rw [mul_zero] at this
  exact sub_eq_zero.1 (abs_nonpos_iff.1 this)

/-- C57 (Newton iteration): each returned point is a Newton iterate of the initial guess; it is the
first one whose residual is within the tolerance, or the hundredth if there is none before. -/
theorem C57_newton (n a b i : ℕ) (hi : i < n) :
    let N : ℝ → ℝ := fun x => x - Spec.jacobi n a b x / deriv (Spec.jacobi n a b) x
    let x₀ := Real.cos (Real.pi * (a / 2 + (i + 1) - 1 / 4) / ((1 + a + b) / 2 + n))
    ∃ k ≤ 99, (gaussJacobi n a b).points[i]? = some (N^[k] x₀) ∧
      (k < 99 → |Spec.jacobi n a b (N^[k] x₀)| ≤ 10 / 2 ^ 52) ∧
      ∀ j < k, 10 / 2 ^ 52 < |Spec.jacobi n a b (N^[j] x₀)| := by
  intro N x₀
  have htol : tolerance = 10 / 2 ^ 52 := by unfold tolerance; ring
  have hstep : ∀ x, x - jacobiP n a b x / jacobiPDerivative n a b x = N x := by
    intro x
    simp only [N]
    rw [jacobi_eq, (jacobi_deriv n a b x).deriv]
  -- the loop after its first pass
  have loop : ∀ fuel x P dP y, y = x - P / dP →
      ∃ k ≤ fuel, (newton n a b (fuel + 1) x P dP).1 = N^[k] y ∧
        (k < fuel → |Spec.jacobi n a b (N^[k] y)| ≤ 10 / 2 ^ 52) ∧
        ∀ j < k, 10 / 2 ^ 52 < |Spec.jacobi n a b (N^[j] y)| := by
    intro fuel
    induction fuel with
    | zero =>
      intro x P dP y hy
      exact ⟨0, le_rfl, by simp [newton, hy], by omega, by omega⟩
    | succ fuel ih =>
      intro x P dP y hy
      unfold newton
      simp only [← hy]
      by_cases hc : tolerance < |jacobiP n a b y| ∧ fuel + 1 ≠ 0
      · rw [if_pos hc]
        obtain ⟨k, hk, h1, h2, h3⟩ := ih y (jacobiP n a b y) (jacobiPDerivative n a b y) (N y) (hstep y).symm
        refine ⟨k + 1, by omega, by rw [h1, Function.iterate_succ_apply], fun hk' => ?_, fun j hj => ?_⟩
        · rw [Function.iterate_succ_apply]; exact h2 (by omega)
        · cases j with
          | zero => rw [Function.iterate_zero, id, ← jacobi_eq, ← htol]; exact hc.1
          | succ j => rw [Function.iterate_succ_apply]; exact h3 j (by omega)
      · rw [if_neg hc]
        refine ⟨0, by omega, rfl, fun _ => ?_, by omega⟩
        rw [Function.iterate_zero, id, ← jacobi_eq, ← htol]
        by_contra h
        exact hc ⟨not_le.1 h, by omega⟩
  have hx0 : guess n a b (i + 1) = x₀ := by
    simp only [guess, x₀]
    congr 1
    push_cast
    congr 1 <;> ring
  obtain ⟨k, hk, h1, h2, h3⟩ := loop 99 (guess n a b (i + 1)) 0 1 x₀ (by rw [hx0]; ring)
  refine ⟨k, hk, ?_, h2, h3⟩
  unfold gaussJacobi
  simp only [List.map_map, List.getElem?_map, List.getElem?_range hi, Option.map_some,
    Function.comp_apply]
  rw [← h1]; rfl

/-- Points after one exact step: for a linear polynomial Newton's method is exact. -/
theorem newton_linear (a : ℕ) (h : tolerance < |jacobiP 1 a 0 (guess 1 a 0 1)| ∨
    jacobiP 1 a 0 (guess 1 a 0 1) = 0) : Spec.JacobiNodes 1 a 0 (gaussJacobi 1 a 0).points := by
  have hlin : ∀ x, jacobiP 1 a 0 x = (1 / 2) * a + (1 + (1 / 2) * a) * x := by
    intro x; simp [jacobiP]
  have hder : ∀ x, jacobiPDerivative 1 a 0 x = (1 / 2) * (1 + a + 0 + 1) := by
    intro x; simp [jacobiPDerivative, jacobiP]
  have htol : 0 < tolerance := by unfold tolerance; positivity
  have hd0 : ((1:ℝ) + (1 / 2) * a) ≠ 0 := by positivity
  have hp : (gaussJacobi 1 a 0).points = [(newton 1 a 0 maxIterations (guess 1 a 0 1) 0 1).1] := by
    simp [gaussJacobi]
  have hz : jacobiP 1 a 0 (newton 1 a 0 maxIterations (guess 1 a 0 1) 0 1).1 = 0 := by
    rw [show maxIterations = 98 + 1 + 1 from rfl]
    unfold newton
    simp only [zero_div, sub_zero]
    rcases h with h | h
    · rw [if_pos ⟨h, by omega⟩]
      unfold newton
      have hx : jacobiP 1 a 0 (guess 1 a 0 1 - jacobiP 1 a 0 (guess 1 a 0 1)
          / jacobiPDerivative 1 a 0 (guess 1 a 0 1)) = 0 := by
        rw [hlin (guess 1 a 0 1), hder, hlin]
        have : ((1:ℝ) / 2) * (1 + a + 0 + 1) = 1 + (1 / 2) * a := by ring
        rw [this]
        field_simp
        ring
      simp only [hx]
      rw [if_neg (by rintro ⟨h', _⟩; rw [abs_zero] at h'; linarith)]
      exact hx
    · rw [if_neg (by rintro ⟨h', _⟩; rw [h, abs_zero] at h'; linarith)]
      exact h
  rw [hp]
  refine ⟨by simp, rfl, fun x hx => ?_⟩
  rw [List.mem_singleton] at hx
  rw [hx, ← jacobi_eq]; exact hz

theorem tolerance_small : tolerance < 1 / 100 := by unfold tolerance; norm_num

theorem one_point (a : ℕ) (ha : a < 3) : Spec.JacobiNodes 1 a 0 (gaussJacobi 1 a 0).points := by
  have ht := tolerance_small
  have hval : jacobiP 1 a 0 (guess 1 a 0 1) = (1 / 2) * a + (1 + (1 / 2) * a) * guess 1 a 0 1 := by
    simp [jacobiP]
  apply newton_linear
  interval_cases a
  · right
    rw [hval]
    have : guess 1 0 0 1 = 0 := by
      unfold guess
      rw [← Real.cos_pi_div_two]
      congr 1
      push_cast; ring
    rw [this]; simp
  · left
    rw [hval]
    have : guess 1 1 0 1 = - Real.sin (Real.pi / 8) := by
      unfold guess
      rw [← Real.cos_add_pi_div_two]
      congr 1
      push_cast; ring
    have h1 : (0.36 : ℝ) < Real.sin (Real.pi / 8) := by
      rw [Real.sin_pi_div_eight]
      have h2 : √(2:ℝ) < 1.42 := by
        rw [Real.sqrt_lt' (by norm_num)]; norm_num
      have h3 : (0.72 : ℝ) < √(2 - √2) := by
        rw [Real.lt_sqrt (by norm_num)]; linarith
      linarith
    rw [this]
    refine lt_of_lt_of_le ?_ (neg_le_abs _)
    push_cast
    linarith
  · left
    rw [hval]
    have h1 : guess 1 2 0 1 = - Real.sin (Real.pi / 5) := by
      unfold guess
      rw [← Real.cos_add_pi_div_two]
      congr 1
      push_cast; ring
    have h2 : (0.52 : ℝ) < Real.sin (Real.pi / 5) := by
      have hc := Real.cos_pi_div_five
      have h5 : √(5:ℝ) < 2.24 := by
        rw [Real.sqrt_lt' (by norm_num)]; norm_num
      have h0 : (0:ℝ) < √5 := by positivity
      have hpos : 0 < Real.sin (Real.pi / 5) := Real.sin_pos_of_pos_of_lt_pi (by positivity) (by linarith [Real.pi_pos])
      have hs := Real.sin_sq_add_cos_sq (Real.pi / 5)
      rw [hc] at hs
      nlinarith [Real.sq_sqrt (show (0:ℝ) ≤ 5 by norm_num)]
    rw [h1]
    refine lt_of_lt_of_le ?_ (neg_le_abs _)
    push_cast
    linarith

/-- The hypotheses are met: the rules with one point per dimension need no assumption. -/
theorem C57_one_point (D q : ℕ) (hD : D = 1 ∨ D = 2 ∨ D = 3) (hq : q ≤ 1) :
    Spec.ExactQuadrature D q (tensorRule D q).rule.points (tensorRule D q).rule.weights := by
  have hp : pointsPerDim q = 1 := by unfold pointsPerDim; omega
  refine simplex_exact D q hD (by omega) fun a ha => ?_
  rw [hp]
  exact one_point a (by omega)

theorem tensorSize_eq (D q : ℕ) (hD : D = 1 ∨ D = 2 ∨ D = 3) :
    tensorSize D q = pointsPerDim q ^ D % 2 ^ 64 := by
  rcases hD with rfl | rfl | rfl <;>
    simp [tensorSize, List.range_succ, pow_succ, Nat.mod_mul_mod, Nat.mul_mod]

theorem length_unit (n a b : ℕ) : (changeInterval (gaussJacobi n a b) 0 1).entries.length = n := by
  rw [unit_entries]; simp [gaussJacobi]

theorem length_tensor (D q : ℕ) (hD : D = 1 ∨ D = 2 ∨ D = 3) :
    (tensorRule D q).rule.points.length = pointsPerDim q ^ D ∧
    (tensorRule D q).order = 2 * (pointsPerDim q : ℤ) - 1 := by
  rcases hD with rfl | rfl | rfl <;>
    simp [tensorRule, tensor1, tensor2, tensor3, ofEntries, length_unit, List.length_flatMap,
      List.map_const', List.sum_replicate, pow_succ, mul_comm, mul_assoc]

/-- A polynomial composed with an affine scaling of the coordinates. -/
theorem isPoly_affine (D N : ℕ) (f : (Fin D → ℝ) → ℝ) (hf : Spec.IsPoly D N f) (s t : ℝ) :
    Spec.IsPoly D N (fun x => f fun d => s * x d + t) := by
  obtain ⟨p, hp, hf⟩ := hf
  have e : (fun x => f fun d => s * x d + t)
      = fun x : Fin D → ℝ => ∑ m ∈ p.support, p.coeff m * ∏ d, (s * x d + t) ^ m d := by
    funext x; rw [hf, MvPolynomial.eval_eq']
  rw [e]
  refine isPoly_sum D N _ _ fun m hm => isPoly_const_mul D N _ _ ?_
  have hdeg := (MvPolynomial.le_totalDegree hm).trans hp
  rw [Finsupp.sum_fintype _ _ (fun _ => rfl)] at hdeg
  refine isPoly_mono D _ N hdeg _ (isPoly_prod D univ (fun d => m d) _ fun d _ => ?_)
  have h1 : Spec.IsPoly D 1 (fun x => s * x d + t) :=
    isPoly_add D 1 _ _ (isPoly_const_mul D 1 s _ (isPoly_coord D d)) (isPoly_const D 1 t)
  have := isPoly_prod D (range (m d)) (fun _ => 1) (fun _ x => s * x d + t) (fun _ _ => h1)
  simpa using this

theorem transformWV_exact {D N : ℕ} (r : Rule D) (h : Spec.ExactBiunit D N r.points r.weights) :
    Spec.ExactQuadrature D N (transformWV r).points (transformWV r).weights := by
  refine ⟨by simp [transformWV, h.1], fun f hf => ?_⟩
  have hg := h.2 _ (isPoly_affine D N f hf 0.5 0.5)
  unfold transformWV
  simp only
  rw [List.zip_map, List.map_map]
  have e : ((fun pw : (Fin D → ℝ) × ℝ => pw.2 * f pw.1) ∘ Prod.map (fun pt d => 0.5 * pt d + 0.5) fun w => w / 2 ^ D)
      = fun pw : (Fin D → ℝ) × ℝ => (2 ^ D)⁻¹ * (pw.2 * f fun d => 0.5 * pw.1 d + 0.5) := by
    funext pw
    simp only [Function.comp_apply, Prod.map]
    ring
  rw [e, sum_mul_left', hg, ← mul_assoc, inv_mul_cancel₀ (by positivity), one_mul]
  congr 1
  funext x
  congr 1
  funext d
  ring

theorem transformJS_exact {N : ℕ} (r : Rule 3) (h : Spec.ExactMean N r.points r.weights) :
    Spec.ExactQuadrature 3 N (transformJS r).points (transformJS r).weights := by
  refine ⟨by simp [transformJS, h.1], fun f hf => ?_⟩
  have hg := h.2 f hf
  unfold transformJS
  simp only
  rw [List.zip_map_right, List.map_map]
  have e : ((fun pw : (Fin 3 → ℝ) × ℝ => pw.2 * f pw.1) ∘ Prod.map id fun w => w / 6)
      = fun pw : (Fin 3 → ℝ) × ℝ => 6⁻¹ * (pw.2 * f pw.1) := by
    funext pw
    simp only [Function.comp_apply, Prod.map, id]
    ring
  rw [e, sum_mul_left', hg]
  ring

theorem lowerBound_spec {D : ℕ} (t : Tab D) (q : ℕ) :
    (∀ e, lowerBound t q = some e → e ∈ t ∧ q ≤ e.1) ∧
    (lowerBound t q = none → ∀ e ∈ t, ¬ q ≤ e.1) := by
  refine ⟨fun e h => ⟨List.mem_of_find?_eq_some h, by simpa using List.find?_some h⟩, fun h e he => ?_⟩
  have := List.find?_eq_none.1 h e he
  simpa using this

/-- The first entry of sufficient order in a sorted table is the one of smallest order. -/
theorem lowerBound_min {D : ℕ} (t : Tab D) (ht : t.Pairwise fun e f => e.1 < f.1) (q : ℕ)
    (e : ℕ × Rule D) (he : e ∈ t) (hq : q ≤ e.1) (hmin : ∀ f ∈ t, q ≤ f.1 → e.1 ≤ f.1) :
    lowerBound t q = some e := by
  unfold lowerBound
  induction t with
  | nil => simp at he
  | cons f t ih =>
    rw [List.pairwise_cons] at ht
    rw [List.find?_cons]
    by_cases hf : q ≤ f.1
    · simp only [hf, decide_true]
      rcases List.mem_cons.1 he with rfl | he
      · rfl
      · have h1 := ht.1 e he
        have h2 := hmin f (by simp) hf
        omega
    · simp only [hf, decide_false]
      rcases List.mem_cons.1 he with rfl | he
      · exact absurd hq hf
      · exact ih ht.2 he fun f' hf' => hmin f' (by simp [hf'])

/-- What `minSize` returns: the rule of a candidate whose size is smallest. -/
theorem minSize_spec {D : ℕ} (q : ℕ) : ∀ (l : List (Candidate D)) (c : Candidate D),
    ∃ c' ∈ c :: l, minSize q c l = c'.get q ∧ ∀ c'' ∈ c :: l, c'.size q ≤ c''.size q := by
  intro l
  induction l with
  | nil => intro c; exact ⟨c, by simp, rfl, by simp⟩
  | cons c2 l ih =>
    intro c
    unfold minSize
    by_cases h : c.size q ≤ c2.size q
    · rw [if_pos h]
      obtain ⟨c', h1, h2, h3⟩ := ih c
      refine ⟨c', by rcases List.mem_cons.1 h1 with h | h <;> simp [h], h2, fun c'' hc'' => ?_⟩
      simp only [List.mem_cons] at hc''
      rcases hc'' with rfl | rfl | hc''
      · exact h3 _ (by simp)
      · exact (h3 c (by simp)).trans h
      · exact h3 _ (by simp [hc''])
    · rw [if_neg h]
      obtain ⟨c', h1, h2, h3⟩ := ih c2
      refine ⟨c', by simp only [List.mem_cons] at h1 ⊢; tauto, h2, fun c'' hc'' => ?_⟩
      simp only [List.mem_cons] at hc''
      rcases hc'' with rfl | rfl | hc''
      · exact (h3 c2 (by simp)).trans (by omega)
      · exact h3 _ (by simp)
      · exact h3 _ (by simp [hc''])

/-- A candidate behaves well if `size` below the maximum means a rule of that size, of sufficient
order, with property `Q`. -/
def Good {D : ℕ} (Q : SimplexRule D → Prop) (q : ℕ) (c : Candidate D) : Prop :=
  c.size q < sizeMax → (c.get q).rule.points.length = c.size q ∧ (q : ℤ) ≤ (c.get q).order ∧ Q (c.get q)

theorem good_tab {D : ℕ} (Q : SimplexRule D → Prop) (tr : Rule D → Rule D) (t : Tab D) (q : ℕ)
    (htr : ∀ r, (tr r).points.length = r.points.length)
    (hQ : ∀ e ∈ t, q ≤ e.1 → Q ⟨tr e.2, e.1⟩) : Good Q q ⟨tabSize t, tabGet tr t⟩ := by
  intro h
  simp only [tabSize, tabGet] at h ⊢
  cases hb : lowerBound t q with
  | none => rw [hb] at h; simp at h
  | some e =>
    obtain ⟨h1, h2⟩ := (lowerBound_spec t q).1 e hb
    simp only
    exact ⟨htr _, by exact_mod_cast h2, hQ e h1 h2⟩

theorem good_tensor {D : ℕ} (hD : D = 1 ∨ D = 2 ∨ D = 3) (Q : SimplexRule D → Prop) (q : ℕ)
    (hsz : pointsPerDim q ^ D < sizeMax) (hQ : Q (tensorRule D q)) : Good Q q (candTensor D) := by
  intro _
  obtain ⟨h1, h2⟩ := length_tensor D q hD
  refine ⟨?_, ?_, hQ⟩
  · simp only [candTensor]
    rw [h1, tensorSize_eq D q hD, Nat.mod_eq_of_lt]
    unfold sizeMax at hsz; omega
  · simp only [candTensor]
    rw [h2]; unfold pointsPerDim; omega

/-- The choice in general: the returned rule is that of a candidate of smallest size, and it has all
the properties of that candidate. -/
theorem choice {D : ℕ} (Q : SimplexRule D → Prop) (q : ℕ) (c : Candidate D) (l : List (Candidate D))
    (hg : ∀ c' ∈ c :: l, Good Q q c') (hs : ∃ c' ∈ c :: l, c'.size q < sizeMax) :
    (q : ℤ) ≤ (minSize q c l).order ∧ Q (minSize q c l) ∧
      ∀ c' ∈ c :: l, (minSize q c l).rule.points.length ≤ c'.size q := by
  obtain ⟨c', h1, h2, h3⟩ := minSize_spec q l c
  obtain ⟨c0, h4, h5⟩ := hs
  obtain ⟨g1, g2, g3⟩ := hg c' h1 (lt_of_le_of_lt (h3 c0 h4) h5)
  rw [h2]
  exact ⟨g2, g3, fun c'' hc'' => by rw [g1]; exact h3 c'' hc''⟩

theorem tensor_lt {D : ℕ} (hD : D = 1 ∨ D = 2 ∨ D = 3) (q : ℕ) (hsz : pointsPerDim q ^ D < sizeMax) :
    tensorSize D q = pointsPerDim q ^ D := by
  rw [tensorSize_eq D q hD, Nat.mod_eq_of_lt]
  unfold sizeMax at hsz; omega

/-- All about `simplexQuadratureRule` at once. -/
theorem auto_spec (wv2 : Tab 2) (wv3 js : Tab 3) (Q : (D : ℕ) → SimplexRule D → Prop) (D q : ℕ)
    (hD : D = 1 ∨ D = 2 ∨ D = 3) (hsz : pointsPerDim q ^ D < sizeMax)
    (hT : Q D (tensorRule D q))
    (hw2 : ∀ e ∈ wv2, q ≤ e.1 → Q 2 ⟨transformWV e.2, e.1⟩)
    (hw3 : ∀ e ∈ wv3, q ≤ e.1 → Q 3 ⟨transformWV e.2, e.1⟩)
    (hj : ∀ e ∈ js, q ≤ e.1 → Q 3 ⟨transformJS e.2, e.1⟩) :
    let R := simplexQuadratureRule wv2 wv3 js D q
    (q : ℤ) ≤ R.order ∧ Q D R ∧ R.rule.points.length ≤ pointsPerDim q ^ D ∧
    (D = 2 → R.rule.points.length ≤ tabSize wv2 q) ∧
    (D = 3 → R.rule.points.length ≤ tabSize wv3 q ∧ R.rule.points.length ≤ tabSize js q) := by
  have hl := tensor_lt hD q hsz
  have gT := good_tensor hD (Q D) q hsz hT
  have hTs : (candTensor D).size q < sizeMax := by simp only [candTensor]; rw [hl]; exact hsz
  rcases hD with rfl | rfl | rfl
  · obtain ⟨h1, h2⟩ := length_tensor 1 q (by simp)
    refine ⟨?_, hT, ?_, by omega, by omega⟩
    · show (q : ℤ) ≤ (tensorRule 1 q).order
      rw [h2]; unfold pointsPerDim; omega
    · exact h1.le
  · have g2 := good_tab (Q 2) transformWV wv2 q (fun r => by simp [transformWV]) hw2
    have := choice (Q 2) q (candWV wv2) [candTensor 2] (by
      intro c' hc'
      simp only [List.mem_cons, List.not_mem_nil, or_false] at hc'
      rcases hc' with rfl | rfl
      exacts [g2, gT]) ⟨candTensor 2, by simp, hTs⟩
    refine ⟨this.1, this.2.1, ?_, fun _ => this.2.2 (candWV wv2) (by simp), by omega⟩
    have h := this.2.2 (candTensor 2) (by simp)
    simp only [candTensor] at h
    rw [hl] at h; exact h
  · have g2 := good_tab (Q 3) transformWV wv3 q (fun r => by simp [transformWV]) hw3
    have g3 := good_tab (Q 3) transformJS js q (fun r => by simp [transformJS]) hj
    have := choice (Q 3) q (candJS js) [candWV wv3, candTensor 3] (by
      intro c' hc'
      simp only [List.mem_cons, List.not_mem_nil, or_false] at hc'
      rcases hc' with rfl | rfl | rfl
      exacts [g3, g2, gT]) ⟨candTensor 3, by simp, hTs⟩
    refine ⟨this.1, this.2.1, ?_, by omega, fun _ => ⟨this.2.2 (candWV wv3) (by simp), this.2.2 (candJS js) (by simp)⟩⟩
    have h := this.2.2 (candTensor 3) (by simp)
    simp only [candTensor] at h
    rw [hl] at h; exact h

/-- C63 (order and size): for all tables and every requested order, the rule that is returned has at
least the requested order, and no available rule (the tensor product rule and, of each sorted table,
the rule of the smallest sufficient order) has fewer points. -/
theorem C63_choice (wv2 : Tab 2) (wv3 js : Tab 3) (D q : ℕ) (hD : D = 1 ∨ D = 2 ∨ D = 3)
    (hsz : (1 + q / 2) ^ D < 2 ^ 64 - 1)
    (h2 : wv2.Pairwise fun e f => e.1 < f.1) (h3 : wv3.Pairwise fun e f => e.1 < f.1)
    (hj : js.Pairwise fun e f => e.1 < f.1) :
    let R := simplexQuadratureRule wv2 wv3 js D q
    (q : ℤ) ≤ R.order ∧ R.rule.points.length ≤ (1 + q / 2) ^ D ∧
    (D = 2 → ∀ e ∈ wv2, q ≤ e.1 → (∀ f ∈ wv2, q ≤ f.1 → e.1 ≤ f.1) →
      R.rule.points.length ≤ e.2.points.length) ∧
    (D = 3 → ∀ t, t = wv3 ∨ t = js → ∀ e ∈ t, q ≤ e.1 → (∀ f ∈ t, q ≤ f.1 → e.1 ≤ f.1) →
      R.rule.points.length ≤ e.2.points.length) := by
  intro R
  have := auto_spec wv2 wv3 js (fun _ _ => True) D q hD hsz trivial (fun _ _ _ => trivial)
    (fun _ _ _ => trivial) (fun _ _ _ => trivial)
  obtain ⟨a1, _, a3, a4, a5⟩ := this
  refine ⟨a1, a3, fun h e he hq hm => ?_, fun h t ht e he hq hm => ?_⟩
  · have := a4 h
    rwa [tabSize, lowerBound_min wv2 h2 q e he hq hm] at this
  · obtain ⟨b1, b2⟩ := a5 h
    rcases ht with rfl | rfl
    · rwa [tabSize, lowerBound_min _ h3 q e he hq hm] at b1
    · rwa [tabSize, lowerBound_min _ hj q e he hq hm] at b2

/-- The hypotheses are met: the centroid rule of the biunit triangle is exact for degree one, and is
chosen there. -/
example : Spec.ExactBiunit 2 1 [![-1/3, -1/3]] [2] ∧
    (simplexQuadratureRule [(1, ⟨[![-1/3, -1/3]], [2]⟩)] [] [] 2 1).rule.points.length = 1 := by
  constructor
  · have h := C57_one_point 2 1 (by simp) le_rfl
    refine ⟨rfl, fun f hf => ?_⟩
    have hm : Spec.ExactQuadrature 2 1 [![1/3, 1/3]] [1/2] := by
      refine exact_of_monomials 2 1 (by simp) _ _ rfl fun m hm => ?_
      rw [Fin.sum_univ_two] at hm
      have : (m 0 = 0 ∧ m 1 = 0) ∨ (m 0 = 1 ∧ m 1 = 0) ∨ (m 0 = 0 ∧ m 1 = 1) := by omega
      rcases this with ⟨h0, h1⟩ | ⟨h0, h1⟩ | ⟨h0, h1⟩ <;>
        simp [moment, Fin.prod_univ_two, Fin.sum_univ_two, h0, h1, Nat.factorial] <;> norm_num
    have := hm.2 _ (isPoly_affine 2 1 f hf 2 (-1))
    simp only [List.zip_cons_cons, List.zip_nil_right, List.map_cons, List.map_nil, List.sum_cons,
      List.sum_nil, add_zero] at this ⊢
    have e1 : (fun d => 2 * (![1/3, 1/3] : Fin 2 → ℝ) d + -1) = ![-1/3, -1/3] := by
      funext d; fin_cases d <;> norm_num
    have e2 : (fun x : Fin 2 → ℝ => f fun d => 2 * x d + -1) = fun x => f fun d => 2 * x d - 1 := rfl
    rw [e1, e2] at this
    rw [← this]; ring
  · simp [simplexQuadratureRule, minSize, candWV, candTensor, tabSize, lowerBound, tensorSize,
      pointsPerDim, List.range_succ, tabGet, transformWV]

/-- Non-vacuity of C82: Simpson's rule is exact for products of linear functions on the line. -/
example : Spec.ExactQuadrature 1 (2 * 1) [![0], ![1/2], ![1]] [1/6, 2/3, 1/6] := by
  refine exact_of_monomials 1 2 (by simp) _ _ rfl fun m hm => ?_
  rw [Fin.sum_univ_one] at hm
  have : m 0 = 0 ∨ m 0 = 1 ∨ m 0 = 2 := by omega
  rcases this with h | h | h <;> simp [moment, h, Nat.factorial] <;> norm_num

/-- Non-vacuity of C82 on the triangle: the rule in the middle points of the edges. -/
example : Spec.ExactQuadrature 2 (2 * 1) [![1/2, 0], ![0, 1/2], ![1/2, 1/2]] [1/6, 1/6, 1/6] := by
  refine exact_of_monomials 2 2 (by simp) _ _ rfl fun m hm => ?_
  rw [Fin.sum_univ_two] at hm
  have : (m 0 = 0 ∧ m 1 = 0) ∨ (m 0 = 1 ∧ m 1 = 0) ∨ (m 0 = 0 ∧ m 1 = 1) ∨ (m 0 = 2 ∧ m 1 = 0)
    ∨ (m 0 = 1 ∧ m 1 = 1) ∨ (m 0 = 0 ∧ m 1 = 2) := by omega
  rcases this with ⟨h0, h1⟩ | ⟨h0, h1⟩ | ⟨h0, h1⟩ | ⟨h0, h1⟩ | ⟨h0, h1⟩ | ⟨h0, h1⟩ <;>
    simp [moment, Fin.prod_univ_two, Fin.sum_univ_two, h0, h1, Nat.factorial] <;> norm_num

end Tandem.Quadrature
