import Verif.Props.Quadrature
import Verif.Lemmas.QuadTable
/-! # C57, C63: quadrature with points close to the roots -/
namespace Tandem.Quadrature
open Functions RefElement Finset Polynomial Filter Topology

/-- A property that holds near each root holds within one distance of all roots. -/
theorem near_core (n a b : ℕ) (R : ℝ → ℝ → Prop)
    (h : ∀ u ∈ jroots n a b, ∀ᶠ x in 𝓝 (2 * u - 1), R (2 * u - 1) x) :
    ∃ δ > 0, ∀ r x, Spec.jacobi n a b r = 0 → |x - r| ≤ δ → R r x := by
  have h1 : ∀ᶠ δ in 𝓝[>] (0:ℝ), ∀ u ∈ jroots n a b, ∀ x, |x - (2 * u - 1)| ≤ δ → R (2 * u - 1) x := by
    rw [Filter.eventually_all_finset]
    intro u hu
    obtain ⟨ε, hε, hR⟩ := Metric.eventually_nhds_iff.1 (h u hu)
    filter_upwards [Ioo_mem_nhdsGT hε] with δ hδ x hx
    exact hR (lt_of_le_of_lt (by rw [Real.dist_eq]; exact hx) hδ.2)
  obtain ⟨δ, h2, h3⟩ := (h1.and self_mem_nhdsWithin).exists
  refine ⟨δ, h3, fun r x hr hx => ?_⟩
  have hu : (r + 1) / 2 ∈ jroots n a b := by
    rw [mem_jroots, eval_jpoly, show 2 * ((r + 1) / 2) - 1 = r by ring]; exact hr
  have := h2 _ hu x
  rw [show 2 * ((r + 1) / 2) - 1 = r by ring] at this
  exact this hx

theorem jacobi_continuous (n a b : ℕ) : Continuous (Spec.jacobi n a b) := by
  have : Spec.jacobi n a b = fun x => (jpoly n a b).eval ((x + 1) / 2) := by
    funext x; rw [eval_jpoly, show 2 * ((x + 1) / 2) - 1 = x by ring]
  rw [this]
  exact (jpoly n a b).continuous.comp (by fun_prop)

theorem deriv_continuous (n a b : ℕ) : Continuous (deriv (Spec.jacobi n a b)) := by
  have : deriv (Spec.jacobi n a b) = fun x => (jpoly n a b).derivative.eval ((x + 1) / 2) / 2 := by
    funext x
    rw [(jacobi_deriv n a b x).deriv, deriv_jpoly, show 2 * ((x + 1) / 2) - 1 = x by ring]; ring
  rw [this]
  exact ((jpoly n a b).derivative.continuous.comp (by fun_prop)).div_const _

theorem gaussWeight_continuousAt (n a b : ℕ) (hn : 0 < n) (u : ℝ) (hu : u ∈ jroots n a b) :
    ContinuousAt (Spec.gaussWeight n a b) (2 * u - 1) ∧ 0 < Spec.gaussWeight n a b (2 * u - 1) := by
  have hpos : 0 < Spec.gaussWeight n a b (2 * u - 1) := by
    rw [gaussWeight_eq n a b hn u hu]; exact mul_pos (by positivity) (gw_pos n a b u hu)
  refine ⟨?_, hpos⟩
  have hne : Spec.jacobi (n + 1) a b (2 * u - 1) * deriv (Spec.jacobi n a b) (2 * u - 1) ≠ 0 := by
    intro h
    unfold Spec.gaussWeight at hpos
    rw [h, div_zero] at hpos
    exact lt_irrefl _ hpos
  unfold Spec.gaussWeight
  exact continuousAt_const.div (((jacobi_continuous (n + 1) a b).mul (deriv_continuous n a b)).continuousAt) hne

/-- Finitely many sums over points near the roots are close to the sums over the roots. -/
theorem near_sums {ι : Type*} (n a b : ℕ) (hn : 0 < n) (s : Finset ι) (G : ι → ℝ → ℝ)
    (hG : ∀ j, Continuous (G j)) (ε : ℝ) (hε : 0 < ε) :
    ∃ δ > 0, ∀ xs, Spec.NearRoots n a b δ xs →
      (∀ x ∈ xs, 0 < Spec.gaussWeight n a b x ∧ -1 < x ∧ x < 1) ∧
      ∃ roots, Spec.JacobiNodes n a b roots ∧ ∀ j ∈ s,
        |(xs.map fun x => Spec.gaussWeight n a b x * G j x).sum
          - (roots.map fun x => Spec.gaussWeight n a b x * G j x).sum| ≤ ε := by
  obtain ⟨δ, hδ, h⟩ := near_core n a b (fun r x => (0 < Spec.gaussWeight n a b x ∧ -1 < x ∧ x < 1) ∧
    ∀ j ∈ s, |Spec.gaussWeight n a b x * G j x - Spec.gaussWeight n a b r * G j r| ≤ ε / n) (by
    intro u hu
    obtain ⟨hc, hp⟩ := gaussWeight_continuousAt n a b hn u hu
    have hr := (jpoly_roots n a b).2.2 u (Multiset.mem_toFinset.1 hu)
    refine Filter.Eventually.and ?_ ((Filter.eventually_all_finset s).2 fun j _ => ?_)
    · exact (hc.eventually (lt_mem_nhds hp)).and
        ((lt_mem_nhds (by linarith [hr.1])).and (gt_mem_nhds (by linarith [hr.2])))
    · have := (hc.mul (hG j).continuousAt).eventually (Metric.closedBall_mem_nhds _ (show 0 < ε / n by positivity))
      filter_upwards [this] with x hx
      simpa [Real.dist_eq] using hx)
  refine ⟨δ, hδ, fun xs hxs => ?_⟩
  obtain ⟨roots, hr, hf⟩ := hxs
  have hz := hr.2.2
  refine ⟨fun x hx => ?_, roots, hr, fun j hj => ?_⟩
  · clear hr
    induction hf with
    | nil => simp at hx
    | @cons x' r xs roots h1 _ ih =>
      rcases List.mem_cons.1 hx with rfl | hx
      · exact (h r _ (hz r (by simp)) h1).1
      · exact ih (fun r hr => hz r (by simp [hr])) hx
  · have key : |(xs.map fun x => Spec.gaussWeight n a b x * G j x).sum
          - (roots.map fun x => Spec.gaussWeight n a b x * G j x).sum| ≤ roots.length * (ε / n) := by
      clear hr
      induction hf with
      | nil => simp
      | @cons x r xs roots h1 _ ih =>
        simp only [List.map_cons, List.sum_cons, List.length_cons, Nat.cast_succ]
        rw [add_sub_add_comm]
        refine (abs_add_le _ _).trans ?_
        have := (h r x (hz r (by simp)) h1).2 j hj
        have := ih fun r hr => hz r (by simp [hr])
        linarith
    rw [hr.2.1] at key
    refine key.trans (le_of_eq ?_)
    field_simp

/-- C57 (the program's Gauss-Jacobi rule, for all numbers of points and exponents): the closer Newton's
method comes to the roots, the more exact is the rule. For every `ε > 0` there is `δ > 0` such that if
the points the program computes are within `δ` of the roots, the rule integrates all polynomials of
degree at most `2n-1` up to `ε` times the sum of the absolute values of the coefficients, and weights are
positive and points inside. -/
theorem C57_gauss_jacobi_partial (n a b : ℕ) (hn : 0 < n) (hM : n + a + b < 2 ^ 64 - 1)
    (hov : (n + a + b) ^ b < 2 ^ 64) (ε : ℝ) (hε : 0 < ε) : ∃ δ > 0,
    Spec.NearRoots n a b δ (gaussJacobi n a b).points →
      Spec.AlmostWeighted (2 * n - 1) a b ε (gaussJacobi n a b).points (gaussJacobi n a b).weights ∧
      (∀ w ∈ (gaussJacobi n a b).weights, 0 < w) ∧ ∀ x ∈ (gaussJacobi n a b).points, -1 < x ∧ x < 1 := by
  obtain ⟨δ, hδ, h⟩ := near_sums n a b hn (range (2 * n)) (fun k x => x ^ k) (fun k => continuous_pow k) ε hε
  refine ⟨δ, hδ, fun hnear => ?_⟩
  obtain ⟨h1, roots, h2, h3⟩ := h _ hnear
  rw [C57_weights n a b hM hov]
  refine ⟨⟨by rw [List.length_map], fun p hp => ?_⟩, ?_, fun x hx => (h1 x hx).2⟩
  · have hE := (gauss_exact n a b hn roots h2).2 p hp
    rw [← hE, zip_map_self, zip_map_self, List.map_map, List.map_map]
    have lin : ∀ l : List ℝ, (l.map ((fun pw : ℝ × ℝ => pw.2 * p.eval pw.1) ∘ fun x => (x, Spec.gaussWeight n a b x))).sum
        = ∑ k ∈ p.support, p.coeff k * (l.map fun x => Spec.gaussWeight n a b x * x ^ k).sum := by
      intro l
      induction l with
      | nil => simp
      | cons x l ih =>
        simp only [List.map_cons, List.sum_cons, mul_add, sum_add_distrib]
        rw [ih]
        congr 1
        simp only [Function.comp_apply]
        rw [Polynomial.eval_eq_sum, Polynomial.sum, mul_sum]
        exact sum_congr rfl fun k _ => by ring
    rw [lin, lin, ← sum_sub_distrib, mul_sum]
    refine (abs_sum_le_sum_abs _ _).trans (sum_le_sum fun k hk => ?_)
    rw [← mul_sub, abs_mul, mul_comm]
    refine mul_le_mul_of_nonneg_right (h3 k ?_) (abs_nonneg _)
    have := le_natDegree_of_mem_supp k hk
    rw [mem_range]; omega
  · intro w hw
    obtain ⟨x, hx, rfl⟩ := List.mem_map.1 hw
    exact (h1 x hx).1

/-- C57 (the program's tensor product rules, for all orders and dimensions 1, 2, 3): the closer Newton's
method comes to the roots, the more exact is the rule on the reference simplex. -/
theorem C57_simplex_partial (D q : ℕ) (hD : D = 1 ∨ D = 2 ∨ D = 3) (hq : q < 2 ^ 32) (ε : ℝ) (hε : 0 < ε) :
    ∃ δ > 0, (∀ a < D, Spec.NearRoots (1 + q / 2) a 0 δ (gaussJacobi (1 + q / 2) a 0).points) →
      Spec.AlmostExact D q ε (tensorRule D q).rule.points (tensorRule D q).rule.weights ∧
      (∀ w ∈ (tensorRule D q).rule.weights, 0 < w) ∧
      ∀ x ∈ (tensorRule D q).rule.points, Spec.InRefSimplex x := by
  set n := 1 + q / 2 with hnq
  have hpp : pointsPerDim q = n := rfl
  have hn : 0 < n := by omega
  have hM : ∀ a < 3, n + a < 2 ^ 64 - 1 := by omega
  set η := min 1 (ε / 8) with hη
  have hη0 : 0 < η := lt_min one_pos (by positivity)
  -- one distance per exponent
  have step : ∀ a < 3, ∃ δ > 0, Spec.NearRoots n a 0 δ (gaussJacobi n a 0).points →
      (∀ i k, i + k ≤ q → |S (changeInterval (gaussJacobi n a 0) 0 1).entries i k - M a i k| ≤ η) ∧
      ∀ e ∈ (changeInterval (gaussJacobi n a 0) 0 1).entries, 0 < e.2 ∧ 0 ≤ e.1 ∧ e.1 ≤ 1 := by
    intro a ha
    obtain ⟨δ, hδ, h⟩ := near_sums n a 0 hn ((range (q + 1)) ×ˢ (range (q + 1)))
      (fun ik x => 0.5 * (((x + 1) / 2) ^ ik.1 * (1 - (x + 1) / 2) ^ ik.2)) (fun ik => by fun_prop) η hη0
    refine ⟨δ, hδ, fun hnear => ?_⟩
    obtain ⟨h1, roots, h2, h3⟩ := h _ hnear
    constructor
    · intro i k hik
      have := h3 (i, k) (by simp only [mem_product, mem_range]; omega)
      simp only [← mul_assoc (Spec.gaussWeight n a 0 _)] at this
      rw [S_points n a i k (hM a ha), ← S_roots n a i k hn (by omega) roots h2]
      exact this
    · intro e he
      rw [unit_entries] at he
      obtain ⟨x, hx, rfl⟩ := List.mem_map.1 he
      obtain ⟨g1, g2, g3⟩ := h1 x hx
      simp only [wgt_gauss n a 0 (hM a ha) (by simp)]
      exact ⟨by positivity, by linarith, by linarith⟩
  obtain ⟨δ0, d0, s0⟩ := step 0 (by omega)
  obtain ⟨δ1, d1, s1⟩ := step 1 (by omega)
  obtain ⟨δ2, d2, s2⟩ := step 2 (by omega)
  refine ⟨min δ0 (min δ1 δ2), lt_min d0 (lt_min d1 d2), fun hnear => ?_⟩
  have mono : ∀ {a : ℕ} {δ δ' : ℝ} {xs : List ℝ}, δ ≤ δ' → Spec.NearRoots n a 0 δ xs → Spec.NearRoots n a 0 δ' xs := by
    rintro a δ δ' xs hle ⟨r, h1, h2⟩
    exact ⟨r, h1, h2.imp fun _ _ h => h.trans hle⟩
  have all : ∀ a < D,
      (∀ i k, i + k ≤ q → |S (changeInterval (gaussJacobi n a 0) 0 1).entries i k - M a i k| ≤ η) ∧
      ∀ e ∈ (changeInterval (gaussJacobi n a 0) 0 1).entries, 0 < e.2 ∧ 0 ≤ e.1 ∧ e.1 ≤ 1 := by
    intro a ha
    have : a = 0 ∨ a = 1 ∨ a = 2 := by omega
    rcases this with rfl | rfl | rfl
    · exact s0 (mono (min_le_left _ _) (hnear 0 ha))
    · exact s1 (mono ((min_le_right _ _).trans (min_le_left _ _)) (hnear 1 ha))
    · exact s2 (mono ((min_le_right _ _).trans (min_le_right _ _)) (hnear 2 ha))
  refine ⟨QuadTable.almost_of_moments D q hD ε _ _ ?_ fun m hm => ?_, ?_⟩
  · rcases hD with rfl | rfl | rfl <;> simp [tensorRule, tensor1, tensor2, tensor3, ofEntries]
  · refine (tensor_close D q hD η hη0.le (min_le_left _ _) (fun a ha => (all a ha).1) m hm).trans ?_
    have := min_le_right 1 (ε / 8)
    rw [← hη] at this
    linarith
  have entry : ∀ e ∈ (tensorRule D q).rule.points.zip (tensorRule D q).rule.weights,
      0 < e.2 ∧ Spec.InRefSimplex e.1 := by
    rcases hD with rfl | rfl | rfl
    · simp only [tensorRule, tensor1, zip_entries, hpp]
      intro e he
      obtain ⟨e0, he0, rfl⟩ := List.mem_map.1 he
      obtain ⟨a1, a2, a3⟩ := (all 0 (by omega)).2 e0 he0
      refine ⟨a1, fun d => ?_, ?_⟩
      · fin_cases d; exact a2
      · rw [Fin.sum_univ_one]; exact a3
    · simp only [tensorRule, tensor2, zip_entries, hpp]
      intro e he
      obtain ⟨e1, he1, he⟩ := List.mem_flatMap.1 he
      obtain ⟨e0, he0, rfl⟩ := List.mem_map.1 he
      obtain ⟨a1, a2, a3⟩ := (all 0 (by omega)).2 e0 he0
      obtain ⟨b1, b2, b3⟩ := (all 1 (by omega)).2 e1 he1
      refine ⟨by simp only; positivity, fun d => ?_, ?_⟩
      · fin_cases d
        · exact b2
        · exact mul_nonneg a2 (by linarith)
      · rw [Fin.sum_univ_two]
        simp only [Matrix.cons_val_zero, Matrix.cons_val_one]
        nlinarith
    · simp only [tensorRule, tensor3, zip_entries, hpp]
      intro e he
      obtain ⟨e2, he2, he⟩ := List.mem_flatMap.1 he
      obtain ⟨e1, he1, he⟩ := List.mem_flatMap.1 he
      obtain ⟨e0, he0, rfl⟩ := List.mem_map.1 he
      obtain ⟨a1, a2, a3⟩ := (all 0 (by omega)).2 e0 he0
      obtain ⟨b1, b2, b3⟩ := (all 1 (by omega)).2 e1 he1
      obtain ⟨c1, c2, c3⟩ := (all 2 (by omega)).2 e2 he2
      refine ⟨by simp only; positivity, fun d => ?_, ?_⟩
      · fin_cases d
        · exact c2
        · exact mul_nonneg b2 (by linarith)
        · exact mul_nonneg (mul_nonneg a2 (by linarith)) (by linarith)
      · rw [Fin.sum_univ_three]
        simp only [Matrix.cons_val_zero, Matrix.cons_val_one, Matrix.cons_val]
        have k1 : e0.1 * (1 - e1.1) ≤ 1 - e1.1 := mul_le_of_le_one_left (by linarith) a3
        have k2 : (e1.1 + e0.1 * (1 - e1.1)) * (1 - e2.1) ≤ 1 * (1 - e2.1) :=
          mul_le_mul_of_nonneg_right (by linarith) (by linarith)
        linarith
  have hlen : (tensorRule D q).rule.points.length = (tensorRule D q).rule.weights.length := by
    rcases hD with rfl | rfl | rfl <;> simp [tensorRule, tensor1, tensor2, tensor3, ofEntries]
  refine ⟨fun w hw => ?_, fun x hx => ?_⟩
  · obtain ⟨x, hx⟩ := QuadTable.weights_of_zip _ _ hlen w hw
    exact (entry _ hx).1
  · obtain ⟨w, hw⟩ := QuadTable.points_of_zip _ _ hlen x hx
    exact (entry _ hw).2

theorem almost_of_exact {D N : ℕ} (hD : D = 1 ∨ D = 2 ∨ D = 3) (P : List (Fin D → ℝ)) (W : List ℝ) (ε : ℝ) (hε : 0 ≤ ε)
    (h : Spec.ExactQuadrature D N P W) : Spec.AlmostExact D N ε P W := by
  refine ⟨h.1, fun p hp => ?_⟩
  have hf : Spec.IsPoly D N (fun x => MvPolynomial.eval x p) := ⟨p, hp, fun _ => rfl⟩
  rw [h.2 _ hf, sub_self, abs_zero]
  exact mul_nonneg hε (sum_nonneg fun _ _ => abs_nonneg _)

/-- C63 (exactness): if the tabulated rules are exact up to their order on the simplices they were
published for, then for every `ε > 0` there is a distance such that, if Newton's method comes that
close to the roots, the returned rule integrates every polynomial of degree at most `q` up to `ε` over
the reference simplex. (For the tables of the source and `q ≤ 20` see `C84_program`.) -/
theorem C63_exact (wv2 : Tab 2) (wv3 js : Tab 3) (D q : ℕ) (hD : D = 1 ∨ D = 2 ∨ D = 3)
    (hsz : (1 + q / 2) ^ D < 2 ^ 64 - 1) (hq : q < 2 ^ 32)
    (h2 : ∀ e ∈ wv2, Spec.ExactBiunit 2 e.1 e.2.points e.2.weights)
    (h3 : ∀ e ∈ wv3, Spec.ExactBiunit 3 e.1 e.2.points e.2.weights)
    (hj : ∀ e ∈ js, Spec.ExactMean e.1 e.2.points e.2.weights) (ε : ℝ) (hε : 0 < ε) :
    ∃ δ > 0, (∀ a < D, Spec.NearRoots (1 + q / 2) a 0 δ (gaussJacobi (1 + q / 2) a 0).points) →
      let R := simplexQuadratureRule wv2 wv3 js D q
      Spec.AlmostExact D q ε R.rule.points R.rule.weights := by
  obtain ⟨δ, hδ, h⟩ := C57_simplex_partial D q hD hq ε hε
  refine ⟨δ, hδ, fun hN => ?_⟩
  have mono : ∀ {D M : ℕ} (P : List (Fin D → ℝ)) (W : List ℝ), q ≤ M → Spec.ExactQuadrature D M P W →
      Spec.ExactQuadrature D q P W := fun P W h hE => ⟨hE.1, fun f hf => hE.2 f (isPoly_mono _ _ _ h f hf)⟩
  exact (auto_spec wv2 wv3 js (fun D R => Spec.AlmostExact D q ε R.rule.points R.rule.weights) D q hD hsz
    (h hN).1
    (fun e he hq => almost_of_exact (by simp) _ _ _ hε.le (mono _ _ hq (transformWV_exact e.2 (h2 e he))))
    (fun e he hq => almost_of_exact (by simp) _ _ _ hε.le (mono _ _ hq (transformWV_exact e.2 (h3 e he))))
    (fun e he hq => almost_of_exact (by simp) _ _ _ hε.le (mono _ _ hq (transformJS_exact e.2 (hj e he))))).2.1

end Tandem.Quadrature
