import Verif.Lemmas.JacobiPoly
import Verif.Lemmas.SimplexMoments
import Verif.Lemmas.Trace
/-! # The inverse trace inequality on simplices -/
namespace Tandem.TraceIneq
open Functions Polynomial Finset intervalIntegral Spec Curvilinear

/-! ## On the line -/

theorem wint_X (a : ℕ) (p : ℝ[X]) : wint a 0 (X * p) = wint a 1 p := by
  rw [wint_apply, wint_apply]
  refine integral_congr fun u _ => ?_
  simp only [eval_mul, eval_X]; ring

theorem wint_jacobi (n a : ℕ) : wint a 0 (jpoly n a 1) = (-1) ^ n / (n + a + 1 : ℝ) := by
  rw [wint_apply]
  have e : ∀ u : ℝ, (1 - u) ^ a * u ^ 0 * (jpoly n a 1).eval u
      = ∑ s ∈ range (n + 1), ((n + a).choose (n - s) : ℝ) * ((n + 1).choose s : ℝ) * (-1) ^ s
          * (u ^ (n - s) * (1 - u) ^ (a + s)) := by
    intro u
    rw [eval_jpoly]
    unfold Spec.jacobi
    rw [mul_sum]
    refine sum_congr rfl fun s _ => ?_
    rw [show (2 * u - 1 - 1) / 2 = (-1) * (1 - u) by ring, show (2 * u - 1 + 1) / 2 = u by ring,
      mul_pow, pow_add]
    ring
  rw [integral_congr (fun u _ => e u), integral_finsetSum
    (fun s _ => by apply Continuous.intervalIntegrable; fun_prop)]
  have h : ∀ s ∈ range (n + 1), ∫ u in (0:ℝ)..1, ((n + a).choose (n - s) : ℝ) * ((n + 1).choose s : ℝ) * (-1) ^ s
          * (u ^ (n - s) * (1 - u) ^ (a + s)) = 1 / (n + a + 1 : ℝ) * ((-1) ^ s * ((n + 1).choose s : ℝ)) := by
    intro s hs
    rw [mem_range] at hs
    rw [integral_const_mul, beta_int, show n - s + (a + s) + 1 = n + a + 1 by omega, Nat.factorial_succ,
      Nat.cast_choose ℝ (by omega : n - s ≤ n + a), show n + a - (n - s) = a + s by omega]
    have k1 : (((n - s).factorial : ℕ) : ℝ) ≠ 0 := by positivity
    have k2 : (((a + s).factorial : ℕ) : ℝ) ≠ 0 := by positivity
    have k3 : (((n + a).factorial : ℕ) : ℝ) ≠ 0 := by positivity
    have k4 : ((n : ℝ) + a + 1) ≠ 0 := by positivity
    push_cast
    field_simp
  rw [sum_congr rfl h, ← mul_sum]
  have h2 : ∑ s ∈ range (n + 1), ((-1 : ℝ)) ^ s * ((n + 1).choose s : ℝ) = (-1) ^ n := by
    have h3 : ∑ m ∈ range (n + 1 + 1), ((-1 : ℤ) ^ m * ((n + 1).choose m : ℤ)) = 0 := by
      rw [Int.alternating_sum_range_choose]; simp
    rw [sum_range_succ, Nat.choose_self] at h3
    have h4 : (∑ m ∈ range (n + 1), ((-1 : ℤ) ^ m * ((n + 1).choose m : ℤ))) = (-1) ^ n := by
      rw [pow_succ] at h3; push_cast at h3 ⊢; linarith
    exact_mod_cast h4
  rw [h2]; ring

theorem jpoly_zero (n a : ℕ) : (jpoly n a 1).eval 0 = (-1) ^ n * (n + 1 : ℝ) := by
  rw [eval_jpoly]
  unfold Spec.jacobi
  rw [sum_eq_single n]
  · norm_num; ring
  · intro s hs hne
    rw [mem_range] at hs
    have : n - s ≠ 0 := by omega
    simp [this]
  · intro h; exact absurd (mem_range.2 (by omega)) h

/-- Integrating against the Jacobi polynomial of exponents `(a, 1)` evaluates at the end point. -/
theorem wint_reproduce (n a : ℕ) (q : ℝ[X]) (hq : q.natDegree ≤ n) :
    wint a 0 (jpoly n a 1 * q) = q.eval 0 * ((-1) ^ n / (n + a + 1 : ℝ)) := by
  have e : q = q.divX * X + C (q.coeff 0) := (divX_mul_X_add q).symm
  have hd : q.divX.degree < n ∨ q.divX = 0 := by
    by_cases h : q.divX = 0
    · exact Or.inr h
    · left
      rw [degree_eq_natDegree h, natDegree_divX_eq_natDegree_tsub_one]
      have : q.natDegree ≠ 0 := by
        intro h0
        apply h
        rw [eq_C_of_natDegree_eq_zero h0, divX_C]
      exact_mod_cast (by omega : q.natDegree - 1 < n)
  have h1 : wint a 1 (jpoly n a 1 * q.divX) = 0 := by
    rcases hd with h | h
    · exact wint_ortho n a 1 _ h
    · rw [h, mul_zero, map_zero]
  have e2 : jpoly n a 1 * q = X * (jpoly n a 1 * q.divX) + q.coeff 0 • jpoly n a 1 := by
    conv_lhs => rw [e]
    rw [smul_eq_C_mul]; ring
  rw [e2, map_add, wint_X, h1, map_smul, wint_jacobi, ← coeff_zero_eq_eval_zero, smul_eq_mul, zero_add]

theorem wint_sq_nonneg (a : ℕ) (q : ℝ[X]) : 0 ≤ wint a 0 (q * q) := by
  rw [wint_apply]
  refine integral_nonneg (by norm_num) fun u hu => ?_
  rw [eval_mul, pow_zero, mul_one]
  exact mul_nonneg (pow_nonneg (by linarith [hu.2]) _) (mul_self_nonneg _)

/-- The trace inequality on the line with weight `(1-u)^a`. -/
theorem line_trace (n a : ℕ) (q : ℝ[X]) (hq : q.natDegree ≤ n) :
    q.eval 0 ^ 2 ≤ (n + 1 : ℝ) * (n + a + 1) * wint a 0 (q * q) := by
  set P := jpoly n a 1
  have hP : P.natDegree ≤ n := natDegree_jpoly_le n a 1
  set s : ℝ := (-1) ^ n
  have hs : s * s = 1 := by rw [← pow_add, ← two_mul, pow_mul]; simp
  have k1 : ((n : ℝ) + 1) ≠ 0 := by positivity
  have k2 : ((n : ℝ) + a + 1) ≠ 0 := by positivity
  set c : ℝ := q.eval 0 * s / (n + 1 : ℝ) with hc
  have h := wint_sq_nonneg a (q - c • P)
  have e : (q - c • P) * (q - c • P) = q * q - (2 * c) • (P * q) + (c * c) • (P * P) := by
    simp only [smul_eq_C_mul, C_mul, C_ofNat]; ring
  rw [e, map_add, map_sub, map_smul, map_smul, wint_reproduce n a q hq, wint_reproduce n a P hP, jpoly_zero,
    smul_eq_mul, smul_eq_mul] at h
  have h2 : wint a 0 (q * q) - 2 * c * (q.eval 0 * (s / (n + a + 1))) + c * c * (s * (n + 1) * (s / (n + a + 1)))
      = wint a 0 (q * q) - q.eval 0 ^ 2 / ((n + 1) * (n + a + 1)) := by
    rw [hc]
    field_simp
    have : s ^ 2 = 1 := by rw [sq]; exact hs
    rw [show s ^ 4 = (s ^ 2) ^ 2 by ring, this]; ring
  rw [h2, sub_nonneg, div_le_iff₀ (by positivity)] at h
  linarith

/-! ## Integrals of products of barycentric coordinates -/

theorem simplex_bary1 {ι : Type*} (s : Finset ι) (c : ι → ℝ) (m : ι → Fin 2 → ℕ) :
    simplexIntegral 1 (fun x => ∑ t ∈ s, c t * ∏ k : Fin 2, baryCoord (D := 1) x k ^ m t k) =
      ∑ t ∈ s, c t * ((∏ k, ((m t k).factorial : ℝ)) / ((∑ k, m t k + 1).factorial : ℝ)) := by
  simp only [simplexIntegral, baryCoord, Fin.prod_univ_two, Fin.sum_univ_two, Fin.sum_univ_one, Fin.cons_zero, Fin.cons_one, Matrix.cons_val_zero]
  rw [integral_finsetSum (fun t _ => by apply Continuous.intervalIntegrable; fun_prop)]
  refine sum_congr rfl fun t _ => ?_
  have e : ∀ x : ℝ, (1 - x) ^ m t 0 * x ^ m t 1 = x ^ m t 1 * (1 - x) ^ m t 0 := fun x => mul_comm _ _
  simp only [e]
  rw [integral_const_mul, seg_int, one_pow, one_mul, show m t 1 + m t 0 + 1 = m t 0 + m t 1 + 1 by ring]; ring

theorem simplex_bary2 {ι : Type*} (s : Finset ι) (c : ι → ℝ) (m : ι → Fin 3 → ℕ) :
    simplexIntegral 2 (fun x => ∑ t ∈ s, c t * ∏ k : Fin 3, baryCoord (D := 2) x k ^ m t k) =
      ∑ t ∈ s, c t * ((∏ k, ((m t k).factorial : ℝ)) / ((∑ k, m t k + 2).factorial : ℝ)) := by
  simp only [simplexIntegral, baryCoord, Fin.prod_univ_three, Fin.sum_univ_three, Fin.sum_univ_two, Fin.cons_zero, Fin.cons_one, Matrix.cons_val_zero,
    Matrix.cons_val_one, show (2 : Fin 3) = Fin.succ 1 from rfl, Fin.cons_succ]
  have e1 : ∀ y : ℝ, ∫ x in (0:ℝ)..(1 - y), ∑ t ∈ s, c t * ((1 - (x + y)) ^ m t 0 * x ^ m t 1 * y ^ m t (Fin.succ 1))
      = ∑ t ∈ s, c t * ((m t 1).factorial * (m t 0).factorial / (m t 1 + m t 0 + 1).factorial) *
        (y ^ m t (Fin.succ 1) * (1 - y) ^ (m t 1 + m t 0 + 1)) := by
    intro y
    rw [integral_finsetSum (fun t _ => by apply Continuous.intervalIntegrable; fun_prop)]
    refine sum_congr rfl fun t _ => ?_
    have e : ∀ x : ℝ, c t * ((1 - (x + y)) ^ m t 0 * x ^ m t 1 * y ^ m t (Fin.succ 1)) =
        (c t * y ^ m t (Fin.succ 1)) * (x ^ m t 1 * (1 - y - x) ^ m t 0) := fun x => by
      rw [show 1 - (x + y) = 1 - y - x by ring]; ring
    simp only [e]
    rw [integral_const_mul, seg_int]; ring
  simp only [e1]
  rw [integral_finsetSum (fun t _ => by apply Continuous.intervalIntegrable; fun_prop)]
  refine sum_congr rfl fun t _ => ?_
  rw [integral_const_mul, seg_int, one_pow, one_mul,
    show m t (Fin.succ 1) + (m t 1 + m t 0 + 1) + 1 = m t 0 + m t 1 + m t (Fin.succ 1) + 2 by ring]
  have k1 : (((m t 1 + m t 0 + 1).factorial : ℕ) : ℝ) ≠ 0 := by positivity
  have k2 : (((m t 0 + m t 1 + m t (Fin.succ 1) + 2).factorial : ℕ) : ℝ) ≠ 0 := by positivity
  field_simp

theorem simplex_bary3 {ι : Type*} (s : Finset ι) (c : ι → ℝ) (m : ι → Fin 4 → ℕ) :
    simplexIntegral 3 (fun x => ∑ t ∈ s, c t * ∏ k : Fin 4, baryCoord (D := 3) x k ^ m t k) =
      ∑ t ∈ s, c t * ((∏ k, ((m t k).factorial : ℝ)) / ((∑ k, m t k + 3).factorial : ℝ)) := by
  simp only [simplexIntegral, baryCoord, Fin.prod_univ_four, Fin.sum_univ_four, Fin.sum_univ_three, Fin.cons_zero, Fin.cons_one, Matrix.cons_val_zero,
    Matrix.cons_val_one, show (2 : Fin 4) = Fin.succ 1 from rfl, show (3 : Fin 4) = Fin.succ 2 from rfl, Fin.cons_succ, Matrix.cons_val]
  have e1 : ∀ y z : ℝ, ∫ x in (0:ℝ)..(1 - y - z), ∑ t ∈ s, c t * ((1 - (x + y + z)) ^ m t 0 * x ^ m t 1 * y ^ m t (Fin.succ 1) * z ^ m t (Fin.succ 2))
      = ∑ t ∈ s, c t * ((m t 1).factorial * (m t 0).factorial / (m t 1 + m t 0 + 1).factorial) * z ^ m t (Fin.succ 2) *
        (y ^ m t (Fin.succ 1) * (1 - z - y) ^ (m t 1 + m t 0 + 1)) := by
    intro y z
    rw [integral_finsetSum (fun t _ => by apply Continuous.intervalIntegrable; fun_prop)]
    refine sum_congr rfl fun t _ => ?_
    have e : ∀ x : ℝ, c t * ((1 - (x + y + z)) ^ m t 0 * x ^ m t 1 * y ^ m t (Fin.succ 1) * z ^ m t (Fin.succ 2)) =
        (c t * y ^ m t (Fin.succ 1) * z ^ m t (Fin.succ 2)) * (x ^ m t 1 * (1 - y - z - x) ^ m t 0) := fun x => by
      rw [show 1 - (x + y + z) = 1 - y - z - x by ring]; ring
    simp only [e]
    rw [integral_const_mul, seg_int, show 1 - y - z = 1 - z - y by ring]; ring
  simp only [e1]
  have e2 : ∀ z : ℝ, ∫ y in (0:ℝ)..(1 - z), ∑ t ∈ s, c t * ((m t 1).factorial * (m t 0).factorial / (m t 1 + m t 0 + 1).factorial) * z ^ m t (Fin.succ 2) *
        (y ^ m t (Fin.succ 1) * (1 - z - y) ^ (m t 1 + m t 0 + 1))
      = ∑ t ∈ s, c t * ((m t 1).factorial * (m t 0).factorial / (m t 1 + m t 0 + 1).factorial) *
        ((m t (Fin.succ 1)).factorial * (m t 1 + m t 0 + 1).factorial / (m t (Fin.succ 1) + (m t 1 + m t 0 + 1) + 1).factorial)
        * (z ^ m t (Fin.succ 2) * (1 - z) ^ (m t (Fin.succ 1) + (m t 1 + m t 0 + 1) + 1)) := by
    intro z
    rw [integral_finsetSum (fun t _ => by apply Continuous.intervalIntegrable; fun_prop)]
    refine sum_congr rfl fun t _ => ?_
    rw [integral_const_mul, seg_int]; ring
  simp only [e2]
  rw [integral_finsetSum (fun t _ => by apply Continuous.intervalIntegrable; fun_prop)]
  refine sum_congr rfl fun t _ => ?_
  rw [integral_const_mul, seg_int, one_pow, one_mul,
    show m t (Fin.succ 2) + (m t (Fin.succ 1) + (m t 1 + m t 0 + 1) + 1) + 1 = m t 0 + m t 1 + m t (Fin.succ 1) + m t (Fin.succ 2) + 3 by ring]
  have k1 : (((m t 1 + m t 0 + 1).factorial : ℕ) : ℝ) ≠ 0 := by positivity
  have k2 : (((m t (Fin.succ 1) + (m t 1 + m t 0 + 1) + 1).factorial : ℕ) : ℝ) ≠ 0 := by positivity
  have k3 : (((m t 0 + m t 1 + m t (Fin.succ 1) + m t (Fin.succ 2) + 3).factorial : ℕ) : ℝ) ≠ 0 := by positivity
  field_simp

theorem simplex_bary (D : ℕ) (hD : D = 1 ∨ D = 2 ∨ D = 3) {ι : Type*} (s : Finset ι) (c : ι → ℝ) (m : ι → Fin (D + 1) → ℕ) :
    simplexIntegral D (fun x => ∑ t ∈ s, c t * ∏ k, baryCoord x k ^ m t k) =
      ∑ t ∈ s, c t * ((∏ k, ((m t k).factorial : ℝ)) / ((∑ k, m t k + D).factorial : ℝ)) := by
  rcases hD with rfl | rfl | rfl
  · exact simplex_bary1 s c m
  · exact simplex_bary2 s c m
  · exact simplex_bary3 s c m

variable {D : ℕ}

/-- The point at height `t` on the segment from a point of facet `f` to the opposite vertex. -/
noncomputable def ray (f : Fin (D + 2)) (χ : Fin D → ℝ) (t : ℝ) : Fin (D + 1) → ℝ :=
  fun i => t * Equidistant.refVertices (D + 1) (missing f) i + (1 - t) * facetParam f χ i

theorem bary_affine (x y : Fin D → ℝ) (t : ℝ) (k : Fin (D + 1)) :
    baryCoord (fun i => t * x i + (1 - t) * y i) k = t * baryCoord x k + (1 - t) * baryCoord y k := by
  refine Fin.cases ?_ (fun d => ?_) k
  · simp only [baryCoord, Fin.cons_zero, sum_add_distrib, ← mul_sum]; ring
  · simp only [baryCoord, Fin.cons_succ]

theorem bary_vertex (k j : Fin (D + 1)) : baryCoord (Equidistant.refVertices D k) j = if j = k then 1 else 0 := by
  refine Fin.cases ?_ (fun d => ?_) j
  · refine Fin.cases ?_ (fun e => ?_) k
    · simp [baryCoord, Equidistant.refVertices]
    · rw [if_neg (Fin.succ_ne_zero e).symm]
      simp [baryCoord, Equidistant.refVertices, ← Fin.ext_iff]
  · refine Fin.cases ?_ (fun e => ?_) k
    · simp [baryCoord, Equidistant.refVertices]
    · simp [baryCoord, Equidistant.refVertices, ← Fin.ext_iff, eq_comm]

theorem bary_ray (f : Fin (D + 2)) (χ : Fin D → ℝ) (t : ℝ) :
    baryCoord (ray f χ t) (missing f) = t ∧ ∀ k, baryCoord (ray f χ t) (f2v f k) = (1 - t) * baryCoord χ k := by
  have h := Trace.bary_facet f χ
  unfold ray
  refine ⟨?_, fun k => ?_⟩
  · rw [bary_affine, h.1, bary_vertex, if_pos rfl]; ring
  · rw [bary_affine, h.2 k, bary_vertex, if_neg]
    · ring
    · exact Fin.succAbove_ne _ _

/-- Exponents of a monomial in barycentric coordinates. -/
def expo (m : Fin (D + 1) →₀ ℕ) : Fin (D + 2) → ℕ := Fin.cons 0 (fun d => m d)

theorem eval_bary (p : MvPolynomial (Fin (D + 1)) ℝ) (x : Fin (D + 1) → ℝ) :
    MvPolynomial.eval x p = ∑ m ∈ p.support, p.coeff m * ∏ k, baryCoord x k ^ expo m k := by
  rw [MvPolynomial.eval_eq']
  refine sum_congr rfl fun m _ => ?_
  rw [Fin.prod_univ_succ (fun k => baryCoord x k ^ expo m k)]
  simp [expo, baryCoord]

theorem ray_integral (f : Fin (D + 2)) (p : MvPolynomial (Fin (D + 1)) ℝ) (χ : Fin D → ℝ) :
    ∫ t in (0:ℝ)..1, (1 - t) ^ D * MvPolynomial.eval (ray f χ t) p =
      ∑ m ∈ p.support, (p.coeff m * (((expo m (missing f)).factorial : ℝ) * ((∑ k, expo m (f2v f k) + D).factorial : ℝ) /
        ((expo m (missing f) + (∑ k, expo m (f2v f k) + D) + 1).factorial : ℝ))) * ∏ k, baryCoord χ k ^ expo m (f2v f k) := by
  have e1 : ∀ t : ℝ, (1 - t) ^ D * MvPolynomial.eval (ray f χ t) p =
      ∑ m ∈ p.support, (p.coeff m * ∏ k, baryCoord χ k ^ expo m (f2v f k)) * (t ^ expo m (missing f) * (1 - t) ^ (∑ k, expo m (f2v f k) + D)) := by
    intro t
    rw [eval_bary, mul_sum]
    refine sum_congr rfl fun m _ => ?_
    rw [Fin.prod_univ_succAbove _ (missing f), (bary_ray f χ t).1]
    have : ∏ i : Fin (D + 1), baryCoord (ray f χ t) ((missing f).succAbove i) ^ expo m ((missing f).succAbove i) =
        (1 - t) ^ (∑ k, expo m (f2v f k)) * ∏ k, baryCoord χ k ^ expo m (f2v f k) := by
      rw [← prod_pow_eq_pow_sum, ← prod_mul_distrib]
      refine prod_congr rfl fun k _ => ?_
      have := (bary_ray f χ t).2 k
      unfold f2v at this ⊢
      unfold missing
      rw [this, mul_pow]
    rw [this, pow_add]; ring
  rw [integral_congr (fun t _ => e1 t), integral_finsetSum (fun m _ => by apply Continuous.intervalIntegrable; fun_prop)]
  refine sum_congr rfl fun m _ => ?_
  rw [integral_const_mul, beta_int]; ring

theorem ray_integral_poly (f : Fin (D + 2)) (N : ℕ) (p : MvPolynomial (Fin (D + 1)) ℝ) (hp : p.totalDegree ≤ N) :
    IsPoly D N (fun χ => ∫ t in (0:ℝ)..1, (1 - t) ^ D * MvPolynomial.eval (ray f χ t) p) := by
  simp only [ray_integral]
  refine RefElement.isPoly_sum D N _ _ fun m hm => RefElement.isPoly_const_mul D N _ _ ?_
  refine RefElement.isPoly_mono D (∑ k, expo m (f2v f k)) N ?_ _ (RefElement.isPoly_prod D univ (fun k => expo m (f2v f k)) _ fun k _ => ?_)
  · have hdeg := (MvPolynomial.le_totalDegree hm).trans hp
    rw [Finsupp.sum_fintype _ _ (fun _ => rfl)] at hdeg
    have h1 : ∑ k, expo m k = ∑ d, m d := by
      rw [Fin.sum_univ_succ]; simp [expo]
    rw [Fin.sum_univ_succAbove _ (missing f)] at h1
    have h2 : ∑ k, expo m (f2v f k) = ∑ i, expo m ((missing f).succAbove i) := rfl
    omega
  · have := RefElement.isPoly_prod D (range (expo m (f2v f k))) (fun _ => 1) (fun _ χ => baryCoord χ k) (fun _ _ => Trace.isPoly_bary k)
    simpa using this

/-- Integration over the simplex along the segments from facet `f` to the opposite vertex. -/
theorem integral_rays (hD : D = 1 ∨ D = 2) (f : Fin (D + 2)) (p : MvPolynomial (Fin (D + 1)) ℝ) :
    simplexIntegral D (fun χ => ∫ t in (0:ℝ)..1, (1 - t) ^ D * MvPolynomial.eval (ray f χ t) p) =
      simplexIntegral (D + 1) (fun x => MvPolynomial.eval x p) := by
  simp only [ray_integral]
  simp only [eval_bary]
  rw [simplex_bary (D + 1) (by omega), simplex_bary D (by omega)]
  refine sum_congr rfl fun m _ => ?_
  rw [Fin.prod_univ_succAbove _ (missing f), Fin.sum_univ_succAbove _ (missing f)]
  have k1 : (((∑ k, expo m (f2v f k) + D).factorial : ℕ) : ℝ) ≠ 0 := by positivity
  have e3 : expo m (missing f) + (∑ k, expo m (f2v f k) + D) + 1 = expo m (missing f) + ∑ i, expo m ((missing f).succAbove i) + (D + 1) := by
    unfold f2v missing; ring
  rw [e3]
  have e4 : ∀ k, (missing f).succAbove k = f2v f k := fun k => rfl
  simp only [e4]
  field_simp

/-! ## Linearity and monotonicity of the integral -/

theorem int_sub (hD : D = 1 ∨ D = 2 ∨ D = 3) (p q : MvPolynomial (Fin D) ℝ) :
    simplexIntegral D (fun x => MvPolynomial.eval x p - MvPolynomial.eval x q) =
      simplexIntegral D (fun x => MvPolynomial.eval x p) - simplexIntegral D (fun x => MvPolynomial.eval x q) := by
  classical
  have e : ∀ r : MvPolynomial (Fin D) ℝ, r.support ⊆ p.support ∪ q.support → (fun x => MvPolynomial.eval x r) =
      fun x => ∑ m ∈ p.support ∪ q.support, r.coeff m * ∏ d, x d ^ m d := by
    intro r hr
    funext x
    rw [MvPolynomial.eval_eq']
    refine sum_subset hr fun m _ hm => ?_
    rw [MvPolynomial.notMem_support_iff] at hm
    rw [hm, zero_mul]
  have e3 : (fun x => MvPolynomial.eval x p - MvPolynomial.eval x q) =
      fun x => ∑ m ∈ p.support ∪ q.support, (p.coeff m - q.coeff m) * ∏ d, x d ^ m d := by
    funext x
    have h1 := congrFun (e p subset_union_left) x
    have h2 := congrFun (e q subset_union_right) x
    beta_reduce at h1 h2
    rw [h1, h2, ← sum_sub_distrib]
    exact sum_congr rfl fun m _ => by ring
  rw [e3, e p subset_union_left, e q subset_union_right,
    simplex_sum D hD _ (fun m => p.coeff m - q.coeff m) (fun m d => m d), simplex_sum D hD _ (fun m => p.coeff m) (fun m d => m d),
    simplex_sum D hD _ (fun m => q.coeff m) (fun m d => m d), ← sum_sub_distrib]
  exact sum_congr rfl fun m _ => by ring

theorem int_const_mul (D : ℕ) (c : ℝ) (f : (Fin D → ℝ) → ℝ) : simplexIntegral D (fun x => c * f x) = c * simplexIntegral D f := by
  match D with
  | 0 => simp [simplexIntegral]
  | 1 => simp [simplexIntegral, integral_const_mul]
  | 2 => simp [simplexIntegral, integral_const_mul]
  | 3 => simp [simplexIntegral, integral_const_mul]
  | D + 4 => simp [simplexIntegral]

theorem int_nonneg (D : ℕ) (f : (Fin D → ℝ) → ℝ) (h : ∀ x, 0 ≤ f x) : 0 ≤ simplexIntegral D f := by
  match D with
  | 0 => simp [simplexIntegral]
  | 1 => exact integral_nonneg (by norm_num) fun u _ => h _
  | 2 =>
    refine integral_nonneg (by norm_num) fun y hy => ?_
    exact integral_nonneg (by linarith [hy.2]) fun u _ => h _
  | 3 =>
    refine integral_nonneg (by norm_num) fun z hz => ?_
    refine integral_nonneg (by linarith [hz.2]) fun y hy => ?_
    exact integral_nonneg (by linarith [hy.2]) fun u _ => h _
  | D + 4 => simp [simplexIntegral]

theorem int_mono (hD : D = 1 ∨ D = 2 ∨ D = 3) (N M : ℕ) (f g : (Fin D → ℝ) → ℝ) (hf : IsPoly D N f) (hg : IsPoly D M g)
    (h : ∀ x, f x ≤ g x) : simplexIntegral D f ≤ simplexIntegral D g := by
  obtain ⟨p, -, hp⟩ := hf
  obtain ⟨q, -, hq⟩ := hg
  have ef : f = fun x => MvPolynomial.eval x p := funext hp
  have eg : g = fun x => MvPolynomial.eval x q := funext hq
  have := int_nonneg D (fun x => MvPolynomial.eval x q - MvPolynomial.eval x p) (fun x => by rw [← hp, ← hq]; linarith [h x])
  rw [int_sub hD] at this
  rw [ef, eg]; linarith

/-! ## The trace inequality -/

theorem poly_on_ray (f : Fin (D + 2)) (N : ℕ) (p : MvPolynomial (Fin (D + 1)) ℝ) (hp : p.totalDegree ≤ N) (χ : Fin D → ℝ) :
    ∃ q : ℝ[X], q.natDegree ≤ N ∧ ∀ t, q.eval t = MvPolynomial.eval (ray f χ t) p := by
  refine ⟨MvPolynomial.aeval (fun i => C (Equidistant.refVertices (D + 1) (missing f) i - facetParam f χ i) * X + C (facetParam f χ i)) p, ?_, ?_⟩
  · have := MvPolynomial.aeval_natDegree_le p hp (fun i => C (Equidistant.refVertices (D + 1) (missing f) i - facetParam f χ i) * X + C (facetParam f χ i))
      (n := 1) (fun i => natDegree_linear_le)
    simpa using this
  · intro t
    rw [← coe_aeval_eq_eval, MvPolynomial.comp_aeval_apply, MvPolynomial.aeval_eq_eval]
    congr 2
    funext i
    simp only [coe_aeval_eq_eval, eval_add, eval_mul, eval_C, eval_X, ray]; ring

/-- The square of the trace on facet `f`, integrated over the facet, is bounded by the integral of the square over the element. -/
theorem trace_ineq (hD : D = 1 ∨ D = 2) (f : Fin (D + 2)) (N : ℕ) (u : (Fin (D + 1) → ℝ) → ℝ) (hu : IsPoly (D + 1) N u) :
    simplexIntegral D (fun χ => u (facetParam f χ) ^ 2) ≤ (N + 1 : ℝ) * (N + D + 1) * simplexIntegral (D + 1) (fun x => u x ^ 2) := by
  obtain ⟨p, hp, hup⟩ := hu
  have hsq : (fun x => u x ^ 2) = fun x => MvPolynomial.eval x (p * p) := by
    funext x; rw [hup, map_mul]; ring
  have hpp : (p * p).totalDegree ≤ N + N := (MvPolynomial.totalDegree_mul p p).trans (add_le_add hp hp)
  rw [hsq, ← integral_rays hD f, ← int_const_mul]
  refine int_mono (by omega) (N + N) (N + N) _ _ ?_ (RefElement.isPoly_const_mul D _ _ _ (ray_integral_poly f (N + N) _ hpp)) fun χ => ?_
  · have := Trace.isPoly_comp_affine (N + N) (fun x => u x ^ 2) ⟨p * p, hpp, fun x => congrFun hsq x⟩ (facetParam f) (Trace.isPoly_facetParam f)
    exact this
  · obtain ⟨q, hq, hqe⟩ := poly_on_ray f N p hp χ
    have h := line_trace N D q hq
    have h0 : q.eval 0 = u (facetParam f χ) := by
      rw [hqe, hup]; congr 2; funext i; simp [ray]
    rw [h0] at h
    refine h.trans (le_of_eq ?_)
    congr 1
    rw [wint_apply]
    refine integral_congr fun t _ => ?_
    simp only [eval_mul, hqe, map_mul]; ring

end Tandem.TraceIneq
