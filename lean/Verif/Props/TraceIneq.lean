import Verif.Lemmas.TraceIneq
import Verif.Props.PoissonPSD
import Verif.Props.ElasticityPSD
import Verif.Props.GeometryData
import Verif.Props.Quadrature
import Verif.Spec.TraceIneq
/-! # Property C75: the inverse trace inequality of `InverseInequality`, and positive semidefiniteness on straight meshes -/
namespace Tandem.TraceIneq
open Finset Spec Curvilinear DGTopo

variable {D Nbf Nbm Nq nq : ℕ}
variable {P : ℕ} {elems : ℕ → List (List ℕ)}

theorem int_one (hD : D = 1 ∨ D = 2 ∨ D = 3) : simplexIntegral D (fun _ => 1) = 1 / (D.factorial : ℝ) := by
  have := Functions.simplex_sum D hD {()} (fun _ => 1) (fun _ _ => 0)
  simpa [Functions.moment] using this

/-- **C75 (inverse trace inequality)**: for every polynomial of degree at most `N` on the reference triangle or tetrahedron, the mean of its
square over any facet is at most `trace_constant(N)` times the mean of its square over the element.  (`D` is the dimension of the
facet; the measures are the integrals of 1.) -/
theorem C75_trace_inequality (hD : D = 1 ∨ D = 2) (f : Fin (D + 2)) (N : ℕ) (u : (Fin (D + 1) → ℝ) → ℝ) (hu : IsPoly (D + 1) N u) :
    simplexIntegral D (fun χ => u (facetParam f χ) ^ 2) / simplexIntegral D (fun _ => 1) ≤
      Poisson.traceConstant (D + 1) N * (simplexIntegral (D + 1) (fun x => u x ^ 2) / simplexIntegral (D + 1) (fun _ => 1)) := by
  have h := trace_ineq hD f N u hu
  rw [int_one (by omega), int_one (by omega), Nat.factorial_succ]
  unfold Poisson.traceConstant
  have k : ((D.factorial : ℕ) : ℝ) ≠ 0 := by positivity
  have h1 := mul_le_mul_of_nonneg_right h (show (0:ℝ) ≤ (D.factorial : ℕ) by positivity)
  push_cast
  rw [div_div_eq_mul_div, div_one]
  refine h1.trans (le_of_eq ?_)
  have k2 : (D : ℝ) + 1 ≠ 0 := by positivity
  field_simp
  ring

/-- **C75 (the constant is the best one)**: for every degree and every facet there is a polynomial, not zero on the facet, for which
the inequality is an equality. -/
theorem C75_trace_sharp (hD : D = 1 ∨ D = 2) (f : Fin (D + 2)) (N : ℕ) : ∃ u : (Fin (D + 1) → ℝ) → ℝ, IsPoly (D + 1) N u ∧
    0 < simplexIntegral D (fun χ => u (facetParam f χ) ^ 2) ∧
    simplexIntegral D (fun χ => u (facetParam f χ) ^ 2) / simplexIntegral D (fun _ => 1) =
      Poisson.traceConstant (D + 1) N * (simplexIntegral (D + 1) (fun x => u x ^ 2) / simplexIntegral (D + 1) (fun _ => 1)) := by
  classical
  set Q := Functions.jpoly N D 1 with hQ
  set u : (Fin (D + 1) → ℝ) → ℝ := fun x => Q.eval (baryCoord x (missing f)) with hu
  have hline : IsPoly 1 N (fun ξ : Fin 1 → ℝ => Q.eval (ξ 0)) := by
    have e : (fun ξ : Fin 1 → ℝ => Q.eval (ξ 0)) = fun ξ => ∑ k ∈ range (N + 1), Q.coeff k * ξ 0 ^ k := by
      funext ξ
      exact Polynomial.eval_eq_sum_range' (by have := Functions.natDegree_jpoly_le N D 1; rw [← hQ] at this; omega) _
    rw [e]
    refine RefElement.isPoly_sum 1 N _ _ fun k hk => RefElement.isPoly_const_mul 1 N _ _ ?_
    rw [mem_range] at hk
    have := RefElement.isPoly_prod 1 (range k) (fun _ => 1) (fun _ (ξ : Fin 1 → ℝ) => ξ 0) (fun _ _ => RefElement.isPoly_coord 1 0)
    refine RefElement.isPoly_mono 1 k N (by omega) _ ?_
    simpa using this
  have hpoly : IsPoly (D + 1) N u :=
    Trace.isPoly_comp_affine N _ hline (fun x _ => baryCoord x (missing f)) (fun _ => Trace.isPoly_bary _)
  have hface : ∀ χ, u (facetParam f χ) = (-1) ^ N * (N + 1 : ℝ) := by
    intro χ
    rw [hu]
    beta_reduce
    rw [(Trace.bary_facet f χ).1, hQ, jpoly_zero]
  have hsgn : ((-1 : ℝ) ^ N) ^ 2 = 1 := by rw [← pow_mul, mul_comm, pow_mul]; simp
  have e1 : simplexIntegral D (fun χ => u (facetParam f χ) ^ 2) = (N + 1 : ℝ) ^ 2 * simplexIntegral D (fun _ => 1) := by
    simp only [hface]
    rw [← int_const_mul]
    simp only [mul_one, mul_pow, hsgn, one_mul]
  have e2 : simplexIntegral (D + 1) (fun x => u x ^ 2) = (N + 1 : ℝ) / (N + D + 1) * simplexIntegral D (fun _ => 1) := by
    obtain ⟨p, hp, hup⟩ := hpoly
    have hsq : (fun x => u x ^ 2) = fun x => MvPolynomial.eval x (p * p) := by
      funext x; rw [hup, map_mul]; ring
    rw [hsq, ← integral_rays hD f, ← int_const_mul]
    congr 1
    funext χ
    have e3 : ∀ t : ℝ, (1 - t) ^ D * MvPolynomial.eval (ray f χ t) (p * p) = (1 - t) ^ D * t ^ 0 * (Q * Q).eval t := by
      intro t
      rw [map_mul, ← hup, hu]
      beta_reduce
      rw [(bary_ray f χ t).1, Polynomial.eval_mul]; ring
    rw [intervalIntegral.integral_congr (fun t _ => e3 t), ← Functions.wint_apply, hQ, wint_reproduce N D _ (Functions.natDegree_jpoly_le N D 1),
      jpoly_zero]
    have k : (N : ℝ) + D + 1 ≠ 0 := by positivity
    field_simp
    linear_combination hsgn
  have hpos : 0 < simplexIntegral D (fun _ => 1) := by rw [int_one (by omega)]; positivity
  refine ⟨u, hpoly, by rw [e1]; positivity, ?_⟩
  rw [e1, e2, int_one (by omega), int_one (by omega), Nat.factorial_succ]
  unfold Poisson.traceConstant
  have k : ((D.factorial : ℕ) : ℝ) ≠ 0 := by positivity
  have k2 : (D : ℝ) + 1 ≠ 0 := by positivity
  have k3 : (N : ℝ) + D + 1 ≠ 0 := by positivity
  push_cast
  field_simp
  ring

theorem sum_trace (hD : D = 1 ∨ D = 2) (N : ℕ) (W : Fin Nq → ℝ) (w : Fin nq → ℝ) (xi : Fin Nq → Fin (D + 1) → ℝ) (chi : Fin nq → Fin D → ℝ)
    (h1 : ∀ f, IsPoly (D + 1) (2 * N) f → ∑ q, W q * f (xi q) = simplexIntegral (D + 1) f)
    (h2 : ∀ f, IsPoly D (2 * N) f → ∑ q, w q * f (chi q) = simplexIntegral D f) (l : Fin (D + 2)) (u : (Fin (D + 1) → ℝ) → ℝ)
    (hu : IsPoly (D + 1) N u) :
    ∑ q, w q * u (facetParam l (chi q)) ^ 2 ≤ (N + 1 : ℝ) * (N + D + 1) * ∑ q, W q * u (xi q) ^ 2 := by
  have hsq : IsPoly (D + 1) (2 * N) (fun x => u x ^ 2) := by
    have := RefElement.isPoly_mul (D + 1) N N u u hu hu
    rw [← two_mul] at this
    simpa only [sq] using this
  rw [h1 _ hsq, h2 (fun χ => u (facetParam l χ) ^ 2) (Trace.isPoly_comp_affine _ _ hsq _ (Trace.isPoly_facetParam l))]
  exact trace_ineq hD l N u hu

/-- The two measures of the reference element. -/
theorem sum_weights (hD : D = 1 ∨ D = 2) (N : ℕ) (W : Fin Nq → ℝ) (w : Fin nq → ℝ) (xi : Fin Nq → Fin (D + 1) → ℝ) (chi : Fin nq → Fin D → ℝ)
    (h1 : ∀ f, IsPoly (D + 1) (2 * N) f → ∑ q, W q * f (xi q) = simplexIntegral (D + 1) f)
    (h2 : ∀ f, IsPoly D (2 * N) f → ∑ q, w q * f (chi q) = simplexIntegral D f) :
    ∑ q, w q = (D + 1 : ℝ) * ∑ q, W q ∧ 0 < ∑ q, W q ∧ 0 < ∑ q, w q := by
  have e1 := h1 (fun _ => 1) (RefElement.isPoly_const _ _ 1)
  have e2 := h2 (fun _ => 1) (RefElement.isPoly_const _ _ 1)
  simp only [mul_one] at e1 e2
  rw [e1, e2, int_one (by omega), int_one (by omega), Nat.factorial_succ]
  refine ⟨?_, by positivity, by positivity⟩
  push_cast
  have k : ((D.factorial : ℕ) : ℝ) ≠ 0 := by positivity
  have k2 : (D : ℝ) + 1 ≠ 0 := by positivity
  field_simp

/-- The scaling of the trace inequality to a straight element. -/
theorem scaled (N : ℕ) (L J S : ℝ) (W : Fin Nq → ℝ) (w : Fin nq → ℝ) (hJ : 0 < J) (h1 : ∑ q, w q = (D + 1 : ℝ) * ∑ q, W q) (h2 : 0 < ∑ q, W q) :
    L * ((N + 1 : ℝ) * (N + D + 1) * S) = Poisson.traceConstant (D + 1) N * ((∑ q, w q * L) / (∑ q, W q * J)) * (J * S) := by
  unfold Poisson.traceConstant
  rw [← Finset.sum_mul, ← Finset.sum_mul, h1]
  have k2 : (D : ℝ) + 1 ≠ 0 := by positivity
  have k3 := h2.ne'
  push_cast
  field_simp
  ring

/-- The trace inequality for a finite family of functions on a straight element. -/
theorem family_trace {ι : Type} [Fintype ι] (hD : D = 1 ∨ D = 2) (N : ℕ) (W : Fin Nq → ℝ) (w : Fin nq → ℝ) (xi : Fin Nq → Fin (D + 1) → ℝ) (chi : Fin nq → Fin D → ℝ)
    (h1 : ∀ f, IsPoly (D + 1) (2 * N) f → ∑ q, W q * f (xi q) = simplexIntegral (D + 1) f)
    (h2 : ∀ f, IsPoly D (2 * N) f → ∑ q, w q * f (chi q) = simplexIntegral D f) (l : Fin (D + 2)) (u : ι → (Fin (D + 1) → ℝ) → ℝ)
    (hu : ∀ i, IsPoly (D + 1) N (u i)) (L J : ℝ) (hL : 0 ≤ L) (hJ : 0 < J) :
    ∑ q, w q * (L * ∑ i, u i (facetParam l (chi q)) ^ 2) ≤
      Poisson.traceConstant (D + 1) N * ((∑ q, w q * L) / (∑ q, W q * J)) * ∑ q, J * W q * ∑ i, u i (xi q) ^ 2 := by
  obtain ⟨w1, w2, _⟩ := sum_weights hD N W w xi chi h1 h2
  have e1 : ∑ q, w q * (L * ∑ i, u i (facetParam l (chi q)) ^ 2) = L * ∑ i, ∑ q, w q * u i (facetParam l (chi q)) ^ 2 := by
    rw [Finset.sum_comm, Finset.mul_sum]
    refine sum_congr rfl fun q _ => ?_
    rw [← Finset.mul_sum]; ring
  have e2 : ∑ q, J * W q * ∑ i, u i (xi q) ^ 2 = J * ∑ i, ∑ q, W q * u i (xi q) ^ 2 := by
    rw [Finset.sum_comm, Finset.mul_sum]
    refine sum_congr rfl fun q _ => ?_
    rw [← Finset.mul_sum]; ring
  rw [e1, e2, ← scaled N L J _ W w hJ w1 w2]
  refine mul_le_mul_of_nonneg_left ?_ hL
  rw [Finset.mul_sum]
  exact sum_le_sum fun i _ => sum_trace hD N W w xi chi h1 h2 l (u i) (hu i)

theorem isPoly_grad {N : ℕ} {Nbf : ℕ} (phi : Fin Nbf → (Fin (D + 1) → ℝ) → ℝ) (dphi : Fin Nbf → (Fin (D + 1) → ℝ) → Fin (D + 1) → ℝ)
    (h1 : ∀ k, IsPoly (D + 1) (N + 1) (phi k)) (h2 : ∀ k x, IsGradient (phi k) (dphi k x) x) (A : Fin (D + 1) → ℝ) (v : Fin Nbf → ℝ) :
    IsPoly (D + 1) N (fun x => ∑ l, (∑ e, A e * dphi l x e) * v l) := by
  refine RefElement.isPoly_sum _ _ _ _ fun l _ => ?_
  simp only [mul_comm _ (v l)]
  refine RefElement.isPoly_const_mul _ _ _ _ (RefElement.isPoly_sum _ _ _ _ fun e _ => RefElement.isPoly_const_mul _ _ _ _ ?_)
  exact CurvilinearBuild.isPoly_gradient (N + 1) (phi l) (h1 l) (fun x => dphi l x) (fun x => h2 l x) e

/-- On a mesh of straight elements, with exact quadratures, polynomial basis functions of degree at most `N + 1`, positive
coefficients that are convex combinations at the points, and the area and the volume the code computes
(src/form/DGCurvilinearCommon.cpp lines 90-94 and 55-59), the hypotheses of C75 for Poisson's equation hold. -/
theorem poisson_coercive (hD : D = 1 ∨ D = 2) (N : ℕ) (ref : Poisson.Ref (D + 1) Nbf Nbm Nq nq) (g : Geometry (D + 1) Nq nq)
    (hr : GradientTables D N ref.W ref.w ref.Dxi_Q ref.Dxi_q) (hg : Straight P elems g) (K : List ℕ → Fin Nbm → ℝ) (area volume : List ℕ → ℝ)
    (hw : ∀ q, 0 ≤ ref.w q) (hW : ∀ q, 0 ≤ ref.W q)
    (harea : ∀ e f, InElems P elems e → IsFacet e f → area f = ∑ q, ref.w q * Poisson.normalLength (g.normal f e) q)
    (hvol : ∀ e, InElems P elems e → volume e = ∑ q, ref.W q * g.absDetJ e q)
    (hK : ∀ e, InElems P elems e → ∀ m, 0 < K e m) (hm : 0 < Nbm)
    (hEQ : ∀ q m, 0 ≤ ref.matE_Q_T q m) (hEQ1 : ∀ q, ∑ m, ref.matE_Q_T q m = 1)
    (hEq : ∀ l q m, 0 ≤ ref.matE_q_T l q m) (hEq1 : ∀ l q, ∑ m, ref.matE_q_T l q m = 1) :
    Poisson.Coercive P (D + 1) N elems ref g K area volume := by
  obtain ⟨xi, chi, phi, dphi, q1, q2, p1, p2, t1, t2⟩ := hr
  obtain ⟨w1, w2, w3⟩ := sum_weights hD N ref.W ref.w xi chi q1 q2
  have hlen : ∀ n : Fin (D + 1) → ℝ, n ≠ 0 → 0 < √(∑ i, n i * n i) := by
    intro n hn
    refine Real.sqrt_pos.2 ?_
    obtain ⟨i, hi⟩ := Function.ne_iff.1 hn
    exact sum_pos' (fun j _ => mul_self_nonneg _) ⟨i, mem_univ _, mul_self_pos.2 hi⟩
  refine Poisson.coercive_of_trace N ref g K area volume hw hW ?_ ?_ ?_ hK hm hEQ hEQ1 hEq hEq1 ?_
  · intro e he q
    obtain ⟨J, h1, h2⟩ := hg.detJ e he
    rw [h2]; exact h1.le
  · intro e f he hf
    obtain ⟨n, h1, h2⟩ := hg.normal e f he hf
    rw [harea e f he hf]
    simp only [Poisson.normalLength, h2]
    rw [← sum_mul]
    exact mul_pos w3 (hlen n h1)
  · intro e he
    obtain ⟨J, h1, h2⟩ := hg.detJ e he
    rw [hvol e he]
    simp only [h2]
    rw [← sum_mul]
    exact mul_pos w2 h1
  · intro e f he hf v
    obtain ⟨n, n1, n2⟩ := hg.normal e f he hf
    obtain ⟨J, j1, j2⟩ := hg.detJ e he
    obtain ⟨A, a1, a2⟩ := hg.jInv e he
    have a2 := a2 f hf
    set l : Fin (D + 2) := ⟨g.localNo e f, hg.localNo e f he hf⟩ with hl
    have hl' : g.localNo e f = (l : ℕ) := rfl
    have hL := hlen n n1
    set L := √(∑ i, n i * n i) with hLdef
    have key := family_trace (ι := Fin (D + 1)) hD N ref.W ref.w xi chi q1 q2 l (fun r x => ∑ k, (∑ e, A e r * dphi k x e) * v k)
      (fun r => isPoly_grad phi dphi p1 p2 (fun e => A e r) v) L J hL.le j1
    rw [harea e f he hf, hvol e he]
    simp only [Poisson.normalLength, Poisson.gradOf, n2, j2, a1, a2, t1, hl', t2, ← hLdef]
    refine le_trans (sum_le_sum fun q _ => mul_le_mul_of_nonneg_left ?_ (hw q)) key
    rw [div_le_iff₀ hL]
    refine (Poisson.cauchy_normal n _).trans (le_of_eq ?_)
    have : L * L = ∑ i, n i * n i := Real.mul_self_sqrt (sum_nonneg fun j _ => mul_self_nonneg _)
    rw [← this]; ring

/-- The same for linear elasticity, with first Lamé parameter not negative and positive shear modulus. -/
theorem elasticity_coercive (hD : D = 1 ∨ D = 2) (N : ℕ) (ref : Elasticity.Ref (D + 1) Nbf Nbm Nq nq) (g : Geometry (D + 1) Nq nq)
    (hr : GradientTables D N ref.W ref.w ref.Dxi_Q ref.Dxi_q) (hg : Straight P elems g) (lam mu : List ℕ → Fin Nbm → ℝ) (area volume : List ℕ → ℝ)
    (hw : ∀ q, 0 ≤ ref.w q) (hW : ∀ q, 0 ≤ ref.W q)
    (harea : ∀ e f, InElems P elems e → IsFacet e f → area f = ∑ q, ref.w q * Poisson.normalLength (g.normal f e) q)
    (hvol : ∀ e, InElems P elems e → volume e = ∑ q, ref.W q * g.absDetJ e q)
    (hlam : ∀ e, InElems P elems e → ∀ m, 0 ≤ lam e m) (hmu : ∀ e, InElems P elems e → ∀ m, 0 < mu e m) (hm : 0 < Nbm)
    (hEQ : ∀ q m, 0 ≤ ref.matE_Q_T q m) (hEQ1 : ∀ q, ∑ m, ref.matE_Q_T q m = 1)
    (hEq : ∀ l q m, 0 ≤ ref.matE_q_T l q m) (hEq1 : ∀ l q, ∑ m, ref.matE_q_T l q m = 1) :
    Elasticity.Coercive P (D + 1) N elems ref g lam mu area volume := by
  obtain ⟨xi, chi, phi, dphi, q1, q2, p1, p2, t1, t2⟩ := hr
  obtain ⟨w1, w2, w3⟩ := sum_weights hD N ref.W ref.w xi chi q1 q2
  have hlen : ∀ n : Fin (D + 1) → ℝ, n ≠ 0 → 0 < √(∑ i, n i * n i) := by
    intro n hn
    refine Real.sqrt_pos.2 ?_
    obtain ⟨i, hi⟩ := Function.ne_iff.1 hn
    exact sum_pos' (fun j _ => mul_self_nonneg _) ⟨i, mem_univ _, mul_self_pos.2 hi⟩
  refine Elasticity.coercive_of_trace (by omega) N ref g lam mu area volume hw hW ?_ ?_ ?_ hlam hmu hm hEQ hEQ1 hEq hEq1 ?_
  · intro e he q
    obtain ⟨J, h1, h2⟩ := hg.detJ e he
    rw [h2]; exact h1.le
  · intro e f he hf
    obtain ⟨n, h1, h2⟩ := hg.normal e f he hf
    rw [harea e f he hf]
    simp only [Poisson.normalLength, h2]
    rw [← sum_mul]
    exact mul_pos w3 (hlen n h1)
  · intro e he
    obtain ⟨J, h1, h2⟩ := hg.detJ e he
    rw [hvol e he]
    simp only [h2]
    rw [← sum_mul]
    exact mul_pos w2 h1
  · intro e f he hf v
    obtain ⟨n, n1, n2⟩ := hg.normal e f he hf
    obtain ⟨J, j1, j2⟩ := hg.detJ e he
    obtain ⟨A, a1, a2⟩ := hg.jInv e he
    have a2 := a2 f hf
    set l : Fin (D + 2) := ⟨g.localNo e f, hg.localNo e f he hf⟩ with hl
    have hl' : g.localNo e f = (l : ℕ) := rfl
    have hL := hlen n n1
    set L := √(∑ i, n i * n i) with hLdef
    have key := family_trace (ι := Fin (D + 1) × Fin (D + 1)) hD N ref.W ref.w xi chi q1 q2 l
      (fun i x => (1 / 2) * ((∑ k, (∑ e, A e i.2 * dphi k x e) * v k i.1) + ∑ k, (∑ e, A e i.1 * dphi k x e) * v k i.2))
      (fun i => RefElement.isPoly_const_mul _ _ _ _ (RefElement.isPoly_add _ _ _ _ (isPoly_grad phi dphi p1 p2 (fun e => A e i.2) (fun k => v k i.1))
        (isPoly_grad phi dphi p1 p2 (fun e => A e i.1) (fun k => v k i.2)))) L J hL.le j1
    rw [harea e f he hf, hvol e he]
    simp only [Poisson.normalLength, Elasticity.strain2, Elasticity.strain, Elasticity.grad, Elasticity.kDx, n2, j2, a1, a2, t1, hl', t2, ← hLdef]
    simp only [Fintype.sum_prod_type, one_div, inv_mul_eq_div] at key
    exact key

variable {num fnum tag : List ℕ → ℕ} {views : ℕ → View}

/-- **C75 (Poisson, straight elements)**: on every mesh of straight triangles or tetrahedra, for every polynomial degree `N + 1` of
the elements, every number of ranks and every partition, with quadratures that are exact for degree `2 N` and the penalty the
code computes from its own areas, volumes, coefficients and trace constant, the global interior penalty matrix is positive
semidefinite.  No inverse trace inequality is assumed: it is proved. -/
theorem C75_poisson_straight (hD : D = 1 ∨ D = 2) (hd : IsDistributed P (D + 1) elems num fnum tag views) (N : ℕ)
    (ref : Poisson.Ref (D + 1) Nbf Nbm Nq nq) (hr : GradientTables D N ref.W ref.w ref.Dxi_Q ref.Dxi_q) (hw : ∀ q, 0 ≤ ref.w q) (hW : ∀ q, 0 ≤ ref.W q)
    (g : Geometry (D + 1) Nq nq) (hg : g.Opposite P elems) (hs : Straight P elems g)
    (K : List ℕ → Fin Nbm → ℝ) (hK : ∀ e, InElems P elems e → ∀ m, 0 < K e m) (hm : 0 < Nbm)
    (hEQ : ∀ q m, 0 ≤ ref.matE_Q_T q m) (hEQ1 : ∀ q, ∑ m, ref.matE_Q_T q m = 1)
    (hEq : ∀ l q m, 0 ≤ ref.matE_q_T l q m) (hEq1 : ∀ l q, ∑ m, ref.matE_q_T l q m = 1)
    (area volume : List ℕ → ℝ)
    (harea : ∀ e f, InElems P elems e → IsFacet e f → area f = ∑ q, ref.w q * Poisson.normalLength (g.normal f e) q)
    (hvol : ∀ e, InElems P elems e → volume e = ∑ q, ref.W q * g.absDetJ e q)
    (pen : List ℕ → ℝ) (o : ℕ → Poisson.Op (D + 1) Nbf Nbm Nq nq) (ho : ∀ r, r < P → Poisson.Samples (views r) (o r) .IP ref g K pen)
    (areaR volumeR : ℕ → ℕ → ℝ) (hmeas : ∀ r, r < P → Poisson.Measures (views r) (areaR r) (volumeR r) area volume)
    (hpen : ∀ r, r < P → ∀ i info, i < (views r).numLocalFacets → facetInfo (views r) i = some info →
      (o r).penalty_ i = Poisson.preparePenalty (D + 1) N (areaR r) (volumeR r) (o r).K i info) (X : List ℕ → Fin Nbf → ℝ) :
    ∃ blocks : ℕ → List (ℕ × ℕ × (Fin Nbf → Fin Nbf → ℝ)),
      (∀ r, r < P → DGAssembly.assemble (views r) (o r).localOp = some (blocks r)) ∧
      0 ≤ ∑ r ∈ Finset.range P, ∑ u ∈ Finset.range (elems r).length, ∑ k, X ((views r).elems.getD u []) k *
        DGAssembly.rowApply Poisson.mulVec (blocks r) (fun j => X ((views r).elems.getD j [])) u k :=
  Poisson.C75_poisson hd ref g hg K pen o ho N areaR volumeR area volume hmeas hpen
    (poisson_coercive hD N ref g hr hs K area volume hw hW harea hvol hK hm hEQ hEQ1 hEq hEq1) X

/-- **C75 (elasticity, straight elements)**: the same for linear elasticity with first Lamé parameter not negative and positive
shear modulus. -/
theorem C75_elasticity_straight (hD : D = 1 ∨ D = 2) (hd : IsDistributed P (D + 1) elems num fnum tag views) (N : ℕ)
    (ref : Elasticity.Ref (D + 1) Nbf Nbm Nq nq) (hr : GradientTables D N ref.W ref.w ref.Dxi_Q ref.Dxi_q) (hw : ∀ q, 0 ≤ ref.w q) (hW : ∀ q, 0 ≤ ref.W q)
    (g : Geometry (D + 1) Nq nq) (hg : g.Opposite P elems) (hs : Straight P elems g)
    (lam mu : List ℕ → Fin Nbm → ℝ) (hlam : ∀ e, InElems P elems e → ∀ m, 0 ≤ lam e m) (hmu : ∀ e, InElems P elems e → ∀ m, 0 < mu e m) (hm : 0 < Nbm)
    (hEQ : ∀ q m, 0 ≤ ref.matE_Q_T q m) (hEQ1 : ∀ q, ∑ m, ref.matE_Q_T q m = 1)
    (hEq : ∀ l q m, 0 ≤ ref.matE_q_T l q m) (hEq1 : ∀ l q, ∑ m, ref.matE_q_T l q m = 1)
    (area volume : List ℕ → ℝ)
    (harea : ∀ e f, InElems P elems e → IsFacet e f → area f = ∑ q, ref.w q * Poisson.normalLength (g.normal f e) q)
    (hvol : ∀ e, InElems P elems e → volume e = ∑ q, ref.W q * g.absDetJ e q)
    (pen : List ℕ → ℝ) (o : ℕ → Elasticity.Op (D + 1) Nbf Nbm Nq nq) (ho : ∀ r, r < P → Elasticity.Samples (views r) (o r) .IP ref g lam mu pen)
    (areaR volumeR : ℕ → ℕ → ℝ) (hmeas : ∀ r, r < P → Poisson.Measures (views r) (areaR r) (volumeR r) area volume)
    (hpen : ∀ r, r < P → ∀ i info, i < (views r).numLocalFacets → facetInfo (views r) i = some info →
      (o r).penalty_ i = Elasticity.preparePenalty (D + 1) N (areaR r) (volumeR r) (o r).lam (o r).mu i info)
    (X : List ℕ → Fin Nbf → Fin (D + 1) → ℝ) :
    ∃ blocks : ℕ → List (ℕ × ℕ × (Fin Nbf → Fin (D + 1) → Fin Nbf → Fin (D + 1) → ℝ)),
      (∀ r, r < P → DGAssembly.assemble (views r) (o r).localOp = some (blocks r)) ∧
      0 ≤ ∑ r ∈ Finset.range P, ∑ u ∈ Finset.range (elems r).length, ∑ k, ∑ p, X ((views r).elems.getD u []) k p *
        DGAssembly.rowApply Elasticity.mulVec (blocks r) (fun j => X ((views r).elems.getD j [])) u k p :=
  Elasticity.C75_elasticity hd ref g hg lam mu pen o ho N areaR volumeR area volume hmeas hpen
    (elasticity_coercive hD N ref g hr hs lam mu area volume hw hW harea hvol hlam hmu hm hEQ hEQ1 hEq hEq1) X

/-! ## The hypotheses can be met: quadratic functions on the strip of triangles, on three ranks -/

/-- The middle points of the edges. -/
noncomputable def exXi : Fin 3 → Fin 2 → ℝ := ![![1 / 2, 0], ![0, 1 / 2], ![1 / 2, 1 / 2]]
/-- The points of Simpson's rule. -/
noncomputable def exChi : Fin 3 → Fin 1 → ℝ := ![![0], ![1 / 2], ![1]]
/-- The gradients of the basis functions x² and x y. -/
noncomputable def exGrad (k : Fin 2) (x : Fin 2 → ℝ) : Fin 2 → ℝ := if k = 0 then ![2 * x 0, 0] else ![x 1, x 0]
/-- Local facet number as a facet of the reference triangle. -/
def exLocal (l : ℕ) : Fin 3 := if l = 0 then 0 else if l = 1 then 1 else 2

/-- Basis functions x² and x y, constant coefficient basis. -/
noncomputable def exRef : Poisson.Ref 2 2 1 3 3 :=
  ⟨fun k q => if k = 0 then exXi q 0 ^ 2 else exXi q 0 * exXi q 1, fun k e q => exGrad k (exXi q) e, fun _ _ => 1, fun _ => 1 / 6,
   fun l k q => if k = 0 then facetParam (exLocal l) (exChi q) 0 ^ 2 else facetParam (exLocal l) (exChi q) 0 * facetParam (exLocal l) (exChi q) 1,
   fun l k e q => exGrad k (facetParam (exLocal l) (exChi q)) e, fun _ _ _ => 1, ![1 / 6, 2 / 3, 1 / 6], fun _ _ => 1⟩

/-- Straight geometry of the strip with normals that differ between the two sides of a facet. -/
noncomputable def exGeo : Geometry 2 3 3 :=
  ⟨fun _ _ => 1, fun _ i j _ => if i = j then 1 else 0, fun _ _ i j _ => if i = j then 1 else 0,
   fun f e i _ => (if 3 * f.sum ≤ 2 * e.sum then 1 else -1) * (i.val + 1 : ℝ), fun e f => (Ghosts.facets 2 e).idxOf f⟩

theorem exTables : GradientTables 1 1 exRef.W exRef.w exRef.Dxi_Q exRef.Dxi_q := by
  refine ⟨exXi, exChi, fun k x => if k = 0 then x 0 ^ 2 else x 0 * x 1, exGrad, ?_, ?_, ?_, ?_, fun _ _ _ => rfl, ?_⟩
  · have := Functions.exact_of_monomials 2 2 (by simp) [![1/2, 0], ![0, 1/2], ![1/2, 1/2]] [1/6, 1/6, 1/6] rfl fun m hm => ?_
    · intro f hf
      have h := this.2 f hf
      rw [← h, Fin.sum_univ_three]
      simp [exRef, exXi]; ring
    · rw [Fin.sum_univ_two] at hm
      have : (m 0 = 0 ∧ m 1 = 0) ∨ (m 0 = 1 ∧ m 1 = 0) ∨ (m 0 = 0 ∧ m 1 = 1) ∨ (m 0 = 2 ∧ m 1 = 0)
        ∨ (m 0 = 1 ∧ m 1 = 1) ∨ (m 0 = 0 ∧ m 1 = 2) := by omega
      rcases this with ⟨h0, h1⟩ | ⟨h0, h1⟩ | ⟨h0, h1⟩ | ⟨h0, h1⟩ | ⟨h0, h1⟩ | ⟨h0, h1⟩ <;>
        simp [Functions.moment, Fin.prod_univ_two, Fin.sum_univ_two, h0, h1, Nat.factorial] <;> norm_num
  · have := Functions.exact_of_monomials 1 2 (by simp) [![0], ![1/2], ![1]] [1/6, 2/3, 1/6] rfl fun m hm => ?_
    · intro f hf
      have h := this.2 f hf
      rw [← h, Fin.sum_univ_three]
      simp [exRef, exChi]; ring
    · rw [Fin.sum_univ_one] at hm
      have : m 0 = 0 ∨ m 0 = 1 ∨ m 0 = 2 := by omega
      rcases this with h | h | h <;> simp [Functions.moment, h, Nat.factorial] <;> norm_num
  · intro k
    have h0 := RefElement.isPoly_coord 2 0
    have h1 := RefElement.isPoly_coord 2 1
    fin_cases k
    · simpa [sq] using RefElement.isPoly_mul 2 1 1 _ _ h0 h0
    · simpa using RefElement.isPoly_mul 2 1 1 _ _ h0 h1
  · intro k x v
    have hd : ∀ d, HasDerivAt (fun t : ℝ => x d + t * v d) (v d) 0 := fun d => by
      simpa using ((hasDerivAt_id (0:ℝ)).mul_const (v d)).const_add (x d)
    fin_cases k
    · have e : ∑ d, exGrad 0 x d * v d = (2 : ℕ) * (x 0 + 0 * v 0) ^ (2 - 1) * v 0 := by
        rw [Fin.sum_univ_two]; simp [exGrad]
      refine HasDerivAt.congr_deriv ((hd 0).pow 2) e.symm
    · have e : ∑ d, exGrad 1 x d * v d = v 0 * (x 1 + 0 * v 1) + (x 0 + 0 * v 0) * v 1 := by
        rw [Fin.sum_univ_two]; simp [exGrad]; ring
      refine HasDerivAt.congr_deriv ((hd 0).mul (hd 1)) e.symm
  · intro l k e q
    have : exLocal l = l := by fin_cases l <;> rfl
    simp only [exRef, this]

theorem exGeoOpposite : exGeo.Opposite 3 Ghosts.exElems := by
  have hall : ∀ s, s < 3 → ∀ a ∈ Ghosts.exElems s, a ∈ Ghosts.exAll := by decide
  have hv : ∀ s, s < 3 → ∀ a ∈ Ghosts.exElems s, a.length = 3 ∧ a.Pairwise (· < ·) := by decide
  have h0 : ∀ a ∈ Ghosts.exAll, ∀ b ∈ Ghosts.exAll, ∀ f ∈ Ghosts.facets 2 a, a ≠ b → IsFacet b f →
      (3 * f.sum ≤ 2 * b.sum ↔ ¬ 3 * f.sum ≤ 2 * a.sum) := by decide +kernel
  rintro f e e' ⟨s, hs, he⟩ ⟨s', hs', he'⟩ hne hf hf'
  have := h0 e (hall s hs e he) e' (hall s' hs' e' he') f ((Ghosts.facets_spec 2 (by decide) e (hv s hs e he).1 (hv s hs e he).2).2 f |>.2 hf) hne hf'
  funext i q
  simp only [exGeo]
  by_cases h : 3 * f.sum ≤ 2 * e.sum
  · rw [if_pos h, if_neg (by rw [this]; simpa using h)]; ring
  · rw [if_neg h, if_pos (this.2 h)]; ring

theorem exGeoStraight : Straight 3 Ghosts.exElems exGeo where
  detJ := fun _ _ => ⟨1, one_pos, fun _ => rfl⟩
  jInv := fun _ _ => ⟨fun i j => if i = j then 1 else 0, fun _ _ _ => rfl, fun _ _ _ _ _ => rfl⟩
  normal := fun e f _ _ => ⟨fun i => (if 3 * f.sum ≤ 2 * e.sum then 1 else -1) * (i.val + 1 : ℝ), fun h => by
    have := congrFun h 0
    split_ifs at this <;> simp at this, fun _ _ => rfl⟩
  localNo := by
    rintro e f ⟨s, hs, he⟩ hf
    have hv : ∀ s, s < 3 → ∀ a ∈ Ghosts.exElems s, a.length = 3 ∧ a.Pairwise (· < ·) := by decide
    have hl : ∀ s, s < 3 → ∀ a ∈ Ghosts.exElems s, (Ghosts.facets 2 a).length = 3 := by decide
    have := (Ghosts.facets_spec 2 (by decide) e (hv s hs e he).1 (hv s hs e he).2).2 f |>.2 hf
    have := List.idxOf_lt_length_of_mem this
    rw [hl s hs e he] at this
    exact this

theorem exLength (e f : List ℕ) (q : Fin 3) : Poisson.normalLength (exGeo.normal f e) q = √5 := by
  unfold Poisson.normalLength
  congr 1
  rw [Fin.sum_univ_two]
  simp only [exGeo]
  split_ifs <;> norm_num

theorem exArea (e f : List ℕ) : √5 = ∑ q, exRef.w q * Poisson.normalLength (exGeo.normal f e) q := by
  simp only [exLength]
  rw [← sum_mul, Fin.sum_univ_three]
  simp [exRef]; norm_num

theorem exVolume (e : List ℕ) : (1 / 2 : ℝ) = ∑ q, exRef.W q * exGeo.absDetJ e q := by
  rw [Fin.sum_univ_three]; simp [exRef, exGeo]; norm_num

open Classical in
/-- Penalty of the facets of the strip. -/
noncomputable def exPen (f : List ℕ) : ℝ :=
  if h : ∃ e a, InElems 3 Ghosts.exElems e ∧ InElems 3 Ghosts.exElems a ∧ e ≠ a ∧ IsFacet e f ∧ IsFacet a f then
    3 * Poisson.sidePenalty 2 1 √5 (1 / 2) (Poisson.exCoefficient h.choose) / 4 + 3 * Poisson.sidePenalty 2 1 √5 (1 / 2) (Poisson.exCoefficient h.choose_spec.choose) / 4
  else if h : ∃ e, InElems 3 Ghosts.exElems e ∧ IsFacet e f then 3 * Poisson.sidePenalty 2 1 √5 (1 / 2) (Poisson.exCoefficient h.choose) else 0

/-- Quadratic elements on the strip on three ranks: all hypotheses of `C75_poisson_straight` hold together, so its conclusion holds. -/
example (X : List ℕ → Fin 2 → ℝ) : ∃ (num fnum : List ℕ → ℕ) (views : ℕ → View) (o : ℕ → Poisson.Op 2 2 1 3 3),
    IsDistributed 3 2 Ghosts.exElems num fnum Poisson.exTag views ∧ (∀ r, r < 3 → Poisson.Samples (views r) (o r) .IP exRef exGeo Poisson.exCoefficient exPen) ∧
    ∃ blocks : ℕ → List (ℕ × ℕ × (Fin 2 → Fin 2 → ℝ)),
      (∀ r, r < 3 → DGAssembly.assemble (views r) (o r).localOp = some (blocks r)) ∧
      0 ≤ ∑ r ∈ Finset.range 3, ∑ u ∈ Finset.range (Ghosts.exElems r).length, ∑ k, X ((views r).elems.getD u []) k *
        DGAssembly.rowApply Poisson.mulVec (blocks r) (fun j => X ((views r).elems.getD j [])) u k := by
  obtain ⟨num, fnum, views, o, h, ho⟩ := Poisson.example_samples_of exGeo (fun _ _ => rfl) .IP exRef Poisson.exCoefficient exPen
  have hmeas : ∀ r, r < 3 → Poisson.Measures (views r) (fun _ => √5) (fun _ => 1 / 2) (fun _ => √5) (fun _ => 1 / 2) :=
    fun r _ => ⟨fun _ _ _ _ => rfl, fun _ _ _ => rfl⟩
  refine ⟨num, fnum, views, o, h, ho, ?_⟩
  refine C75_poisson_straight (D := 1) (Or.inl rfl) h 1 exRef exTables (fun q => by fin_cases q <;> simp [exRef] <;> norm_num) (fun q => by simp [exRef]) exGeo exGeoOpposite exGeoStraight
    Poisson.exCoefficient (fun e _ m => by unfold Poisson.exCoefficient; positivity) one_pos (fun _ _ => zero_le_one) (fun q => by simp [exRef])
    (fun _ _ _ => zero_le_one) (fun _ _ => by simp [exRef]) _ _ (fun e f _ _ => exArea e f) (fun e _ => exVolume e) exPen o ho
    (fun _ _ => √5) (fun _ _ => 1 / 2) hmeas ?_ X
  intro r hr i info hi hinfo
  have hv := h.view r hr
  obtain ⟨info', f, e0, e1, g1, g2, g3, g4, g5, g6, g7, _⟩ := C33_facet_info h r hr i hi
  rw [(ho r hr).penalty_ i f g2 hi]
  obtain ⟨p1, p2⟩ := Poisson.penalty_eq h r hr 1 _ _ _ _ (hmeas r hr) (o r).K Poisson.exCoefficient (ho r hr).K i info f hi hinfo g2
  unfold exPen
  by_cases hex : ∃ e a, InElems 3 Ghosts.exElems e ∧ InElems 3 Ghosts.exElems a ∧ e ≠ a ∧ IsFacet e f ∧ IsFacet a f
  · rw [dif_pos hex]
    obtain ⟨q1, q2, q3, q4, q5⟩ := hex.choose_spec.choose_spec
    rw [p2 _ _ q1 q2 q3 q4 q5]; norm_num
  · rw [dif_neg hex]
    have hex' : ∃ e, InElems 3 Ghosts.exElems e ∧ IsFacet e f := ⟨e0, mem_inElems hv g3, g5⟩
    rw [dif_pos hex']
    obtain ⟨q1, q2⟩ := hex'.choose_spec
    rw [p1 _ q1 q2 (fun a ha hfa => Classical.byContradiction (fun hne => hex ⟨a, _, ha, q1, hne, hfa, q2⟩))]; norm_num

open Classical in
/-- The same for elasticity. -/
noncomputable def exPenE (f : List ℕ) : ℝ :=
  if h : ∃ e a, InElems 3 Ghosts.exElems e ∧ InElems 3 Ghosts.exElems a ∧ e ≠ a ∧ IsFacet e f ∧ IsFacet a f then
    3 * Elasticity.sidePenalty 2 1 √5 (1 / 2) (Elasticity.exLam h.choose) (Elasticity.exMu h.choose) / 4 + 3 * Elasticity.sidePenalty 2 1 √5 (1 / 2) (Elasticity.exLam h.choose_spec.choose) (Elasticity.exMu h.choose_spec.choose) / 4
  else if h : ∃ e, InElems 3 Ghosts.exElems e ∧ IsFacet e f then 3 * Elasticity.sidePenalty 2 1 √5 (1 / 2) (Elasticity.exLam h.choose) (Elasticity.exMu h.choose) else 0

/-- Quadratic elements on the strip on three ranks: all hypotheses of `C75_elasticity_straight` hold together, so its conclusion holds. -/
example (X : List ℕ → Fin 2 → Fin 2 → ℝ) : ∃ (num fnum : List ℕ → ℕ) (views : ℕ → View) (o : ℕ → Elasticity.Op 2 2 1 3 3),
    IsDistributed 3 2 Ghosts.exElems num fnum Poisson.exTag views ∧ (∀ r, r < 3 → Elasticity.Samples (views r) (o r) .IP exRef exGeo Elasticity.exLam Elasticity.exMu exPenE) ∧
    ∃ blocks : ℕ → List (ℕ × ℕ × (Fin 2 → Fin 2 → Fin 2 → Fin 2 → ℝ)),
      (∀ r, r < 3 → DGAssembly.assemble (views r) (o r).localOp = some (blocks r)) ∧
      0 ≤ ∑ r ∈ Finset.range 3, ∑ u ∈ Finset.range (Ghosts.exElems r).length, ∑ k, ∑ p, X ((views r).elems.getD u []) k p *
        DGAssembly.rowApply Elasticity.mulVec (blocks r) (fun j => X ((views r).elems.getD j [])) u k p := by
  obtain ⟨num, fnum, views, o, h, ho⟩ := Elasticity.example_samples_of exGeo (fun _ _ => rfl) .IP exRef Elasticity.exLam Elasticity.exMu exPenE
  have hmeas : ∀ r, r < 3 → Poisson.Measures (views r) (fun _ => √5) (fun _ => 1 / 2) (fun _ => √5) (fun _ => 1 / 2) :=
    fun r _ => ⟨fun _ _ _ _ => rfl, fun _ _ _ => rfl⟩
  refine ⟨num, fnum, views, o, h, ho, ?_⟩
  refine C75_elasticity_straight (D := 1) (Or.inl rfl) h 1 exRef exTables (fun q => by fin_cases q <;> simp [exRef] <;> norm_num) (fun q => by simp [exRef]) exGeo exGeoOpposite exGeoStraight
    Elasticity.exLam Elasticity.exMu (fun e _ m => by unfold Elasticity.exLam; positivity) (fun e _ m => by unfold Elasticity.exMu; positivity) one_pos (fun _ _ => zero_le_one) (fun q => by simp [exRef])
    (fun _ _ _ => zero_le_one) (fun _ _ => by simp [exRef]) _ _ (fun e f _ _ => exArea e f) (fun e _ => exVolume e) exPenE o ho
    (fun _ _ => √5) (fun _ _ => 1 / 2) hmeas ?_ X
  intro r hr i info hi hinfo
  have hv := h.view r hr
  obtain ⟨info', f, e0, e1, g1, g2, g3, g4, g5, g6, g7, _⟩ := C33_facet_info h r hr i hi
  rw [(ho r hr).penalty_ i f g2 hi]
  obtain ⟨p1, p2⟩ := Elasticity.penalty_eq h r hr 1 _ _ _ _ (hmeas r hr) (o r).lam (o r).mu Elasticity.exLam Elasticity.exMu (ho r hr).lam (ho r hr).mu i info f hi hinfo g2
  unfold exPenE
  by_cases hex : ∃ e a, InElems 3 Ghosts.exElems e ∧ InElems 3 Ghosts.exElems a ∧ e ≠ a ∧ IsFacet e f ∧ IsFacet a f
  · rw [dif_pos hex]
    obtain ⟨q1, q2, q3, q4, q5⟩ := hex.choose_spec.choose_spec
    rw [p2 _ _ q1 q2 q3 q4 q5]; norm_num
  · rw [dif_neg hex]
    have hex' : ∃ e, InElems 3 Ghosts.exElems e ∧ IsFacet e f := ⟨e0, mem_inElems hv g3, g5⟩
    rw [dif_pos hex']
    obtain ⟨q1, q2⟩ := hex'.choose_spec
    rw [p1 _ q1 q2 (fun a ha hfa => Classical.byContradiction (fun hne => hex ⟨a, _, ha, q1, hne, hfa, q2⟩))]; norm_num

end Tandem.TraceIneq
