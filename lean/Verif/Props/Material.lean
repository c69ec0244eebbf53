import Verif.Model.Material
import Verif.Model.Poisson
import Verif.Model.Elasticity
import Verif.Spec.Material
import Verif.Props.MassMatrix
import Verif.Props.CurvilinearBuild
/-! # Property C98: the material of the operators is the projection of the functions of the user -/
namespace Tandem.Material
open RefElement Error CurvilinearBuild Finset Spec

variable {D Nq Nbm : ℕ}

/-- Values at the points of the combination with coefficients `c`. -/
noncomputable def comb (E : Fin Nq → Fin Nbm → ℝ) (c : Fin Nbm → ℝ) (q : Fin Nq) : ℝ := ∑ t, E q t * c t

theorem lhs_mulVec (E : Fin Nq → Fin Nbm → ℝ) (W J : Fin Nq → ℝ) (c : Fin Nbm → ℝ) (k : Fin Nbm) :
    (projectLhs E W J).mulVec c k = ∑ q, W q * J q * comb E c q * E q k := by
  simp only [projectLhs, Matrix.mulVec, dotProduct, Matrix.of_apply, comb, sum_mul, mul_sum]
  rw [sum_comm]
  exact sum_congr rfl fun q _ => sum_congr rfl fun t _ => by ring

theorem lhs_unit (E : Fin Nq → Fin Nbm → ℝ) (W J : Fin Nq → ℝ) (hp : ∀ q, 0 < W q * J q)
    (hi : ∀ c, (∀ q, comb E c q = 0) → c = 0) : IsUnit (projectLhs E W J).det := by
  rw [← Matrix.isUnit_iff_isUnit_det, ← Matrix.mulVec_injective_iff_isUnit]
  intro c c' h
  rw [← sub_eq_zero] at h ⊢
  change (projectLhs E W J).mulVec c - (projectLhs E W J).mulVec c' = 0 at h
  rw [← Matrix.mulVec_sub] at h
  apply hi
  have h0 : ∑ q, W q * J q * comb E (c - c') q ^ 2 = 0 := by
    have : ∑ k, (c - c') k * (projectLhs E W J).mulVec (c - c') k = 0 := by rw [h]; simp
    simp only [lhs_mulVec, mul_sum] at this
    rw [sum_comm] at this
    rw [← this]
    refine sum_congr rfl fun q _ => ?_
    rw [sq, ← mul_assoc]
    conv_lhs => rw [comb, mul_sum]
    refine sum_congr rfl fun t _ => ?_
    unfold comb; ring
  have h1 := (sum_eq_zero_iff_of_nonneg (fun q _ => mul_nonneg (hp q).le (sq_nonneg _))).1 h0
  intro q
  have := h1 q (mem_univ _)
  have h2 : comb E (c - c') q ^ 2 = 0 := (mul_eq_zero.1 this).resolve_left (hp q).ne'
  exact pow_eq_zero_iff (two_ne_zero) |>.1 h2

/-- The normal equations: the residual is orthogonal to every function of the space. -/
theorem normal_equations (E : Fin Nq → Fin Nbm → ℝ) (W J K : Fin Nq → ℝ) (hp : ∀ q, 0 < W q * J q)
    (hi : ∀ c, (∀ q, comb E c q = 0) → c = 0) (d : Fin Nbm → ℝ) :
    ∑ q, W q * J q * (comb E (project E W J K) q - K q) * comb E d q = 0 := by
  have hu := lhs_unit E W J hp hi
  have h : (projectLhs E W J).mulVec (project E W J K) = projectRhs E W J K := by
    unfold project
    rw [Matrix.mulVec_mulVec, Matrix.mul_nonsing_inv _ hu, Matrix.one_mulVec]
  have hk : ∀ k, ∑ q, W q * J q * (comb E (project E W J K) q - K q) * E q k = 0 := by
    intro k
    have := congrFun h k
    rw [lhs_mulVec] at this
    unfold projectRhs at this
    calc _ = ∑ q, W q * J q * comb E (project E W J K) q * E q k - ∑ q, K q * E q k * W q * J q := by
          rw [← sum_sub_distrib]; exact sum_congr rfl fun q _ => by ring
      _ = 0 := by rw [this, sub_self]
  calc _ = ∑ k, d k * ∑ q, W q * J q * (comb E (project E W J K) q - K q) * E q k := by
        simp only [mul_sum]
        rw [sum_comm]
        refine sum_congr rfl fun q _ => ?_
        conv_lhs => rw [show comb E d q = ∑ t, E q t * d t from rfl, mul_sum]
        exact sum_congr rfl fun t _ => by ring
    _ = 0 := by simp only [hk, mul_zero, sum_const_zero]

theorem comb_sub (E : Fin Nq → Fin Nbm → ℝ) (c d : Fin Nbm → ℝ) (q : Fin Nq) : comb E (c - d) q = comb E c q - comb E d q := by
  simp only [comb, Pi.sub_apply, mul_sub, sum_sub_distrib]

/-- **C98 (projection, tables)**: for every table of basis functions without a nonzero combination that vanishes at all points, and
positive weights and determinants, the coefficients of the material are the only ones with the least error. -/
theorem C98_minimiser (E : Fin Nq → Fin Nbm → ℝ) (W J K : Fin Nq → ℝ) (hp : ∀ q, 0 < W q * J q)
    (hi : ∀ c : Fin Nbm → ℝ, (∀ q, ∑ t, E q t * c t = 0) → c = 0) (c : Fin Nbm → ℝ) :
    fitError W J (fun q => ∑ t, E q t * project E W J K t) K ≤ fitError W J (fun q => ∑ t, E q t * c t) K ∧
    (fitError W J (fun q => ∑ t, E q t * c t) K = fitError W J (fun q => ∑ t, E q t * project E W J K t) K → c = project E W J K) := by
  set s := project E W J K with hs
  have key : fitError W J (fun q => ∑ t, E q t * c t) K = fitError W J (fun q => ∑ t, E q t * s t) K +
      ∑ q, W q * J q * comb E (c - s) q ^ 2 := by
    have h := normal_equations E W J K hp hi (c - s)
    rw [← hs] at h
    have h2 : (0 : ℝ) = 2 * ∑ q, W q * J q * (comb E s q - K q) * comb E (c - s) q := by rw [h]; ring
    unfold fitError
    rw [← add_zero (∑ q, W q * J q * comb E (c - s) q ^ 2), h2, mul_sum, ← sum_add_distrib, ← sum_add_distrib]
    refine sum_congr rfl fun q _ => ?_
    have e1 : ∑ t, E q t * c t = comb E c q := rfl
    have e2 : ∑ t, E q t * s t = comb E s q := rfl
    simp only [e1, e2, comb_sub]; ring
  have h0 : 0 ≤ ∑ q, W q * J q * comb E (c - s) q ^ 2 := sum_nonneg fun q _ => mul_nonneg (hp q).le (sq_nonneg _)
  refine ⟨by rw [key]; linarith, fun he => ?_⟩
  rw [key] at he
  have h1 := (sum_eq_zero_iff_of_nonneg (fun q _ => mul_nonneg (hp q).le (sq_nonneg _))).1 (by linarith : ∑ q, W q * J q * comb E (c - s) q ^ 2 = 0)
  have := hi (c - s) fun q => by
    have := h1 q (mem_univ _)
    exact pow_eq_zero_iff (two_ne_zero) |>.1 ((mul_eq_zero.1 this).resolve_left (hp q).ne')
  exact sub_eq_zero.1 this

/-! ## The tables of the nodal element -/

theorem matE_eq (N : ℕ) (nodes points : List (Fin D → ℝ)) (q : Fin points.length) (t : Fin (nbf D N)) :
    matE N nodes points q t = nodalFunction N nodes t points[q] := by
  have := (C78_evaluation N nodes points (Equiv.swap 0 1) t q.val q.2).2.1
  refine Eq.trans ?_ this
  unfold matE
  congr 1
  funext i
  fin_cases i <;> simp [permute]

theorem isPoly_comb (N : ℕ) (hD : D = 1 ∨ D = 2 ∨ D = 3) (nodes : List (Fin D → ℝ)) (hlen : nodes.length = nbf D N)
    (hV : IsUnit (vandermonde N nodes).det) (c : Fin (nbf D N) → ℝ) : IsPoly D N (fun x => ∑ t, c t * nodalFunction N nodes t x) :=
  isPoly_sum D N univ _ fun t _ => isPoly_const_mul D N _ _ (C78_lagrange D N (by omega) nodes hlen hV t).1

/-- No nonzero polynomial of the space vanishes at all points of a rule that is exact for degree `2N`. -/
theorem table_injective (N : ℕ) (hD : D = 1 ∨ D = 2 ∨ D = 3) (rule : Rule D) (hq : ExactQuadrature D (2 * N) rule.points rule.weights)
    (nodes : List (Fin D → ℝ)) (hlen : nodes.length = nbf D N) (hV : IsUnit (vandermonde N nodes).det) (c : Fin (nbf D N) → ℝ)
    (h : ∀ q : Fin rule.points.length, ∑ t, matE N nodes rule.points q t * c t = 0) : c = 0 := by
  have hm : (nodalMass N nodes rule).mulVec c = 0 := by
    funext i
    have hp := fun t => (C78_lagrange D N (by omega) nodes hlen hV t).1
    simp only [Matrix.mulVec, dotProduct, C82_nodal D N hD rule hq nodes, quad_prod rule hq _ _ (hp _) (hp _), sum_mul]
    rw [sum_comm]
    refine sum_eq_zero fun q hqr => ?_
    have hql := mem_range.1 hqr
    have := h ⟨q, hql⟩
    simp only [matE_eq] at this
    calc _ = rule.weights.getD q 0 * nodalFunction N nodes i (rule.points.getD q 0) *
          ∑ t : Fin (nbf D N), nodalFunction N nodes t (rule.points.getD q 0) * c t := by
          rw [mul_sum]; exact sum_congr rfl fun t _ => by ring
      _ = 0 := by rw [List.getD_eq_getElem _ _ hql]; erw [this]; rw [mul_zero]
  calc c = (1 : Matrix _ _ ℝ).mulVec c := (Matrix.one_mulVec c).symm
    _ = 0 := by rw [← (C82_nodal_inverse D N hD rule hq nodes hV).1, ← Matrix.mulVec_mulVec, hm, Matrix.mulVec_zero]

/-- The polynomial with the coefficients of the material is the best approximation. -/
theorem project_bestFit (N : ℕ) (hD : D = 1 ∨ D = 2 ∨ D = 3) (rule : Rule D) (hq : ExactQuadrature D (2 * N) rule.points rule.weights)
    (nodes : List (Fin D → ℝ)) (hlen : nodes.length = nbf D N) (hV : IsUnit (vandermonde N nodes).det)
    (W J K : Fin rule.points.length → ℝ) (hp : ∀ q, 0 < W q * J q) :
    BestFit D N (fun q => rule.points[q]) W J K (fun x => ∑ t, project (matE N nodes rule.points) W J K t * nodalFunction N nodes t x) := by
  have hi := table_injective N hD rule hq nodes hlen hV
  refine ⟨isPoly_comb N hD nodes hlen hV _, fun p hpp => ?_⟩
  set c : Fin (nbf D N) → ℝ := fun t => p (nodes[t.val]'(by omega)) with hc
  have e1 : ∀ x, p x = ∑ t, c t * nodalFunction N nodes t x := fun x => (C78_reproduces D N hD nodes hlen hV p hpp x).symm
  have e2 : (fun q : Fin rule.points.length => p rule.points[q]) = fun q => ∑ t, matE N nodes rule.points q t * c t := by
    funext q; rw [e1]; exact sum_congr rfl fun t _ => by rw [matE_eq, mul_comm]
  have e3 : (fun q : Fin rule.points.length => ∑ t, project (matE N nodes rule.points) W J K t * nodalFunction N nodes t rule.points[q]) =
      fun q => ∑ t, matE N nodes rule.points q t * project (matE N nodes rule.points) W J K t := by
    funext q; exact sum_congr rfl fun t _ => by rw [matE_eq, mul_comm]
  obtain ⟨m1, m2⟩ := C98_minimiser (matE N nodes rule.points) W J K hp hi c
  rw [e2, e3]
  refine ⟨m1, fun he x => ?_⟩
  rw [e1, m2 he]

/-- What is assumed about an element: a rule that is exact for degree `2N` with positive weights, nodes that determine the polynomials,
and a map of the element whose determinant is not zero at the points. -/
structure Regular (N : ℕ) (b : Built D) (rule : Rule D) (nodes : List (Fin D → ℝ)) (elNo : ℕ) : Prop where
  exact : ExactQuadrature D (2 * N) rule.points rule.weights
  weights : ∀ q, q < rule.points.length → 0 < rule.weights.getD q 0
  length : nodes.length = nbf D N
  unisolvent : IsUnit (vandermonde N nodes).det
  detJ : ∀ q, q < rule.points.length → (jacobian b.geo elNo (geoGrad b.geo rule.points) q).det ≠ 0

/-- The absolute value of the determinant at the points. -/
noncomputable def absDet (b : Built D) (rule : Rule D) (elNo : ℕ) (q : Fin rule.points.length) : ℝ :=
  |(jacobian b.geo elNo (geoGrad b.geo rule.points) q).det|

/-- The points in space. -/
noncomputable def place (b : Built D) (rule : Rule D) (elNo : ℕ) (q : Fin rule.points.length) : Fin D → ℝ :=
  geoMap b.geo elNo (geoBasis b.geo rule.points) q

theorem Regular.pos {N : ℕ} {b : Built D} {rule : Rule D} {nodes : List (Fin D → ℝ)} {elNo : ℕ} (h : Regular N b rule nodes elNo)
    (q : Fin rule.points.length) : 0 < rule.weights.getD q 0 * absDet b rule elNo q :=
  mul_pos (h.weights q q.2) (abs_pos.2 (h.detJ q q.2))

theorem coefficients_eq (b : Built D) (rule : Rule D) (N : ℕ) (nodes : List (Fin D → ℝ)) (post : ℝ → ℝ) (f : (Fin D → ℝ) → ℤ → Fin 1 → ℝ)
    (elNo : ℕ) (tag : ℤ) (ht : getVolumeTag b elNo = some tag) :
    coefficients b rule N nodes post f elNo = some (project (matE N nodes rule.points) (fun q => rule.weights.getD q 0) (absDet b rule elNo)
      (fun q => post (f (place b rule elNo q) tag 0))) := by
  unfold coefficients
  simp only [ht, Option.map_some]
  unfold volumeFunctionalRegion
  simp only [ht, Option.map_some, Option.getD_some]
  rfl

/-- **C98 (Poisson)**: after the preparation the coefficient field of an element is the polynomial of degree `N` (with the stored
coefficients as values at the nodes) that approximates the function of the user, at the place and with the tag of the element, best at
the quadrature points, and the only such polynomial. -/
theorem C98_poisson (hD : D = 1 ∨ D = 2 ∨ D = 3) (N : ℕ) (b : Built D) (rule : Rule D) (nodes : List (Fin D → ℝ)) (elNo : ℕ)
    (h : Regular N b rule nodes elNo) (K : (Fin D → ℝ) → ℤ → Fin 1 → ℝ) (tag : ℤ) (ht : getVolumeTag b elNo = some tag) :
    ∃ c u, poisson b rule N nodes K elNo = some c ∧
      BestFit D N (fun q => rule.points[q]) (fun q => rule.weights.getD q 0) (absDet b rule elNo) (fun q => K (place b rule elNo q) tag 0) u ∧
      ∀ t : Fin (nbf D N), c t = u (nodes.getD t 0) := by
  refine ⟨_, _, coefficients_eq b rule N nodes id K elNo tag ht, project_bestFit N hD rule h.exact nodes h.length h.unisolvent _ _ _ h.pos, fun t => ?_⟩
  have hl := h.length
  simp only [List.getD_eq_getElem _ _ (show t.val < nodes.length by omega), (C78_lagrange D N (by omega) nodes h.length h.unisolvent _).2 t]
  simp

/-- **C98 (elasticity)**: the same for both Lamé parameters and for the reciprocal of the density (one without a density). -/
theorem C98_elasticity (hD : D = 1 ∨ D = 2 ∨ D = 3) (N : ℕ) (b : Built D) (rule : Rule D) (nodes : List (Fin D → ℝ)) (elNo : ℕ)
    (h : Regular N b rule nodes elNo) (lam mu : (Fin D → ℝ) → ℤ → Fin 1 → ℝ) (rho : Option ((Fin D → ℝ) → ℤ → Fin 1 → ℝ)) (tag : ℤ)
    (ht : getVolumeTag b elNo = some tag) :
    ∃ cl cm cr ul um ur, elasticity b rule N nodes lam mu rho elNo = some (cl, cm, cr) ∧
      BestFit D N (fun q => rule.points[q]) (fun q => rule.weights.getD q 0) (absDet b rule elNo) (fun q => lam (place b rule elNo q) tag 0) ul ∧
      BestFit D N (fun q => rule.points[q]) (fun q => rule.weights.getD q 0) (absDet b rule elNo) (fun q => mu (place b rule elNo q) tag 0) um ∧
      BestFit D N (fun q => rule.points[q]) (fun q => rule.weights.getD q 0) (absDet b rule elNo)
        (fun q => match rho with | some r => (r (place b rule elNo q) tag 0)⁻¹ | none => 1) ur ∧
      ∀ t : Fin (nbf D N), cl t = ul (nodes.getD t 0) ∧ cm t = um (nodes.getD t 0) ∧ cr t = ur (nodes.getD t 0) := by
  have hl := h.length
  have hv : ∀ (c : Fin (nbf D N) → ℝ) (t : Fin (nbf D N)), c t = ∑ s, c s * nodalFunction N nodes s (nodes.getD t 0) := by
    intro c t
    simp only [List.getD_eq_getElem _ _ (show t.val < nodes.length by omega), (C78_lagrange D N (by omega) nodes h.length h.unisolvent _).2 t]
    simp
  have hr : (fun q => (fun x : ℝ => 1.0 / x) ((rho.getD (fun _ _ _ => 1)) (place b rule elNo q) tag 0)) =
      (fun q => match rho with | some r => (r (place b rule elNo q) tag 0)⁻¹ | none => 1) := by
    funext q
    cases rho <;> norm_num
  refine ⟨_, _, _, _, _, _, ?_, project_bestFit N hD rule h.exact nodes h.length h.unisolvent _ _ _ h.pos,
    project_bestFit N hD rule h.exact nodes h.length h.unisolvent _ _ _ h.pos,
    project_bestFit N hD rule h.exact nodes h.length h.unisolvent _ _ _ h.pos, fun t => ⟨hv _ t, hv _ t, hv _ t⟩⟩
  unfold elasticity
  rw [coefficients_eq b rule N nodes id lam elNo tag ht, coefficients_eq b rule N nodes id mu elNo tag ht,
    coefficients_eq b rule N nodes _ _ elNo tag ht, hr]
  rfl

/-- A best approximation of a polynomial of the space is the polynomial. -/
theorem bestFit_exact {N n : ℕ} {xi : Fin n → Fin D → ℝ} {W J K : Fin n → ℝ} {u : (Fin D → ℝ) → ℝ} (hp : ∀ q, 0 < W q * J q)
    (h : BestFit D N xi W J K u) (p : (Fin D → ℝ) → ℝ) (hpp : IsPoly D N p) (hK : ∀ q, K q = p (xi q)) (x : Fin D → ℝ) : u x = p x := by
  obtain ⟨h1, h2⟩ := h.2 p hpp
  refine (h2 (le_antisymm ?_ h1) x).symm
  have : fitError W J (fun q => p (xi q)) K = 0 := by
    unfold fitError; exact sum_eq_zero fun q _ => by rw [hK]; ring
  rw [this]
  exact sum_nonneg fun q _ => mul_nonneg (hp q).le (sq_nonneg _)

/-- **C98 (reproduction)**: if the function of the user is, on the element, a polynomial of degree `N` in the reference coordinates (at the
quadrature points), the coefficients are its values at the nodes; in particular a constant gives constant coefficients. -/
theorem C98_reproduces (hD : D = 1 ∨ D = 2 ∨ D = 3) (N : ℕ) (b : Built D) (rule : Rule D) (nodes : List (Fin D → ℝ)) (elNo : ℕ)
    (h : Regular N b rule nodes elNo) (K : (Fin D → ℝ) → ℤ → Fin 1 → ℝ) (tag : ℤ) (ht : getVolumeTag b elNo = some tag)
    (p : (Fin D → ℝ) → ℝ) (hp : IsPoly D N p) (hK : ∀ q : Fin rule.points.length, K (place b rule elNo q) tag 0 = p rule.points[q]) :
    poisson b rule N nodes K elNo = some fun t : Fin (nbf D N) => p (nodes.getD t 0) := by
  obtain ⟨c, u, h1, h2, h3⟩ := C98_poisson hD N b rule nodes elNo h K tag ht
  rw [h1]
  congr 1
  funext t
  rw [h3, bestFit_exact h.pos h2 p hp hK]

/-- **C98 (moments)**: the difference between the field and the function of the user is orthogonal to every polynomial of degree `N`; in
particular the integral over the element is the same. -/
theorem C98_moments (hD : D = 1 ∨ D = 2 ∨ D = 3) (N : ℕ) (b : Built D) (rule : Rule D) (nodes : List (Fin D → ℝ)) (elNo : ℕ)
    (h : Regular N b rule nodes elNo) (K : (Fin D → ℝ) → ℤ → Fin 1 → ℝ) (tag : ℤ) (ht : getVolumeTag b elNo = some tag)
    (p : (Fin D → ℝ) → ℝ) (hp : IsPoly D N p) :
    ∃ c, poisson b rule N nodes K elNo = some c ∧
      ∑ q : Fin rule.points.length, rule.weights.getD q 0 * absDet b rule elNo q *
          ((∑ t, c t * nodalFunction N nodes t rule.points[q]) * p rule.points[q]) =
        ∑ q : Fin rule.points.length, rule.weights.getD q 0 * absDet b rule elNo q * (K (place b rule elNo q) tag 0 * p rule.points[q]) := by
  refine ⟨_, coefficients_eq b rule N nodes id K elNo tag ht, ?_⟩
  have hi := table_injective N hD rule h.exact nodes h.length h.unisolvent
  have hl := h.length
  have := normal_equations (matE N nodes rule.points) (fun q => rule.weights.getD q 0) (absDet b rule elNo)
    (fun q => id (K (place b rule elNo q) tag 0)) h.pos hi (fun t => p (nodes[t.val]'(by omega)))
  have e1 : ∀ q : Fin rule.points.length, comb (matE N nodes rule.points) (fun t => p (nodes[t.val]'(by omega))) q = p rule.points[q] := by
    intro q
    rw [← C78_reproduces D N hD nodes h.length h.unisolvent p hp rule.points[q]]
    exact sum_congr rfl fun t _ => by rw [matE_eq, mul_comm]
  have e2 : ∀ (c : Fin (nbf D N) → ℝ) (q : Fin rule.points.length), comb (matE N nodes rule.points) c q = ∑ t, c t * nodalFunction N nodes t rule.points[q] :=
    fun c q => sum_congr rfl fun t _ => by rw [matE_eq, mul_comm]
  simp only [e1, e2] at this
  rw [← sub_eq_zero, ← sum_sub_distrib]
  refine Eq.trans (sum_congr rfl fun q _ => ?_) this
  simp only [id]
  have hr : ∀ a s k x : ℝ, a * (s * x) - a * (k * x) = a * (s - k) * x := fun a s k x => by ring
  exact hr _ _ _ _

/-- **C98 (values on facets and in elements)**: what the operators use at the points of a facet, or of the element, is the value of
the same field there. -/
theorem C98_values (N : ℕ) (nodes points : List (Fin D → ℝ)) (c : Fin (nbf D N) → ℝ) (q : Fin points.length) :
    Poisson.kKq c (matE N nodes points) q = ∑ t, c t * nodalFunction N nodes t points[q] ∧
    Elasticity.kCoefq (matE N nodes points) c q = ∑ t, c t * nodalFunction N nodes t points[q] := by
  unfold Poisson.kKq Elasticity.kCoefq
  exact ⟨sum_congr rfl fun t _ => by rw [matE_eq], sum_congr rfl fun t _ => by rw [matE_eq, mul_comm]⟩

/-- Nodes and positions of an element that two ranks have. -/
theorem geo_ghost (m m' : MeshIn D) (transform : (Fin D → ℝ) → Fin D → ℝ) (degree : ℕ) (refNodes : List (Fin D → ℝ)) (b b' : Built D)
    (hb : build m transform degree refNodes = some b) (hb' : build m' transform degree refNodes = some b') (el el' : ℕ)
    (hv : m.verts.map (· el) = m'.verts.map (· el'))
    (he : m.elementData.map (fun e => (e.conv, e.perElement, e.nodes el)) = m'.elementData.map (fun e => (e.conv, e.perElement, e.nodes el'))) :
    b.geo.degree = b'.geo.degree ∧ b.geo.nodes = b'.geo.nodes ∧ b.geo.verts el = b'.geo.verts el' := by
  unfold build at hb hb'
  cases hm : m.verts with
  | none => simp [hm] at hb
  | some v =>
    cases hm' : m'.verts with
    | none => simp [hm'] at hb'
    | some v' =>
      rw [hm] at hb hv; rw [hm'] at hb' hv
      have hv : v el = v' el' := Option.some.inj hv
      cases hE : m.elementData with
      | none =>
        cases hE' : m'.elementData with
        | some e' => rw [hE, hE'] at he; cases he
        | none =>
          rw [hE] at hb; rw [hE'] at hb'
          cases hb; cases hb'
          exact ⟨rfl, rfl, by funext j; simp only [position, hv]⟩
      | some e =>
        cases hE' : m'.elementData with
        | none => rw [hE, hE'] at he; cases he
        | some e' =>
          rw [hE, hE'] at he
          simp only [Option.map_some, Option.some.injEq, Prod.mk.injEq] at he
          obtain ⟨e1, e2, e3⟩ := he
          have hB : evalBasis refNodes e = evalBasis refNodes e' := by unfold evalBasis; rw [e1, e2]
          rw [hE] at hb; rw [hE'] at hb'
          cases hx : evalBasis refNodes e with
          | none => simp [hx] at hb
          | some E =>
            have hx' := hx
            rw [hB] at hx'
            simp only [hx] at hb; simp only [hx'] at hb'
            cases hb; cases hb'
            exact ⟨rfl, rfl, by funext j; simp only [position, hv, e3]⟩

/-- **C98 (ghost elements)**: an element that two ranks have, with the same vertices, curved nodes and tag, has the same coefficients on
both. -/
theorem C98_ghost (m m' : MeshIn D) (transform : (Fin D → ℝ) → Fin D → ℝ) (degree : ℕ) (refNodes : List (Fin D → ℝ)) (b b' : Built D)
    (hb : build m transform degree refNodes = some b) (hb' : build m' transform degree refNodes = some b') (el el' : ℕ)
    (hv : m.verts.map (· el) = m'.verts.map (· el'))
    (he : m.elementData.map (fun e => (e.conv, e.perElement, e.nodes el)) = m'.elementData.map (fun e => (e.conv, e.perElement, e.nodes el')))
    (ht : getVolumeTag b el = getVolumeTag b' el') (rule : Rule D) (N : ℕ) (nodes : List (Fin D → ℝ))
    (lam mu : (Fin D → ℝ) → ℤ → Fin 1 → ℝ) (rho : Option ((Fin D → ℝ) → ℤ → Fin 1 → ℝ)) :
    poisson b rule N nodes mu el = poisson b' rule N nodes mu el' ∧
    elasticity b rule N nodes lam mu rho el = elasticity b' rule N nodes lam mu rho el' := by
  have hg := geo_ghost m m' transform degree refNodes b b' hb hb' el el' hv he
  have hc : ∀ post f, coefficients b rule N nodes post f el = coefficients b' rule N nodes post f el' := by
    intro post f
    obtain ⟨g1, g2, g3⟩ := hg
    have hp : prepareVolume b.geo rule el = prepareVolume b'.geo rule el' := by
      unfold prepareVolume jacobian geoMap geoGrad geoBasis
      rw [g1, g2, g3]
    unfold coefficients volumeFunctionalRegion
    rw [hp, ht]
  exact ⟨hc _ _, by unfold elasticity; rw [hc, hc, hc]⟩

/-- **C98 (all elements)**: the loop of the constructor prepares every element, own or ghost, with its own result; it fails only if
the tag of some element is missing. -/
theorem C98_all (n : ℕ) (b : Built D) (rule : Rule D) (N : ℕ) (nodes : List (Fin D → ℝ)) (K : (Fin D → ℝ) → ℤ → Fin 1 → ℝ)
    (ht : ∀ el, el < n → (getVolumeTag b el).isSome) :
    ∃ l, prepareAll n (poisson b rule N nodes K) = some l ∧ l.length = n ∧ ∀ el, el < n → l[el]? = poisson b rule N nodes K el := by
  have hs : ∀ el, el < n → (poisson b rule N nodes K el).isSome := by
    intro el hel
    obtain ⟨tag, htag⟩ := Option.isSome_iff_exists.1 (ht el hel)
    unfold poisson
    rw [coefficients_eq b rule N nodes id K el tag htag]; rfl
  refine ⟨(List.range n).map fun el => (poisson b rule N nodes K el).getD 0, ?_, by simp, ?_⟩
  · unfold prepareAll
    have : ∀ l : List ℕ, (∀ x ∈ l, x < n) → l.mapM (poisson b rule N nodes K) = some (l.map fun el => (poisson b rule N nodes K el).getD 0) := by
      intro l
      induction l with
      | nil => intro _; rfl
      | cons x l ih =>
        intro h
        obtain ⟨c, hc⟩ := Option.isSome_iff_exists.1 (hs x (h x (by simp)))
        rw [List.mapM_cons, ih fun y hy => h y (by simp [hy]), hc]
        simp [hc]
    exact this _ fun x hx => List.mem_range.1 hx
  · intro el hel
    obtain ⟨c, hc⟩ := Option.isSome_iff_exists.1 (hs el hel)
    simp [hel, hc]

/-- **C98 (output)**: the coefficients written out are those the operators use, the Lamé parameters in this order. -/
theorem C98_output (K lam mu : Fin Nbm → ℝ) (i : Fin Nbm) :
    poissonOutput K i 0 = K i ∧ elasticityOutput lam mu i 0 = lam i ∧ elasticityOutput lam mu i 1 = mu i := ⟨rfl, rfl, rfl⟩

/-- **C98 (no positivity)**: linear functions on a triangle, the rule with the three midpoints of the edges, and samples 1, 1, 3 of a positive
function: the coefficients are -1, 3, 3, the one at the first vertex is negative, and so is the penalty of a boundary facet. -/
theorem C98_negative : ∃ (E : Fin 3 → Fin 3 → ℝ) (W J K : Fin 3 → ℝ), (∀ q t, 0 ≤ E q t) ∧ (∀ q, ∑ t, E q t = 1) ∧ (∀ q, 0 < W q * J q) ∧
    (∀ q, 0 < K q) ∧ project E W J K = ![-1, 3, 3] ∧
    ∀ (area volume : ℕ → ℝ) (N f : ℕ) (i : DGTopo.FacetInfo), i.up0 = i.up1 → 0 < N → 0 < area f → 0 < volume i.up0 →
      Poisson.preparePenalty 2 N area volume (fun _ => project E W J K) f i < 0 := by
  have hc : project ![![1/2, 1/2, 0], ![1/2, 0, 1/2], ![0, 1/2, 1/2]] (fun _ => 1/6) (fun _ => 1) ![1, 1, 3] = (![-1, 3, 3] : Fin 3 → ℝ) := by
    have hu : IsUnit (projectLhs ![![1/2, 1/2, 0], ![1/2, 0, 1/2], ![0, 1/2, 1/2]] (fun _ => 1/6) (fun _ => (1:ℝ))).det := by
      refine lhs_unit _ _ _ (fun q => by norm_num) fun c h => ?_
      have h0 := h 0
      have h1 := h 1
      have h2 := h 2
      simp [comb, Fin.sum_univ_three] at h0 h1 h2
      funext t; fin_cases t <;> simp <;> linarith
    unfold project
    have : projectRhs ![![1/2, 1/2, 0], ![1/2, 0, 1/2], ![0, 1/2, 1/2]] (fun _ => 1/6) (fun _ => 1) ![1, 1, 3] =
        (projectLhs ![![1/2, 1/2, 0], ![1/2, 0, 1/2], ![0, 1/2, 1/2]] (fun _ => 1/6) (fun _ => (1:ℝ))).mulVec ![-1, 3, 3] := by
      funext k
      rw [lhs_mulVec]
      fin_cases k <;> simp [projectRhs, comb, Fin.sum_univ_three] <;> norm_num
    rw [this, Matrix.mulVec_mulVec, Matrix.nonsing_inv_mul _ hu, Matrix.one_mulVec]
  refine ⟨_, _, _, _, ?_, ?_, ?_, ?_, hc, ?_⟩
  · intro q t; fin_cases q <;> fin_cases t <;> norm_num
  · intro q; fin_cases q <;> simp [Fin.sum_univ_three] <;> norm_num
  · intro q; norm_num
  · intro q; fin_cases q <;> norm_num
  · intro area volume N f i hi hN ha hvol
    have h0 : (⨅ m, (![-1, 3, 3] : Fin 3 → ℝ) m) = -1 := by
      refine le_antisymm (ciInf_le (Set.finite_range _).bddBelow 0) (le_ciInf fun m => ?_)
      fin_cases m <;> norm_num
    have h1 : (⨆ m, (![-1, 3, 3] : Fin 3 → ℝ) m) = 3 := by
      refine le_antisymm (ciSup_le fun m => ?_) (le_ciSup (f := (![-1, 3, 3] : Fin 3 → ℝ)) (Set.finite_range _).bddAbove 1)
      fin_cases m <;> norm_num
    unfold Poisson.preparePenalty
    simp only [hc, h0, h1, hi, ne_eq, not_true, if_false]
    have hu : DGAssembly.upOf i 0 = i.up0 := rfl
    have ht : 0 < Poisson.traceConstant 2 N := by unfold Poisson.traceConstant; positivity
    have : 0 < area f / volume (DGAssembly.upOf i 0) := by rw [hu]; positivity
    have := mul_pos ht this
    norm_num
    nlinarith

/-! ## A concrete case -/

/-- One reference triangle with tag 7. -/
noncomputable def exBuilt : Built 2 :=
  ⟨⟨1, Equidistant.nodes .VTK 2 1, fun _ k => (Equidistant.nodes .VTK 2 1).getD k 0⟩, [7], 1⟩

/-- The midpoints of the edges. -/
noncomputable def exRule : Rule 2 := ⟨[![1/2, 0], ![0, 1/2], ![1/2, 1/2]], [1/6, 1/6, 1/6]⟩

theorem exMap : Spec.ElementMap 2 1 (Equidistant.nodes .VTK 2 1) (fun k => (Equidistant.nodes .VTK 2 1).getD k 0) id (fun _ => 1) := by
  refine fun i => ⟨⟨isPoly_coord 2 i, fun k hk => ?_⟩, fun ξ v => ?_⟩
  · simp only [id]
    rw [List.getD_eq_getElem _ _ hk]
  · simp only [id]
    have e : ∑ d, (1 : Matrix (Fin 2) (Fin 2) ℝ) i d * v d = v i := by simp [Matrix.one_apply]
    rw [e]
    have := ((hasDerivAt_id (0:ℝ)).mul_const (v i)).const_add (ξ i)
    simpa using this

theorem exUnisolvent : Spec.Unisolvent 2 1 (Equidistant.nodes .VTK 2 1) :=
  (C78_unisolvent 2 1 (by decide) _ (Equidistant.C61_lattice .VTK 2 1 (by decide) (by decide)).2.1).1
    (C78_equidistant .VTK 2 1 (by decide) (by decide))

theorem exRegular : Regular 1 exBuilt exRule (Equidistant.nodes .VTK 2 1) 0 := by
  have hl := (Equidistant.C61_lattice .VTK 2 1 (by decide) (by decide)).2.1
  refine ⟨?_, ?_, hl, C78_equidistant .VTK 2 1 (by decide) (by decide), ?_⟩
  · refine Functions.exact_of_monomials 2 2 (by simp) [![1/2, 0], ![0, 1/2], ![1/2, 1/2]] [1/6, 1/6, 1/6] rfl fun m hm => ?_
    rw [Fin.sum_univ_two] at hm
    have : (m 0 = 0 ∧ m 1 = 0) ∨ (m 0 = 1 ∧ m 1 = 0) ∨ (m 0 = 0 ∧ m 1 = 1) ∨ (m 0 = 2 ∧ m 1 = 0)
      ∨ (m 0 = 1 ∧ m 1 = 1) ∨ (m 0 = 0 ∧ m 1 = 2) := by omega
    rcases this with ⟨h0, h1⟩ | ⟨h0, h1⟩ | ⟨h0, h1⟩ | ⟨h0, h1⟩ | ⟨h0, h1⟩ | ⟨h0, h1⟩ <;>
      simp [Functions.moment, Fin.prod_univ_two, Fin.sum_univ_two, h0, h1, Nat.factorial] <;> norm_num
  · intro q hq
    have : q < 3 := hq
    interval_cases q <;> norm_num [exRule]
  · intro q hq
    rw [jacobian_eq exBuilt.geo (Or.inl rfl) hl exUnisolvent exRule.points 0 q hq id (fun _ => 1) exMap]
    simp

/-- The positive function `max(4(x + y) - 1, 1)` on this triangle has the coefficients `4(x + y) - 1` at the vertices: at the origin
the coefficient is -1. -/
example : poisson exBuilt exRule 1 (Equidistant.nodes .VTK 2 1) (fun x tag _ => if tag = 7 then max (4 * (x 0 + x 1) - 1) 1 else 0) 0 =
    some fun t : Fin (nbf 2 1) => 4 * ((Equidistant.nodes .VTK 2 1).getD t 0 0 + (Equidistant.nodes .VTK 2 1).getD t 0 1) - 1 := by
  have hl := (Equidistant.C61_lattice .VTK 2 1 (by decide) (by decide)).2.1
  refine C98_reproduces (Or.inr (Or.inl rfl)) 1 exBuilt exRule _ 0 exRegular _ 7 rfl (fun x => 4 * (x 0 + x 1) - 1) ?_ fun q => ?_
  · have h := isPoly_add 2 1 _ _ (isPoly_coord 2 0) (isPoly_coord 2 1)
    have := isPoly_add 2 1 _ _ (isPoly_const_mul 2 1 4 _ h) (isPoly_const 2 1 (-1))
    simpa [sub_eq_add_neg] using this
  · have : place exBuilt exRule 0 q = exRule.points[q] :=
      geoMap_eq exBuilt.geo (Or.inr (Or.inl rfl)) hl exUnisolvent exRule.points 0 q q.2 id (fun _ => 1) exMap
    rw [this]
    have hq : q.val < 3 := q.2
    obtain ⟨q, hq'⟩ := q
    have : q < 3 := hq
    have h2 : ∀ L : List (Fin 2 → ℝ), L = [![1/2, 0], ![0, 1/2], ![1/2, 1/2]] → ∀ h : q < L.length,
        (if (7 : ℤ) = 7 then max (4 * (L[q] 0 + L[q] 1) - 1) 1 else 0) = 4 * (L[q] 0 + L[q] 1) - 1 := by
      rintro L rfl h
      interval_cases q <;> norm_num
    exact h2 _ rfl hq'

end Tandem.Material
