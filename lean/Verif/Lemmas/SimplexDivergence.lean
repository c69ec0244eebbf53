import Verif.Props.GeometryData
import Verif.Lemmas.Trace
import Mathlib.Algebra.MvPolynomial.PDeriv
import Verif.Props.CflStraight
/-! # The divergence theorem for polynomials on the reference simplex, with exact quadrature -/
namespace Tandem.Divergence
open Functions Finset intervalIntegral Curvilinear Spec

variable {D : ℕ}

/-- `∫ (1 - x)^a x^b` -/
theorem face1 (a b : ℕ) : simplexIntegral 1 (fun χ => (1 - χ 0) ^ a * χ 0 ^ b) = (a.factorial * b.factorial : ℝ) / ((a + b + 1).factorial : ℝ) := by
  change ∫ x in (0:ℝ)..1, (1 - x) ^ a * x ^ b = _
  have := seg_int b a 1
  rw [one_pow, one_mul] at this
  rw [← (show ∫ x in (0:ℝ)..1, x ^ b * (1 - x) ^ a = ∫ x in (0:ℝ)..1, (1 - x) ^ a * x ^ b from integral_congr fun x _ => mul_comm _ _), this,
    add_comm b a, mul_comm]

/-- `∫∫ (1 - x - y)^a x^b y^c` -/
theorem face2 (a b c : ℕ) : simplexIntegral 2 (fun χ => (1 - χ 0 - χ 1) ^ a * χ 0 ^ b * χ 1 ^ c) =
    (a.factorial * b.factorial * c.factorial : ℝ) / ((a + b + c + 2).factorial : ℝ) := by
  change ∫ y in (0:ℝ)..1, ∫ x in (0:ℝ)..(1 - y), (1 - x - y) ^ a * x ^ b * y ^ c = _
  have e1 : ∀ y : ℝ, ∫ x in (0:ℝ)..(1 - y), (1 - x - y) ^ a * x ^ b * y ^ c
      = (b.factorial * a.factorial : ℝ) / ((b + a + 1).factorial : ℝ) * (y ^ c * (1 - y) ^ (b + a + 1)) := by
    intro y
    rw [integral_mul_const, integral_congr (g := fun x => x ^ b * (1 - y - x) ^ a) (fun x _ => by
      change (1 - x - y) ^ a * x ^ b = x ^ b * (1 - y - x) ^ a
      rw [mul_comm, show 1 - x - y = 1 - y - x by ring]), seg_int]
    ring
  simp only [e1]
  rw [integral_const_mul, seg_int, one_pow, one_mul, show c + (b + a + 1) + 1 = a + b + c + 2 by ring]
  have k1 : (((b + a + 1).factorial : ℕ) : ℝ) ≠ 0 := by positivity
  have k2 : (((a + b + c + 2).factorial : ℕ) : ℝ) ≠ 0 := by positivity
  field_simp

theorem mono1 (a : ℕ) : simplexIntegral 1 (fun χ => χ 0 ^ a) = (a.factorial : ℝ) / ((a + 1).factorial : ℝ) := by
  have := face1 0 a
  simpa using this

theorem mono2 (a b : ℕ) : simplexIntegral 2 (fun χ => χ 0 ^ a * χ 1 ^ b) = (a.factorial * b.factorial : ℝ) / ((a + b + 2).factorial : ℝ) := by
  have := face2 0 a b
  simpa using this

theorem mono3 (a b c : ℕ) : simplexIntegral 3 (fun χ => χ 0 ^ a * χ 1 ^ b * χ 2 ^ c) =
    (a.factorial * b.factorial * c.factorial : ℝ) / ((a + b + c + 3).factorial : ℝ) := by
  have := simplex_sum 3 (by omega) {()} (fun _ => 1) (fun _ => ![a, b, c])
  simpa [moment, Fin.prod_univ_three, Fin.sum_univ_three] using this


theorem param1 (χ : Fin 1 → ℝ) : facetParam (D := 1) 0 χ = ![χ 0, 0] ∧ facetParam (D := 1) 1 χ = ![0, χ 0] ∧ facetParam (D := 1) 2 χ = ![1 - χ 0, χ 0] := by
  refine ⟨?_, ?_, ?_⟩ <;> funext i <;> fin_cases i <;>
    simp [facetParam, f2v, Equidistant.refVertices, Fin.sum_univ_succ, Fin.succAbove, Fin.rev]

theorem param2 (χ : Fin 2 → ℝ) : facetParam (D := 2) 0 χ = ![χ 0, χ 1, 0] ∧ facetParam (D := 2) 1 χ = ![χ 0, 0, χ 1] ∧
    facetParam (D := 2) 2 χ = ![0, χ 0, χ 1] ∧ facetParam (D := 2) 3 χ = ![1 - χ 0 - χ 1, χ 0, χ 1] := by
  refine ⟨?_, ?_, ?_, ?_⟩ <;> funext i <;> fin_cases i <;>
    simp [facetParam, f2v, Equidistant.refVertices, Fin.sum_univ_succ, Fin.succAbove, Fin.rev, sub_sub]

/-- Integral of a monomial over a face. -/
noncomputable def faceMoment (m : Fin (D + 1) → ℕ) (l : Fin (D + 2)) : ℝ := simplexIntegral D fun χ => ∏ d, facetParam l χ d ^ m d

theorem zero_int (D : ℕ) : simplexIntegral D (fun _ => 0) = 0 := by
  unfold simplexIntegral
  split <;> simp

theorem div_mono1 (m : Fin 2 → ℕ) (i : Fin 2) : (m i : ℝ) * simplexIntegral 2 (fun x => ∏ d, x d ^ (m d - if d = i then 1 else 0)) =
    ∑ l, refNormal 1 l i * faceMoment m l := by
  have f0 : faceMoment m 0 = if m 1 = 0 then ((m 0).factorial : ℝ) / ((m 0 + 1).factorial : ℝ) else 0 := by
    have e : faceMoment m _ = simplexIntegral 1 (fun χ => χ 0 ^ m 0 * 0 ^ m 1) := congrArg _ (funext fun χ => by rw [(param1 χ).1]; exact Fin.prod_univ_two _)
    rw [e]
    split_ifs with h
    · simp only [h, pow_zero, mul_one]; exact mono1 _
    · simp only [zero_pow h, mul_zero]; exact zero_int 1
  have f1 : faceMoment m 1 = if m 0 = 0 then ((m 1).factorial : ℝ) / ((m 1 + 1).factorial : ℝ) else 0 := by
    have e : faceMoment m _ = simplexIntegral 1 (fun χ => 0 ^ m 0 * χ 0 ^ m 1) := congrArg _ (funext fun χ => by rw [(param1 χ).2.1]; exact Fin.prod_univ_two _)
    rw [e]
    split_ifs with h
    · simp only [h, pow_zero, one_mul]; exact mono1 _
    · simp only [zero_pow h, zero_mul]; exact zero_int 1
  have f2 : faceMoment m 2 = ((m 0).factorial * (m 1).factorial : ℝ) / ((m 0 + m 1 + 1).factorial : ℝ) := by
    have e : faceMoment m _ = simplexIntegral 1 (fun χ => (1 - χ 0) ^ m 0 * χ 0 ^ m 1) := congrArg _ (funext fun χ => by rw [(param1 χ).2.2]; exact Fin.prod_univ_two _)
    rw [e]
    exact face1 _ _
  rw [Fin.sum_univ_three, f0, f1, f2]
  simp only [Cfl.refNormal_eq (Or.inl rfl), Fin.prod_univ_two]
  rw [mono2]
  fin_cases i
  · rcases Nat.eq_zero_or_pos (m 0) with h | h
    · simp [h, missing, Fin.rev]
    · obtain ⟨n, hn⟩ : ∃ n, m 0 = n + 1 := ⟨m 0 - 1, by omega⟩
      simp [hn, missing, Fin.rev]
      rw [Nat.factorial_succ n, show n + m 1 + 2 = n + 1 + m 1 + 1 by ring]
      push_cast; ring
  · rcases Nat.eq_zero_or_pos (m 1) with h | h
    · simp [h, missing, Fin.rev]
    · obtain ⟨n, hn⟩ : ∃ n, m 1 = n + 1 := ⟨m 1 - 1, by omega⟩
      simp [hn, missing, Fin.rev]
      rw [Nat.factorial_succ n, show m 0 + n + 2 = m 0 + (n + 1) + 1 by ring]
      push_cast; ring

theorem div_mono2 (m : Fin 3 → ℕ) (i : Fin 3) : (m i : ℝ) * simplexIntegral 3 (fun x => ∏ d, x d ^ (m d - if d = i then 1 else 0)) =
    ∑ l, refNormal 2 l i * faceMoment m l := by
  have f0 : faceMoment m 0 = if m 2 = 0 then ((m 0).factorial * (m 1).factorial : ℝ) / ((m 0 + m 1 + 2).factorial : ℝ) else 0 := by
    have e : faceMoment m _ = simplexIntegral 2 (fun χ => χ 0 ^ m 0 * χ 1 ^ m 1 * 0 ^ m 2) := congrArg _ (funext fun χ => by rw [(param2 χ).1]; exact Fin.prod_univ_three _)
    rw [e]
    split_ifs with h
    · simp only [h, pow_zero, mul_one]; exact mono2 _ _
    · simp only [zero_pow h, mul_zero]; exact zero_int 2
  have f1 : faceMoment m 1 = if m 1 = 0 then ((m 0).factorial * (m 2).factorial : ℝ) / ((m 0 + m 2 + 2).factorial : ℝ) else 0 := by
    have e : faceMoment m _ = simplexIntegral 2 (fun χ => χ 0 ^ m 0 * 0 ^ m 1 * χ 1 ^ m 2) := congrArg _ (funext fun χ => by rw [(param2 χ).2.1]; exact Fin.prod_univ_three _)
    rw [e]
    split_ifs with h
    · simp only [h, pow_zero, mul_one]; exact mono2 _ _
    · simp only [zero_pow h, mul_zero, zero_mul]; exact zero_int 2
  have f2 : faceMoment m 2 = if m 0 = 0 then ((m 1).factorial * (m 2).factorial : ℝ) / ((m 1 + m 2 + 2).factorial : ℝ) else 0 := by
    have e : faceMoment m _ = simplexIntegral 2 (fun χ => 0 ^ m 0 * χ 0 ^ m 1 * χ 1 ^ m 2) := congrArg _ (funext fun χ => by rw [(param2 χ).2.2.1]; exact Fin.prod_univ_three _)
    rw [e]
    split_ifs with h
    · simp only [h, pow_zero, one_mul]; exact mono2 _ _
    · simp only [zero_pow h, zero_mul]; exact zero_int 2
  have f3 : faceMoment m 3 = ((m 0).factorial * (m 1).factorial * (m 2).factorial : ℝ) / ((m 0 + m 1 + m 2 + 2).factorial : ℝ) := by
    have e : faceMoment m _ = simplexIntegral 2 (fun χ => (1 - χ 0 - χ 1) ^ m 0 * χ 0 ^ m 1 * χ 1 ^ m 2) := congrArg _ (funext fun χ => by rw [(param2 χ).2.2.2]; exact Fin.prod_univ_three _)
    rw [e]
    exact face2 _ _ _
  rw [Fin.sum_univ_four, f0, f1, f2, f3]
  simp only [Cfl.refNormal_eq (Or.inr rfl), Fin.prod_univ_three]
  rw [mono3]
  fin_cases i
  · rcases Nat.eq_zero_or_pos (m 0) with h | h
    · simp [h, missing, Fin.rev]
    · obtain ⟨n, hn⟩ : ∃ n, m 0 = n + 1 := ⟨m 0 - 1, by omega⟩
      simp [hn, missing, Fin.rev]
      rw [Nat.factorial_succ n, show n + m 1 + m 2 + 3 = n + 1 + m 1 + m 2 + 2 by ring]
      push_cast; ring
  · rcases Nat.eq_zero_or_pos (m 1) with h | h
    · simp [h, missing, Fin.rev]
    · obtain ⟨n, hn⟩ : ∃ n, m 1 = n + 1 := ⟨m 1 - 1, by omega⟩
      simp [hn, missing, Fin.rev]
      rw [Nat.factorial_succ n, show m 0 + n + m 2 + 3 = m 0 + (n + 1) + m 2 + 2 by ring]
      push_cast; ring
  · rcases Nat.eq_zero_or_pos (m 2) with h | h
    · simp [h, missing, Fin.rev]
    · obtain ⟨n, hn⟩ : ∃ n, m 2 = n + 1 := ⟨m 2 - 1, by omega⟩
      simp [hn, missing, Fin.rev]
      rw [Nat.factorial_succ n, show m 0 + m 1 + n + 3 = m 0 + m 1 + (n + 1) + 2 by ring]
      push_cast; ring

theorem div_mono (hD : D = 1 ∨ D = 2) (m : Fin (D + 1) → ℕ) (i : Fin (D + 1)) :
    (m i : ℝ) * simplexIntegral (D + 1) (fun x => ∏ d, x d ^ (m d - if d = i then 1 else 0)) = ∑ l, refNormal D l i * faceMoment m l := by
  rcases hD with rfl | rfl
  · exact div_mono1 m i
  · exact div_mono2 m i

section
variable {Nq nq : ℕ} {M : ℕ} {W : Fin Nq → ℝ} {w : Fin nq → ℝ} {xi : Fin Nq → Fin (D + 1) → ℝ} {chi : Fin nq → Fin D → ℝ}

open MvPolynomial in
/-- The divergence theorem for one component of a polynomial field. -/
theorem divergence1 (hD : D = 1 ∨ D = 2)
    (hW : ∀ f, IsPoly (D + 1) M f → ∑ q, W q * f (xi q) = simplexIntegral (D + 1) f)
    (hw : ∀ f, IsPoly D M f → ∑ q, w q * f (chi q) = simplexIntegral D f)
    (i : Fin (D + 1)) (p : MvPolynomial (Fin (D + 1)) ℝ) (hp : p.totalDegree ≤ M) :
    ∑ q, W q * eval (xi q) (pderiv i p) = ∑ l, refNormal D l i * ∑ q, w q * eval (facetParam l (chi q)) p := by
  have key : ∀ m ∈ p.support, ∑ q, W q * eval (xi q) (pderiv i (monomial m (p.coeff m))) =
      ∑ l, refNormal D l i * ∑ q, w q * eval (facetParam l (chi q)) (monomial m (p.coeff m)) := by
    intro m hm
    have hdeg : ∑ d, m d ≤ M := by
      have := (le_totalDegree hm).trans hp
      rwa [Finsupp.sum_fintype _ _ (fun _ => rfl)] at this
    have hmono : ∀ k : Fin (D + 1) →₀ ℕ, ∑ d, k d ≤ M → IsPoly (D + 1) M (fun x => ∏ d, x d ^ k d) := fun k hk =>
      ⟨monomial k 1, (totalDegree_monomial_le k (1:ℝ)).trans (by rw [Finsupp.sum_fintype _ _ (fun _ => rfl)]; exact hk), fun x => by
        rw [eval_monomial, one_mul, Finsupp.prod_fintype _ _ (fun _ => pow_zero _)]⟩
    have hL : ∑ q, W q * eval (xi q) (pderiv i (monomial m (p.coeff m))) =
        p.coeff m * ((m i : ℝ) * simplexIntegral (D + 1) (fun x => ∏ d, x d ^ (m d - if d = i then 1 else 0))) := by
      have := hW _ (hmono (m - Finsupp.single i 1) ((sum_le_sum fun d _ => by
        simp only [Finsupp.tsub_apply]; exact Nat.sub_le _ _).trans hdeg))
      have e : ∀ x : Fin (D + 1) → ℝ, ∏ d, x d ^ ((m - Finsupp.single i 1 : Fin (D + 1) →₀ ℕ) d) = ∏ d, x d ^ (m d - if d = i then 1 else 0) := fun x =>
        prod_congr rfl fun d _ => by
          rw [Finsupp.tsub_apply, Finsupp.single_apply]; congr 2; simp only [eq_comm]
      simp only [e] at this
      rw [← this, mul_sum, mul_sum]
      refine sum_congr rfl fun q _ => ?_
      rw [pderiv_monomial, eval_monomial, Finsupp.prod_fintype _ _ (fun _ => pow_zero _), e]
      ring
    have hR : ∀ l, ∑ q, w q * eval (facetParam l (chi q)) (monomial m (p.coeff m)) = p.coeff m * faceMoment m l := by
      intro l
      unfold faceMoment
      rw [← hw _ (Trace.isPoly_comp_affine M _ (hmono m hdeg) (facetParam l) (Trace.isPoly_facetParam l)), mul_sum]
      refine sum_congr rfl fun q _ => ?_
      rw [eval_monomial, Finsupp.prod_fintype _ _ (fun _ => pow_zero _)]
      ring
    rw [hL, div_mono hD, mul_sum]
    exact sum_congr rfl fun l _ => by rw [hR]; ring
  conv_lhs => rw [as_sum p]
  conv_rhs => rw [as_sum p]
  simp only [map_sum, mul_sum]
  rw [sum_comm]
  conv_rhs => enter [2, l]; rw [sum_comm]
  rw [sum_comm (s := univ (α := Fin (D + 2)))]
  refine sum_congr rfl fun m hm => ?_
  rw [key m hm]
  exact sum_congr rfl fun l _ => by rw [mul_sum]

open MvPolynomial in
/-- The divergence theorem for polynomial fields on the reference simplex. -/
theorem divergence (hD : D = 1 ∨ D = 2)
    (hW : ∀ f, IsPoly (D + 1) M f → ∑ q, W q * f (xi q) = simplexIntegral (D + 1) f)
    (hw : ∀ f, IsPoly D M f → ∑ q, w q * f (chi q) = simplexIntegral D f)
    (F : Fin (D + 1) → MvPolynomial (Fin (D + 1)) ℝ) (hF : ∀ i, (F i).totalDegree ≤ M) :
    ∑ q, W q * ∑ i, eval (xi q) (pderiv i (F i)) = ∑ l, ∑ q, w q * ∑ i, refNormal D l i * eval (facetParam l (chi q)) (F i) := by
  simp only [mul_sum]
  rw [sum_comm]
  conv_rhs => enter [2, l]; rw [sum_comm]
  rw [sum_comm (s := univ (α := Fin (D + 2)))]
  refine sum_congr rfl fun i _ => ?_
  rw [divergence1 hD hW hw i (F i) (hF i)]
  refine sum_congr rfl fun l _ => ?_
  rw [mul_sum]
  exact sum_congr rfl fun q _ => by ring

open MvPolynomial in
/-- A coordinate of the affine map. -/
noncomputable def lin (verts : Fin (D + 2) → Fin (D + 1) → ℝ) (i : Fin (D + 1)) : MvPolynomial (Fin (D + 1)) ℝ :=
  C (verts 0 i) + ∑ d, C (edgeMatrix verts i d) * X d

open MvPolynomial in
theorem eval_lin (verts : Fin (D + 2) → Fin (D + 1) → ℝ) (ξ : Fin (D + 1) → ℝ) (i : Fin (D + 1)) : eval ξ (lin verts i) = refToGeneral verts ξ i := by
  unfold lin
  simp only [map_add, map_sum, map_mul, eval_C, eval_X]
  unfold refToGeneral edgeMatrix
  simp only [Matrix.of_apply, sub_mul, sum_sub_distrib]
  rw [← mul_sum, sum_congr rfl fun d _ => mul_comm (verts (Fin.succ d) i) (ξ d)]
  ring

open MvPolynomial in
/-- The polynomial `U` on an element, as a polynomial on the reference element. -/
noncomputable def pull (verts : Fin (D + 2) → Fin (D + 1) → ℝ) (U : MvPolynomial (Fin (D + 1)) ℝ) : MvPolynomial (Fin (D + 1)) ℝ :=
  aeval (lin verts) U

open MvPolynomial in
theorem eval_pull (verts : Fin (D + 2) → Fin (D + 1) → ℝ) (U : MvPolynomial (Fin (D + 1)) ℝ) (ξ : Fin (D + 1) → ℝ) :
    eval ξ (pull verts U) = eval (refToGeneral verts ξ) U := by
  induction U using MvPolynomial.induction_on with
  | C a => simp [pull]
  | add p q hp hq => rw [show pull verts (p + q) = pull verts p + pull verts q from map_add _ _ _, map_add, map_add, hp, hq]
  | mul_X p k hp =>
    rw [show pull verts (p * X k) = pull verts p * lin verts k by unfold pull; rw [map_mul, aeval_X], map_mul, map_mul, hp, eval_lin, eval_X]

open MvPolynomial in
theorem pull_degree (verts : Fin (D + 2) → Fin (D + 1) → ℝ) (U : MvPolynomial (Fin (D + 1)) ℝ) : (pull verts U).totalDegree ≤ U.totalDegree := by
  have hlin : ∀ i, (lin verts i).totalDegree ≤ 1 := fun i => by
    unfold lin
    refine (totalDegree_add _ _).trans (max_le (by simp) ((totalDegree_finset_sum _ _).trans (Finset.sup_le fun d _ => ?_)))
    exact (totalDegree_mul _ _).trans (by simp)
  unfold pull
  rw [aeval_def, eval₂_eq]
  refine (totalDegree_finset_sum _ _).trans (Finset.sup_le fun m hm => ?_)
  refine (totalDegree_mul _ _).trans ?_
  rw [algebraMap_eq, totalDegree_C, zero_add]
  refine (totalDegree_finset_prod _ _).trans ((sum_le_sum fun d _ => (totalDegree_pow _ _).trans (Nat.mul_le_mul_left _ (hlin d))).trans ?_)
  simp only [mul_one]
  exact le_totalDegree hm

open MvPolynomial in
/-- The chain rule. -/
theorem pderiv_pull (verts : Fin (D + 2) → Fin (D + 1) → ℝ) (U : MvPolynomial (Fin (D + 1)) ℝ) (j : Fin (D + 1)) :
    pderiv j (pull verts U) = ∑ i, C (edgeMatrix verts i j) * pull verts (pderiv i U) := by
  have hX : ∀ i, pderiv j (lin verts i) = C (edgeMatrix verts i j) := fun i => by
    unfold lin
    rw [map_add, pderiv_C, zero_add, map_sum, sum_eq_single j]
    · simp
    · intro d _ hd
      simp [pderiv_X_of_ne hd]
    · simp
  induction U using MvPolynomial.induction_on with
  | C a => simp [pull]
  | add p q hp hq =>
    have : pull verts (p + q) = pull verts p + pull verts q := map_add _ _ _
    rw [this, map_add, hp, hq, ← sum_add_distrib]
    refine sum_congr rfl fun i _ => ?_
    rw [map_add, ← mul_add]
    congr 1
    exact (map_add _ _ _).symm
  | mul_X p k hp =>
    have h1 : pull verts (p * X k) = pull verts p * lin verts k := by
      unfold pull; rw [map_mul, aeval_X]
    have h2 : ∀ i, pull verts (pderiv i (p * X k)) = pull verts p * (if i = k then 1 else 0) +
        pull verts (pderiv i p) * lin verts k := fun i => by
      rw [Derivation.leibniz, pderiv_X]
      unfold pull
      simp only [smul_eq_mul, map_add, map_mul, aeval_X]
      rw [mul_comm (aeval _ (pderiv i p))]
      congr 2
      · by_cases h : i = k
        · subst h; simp
        · simp [h, Ne.symm h]
    rw [h1, Derivation.leibniz, hX, hp]
    simp only [h2, mul_add, sum_add_distrib, smul_eq_mul]
    congr 1
    · rw [sum_eq_single k]
      · simp; ring
      · intro i _ hi; simp [hi]
      · simp
    · rw [mul_sum]
      exact sum_congr rfl fun i _ => by ring

open MvPolynomial in
/-- Green's formula on an affine element: `P` is a polynomial on the reference element, `S` a polynomial field on the element. -/
theorem green (hD : D = 1 ∨ D = 2)
    (hW : ∀ f, IsPoly (D + 1) M f → ∑ q, W q * f (xi q) = simplexIntegral (D + 1) f)
    (hw : ∀ f, IsPoly D M f → ∑ q, w q * f (chi q) = simplexIntegral D f)
    (verts : Fin (D + 2) → Fin (D + 1) → ℝ) (hdet : (edgeMatrix verts).det ≠ 0) (P : MvPolynomial (Fin (D + 1)) ℝ)
    (S : Fin (D + 1) → MvPolynomial (Fin (D + 1)) ℝ) (hdeg : ∀ i, P.totalDegree + (S i).totalDegree ≤ M) :
    ∑ q, W q * (|(edgeMatrix verts).det| * ∑ i, ((∑ j, (edgeMatrix verts)⁻¹ j i * eval (xi q) (pderiv j P)) * eval (refToGeneral verts (xi q)) (S i) +
        eval (xi q) P * eval (refToGeneral verts (xi q)) (pderiv i (S i)))) =
      ∑ l, ∑ q, w q * (eval (facetParam l (chi q)) P * ∑ i, Curvilinear.normal l (edgeMatrix verts) i * eval (refToGeneral verts (facetParam l (chi q))) (S i)) := by
  set A := edgeMatrix verts with hA
  have hinv : ∀ m i, ∑ j, A m j * A⁻¹ j i = if m = i then 1 else 0 := fun m i => by
    have := congrFun (congrFun (Matrix.mul_nonsing_inv A (isUnit_iff_ne_zero.2 hdet)) m) i
    rwa [Matrix.mul_apply, Matrix.one_apply] at this
  have h := divergence hD hW hw (fun j => C |A.det| * ∑ i, C (A⁻¹ j i) * (P * pull verts (S i))) (fun j => by
    refine (totalDegree_mul _ _).trans ?_
    rw [totalDegree_C, zero_add]
    refine (totalDegree_finset_sum _ _).trans (Finset.sup_le fun i _ => ?_)
    refine (totalDegree_mul _ _).trans ?_
    rw [totalDegree_C, zero_add]
    exact (totalDegree_mul _ _).trans ((Nat.add_le_add_left (pull_degree verts (S i)) _).trans (hdeg i)))
  have hl : ∀ x, ∑ j, eval x (pderiv j (C |A.det| * ∑ i, C (A⁻¹ j i) * (P * pull verts (S i)))) =
      |A.det| * ∑ i, ((∑ j, A⁻¹ j i * eval x (pderiv j P)) * eval (refToGeneral verts x) (S i) + eval x P * eval (refToGeneral verts x) (pderiv i (S i))) := by
    intro x
    have e1 : ∀ j, eval x (pderiv j (C |A.det| * ∑ i, C (A⁻¹ j i) * (P * pull verts (S i)))) =
        |A.det| * ∑ i, (A⁻¹ j i * (eval x (pderiv j P) * eval (refToGeneral verts x) (S i)) +
          eval x P * ∑ m, A m j * A⁻¹ j i * eval (refToGeneral verts x) (pderiv m (S i))) := by
      intro j
      rw [pderiv_C_mul, map_mul, eval_C, map_sum, map_sum]
      congr 1
      refine sum_congr rfl fun i _ => ?_
      rw [pderiv_C_mul, map_mul, eval_C, Derivation.leibniz, pderiv_pull]
      simp only [smul_eq_mul, map_add, map_mul, map_sum, eval_C, eval_pull]
      rw [mul_add, add_comm, ← hA]
      congr 1
      · ring
      · rw [mul_sum, mul_sum, mul_sum]
        exact sum_congr rfl fun m _ => by ring
    simp only [e1]
    rw [← mul_sum, sum_comm]
    congr 1
    refine sum_congr rfl fun i _ => ?_
    rw [sum_add_distrib, sum_mul]
    congr 1
    · exact sum_congr rfl fun j _ => by ring
    · rw [← mul_sum, sum_comm]
      congr 1
      simp only [← sum_mul, hinv]
      simp
  simp only [hl] at h
  rw [h]
  refine sum_congr rfl fun l _ => sum_congr rfl fun q _ => ?_
  congr 1
  simp only [map_mul, eval_C, map_sum, eval_pull]
  have hn : ∀ i, Curvilinear.normal l A i = |A.det| * ∑ j, A⁻¹ j i * refNormal D l j := fun i => by
    simp [Curvilinear.normal, Matrix.mulVec, dotProduct]
  simp only [hn, mul_sum, sum_mul]
  rw [sum_comm]
  exact sum_congr rfl fun i _ => sum_congr rfl fun j _ => by ring
end

end Tandem.Divergence
