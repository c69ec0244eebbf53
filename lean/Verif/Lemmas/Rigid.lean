import Verif.Lemmas.DefiniteStraight
import Verif.Props.PatchTest
/-! # Displacements without strain on simplices, and the stress when the trace inequality is sharp (C102) -/
namespace Tandem.Definite
open Finset Spec Curvilinear RefElement Functions DGTopo
open MvPolynomial

theorem pderiv_comm {n : ℕ} (i j : Fin n) (f : MvPolynomial (Fin n) ℝ) : pderiv i (pderiv j f) = pderiv j (pderiv i f) := by
  ext m
  by_cases h : i = j
  · rw [h]
  · simp only [coeff_pderiv]
    have h1 : (m + Finsupp.single i 1 : Fin n →₀ ℕ) j = m j := by simp [Finsupp.single_apply, h]
    have h2 : (m + Finsupp.single j 1 : Fin n →₀ ℕ) i = m i := by simp [Finsupp.single_apply, Ne.symm h]
    rw [h1, h2, add_right_comm]
    ring

/-- A displacement without strain is a rigid motion. -/
theorem rigid_form {n : ℕ} (U : Fin n → MvPolynomial (Fin n) ℝ) (h : ∀ p j, pderiv j (U p) + pderiv p (U j) = 0) :
    ∃ (G : Matrix (Fin n) (Fin n) ℝ) (c : Fin n → ℝ), (∀ p j, G p j = - G j p) ∧ ∀ y p, eval y (U p) = c p + ∑ j, G p j * y j := by
  have hs : ∀ p j, pderiv j (U p) = - pderiv p (U j) := fun p j => eq_neg_of_add_eq_zero_left (h p j)
  have h2 : ∀ p j k, pderiv k (pderiv j (U p)) = 0 := fun p j k => by
    have e : pderiv k (pderiv j (U p)) = - pderiv k (pderiv j (U p)) := by
      calc pderiv k (pderiv j (U p)) = - pderiv k (pderiv p (U j)) := by rw [hs p j, map_neg]
        _ = - pderiv p (pderiv k (U j)) := by rw [pderiv_comm]
        _ = pderiv p (pderiv j (U k)) := by rw [hs j k, map_neg, neg_neg]
        _ = pderiv j (pderiv p (U k)) := by rw [pderiv_comm]
        _ = - pderiv j (pderiv k (U p)) := by rw [hs k p, map_neg]
        _ = - pderiv k (pderiv j (U p)) := by rw [pderiv_comm]
    refine MvPolynomial.funext fun y => ?_
    have := congrArg (eval y) e
    rw [map_neg] at this
    rw [map_zero]; linarith
  have h3 : ∀ p j, pderiv j (U p) = C (eval 0 (pderiv j (U p))) := fun p j =>
    MvPolynomial.funext fun y => by rw [eval_C]; exact constant_of_gradient _ (h2 p j) y
  refine ⟨fun p j => eval 0 (pderiv j (U p)), fun p => eval 0 (U p), fun p j => by simp only [hs p j, map_neg], fun y p => ?_⟩
  have h4 := constant_of_gradient (U p - ∑ j, C (eval 0 (pderiv j (U p))) * X j) (fun i => by
    rw [map_sub, map_sum]
    simp only [pderiv_C_mul, pderiv_X]
    rw [Finset.sum_eq_single i (fun j _ hj => by simp [Pi.single_apply, Ne.symm hj]) (fun hi => absurd (mem_univ i) hi)]
    rw [Pi.single_eq_same, mul_one, ← h3, sub_self]) y
  simp only [map_sub, map_sum, map_mul, eval_C, eval_X, Pi.zero_apply, mul_zero, sum_const_zero, sub_zero] at h4
  linarith

/-- A rigid motion that vanishes at all vertices of a simplex but one is zero. -/
theorem rigid_zero {n : ℕ} (verts : Fin (n + 1) → Fin n → ℝ) (hdet : (edgeMatrix verts).det ≠ 0) (k b : Fin (n + 1)) (hb : b ≠ k) (G : Matrix (Fin n) (Fin n) ℝ)
    (c : Fin n → ℝ) (hG : ∀ p j, G p j = - G j p) (h0 : ∀ m, m ≠ k → ∀ p, c p + ∑ j, G p j * verts m j = 0) (y : Fin n → ℝ) (p : Fin n) :
    c p + ∑ j, G p j * y j = 0 := by
  have hd : ∀ m, m ≠ k → ∀ p, ∑ j, G p j * (verts m j - verts b j) = 0 := fun m hm p => by
    simp only [mul_sub, sum_sub_distrib]
    have := h0 m hm p; have := h0 b hb p
    linarith
  have hanti : ∀ u v : Fin n → ℝ, ∑ p, (∑ j, G p j * u j) * v p = - ∑ p, (∑ j, G p j * v j) * u p := fun u v => by
    simp only [sum_mul]
    rw [sum_comm, ← sum_neg_distrib]
    refine sum_congr rfl fun p _ => ?_
    rw [← sum_neg_distrib]
    exact sum_congr rfl fun j _ => by rw [hG j p]; ring
  have hself : ∀ u : Fin n → ℝ, ∑ p, (∑ j, G p j * u j) * u p = 0 := fun u => by have := hanti u u; linarith
  set t : Fin n → ℝ := fun j => verts k j - verts b j with ht
  have hperp : ∀ m, ∑ p, (∑ j, G p j * t j) * (verts m p - verts b p) = 0 := fun m => by
    by_cases hm : m = k
    · subst hm; exact hself t
    · rw [hanti t (fun p => verts m p - verts b p)]
      simp only [hd m hm, zero_mul, sum_const_zero, neg_zero]
  have hcol : ∀ v : Fin n → ℝ, (∀ m, ∑ p, v p * (verts m p - verts b p) = 0) → v = 0 := fun v hv => by
    refine Matrix.eq_zero_of_vecMul_eq_zero hdet (funext fun j => ?_)
    change ∑ i, v i * edgeMatrix verts i j = 0
    have h1 := hv j.succ
    have h2 := hv 0
    rw [← sub_eq_zero.2 (h1.trans h2.symm), ← sum_sub_distrib]
    refine sum_congr rfl fun i _ => ?_
    unfold edgeMatrix
    rw [Matrix.of_apply]; ring
  have hk : ∀ p, ∑ j, G p j * t j = 0 := fun p => congrFun (hcol _ hperp) p
  have hall : ∀ m p, ∑ j, G p j * (verts m j - verts b j) = 0 := fun m p => by
    by_cases hm : m = k
    · subst hm; exact hk p
    · exact hd m hm p
  have hG0 : ∀ p j, G p j = 0 := fun p j => congrFun (hcol (G p) fun m => hall m p) j
  have := h0 b hb p
  simp only [hG0, zero_mul, sum_const_zero, add_zero] at this ⊢
  exact this

variable {D Nbf Nq nq : ℕ}

/-- Every function of the reference element is a polynomial on the simplex. -/
theorem lift (verts : Fin (D + 2) → Fin (D + 1) → ℝ) (hdet : (edgeMatrix verts).det ≠ 0) (Q : MvPolynomial (Fin (D + 1)) ℝ) :
    ∃ U : MvPolynomial (Fin (D + 1)) ℝ, U.totalDegree ≤ Q.totalDegree ∧ ∀ ξ, eval ξ Q = eval (refToGeneral verts ξ) U := by
  set A := edgeMatrix verts with hA
  set v0 : Fin (D + 1) → ℝ := fun j => - ∑ i, A⁻¹ j i * verts 0 i with hv0
  set inv : Fin (D + 2) → Fin (D + 1) → ℝ := fun k => Fin.cases v0 (fun k j => v0 j + A⁻¹ j k) k with hinv
  have h0 : inv 0 = v0 := rfl
  have h1 : ∀ k : Fin (D + 1), inv k.succ = fun j => v0 j + A⁻¹ j k := fun k => rfl
  have hg : ∀ x, refToGeneral inv x = generalToRef verts x := fun x => by
    funext j
    unfold refToGeneral generalToRef
    rw [h0]
    simp only [h1, Matrix.mulVec, dotProduct, mul_sub, mul_add, sum_sub_distrib, sum_add_distrib, ← sum_mul, ← hA]
    have : v0 j = - ∑ i, A⁻¹ j i * verts 0 i := rfl
    rw [this]
    have e : ∑ d, x d * A⁻¹ j d = ∑ d, A⁻¹ j d * x d := sum_congr rfl fun d _ => mul_comm _ _
    rw [e]; ring
  refine ⟨Divergence.pull inv Q, Divergence.pull_degree _ _, fun ξ => ?_⟩
  rw [Divergence.eval_pull, hg, ((C58_affine _ verts).2 hdet).2 ξ]

/-- The squared norm of the stress. -/
theorem stress_sq {n : ℕ} (l m : ℝ) (hl : 0 ≤ l) (hm : 0 ≤ m) (ε : Fin n → Fin n → ℝ) :
    ∑ p, ∑ j, ((if p = j then l * ∑ r, ε r r else 0) + 2 * m * ε p j) ^ 2 ≤ (n * l + 2 * m) ^ 2 * ∑ i, ∑ j, ε i j ^ 2 := by
  set t := ∑ r, ε r r with ht
  set S := ∑ i, ∑ j, ε i j ^ 2 with hS
  have h2 : ∑ p, ∑ j, ((if p = j then l * t else 0) + 2 * m * ε p j) ^ 2 = (n * l ^ 2 + 4 * l * m) * t ^ 2 + 4 * m ^ 2 * S := by
    have e1 : ∀ p j : Fin n, ((if p = j then l * t else 0) + 2 * m * ε p j) ^ 2 =
        (if p = j then l ^ 2 * t ^ 2 + 4 * l * m * t * ε p j else 0) + 4 * m ^ 2 * ε p j ^ 2 := by
      intro p j
      split <;> ring
    simp only [e1, sum_add_distrib, sum_ite_eq, mem_univ, if_true, ← mul_sum]
    rw [← ht, ← hS, sum_const, card_univ, Fintype.card_fin, nsmul_eq_mul]
    ring
  rw [h2]
  have h3 : t ^ 2 ≤ n * S := Elasticity.trace_sq_le ε
  have h4 := mul_le_mul_of_nonneg_left h3 (show 0 ≤ (n : ℝ) * l ^ 2 + 4 * l * m by positivity)
  calc _ ≤ (n * l ^ 2 + 4 * l * m) * (n * S) + 4 * m ^ 2 * S := by linarith
    _ = _ := by ring

/-- Twice the elastic energy at a point. -/
noncomputable def energyAt {n : ℕ} (l m : ℝ) (U : Fin n → MvPolynomial (Fin n) ℝ) (y : Fin n → ℝ) : ℝ :=
  l * (∑ r, eval y (pderiv r (U r))) ^ 2 + 2 * m * ∑ i, ∑ j, ((eval y (pderiv j (U i)) + eval y (pderiv i (U j))) / 2) ^ 2

theorem stress_energy {n : ℕ} (l m : ℝ) (hl : 0 ≤ l) (hm : 0 < m) (U : Fin n → MvPolynomial (Fin n) ℝ) (y : Fin n → ℝ) :
    ∑ p, ∑ j, eval y (stress l m U p j) ^ 2 ≤ (n * l + 2 * m) * (n * l + 2 * m) / (2 * m) * energyAt l m U y := by
  have h1 := stress_sq l m hl hm.le fun i j => (eval y (pderiv j (U i)) + eval y (pderiv i (U j))) / 2
  have h2 : ∀ p j, eval y (stress l m U p j) = (if p = j then l * ∑ r, (eval y (pderiv r (U r)) + eval y (pderiv r (U r))) / 2 else 0) +
      2 * m * ((eval y (pderiv j (U p)) + eval y (pderiv p (U j))) / 2) := fun p j => by
    rw [PatchTest.eval_stress]
    have : ∀ r, (eval y (pderiv r (U r)) + eval y (pderiv r (U r))) / 2 = eval y (pderiv r (U r)) := fun r => by ring
    simp only [this]; ring
  simp only [h2]
  refine h1.trans ?_
  rw [div_mul_eq_mul_div, le_div_iff₀ (by positivity), mul_assoc, ← sq]
  refine mul_le_mul_of_nonneg_left ?_ (sq_nonneg _)
  unfold energyAt
  have := mul_nonneg hl (sq_nonneg (∑ r, eval y (pderiv r (U r))))
  linarith

/-- No stress, no energy. -/
theorem energy_zero {n : ℕ} (l m : ℝ) (U : Fin n → MvPolynomial (Fin n) ℝ) (y : Fin n → ℝ) (h : ∀ p j, eval y (stress l m U p j) = 0) : energyAt l m U y = 0 := by
  have h1 : energyAt l m U y = ∑ p, ∑ j, eval y (stress l m U p j) * ((eval y (pderiv j (U p)) + eval y (pderiv p (U j))) / 2) := by
    have e : ∀ p j, eval y (stress l m U p j) * ((eval y (pderiv j (U p)) + eval y (pderiv p (U j))) / 2) =
        (if p = j then (l * ∑ r, eval y (pderiv r (U r))) * ((eval y (pderiv j (U p)) + eval y (pderiv p (U j))) / 2) else 0) +
        2 * m * ((eval y (pderiv j (U p)) + eval y (pderiv p (U j))) / 2) ^ 2 := fun p j => by
      rw [PatchTest.eval_stress]
      split <;> ring
    simp only [e, sum_add_distrib, sum_ite_eq, mem_univ, if_true, ← mul_sum]
    unfold energyAt
    congr 1
    have : ∀ r, (eval y (pderiv r (U r)) + eval y (pderiv r (U r))) / 2 = eval y (pderiv r (U r)) := fun r => by ring
    simp only [this]; ring
  rw [h1]
  exact sum_eq_zero fun p _ => sum_eq_zero fun j _ => by rw [h, zero_mul]

/-- Energy zero, strain zero. -/
theorem strain_zero {n : ℕ} (l m : ℝ) (hl : 0 ≤ l) (hm : 0 < m) (U : Fin n → MvPolynomial (Fin n) ℝ) (y : Fin n → ℝ) (h : energyAt l m U y ≤ 0) (p j : Fin n) :
    eval y (pderiv j (U p)) + eval y (pderiv p (U j)) = 0 := by
  unfold energyAt at h
  have h1 := mul_nonneg hl (sq_nonneg (∑ r, eval y (pderiv r (U r))))
  have hs : ∀ i ∈ univ, 0 ≤ ∑ j, ((eval y (pderiv j (U i)) + eval y (pderiv i (U j))) / 2) ^ 2 := fun i _ => sum_nonneg fun j _ => sq_nonneg _
  have h2 : ∑ i, ∑ j, ((eval y (pderiv j (U i)) + eval y (pderiv i (U j))) / 2) ^ 2 = 0 := le_antisymm (by nlinarith [sum_nonneg hs]) (sum_nonneg hs)
  have h3 := (sum_eq_zero_iff_of_nonneg hs).1 h2 p (mem_univ p)
  have h4 := (sum_eq_zero_iff_of_nonneg fun j _ => sq_nonneg _).1 h3 j (mem_univ j)
  have := pow_eq_zero_iff (two_ne_zero) |>.1 h4
  linarith

section
variable {p : ℕ} {W : Fin Nq → ℝ} {w : Fin nq → ℝ} {xi : Fin Nq → Fin (D + 1) → ℝ} {chi : Fin nq → Fin D → ℝ}
  {B : Fin Nbf → MvPolynomial (Fin (D + 1)) ℝ} {E_Q : Fin Nbf → Fin Nq → ℝ} {E_q : ℕ → Fin Nbf → Fin nq → ℝ}
  {Dxi_Q : Fin Nbf → Fin (D + 1) → Fin Nq → ℝ} {Dxi_q : ℕ → Fin Nbf → Fin (D + 1) → Fin nq → ℝ}

theorem stress_degree' {n N : ℕ} (lam mu : ℝ) (U : Fin n → MvPolynomial (Fin n) ℝ) (h : ∀ p, (U p).totalDegree ≤ N) (p i : Fin n) :
    (stress lam mu U p i).totalDegree ≤ N - 1 := by
  have hd : ∀ p i, (pderiv i (U p)).totalDegree ≤ N - 1 := fun p i => (CurvilinearBuild.pderiv_degree _ _).trans (by have := h p; omega)
  have hc : ∀ c (V : MvPolynomial (Fin n) ℝ), V.totalDegree ≤ N - 1 → (C c * V).totalDegree ≤ N - 1 := fun c V hV => by
    refine (totalDegree_mul _ _).trans ?_
    rw [totalDegree_C, zero_add]; exact hV
  unfold stress
  refine (totalDegree_add _ _).trans (max_le ?_ (hc _ _ ((totalDegree_add _ _).trans (max_le (hd _ _) (hd _ _)))))
  split
  · exact hc _ _ ((totalDegree_finset_sum _ _).trans (Finset.sup_le fun j _ => hd _ _))
  · simp

/-- If the inverse trace inequality for the traction is sharp, the stress acts in the direction of the normal only. -/
theorem sharp_stress (hD : D = 1 ∨ D = 2) (t : PatchTest.Tab (2 * p) p W w xi chi B E_Q E_q Dxi_Q Dxi_q) (hW : ∀ q, 0 < W q)
    (verts : Fin (D + 2) → Fin (D + 1) → ℝ) (lam mu : ℝ) (hl : 0 ≤ lam) (hm : 0 < mu) (U : Fin (D + 1) → MvPolynomial (Fin (D + 1)) ℝ)
    (hU : ∀ p', (U p').totalDegree ≤ p) (l : Fin (D + 2)) (n : Fin (D + 1) → ℝ) (hn : n ≠ 0) (J : ℝ) (hJ : 0 < J)
    (heq : ∑ i : Fin (D + 1) × Fin nq, w i.2 * (elasticTraction lam mu U n i.1 (refToGeneral verts (facetParam l (chi i.2))) ^ 2 / √(∑ i, n i * n i)) =
      Poisson.traceConstant (D + 1) (p - 1) * ((∑ q, w q * √(∑ i, n i * n i)) / ∑ q, W q * J) *
        (((D + 1 : ℕ) * lam + 2 * mu) * ((D + 1 : ℕ) * lam + 2 * mu) / (2 * mu)) * ∑ q, J * W q * energyAt lam mu U (refToGeneral verts (xi q)))
    (q : Fin Nq) (r : Fin (D + 1)) (s : Fin (D + 1) → ℝ) (hs : ∑ i, n i * s i = 0) : ∑ j, eval (refToGeneral verts (xi q)) (stress lam mu U r j) * s j = 0 := by
  have hn2 : 0 < ∑ i, n i * n i := by
    obtain ⟨i, hi⟩ := Function.ne_iff.1 hn
    exact sum_pos' (fun j _ => mul_self_nonneg _) ⟨i, mem_univ _, mul_self_pos.2 hi⟩
  have hL := Real.sqrt_pos.2 hn2
  set L := √(∑ i, n i * n i) with hLdef
  have hLL : L * L = ∑ i, n i * n i := Real.mul_self_sqrt hn2.le
  have v1 : ∀ f, IsPoly (D + 1) (2 * (p - 1)) f → ∑ q, W q * f (xi q) = simplexIntegral (D + 1) f := fun f hf => t.vol f (isPoly_mono _ _ _ (by omega) f hf)
  have v2 : ∀ f, IsPoly D (2 * (p - 1)) f → ∑ q, w q * f (chi q) = simplexIntegral D f := fun f hf => t.fct f (isPoly_mono _ _ _ (by omega) f hf)
  obtain ⟨w1, w2, w3⟩ := TraceIneq.sum_weights hD (p - 1) W w xi chi v1 v2
  set u : Fin (D + 1) → (Fin (D + 1) → ℝ) → ℝ := fun r ξ => L⁻¹ * elasticTraction lam mu U n r (refToGeneral verts ξ) with hu
  have hup : ∀ r, IsPoly (D + 1) (p - 1) (u r) := fun r => by
    refine isPoly_const_mul _ _ _ _ ?_
    unfold elasticTraction
    exact isPoly_sum _ _ _ _ fun i _ => isPoly_const_mul _ _ _ _
      ⟨Divergence.pull verts (stress lam mu U r i), (Divergence.pull_degree _ _).trans (stress_degree' lam mu U hU r i), fun ξ => (Divergence.eval_pull _ _ _).symm⟩
  have key := TraceIneq.family_trace hD (p - 1) W w xi chi v1 v2 l u hup L J hL.le hJ
  have e1 : ∑ q, w q * (L * ∑ i, u i (facetParam l (chi q)) ^ 2) =
      ∑ i : Fin (D + 1) × Fin nq, w i.2 * (elasticTraction lam mu U n i.1 (refToGeneral verts (facetParam l (chi i.2))) ^ 2 / L) := by
    rw [Fintype.sum_prod_type, sum_comm]
    refine sum_congr rfl fun q _ => ?_
    rw [mul_sum, mul_sum]
    refine sum_congr rfl fun i _ => ?_
    simp only [hu]
    field_simp
  rw [e1, heq, mul_assoc] at key
  have hT : 0 < Poisson.traceConstant (D + 1) (p - 1) * ((∑ q, w q * L) / ∑ q, W q * J) := by
    rw [← sum_mul, ← sum_mul]
    refine mul_pos ?_ (div_pos (mul_pos w3 hL) (mul_pos w2 hJ))
    unfold Poisson.traceConstant
    positivity
  have h2 := le_of_mul_le_mul_left key hT
  rw [mul_sum] at h2
  have hrow : ∀ q r, u r (xi q) ^ 2 ≤ ∑ j, eval (refToGeneral verts (xi q)) (stress lam mu U r j) ^ 2 := fun q r => by
    have := Poisson.cauchy_normal n (fun j => eval (refToGeneral verts (xi q)) (stress lam mu U r j))
    rw [← hLL] at this
    simp only [hu]
    rw [mul_pow, inv_pow, inv_mul_le_iff₀ (by positivity), sq L]
    exact this
  have hpt : ∀ q, ∑ r, u r (xi q) ^ 2 ≤ ∑ r, ∑ j, eval (refToGeneral verts (xi q)) (stress lam mu U r j) ^ 2 := fun q => sum_le_sum fun r _ => hrow q r
  have hen : ∀ q, ∑ r, ∑ j, eval (refToGeneral verts (xi q)) (stress lam mu U r j) ^ 2 ≤
      (((D + 1 : ℕ) * lam + 2 * mu) * ((D + 1 : ℕ) * lam + 2 * mu) / (2 * mu)) * energyAt lam mu U (refToGeneral verts (xi q)) := fun q =>
    stress_energy lam mu hl hm U _
  have hle : ∀ q ∈ univ, J * W q * ∑ r, u r (xi q) ^ 2 ≤
      (((D + 1 : ℕ) * lam + 2 * mu) * ((D + 1 : ℕ) * lam + 2 * mu) / (2 * mu)) * (J * W q * energyAt lam mu U (refToGeneral verts (xi q))) := fun q _ => by
    rw [mul_left_comm]
    exact mul_le_mul_of_nonneg_left ((hpt q).trans (hen q)) (mul_pos hJ (hW q)).le
  have h5 := (sum_eq_sum_iff_of_le hle).1 (le_antisymm (sum_le_sum hle) h2) q (mem_univ q)
  rw [mul_left_comm] at h5
  have h6 := mul_left_cancel₀ (mul_pos hJ (hW q)).ne' h5
  have h7 : ∑ r, u r (xi q) ^ 2 = ∑ r, ∑ j, eval (refToGeneral verts (xi q)) (stress lam mu U r j) ^ 2 := le_antisymm (hpt q) (h6 ▸ hen q)
  have h8 := (sum_eq_sum_iff_of_le fun r _ => hrow q r).1 h7 r (mem_univ r)
  refine parallel n _ hn2 ?_ s hs
  rw [← h8, ← hLL]
  refine le_of_eq ?_
  simp only [hu, elasticTraction]
  field_simp

/-- A displacement without energy at the points is a rigid motion. -/
theorem rigid_of_energy (hD : D = 1 ∨ D = 2) (t : PatchTest.Tab (2 * p) p W w xi chi B E_Q E_q Dxi_Q Dxi_q)
    (verts : Fin (D + 2) → Fin (D + 1) → ℝ) (hdet : (edgeMatrix verts).det ≠ 0) (lam mu : ℝ) (hl : 0 ≤ lam) (hm : 0 < mu) (U : Fin (D + 1) → MvPolynomial (Fin (D + 1)) ℝ)
    (hU : ∀ p', (U p').totalDegree ≤ p) (h : ∀ q, energyAt lam mu U (refToGeneral verts (xi q)) ≤ 0) (r s : Fin (D + 1)) :
    pderiv s (U r) + pderiv r (U s) = 0 := by
  have hd : ∀ p' i, (pderiv i (U p')).totalDegree ≤ p := fun p' i => (CurvilinearBuild.pderiv_degree _ _).trans (by have := hU p'; omega)
  have h0 : ∀ ξ, eval (refToGeneral verts ξ) (pderiv s (U r) + pderiv r (U s)) = 0 := fun ξ =>
    vanish (n := D + 1) (N := p) (by omega) W xi t.vol (fun ξ => eval (refToGeneral verts ξ) (pderiv s (U r) + pderiv r (U s)))
      ⟨Divergence.pull verts _, (Divergence.pull_degree _ _).trans ((totalDegree_add _ _).trans (max_le (hd _ _) (hd _ _))), fun ξ => (Divergence.eval_pull _ _ _).symm⟩
      (fun q => by rw [map_add, strain_zero lam mu hl hm U _ (h q) r s, mul_zero]) ξ
  refine MvPolynomial.funext fun y => ?_
  rw [map_zero, ← ((C58_affine _ verts).2 hdet).1 y]
  exact h0 _

end

end Tandem.Definite
