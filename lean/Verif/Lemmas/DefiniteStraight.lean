import Verif.Lemmas.PoissonDefinite
import Verif.Lemmas.PatchTest
import Verif.Props.MassMatrix
import Mathlib.Analysis.Calculus.MeanValue
/-! # Functions with vanishing quadratic form on straight elements (C102) -/
namespace Tandem.Definite
open Finset Spec Curvilinear RefElement Functions DGTopo

/-- A polynomial that vanishes at the points of a rule that integrates its square is zero. -/
theorem vanish {n N Nq : ℕ} (hn : n = 1 ∨ n = 2 ∨ n = 3) (W : Fin Nq → ℝ) (xi : Fin Nq → Fin n → ℝ)
    (hq : ∀ f, IsPoly n (2 * N) f → ∑ q, W q * f (xi q) = simplexIntegral n f) (f : (Fin n → ℝ) → ℝ) (hf : IsPoly n N f)
    (h0 : ∀ q, W q * f (xi q) = 0) (x : Fin n → ℝ) : f x = 0 := by
  have hbas := C78_modal_basis n N hn
  obtain ⟨c, hc, -⟩ := hbas.2 f hf
  have hc0 : ∀ i, c i = 0 := fun i => by
    have h1 : ∑ q, W q * (f (xi q) * modalFunction n N i (xi q)) = 0 := sum_eq_zero fun q _ => by rw [← mul_assoc, h0, zero_mul]
    have h2 : ∑ q, W q * (f (xi q) * modalFunction n N i (xi q)) =
        ∑ j : Fin (nbf n N), c j * ∑ q, W q * (modalFunction n N j (xi q) * modalFunction n N i (xi q)) := by
      simp only [hc, sum_mul, mul_sum]
      rw [sum_comm]
      exact sum_congr rfl fun j _ => sum_congr rfl fun q _ => by ring
    have h3 : ∀ j : Fin (nbf n N), ∑ q, W q * (modalFunction n N j (xi q) * modalFunction n N i (xi q)) = if j = i then dubNorm n (index n N i) else 0 := fun j => by
      rw [hq (fun x => modalFunction n N j x * modalFunction n N i x) (by rw [two_mul]; exact isPoly_mul n N N _ _ (hbas.1 j) (hbas.1 i))]
      simp only [modalFunction_eq]
      rw [dubiner_ortho n hn]
      by_cases h : j = i
      · rw [h, if_pos rfl, if_pos rfl]
      · rw [if_neg h, if_neg fun hh => h (index_inj n N (by omega) j i hh)]
    rw [h2] at h1
    simp only [h3, mul_ite, mul_zero, sum_ite_eq', mem_univ, if_true] at h1
    exact (mul_eq_zero.1 h1).resolve_right (dubNorm_pos n hn _).ne'
  rw [hc]
  exact sum_eq_zero fun i _ => by rw [hc0, zero_mul]

theorem parallel {n : ℕ} (a g : Fin n → ℝ) (ha : 0 < ∑ r, a r * a r) (h : (∑ r, a r * a r) * ∑ r, g r ^ 2 ≤ (∑ r, a r * g r) ^ 2)
    (t : Fin n → ℝ) (ht : ∑ r, a r * t r = 0) : ∑ r, g r * t r = 0 := by
  set c := (∑ r, a r * g r) / ∑ r, a r * a r with hcdef
  have h1 : ∑ r, (g r - c * a r) ^ 2 = ∑ r, g r ^ 2 - 2 * c * (∑ r, a r * g r) + c ^ 2 * ∑ r, a r * a r := by
    rw [mul_sum, mul_sum, ← sum_sub_distrib, ← sum_add_distrib]
    exact sum_congr rfl fun r _ => by ring
  have h2 : ∑ r, (g r - c * a r) ^ 2 ≤ 0 := by
    have e1 : c * (∑ r, a r * a r) = ∑ r, a r * g r := by exact div_mul_cancel₀ _ ha.ne'
    have e2 : ∑ r, (g r - c * a r) ^ 2 = ∑ r, g r ^ 2 - c * ∑ r, a r * g r := by
      rw [h1, ← e1]; ring
    rw [e2, hcdef, div_mul_eq_mul_div, ← sq, sub_nonpos, le_div_iff₀ ha, mul_comm]
    exact h
  have h3 : ∀ r, g r = c * a r := fun r => by
    have := (sum_eq_zero_iff_of_nonneg fun r _ => sq_nonneg (g r - c * a r)).1 (le_antisymm h2 (sum_nonneg fun r _ => sq_nonneg _)) r (mem_univ r)
    exact sub_eq_zero.1 (pow_eq_zero_iff (two_ne_zero) |>.1 this)
  simp only [h3, mul_assoc]
  rw [← mul_sum, ht, mul_zero]

variable {D Nbf Nbm Nq nq P : ℕ} {elems : ℕ → List (List ℕ)}

/-- The trace inequality is an equality on all facets of an element only for vanishing gradients. -/
theorem strict (hD : D = 1 ∨ D = 2) (N : ℕ) (ref : Poisson.Ref (D + 1) Nbf Nbm Nq nq) (g : Geometry (D + 1) Nq nq)
    (hr : GradientTables D N ref.W ref.w ref.Dxi_Q ref.Dxi_q) (hg : Straight P elems g) (area volume : List ℕ → ℝ)
    (hW : ∀ q, 0 < ref.W q)
    (harea : ∀ e f, InElems P elems e → IsFacet e f → area f = ∑ q, ref.w q * Poisson.normalLength (g.normal f e) q)
    (hvol : ∀ e, InElems P elems e → volume e = ∑ q, ref.W q * g.absDetJ e q)
    (hgeo : ∀ e, InElems P elems e → ∀ v : Fin (D + 1) → ℝ, (∀ f, IsFacet e f → ∀ n : Fin (D + 1) → ℝ, (∀ r q, g.normal f e r q = n r) →
      ∀ t : Fin (D + 1) → ℝ, ∑ i, n i * t i = 0 → ∑ i, v i * t i = 0) → v = 0)
    (e : List ℕ) (he : InElems P elems e) (v : Fin Nbf → ℝ)
    (heq : ∀ f, IsFacet e f → ∑ q, ref.w q * ((∑ r, g.normal f e r q * Poisson.gradOf (g.jInvFacet f e) (ref.Dxi_q (g.localNo e f)) v r q) ^ 2 / Poisson.normalLength (g.normal f e) q) =
        Poisson.traceConstant (D + 1) N * (area f / volume e) * ∑ q, g.absDetJ e q * ref.W q * ∑ r, Poisson.gradOf (g.jInv e) ref.Dxi_Q v r q ^ 2) :
    ∑ q, g.absDetJ e q * ref.W q * ∑ r, Poisson.gradOf (g.jInv e) ref.Dxi_Q v r q ^ 2 = 0 := by
  obtain ⟨xi, chi, phi, dphi, q1, q2, p1, p2, t1, t2⟩ := hr
  obtain ⟨w1, w2, w3⟩ := TraceIneq.sum_weights hD N ref.W ref.w xi chi q1 q2
  obtain ⟨J, j1, j2⟩ := hg.detJ e he
  obtain ⟨A, a1, a2⟩ := hg.jInv e he
  have hne : Nonempty (Fin nq) := by
    by_contra h
    rw [not_nonempty_iff] at h
    simp at w3
  have hpar : ∀ q, (fun r => ∑ k, (∑ e, A e r * dphi k (xi q) e) * v k) = 0 := by
    intro q
    refine hgeo e he _ fun f hf n hn t ht => ?_
    obtain ⟨n', n1, n2⟩ := hg.normal e f he hf
    have hnn : n = n' := funext fun r => (hn r (Classical.arbitrary _)).symm.trans (n2 r _)
    subst hnn
    have hn2 : 0 < ∑ i, n i * n i := by
      obtain ⟨i, hi⟩ := Function.ne_iff.1 n1
      exact sum_pos' (fun j _ => mul_self_nonneg _) ⟨i, mem_univ _, mul_self_pos.2 hi⟩
    have hL := Real.sqrt_pos.2 hn2
    set L := √(∑ i, n i * n i) with hLdef
    have hLL : L * L = ∑ i, n i * n i := Real.mul_self_sqrt hn2.le
    set l : Fin (D + 2) := ⟨g.localNo e f, hg.localNo e f he hf⟩ with hl
    have hl' : g.localNo e f = (l : ℕ) := rfl
    have h1 := heq f hf
    rw [harea e f he hf, hvol e he] at h1
    have a2 := a2 f hf
    simp only [Poisson.normalLength, Poisson.gradOf, n2, j2, a1, a2, t1, hl', t2, ← hLdef] at h1
    have hp : IsPoly (D + 1) N (fun x => L⁻¹ * ∑ r, n r * ∑ k, (∑ e, A e r * dphi k x e) * v k) :=
      isPoly_const_mul _ _ _ _ (isPoly_sum _ _ _ _ fun r _ => isPoly_const_mul _ _ _ _ (TraceIneq.isPoly_grad phi dphi p1 p2 (fun e => A e r) v))
    have key := TraceIneq.family_trace (ι := Unit) hD N ref.W ref.w xi chi q1 q2 l (fun _ x => L⁻¹ * ∑ r, n r * ∑ k, (∑ e, A e r * dphi k x e) * v k)
      (fun _ => hp) L J hL.le j1
    simp only [univ_unique, sum_singleton] at key
    have e1 : ∑ q, ref.w q * (L * (L⁻¹ * ∑ r, n r * ∑ k, (∑ e, A e r * dphi k (facetParam l (chi q)) e) * v k) ^ 2) =
        ∑ q, ref.w q * ((∑ r, n r * ∑ k, (∑ e, A e r * dphi k (facetParam l (chi q)) e) * v k) ^ 2 / L) :=
      sum_congr rfl fun q _ => by field_simp
    rw [e1, h1] at key
    have hT : 0 < Poisson.traceConstant (D + 1) N * ((∑ q, ref.w q * L) / ∑ q, ref.W q * J) := by
      rw [← sum_mul, ← sum_mul]
      refine mul_pos ?_ (div_pos (mul_pos w3 hL) (mul_pos w2 j1))
      unfold Poisson.traceConstant
      positivity
    have h2 := le_of_mul_le_mul_left key hT
    have h3 : ∀ q, (L⁻¹ * ∑ r, n r * ∑ k, (∑ e, A e r * dphi k (xi q) e) * v k) ^ 2 ≤ ∑ r, (∑ k, (∑ e, A e r * dphi k (xi q) e) * v k) ^ 2 := fun q => by
      have := Poisson.cauchy_normal n (fun r => ∑ k, (∑ e, A e r * dphi k (xi q) e) * v k)
      rw [← hLL] at this
      rw [mul_pow, inv_pow, inv_mul_le_iff₀ (by positivity), sq L]
      exact this
    have h4 : ∑ q, J * ref.W q * (L⁻¹ * ∑ r, n r * ∑ k, (∑ e, A e r * dphi k (xi q) e) * v k) ^ 2 =
        ∑ q, J * ref.W q * ∑ r, (∑ k, (∑ e, A e r * dphi k (xi q) e) * v k) ^ 2 :=
      le_antisymm (sum_le_sum fun q _ => mul_le_mul_of_nonneg_left (h3 q) (mul_pos j1 (hW q)).le) h2
    have h5 := (sum_eq_sum_iff_of_le fun q _ => mul_le_mul_of_nonneg_left (h3 q) (mul_pos j1 (hW q)).le).1 h4 q (mem_univ q)
    have h6 := mul_left_cancel₀ (mul_pos j1 (hW q)).ne' h5
    refine parallel n _ hn2 ?_ t ht
    rw [← h6, ← hLL]
    refine le_of_eq ?_
    field_simp
  refine sum_eq_zero fun q _ => ?_
  have : ∀ r, Poisson.gradOf (g.jInv e) ref.Dxi_Q v r q = 0 := fun r => by
    have := congrFun (hpar q) r
    simp only [Poisson.gradOf, a1, t1]
    exact this
  simp [this]

variable {o : Construct.Options D} {d : Domain (D + 1)}

/-- A vector that is perpendicular to all facets of a simplex is zero. -/
theorem all_facets (hD : D = 1 ∨ D = 2) (hm : Spec.Mesh P (D + 1) elems) {e : List ℕ} (he : InElems P elems e)
    (hdet : (edgeMatrix (d.corners e)).det ≠ 0) (v : Fin (D + 1) → ℝ)
    (h : ∀ f, IsFacet e f → ∀ t : Fin (D + 1) → ℝ, ∑ i, Curvilinear.normal (facetNo D e f) (edgeMatrix (d.corners e)) i * t i = 0 → ∑ i, v i * t i = 0) : v = 0 := by
  refine Matrix.eq_zero_of_vecMul_eq_zero hdet ?_
  obtain ⟨s, hs, hes⟩ := id he
  have hsz := hm.size s hs e hes
  have hso := hm.sorted s hs e hes
  have hnd : e.Nodup := hso.imp fun h => Nat.ne_of_lt h
  funext j
  obtain ⟨k, hk, hk0, hkj⟩ : ∃ k, k < e.length ∧ k ≠ 0 ∧ k ≠ j.val + 1 := by
    by_cases h1 : j.val = 0
    · exact ⟨2, by omega, by omega, by omega⟩
    · exact ⟨1, by omega, by omega, by omega⟩
  have hf : IsFacet e (e.erase e[k]) := by
    refine ⟨?_, hso.sublist List.erase_sublist, fun a ha => List.mem_of_mem_erase ha⟩
    rw [List.length_erase_of_mem (List.getElem_mem hk)]; omega
  have hin : ∀ m (hm : m < e.length), m ≠ k → e[m] ∈ e.erase e[k] := fun m hm hmk =>
    (List.Nodup.mem_erase_iff hnd).2 ⟨fun hh => hmk ((List.Nodup.getElem_inj_iff hnd).1 hh), List.getElem_mem hm⟩
  have hj := j.2
  have hp := PatchTest.facet_normal (d := d) hD hm he hf hdet e[j.val + 1] (hin _ (by omega) (fun h => hkj h.symm)) e[0] (hin _ (by omega) (fun h => hk0 h.symm))
  have := h _ hf _ hp
  rw [Pi.zero_apply, ← this]
  change ∑ i, v i * edgeMatrix (d.corners e) i j = _
  refine sum_congr rfl fun i _ => ?_
  unfold edgeMatrix Domain.corners
  rw [Matrix.of_apply]
  have g1 : e.getD (j.succ : Fin (D + 2)).val 0 = e[j.val + 1] := by
    rw [Fin.val_succ, List.getD_eq_getElem?_getD, List.getElem?_eq_getElem (by omega)]; rfl
  have g2 : e.getD (0 : Fin (D + 2)).val 0 = e[0] := by
    rw [Fin.val_zero, List.getD_eq_getElem?_getD, List.getElem?_eq_getElem (by omega)]; rfl
  rw [g1, g2]

open MvPolynomial in
/-- A polynomial with zero gradient is constant. -/
theorem constant_of_gradient {n : ℕ} (U : MvPolynomial (Fin n) ℝ) (h : ∀ i, pderiv i U = 0) (x : Fin n → ℝ) : eval x U = eval 0 U := by
  have hU : U = C (coeff 0 U) := by
    ext m
    rw [coeff_C]
    split
    · next h0 => rw [← h0]
    · next h0 =>
      obtain ⟨i, hi⟩ : ∃ i, m i ≠ 0 := by
        by_contra hh
        push Not at hh
        exact h0 (Finsupp.ext fun i => (hh i).symm)
      have h1 := congrArg (coeff (m - Finsupp.single i 1)) (h i)
      rw [coeff_pderiv, tsub_add_cancel_of_le (Finsupp.single_le_iff.2 (by omega)), coeff_zero] at h1
      refine (mul_eq_zero.1 h1).resolve_right ?_
      positivity
  rw [hU, eval_C, eval_C]

open MvPolynomial in
/-- A function whose gradient vanishes at the points in the element is constant. -/
theorem flat (hD : D = 1 ∨ D = 2) {p : ℕ} {W : Fin Nq → ℝ} {w : Fin nq → ℝ} {xi : Fin Nq → Fin (D + 1) → ℝ} {chi : Fin nq → Fin D → ℝ}
    {B : Fin Nbf → MvPolynomial (Fin (D + 1)) ℝ} {E_Q : Fin Nbf → Fin Nq → ℝ} {E_q : ℕ → Fin Nbf → Fin nq → ℝ}
    {Dxi_Q : Fin Nbf → Fin (D + 1) → Fin Nq → ℝ} {Dxi_q : ℕ → Fin Nbf → Fin (D + 1) → Fin nq → ℝ}
    (t : PatchTest.Tab (2 * p) p W w xi chi B E_Q E_q Dxi_Q Dxi_q) (A : Matrix (Fin (D + 1)) (Fin (D + 1)) ℝ) (hA : A.det ≠ 0) (x : Fin Nbf → ℝ)
    (h : ∀ q r, ∑ l, (∑ j, A j r * Dxi_Q l j q) * x l = 0) : ∃ c, ∀ ξ, ∑ l, x l * eval ξ (B l) = c := by
  have hz0 : ∀ q r, ∑ j, eval (xi q) (pderiv j (∑ l, C (x l) * B l)) * A j r = 0 := fun q r => by
    rw [← h q r]
    simp only [t.DQ, map_sum, pderiv_C_mul, map_mul, eval_C, sum_mul]
    rw [sum_comm]
    exact sum_congr rfl fun l _ => sum_congr rfl fun j _ => by ring
  have hz1 : ∀ q j, eval (xi q) (pderiv j (∑ l, C (x l) * B l)) = 0 := fun q j =>
    congrFun (Matrix.eq_zero_of_vecMul_eq_zero (v := fun j => eval (xi q) (pderiv j (∑ l, C (x l) * B l))) hA (funext fun r => hz0 q r)) j
  have hdeg : (∑ l, C (x l) * B l).totalDegree ≤ p := by
    refine totalDegree_finsetSum_le fun l _ => (totalDegree_mul _ _).trans ?_
    rw [totalDegree_C, zero_add]; exact t.degree l
  have hz2 : ∀ U : MvPolynomial (Fin (D + 1)) ℝ, U.totalDegree ≤ p → (∀ q j, eval (xi q) (pderiv j U) = 0) → ∀ j, pderiv j U = 0 := fun U hU h0 j => by
    have hd : (pderiv j U).totalDegree ≤ p := (CurvilinearBuild.pderiv_degree _ _).trans (by omega)
    refine MvPolynomial.funext fun y => ?_
    rw [map_zero]
    exact vanish (n := D + 1) (N := p) (by omega) W xi t.vol (fun y => eval y (pderiv j U)) ⟨pderiv j U, hd, fun _ => rfl⟩ (fun q => by rw [h0 q j, mul_zero]) y
  refine ⟨eval 0 (∑ l, C (x l) * B l), fun ξ => ?_⟩
  rw [← constant_of_gradient _ (hz2 _ hdeg hz1) ξ, map_sum]
  exact sum_congr rfl fun l _ => by rw [map_mul, eval_C]

end Tandem.Definite
