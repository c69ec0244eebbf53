import Mathlib.Tactic.LinearCombination
import Verif.Lemmas.Definite
/-! # The kernel of the quadratic form of the interior penalty matrix for Poisson's equation (C102) -/
namespace Tandem.Poisson
open Tandem.Spec Tandem.DGTopo Tandem.DGAssembly

variable {P dim Nbf Nbm Nq nq : Nat} {elems : Nat → List (List Nat)} {num fnum tag : List Nat → Nat} {views : Nat → View}

/-- The two inequalities between the flux on a facet and the volume term. -/
theorem side_chain {N : Nat} {ref : Ref dim Nbf Nbm Nq nq} {g : Geometry dim Nq nq} {K : List Nat → Fin Nbm → ℝ} {area volume : List Nat → ℝ}
    (hc : Coercive P dim N elems ref g K area volume) (hdim : 0 < dim) (e f : List Nat) (he : InElems P elems e) (hf : IsFacet e f) (v : Fin Nbf → ℝ) :
    ∑ q, ref.w q * (fluxOf (g.normal f e) (kKDxq (K e) (ref.matE_q_T (g.localNo e f)) (g.jInvFacet f e) (ref.Dxi_q (g.localNo e f))) v q ^ 2 /
        normalLength (g.normal f e) q) ≤ ((⨆ m, K e m) * (⨆ m, K e m)) *
      ∑ q, ref.w q * ((∑ r, g.normal f e r q * gradOf (g.jInvFacet f e) (ref.Dxi_q (g.localNo e f)) v r q) ^ 2 / normalLength (g.normal f e) q) ∧
    ((⨆ m, K e m) * (⨆ m, K e m)) * (traceConstant dim N * (area f / volume e) * ∑ q, g.absDetJ e q * ref.W q * ∑ r, gradOf (g.jInv e) ref.Dxi_Q v r q ^ 2) ≤
      sidePenalty dim N (area f) (volume e) (K e) *
        ∑ q, g.absDetJ e q * ref.W q * kKq (K e) ref.matE_Q_T q * ∑ r, gradOf (g.jInv e) ref.Dxi_Q v r q ^ 2 := by
  have hk0 := hc.positive e he
  have hk1 := sup_pos hk0
  have hA := hc.areaPos e f he hf
  have hV := hc.volumePos e he
  have hT : 0 < traceConstant dim N := by
    unfold traceConstant
    apply div_pos
    · exact_mod_cast Nat.mul_pos (by omega) (by omega)
    · exact_mod_cast hdim
  constructor
  · rw [Finset.mul_sum]
    apply Finset.sum_le_sum; intro q _
    rw [flux_grad, mul_pow]
    have hu := hc.upper e f he hf q
    have hsq : kKq (K e) (ref.matE_q_T (g.localNo e f)) q ^ 2 ≤ (⨆ m, K e m) * (⨆ m, K e m) := by
      rw [← sq, ← sq_abs]
      exact pow_le_pow_left₀ (abs_nonneg _) hu 2
    have hnn : 0 ≤ (∑ r, g.normal f e r q * gradOf (g.jInvFacet f e) (ref.Dxi_q (g.localNo e f)) v r q) ^ 2 / normalLength (g.normal f e) q :=
      div_nonneg (sq_nonneg _) (Real.sqrt_nonneg _)
    calc _ = kKq (K e) (ref.matE_q_T (g.localNo e f)) q ^ 2 * (ref.w q * ((∑ r, g.normal f e r q * gradOf (g.jInvFacet f e) (ref.Dxi_q (g.localNo e f)) v r q) ^ 2 / normalLength (g.normal f e) q)) := by ring
      _ ≤ _ := mul_le_mul_of_nonneg_right hsq (mul_nonneg (hc.w q) hnn)
  · have h3 : (⨅ m, K e m) * ∑ q, g.absDetJ e q * ref.W q * ∑ r, gradOf (g.jInv e) ref.Dxi_Q v r q ^ 2 ≤
        ∑ q, g.absDetJ e q * ref.W q * kKq (K e) ref.matE_Q_T q * ∑ r, gradOf (g.jInv e) ref.Dxi_Q v r q ^ 2 := by
      rw [Finset.mul_sum]
      apply Finset.sum_le_sum; intro q _
      have hnn : 0 ≤ g.absDetJ e q * ref.W q * ∑ r, gradOf (g.jInv e) ref.Dxi_Q v r q ^ 2 :=
        mul_nonneg (mul_nonneg (hc.detJ e he q) (hc.W q)) (Finset.sum_nonneg (fun r _ => sq_nonneg _))
      have := mul_le_mul_of_nonneg_right (hc.lower e he q) hnn
      linarith
    have h4 := mul_le_mul_of_nonneg_left h3 (show 0 ≤ sidePenalty dim N (area f) (volume e) (K e) by unfold sidePenalty; positivity)
    refine le_trans (le_of_eq ?_) h4
    unfold sidePenalty
    field_simp

theorem flux_vanishes {ι : Type} [Fintype ι] (w nl f : ι → ℝ) (hw : ∀ q, 0 ≤ w q) (hnl : ∀ q, 0 ≤ nl q) (hf : ∀ q, nl q = 0 → f q = 0)
    (h : ∑ q, w q * (f q ^ 2 / nl q) ≤ 0) : ∀ q, w q * f q = 0 := by
  intro q
  have hnn : ∀ q ∈ Finset.univ, 0 ≤ w q * (f q ^ 2 / nl q) := fun q _ => mul_nonneg (hw q) (div_nonneg (sq_nonneg _) (hnl q))
  have h0 := (Finset.sum_eq_zero_iff_of_nonneg hnn).1 (le_antisymm h (Finset.sum_nonneg hnn)) q (Finset.mem_univ q)
  rcases mul_eq_zero.1 h0 with h | h
  · rw [h, zero_mul]
  · rcases div_eq_zero_iff.1 h with h | h
    · rw [pow_eq_zero_iff (by decide)] at h; rw [h, mul_zero]
    · rw [hf q h, mul_zero]

/-- If the quadratic form vanishes and the trace inequality is not sharp on all facets of an element at once except for vanishing gradients,
then gradients, jumps and values at the boundary with prescribed values vanish at the points of the quadratures. -/
theorem kernel (hd : IsDistributed P dim elems num fnum tag views)
    (ref : Ref dim Nbf Nbm Nq nq) (g : Geometry dim Nq nq) (hg : g.Opposite P elems) (K : List Nat → Fin Nbm → ℝ)
    (pen : List Nat → ℝ) (o : Nat → Op dim Nbf Nbm Nq nq) (ho : ∀ r, r < P → Samples (views r) (o r) .IP ref g K pen)
    (N : Nat) (areaR volumeR : Nat → Nat → ℝ) (area volume : List Nat → ℝ)
    (hmeas : ∀ r, r < P → Measures (views r) (areaR r) (volumeR r) area volume)
    (hpen : ∀ r, r < P → ∀ i info, i < (views r).numLocalFacets → facetInfo (views r) i = some info →
      (o r).penalty_ i = preparePenalty dim N (areaR r) (volumeR r) (o r).K i info)
    (hc : Coercive P dim N elems ref g K area volume)
    (hstrict : ∀ e, InElems P elems e → ∀ v : Fin Nbf → ℝ,
      (∀ f, IsFacet e f → ∑ q, ref.w q * ((∑ r, g.normal f e r q * gradOf (g.jInvFacet f e) (ref.Dxi_q (g.localNo e f)) v r q) ^ 2 / normalLength (g.normal f e) q) =
        traceConstant dim N * (area f / volume e) * ∑ q, g.absDetJ e q * ref.W q * ∑ r, gradOf (g.jInv e) ref.Dxi_Q v r q ^ 2) →
      ∑ q, g.absDetJ e q * ref.W q * ∑ r, gradOf (g.jInv e) ref.Dxi_Q v r q ^ 2 = 0)
    (X : List Nat → Fin Nbf → ℝ) (blocks : Nat → List (Nat × Nat × (Fin Nbf → Fin Nbf → ℝ)))
    (hb : ∀ r, r < P → assemble (views r) (o r).localOp = some (blocks r))
    (hz : ∑ r ∈ Finset.range P, ∑ u ∈ Finset.range (elems r).length, ∑ k, X ((views r).elems.getD u []) k *
        rowApply mulVec (blocks r) (fun j => X ((views r).elems.getD j [])) u k ≤ 0) :
    (∀ e, InElems P elems e → ∑ q, g.absDetJ e q * ref.W q * ∑ r, gradOf (g.jInv e) ref.Dxi_Q (X e) r q ^ 2 = 0) ∧
    (∀ f e a, InElems P elems e → InElems P elems a → e ≠ a → IsFacet e f → IsFacet a f →
      ∑ q, ref.w q * (normalLength (g.normal f e) q * (Poisson.trace (ref.E_q (g.localNo e f)) (X e) q - Poisson.trace (ref.E_q (g.localNo a f)) (X a) q) ^ 2) = 0) ∧
    ∀ f e, InElems P elems e → IsFacet e f → (∀ a, InElems P elems a → IsFacet a f → a = e) → tag f ≠ bcNatural →
      ∑ q, ref.w q * (normalLength (g.normal f e) q * Poisson.trace (ref.E_q (g.localNo e f)) (X e) q ^ 2) = 0 := by
  obtain ⟨blocks', T, hb', hsum, hin, hbd⟩ := form_poisson hd ref g hg K pen o ho X
  have heq : ∀ r, r < P → blocks' r = blocks r := fun r hr => Option.some.inj ((hb' r hr).symm.trans (hb r hr))
  have hz' : ∑ r ∈ Finset.range P, ∑ u ∈ Finset.range (elems r).length, ∑ k, X ((views r).elems.getD u []) k *
        rowApply mulVec (blocks' r) (fun j => X ((views r).elems.getD j [])) u k ≤ 0 := by
    refine le_of_eq_of_le (Finset.sum_congr rfl fun r hr => ?_) hz
    rw [heq r (Finset.mem_range.1 hr)]
  rw [hsum] at hz'
  have hpf := penalty_facet hd ref g K pen o ho N areaR volumeR area volume hmeas hpen
  have hD : (0 : ℝ) < dim + 1 := by positivity
  have hdim := hd.mesh.dim
  set V : List Nat → ℝ := fun e => ∑ q, g.absDetJ e q * ref.W q * kKq (K e) ref.matE_Q_T q * ∑ r, gradOf (g.jInv e) ref.Dxi_Q (X e) r q ^ 2 with hV
  set F : List Nat → List Nat → ℝ := fun e f => ∑ q, ref.w q * (fluxOf (g.normal f e) (kKDxq (K e) (ref.matE_q_T (g.localNo e f)) (g.jInvFacet f e)
    (ref.Dxi_q (g.localNo e f))) (X e) q ^ 2 / normalLength (g.normal f e) q) with hF
  set c : List Nat → List Nat → ℝ := fun e f => sidePenalty dim N (area f) (volume e) (K e) with hcdef
  have hc0 : ∀ e f, InElems P elems e → IsFacet e f → 0 < c e f := fun e f he hf => (side_trace hc hdim e f he hf (X e)).1
  have hFV : ∀ e f, InElems P elems e → IsFacet e f → F e f ≤ c e f * V e := fun e f he hf => (side_trace hc hdim e f he hf (X e)).2
  have hFc : ∀ e f, InElems P elems e → IsFacet e f → F e f ≤ c e f * (F e f / c e f) := fun e f he hf =>
    le_of_eq (by have := (hc0 e f he hf).ne'; field_simp)
  have hVnn : ∀ e, InElems P elems e → 0 ≤ V e := fun e he => by
    apply Finset.sum_nonneg; intro q _
    have := le_trans (hc.positive e he).le (hc.lower e he q)
    exact mul_nonneg (mul_nonneg (mul_nonneg (hc.detJ e he q) (hc.W q)) this) (Finset.sum_nonneg (fun r _ => sq_nonneg _))
  have hFnn : ∀ e f, 0 ≤ F e f := fun e f => Finset.sum_nonneg fun q _ => mul_nonneg (hc.w q) (div_nonneg (sq_nonneg _) (Real.sqrt_nonneg _))
  have ht := total_zero hd.mesh V T (fun e f => F e f / c e f)
    (by
      intro f e a he ha hne hf hfa
      rw [hin f e a he ha hne hf hfa]
      exact skeleton_bound ref.w (normalLength (g.normal f e)) _ _ _ (dim + 1 : ℝ) _ _ _ _ (pen f) hc.w (fun q => Real.sqrt_nonneg _)
        (fun q h => flux_zero _ _ _ _ h) (fun q h => flux_zero _ _ _ _ h) hD (hc0 e f he hf) (hc0 a f ha hfa) (hFc e f he hf)
        ((flux_flip g hg K ref f e a he ha hne hf hfa (X a)).trans_le (hFc a f ha hfa)) (le_of_eq ((hpf e f he hf).2 a ha hne hfa).symm))
    (by
      intro f e he hf honly
      rw [hbd f e he hf honly]
      split
      · have := div_nonneg (div_nonneg (hFnn e f) (hc0 e f he hf).le) hD.le
        linarith
      · exact boundary_bound ref.w (normalLength (g.normal f e)) _ _ (dim + 1 : ℝ) _ _ (pen f) hc.w (fun q => Real.sqrt_nonneg _)
          (fun q h => flux_zero _ _ _ _ h) hD (hc0 e f he hf) (hFc e f he hf) (le_of_eq ((hpf e f he hf).1 honly).symm))
    (by
      intro e f he hf
      rw [div_le_iff₀ (hc0 e f he hf), mul_comm]
      exact hFV e f he hf) hz'
  obtain ⟨k1, k2, k3⟩ := ht
  have hG : ∀ e, InElems P elems e → ∑ q, g.absDetJ e q * ref.W q * ∑ r, gradOf (g.jInv e) ref.Dxi_Q (X e) r q ^ 2 = 0 := by
    intro e he
    refine hstrict e he (X e) fun f hf => ?_
    obtain ⟨s1, s2⟩ := side_chain hc hdim e f he hf (X e)
    have h1 := k1 e f he hf
    have h2 : F e f = c e f * V e := by rw [← h1]; have := (hc0 e f he hf).ne'; field_simp
    have h3 := hc.traceIneq e f he hf (X e)
    have hk1 := sup_pos (hc.positive e he)
    have hk : 0 < (⨆ m, K e m) * (⨆ m, K e m) := by positivity
    refine le_antisymm h3 ?_
    refine le_of_mul_le_mul_left ?_ hk
    refine s2.trans (le_of_eq_of_le ?_ s1)
    exact h2.symm
  have hV0 : ∀ e, InElems P elems e → V e = 0 := by
    intro e he
    refine Finset.sum_eq_zero fun q hq => ?_
    have := (Finset.sum_eq_zero_iff_of_nonneg (fun q _ => mul_nonneg (mul_nonneg (hc.detJ e he q) (hc.W q)) (Finset.sum_nonneg (fun r _ => sq_nonneg _)))).1 (hG e he) q hq
    rw [mul_right_comm, this, zero_mul]
  have hF0 : ∀ e f, InElems P elems e → IsFacet e f → F e f ≤ 0 := fun e f he hf => by
    have := hFV e f he hf; rwa [hV0 e he, mul_zero] at this
  refine ⟨hG, fun f e a he ha hne hf hfa => ?_, fun f e he hf honly htag => ?_⟩
  · have h1 := k2 f e a he ha hne hf hfa
    rw [hin f e a he ha hne hf hfa, hV0 e he, hV0 a ha, add_zero, zero_div, neg_zero] at h1
    have f0 := flux_vanishes ref.w (normalLength (g.normal f e)) _ hc.w (fun q => Real.sqrt_nonneg _) (fun q h => flux_zero _ _ _ _ h) (hF0 e f he hf)
    have f1 := flux_vanishes ref.w (normalLength (g.normal f e)) _ hc.w (fun q => Real.sqrt_nonneg _) (fun q h => flux_zero _ _ _ _ h)
      ((flux_flip g hg K ref f e a he ha hne hf hfa (X a)).trans_le (hF0 a f ha hfa))
    have hp : 0 < pen f := by
      rw [(hpf e f he hf).2 a ha hne hfa]
      have := hc0 e f he hf
      have := hc0 a f ha hfa
      simp only [hcdef] at *
      positivity
    have h2 : pen f * ∑ q, ref.w q * (normalLength (g.normal f e) q *
        (Poisson.trace (ref.E_q (g.localNo e f)) (X e) q - Poisson.trace (ref.E_q (g.localNo a f)) (X a) q) ^ 2) = 0 := by
      rw [← h1, Finset.mul_sum]
      refine Finset.sum_congr rfl fun q _ => ?_
      linear_combination (Poisson.trace (ref.E_q (g.localNo e f)) (X e) q - Poisson.trace (ref.E_q (g.localNo a f)) (X a) q) * (f0 q + f1 q)
    exact (mul_eq_zero.1 h2).resolve_left hp.ne'
  · have h1 := k3 f e he hf honly
    rw [hbd f e he hf honly, if_neg htag, hV0 e he, zero_div, neg_zero] at h1
    have f0 := flux_vanishes ref.w (normalLength (g.normal f e)) _ hc.w (fun q => Real.sqrt_nonneg _) (fun q h => flux_zero _ _ _ _ h) (hF0 e f he hf)
    have hp : 0 < pen f := by
      rw [(hpf e f he hf).1 honly]
      have := hc0 e f he hf
      simp only [hcdef] at *
      positivity
    have h2 : pen f * ∑ q, ref.w q * (normalLength (g.normal f e) q * Poisson.trace (ref.E_q (g.localNo e f)) (X e) q ^ 2) = 0 := by
      rw [← h1, Finset.mul_sum]
      refine Finset.sum_congr rfl fun q _ => ?_
      linear_combination (2 * Poisson.trace (ref.E_q (g.localNo e f)) (X e) q) * f0 q
    exact (mul_eq_zero.1 h2).resolve_left hp.ne'

end Tandem.Poisson
