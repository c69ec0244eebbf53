import Mathlib.Tactic.LinearCombination
import Verif.Lemmas.PoissonDefinite
import Verif.Props.ElasticityPSD
/-! # The kernel of the quadratic form of the interior penalty matrix for elasticity (C102) -/
namespace Tandem.Elasticity
open Tandem.Spec Tandem.DGTopo Tandem.DGAssembly
open Tandem.Poisson (normalLength skeleton_bound boundary_bound Measures normalLength_neg flux_vanishes)

variable {P dim Nbf Nbm Nq nq : Nat} {elems : Nat → List (List Nat)} {num fnum tag : List Nat → Nat} {views : Nat → View}

/-- The weighted square of the traction on a facet. -/
noncomputable def tracTerm (ref : Ref dim Nbf Nbm Nq nq) (g : Geometry dim Nq nq) (lam mu : List Nat → Fin Nbm → ℝ) (e f : List Nat) (v : Fin Nbf → Fin dim → ℝ) : ℝ :=
  ∑ i : Fin dim × Fin nq, ref.w i.2 * (trac (kCoefq (ref.matE_q_T (g.localNo e f)) (lam e)) (kCoefq (ref.matE_q_T (g.localNo e f)) (mu e))
        (kDx (g.jInvFacet f e) (ref.Dxi_q (g.localNo e f))) (g.normal f e) v i.1 i.2 ^ 2 / normalLength (g.normal f e) i.2)

/-- If the quadratic form vanishes and the trace inequality is not sharp on all facets of an element at once except without energy,
then energies, jumps and displacements at the boundary with prescribed displacement vanish at the points of the quadratures. -/
theorem kernel (hd : IsDistributed P dim elems num fnum tag views)
    (ref : Ref dim Nbf Nbm Nq nq) (g : Geometry dim Nq nq) (hg : g.Opposite P elems) (lam mu : List Nat → Fin Nbm → ℝ)
    (pen : List Nat → ℝ) (o : Nat → Op dim Nbf Nbm Nq nq) (ho : ∀ r, r < P → Samples (views r) (o r) .IP ref g lam mu pen)
    (N : Nat) (areaR volumeR : Nat → Nat → ℝ) (area volume : List Nat → ℝ)
    (hmeas : ∀ r, r < P → Measures (views r) (areaR r) (volumeR r) area volume)
    (hpen : ∀ r, r < P → ∀ i info, i < (views r).numLocalFacets → facetInfo (views r) i = some info →
      (o r).penalty_ i = preparePenalty dim N (areaR r) (volumeR r) (o r).lam (o r).mu i info)
    (hc : Coercive P dim N elems ref g lam mu area volume)
    (X : List Nat → Fin Nbf → Fin dim → ℝ)
    (hstrict : ∀ e, InElems P elems e →
      (∀ f, IsFacet e f → tracTerm ref g lam mu e f (X e) = sidePenalty dim N (area f) (volume e) (lam e) (mu e) * energyTerm ref g lam mu X e) →
      energyTerm ref g lam mu X e = 0)
    (blocks : Nat → List (Nat × Nat × (Fin Nbf → Fin dim → Fin Nbf → Fin dim → ℝ)))
    (hb : ∀ r, r < P → assemble (views r) (o r).localOp = some (blocks r))
    (hz : ∑ r ∈ Finset.range P, ∑ u ∈ Finset.range (elems r).length, ∑ k, ∑ p, X ((views r).elems.getD u []) k p *
        rowApply mulVec (blocks r) (fun j => X ((views r).elems.getD j [])) u k p ≤ 0) :
    (∀ e, InElems P elems e → energyTerm ref g lam mu X e = 0) ∧
    (∀ f e a, InElems P elems e → InElems P elems a → e ≠ a → IsFacet e f → IsFacet a f →
      ∀ i : Fin dim × Fin nq, ref.w i.2 * (normalLength (g.normal f e) i.2 * (val (ref.E_q (g.localNo e f)) (X e) i.1 i.2 - val (ref.E_q (g.localNo a f)) (X a) i.1 i.2) ^ 2) = 0) ∧
    ∀ f e, InElems P elems e → IsFacet e f → (∀ a, InElems P elems a → IsFacet a f → a = e) → tag f ≠ bcNatural →
      ∀ i : Fin dim × Fin nq, ref.w i.2 * (normalLength (g.normal f e) i.2 * val (ref.E_q (g.localNo e f)) (X e) i.1 i.2 ^ 2) = 0 := by
  obtain ⟨blocks', hb', hsum⟩ := row_total hd ref g hg lam mu pen o ho X
  have heq : ∀ r, r < P → blocks' r = blocks r := fun r hr => Option.some.inj ((hb' r hr).symm.trans (hb r hr))
  have hz' : ∑ r ∈ Finset.range P, ∑ u ∈ Finset.range (elems r).length, ∑ k, ∑ p, X ((views r).elems.getD u []) k p *
        rowApply mulVec (blocks' r) (fun j => X ((views r).elems.getD j [])) u k p ≤ 0 := by
    refine le_of_eq_of_le (Finset.sum_congr rfl fun r hr => ?_) hz
    rw [heq r (Finset.mem_range.1 hr)]
  rw [hsum] at hz'
  have hpf := facet_penalty hd ref g lam mu pen o ho N areaR volumeR area volume hmeas hpen
  have hD : (0 : ℝ) < dim + 1 := by positivity
  have hdim := hd.mesh.dim
  set V : List Nat → ℝ := energyTerm ref g lam mu X with hV
  set F : List Nat → List Nat → ℝ := fun e f => tracTerm ref g lam mu e f (X e) with hF
  set c : List Nat → List Nat → ℝ := fun e f => sidePenalty dim N (area f) (volume e) (lam e) (mu e) with hcdef
  have hc0 : ∀ e f, InElems P elems e → IsFacet e f → 0 < c e f := fun e f he hf => (side_trace hc hdim e f he hf (X e)).1
  have hFV : ∀ e f, InElems P elems e → IsFacet e f → F e f ≤ c e f * V e := fun e f he hf => (side_trace hc hdim e f he hf (X e)).2
  have hFc : ∀ e f, InElems P elems e → IsFacet e f → F e f ≤ c e f * (F e f / c e f) := fun e f he hf =>
    le_of_eq (by have := (hc0 e f he hf).ne'; field_simp)
  have hFnn : ∀ e f, 0 ≤ F e f := fun e f => Finset.sum_nonneg fun q _ => mul_nonneg (hc.w _) (div_nonneg (sq_nonneg _) (Real.sqrt_nonneg _))
  have hflip : ∀ f e a, InElems P elems e → InElems P elems a → e ≠ a → IsFacet e f → IsFacet a f →
      ∑ i : Fin dim × Fin nq, ref.w i.2 * (trac (kCoefq (ref.matE_q_T (g.localNo a f)) (lam a)) (kCoefq (ref.matE_q_T (g.localNo a f)) (mu a))
        (kDx (g.jInvFacet f a) (ref.Dxi_q (g.localNo a f))) (g.normal f e) (X a) i.1 i.2 ^ 2 / normalLength (g.normal f e) i.2) = F a f := by
    intro f e a he ha hne hf hfa
    apply Finset.sum_congr rfl; intro i _
    rw [hg f e a he ha hne hf hfa, normalLength_neg]
    congr 2
    rw [trac_neg, neg_sq]
  have ht := total_zero hd.mesh V (facetTerm P elems (meshOp .IP ref g lam mu pen tag) X) (fun e f => F e f / c e f)
    (by
      intro f e a he ha hne hf hfa
      rw [pair_identity hd ref g hg lam mu pen X f e a he ha hne hf hfa]
      exact skeleton_bound (ι := Fin dim × Fin nq) (fun i => ref.w i.2) (fun i => normalLength (g.normal f e) i.2)
        (fun i => trac _ _ _ (g.normal f e) (X e) i.1 i.2) (fun i => trac _ _ _ (g.normal f e) (X a) i.1 i.2)
        (fun i => val (ref.E_q (g.localNo e f)) (X e) i.1 i.2 - val (ref.E_q (g.localNo a f)) (X a) i.1 i.2) (dim + 1 : ℝ) _ _ _ _ (pen f) (fun i => hc.w i.2) (fun i => Real.sqrt_nonneg _)
        (fun i h => trac_zero _ _ _ _ _ _ _ h) (fun i h => trac_zero _ _ _ _ _ _ _ h) hD (hc0 e f he hf) (hc0 a f ha hfa) (hFc e f he hf)
        ((hflip f e a he ha hne hf hfa).trans_le (hFc a f ha hfa)) (le_of_eq ((hpf e f he hf).2 a ha hne hfa).symm))
    (by
      intro f e he hf honly
      obtain ⟨b1, b2⟩ := boundary_identity (P := P) (elems := elems) (tag := tag) ref g lam mu pen X f e honly
      by_cases hn : tag f = bcNatural
      · rw [b1 hn]
        have := div_nonneg (div_nonneg (hFnn e f) (hc0 e f he hf).le) hD.le
        linarith
      · rw [b2 hn]
        exact boundary_bound (ι := Fin dim × Fin nq) (fun i => ref.w i.2) (fun i => normalLength (g.normal f e) i.2)
          (fun i => trac _ _ _ (g.normal f e) (X e) i.1 i.2) (fun i => val (ref.E_q (g.localNo e f)) (X e) i.1 i.2) (dim + 1 : ℝ) _ _ (pen f) (fun i => hc.w i.2) (fun i => Real.sqrt_nonneg _)
          (fun i h => trac_zero _ _ _ _ _ _ _ h) hD (hc0 e f he hf) (hFc e f he hf) (le_of_eq ((hpf e f he hf).1 honly).symm))
    (by
      intro e f he hf
      rw [div_le_iff₀ (hc0 e f he hf), mul_comm]
      exact hFV e f he hf) hz'
  obtain ⟨k1, k2, k3⟩ := ht
  have hV0 : ∀ e, InElems P elems e → V e = 0 := by
    intro e he
    refine hstrict e he fun f hf => ?_
    have h1 := k1 e f he hf
    change F e f = c e f * V e
    rw [← h1]; have := (hc0 e f he hf).ne'; field_simp
  have hF0 : ∀ e f, InElems P elems e → IsFacet e f → F e f ≤ 0 := fun e f he hf => by
    have := hFV e f he hf; rwa [hV0 e he, mul_zero] at this
  refine ⟨hV0, fun f e a he ha hne hf hfa => ?_, fun f e he hf honly htag => ?_⟩
  · have h1 := k2 f e a he ha hne hf hfa
    rw [pair_identity hd ref g hg lam mu pen X f e a he ha hne hf hfa, hV0 e he, hV0 a ha, add_zero, zero_div, neg_zero] at h1
    have f0 := flux_vanishes (ι := Fin dim × Fin nq) (fun i => ref.w i.2) (fun i => normalLength (g.normal f e) i.2) _ (fun i => hc.w i.2) (fun i => Real.sqrt_nonneg _)
      (fun i h => trac_zero _ _ _ _ _ _ _ h) (hF0 e f he hf)
    have f1 := flux_vanishes (ι := Fin dim × Fin nq) (fun i => ref.w i.2) (fun i => normalLength (g.normal f e) i.2) _ (fun i => hc.w i.2) (fun i => Real.sqrt_nonneg _)
      (fun i h => trac_zero _ _ _ _ _ _ _ h) ((hflip f e a he ha hne hf hfa).trans_le (hF0 a f ha hfa))
    have hp : 0 < pen f := by
      rw [(hpf e f he hf).2 a ha hne hfa]
      have := hc0 e f he hf
      have := hc0 a f ha hfa
      simp only [hcdef] at *
      positivity
    have h2 : pen f * ∑ i : Fin dim × Fin nq, ref.w i.2 * (normalLength (g.normal f e) i.2 *
        (val (ref.E_q (g.localNo e f)) (X e) i.1 i.2 - val (ref.E_q (g.localNo a f)) (X a) i.1 i.2) ^ 2) = 0 := by
      rw [← h1, Finset.mul_sum]
      refine Finset.sum_congr rfl fun q _ => ?_
      linear_combination (val (ref.E_q (g.localNo e f)) (X e) q.1 q.2 - val (ref.E_q (g.localNo a f)) (X a) q.1 q.2) * (f0 q + f1 q)
    intro i
    exact (Finset.sum_eq_zero_iff_of_nonneg fun i _ => mul_nonneg (hc.w _) (mul_nonneg (Real.sqrt_nonneg _) (sq_nonneg _))).1
      ((mul_eq_zero.1 h2).resolve_left hp.ne') i (Finset.mem_univ i)
  · have h1 := k3 f e he hf honly
    rw [(boundary_identity (P := P) (elems := elems) (tag := tag) ref g lam mu pen X f e honly).2 htag, hV0 e he, zero_div, neg_zero] at h1
    have f0 := flux_vanishes (ι := Fin dim × Fin nq) (fun i => ref.w i.2) (fun i => normalLength (g.normal f e) i.2) _ (fun i => hc.w i.2) (fun i => Real.sqrt_nonneg _)
      (fun i h => trac_zero _ _ _ _ _ _ _ h) (hF0 e f he hf)
    have hp : 0 < pen f := by
      rw [(hpf e f he hf).1 honly]
      have := hc0 e f he hf
      simp only [hcdef] at *
      positivity
    have h2 : pen f * ∑ i : Fin dim × Fin nq, ref.w i.2 * (normalLength (g.normal f e) i.2 * val (ref.E_q (g.localNo e f)) (X e) i.1 i.2 ^ 2) = 0 := by
      rw [← h1, Finset.mul_sum]
      refine Finset.sum_congr rfl fun q _ => ?_
      linear_combination (2 * val (ref.E_q (g.localNo e f)) (X e) q.1 q.2) * f0 q
    intro i
    exact (Finset.sum_eq_zero_iff_of_nonneg fun i _ => mul_nonneg (hc.w _) (mul_nonneg (Real.sqrt_nonneg _) (sq_nonneg _))).1
      ((mul_eq_zero.1 h2).resolve_left hp.ne') i (Finset.mem_univ i)

end Tandem.Elasticity
