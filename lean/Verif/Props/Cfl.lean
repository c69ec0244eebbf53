import Verif.Props.TraceIneq
import Verif.Spec.Cfl
/-! # Property C97: the time step of the fully dynamic solver bounds the spectrum of the wave operator -/
namespace Tandem.Cfl
open Tandem.DGTopo Tandem.Spec Tandem.DGAssembly Tandem.Elasticity
open Tandem.Poisson (traceConstant normalLength Measures skeleton_bound boundary_bound normalLength_neg)

variable {dim Nbf Nbm Nq nq : Nat}
variable {P : Nat} {elems : Nat → List (List Nat)} {num fnum tag : List Nat → Nat} {views : Nat → View}

/-- The square of the L² norm of the displacement on an element. -/
noncomputable def norm2 (ref : Ref dim Nbf Nbm Nq nq) (g : Geometry dim Nq nq) (e : List Nat) (v : Fin Nbf → Fin dim → ℝ) : ℝ :=
  ∑ q, g.absDetJ e q * ref.W q * ∑ p, val ref.E_Q v p q ^ 2

/-- What the bound of the spectrum needs beyond C75: the stiffness at the points of the elements is at most the bound the code
computes from the coefficients, the inverse trace inequality for the displacement, and the inverse gradient inequality, with the
constants of `InverseInequality`. -/
structure Bounded (P dim p : Nat) (C_N : ℝ) (elems : Nat → List (List Nat)) (ref : Ref dim Nbf Nbm Nq nq) (g : Geometry dim Nq nq)
    (lam mu : List Nat → Fin Nbm → ℝ) (area volume : List Nat → ℝ) : Prop where
  upperQ : ∀ e, InElems P elems e → ∀ q, dim * kCoefq ref.matE_Q_T (lam e) q + 2 * kCoefq ref.matE_Q_T (mu e) q ≤ ⨆ t, (dim * lam e t + 2 * mu e t)
  valueTrace : ∀ e f, InElems P elems e → IsFacet e f → ∀ v : Fin Nbf → Fin dim → ℝ,
    ∑ q, ref.w q * (normalLength (g.normal f e) q * ∑ p, val (ref.E_q (g.localNo e f)) v p q ^ 2) ≤
      traceConstant dim p * (area f / volume e) * norm2 ref g e v
  gradient : ∀ e, InElems P elems e → ∀ v : Fin Nbf → Fin dim → ℝ,
    ∑ q, g.absDetJ e q * ref.W q * ∑ i, ∑ j, grad (kDx (g.jInv e) ref.Dxi_Q) v i j q ^ 2 ≤
      C_N * (((Ghosts.facets dim e).map area).sum / volume e) ^ 2 * norm2 ref g e v

theorem strain_le_grad {n : Nat} (Dx : Fin Nbf → Fin dim → Fin n → ℝ) (v : Fin Nbf → Fin dim → ℝ) (q : Fin n) :
    strain2 Dx v q ≤ ∑ i, ∑ j, grad Dx v i j q ^ 2 := by
  unfold strain2 strain
  have h : ∑ i, ∑ j, ((grad Dx v i j q + grad Dx v j i q) / 2) ^ 2 ≤ ∑ i, ∑ j, (grad Dx v i j q ^ 2 + grad Dx v j i q ^ 2) / 2 :=
    Finset.sum_le_sum fun i _ => Finset.sum_le_sum fun j _ => by nlinarith [sq_nonneg (grad Dx v i j q - grad Dx v j i q)]
  refine h.trans (le_of_eq ?_)
  have e1 : ∑ i, ∑ j, grad Dx v j i q ^ 2 = ∑ i, ∑ j, grad Dx v i j q ^ 2 := Finset.sum_comm
  simp only [add_div, Finset.sum_add_distrib, ← Finset.sum_div]
  rw [e1]; ring

theorem energy_le {N p : Nat} {C_N : ℝ} {ref : Ref dim Nbf Nbm Nq nq} {g : Geometry dim Nq nq} {lam mu : List Nat → Fin Nbm → ℝ}
    {area volume : List Nat → ℝ} (hc : Coercive P dim N elems ref g lam mu area volume) (hb : Bounded P dim p C_N elems ref g lam mu area volume)
    (X : List Nat → Fin Nbf → Fin dim → ℝ) (e : List Nat) (he : InElems P elems e) :
    energyTerm ref g lam mu X e ≤ energyPart dim C_N lam mu area volume e * norm2 ref g e (X e) := by
  have hk1 := (hc.upperPos e he).le
  set c1 := ⨆ t, (dim * lam e t + 2 * mu e t) with hc1
  have h1 : energyTerm ref g lam mu X e ≤ c1 * ∑ q, g.absDetJ e q * ref.W q * strain2 (kDx (g.jInv e) ref.Dxi_Q) (X e) q := by
    unfold energyTerm
    rw [Finset.mul_sum]
    apply Finset.sum_le_sum; intro q _
    rw [wj_eq, wj_eq]
    have hJW := mul_nonneg (hc.detJ e he q) (hc.W q)
    have ht : (∑ r, grad (kDx (g.jInv e) ref.Dxi_Q) (X e) r r q) ^ 2 ≤ dim * strain2 (kDx (g.jInv e) ref.Dxi_Q) (X e) q := by
      have := trace_sq_le (fun i j => strain (kDx (g.jInv e) ref.Dxi_Q) (X e) i j q)
      refine le_trans (le_of_eq ?_) this
      congr 1
      apply Finset.sum_congr rfl; intro r _
      unfold strain; ring
    have hS := strain2_nonneg (kDx (g.jInv e) ref.Dxi_Q) (X e) q
    have hl := hc.lamQ e he q
    have hu := hb.upperQ e he q
    have a1 := mul_le_mul_of_nonneg_left ht hl
    have a2 := mul_le_mul_of_nonneg_right hu hS
    have a3 : kCoefq ref.matE_Q_T (lam e) q * (∑ r, grad (kDx (g.jInv e) ref.Dxi_Q) (X e) r r q) ^ 2 +
        2 * kCoefq ref.matE_Q_T (mu e) q * strain2 (kDx (g.jInv e) ref.Dxi_Q) (X e) q ≤ c1 * strain2 (kDx (g.jInv e) ref.Dxi_Q) (X e) q := by linarith
    have := mul_le_mul_of_nonneg_left a3 hJW
    linarith
  have h2 : ∑ q, g.absDetJ e q * ref.W q * strain2 (kDx (g.jInv e) ref.Dxi_Q) (X e) q ≤
      ∑ q, g.absDetJ e q * ref.W q * ∑ i, ∑ j, grad (kDx (g.jInv e) ref.Dxi_Q) (X e) i j q ^ 2 :=
    Finset.sum_le_sum fun q _ => mul_le_mul_of_nonneg_left (strain_le_grad _ _ _) (mul_nonneg (hc.detJ e he q) (hc.W q))
  have h3 := mul_le_mul_of_nonneg_left (h2.trans (hb.gradient e he (X e))) hk1
  refine h1.trans (h3.trans (le_of_eq ?_))
  unfold energyPart
  rw [← hc1]; ring

theorem sum_map_sub' {A : Type} (l : List A) (F G : A → ℝ) : (l.map (fun a => F a - G a)).sum = (l.map F).sum - (l.map G).sum := by
  induction l with
  | nil => simp
  | cons a l ih => simp only [List.map_cons, List.sum_cons, ih]; ring

theorem pen_nonneg (hd : IsDistributed P dim elems num fnum tag views)
    (ref : Ref dim Nbf Nbm Nq nq) (g : Geometry dim Nq nq) (lam mu : List Nat → Fin Nbm → ℝ)
    (pen : List Nat → ℝ) (o : Nat → Op dim Nbf Nbm Nq nq) (ho : ∀ r, r < P → Samples (views r) (o r) .IP ref g lam mu pen)
    (N : Nat) (areaR volumeR : Nat → Nat → ℝ) (area volume : List Nat → ℝ)
    (hmeas : ∀ r, r < P → Measures (views r) (areaR r) (volumeR r) area volume)
    (hpen : ∀ r, r < P → ∀ i info, i < (views r).numLocalFacets → facetInfo (views r) i = some info →
      (o r).penalty_ i = preparePenalty dim N (areaR r) (volumeR r) (o r).lam (o r).mu i info)
    (hc : Coercive P dim N elems ref g lam mu area volume) :
    ∀ e f, InElems P elems e → IsFacet e f → 0 ≤ pen f := by
  have hpf := facet_penalty hd ref g lam mu pen o ho N areaR volumeR area volume hmeas hpen
  intro e f he hf
  obtain ⟨c0, _⟩ := side_trace hc hd.mesh.dim e f he hf 0
  by_cases honly : ∀ a, InElems P elems a → IsFacet a f → a = e
  · rw [(hpf e f he hf).1 honly]; positivity
  · push Not at honly
    obtain ⟨a, ha, hfa, hne⟩ := honly
    obtain ⟨c1, _⟩ := side_trace hc hd.mesh.dim a f ha hfa 0
    rw [(hpf e f he hf).2 a ha (Ne.symm hne) hfa]; positivity

/-- **C97 (form)**: with the penalty the code computes, the quadratic form of the global interior penalty matrix is at most the sum
over all elements of twice the penalty part and the energy part of the bound times the square of the L² norm. -/
theorem C97_form (hd : IsDistributed P dim elems num fnum tag views)
    (ref : Ref dim Nbf Nbm Nq nq) (g : Geometry dim Nq nq) (hg : g.Opposite P elems) (lam mu : List Nat → Fin Nbm → ℝ)
    (pen : List Nat → ℝ) (o : Nat → Op dim Nbf Nbm Nq nq) (ho : ∀ r, r < P → Samples (views r) (o r) .IP ref g lam mu pen)
    (N p : Nat) (C_N : ℝ) (areaR volumeR : Nat → Nat → ℝ) (area volume : List Nat → ℝ)
    (hmeas : ∀ r, r < P → Measures (views r) (areaR r) (volumeR r) area volume)
    (hpen : ∀ r, r < P → ∀ i info, i < (views r).numLocalFacets → facetInfo (views r) i = some info →
      (o r).penalty_ i = preparePenalty dim N (areaR r) (volumeR r) (o r).lam (o r).mu i info)
    (hc : Coercive P dim N elems ref g lam mu area volume) (hb : Bounded P dim p C_N elems ref g lam mu area volume)
    (X : List Nat → Fin Nbf → Fin dim → ℝ) :
    ∃ blocks : Nat → List (Nat × Nat × (Fin Nbf → Fin dim → Fin Nbf → Fin dim → ℝ)),
      (∀ r, r < P → assemble (views r) (o r).localOp = some (blocks r)) ∧
      ∑ r ∈ Finset.range P, ∑ u ∈ Finset.range (elems r).length, ∑ k, ∑ p, X ((views r).elems.getD u []) k p *
        rowApply mulVec (blocks r) (fun j => X ((views r).elems.getD j [])) u k p ≤
      ∑ r ∈ Finset.range P, ∑ u ∈ Finset.range (elems r).length,
        2 * (penaltyPart P dim p elems pen area volume ((views r).elems.getD u []) + energyPart dim C_N lam mu area volume ((views r).elems.getD u [])) *
          norm2 ref g ((views r).elems.getD u []) (X ((views r).elems.getD u [])) := by
  obtain ⟨blocks, hbl, hsum⟩ := row_total hd ref g hg lam mu pen o ho X
  refine ⟨blocks, hbl, ?_⟩
  rw [hsum, sum_ranks hd (fun e => 2 * (penaltyPart P dim p elems pen area volume e + energyPart dim C_N lam mu area volume e) * norm2 ref g e (X e))]
  have hpf := facet_penalty hd ref g lam mu pen o ho N areaR volumeR area volume hmeas hpen
  have hD : (0 : ℝ) < dim + 1 := by positivity
  have hpos := pen_nonneg hd ref g lam mu pen o ho N areaR volumeR area volume hmeas hpen hc
  set B : List Nat → List Nat → ℝ := fun e f => 2 * (sides P elems e f * pen f * traceConstant dim p * (area f / volume e)) * norm2 ref g e (X e) with hB
  set T := facetTerm P elems (meshOp .IP ref g lam mu pen tag) X with hT
  have key := total_nonneg hd.mesh (energyTerm ref g lam mu X) (fun e f => B e f - T e f) ?_ ?_
  · have e1 : ∀ e ∈ allElems P elems, energyTerm ref g lam mu X e + ((Ghosts.facets dim e).map (fun f => B e f - T e f)).sum ≤
        2 * (penaltyPart P dim p elems pen area volume e + energyPart dim C_N lam mu area volume e) * norm2 ref g e (X e) -
          (energyTerm ref g lam mu X e + ((Ghosts.facets dim e).map (T e)).sum) := by
      intro e he
      have hE := energy_le hc hb X e ((mem_all e).1 he)
      have e2 : ((Ghosts.facets dim e).map (fun f => B e f - T e f)).sum = ((Ghosts.facets dim e).map (B e)).sum - ((Ghosts.facets dim e).map (T e)).sum :=
        sum_map_sub' _ _ _
      have e3 : ((Ghosts.facets dim e).map (B e)).sum = 2 * penaltyPart P dim p elems pen area volume e * norm2 ref g e (X e) := by
        rw [hB]
        unfold penaltyPart
        rw [← List.sum_map_mul_left, ← List.sum_map_mul_right]
      rw [e2, e3]
      linarith
    have := key.trans (Finset.sum_le_sum e1)
    rw [Finset.sum_sub_distrib] at this
    linarith
  · intro f e a he ha hne hf hfa
    obtain ⟨c0, t0⟩ := side_trace hc hd.mesh.dim e f he hf (X e)
    obtain ⟨c1, t1⟩ := side_trace hc hd.mesh.dim a f ha hfa (X a)
    have hT2 := pair_identity (tag := tag) hd ref g hg lam mu pen X f e a he ha hne hf hfa
    rw [← hT] at hT2
    have hnl : normalLength (g.normal f a) = normalLength (g.normal f e) := by
      funext q; rw [hg f e a he ha hne hf hfa, normalLength_neg]
    have hsk := skeleton_bound (ι := Fin dim × Fin nq) (fun i => ref.w i.2) (fun i => normalLength (g.normal f e) i.2)
      (fun i => trac (kCoefq (ref.matE_q_T (g.localNo e f)) (lam e)) (kCoefq (ref.matE_q_T (g.localNo e f)) (mu e))
            (kDx (g.jInvFacet f e) (ref.Dxi_q (g.localNo e f))) (g.normal f e) (X e) i.1 i.2)
      (fun i => trac (kCoefq (ref.matE_q_T (g.localNo a f)) (lam a)) (kCoefq (ref.matE_q_T (g.localNo a f)) (mu a))
            (kDx (g.jInvFacet f a) (ref.Dxi_q (g.localNo a f))) (g.normal f e) (X a) i.1 i.2)
      (fun i => -(val (ref.E_q (g.localNo e f)) (X e) i.1 i.2 - val (ref.E_q (g.localNo a f)) (X a) i.1 i.2)) (dim + 1 : ℝ) _ _
      (energyTerm ref g lam mu X e) (energyTerm ref g lam mu X a) (pen f) (fun i => hc.w i.2) (fun i => Real.sqrt_nonneg _)
      (fun i h => trac_zero _ _ _ _ _ _ _ h) (fun i h => trac_zero _ _ _ _ _ _ _ h) hD c0 c1 t0 (by
        refine le_trans (le_of_eq ?_) t1
        apply Finset.sum_congr rfl; intro i _
        rw [hnl, hg f e a he ha hne hf hfa]
        congr 2
        rw [trac_neg, neg_sq]) (le_of_eq ((hpf e f he hf).2 a ha hne hfa).symm)
    -- the jump
    have hj : ∑ i : Fin dim × Fin nq, ref.w i.2 * (normalLength (g.normal f e) i.2 *
        (val (ref.E_q (g.localNo e f)) (X e) i.1 i.2 - val (ref.E_q (g.localNo a f)) (X a) i.1 i.2) ^ 2) ≤
        2 * (traceConstant dim p * (area f / volume e) * norm2 ref g e (X e)) + 2 * (traceConstant dim p * (area f / volume a) * norm2 ref g a (X a)) := by
      have v0 := hb.valueTrace e f he hf (X e)
      have v1 := hb.valueTrace a f ha hfa (X a)
      rw [hnl] at v1
      have e4 : ∑ i : Fin dim × Fin nq, ref.w i.2 * (normalLength (g.normal f e) i.2 *
        (val (ref.E_q (g.localNo e f)) (X e) i.1 i.2 - val (ref.E_q (g.localNo a f)) (X a) i.1 i.2) ^ 2) ≤
        2 * ∑ q, ref.w q * (normalLength (g.normal f e) q * ∑ p, val (ref.E_q (g.localNo e f)) (X e) p q ^ 2) +
        2 * ∑ q, ref.w q * (normalLength (g.normal f e) q * ∑ p, val (ref.E_q (g.localNo a f)) (X a) p q ^ 2) := by
        rw [Fintype.sum_prod_type, Finset.sum_comm, Finset.mul_sum, Finset.mul_sum, ← Finset.sum_add_distrib]
        apply Finset.sum_le_sum; intro q _
        simp only
        rw [← Finset.mul_sum, ← Finset.mul_sum]
        have hwn : 0 ≤ ref.w q * normalLength (g.normal f e) q := mul_nonneg (hc.w q) (Real.sqrt_nonneg _)
        have : ∑ p, (val (ref.E_q (g.localNo e f)) (X e) p q - val (ref.E_q (g.localNo a f)) (X a) p q) ^ 2 ≤
            2 * ∑ p, val (ref.E_q (g.localNo e f)) (X e) p q ^ 2 + 2 * ∑ p, val (ref.E_q (g.localNo a f)) (X a) p q ^ 2 := by
          rw [Finset.mul_sum, Finset.mul_sum, ← Finset.sum_add_distrib]
          apply Finset.sum_le_sum; intro p _
          nlinarith [sq_nonneg (val (ref.E_q (g.localNo e f)) (X e) p q + val (ref.E_q (g.localNo a f)) (X a) p q)]
        have := mul_le_mul_of_nonneg_left this hwn
        linarith
      linarith
    have e5 : ∑ i : Fin dim × Fin nq, ref.w i.2 * (- (trac (kCoefq (ref.matE_q_T (g.localNo e f)) (lam e)) (kCoefq (ref.matE_q_T (g.localNo e f)) (mu e))
            (kDx (g.jInvFacet f e) (ref.Dxi_q (g.localNo e f))) (g.normal f e) (X e) i.1 i.2 +
          trac (kCoefq (ref.matE_q_T (g.localNo a f)) (lam a)) (kCoefq (ref.matE_q_T (g.localNo a f)) (mu a))
            (kDx (g.jInvFacet f a) (ref.Dxi_q (g.localNo a f))) (g.normal f e) (X a) i.1 i.2) *
          -(val (ref.E_q (g.localNo e f)) (X e) i.1 i.2 - val (ref.E_q (g.localNo a f)) (X a) i.1 i.2) +
        pen f * (normalLength (g.normal f e) i.2 * (-(val (ref.E_q (g.localNo e f)) (X e) i.1 i.2 - val (ref.E_q (g.localNo a f)) (X a) i.1 i.2)) ^ 2)) =
        2 * pen f * (∑ i : Fin dim × Fin nq, ref.w i.2 * (normalLength (g.normal f e) i.2 *
        (val (ref.E_q (g.localNo e f)) (X e) i.1 i.2 - val (ref.E_q (g.localNo a f)) (X a) i.1 i.2) ^ 2)) - (T e f + T a f) := by
      rw [hT2, Finset.mul_sum, ← Finset.sum_sub_distrib]
      apply Finset.sum_congr rfl; intro i _; ring
    rw [e5] at hsk
    have s0 : sides P elems e f = 2 := by unfold sides; rw [if_pos ⟨a, ha, Ne.symm hne, hfa⟩]
    have s1 : sides P elems a f = 2 := by unfold sides; rw [if_pos ⟨e, he, hne, hf⟩]
    have := mul_le_mul_of_nonneg_left hj (show 0 ≤ 2 * pen f by have := hpos e f he hf; positivity)
    simp only [hB, s0, s1]
    linarith
  · intro f e he hf honly
    obtain ⟨c0, t0⟩ := side_trace hc hd.mesh.dim e f he hf (X e)
    obtain ⟨b1, b2⟩ := boundary_identity (P := P) (elems := elems) (tag := tag) ref g lam mu pen X f e honly
    have s0 : sides P elems e f = 1 := by
      unfold sides; rw [if_neg]; rintro ⟨a, ha, hne, hfa⟩; exact hne (honly a ha hfa)
    have v0 := hb.valueTrace e f he hf (X e)
    have hS : 0 ≤ ∑ q, ref.w q * (normalLength (g.normal f e) q * ∑ p, val (ref.E_q (g.localNo e f)) (X e) p q ^ 2) :=
      Finset.sum_nonneg fun q _ => mul_nonneg (hc.w q) (mul_nonneg (Real.sqrt_nonneg _) (Finset.sum_nonneg fun p _ => sq_nonneg _))
    have v1 := mul_le_mul_of_nonneg_left v0 (show 0 ≤ 2 * pen f by have := hpos e f he hf; positivity)
    have hBpos : 2 * pen f * (∑ q, ref.w q * (normalLength (g.normal f e) q * ∑ p, val (ref.E_q (g.localNo e f)) (X e) p q ^ 2)) ≤ B e f := by
      simp only [hB, s0]; linarith
    have hpn := hpos e f he hf
    by_cases hn : tag f = bcNatural
    · rw [← hT] at b1
      rw [b1 hn]
      have h1 := div_nonneg (energyTerm_nonneg hc X e he) hD.le
      have h2 : 0 ≤ 2 * pen f * (∑ q, ref.w q * (normalLength (g.normal f e) q * ∑ p, val (ref.E_q (g.localNo e f)) (X e) p q ^ 2)) := by positivity
      linarith
    · rw [← hT] at b2
      have hbd := boundary_bound (ι := Fin dim × Fin nq) (fun i => ref.w i.2) (fun i => normalLength (g.normal f e) i.2)
        (fun i => trac (kCoefq (ref.matE_q_T (g.localNo e f)) (lam e)) (kCoefq (ref.matE_q_T (g.localNo e f)) (mu e))
            (kDx (g.jInvFacet f e) (ref.Dxi_q (g.localNo e f))) (g.normal f e) (X e) i.1 i.2) (fun i => - val (ref.E_q (g.localNo e f)) (X e) i.1 i.2)
        (dim + 1 : ℝ) _ (energyTerm ref g lam mu X e) (pen f) (fun i => hc.w i.2) (fun i => Real.sqrt_nonneg _)
        (fun i h => trac_zero _ _ _ _ _ _ _ h) hD c0 t0 (le_of_eq ((hpf e f he hf).1 honly).symm)
      have e6 : ∑ i : Fin dim × Fin nq, ref.w i.2 * (normalLength (g.normal f e) i.2 * val (ref.E_q (g.localNo e f)) (X e) i.1 i.2 ^ 2) =
          ∑ q, ref.w q * (normalLength (g.normal f e) q * ∑ p, val (ref.E_q (g.localNo e f)) (X e) p q ^ 2) := by
        rw [Fintype.sum_prod_type, Finset.sum_comm]
        apply Finset.sum_congr rfl; intro q _
        simp only
        rw [← Finset.mul_sum, ← Finset.mul_sum]
      have e5 : ∑ i : Fin dim × Fin nq, ref.w i.2 * (- (2 * trac (kCoefq (ref.matE_q_T (g.localNo e f)) (lam e)) (kCoefq (ref.matE_q_T (g.localNo e f)) (mu e))
            (kDx (g.jInvFacet f e) (ref.Dxi_q (g.localNo e f))) (g.normal f e) (X e) i.1 i.2) * -val (ref.E_q (g.localNo e f)) (X e) i.1 i.2 +
          pen f * (normalLength (g.normal f e) i.2 * (-val (ref.E_q (g.localNo e f)) (X e) i.1 i.2) ^ 2)) =
          2 * pen f * (∑ i : Fin dim × Fin nq, ref.w i.2 * (normalLength (g.normal f e) i.2 * val (ref.E_q (g.localNo e f)) (X e) i.1 i.2 ^ 2)) - T e f := by
        rw [b2 hn, Finset.mul_sum, ← Finset.sum_sub_distrib]
        apply Finset.sum_congr rfl; intro i _; ring
      rw [e5, e6] at hbd
      linarith

/-- One element: if the weight-adjusted inverse mass matrix takes `y` to `l` times `x` then `l` times the square of the norm of `x` is at
most the bound of the inverse density times the product of `x` and `y`. -/
theorem elem_weight (Minv : Fin Nbf → Fin Nbf → ℝ) (E : Fin Nbf → Fin Nq → ℝ) (W rI : Fin Nq → ℝ) (J ir1 l : ℝ)
    (hinv : IsInverse Minv (massWith E W (fun _ => 1))) (hW : ∀ q, 0 ≤ W q) (hJ : 0 < J) (h0 : ∀ q, 0 ≤ rI q) (h1 : ∀ q, rI q ≤ ir1)
    (hir : 0 < ir1) (hl : 0 < l) (x y : Fin Nbf → ℝ)
    (h : ∀ k, ∑ m, weightAdjusted Minv E W (fun q => rI q / J) k m * y m = l * x k) :
    l * ∑ q, J * W q * (∑ m, E m q * x m) ^ 2 ≤ ir1 * ∑ k, x k * y k := by
  set z : Fin Nbf → ℝ := fun s => ∑ m, Minv s m * y m with hz
  set xq : Fin Nq → ℝ := fun q => ∑ m, E m q * x m with hxq
  set zq : Fin Nq → ℝ := fun q => ∑ m, E m q * z m with hzq
  have hM : ∀ (c : Fin Nq → ℝ) (a b : Fin Nbf → ℝ), ∑ k, a k * ∑ m, massWith E W c k m * b m =
      ∑ q, W q * c q * ((∑ m, E m q * a m) * ∑ m, E m q * b m) := by
    intro c a b
    unfold massWith
    simp only [Finset.sum_mul, Finset.mul_sum]
    rw [Finset.sum_congr rfl (fun k _ => Finset.sum_comm), Finset.sum_comm]
    apply Finset.sum_congr rfl; intro q _
    rw [Finset.sum_comm]
    apply Finset.sum_congr rfl; intro k _
    apply Finset.sum_congr rfl; intro m _
    ring
  have hy : ∀ k, ∑ m, massWith E W (fun _ => 1) k m * z m = y k := fun k => inverse_apply (inverse_comm hinv) y k
  have hx : ∀ k, ∑ m, massWith E W (fun _ => 1) k m * (l * x m) = ∑ m, massWith E W (fun q => rI q / J) k m * z m := by
    intro k
    simp only [← h, weightAdjusted_apply]
    exact inverse_apply (inverse_comm hinv) (fun r => ∑ s, massWith E W (fun q => rI q / J) r s * z s) k
  have f1 : ∑ k, x k * y k = ∑ q, W q * (xq q * zq q) := by
    simp only [← hy]
    rw [hM]; simp only [mul_one, hxq, hzq]
  have f2 : l * ∑ q, W q * xq q ^ 2 = ∑ q, W q * (rI q / J) * (xq q * zq q) := by
    have := hM (fun q => rI q / J) x z
    simp only [← hx] at this
    rw [hM] at this
    rw [← this, Finset.mul_sum]
    apply Finset.sum_congr rfl; intro q _
    have : ∑ m, E m q * (l * x m) = l * xq q := by
      rw [hxq, Finset.mul_sum]; apply Finset.sum_congr rfl; intro m _; ring
    rw [this]; ring
  have f3 : l * ∑ q, W q * (xq q * zq q) = ∑ q, W q * (rI q / J) * zq q ^ 2 := by
    have := hM (fun q => rI q / J) z z
    simp only [← hx] at this
    rw [hM] at this
    simp only [← sq] at this
    rw [← this, Finset.mul_sum]
    apply Finset.sum_congr rfl; intro q _
    have : ∑ m, E m q * (l * x m) = l * xq q := by
      rw [hxq, Finset.mul_sum]; apply Finset.sum_congr rfl; intro m _; ring
    rw [this]; ring
  set A := ∑ q, W q * xq q ^ 2 with hA
  set B := ∑ q, W q * (xq q * zq q) with hB
  set cm := ir1 / J with hcm
  have hcm0 : 0 < cm := div_pos hir hJ
  -- twice the product is at most the sum of the squares
  have f4 : ∑ q, W q * (rI q / J) * (xq q * zq q) ≤ ∑ q, (l / 2 * (W q * xq q ^ 2) + cm / (2 * l) * (W q * (rI q / J) * zq q ^ 2)) := by
    apply Finset.sum_le_sum; intro q _
    have hc0 : 0 ≤ rI q / J := div_nonneg (h0 q) hJ.le
    have hc1 : rI q / J ≤ cm := div_le_div_of_nonneg_right (h1 q) hJ.le
    have a1 : (rI q / J) * (xq q * zq q) ≤ (rI q / J) * (l / (2 * cm) * xq q ^ 2 + cm / (2 * l) * zq q ^ 2) := by
      apply mul_le_mul_of_nonneg_left _ hc0
      have : 0 ≤ (l * xq q - cm * zq q) ^ 2 / (2 * l * cm) := by positivity
      have e : (l * xq q - cm * zq q) ^ 2 / (2 * l * cm) = l / (2 * cm) * xq q ^ 2 + cm / (2 * l) * zq q ^ 2 - xq q * zq q := by
        field_simp
        ring
      linarith
    have a2 : (rI q / J) * (l / (2 * cm) * xq q ^ 2) ≤ l / 2 * xq q ^ 2 := by
      calc _ ≤ cm * (l / (2 * cm) * xq q ^ 2) := mul_le_mul_of_nonneg_right hc1 (by positivity)
        _ = _ := by field_simp
    have a3 : (rI q / J) * (xq q * zq q) ≤ l / 2 * xq q ^ 2 + cm / (2 * l) * ((rI q / J) * zq q ^ 2) := by linarith
    have := mul_le_mul_of_nonneg_left a3 (hW q)
    linarith
  rw [← f2, Finset.sum_add_distrib, ← Finset.mul_sum, ← Finset.mul_sum, ← f3] at f4
  have f5 : cm / (2 * l) * (l * B) = cm / 2 * B := by field_simp
  rw [f5] at f4
  have f6 : l * A ≤ cm * B := by linarith
  rw [f1]
  have f7 : l * ∑ q, J * W q * (∑ m, E m q * x m) ^ 2 = J * (l * A) := by
    rw [hA, Finset.mul_sum, Finset.mul_sum, Finset.mul_sum]
    apply Finset.sum_congr rfl; intro q _
    simp only [hxq]; ring
  rw [f7]
  calc J * (l * A) ≤ J * (cm * B) := mul_le_mul_of_nonneg_left f6 hJ.le
    _ = _ := by rw [hcm]; field_simp

theorem own_elem (hd : IsDistributed P dim elems num fnum tag views) {r : Nat} (hr : r < P) {u : Nat} (hu : u < (elems r).length) :
    ∃ e, (views r).elems[u]? = some e ∧ InElems P elems e := by
  have hv := hd.view r hr
  have hle := hv.ownFirst.length_eq
  rw [List.length_take] at hle
  have hlt : u < (views r).elems.length := by omega
  exact ⟨_, List.getElem?_eq_getElem hlt, mem_inElems hv (List.getElem?_eq_getElem hlt)⟩

theorem elem_own (hd : IsDistributed P dim elems num fnum tag views) {e : List Nat} (he : InElems P elems e) :
    ∃ r u, r < P ∧ u < (elems r).length ∧ (views r).elems[u]? = some e := by
  obtain ⟨r, hr, he⟩ := he
  have hv := hd.view r hr
  have hmem := hv.ownFirst.mem_iff.2 he
  obtain ⟨u, hu⟩ := List.mem_iff_getElem?.1 hmem
  rw [List.getElem?_take] at hu
  split at hu
  · rename_i h; exact ⟨r, u, hr, h, hu⟩
  · cases hu

/-- **C97 (spectrum)**: if the operator of the wave equation (C81) without data takes a displacement that is not zero to minus `l` times
itself, then on some element `l` is at most the bound of the inverse density times twice the sum of the penalty part and the
energy part.  For all meshes, partitions, materials and densities. -/
theorem C97_spectrum (hd : IsDistributed P dim elems num fnum tag views)
    (ref : Ref dim Nbf Nbm Nq nq) (g : Geometry dim Nq nq) (hg : g.Opposite P elems) (lam mu : List Nat → Fin Nbm → ℝ)
    (pen : List Nat → ℝ) (o : Nat → Op dim Nbf Nbm Nq nq) (ho : ∀ r, r < P → Samples (views r) (o r) .IP ref g lam mu pen)
    (N p : Nat) (C_N : ℝ) (hCN : 0 ≤ C_N) (areaR volumeR : Nat → Nat → ℝ) (area volume : List Nat → ℝ)
    (hmeas : ∀ r, r < P → Measures (views r) (areaR r) (volumeR r) area volume)
    (hpen : ∀ r, r < P → ∀ i info, i < (views r).numLocalFacets → facetInfo (views r) i = some info →
      (o r).penalty_ i = preparePenalty dim N (areaR r) (volumeR r) (o r).lam (o r).mu i info)
    (hc : Coercive P dim N elems ref g lam mu area volume) (hb : Bounded P dim p C_N elems ref g lam mu area volume)
    (hJ : ∀ e, InElems P elems e → ∃ J, 0 < J ∧ ∀ q, g.absDetJ e q = J)
    (rhoInv : List Nat → Fin Nbm → ℝ) (hrho : ∀ r, r < P → ∀ (u : Nat) (e : List Nat), (views r).elems[u]? = some e → (o r).rhoInv u = rhoInv e)
    (hr0 : ∀ e, InElems P elems e → ∀ q, 0 ≤ kCoefq ref.matE_Q_T (rhoInv e) q)
    (hr1 : ∀ e, InElems P elems e → ∀ q, kCoefq ref.matE_Q_T (rhoInv e) q ≤ inverseDensityUpperBound (rhoInv e))
    (hr2 : ∀ e, InElems P elems e → 0 < inverseDensityUpperBound (rhoInv e))
    (hinv : IsInverse ref.MinvRef (massWith ref.E_Q ref.W (fun _ => 1)))
    (blocks : Nat → List (Nat × Nat × (Fin Nbf → Fin dim → Fin Nbf → Fin dim → ℝ)))
    (hbl : ∀ r, r < P → assemble (views r) (o r).localOp = some (blocks r))
    (X : List Nat → Fin Nbf → Fin dim → ℝ) (hX : ∃ e, InElems P elems e ∧ X e ≠ 0) (l : ℝ)
    (heig : ∀ r, r < P → ∀ u, u < (elems r).length → ∀ k c,
      - ∑ m, weightAdjusted ref.MinvRef ref.E_Q ref.W (fun q => (o r).rhoInvQ u q / (o r).J_Q u q) k m *
        rowApply mulVec (blocks r) (fun j => X ((views r).elems.getD j [])) u m c = - (l * X ((views r).elems.getD u []) k c)) :
    ∃ e, InElems P elems e ∧ l ≤ inverseDensityUpperBound (rhoInv e) *
      (2 * (penaltyPart P dim p elems pen area volume e + energyPart dim C_N lam mu area volume e)) := by
  classical
  by_contra hno
  push Not at hno
  set L : List Nat → ℝ := fun e => 2 * (penaltyPart P dim p elems pen area volume e + energyPart dim C_N lam mu area volume e) with hL
  have hpos := pen_nonneg hd ref g lam mu pen o ho N areaR volumeR area volume hmeas hpen hc
  have hfac : ∀ e, InElems P elems e → ∀ f, f ∈ Ghosts.facets dim e ↔ IsFacet e f := by
    rintro e ⟨s, hs, h⟩
    exact (Ghosts.facets_spec dim hd.mesh.dim e (hd.mesh.size s hs e h) (hd.mesh.sorted s hs e h)).2
  have hL0 : ∀ e, InElems P elems e → 0 ≤ L e := by
    intro e he
    have h1 : 0 ≤ penaltyPart P dim p elems pen area volume e := by
      unfold penaltyPart
      apply List.sum_nonneg
      intro x hx
      obtain ⟨f, hf, rfl⟩ := List.mem_map.1 hx
      have hf := (hfac e he f).1 hf
      have a1 := hpos e f he hf
      have a2 := hc.areaPos e f he hf
      have a3 := hc.volumePos e he
      have a4 : 0 ≤ sides P elems e f := by unfold sides; split <;> norm_num
      have a5 : 0 ≤ traceConstant dim p := by unfold traceConstant; positivity
      positivity
    have h2 : 0 ≤ energyPart dim C_N lam mu area volume e := by
      unfold energyPart
      have := hc.upperPos e he
      positivity
    simp only [hL]; linarith
  obtain ⟨e0, he0, hX0⟩ := hX
  have hl : 0 < l := lt_of_le_of_lt (mul_nonneg (hr2 e0 he0).le (hL0 e0 he0)) (hno e0 he0)
  obtain ⟨blocks', hb1, hb2⟩ := C97_form hd ref g hg lam mu pen o ho N p C_N areaR volumeR area volume hmeas hpen hc hb X
  have hbe : ∀ r, r < P → blocks' r = blocks r := fun r hr => Option.some.inj ((hb1 r hr).symm.trans (hbl r hr))
  -- one element
  have hone : ∀ r ∈ Finset.range P, ∀ u ∈ Finset.range (elems r).length,
      l / inverseDensityUpperBound (rhoInv ((views r).elems.getD u [])) * norm2 ref g ((views r).elems.getD u []) (X ((views r).elems.getD u [])) ≤
      ∑ k, ∑ c, X ((views r).elems.getD u []) k c * rowApply mulVec (blocks' r) (fun j => X ((views r).elems.getD j [])) u k c := by
    intro r hr u hu
    rw [Finset.mem_range] at hr hu
    obtain ⟨e, hue, he⟩ := own_elem hd hr hu
    have hget : (views r).elems.getD u [] = e := by rw [List.getD_eq_getElem?_getD, hue]; rfl
    obtain ⟨J, hJ0, hJ1⟩ := hJ e he
    have hi := hr2 e he
    rw [hget, div_mul_eq_mul_div, div_le_iff₀ hi, hbe r hr]
    have hw := fun c => elem_weight ref.MinvRef ref.E_Q ref.W (kCoefq ref.matE_Q_T (rhoInv e)) J (inverseDensityUpperBound (rhoInv e)) l hinv hc.W hJ0
      (hr0 e he) (hr1 e he) hi hl (fun k => X e k c) (fun k => rowApply mulVec (blocks r) (fun j => X ((views r).elems.getD j [])) u k c) (by
        intro k
        have := heig r hr u hu k c
        rw [hget, neg_inj] at this
        rw [← this]
        have hw' : (fun q => (o r).rhoInvQ u q / (o r).J_Q u q) = fun q => kCoefq ref.matE_Q_T (rhoInv e) q / J := by
          funext q
          rw [(ho r hr).J_Q u e hue, hJ1]
          unfold Op.rhoInvQ kCoefq
          rw [hrho r hr u e hue, (ho r hr).ref]
        rw [hw'])
    have hsum := Finset.sum_le_sum (s := Finset.univ) (fun c _ => hw c)
    rw [← Finset.mul_sum, ← Finset.mul_sum] at hsum
    have e1 : ∑ c, ∑ q, J * ref.W q * (∑ m, ref.E_Q m q * X e m c) ^ 2 = norm2 ref g e (X e) := by
      unfold norm2
      rw [Finset.sum_comm]
      apply Finset.sum_congr rfl; intro q _
      rw [hJ1, Finset.mul_sum]; rfl
    rw [e1, Finset.sum_comm] at hsum
    linarith
  have hnn : ∀ e, InElems P elems e → ∀ v, 0 ≤ norm2 ref g e v := by
    intro e he v
    unfold norm2
    exact Finset.sum_nonneg fun q _ => mul_nonneg (mul_nonneg (hc.detJ e he q) (hc.W q)) (Finset.sum_nonneg fun c _ => sq_nonneg _)
  have htot := (Finset.sum_le_sum fun r hr => Finset.sum_le_sum fun u hu => hone r hr u hu).trans hb2
  rw [sum_ranks hd (fun e => l / inverseDensityUpperBound (rhoInv e) * norm2 ref g e (X e)), sum_ranks hd (fun e => L e * norm2 ref g e (X e))] at htot
  have hlt : ∑ e ∈ allElems P elems, L e * norm2 ref g e (X e) < ∑ e ∈ allElems P elems, l / inverseDensityUpperBound (rhoInv e) * norm2 ref g e (X e) := by
    have hgt : ∀ e, InElems P elems e → L e < l / inverseDensityUpperBound (rhoInv e) := by
      intro e he
      rw [lt_div_iff₀ (hr2 e he), mul_comm]
      exact hno e he
    apply Finset.sum_lt_sum
    · intro e he
      have he := (mem_all e).1 he
      exact mul_le_mul_of_nonneg_right (hgt e he).le (hnn e he _)
    · refine ⟨e0, (mem_all e0).2 he0, mul_lt_mul_of_pos_right (hgt e0 he0) ?_⟩
      rcases (hnn e0 he0 (X e0)).lt_or_eq with h | h
      · exact h
      · exfalso
        apply hX0
        obtain ⟨J, hJ0, hJ1⟩ := hJ e0 he0
        have hq : ∀ q, ref.W q * ∑ c, val ref.E_Q (X e0) c q ^ 2 = 0 := by
          intro q
          have hz := (Finset.sum_eq_zero_iff_of_nonneg (fun q _ => mul_nonneg (mul_nonneg (hc.detJ e0 he0 q) (hc.W q))
            (Finset.sum_nonneg fun c _ => sq_nonneg (val ref.E_Q (X e0) c q)))).1 h.symm q (Finset.mem_univ q)
          rw [hJ1, mul_assoc] at hz
          exact (mul_eq_zero.1 hz).resolve_left hJ0.ne'
        have hv : ∀ q c, ref.W q * val ref.E_Q (X e0) c q = 0 := by
          intro q c
          rcases mul_eq_zero.1 (hq q) with h | h
          · rw [h, zero_mul]
          · have := (Finset.sum_eq_zero_iff_of_nonneg (fun c _ => sq_nonneg (val ref.E_Q (X e0) c q))).1 h c (Finset.mem_univ c)
            rw [pow_eq_zero_iff two_ne_zero] at this
            rw [this, mul_zero]
        funext k c
        have hi := inverse_apply hinv (fun m => X e0 m c) k
        rw [← hi]
        have hm : ∀ m, ∑ n, massWith ref.E_Q ref.W (fun _ => 1) m n * X e0 n c = 0 := by
          intro m
          have : ∑ n, massWith ref.E_Q ref.W (fun _ => 1) m n * X e0 n c = ∑ q, ref.E_Q m q * (ref.W q * val ref.E_Q (X e0) c q) := by
            unfold massWith val
            simp only [Finset.sum_mul, Finset.mul_sum]
            rw [Finset.sum_comm]
            apply Finset.sum_congr rfl; intro q _
            apply Finset.sum_congr rfl; intro n _; ring
          rw [this]
          simp [hv]
        simp [hm]
  linarith

theorem fold_facets (c : ℝ) (area volume penalty : Nat → ℝ) (u : Nat) (l : List SideInfo) (a b : ℝ) :
    l.foldl (cflFacet c area volume penalty u) (a, b) =
      (a + (l.map (fun i => (if u ≠ i.lid then 2 else 1) * penalty i.fctNo * c * area i.fctNo / volume u)).sum,
       b + (l.map (fun i => area i.fctNo)).sum) := by
  induction l generalizing a b with
  | nil => simp
  | cons i l ih =>
    rw [List.foldl_cons]
    unfold cflFacet at ih ⊢
    rw [ih]
    simp only [List.map_cons, List.sum_cons, Prod.mk.injEq]
    constructor
    · by_cases h : u = i.lid <;> simp [h] <;> ring
    · ring

theorem mapM_all {A B : Type} (l : List A) (F : A → Option B) (G : A → B) (h : ∀ a ∈ l, F a = some (G a)) : l.mapM F = some (l.map G) := by
  induction l with
  | nil => simp
  | cons a l ih =>
    rw [List.mapM_cons, h a (by simp), ih (fun b hb => h b (by simp [hb]))]
    rfl

/-- What `prepare_cfl` computes for all own elements: one over the root of twice the sum of the penalty part and the energy part,
where only the energy part has the factor of the inverse density. -/
theorem C97_prepare (hd : IsDistributed P dim elems num fnum tag views) (r : Nat) (hr : r < P)
    (ref : Ref dim Nbf Nbm Nq nq) (g : Geometry dim Nq nq) (lam mu : List Nat → Fin Nbm → ℝ)
    (pen : List Nat → ℝ) (o : Op dim Nbf Nbm Nq nq) (ho : Samples (views r) o .IP ref g lam mu pen)
    (p : Nat) (C_N : ℝ) (areaR volumeR : Nat → ℝ) (area volume : List Nat → ℝ) (hmeas : Measures (views r) areaR volumeR area volume)
    (rhoInv : List Nat → Fin Nbm → ℝ) (hrho : ∀ (u : Nat) (e : List Nat), (views r).elems[u]? = some e → o.rhoInv u = rhoInv e) :
    prepareCfl (views r) p C_N areaR volumeR o = some ((List.range (elems r).length).map (fun u =>
      1 / √(2 * (penaltyPart P dim p elems pen area volume ((views r).elems.getD u []) +
        inverseDensityUpperBound (rhoInv ((views r).elems.getD u [])) * energyPart dim C_N lam mu area volume ((views r).elems.getD u []))))) := by
  classical
  have hv := hd.view r hr
  obtain ⟨tbl, ht, htl, hrow⟩ := C33_neighbours hd r hr
  unfold prepareCfl
  rw [ht, hv.numLocal]
  refine mapM_all _ _ _ ?_
  intro u hu
  rw [List.mem_range] at hu
  obtain ⟨e, hue, he⟩ := own_elem hd hr hu
  have hget : (views r).elems.getD u [] = e := by rw [List.getD_eq_getElem?_getD, hue]; rfl
  obtain ⟨row, ds, h1, h2, h3, h4⟩ := hrow u e hu hue
  obtain ⟨ds', k1, k2, k3, k4⟩ := hv.down u e hue
  obtain rfl : ds = ds' := Option.some.inj (h3.symm.trans k1)
  have hall : ∀ x ∈ row, ∃ s, x = some s := by
    intro x hx
    obtain ⟨l, hl⟩ := List.mem_iff_getElem?.1 hx
    have hlt : l < dim + 1 := by rw [← h2]; exact (List.getElem?_eq_some_iff.1 hl).1
    obtain ⟨s, f, e', info, g1, _⟩ := h4 l hlt
    exact ⟨s, Option.some.inj (hl.symm.trans g1)⟩
  let infos : List SideInfo := row.map (fun x => x.getD ⟨0, 0, 0, 0, 0⟩)
  have hinfos : row.mapM id = some infos := by
    refine mapM_all row id _ ?_
    intro x hx
    obtain ⟨s, rfl⟩ := hall x hx
    rfl
  have hget' : ∀ l, l < dim + 1 → ∃ s f e', infos[l]? = some s ∧ ds[l]? = some s.fctNo ∧ (views r).facets[s.fctNo]? = some f ∧ IsFacet e f ∧
      (views r).elems[s.lid]? = some e' ∧ IsFacet e' f ∧ (∀ e'', InElems P elems e'' → IsFacet e'' f → e'' = e ∨ e'' = e') ∧ s.fctNo < (views r).numLocalFacets := by
    intro l hl
    obtain ⟨s, f, e', info, g1, g2, g3, g4, g5, g6, g7, _⟩ := h4 l hl
    refine ⟨s, f, e', by simp only [infos, List.getElem?_map, g1]; rfl, g2, g3, g4, g5, g6, g7, ?_⟩
    refine (hv.localFacets _ f g3).2 ⟨e, ?_, g4⟩
    apply hv.ownFirst.mem_iff.1
    refine List.mem_iff_getElem?.2 ⟨u, ?_⟩
    rw [List.getElem?_take, if_pos hu]; exact hue
  have hilen : infos.length = dim + 1 := by simp only [infos, List.length_map]; exact h2
  clear_value infos
  have hds : infos.map (·.fctNo) = ds := by
    apply List.ext_getElem?
    intro l
    by_cases hl : l < dim + 1
    · obtain ⟨s, f, e', g1, g2, _⟩ := hget' l hl
      rw [List.getElem?_map, g1, g2]; rfl
    · rw [List.getElem?_eq_none (by rw [List.length_map, hilen]; omega), List.getElem?_eq_none (by omega)]
  have hfs := Ghosts.facets_spec dim hd.mesh.dim e
  obtain ⟨hF1, hF2⟩ : (Ghosts.facets dim e).Nodup ∧ ∀ f, f ∈ Ghosts.facets dim e ↔ IsFacet e f := by
    obtain ⟨s, hs, h⟩ := he
    exact hfs (hd.mesh.size s hs e h) (hd.mesh.sorted s hs e h)
  set fac : Nat → List Nat := fun i => (views r).facets.getD i [] with hfac
  have hperm : (infos.map (fun s => fac s.fctNo)).Perm (Ghosts.facets dim e) := by
    have hmap : infos.map (fun s => fac s.fctNo) = ds.map fac := by rw [← hds, List.map_map]; rfl
    rw [hmap]
    apply (List.perm_ext_iff_of_nodup ?_ hF1).2
    · intro f
      rw [hF2, List.mem_map]
      constructor
      · rintro ⟨i, hi, rfl⟩
        obtain ⟨f, hf1, hf2⟩ := (k4 i).1 hi
        simp only [hfac, List.getD_eq_getElem?_getD, hf1]; exact hf2
      · intro hf
        have hmem : f ∈ (views r).facets := (hv.facetsExactly f).2 ⟨e, List.mem_iff_getElem?.2 ⟨u, hue⟩, hf⟩
        obtain ⟨i, hi⟩ := List.mem_iff_getElem?.1 hmem
        exact ⟨i, (k4 i).2 ⟨f, hi, hf⟩, by simp only [hfac, List.getD_eq_getElem?_getD, hi]; rfl⟩
    · refine List.Nodup.map_on ?_ k3
      intro i hi j hj hij
      obtain ⟨f, hf1, _⟩ := (k4 i).1 hi
      obtain ⟨f', hf1', _⟩ := (k4 j).1 hj
      simp only [hfac, List.getD_eq_getElem?_getD, hf1, hf1', Option.getD_some] at hij
      subst hij
      exact get_inj hv.facetsOnce hf1 hf1'
  have hm1 : (infos.map (fun i => areaR i.fctNo)).sum = ((Ghosts.facets dim e).map area).sum := by
    rw [← (hperm.map area).sum_eq, List.map_map]
    congr 1
    apply List.map_congr_left
    intro s hs
    obtain ⟨l, hl⟩ := List.mem_iff_getElem?.1 hs
    obtain ⟨s', f, e', g1, g2, g3, g4, g5, g6, g7, g8⟩ := hget' l (by rw [← hilen]; exact (List.getElem?_eq_some_iff.1 hl).1)
    obtain rfl := Option.some.inj (hl.symm.trans g1)
    rw [hmeas.area _ f g3 g8]
    simp only [Function.comp, hfac, List.getD_eq_getElem?_getD, g3, Option.getD_some]
  have hm2 : (infos.map (fun i => (if u ≠ i.lid then 2 else 1) * o.penalty_ i.fctNo * traceConstant dim p * areaR i.fctNo / volumeR u)).sum =
      penaltyPart P dim p elems pen area volume e := by
    unfold penaltyPart
    rw [← (hperm.map _).sum_eq, List.map_map]
    congr 1
    apply List.map_congr_left
    intro s hs
    obtain ⟨l, hl⟩ := List.mem_iff_getElem?.1 hs
    obtain ⟨s', f, e', g1, g2, g3, g4, g5, g6, g7, g8⟩ := hget' l (by rw [← hilen]; exact (List.getElem?_eq_some_iff.1 hl).1)
    obtain rfl := Option.some.inj (hl.symm.trans g1)
    have hf : fac s.fctNo = f := by simp only [hfac, List.getD_eq_getElem?_getD, g3, Option.getD_some]
    simp only [Function.comp, hf]
    rw [hmeas.area _ f g3 g8, hmeas.volume _ e hue, ho.penalty_ _ f g3 g8]
    have hs : sides P elems e f = if u ≠ s.lid then 2 else 1 := by
      unfold sides
      by_cases hlid : u = s.lid
      · rw [if_neg (c := u ≠ s.lid) (by simpa using hlid), if_neg]
        rintro ⟨a, ha, hne, hfa⟩
        have : e = e' := by rw [hlid] at hue; exact Option.some.inj (hue.symm.trans g5)
        rcases g7 a ha hfa with h | h
        · exact hne h
        · exact hne (h.trans this.symm)
      · rw [if_pos (c := u ≠ s.lid) hlid, if_pos]
        refine ⟨e', mem_inElems hv g5, ?_, g6⟩
        rintro rfl
        exact hlid (get_inj hv.once hue g5)
    rw [hs]; ring
  have hl1 : tbl[u]? = some row := h1
  simp only [hl1, hinfos, Option.bind_eq_bind, Option.bind_some, hget]
  change some _ = some _
  congr 1
  unfold cflDt lMax
  rw [fold_facets]
  simp only [zero_add]
  rw [hm1, hm2, ho.lam u e hue, ho.mu u e hue, hrho u e hue, hmeas.volume _ e hue]
  congr 2
  unfold energyPart stiffnessBounds
  ring

theorem foldl_min_le (l : List ℝ) (a : ℝ) : l.foldl min a ≤ a ∧ ∀ x ∈ l, l.foldl min a ≤ x := by
  induction l generalizing a with
  | nil => simp
  | cons b l ih =>
    rw [List.foldl_cons]
    obtain ⟨h1, h2⟩ := ih (min a b)
    refine ⟨h1.trans (min_le_left _ _), ?_⟩
    intro x hx
    rcases List.mem_cons.1 hx with rfl | hx
    · exact h1.trans (min_le_right _ _)
    · exact h2 x hx

theorem foldl_min_mem (l : List ℝ) (a : ℝ) : l.foldl min a = a ∨ l.foldl min a ∈ l := by
  induction l generalizing a with
  | nil => simp
  | cons b l ih =>
    rw [List.foldl_cons]
    rcases ih (min a b) with h | h
    · rw [h]
      rcases min_choice a b with h' | h'
      · exact Or.inl h'
      · right; rw [h']; simp
    · right; exact List.mem_cons_of_mem _ h

/-- **C97 (time step)**: the time step the code computes, the least over all elements of all ranks, and every nonnegative one below it: if
the density is at least one, then for every eigenvalue `l` of the wave operator `l dt² ≤ 1`. -/
theorem C97_step (hd : IsDistributed P dim elems num fnum tag views)
    (ref : Ref dim Nbf Nbm Nq nq) (g : Geometry dim Nq nq) (hg : g.Opposite P elems) (lam mu : List Nat → Fin Nbm → ℝ)
    (pen : List Nat → ℝ) (o : Nat → Op dim Nbf Nbm Nq nq) (ho : ∀ r, r < P → Samples (views r) (o r) .IP ref g lam mu pen)
    (N p : Nat) (C_N : ℝ) (hCN : 0 ≤ C_N) (areaR volumeR : Nat → Nat → ℝ) (area volume : List Nat → ℝ)
    (hmeas : ∀ r, r < P → Measures (views r) (areaR r) (volumeR r) area volume)
    (hpen : ∀ r, r < P → ∀ i info, i < (views r).numLocalFacets → facetInfo (views r) i = some info →
      (o r).penalty_ i = preparePenalty dim N (areaR r) (volumeR r) (o r).lam (o r).mu i info)
    (hc : Coercive P dim N elems ref g lam mu area volume) (hb : Bounded P dim p C_N elems ref g lam mu area volume)
    (hJ : ∀ e, InElems P elems e → ∃ J, 0 < J ∧ ∀ q, g.absDetJ e q = J)
    (rhoInv : List Nat → Fin Nbm → ℝ) (hrho : ∀ r, r < P → ∀ (u : Nat) (e : List Nat), (views r).elems[u]? = some e → (o r).rhoInv u = rhoInv e)
    (hr0 : ∀ e, InElems P elems e → ∀ q, 0 ≤ kCoefq ref.matE_Q_T (rhoInv e) q)
    (hr1 : ∀ e, InElems P elems e → ∀ q, kCoefq ref.matE_Q_T (rhoInv e) q ≤ inverseDensityUpperBound (rhoInv e))
    (hr2 : ∀ e, InElems P elems e → 0 < inverseDensityUpperBound (rhoInv e))
    (hr3 : ∀ e, InElems P elems e → inverseDensityUpperBound (rhoInv e) ≤ 1)
    (hinv : IsInverse ref.MinvRef (massWith ref.E_Q ref.W (fun _ => 1)))
    (dmax : ℝ) (dts : Nat → List ℝ) (hdts : ∀ r, r < P → prepareCfl (views r) p C_N (areaR r) (volumeR r) (o r) = some (dts r))
    (dt : ℝ) (hdt : globalStep ((List.range P).map (fun r => localStep dmax (dts r))) = some dt)
    (blocks : Nat → List (Nat × Nat × (Fin Nbf → Fin dim → Fin Nbf → Fin dim → ℝ)))
    (hbl : ∀ r, r < P → assemble (views r) (o r).localOp = some (blocks r))
    (X : List Nat → Fin Nbf → Fin dim → ℝ) (hX : ∃ e, InElems P elems e ∧ X e ≠ 0) (l : ℝ)
    (heig : ∀ r, r < P → ∀ u, u < (elems r).length → ∀ k c,
      - ∑ m, weightAdjusted ref.MinvRef ref.E_Q ref.W (fun q => (o r).rhoInvQ u q / (o r).J_Q u q) k m *
        rowApply mulVec (blocks r) (fun j => X ((views r).elems.getD j [])) u m c = - (l * X ((views r).elems.getD u []) k c)) :
    ∀ t, 0 ≤ t → t ≤ dt → l * t ^ 2 ≤ 1 := by
  intro t ht0 ht
  obtain ⟨e, he, hle⟩ := C97_spectrum hd ref g hg lam mu pen o ho N p C_N hCN areaR volumeR area volume hmeas hpen hc hb hJ rhoInv hrho hr0 hr1 hr2 hinv
    blocks hbl X hX l heig
  obtain ⟨r, u, hr, hu, hue⟩ := elem_own hd he
  have hget : (views r).elems.getD u [] = e := by rw [List.getD_eq_getElem?_getD, hue]; rfl
  have hpos := pen_nonneg hd ref g lam mu pen o ho N areaR volumeR area volume hmeas hpen hc
  have hpp : 0 ≤ penaltyPart P dim p elems pen area volume e := by
    unfold penaltyPart
    apply List.sum_nonneg
    intro x hx
    obtain ⟨f, hf, rfl⟩ := List.mem_map.1 hx
    have hf : IsFacet e f := by
      obtain ⟨s, hs, h⟩ := he
      exact ((Ghosts.facets_spec dim hd.mesh.dim e (hd.mesh.size s hs e h) (hd.mesh.sorted s hs e h)).2 f).1 hf
    have a1 := hpos e f he hf
    have a2 := hc.areaPos e f he hf
    have a3 := hc.volumePos e he
    have a4 : 0 ≤ sides P elems e f := by unfold sides; split <;> norm_num
    have a5 : 0 ≤ traceConstant dim p := by unfold traceConstant; positivity
    positivity
  -- the local step is at most the step of this element
  set K := 2 * (penaltyPart P dim p elems pen area volume e + inverseDensityUpperBound (rhoInv e) * energyPart dim C_N lam mu area volume e) with hK
  have hKe : dt ≤ 1 / √K := by
    have h1 : dt ≤ localStep dmax (dts r) := by
      cases hlist : (List.range P).map (fun r => localStep dmax (dts r)) with
      | nil => rw [hlist] at hdt; cases hdt
      | cons d ds =>
        rw [hlist] at hdt
        obtain rfl := Option.some.inj hdt
        have hmem : localStep dmax (dts r) ∈ d :: ds := by
          rw [← hlist]; exact List.mem_map.2 ⟨r, List.mem_range.2 hr, rfl⟩
        obtain ⟨f1, f2⟩ := foldl_min_le ds d
        rcases List.mem_cons.1 hmem with h | h
        · rw [h]; exact f1
        · exact f2 _ h
    refine h1.trans ((foldl_min_le (dts r) dmax).2 _ ?_)
    have := hdts r hr
    rw [C97_prepare hd r hr ref g lam mu pen (o r) (ho r hr) p C_N (areaR r) (volumeR r) area volume (hmeas r hr) rhoInv (hrho r hr)] at this
    rw [← Option.some.inj this]
    exact List.mem_map.2 ⟨u, List.mem_range.2 hu, by rw [hget]⟩
  have hlK : l ≤ K := by
    refine hle.trans ?_
    have h3 := hr3 e he
    have := mul_le_mul_of_nonneg_right h3 hpp
    rw [hK]; linarith
  by_cases hl : l ≤ 0
  · nlinarith [sq_nonneg t]
  push Not at hl
  have hK0 : 0 < K := hl.trans_le hlK
  have hs : 0 < √K := Real.sqrt_pos.2 hK0
  have h1 : t * √K ≤ 1 := by
    rw [← le_div_iff₀ hs]; exact ht.trans hKe
  have h2 : (t * √K) ^ 2 ≤ 1 := by
    have := mul_nonneg ht0 hs.le
    nlinarith
  rw [mul_pow, Real.sq_sqrt hK0.le] at h2
  nlinarith [sq_nonneg t]

/-- **C97 (units)**: the part of the penalty lacks the inverse density.  In a unit of mass that is `a` times smaller all moduli, the
penalties and the density are `a` times greater and the wave operator is the same, but the penalty part of the bound is
`a` times greater: the time step depends on the unit of mass. -/
theorem C97_units (dim p : Nat) (C_N : ℝ) (area volume penalty : Nat → ℝ) (lam mu rhoInv : Fin Nbm → ℝ) (u : Nat) (info : List SideInfo) (a : ℝ) (ha : 0 < a) :
    lMax dim p C_N area volume (fun f => a * penalty f) (fun t => a * lam t) (fun t => a * mu t) (fun t => rhoInv t / a) u info =
      lMax dim p C_N area volume penalty lam mu rhoInv u info +
        (a - 1) * (2 * (info.map (fun i => (if u ≠ i.lid then 2 else 1) * penalty i.fctNo * traceConstant dim p * area i.fctNo / volume u)).sum) := by
  have h1 : (⨆ t, (dim * (a * lam t) + 2 * (a * mu t))) = a * ⨆ t, (dim * lam t + 2 * mu t) := by
    rw [Real.mul_iSup_of_nonneg ha.le]
    congr 1; funext t; ring
  have h2 : (⨆ t, rhoInv t / a) = (⨆ t, rhoInv t) / a := by
    rw [div_eq_inv_mul, Real.mul_iSup_of_nonneg (inv_nonneg.2 ha.le)]
    congr 1; funext t; rw [div_eq_inv_mul]
  have h3 : (info.map (fun i => (if u ≠ i.lid then 2 else 1) * (a * penalty i.fctNo) * traceConstant dim p * area i.fctNo / volume u)).sum =
      a * (info.map (fun i => (if u ≠ i.lid then 2 else 1) * penalty i.fctNo * traceConstant dim p * area i.fctNo / volume u)).sum := by
    rw [← List.sum_map_mul_left]
    congr 1
    refine List.map_congr_left fun i _ => by ring
  unfold lMax stiffnessBounds inverseDensityUpperBound
  simp only [fold_facets, zero_add, h1, h2, h3]
  have : a ≠ 0 := ha.ne'
  generalize (info.map (fun i => (if u ≠ i.lid then 2 else 1) * penalty i.fctNo * traceConstant dim p * area i.fctNo / volume u)).sum = S
  generalize (⨆ t, (dim * lam t + 2 * mu t)) = K
  generalize (⨆ t, rhoInv t) = R
  have e : a * K * (R / a) = K * R := by field_simp
  rw [e]; ring

/-- A facet with penalty 3: the bound grows. -/
example : lMax 2 1 6 (fun _ => 1) (fun _ => 1) (fun _ => 2 * 3) (fun _ : Fin 1 => 2 * 1) (fun _ => 2 * 1) (fun _ => 1 / 2) 0 [⟨0, 0, 1, 0, 0⟩] ≠
    lMax 2 1 6 (fun _ => 1) (fun _ => 1) (fun _ => 3) (fun _ : Fin 1 => 1) (fun _ => 1) (fun _ => 1) 0 [⟨0, 0, 1, 0, 0⟩] := by
  have := C97_units 2 1 6 (fun _ => 1) (fun _ => 1) (fun _ => 3) (fun _ : Fin 1 => 1) (fun _ => 1) (fun _ => 1) 0 [⟨0, 0, 1, 0, 0⟩] 2 (by norm_num)
  rw [this]
  simp [traceConstant]; norm_num

end Tandem.Cfl
