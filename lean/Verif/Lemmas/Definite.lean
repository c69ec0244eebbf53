import Verif.Lemmas.GlobalForm
import Verif.Props.PoissonPSD
/-! # When the quadratic form of a global matrix vanishes (C102) -/
namespace Tandem.DGAssembly
open Tandem.Spec Tandem.DGTopo

variable {P D : Nat} {elems : Nat → List (List Nat)}

/-- If the terms of both sides of each facet together are not negative and the sum over elements and facets vanishes, all of them vanish. -/
theorem pair_zero (hm : Mesh P D elems) (G : List Nat → List Nat → ℝ)
    (hin : ∀ f e a, InElems P elems e → InElems P elems a → e ≠ a → IsFacet e f → IsFacet a f → 0 ≤ G e f + G a f)
    (hbd : ∀ f e, InElems P elems e → IsFacet e f → (∀ a, InElems P elems a → IsFacet a f → a = e) → 0 ≤ G e f)
    (hz : ∑ e ∈ allElems P elems, ∑ f ∈ (Ghosts.facets D e).toFinset, G e f ≤ 0) :
    (∀ f e a, InElems P elems e → InElems P elems a → e ≠ a → IsFacet e f → IsFacet a f → G e f + G a f = 0) ∧
    ∀ f e, InElems P elems e → IsFacet e f → (∀ a, InElems P elems a → IsFacet a f → a = e) → G e f = 0 := by
  classical
  have hF : ∀ e, InElems P elems e → (Ghosts.facets D e).Nodup ∧ ∀ f, f ∈ Ghosts.facets D e ↔ IsFacet e f := by
    rintro e ⟨s, hs, h⟩
    exact Ghosts.facets_spec D hm.dim e (hm.size s hs e h) (hm.sorted s hs e h)
  rw [Finset.sum_sigma'] at hz
  set S := (allElems P elems).sigma (fun e => (Ghosts.facets D e).toFinset) with hS
  have hmem : ∀ p : (_ : List Nat) × List Nat, p ∈ S ↔ InElems P elems p.1 ∧ IsFacet p.1 p.2 := by
    intro p
    rw [hS, Finset.mem_sigma, mem_all, List.mem_toFinset]
    constructor
    · rintro ⟨h1, h2⟩; exact ⟨h1, ((hF p.1 h1).2 p.2).1 h2⟩
    · rintro ⟨h1, h2⟩; exact ⟨h1, ((hF p.1 h1).2 p.2).2 h2⟩
  let σ : (_ : List Nat) × List Nat → (_ : List Nat) × List Nat := fun p => ⟨(nbr P elems p.2 p.1).getD p.1, p.2⟩
  have hσ : ∀ p ∈ S, σ p ∈ S ∧ σ (σ p) = p := by
    rintro ⟨e, f⟩ hp
    obtain ⟨h1, h2⟩ := (hmem _).1 hp
    rcases nbr_cases hm h1 h2 with ⟨a, c1, c2, c3, c4⟩ | ⟨c1, c2⟩
    · have e1 : σ ⟨e, f⟩ = ⟨a, f⟩ := by simp only [σ, c4, Option.getD_some]
      rw [e1]
      refine ⟨(hmem _).2 ⟨c1, c3⟩, ?_⟩
      simp only [σ, nbr_some hm c1 c3 h1 (Ne.symm c2) h2, Option.getD_some]
    · have e1 : σ ⟨e, f⟩ = ⟨e, f⟩ := by simp only [σ, c2, Option.getD_none]
      rw [e1, e1]
      exact ⟨hp, rfl⟩
  have hsum : ∑ p ∈ S, G p.1 p.2 = ∑ p ∈ S, G (σ p).1 (σ p).2 := by
    refine Finset.sum_bij' (fun p _ => σ p) (fun p _ => σ p) (fun p hp => (hσ p hp).1) (fun p hp => (hσ p hp).1)
      (fun p hp => (hσ p hp).2) (fun p hp => (hσ p hp).2) (fun p hp => ?_)
    simp only [(hσ p hp).2]
  have hnn : ∀ p ∈ S, 0 ≤ G p.1 p.2 + G (σ p).1 (σ p).2 := by
    rintro ⟨e, f⟩ hp
    obtain ⟨h1, h2⟩ := (hmem _).1 hp
    rcases nbr_cases hm h1 h2 with ⟨a, c1, c2, c3, c4⟩ | ⟨c1, c2⟩
    · simp only [σ, c4, Option.getD_some]
      exact hin f e a h1 c1 (Ne.symm c2) h2 c3
    · simp only [σ, c2, Option.getD_none]
      have := hbd f e h1 h2 c1
      linarith
  have h0 : ∑ p ∈ S, (G p.1 p.2 + G (σ p).1 (σ p).2) = 0 := by
    refine le_antisymm ?_ (Finset.sum_nonneg hnn)
    rw [Finset.sum_add_distrib, ← hsum]
    linarith
  have h3 := (Finset.sum_eq_zero_iff_of_nonneg hnn).1 h0
  refine ⟨fun f e a he ha hne hf hfa => ?_, fun f e he hf honly => ?_⟩
  · have := h3 ⟨e, f⟩ ((hmem _).2 ⟨he, hf⟩)
    simpa only [σ, nbr_some hm he hf ha (Ne.symm hne) hfa, Option.getD_some] using this
  · have := h3 ⟨e, f⟩ ((hmem _).2 ⟨he, hf⟩)
    simp only [σ, nbr_none honly, Option.getD_none] at this
    linarith

/-- If each facet takes at most its share `t` of the volume terms of its elements and the total is not positive, every share is the whole
volume term and every facet takes all of its shares. -/
theorem total_zero (hm : Mesh P D elems) (V : List Nat → ℝ) (T t : List Nat → List Nat → ℝ)
    (hin : ∀ f e a, InElems P elems e → InElems P elems a → e ≠ a → IsFacet e f → IsFacet a f →
      -((t e f + t a f) / (D + 1 : ℝ)) ≤ T e f + T a f)
    (hbd : ∀ f e, InElems P elems e → IsFacet e f → (∀ a, InElems P elems a → IsFacet a f → a = e) →
      -(t e f / (D + 1 : ℝ)) ≤ T e f)
    (ht : ∀ e f, InElems P elems e → IsFacet e f → t e f ≤ V e)
    (hz : ∑ e ∈ allElems P elems, (V e + ((Ghosts.facets D e).map (T e)).sum) ≤ 0) :
    (∀ e f, InElems P elems e → IsFacet e f → t e f = V e) ∧
    (∀ f e a, InElems P elems e → InElems P elems a → e ≠ a → IsFacet e f → IsFacet a f → T e f + T a f = -((V e + V a) / (D + 1 : ℝ))) ∧
    ∀ f e, InElems P elems e → IsFacet e f → (∀ a, InElems P elems a → IsFacet a f → a = e) → T e f = -(V e / (D + 1 : ℝ)) := by
  classical
  have hD : (0 : ℝ) < D + 1 := by positivity
  have hF : ∀ e, InElems P elems e → (Ghosts.facets D e).Nodup ∧ ∀ f, f ∈ Ghosts.facets D e ↔ IsFacet e f := by
    rintro e ⟨s, hs, h⟩
    exact Ghosts.facets_spec D hm.dim e (hm.size s hs e h) (hm.sorted s hs e h)
  have hsplit : ∀ (G : List Nat → List Nat → ℝ), ∑ e ∈ allElems P elems, (V e + ((Ghosts.facets D e).map (T e)).sum) =
      ∑ e ∈ allElems P elems, ∑ f ∈ (Ghosts.facets D e).toFinset, (V e - G e f) / (D + 1 : ℝ) +
        ∑ e ∈ allElems P elems, ∑ f ∈ (Ghosts.facets D e).toFinset, (G e f / (D + 1 : ℝ) + T e f) := fun G => by
    rw [← Finset.sum_add_distrib]
    refine Finset.sum_congr rfl fun e he => ?_
    have heI := (mem_all e).1 he
    rw [← Finset.sum_add_distrib, ← List.sum_toFinset _ (hF e heI).1]
    have : ∀ f, (V e - G e f) / (D + 1 : ℝ) + (G e f / (D + 1 : ℝ) + T e f) = V e / (D + 1 : ℝ) + T e f := fun f => by ring
    simp only [this]
    rw [Finset.sum_add_distrib, Finset.sum_const, List.toFinset_card_of_nodup (hF e heI).1, facets_length hm e heI, nsmul_eq_mul]
    push_cast
    field_simp
  have hpos1 : ∀ e ∈ allElems P elems, ∀ f ∈ (Ghosts.facets D e).toFinset, 0 ≤ (V e - t e f) / (D + 1 : ℝ) := fun e he f hf => by
    have heI := (mem_all e).1 he
    have := ht e f heI (((hF e heI).2 f).1 (List.mem_toFinset.1 hf))
    exact div_nonneg (by linarith) hD.le
  have hi' : ∀ f e a, InElems P elems e → InElems P elems a → e ≠ a → IsFacet e f → IsFacet a f →
      0 ≤ (t e f / (D + 1 : ℝ) + T e f) + (t a f / (D + 1 : ℝ) + T a f) := fun f e a h1 h2 h3 h4 h5 => by
    have := hin f e a h1 h2 h3 h4 h5; rw [add_div] at this; linarith
  have hb' : ∀ f e, InElems P elems e → IsFacet e f → (∀ a, InElems P elems a → IsFacet a f → a = e) → 0 ≤ t e f / (D + 1 : ℝ) + T e f :=
    fun f e h1 h2 h3 => by have := hbd f e h1 h2 h3; linarith
  have hpos2 := pair_nonneg hm (fun e f => t e f / (D + 1 : ℝ) + T e f) hi' hb'
  rw [hsplit t] at hz
  have hn1 : 0 ≤ ∑ e ∈ allElems P elems, ∑ f ∈ (Ghosts.facets D e).toFinset, (V e - t e f) / (D + 1 : ℝ) :=
    Finset.sum_nonneg fun e he => Finset.sum_nonneg (hpos1 e he)
  have hz1 : ∑ e ∈ allElems P elems, ∑ f ∈ (Ghosts.facets D e).toFinset, (V e - t e f) / (D + 1 : ℝ) = 0 := by linarith
  have hz2 : ∑ e ∈ allElems P elems, ∑ f ∈ (Ghosts.facets D e).toFinset, (t e f / (D + 1 : ℝ) + T e f) ≤ 0 := by linarith
  have hEq : ∀ e f, InElems P elems e → IsFacet e f → t e f = V e := fun e f he hf => by
    have h1 := (Finset.sum_eq_zero_iff_of_nonneg fun e he => Finset.sum_nonneg (hpos1 e he)).1 hz1 e ((mem_all e).2 he)
    have h2 := (Finset.sum_eq_zero_iff_of_nonneg (hpos1 e ((mem_all e).2 he))).1 h1 f (List.mem_toFinset.2 (((hF e he).2 f).2 hf))
    rcases div_eq_zero_iff.1 h2 with h | h
    · linarith
    · exact absurd h hD.ne'
  obtain ⟨p1, p2⟩ := pair_zero hm (fun e f => t e f / (D + 1 : ℝ) + T e f) hi' hb' hz2
  refine ⟨hEq, fun f e a h1 h2 h3 h4 h5 => ?_, fun f e h1 h2 h3 => ?_⟩
  · have := p1 f e a h1 h2 h3 h4 h5
    simp only [hEq e f h1 h4, hEq a f h2 h5] at this
    rw [add_div]; linarith
  · have := p2 f e h1 h2 h3
    simp only [hEq e f h1 h2] at this
    linarith

end Tandem.DGAssembly
