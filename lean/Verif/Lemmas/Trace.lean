import Verif.Props.Error
import Verif.Props.WarpAndBlend
import Mathlib.LinearAlgebra.Dimension.Constructions
import Mathlib.Algebra.MvPolynomial.Funext
/-! # Traces of polynomials on facets -/
namespace Tandem.Trace
open RefElement Finset Curvilinear Spec

variable {D : ℕ}

/-- Composition of a polynomial with affine functions. -/
theorem isPoly_comp_affine {D E : ℕ} (N : ℕ) (f : (Fin D → ℝ) → ℝ) (hf : IsPoly D N f) (F : (Fin E → ℝ) → Fin D → ℝ)
    (hF : ∀ d, IsPoly E 1 (fun ξ => F ξ d)) : IsPoly E N (fun ξ => f (F ξ)) := by
  obtain ⟨p, hp, hf⟩ := hf
  have e : (fun ξ => f (F ξ)) = fun ξ : Fin E → ℝ => ∑ m ∈ p.support, p.coeff m * ∏ d, (F ξ d) ^ m d := by
    funext x; rw [hf, MvPolynomial.eval_eq']
  rw [e]
  refine isPoly_sum E N _ _ fun m hm => isPoly_const_mul E N _ _ ?_
  have hdeg := (MvPolynomial.le_totalDegree hm).trans hp
  rw [Finsupp.sum_fintype _ _ (fun _ => rfl)] at hdeg
  refine isPoly_mono E _ N hdeg _ (isPoly_prod E univ (fun d => m d) _ fun d _ => ?_)
  have := isPoly_prod E (range (m d)) (fun _ => 1) (fun _ ξ => F ξ d) (fun _ _ => hF d)
  simpa using this

theorem isPoly_sub (D N : ℕ) (f g : (Fin D → ℝ) → ℝ) (hf : IsPoly D N f) (hg : IsPoly D N g) :
    IsPoly D N (fun x => f x - g x) := by
  have := isPoly_add D N f (fun x => -1 * g x) hf (isPoly_const_mul D N (-1) g hg)
  refine (by simpa [sub_eq_add_neg] using this)

theorem isPoly_bary (k : Fin (D + 1)) : IsPoly D 1 (fun x => baryCoord x k) := by
  refine Fin.cases ?_ (fun d => ?_) k
  · simp only [baryCoord, Fin.cons_zero]
    exact isPoly_sub D 1 _ _ (isPoly_const D 1 1) (isPoly_sum D 1 univ _ fun d _ => isPoly_coord D d)
  · simp only [baryCoord, Fin.cons_succ]
    exact isPoly_coord D d

theorem isPoly_facetParam (f : Fin (D + 2)) (i : Fin (D + 1)) : IsPoly D 1 (fun χ => facetParam f χ i) := by
  unfold facetParam
  refine isPoly_add D 1 _ _ ?_ (isPoly_sum D 1 univ _ fun d _ => ?_)
  · have := isPoly_const_mul D 1 (Equidistant.refVertices (D + 1) (f2v f 0) i) _ (isPoly_bary (D := D) 0)
    simpa only [baryCoord, Fin.cons_zero, mul_comm] using this
  · have := isPoly_const_mul D 1 (Equidistant.refVertices (D + 1) (f2v f d.succ) i) _ (isPoly_coord D d)
    simpa only [mul_comm] using this

/-- Barycentric coordinates of a point of a facet. -/
theorem bary_facet (f : Fin (D + 2)) (χ : Fin D → ℝ) :
    baryCoord (facetParam f χ) (missing f) = 0 ∧ ∀ k, baryCoord (facetParam f χ) (f2v f k) = baryCoord χ k := by
  set lam : Fin (D + 2) → ℝ := (missing f).insertNth (α := fun _ => ℝ) 0 (baryCoord χ) with hl
  have h0 : lam (missing f) = 0 := by rw [hl]; exact Fin.insertNth_apply_same _ _ _
  have hk : ∀ k, lam (f2v f k) = baryCoord χ k := fun k => by
    rw [hl]; exact Fin.insertNth_apply_succAbove _ _ _ k
  have hs : ∑ k, lam k = 1 := by
    rw [Fin.sum_univ_succAbove _ (missing f), h0, zero_add, ← WarpAndBlend.baryCoord_sum χ]
    exact sum_congr rfl fun k _ => hk k
  rw [← WarpAndBlend.facet_bary f χ lam h0 hk, WarpAndBlend.baryCoord_tail lam hs]
  exact ⟨h0, hk⟩

theorem facetParam_inj (f : Fin (D + 2)) : Function.Injective (facetParam (D := D) f) := by
  intro χ χ' h
  funext d
  have h1 := (bary_facet f χ).2 d.succ
  have h2 := (bary_facet f χ').2 d.succ
  rw [h, h2] at h1
  simpa [baryCoord] using h1.symm

/-- A polynomial that vanishes wherever a nonzero barycentric coordinate does not is zero. -/
theorem factor_zero (N : ℕ) (m : Fin (D + 1)) (hD : 0 < D) (r : (Fin D → ℝ) → ℝ) (hr : IsPoly D N r)
    (h : ∀ x, baryCoord x m * r x = 0) (x : Fin D → ℝ) : r x = 0 := by
  obtain ⟨p, _, hp⟩ := hr
  obtain ⟨l, _, hl⟩ := isPoly_bary (D := D) m
  have h0 : l * p = 0 := by
    apply MvPolynomial.funext
    intro x
    rw [map_mul, ← hl, ← hp, h, map_zero]
  have hl0 : l ≠ 0 := by
    rintro rfl
    have := hl (fun _ => if m = 0 then 0 else 1)
    rw [map_zero] at this
    revert this
    refine Fin.cases ?_ (fun d => ?_) m
    · simp [baryCoord]
    · simp [baryCoord]
  rcases mul_eq_zero.1 h0 with h | h
  · exact absurd h hl0
  · rw [hp, h, map_zero]

theorem nbf_eq (D N : ℕ) (hN : 0 < N) : nbf (D + 1) N = nbf (D + 1) (N - 1) + nbf D N := by
  obtain ⟨n, rfl⟩ : ∃ n, N = n + 1 := ⟨N - 1, by omega⟩
  unfold nbf
  rw [Nat.add_sub_cancel, show n + 1 + (D + 1) = (n + (D + 1)) + 1 by ring, Nat.choose_succ_succ,
    show n + 1 + D = n + (D + 1) by ring]
  ring

theorem nodup_of_unisolvent (N : ℕ) (hD : D = 1 ∨ D = 2 ∨ D = 3) (nodes : List (Fin D → ℝ))
    (hlen : nodes.length = nbf D N) (hu : Unisolvent D N nodes) : nodes.Nodup := by
  have hV := (C78_unisolvent D N hD nodes hlen).2 hu
  rw [List.nodup_iff_injective_get]
  intro i j hij
  have hi := C78_lagrange D N (by omega) nodes hlen hV ⟨i, by omega⟩
  have h1 := hi.2 ⟨i, by omega⟩
  have h2 := hi.2 ⟨j, by omega⟩
  have e : nodes[i.val] = nodes[j.val] := hij
  simp only [e] at h1
  rw [h1] at h2
  by_contra hne
  have : ¬ ((⟨i, by omega⟩ : Fin (nbf D N)) = ⟨j, by omega⟩) := by
    intro h; apply hne; ext; simpa using h
  rw [if_neg this] at h2
  simp at h2

/-- If the nodes of an element determine the polynomials of degree `N`, and the right number of them lies
on a facet, then these determine the polynomials on the facet. -/
theorem facet_unisolvent (hD : D = 1 ∨ D = 2) (N : ℕ) (hN : 0 < N) (nodes : List (Fin (D + 1) → ℝ))
    (hlen : nodes.length = nbf (D + 1) N) (hu : Unisolvent (D + 1) N nodes)
    (fnodes : List (Fin D → ℝ)) (hnd : fnodes.Nodup) (hfl : fnodes.length = nbf D N) (f : Fin (D + 2))
    (hmem : ∀ χ ∈ fnodes, facetParam f χ ∈ nodes) : Unisolvent D N fnodes := by
  classical
  intro p hp hp0 χ
  have hD' : D + 1 = 1 ∨ D + 1 = 2 ∨ D + 1 = 3 := by omega
  have hnodup := nodup_of_unisolvent N hD' nodes hlen hu
  set lam : (Fin (D + 1) → ℝ) → ℝ := fun x => baryCoord x (missing f) with hlam
  set S := nodes.toFinset with hS
  have hScard : S.card = nbf (D + 1) N := by rw [hS, List.toFinset_card_of_nodup hnodup, hlen]
  set Off := S.filter fun x => lam x ≠ 0 with hOff
  set On := S.filter fun x => lam x = 0 with hOn
  have hsplit : On.card + Off.card = S.card := by
    rw [hOn, hOff]; exact card_filter_add_card_filter_not _
  set I := fnodes.toFinset.image (facetParam f) with hI
  have hIcard : I.card = nbf D N := by
    rw [hI, card_image_of_injective _ (facetParam_inj f), List.toFinset_card_of_nodup hnd, hfl]
  have hIOn : I ⊆ On := by
    intro x hx
    rw [hI, mem_image] at hx
    obtain ⟨χ, hχ, rfl⟩ := hx
    rw [hOn, mem_filter, hS, List.mem_toFinset]
    exact ⟨hmem χ (List.mem_toFinset.1 hχ), (bary_facet f χ).1⟩
  have hle := card_le_card hIOn
  have hn := nbf_eq D N hN
  set n := nbf (D + 1) (N - 1) with hndef
  -- values of `lam` times a polynomial of degree `N - 1` at the other nodes
  let r : (Fin n → ℝ) → (Fin (D + 1) → ℝ) → ℝ := fun c x =>
    ∑ k : Fin n, c k * Functions.dubinerP (D + 1) (index (D + 1) (N - 1) k) x
  have hrp : ∀ c, IsPoly (D + 1) (N - 1) (r c) := fun c =>
    isPoly_sum _ _ univ _ fun k _ => isPoly_const_mul _ _ _ _ (modal_isPoly (D + 1) (N - 1) k (by omega) k.2)
  have hlr : ∀ c, IsPoly (D + 1) N (fun x => lam x * r c x) := fun c => by
    have := isPoly_mul (D + 1) 1 (N - 1) _ _ (isPoly_bary (missing f)) (hrp c)
    rwa [show 1 + (N - 1) = N by omega] at this
  let Φ : (Fin n → ℝ) →ₗ[ℝ] (Off → ℝ) :=
    { toFun := fun c x => lam x.1 * r c x.1
      map_add' := fun c c' => by
        funext x
        simp only [r, Pi.add_apply, add_mul, sum_add_distrib, mul_add]
      map_smul' := fun a c => by
        funext x
        simp only [r, Pi.smul_apply, smul_eq_mul, RingHom.id_apply, mul_sum]
        exact sum_congr rfl fun k _ => by ring }
  have hinj : Function.Injective Φ := by
    rw [← LinearMap.ker_eq_bot, LinearMap.ker_eq_bot']
    intro c hc
    have hz : ∀ x, lam x * r c x = 0 := by
      refine hu _ (hlr c) fun x hx => ?_
      by_cases h0 : lam x = 0
      · rw [h0, zero_mul]
      · exact congrFun hc ⟨x, by rw [hOff, mem_filter, hS, List.mem_toFinset]; exact ⟨hx, h0⟩⟩
    have hr0 := factor_zero (N - 1) (missing f) (by omega) (r c) (hrp c) hz
    funext k
    exact congrFun (modal_indep (D + 1) (N - 1) hD' c fun x => by
      have := hr0 x
      simp only [r] at this
      rw [← this]
      exact sum_congr rfl fun k _ => by ring) k
  have hf1 : Module.finrank ℝ (Fin n → ℝ) = n := by simp
  have hf2 : Module.finrank ℝ (Off → ℝ) = Off.card := by simp
  have hge := LinearMap.finrank_le_finrank_of_injective hinj
  rw [hf1, hf2] at hge
  have hoffcard : Off.card = n := by omega
  have honcard : On.card = nbf D N := by omega
  have hIeq : I = On := eq_of_subset_of_card_le hIOn (by omega)
  have hsurj : Function.Surjective Φ :=
    (LinearMap.injective_iff_surjective_of_finrank_eq_finrank (by rw [hf1, hf2, hoffcard])).1 hinj
  -- extend `p`
  let q : (Fin (D + 1) → ℝ) → ℝ := fun x => p fun d => baryCoord x (f2v f d.succ)
  have hqp : IsPoly (D + 1) N q := isPoly_comp_affine N p hp _ fun d => isPoly_bary _
  have hqf : ∀ χ, q (facetParam f χ) = p χ := by
    intro χ
    simp only [q]
    congr 1
    funext d
    rw [(bary_facet f χ).2]
    simp [baryCoord]
  obtain ⟨c, hc⟩ := hsurj fun x => q x.1
  have hz : ∀ x, q x - lam x * r c x = 0 := by
    refine hu _ (isPoly_sub _ _ _ _ hqp (hlr c)) fun x hx => ?_
    by_cases h0 : lam x = 0
    · have : x ∈ I := by
        rw [hIeq, hOn, mem_filter, hS, List.mem_toFinset]; exact ⟨hx, h0⟩
      rw [hI, mem_image] at this
      obtain ⟨χ, hχ, rfl⟩ := this
      rw [hqf, hp0 χ (List.mem_toFinset.1 hχ), h0, zero_mul, sub_zero]
    · have := congrFun hc ⟨x, by rw [hOff, mem_filter, hS, List.mem_toFinset]; exact ⟨hx, h0⟩⟩
      have e : lam x * r c x = q x := this
      rw [e, sub_self]
  have := hz (facetParam f χ)
  rw [hqf] at this
  have hl0 : lam (facetParam f χ) = 0 := (bary_facet f χ).1
  rwa [hl0, zero_mul, sub_zero] at this

/-- Two polynomials that agree at the nodes of a common facet agree on the whole facet. -/
theorem trace_agree (hD : D = 1 ∨ D = 2) (N : ℕ) (hN : 0 < N) (nodes : List (Fin (D + 1) → ℝ))
    (hlen : nodes.length = nbf (D + 1) N) (hu : Unisolvent (D + 1) N nodes)
    (fnodes : List (Fin D → ℝ)) (hnd : fnodes.Nodup) (hfl : fnodes.length = nbf D N)
    (hmem : ∀ f, ∀ χ ∈ fnodes, facetParam f χ ∈ nodes) (f0 f1 : Fin (D + 2))
    (F0 F1 : (Fin (D + 1) → ℝ) → ℝ) (h0 : IsPoly (D + 1) N F0) (h1 : IsPoly (D + 1) N F1)
    (h : ∀ χ ∈ fnodes, F0 (facetParam f0 χ) = F1 (facetParam f1 χ)) (χ : Fin D → ℝ) :
    F0 (facetParam f0 χ) = F1 (facetParam f1 χ) := by
  have hun := facet_unisolvent hD N hN nodes hlen hu fnodes hnd hfl 0 (hmem 0)
  have := hun (fun χ => F0 (facetParam f0 χ) - F1 (facetParam f1 χ))
    (isPoly_sub _ _ _ _ (isPoly_comp_affine N F0 h0 _ fun i => isPoly_facetParam f0 i)
      (isPoly_comp_affine N F1 h1 _ fun i => isPoly_facetParam f1 i))
    (fun χ hχ => by rw [h χ hχ, sub_self]) χ
  exact sub_eq_zero.1 this

end Tandem.Trace
