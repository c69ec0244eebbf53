import Verif.Props.PoissonRhs
import Verif.Lemmas.GlobalForm
/-! # Property C75 for the Poisson operator: the interior penalty matrix is positive semidefinite -/
namespace Tandem.Poisson
open Tandem.DGTopo Tandem.Spec
open Tandem.DGAssembly

variable {dim Nbf Nbm Nq nq : Nat}
variable {P : Nat} {elems : Nat → List (List Nat)} {num fnum tag : List Nat → Nat} {views : Nat → View}

/-- Gradient of the function with coefficients `v` from the gradients of the basis functions and the inverse Jacobian. -/
noncomputable def gradOf {n : Nat} (G : Fin dim → Fin dim → Fin n → ℝ) (Dxi : Fin Nbf → Fin dim → Fin n → ℝ) (v : Fin Nbf → ℝ)
    (r : Fin dim) (q : Fin n) : ℝ := ∑ l, (∑ e, G e r q * Dxi l e q) * v l

theorem young (w nl f J t : ℝ) (hw : 0 ≤ w) (hnl : 0 ≤ nl) (hf : nl = 0 → f = 0) (ht : 0 < t) :
    w * (f * J) ≤ w * (f ^ 2 / nl) / t + t / 4 * (w * (nl * J ^ 2)) := by
  rcases hnl.eq_or_lt with h | h
  · rw [hf h.symm, ← h]; simp
  · have h1 : f * J ≤ f ^ 2 / nl / t + t / 4 * (nl * J ^ 2) := by
      have h2 : f ^ 2 / nl / t + t / 4 * (nl * J ^ 2) - f * J = (2 * f - t * nl * J) ^ 2 / (4 * nl * t) := by
        field_simp; ring
      have h3 : 0 ≤ (2 * f - t * nl * J) ^ 2 / (4 * nl * t) := by positivity
      linarith
    calc w * (f * J) ≤ w * (f ^ 2 / nl / t + t / 4 * (nl * J ^ 2)) := mul_le_mul_of_nonneg_left h1 hw
      _ = _ := by ring

theorem young_sum {ι : Type} [Fintype ι] (w nl f J : ι → ℝ) (D1 C V : ℝ) (hw : ∀ q, 0 ≤ w q) (hnl : ∀ q, 0 ≤ nl q) (hf : ∀ q, nl q = 0 → f q = 0)
    (hD : 0 < D1) (hC : 0 < C) (ht : ∑ q, w q * (f q ^ 2 / nl q) ≤ C * V) :
    ∑ q, w q * (f q * J q) ≤ V / D1 + D1 * C / 4 * ∑ q, w q * (nl q * J q ^ 2) := by
  have h1 : ∑ q, w q * (f q * J q) ≤ ∑ q, (w q * (f q ^ 2 / nl q) / (D1 * C) + D1 * C / 4 * (w q * (nl q * J q ^ 2))) :=
    Finset.sum_le_sum (fun q _ => young _ _ _ _ _ (hw q) (hnl q) (hf q) (by positivity))
  rw [Finset.sum_add_distrib, ← Finset.sum_div, ← Finset.mul_sum] at h1
  have h2 : (∑ q, w q * (f q ^ 2 / nl q)) / (D1 * C) ≤ V / D1 := by
    rw [div_le_div_iff₀ (by positivity) hD]
    calc _ ≤ C * V * D1 := mul_le_mul_of_nonneg_right ht hD.le
      _ = V * (D1 * C) := by ring
  linarith

theorem skeleton_bound {ι : Type} [Fintype ι] (w nl f0 f1 J : ι → ℝ) (D1 C0 C1 V0 V1 pen : ℝ) (hw : ∀ q, 0 ≤ w q) (hnl : ∀ q, 0 ≤ nl q)
    (hf0 : ∀ q, nl q = 0 → f0 q = 0) (hf1 : ∀ q, nl q = 0 → f1 q = 0) (hD : 0 < D1) (hC0 : 0 < C0) (hC1 : 0 < C1)
    (ht0 : ∑ q, w q * (f0 q ^ 2 / nl q) ≤ C0 * V0) (ht1 : ∑ q, w q * (f1 q ^ 2 / nl q) ≤ C1 * V1)
    (hpen : D1 * C0 / 4 + D1 * C1 / 4 ≤ pen) :
    -((V0 + V1) / D1) ≤ ∑ q, w q * (- (f0 q + f1 q) * J q + pen * (nl q * J q ^ 2)) := by
  have h0 := young_sum w nl f0 J D1 C0 V0 hw hnl hf0 hD hC0 ht0
  have h1 := young_sum w nl f1 J D1 C1 V1 hw hnl hf1 hD hC1 ht1
  have hS : 0 ≤ ∑ q, w q * (nl q * J q ^ 2) := Finset.sum_nonneg (fun q _ => mul_nonneg (hw q) (mul_nonneg (hnl q) (sq_nonneg _)))
  have he : ∑ q, w q * (- (f0 q + f1 q) * J q + pen * (nl q * J q ^ 2)) =
      - ∑ q, w q * (f0 q * J q) - ∑ q, w q * (f1 q * J q) + pen * ∑ q, w q * (nl q * J q ^ 2) := by
    rw [Finset.mul_sum, ← Finset.sum_neg_distrib, ← Finset.sum_sub_distrib, ← Finset.sum_add_distrib]
    apply Finset.sum_congr rfl; intro q _; ring
  rw [he, add_div]
  have := mul_le_mul_of_nonneg_right hpen hS
  linarith

theorem boundary_bound {ι : Type} [Fintype ι] (w nl f J : ι → ℝ) (D1 C V pen : ℝ) (hw : ∀ q, 0 ≤ w q) (hnl : ∀ q, 0 ≤ nl q)
    (hf : ∀ q, nl q = 0 → f q = 0) (hD : 0 < D1) (hC : 0 < C) (ht : ∑ q, w q * (f q ^ 2 / nl q) ≤ C * V)
    (hpen : D1 * C ≤ pen) :
    -(V / D1) ≤ ∑ q, w q * (- (2 * f q) * J q + pen * (nl q * J q ^ 2)) := by
  have h0 := young_sum w nl f (fun q => 2 * J q) D1 C V hw hnl hf hD hC ht
  have hS : 0 ≤ ∑ q, w q * (nl q * J q ^ 2) := Finset.sum_nonneg (fun q _ => mul_nonneg (hw q) (mul_nonneg (hnl q) (sq_nonneg _)))
  have he : ∑ q, w q * (- (2 * f q) * J q + pen * (nl q * J q ^ 2)) =
      - ∑ q, w q * (f q * (2 * J q)) + pen * ∑ q, w q * (nl q * J q ^ 2) := by
    rw [Finset.mul_sum, ← Finset.sum_neg_distrib, ← Finset.sum_add_distrib]
    apply Finset.sum_congr rfl; intro q _; ring
  have hq : ∑ q, w q * (nl q * (2 * J q) ^ 2) = 4 * ∑ q, w q * (nl q * J q ^ 2) := by
    rw [Finset.mul_sum]; apply Finset.sum_congr rfl; intro q _; ring
  rw [hq] at h0
  rw [he]
  have := mul_le_mul_of_nonneg_right hpen hS
  linarith

/-- The quadratic form of the four blocks of an interior facet. -/
theorem skeleton_form (w : Fin nq → ℝ) (KDx : Fin 2 → Fin Nbf → Fin dim → Fin nq → ℝ) (n : Fin dim → Fin nq → ℝ)
    (E : Fin 2 → Fin Nbf → Fin nq → ℝ) (nl : Fin nq → ℝ) (pen : ℝ) (x : Fin 2 → Fin Nbf → ℝ) :
    ∑ s, ∑ k, x s k * (mulVec (kAssembleSurface ![-0.5, 0.5] ![epsilon * 0.5, -(epsilon * 0.5)] ![pen, -pen] w KDx n E
        (fun s => kLiftIp (E s) nl) s 0) (x 0) k +
      mulVec (kAssembleSurface ![-0.5, 0.5] ![epsilon * 0.5, -(epsilon * 0.5)] ![pen, -pen] w KDx n E
        (fun s => kLiftIp (E s) nl) s 1) (x 1) k) =
    ∑ q, w q * (- (fluxOf n (KDx 0) (x 0) q + fluxOf n (KDx 1) (x 1) q) * (trace (E 0) (x 0) q - trace (E 1) (x 1) q) +
      pen * (nl q * (trace (E 0) (x 0) q - trace (E 1) (x 1) q) ^ 2)) := by
  have hs : ∀ s : Fin 2, ∑ k, x s k * (mulVec (kAssembleSurface ![-0.5, 0.5] ![epsilon * 0.5, -(epsilon * 0.5)] ![pen, -pen] w KDx n E
        (fun s => kLiftIp (E s) nl) s 0) (x 0) k +
      mulVec (kAssembleSurface ![-0.5, 0.5] ![epsilon * 0.5, -(epsilon * 0.5)] ![pen, -pen] w KDx n E
        (fun s => kLiftIp (E s) nl) s 1) (x 1) k) =
      ∑ q, w q * (-0.5 * fluxOf n (KDx s) (x s) q * (trace (E 0) (x 0) q - trace (E 1) (x 1) q) -
        sgn s * trace (E s) (x s) q * (0.5 * (fluxOf n (KDx 0) (x 0) q + fluxOf n (KDx 1) (x 1) q) -
          pen * (nl q * (trace (E 0) (x 0) q - trace (E 1) (x 1) q)))) := by
    intro s
    simp only [surface_mul, lift_sum]
    have e1 : ∀ k, x s k * ((∑ q, w q * ((![-0.5, 0.5] : Fin 2 → ℝ) 0 * nflux n (KDx s) k q * (∑ l, E 0 l q * x 0 l) +
        (![epsilon * 0.5, -(epsilon * 0.5)] : Fin 2 → ℝ) s * E s k q * (∑ l, nflux n (KDx 0) l q * x 0 l) +
        (![pen, -pen] : Fin 2 → ℝ) (if s = 0 then 0 else 1) * E s k q * (nl q * ∑ l, E 0 l q * x 0 l))) +
        (∑ q, w q * ((![-0.5, 0.5] : Fin 2 → ℝ) 1 * nflux n (KDx s) k q * (∑ l, E 1 l q * x 1 l) +
        (![epsilon * 0.5, -(epsilon * 0.5)] : Fin 2 → ℝ) s * E s k q * (∑ l, nflux n (KDx 1) l q * x 1 l) +
        (![pen, -pen] : Fin 2 → ℝ) (if s = 1 then 0 else 1) * E s k q * (nl q * ∑ l, E 1 l q * x 1 l)))) =
        ∑ q, (w q * (-0.5 * (trace (E 0) (x 0) q - trace (E 1) (x 1) q)) * (nflux n (KDx s) k q * x s k) -
          w q * (sgn s * (0.5 * (fluxOf n (KDx 0) (x 0) q + fluxOf n (KDx 1) (x 1) q) -
          pen * (nl q * (trace (E 0) (x 0) q - trace (E 1) (x 1) q)))) * (E s k q * x s k)) := by
      intro k
      rw [← Finset.sum_add_distrib, Finset.mul_sum]
      apply Finset.sum_congr rfl; intro q _
      unfold fluxOf trace sgn epsilon
      fin_cases s
      · simp; ring
      · simp; ring
    simp only [e1]
    rw [Finset.sum_comm]
    apply Finset.sum_congr rfl; intro q _
    rw [Finset.sum_sub_distrib, ← Finset.mul_sum, ← Finset.mul_sum]
    change w q * (-0.5 * (trace (E 0) (x 0) q - trace (E 1) (x 1) q)) * fluxOf n (KDx s) (x s) q - _ * trace (E s) (x s) q = _
    ring
  simp only [hs]
  rw [Fin.sum_univ_two, ← Finset.sum_add_distrib]
  apply Finset.sum_congr rfl; intro q _
  simp [sgn]; ring

theorem boundary_form (w : Fin nq → ℝ) (KDx : Fin Nbf → Fin dim → Fin nq → ℝ) (n : Fin dim → Fin nq → ℝ)
    (E : Fin Nbf → Fin nq → ℝ) (nl : Fin nq → ℝ) (pen : ℝ) (x : Fin Nbf → ℝ) :
    ∑ k, x k * mulVec (kAssembleSurface (fun _ => -1) (fun _ => epsilon) (fun _ => pen) w (fun _ => KDx) n (fun _ => E)
        (fun _ => kLiftIp E nl) 0 0) x k =
    ∑ q, w q * (- (2 * fluxOf n KDx x q) * trace E x q + pen * (nl q * trace E x q ^ 2)) := by
  simp only [surface_mul, lift_sum]
  have e1 : ∀ k, x k * (∑ q, w q * (-1 * nflux n KDx k q * (∑ l, E l q * x l) + epsilon * E k q * (∑ l, nflux n KDx l q * x l) +
      pen * E k q * (nl q * ∑ l, E l q * x l))) =
      ∑ q, (w q * (- trace E x q) * (nflux n KDx k q * x k) + w q * (- fluxOf n KDx x q + pen * (nl q * trace E x q)) * (E k q * x k)) := by
    intro k
    rw [Finset.mul_sum]
    apply Finset.sum_congr rfl; intro q _
    unfold fluxOf trace epsilon; ring
  simp only [e1]
  rw [Finset.sum_comm]
  apply Finset.sum_congr rfl; intro q _
  rw [Finset.sum_add_distrib, ← Finset.mul_sum, ← Finset.mul_sum]
  change w q * (- trace E x q) * fluxOf n KDx x q + _ * trace E x q = _
  ring

theorem flux_grad (n : Fin dim → Fin nq → ℝ) (K : Fin Nbm → ℝ) (mE : Fin nq → Fin Nbm → ℝ) (G : Fin dim → Fin dim → Fin nq → ℝ)
    (Dxi : Fin Nbf → Fin dim → Fin nq → ℝ) (v : Fin Nbf → ℝ) (q : Fin nq) :
    fluxOf n (kKDxq K mE G Dxi) v q = kKq K mE q * ∑ r, n r q * gradOf G Dxi v r q := by
  have hK : ∀ l r, kKDxq K mE G Dxi l r q = kKq K mE q * ∑ e, G e r q * Dxi l e q := by
    intro l r
    unfold kKDxq kKq
    rw [Finset.sum_mul]
    apply Finset.sum_congr rfl; intro m _
    rw [Finset.mul_sum]
    apply Finset.sum_congr rfl; intro e _; ring
  unfold fluxOf nflux gradOf
  simp only [hK, Finset.mul_sum, Finset.sum_mul]
  rw [Finset.sum_comm]
  apply Finset.sum_congr rfl; intro r _
  apply Finset.sum_congr rfl; intro l _
  apply Finset.sum_congr rfl; intro e _
  ring

theorem volume_form (J W : Fin Nq → ℝ) (K : Fin Nbm → ℝ) (mE : Fin Nq → Fin Nbm → ℝ) (G : Fin dim → Fin dim → Fin Nq → ℝ)
    (Dxi : Fin Nbf → Fin dim → Fin Nq → ℝ) (x : Fin Nbf → ℝ) :
    ∑ k, x k * mulVec (kAssembleVolume J W K mE (kDxQ G Dxi)) x k =
      ∑ q, J q * W q * kKq K mE q * ∑ r, gradOf G Dxi x r q ^ 2 := by
  have h1 : ∀ k, x k * mulVec (kAssembleVolume J W K mE (kDxQ G Dxi)) x k =
      ∑ q, ∑ r, (J q * W q * kKq K mE q * gradOf G Dxi x r q) * (kDxQ G Dxi k r q * x k) := by
    intro k
    have hA : ∀ l, kAssembleVolume J W K mE (kDxQ G Dxi) k l = ∑ q, ∑ r, J q * W q * kKq K mE q * kDxQ G Dxi k r q * kDxQ G Dxi l r q := by
      intro l
      unfold kAssembleVolume kKq
      apply Finset.sum_congr rfl; intro q _
      rw [Finset.sum_comm]
      apply Finset.sum_congr rfl; intro r _
      simp only [Finset.mul_sum, Finset.sum_mul]
      apply Finset.sum_congr rfl; intro m _; ring
    unfold mulVec
    simp only [hA, Finset.sum_mul, Finset.mul_sum]
    rw [Finset.sum_comm]
    apply Finset.sum_congr rfl; intro q _
    rw [Finset.sum_comm]
    apply Finset.sum_congr rfl; intro r _
    unfold gradOf
    change _ = J q * W q * kKq K mE q * (∑ l, kDxQ G Dxi l r q * x l) * (kDxQ G Dxi k r q * x k)
    rw [Finset.mul_sum, Finset.sum_mul]
    apply Finset.sum_congr rfl; intro l _; ring
  simp only [h1]
  rw [Finset.sum_comm]
  apply Finset.sum_congr rfl; intro q _
  rw [Finset.sum_comm, Finset.mul_sum]
  apply Finset.sum_congr rfl; intro r _
  rw [← Finset.mul_sum]
  change J q * W q * kKq K mE q * gradOf G Dxi x r q * gradOf G Dxi x r q = _
  ring

/-- The penalty of a facet from the elements on its sides. -/
noncomputable def sidePenalty (dim N : Nat) (area volume : ℝ) (K : Fin Nbm → ℝ) : ℝ :=
  traceConstant dim N * (area / volume) * ((⨆ m, K m) * (⨆ m, K m) / (⨅ m, K m))

/-- Areas and volumes stored by a rank are those of the mesh. -/
structure Measures (v : View) (areaR volumeR : Nat → ℝ) (area volume : List Nat → ℝ) : Prop where
  area : ∀ (i : Nat) (f : List Nat), v.facets[i]? = some f → i < v.numLocalFacets → areaR i = area f
  volume : ∀ (u : Nat) (e : List Nat), v.elems[u]? = some e → volumeR u = volume e

/-- What `preparePenalty` computes for a facet, by the elements on its sides. -/
theorem penalty_eq (hd : IsDistributed P dim elems num fnum tag views) (r : Nat) (hr : r < P) (N : Nat) (areaR volumeR : Nat → ℝ)
    (area volume : List Nat → ℝ) (hmeas : Measures (views r) areaR volumeR area volume) (KR : Nat → Fin Nbm → ℝ)
    (K : List Nat → Fin Nbm → ℝ) (hK : ∀ (u : Nat) (e : List Nat), (views r).elems[u]? = some e → KR u = K e)
    (i : Nat) (info : FacetInfo) (f : List Nat) (hi : i < (views r).numLocalFacets) (hinfo : facetInfo (views r) i = some info)
    (hf : (views r).facets[i]? = some f) :
    (∀ e, InElems P elems e → IsFacet e f → (∀ a, InElems P elems a → IsFacet a f → a = e) →
      preparePenalty dim N areaR volumeR KR i info = (dim + 1 : ℝ) * sidePenalty dim N (area f) (volume e) (K e)) ∧
    (∀ e a, InElems P elems e → InElems P elems a → e ≠ a → IsFacet e f → IsFacet a f →
      preparePenalty dim N areaR volumeR KR i info =
        (dim + 1 : ℝ) * sidePenalty dim N (area f) (volume e) (K e) / 4 + (dim + 1 : ℝ) * sidePenalty dim N (area f) (volume a) (K a) / 4) := by
  have hv := hd.view r hr
  obtain ⟨info', f', e0, e1, g1, g2, g3, g4, g5, g6, g7, _⟩ := C33_facet_info hd r hr i hi
  obtain rfl := Option.some.inj (hinfo.symm.trans g1)
  obtain rfl := Option.some.inj (hf.symm.trans g2)
  have hA := hmeas.area i f hf hi
  have hp : ∀ s : Fin 2, ∀ e, (views r).elems[upOf info s]? = some e →
      (dim + 1 : ℝ) * traceConstant dim N * (areaR i / volumeR (upOf info s)) * ((⨆ m, KR (upOf info s) m) * (⨆ m, KR (upOf info s) m) / ⨅ m, KR (upOf info s) m) =
      (dim + 1 : ℝ) * sidePenalty dim N (area f) (volume e) (K e) := by
    intro s e he
    rw [hK _ _ he, hmeas.volume _ _ he, hA]
    unfold sidePenalty; ring
  constructor
  · intro e he hef honly
    have h0 := honly e0 (mem_inElems hv g3) g5
    have h1 := honly e1 (mem_inElems hv g4) g6
    have hne : info.up0 = info.up1 := get_inj hv.once g3 (by rw [h0, ← h1]; exact g4)
    unfold preparePenalty
    simp only
    rw [if_neg (fun h => h hne), hp 0 e (h0 ▸ g3)]
  · intro e a he ha hea hef haf
    have hne : info.up0 ≠ info.up1 := by
      intro h
      have h01 : e0 = e1 := by rw [h] at g3; exact Option.some.inj (g3.symm.trans g4)
      rcases g7 e he hef with h | h <;> rcases g7 a ha haf with h' | h'
      all_goals (apply hea; rw [h, h']; try (first | exact h01 | exact h01.symm))
    unfold preparePenalty
    simp only
    rw [if_pos hne]
    rcases g7 e he hef with h | h <;> rcases g7 a ha haf with h' | h'
    · exact absurd (h.trans h'.symm) hea
    · rw [hp 0 e (h ▸ g3), hp 1 a (h' ▸ g4)]; norm_num; ring
    · rw [hp 0 a (h' ▸ g3), hp 1 e (h ▸ g4)]; norm_num; ring
    · exact absurd (h.trans h'.symm) hea

/-- **C75 (penalty)**: all ranks that hold a facet compute the same penalty for it. -/
theorem C75_penalty_same (hd : IsDistributed P dim elems num fnum tag views) (N : Nat) (areaR volumeR : Nat → Nat → ℝ)
    (area volume : List Nat → ℝ) (hmeas : ∀ r, r < P → Measures (views r) (areaR r) (volumeR r) area volume)
    (KR : Nat → Nat → Fin Nbm → ℝ) (K : List Nat → Fin Nbm → ℝ)
    (hK : ∀ r, r < P → ∀ (u : Nat) (e : List Nat), (views r).elems[u]? = some e → KR r u = K e)
    (r r' i i' : Nat) (info info' : FacetInfo) (f : List Nat) (hr : r < P) (hr' : r' < P)
    (hi : i < (views r).numLocalFacets) (hi' : i' < (views r').numLocalFacets)
    (hinfo : facetInfo (views r) i = some info) (hinfo' : facetInfo (views r') i' = some info')
    (hf : (views r).facets[i]? = some f) (hf' : (views r').facets[i']? = some f) :
    preparePenalty dim N (areaR r) (volumeR r) (KR r) i info = preparePenalty dim N (areaR r') (volumeR r') (KR r') i' info' := by
  obtain ⟨_, f', e0, e1, g1, g2, g3, g4, g5, g6, g7, _⟩ := C33_facet_info hd r hr i hi
  obtain rfl := Option.some.inj (hf.symm.trans g2)
  have hv := hd.view r hr
  obtain ⟨a1, a2⟩ := penalty_eq hd r hr N _ _ area volume (hmeas r hr) (KR r) K (hK r hr) i info f hi hinfo hf
  obtain ⟨b1, b2⟩ := penalty_eq hd r' hr' N _ _ area volume (hmeas r' hr') (KR r') K (hK r' hr') i' info' f hi' hinfo' hf'
  by_cases h : e0 = e1
  · have honly : ∀ a, InElems P elems a → IsFacet a f → a = e0 := by
      intro a ha hfa
      rcases g7 a ha hfa with h' | h'
      · exact h'
      · rw [h', h]
    rw [a1 e0 (mem_inElems hv g3) g5 honly, b1 e0 (mem_inElems hv g3) g5 honly]
  · rw [a2 e0 e1 (mem_inElems hv g3) (mem_inElems hv g4) h g5 g6, b2 e0 e1 (mem_inElems hv g3) (mem_inElems hv g4) h g5 g6]

theorem flux_zero (n : Fin dim → Fin nq → ℝ) (KDx : Fin Nbf → Fin dim → Fin nq → ℝ) (v : Fin Nbf → ℝ) (q : Fin nq)
    (h : normalLength n q = 0) : fluxOf n KDx v q = 0 := by
  unfold normalLength at h
  have h0 : ∑ j, n j q * n j q = 0 := by
    have := Real.sqrt_eq_zero (Finset.sum_nonneg (s := Finset.univ) (fun j _ => mul_self_nonneg (n j q)))
    exact this.1 h
  have hn : ∀ j, n j q = 0 := by
    intro j
    have := (Finset.sum_eq_zero_iff_of_nonneg (s := Finset.univ) (fun j _ => mul_self_nonneg (n j q))).1 h0 j (Finset.mem_univ j)
    exact mul_self_eq_zero.1 this
  unfold fluxOf nflux
  simp [hn]

/-- The hypotheses of C75 on reference element, geometry and coefficients: nonnegative weights, the inverse trace inequality
with the constant of `InverseInequality`, coefficients at the points between the smallest and the largest coefficient. -/
structure Coercive (P dim N : Nat) (elems : Nat → List (List Nat)) (ref : Ref dim Nbf Nbm Nq nq) (g : Geometry dim Nq nq)
    (K : List Nat → Fin Nbm → ℝ) (area volume : List Nat → ℝ) : Prop where
  w : ∀ q, 0 ≤ ref.w q
  W : ∀ q, 0 ≤ ref.W q
  detJ : ∀ e, InElems P elems e → ∀ q, 0 ≤ g.absDetJ e q
  areaPos : ∀ e f, InElems P elems e → IsFacet e f → 0 < area f
  volumePos : ∀ e, InElems P elems e → 0 < volume e
  positive : ∀ e, InElems P elems e → 0 < ⨅ m, K e m
  lower : ∀ e, InElems P elems e → ∀ q, (⨅ m, K e m) ≤ kKq (K e) ref.matE_Q_T q
  upper : ∀ e f, InElems P elems e → IsFacet e f → ∀ q, |kKq (K e) (ref.matE_q_T (g.localNo e f)) q| ≤ ⨆ m, K e m
  traceIneq : ∀ e f, InElems P elems e → IsFacet e f → ∀ v : Fin Nbf → ℝ,
    ∑ q, ref.w q * ((∑ r, g.normal f e r q * gradOf (g.jInvFacet f e) (ref.Dxi_q (g.localNo e f)) v r q) ^ 2 / normalLength (g.normal f e) q) ≤
      traceConstant dim N * (area f / volume e) * ∑ q, g.absDetJ e q * ref.W q * ∑ r, gradOf (g.jInv e) ref.Dxi_Q v r q ^ 2

theorem sup_pos {K : Fin Nbm → ℝ} (h : 0 < ⨅ m, K m) : 0 < ⨆ m, K m := by
  rcases isEmpty_or_nonempty (Fin Nbm) with he | he
  · rw [Real.iInf_of_isEmpty] at h; exact absurd h (lt_irrefl _)
  · obtain ⟨m⟩ := he
    exact lt_of_lt_of_le h (le_trans (ciInf_le (Set.finite_range K).bddBelow m) (le_ciSup (Set.finite_range K).bddAbove m))

theorem side_trace {N : Nat} {ref : Ref dim Nbf Nbm Nq nq} {g : Geometry dim Nq nq} {K : List Nat → Fin Nbm → ℝ} {area volume : List Nat → ℝ}
    (hc : Coercive P dim N elems ref g K area volume) (hdim : 0 < dim) (e f : List Nat) (he : InElems P elems e) (hf : IsFacet e f) (v : Fin Nbf → ℝ) :
    0 < sidePenalty dim N (area f) (volume e) (K e) ∧
    ∑ q, ref.w q * (fluxOf (g.normal f e) (kKDxq (K e) (ref.matE_q_T (g.localNo e f)) (g.jInvFacet f e) (ref.Dxi_q (g.localNo e f))) v q ^ 2 /
        normalLength (g.normal f e) q) ≤ sidePenalty dim N (area f) (volume e) (K e) *
      ∑ q, g.absDetJ e q * ref.W q * kKq (K e) ref.matE_Q_T q * ∑ r, gradOf (g.jInv e) ref.Dxi_Q v r q ^ 2 := by
  have hk0 := hc.positive e he
  have hk1 := sup_pos hk0
  have hA := hc.areaPos e f he hf
  have hV := hc.volumePos e he
  have hT : 0 < traceConstant dim N := by
    unfold traceConstant
    apply div_pos
    · exact_mod_cast Nat.mul_pos (by omega) (by omega)
    · exact_mod_cast hdim
  refine ⟨by unfold sidePenalty; positivity, ?_⟩
  have h1 : ∑ q, ref.w q * (fluxOf (g.normal f e) (kKDxq (K e) (ref.matE_q_T (g.localNo e f)) (g.jInvFacet f e) (ref.Dxi_q (g.localNo e f))) v q ^ 2 /
      normalLength (g.normal f e) q) ≤ ((⨆ m, K e m) * (⨆ m, K e m)) *
      ∑ q, ref.w q * ((∑ r, g.normal f e r q * gradOf (g.jInvFacet f e) (ref.Dxi_q (g.localNo e f)) v r q) ^ 2 / normalLength (g.normal f e) q) := by
    rw [Finset.mul_sum]
    apply Finset.sum_le_sum; intro q _
    rw [flux_grad, mul_pow]
    have hu := hc.upper e f he hf q
    have hsq : kKq (K e) (ref.matE_q_T (g.localNo e f)) q ^ 2 ≤ (⨆ m, K e m) * (⨆ m, K e m) := by
      rw [← sq, ← sq_abs]
      exact pow_le_pow_left₀ (abs_nonneg _) hu 2
    have hnn : 0 ≤ (∑ r, g.normal f e r q * gradOf (g.jInvFacet f e) (ref.Dxi_q (g.localNo e f)) v r q) ^ 2 / normalLength (g.normal f e) q :=
      div_nonneg (sq_nonneg _) (Real.sqrt_nonneg _)
    calc _ = kKq (K e) (ref.matE_q_T (g.localNo e f)) q ^ 2 * (ref.w q * ((∑ r, g.normal f e r q * gradOf (g.jInvFacet f e) (ref.Dxi_q (g.localNo e f)) v r q) ^ 2 / normalLength (g.normal f e) q)) := by ring
      _ ≤ _ := mul_le_mul_of_nonneg_right hsq (mul_nonneg (hc.w q) hnn)
  have h2 := mul_le_mul_of_nonneg_left (hc.traceIneq e f he hf v) (show 0 ≤ (⨆ m, K e m) * (⨆ m, K e m) by positivity)
  have h3 : (⨅ m, K e m) * ∑ q, g.absDetJ e q * ref.W q * ∑ r, gradOf (g.jInv e) ref.Dxi_Q v r q ^ 2 ≤
      ∑ q, g.absDetJ e q * ref.W q * kKq (K e) ref.matE_Q_T q * ∑ r, gradOf (g.jInv e) ref.Dxi_Q v r q ^ 2 := by
    rw [Finset.mul_sum]
    apply Finset.sum_le_sum; intro q _
    have hnn : 0 ≤ g.absDetJ e q * ref.W q * ∑ r, gradOf (g.jInv e) ref.Dxi_Q v r q ^ 2 :=
      mul_nonneg (mul_nonneg (hc.detJ e he q) (hc.W q)) (Finset.sum_nonneg (fun r _ => sq_nonneg _))
    have := mul_le_mul_of_nonneg_right (hc.lower e he q) hnn
    linarith
  refine le_trans h1 (le_trans h2 ?_)
  have h4 := mul_le_mul_of_nonneg_left h3 (show 0 ≤ sidePenalty dim N (area f) (volume e) (K e) by unfold sidePenalty; positivity)
  refine le_trans (le_of_eq ?_) h4
  unfold sidePenalty
  field_simp

theorem map_sum_apply {A : Type} (l : List A) (F : A → Fin Nbf → ℝ) (c : Fin Nbf → ℝ) :
    ∑ k, c k * (l.map F).sum k = (l.map (fun i => ∑ k, c k * F i k)).sum := by
  induction l with
  | nil => simp
  | cons i l ih =>
    rw [List.map_cons, List.map_cons, List.sum_cons, List.sum_cons, ← ih, ← Finset.sum_add_distrib]
    apply Finset.sum_congr rfl; intro k _; rw [Pi.add_apply]; ring

/-- The penalty of a facet. -/
theorem penalty_facet (hd : IsDistributed P dim elems num fnum tag views)
    (ref : Ref dim Nbf Nbm Nq nq) (g : Geometry dim Nq nq) (K : List Nat → Fin Nbm → ℝ)
    (pen : List Nat → ℝ) (o : Nat → Op dim Nbf Nbm Nq nq) (ho : ∀ r, r < P → Samples (views r) (o r) .IP ref g K pen)
    (N : Nat) (areaR volumeR : Nat → Nat → ℝ) (area volume : List Nat → ℝ)
    (hmeas : ∀ r, r < P → Measures (views r) (areaR r) (volumeR r) area volume)
    (hpen : ∀ r, r < P → ∀ i info, i < (views r).numLocalFacets → facetInfo (views r) i = some info →
      (o r).penalty_ i = preparePenalty dim N (areaR r) (volumeR r) (o r).K i info) :
    ∀ e f, InElems P elems e → IsFacet e f →
      ((∀ a, InElems P elems a → IsFacet a f → a = e) → pen f = (dim + 1 : ℝ) * sidePenalty dim N (area f) (volume e) (K e)) ∧
      (∀ a, InElems P elems a → e ≠ a → IsFacet a f →
        pen f = (dim + 1 : ℝ) * sidePenalty dim N (area f) (volume e) (K e) / 4 + (dim + 1 : ℝ) * sidePenalty dim N (area f) (volume a) (K a) / 4) := by
    rintro e f ⟨r, hr, he⟩ hf
    have hv := hd.view r hr
    have heI : InElems P elems e := ⟨r, hr, he⟩
    have hmem : f ∈ (views r).facets := (hv.facetsExactly f).2 ⟨e, (hv.exactly e).2 ⟨heI, Or.inl he⟩, hf⟩
    obtain ⟨i, hi⟩ := List.mem_iff_getElem?.1 hmem
    have hlt : i < (views r).numLocalFacets := (hv.localFacets i f hi).2 ⟨e, he, hf⟩
    obtain ⟨info, f', e0, e1, g1, _⟩ := C33_facet_info hd r hr i hlt
    have hp := (ho r hr).penalty_ i f hi hlt
    rw [hpen r hr i info hlt g1] at hp
    obtain ⟨p1, p2⟩ := penalty_eq hd r hr N (areaR r) (volumeR r) area volume (hmeas r hr) (o r).K K (ho r hr).K i info f hlt g1 hi
    exact ⟨fun h => by rw [← hp, p1 e heI hf h], fun a ha hne hfa => by rw [← hp, p2 e a heI ha hne hf hfa]⟩

/-- The quadratic form of the global matrix: volume terms, and for each facet the terms of both sides together. -/
theorem form_poisson (hd : IsDistributed P dim elems num fnum tag views)
    (ref : Ref dim Nbf Nbm Nq nq) (g : Geometry dim Nq nq) (hg : g.Opposite P elems) (K : List Nat → Fin Nbm → ℝ)
    (pen : List Nat → ℝ) (o : Nat → Op dim Nbf Nbm Nq nq) (ho : ∀ r, r < P → Samples (views r) (o r) .IP ref g K pen) (X : List Nat → Fin Nbf → ℝ) :
    ∃ (blocks : Nat → List (Nat × Nat × (Fin Nbf → Fin Nbf → ℝ))) (T : List Nat → List Nat → ℝ),
      (∀ r, r < P → assemble (views r) (o r).localOp = some (blocks r)) ∧
      ∑ r ∈ Finset.range P, ∑ u ∈ Finset.range (elems r).length, ∑ k, X ((views r).elems.getD u []) k *
        rowApply mulVec (blocks r) (fun j => X ((views r).elems.getD j [])) u k =
        ∑ e ∈ allElems P elems, ((∑ q, g.absDetJ e q * ref.W q * kKq (K e) ref.matE_Q_T q * ∑ r, gradOf (g.jInv e) ref.Dxi_Q (X e) r q ^ 2) +
          ((Ghosts.facets dim e).map (T e)).sum) ∧
      (∀ f e a, InElems P elems e → InElems P elems a → e ≠ a → IsFacet e f → IsFacet a f →
        T e f + T a f = ∑ q, ref.w q * (- (fluxOf (g.normal f e) (kKDxq (K e) (ref.matE_q_T (g.localNo e f)) (g.jInvFacet f e) (ref.Dxi_q (g.localNo e f))) (X e) q +
          fluxOf (g.normal f e) (kKDxq (K a) (ref.matE_q_T (g.localNo a f)) (g.jInvFacet f a) (ref.Dxi_q (g.localNo a f))) (X a) q) *
          (Poisson.trace (ref.E_q (g.localNo e f)) (X e) q - Poisson.trace (ref.E_q (g.localNo a f)) (X a) q) +
        pen f * (normalLength (g.normal f e) q * (Poisson.trace (ref.E_q (g.localNo e f)) (X e) q - Poisson.trace (ref.E_q (g.localNo a f)) (X a) q) ^ 2))) ∧
      ∀ f e, InElems P elems e → IsFacet e f → (∀ a, InElems P elems a → IsFacet a f → a = e) →
        T e f = if tag f = bcNatural then 0 else ∑ q, ref.w q * (- (2 * fluxOf (g.normal f e) (kKDxq (K e) (ref.matE_q_T (g.localNo e f)) (g.jInvFacet f e) (ref.Dxi_q (g.localNo e f))) (X e) q) *
          Poisson.trace (ref.E_q (g.localNo e f)) (X e) q + pen f * (normalLength (g.normal f e) q * Poisson.trace (ref.E_q (g.localNo e f)) (X e) q ^ 2)) := by
  set d := meshOp .IP ref g K pen tag with hdef
  have h0 : ∀ r, ∃ blocks, r < P → assemble (views r) (o r).localOp = some blocks ∧
      ∀ u, u < (elems r).length → ∃ e, (views r).elems[u]? = some e ∧ e ∈ elems r ∧
        rowApply mulVec blocks (fun j => X ((views r).elems.getD j [])) u =
          mulVec (d.vol e) (X e) + ((Ghosts.facets dim e).map (meshFacet P elems d mulVec X e)).sum := by
    intro r
    by_cases hr : r < P
    · obtain ⟨b, h1, h2⟩ := row_mesh hd r hr (o r).localOp d (agrees hd r hr (o r) .IP ref g hg K pen (ho r hr)) mulVec X
      exact ⟨b, fun _ => ⟨h1, h2⟩⟩
    · exact ⟨[], fun h => absurd h hr⟩
  choose blocks hb using h0
  set V : List Nat → ℝ := fun e => ∑ k, X e k * mulVec (d.vol e) (X e) k with hV
  set T : List Nat → List Nat → ℝ := fun e f => ∑ k, X e k * meshFacet P elems d mulVec X e f k with hT
  refine ⟨blocks, T, fun r hr => (hb r hr).1, ?_, ?_, ?_⟩
  · have hVe : ∀ e, V e = ∑ q, g.absDetJ e q * ref.W q * kKq (K e) ref.matE_Q_T q * ∑ r, gradOf (g.jInv e) ref.Dxi_Q (X e) r q ^ 2 := by
      intro e
      rw [hV, hdef]
      exact volume_form _ _ _ _ _ _ _
    have hF : ∀ r ∈ Finset.range P, ∑ u ∈ Finset.range (elems r).length, ∑ k, X ((views r).elems.getD u []) k *
          rowApply mulVec (blocks r) (fun j => X ((views r).elems.getD j [])) u k =
        ∑ u ∈ Finset.range (elems r).length, (fun e => V e + ((Ghosts.facets dim e).map (T e)).sum) ((views r).elems.getD u []) := by
      intro r hr
      rw [Finset.mem_range] at hr
      apply Finset.sum_congr rfl; intro u hu
      rw [Finset.mem_range] at hu
      obtain ⟨e, e1, e2, e3⟩ := (hb r hr).2 u hu
      rw [e3, List.getD_eq_getElem?_getD, e1]
      simp only [Option.getD_some, hV, hT]
      rw [← map_sum_apply, ← Finset.sum_add_distrib]
      apply Finset.sum_congr rfl; intro k _
      rw [Pi.add_apply]; ring
    rw [Finset.sum_congr rfl hF, sum_ranks hd (fun e => V e + ((Ghosts.facets dim e).map (T e)).sum)]
    refine Finset.sum_congr rfl fun e _ => ?_
    rw [hVe]
  · intro f e a he ha hne hf hfa
    have e1 : T e f + T a f = ∑ q, ref.w q * (- (fluxOf (g.normal f e) (kKDxq (K e) (ref.matE_q_T (g.localNo e f)) (g.jInvFacet f e) (ref.Dxi_q (g.localNo e f))) (X e) q +
          fluxOf (g.normal f e) (kKDxq (K a) (ref.matE_q_T (g.localNo a f)) (g.jInvFacet f a) (ref.Dxi_q (g.localNo a f))) (X a) q) *
          (Poisson.trace (ref.E_q (g.localNo e f)) (X e) q - Poisson.trace (ref.E_q (g.localNo a f)) (X a) q) +
        pen f * (normalLength (g.normal f e) q * (Poisson.trace (ref.E_q (g.localNo e f)) (X e) q - Poisson.trace (ref.E_q (g.localNo a f)) (X a) q) ^ 2)) := by
      have hform := skeleton_form ref.w ![kKDxq (K e) (ref.matE_q_T (g.localNo e f)) (g.jInvFacet f e) (ref.Dxi_q (g.localNo e f)),
          kKDxq (K a) (ref.matE_q_T (g.localNo a f)) (g.jInvFacet f a) (ref.Dxi_q (g.localNo a f))] (g.normal f e)
          ![ref.E_q (g.localNo e f), ref.E_q (g.localNo a f)] (normalLength (g.normal f e)) (pen f) ![X e, X a]
      have hsk : ∀ x y, skel2 .IP ref (pen f) (g.normal f e) ![K e, K a] ![g.jInvFacet f e, g.jInvFacet f a]
          ![g.localNo e f, g.localNo a f] ![g.absDetJ e, g.absDetJ a] x y = kAssembleSurface ![-0.5, 0.5] ![epsilon * 0.5, -(epsilon * 0.5)] ![pen f, -pen f] ref.w
          ![kKDxq (K e) (ref.matE_q_T (g.localNo e f)) (g.jInvFacet f e) (ref.Dxi_q (g.localNo e f)),
          kKDxq (K a) (ref.matE_q_T (g.localNo a f)) (g.jInvFacet f a) (ref.Dxi_q (g.localNo a f))] (g.normal f e)
          ![ref.E_q (g.localNo e f), ref.E_q (g.localNo a f)]
          (fun s => kLiftIp ((![ref.E_q (g.localNo e f), ref.E_q (g.localNo a f)] : Fin 2 → Fin Nbf → Fin nq → ℝ) s) (normalLength (g.normal f e))) x y := by
        intro x y
        unfold skel2
        congr 1
        · funext s; fin_cases s <;> rfl
        · funext s; fin_cases s <;> rfl
        · funext s; fin_cases s <;> rfl
      have hfl : ∀ x y, skel2 .IP ref (pen f) (g.normal f a) ![K a, K e] ![g.jInvFacet f a, g.jInvFacet f e]
          ![g.localNo a f, g.localNo e f] ![g.absDetJ a, g.absDetJ e] x y =
          skel2 .IP ref (pen f) (g.normal f e) ![K e, K a] ![g.jInvFacet f e, g.jInvFacet f a]
          ![g.localNo e f, g.localNo a f] ![g.absDetJ e, g.absDetJ a] (1 - x) (1 - y) := by
        intro x y
        rw [← skel2_flip, hg f e a he ha hne hf hfa]
        simp only [vec2_flip]
      have hTe : T e f = ∑ k, X e k * (mulVec (skel2 .IP ref (pen f) (g.normal f e) ![K e, K a] ![g.jInvFacet f e, g.jInvFacet f a]
          ![g.localNo e f, g.localNo a f] ![g.absDetJ e, g.absDetJ a] 0 0) (X e) k +
          mulVec (skel2 .IP ref (pen f) (g.normal f e) ![K e, K a] ![g.jInvFacet f e, g.jInvFacet f a]
          ![g.localNo e f, g.localNo a f] ![g.absDetJ e, g.absDetJ a] 0 1) (X a) k) := by
        simp only [hT, meshFacet, nbr_some hd.mesh he hf ha (Ne.symm hne) hfa]; rfl
      have hTa : T a f = ∑ k, X a k * (mulVec (skel2 .IP ref (pen f) (g.normal f e) ![K e, K a] ![g.jInvFacet f e, g.jInvFacet f a]
          ![g.localNo e f, g.localNo a f] ![g.absDetJ e, g.absDetJ a] 1 0) (X e) k +
          mulVec (skel2 .IP ref (pen f) (g.normal f e) ![K e, K a] ![g.jInvFacet f e, g.jInvFacet f a]
          ![g.localNo e f, g.localNo a f] ![g.absDetJ e, g.absDetJ a] 1 1) (X a) k) := by
        simp only [hT, meshFacet, nbr_some hd.mesh ha hfa he hne hf]
        have b1 : d.diag f a e = skel2 .IP ref (pen f) (g.normal f e) ![K e, K a] ![g.jInvFacet f e, g.jInvFacet f a]
          ![g.localNo e f, g.localNo a f] ![g.absDetJ e, g.absDetJ a] 1 1 := hfl 0 0
        have b2 : d.off f a e = skel2 .IP ref (pen f) (g.normal f e) ![K e, K a] ![g.jInvFacet f e, g.jInvFacet f a]
          ![g.localNo e f, g.localNo a f] ![g.absDetJ e, g.absDetJ a] 1 0 := hfl 0 1
        rw [b1, b2]
        apply Finset.sum_congr rfl; intro k _
        rw [Pi.add_apply]; ring
      rw [hTe, hTa]
      simp only [hsk]
      rw [Fin.sum_univ_two] at hform
      exact hform
    exact e1
  · intro f e he hf honly
    have hTe : T e f = ∑ k, X e k * (match d.bnd f e with
        | some b => mulVec b (X e)
        | none => 0) k := by
      simp only [hT, meshFacet, nbr_none honly]
      cases d.bnd f e <;> rfl
    rw [hTe]
    by_cases hn : tag f = bcNatural
    · have : d.bnd f e = none := by rw [hdef]; unfold meshOp; simp only; rw [if_pos hn]
      rw [this, if_pos hn]
      simp only [Pi.zero_apply, mul_zero, Finset.sum_const_zero]
    · have : d.bnd f e = some (kAssembleSurface (fun _ => -1) (fun _ => epsilon) (fun _ => pen f) ref.w
          (fun _ => kKDxq (K e) (ref.matE_q_T (g.localNo e f)) (g.jInvFacet f e) (ref.Dxi_q (g.localNo e f)))
          (g.normal f e) (fun _ => ref.E_q (g.localNo e f)) (fun _ => kLiftIp (ref.E_q (g.localNo e f)) (normalLength (g.normal f e))) 0 0) := by
        rw [hdef]; unfold meshOp; simp only; rw [if_neg hn]; rfl
      rw [this, if_neg hn]
      simp only
      rw [boundary_form]


/-- The flux of the other side, with the normal of this side. -/
theorem flux_flip (g : Geometry dim Nq nq) (hg : g.Opposite P elems) (K : List Nat → Fin Nbm → ℝ) (ref : Ref dim Nbf Nbm Nq nq) (f e a : List Nat)
    (he : InElems P elems e) (ha : InElems P elems a) (hne : e ≠ a) (hf : IsFacet e f) (hfa : IsFacet a f) (x : Fin Nbf → ℝ) :
    ∑ q, ref.w q * (fluxOf (g.normal f e) (kKDxq (K a) (ref.matE_q_T (g.localNo a f)) (g.jInvFacet f a) (ref.Dxi_q (g.localNo a f))) x q ^ 2 / normalLength (g.normal f e) q) =
      ∑ q, ref.w q * (fluxOf (g.normal f a) (kKDxq (K a) (ref.matE_q_T (g.localNo a f)) (g.jInvFacet f a) (ref.Dxi_q (g.localNo a f))) x q ^ 2 / normalLength (g.normal f a) q) := by
  apply Finset.sum_congr rfl; intro q _
  rw [hg f e a he ha hne hf hfa, normalLength_neg]
  congr 2
  unfold fluxOf
  simp only [nflux_neg]
  rw [← neg_sq, ← Finset.sum_neg_distrib]
  congr 1
  apply Finset.sum_congr rfl; intro l _; ring

/-- **C75 (Poisson)**: with the penalty the code computes, the global interior penalty matrix is positive semidefinite: the
product of any vector with its image, summed over all ranks, is not negative. -/
theorem C75_poisson (hd : IsDistributed P dim elems num fnum tag views)
    (ref : Ref dim Nbf Nbm Nq nq) (g : Geometry dim Nq nq) (hg : g.Opposite P elems) (K : List Nat → Fin Nbm → ℝ)
    (pen : List Nat → ℝ) (o : Nat → Op dim Nbf Nbm Nq nq) (ho : ∀ r, r < P → Samples (views r) (o r) .IP ref g K pen)
    (N : Nat) (areaR volumeR : Nat → Nat → ℝ) (area volume : List Nat → ℝ)
    (hmeas : ∀ r, r < P → Measures (views r) (areaR r) (volumeR r) area volume)
    (hpen : ∀ r, r < P → ∀ i info, i < (views r).numLocalFacets → facetInfo (views r) i = some info →
      (o r).penalty_ i = preparePenalty dim N (areaR r) (volumeR r) (o r).K i info)
    (hc : Coercive P dim N elems ref g K area volume) (X : List Nat → Fin Nbf → ℝ) :
    ∃ blocks : Nat → List (Nat × Nat × (Fin Nbf → Fin Nbf → ℝ)),
      (∀ r, r < P → assemble (views r) (o r).localOp = some (blocks r)) ∧
      0 ≤ ∑ r ∈ Finset.range P, ∑ u ∈ Finset.range (elems r).length, ∑ k, X ((views r).elems.getD u []) k *
        rowApply mulVec (blocks r) (fun j => X ((views r).elems.getD j [])) u k := by
  obtain ⟨blocks, T, hb, hsum, hin, hbd⟩ := form_poisson hd ref g hg K pen o ho X
  refine ⟨blocks, hb, ?_⟩
  rw [hsum]
  have hpf := penalty_facet hd ref g K pen o ho N areaR volumeR area volume hmeas hpen
  have hD : (0 : ℝ) < dim + 1 := by positivity
  set V : List Nat → ℝ := fun e => ∑ q, g.absDetJ e q * ref.W q * kKq (K e) ref.matE_Q_T q * ∑ r, gradOf (g.jInv e) ref.Dxi_Q (X e) r q ^ 2 with hV
  apply total_nonneg hd.mesh V T
  · intro f e a he ha hne hf hfa
    obtain ⟨c0, t0⟩ := side_trace hc hd.mesh.dim e f he hf (X e)
    obtain ⟨c1, t1⟩ := side_trace hc hd.mesh.dim a f ha hfa (X a)
    rw [hin f e a he ha hne hf hfa]
    refine skeleton_bound ref.w (normalLength (g.normal f e)) _ _ _ (dim + 1 : ℝ) _ _ (V e) (V a) (pen f) hc.w (fun q => Real.sqrt_nonneg _)
      (fun q h => flux_zero _ _ _ _ h) (fun q h => flux_zero _ _ _ _ h) hD c0 c1 t0 ?_ (le_of_eq ((hpf e f he hf).2 a ha hne hfa).symm)
    refine le_trans (le_of_eq ?_) t1
    exact flux_flip g hg K ref f e a he ha hne hf hfa (X a)
  · intro f e he hf honly
    obtain ⟨c0, t0⟩ := side_trace hc hd.mesh.dim e f he hf (X e)
    have hVnn : 0 ≤ V e := by
      apply Finset.sum_nonneg; intro q _
      have := le_trans (hc.positive e he).le (hc.lower e he q)
      exact mul_nonneg (mul_nonneg (mul_nonneg (hc.detJ e he q) (hc.W q)) this) (Finset.sum_nonneg (fun r _ => sq_nonneg _))
    rw [hbd f e he hf honly]
    split
    · have := div_nonneg hVnn hD.le
      linarith
    · exact boundary_bound ref.w (normalLength (g.normal f e)) _ _ (dim + 1 : ℝ) _ (V e) (pen f) hc.w (fun q => Real.sqrt_nonneg _)
        (fun q h => flux_zero _ _ _ _ h) hD c0 t0 (le_of_eq ((hpf e f he hf).1 honly).symm)

/-- Coefficients at the points lie between the smallest and the largest coefficient when the evaluation rows are convex
combinations. -/
theorem convex_bounds {n : Nat} (K : Fin Nbm → ℝ) (mE : Fin n → Fin Nbm → ℝ) (h0 : ∀ q m, 0 ≤ mE q m) (h1 : ∀ q, ∑ m, mE q m = 1)
    (hK : 0 < ⨅ m, K m) (q : Fin n) : (⨅ m, K m) ≤ kKq K mE q ∧ |kKq K mE q| ≤ ⨆ m, K m := by
  have hlow : (⨅ m, K m) ≤ kKq K mE q := by
    calc (⨅ m, K m) = ∑ m, (⨅ m, K m) * mE q m := by rw [← Finset.mul_sum, h1, mul_one]
      _ ≤ _ := Finset.sum_le_sum (fun m _ => mul_le_mul_of_nonneg_right (ciInf_le (Set.finite_range K).bddBelow m) (h0 q m))
  refine ⟨hlow, ?_⟩
  rw [abs_of_pos (lt_of_lt_of_le hK hlow)]
  calc kKq K mE q ≤ ∑ m, (⨆ m, K m) * mE q m :=
        Finset.sum_le_sum (fun m _ => mul_le_mul_of_nonneg_right (le_ciSup (Set.finite_range K).bddAbove m) (h0 q m))
    _ = _ := by rw [← Finset.mul_sum, h1, mul_one]

theorem cauchy_normal (n g : Fin dim → ℝ) : (∑ r, n r * g r) ^ 2 ≤ (∑ r, n r * n r) * ∑ r, g r ^ 2 := by
  have := Finset.sum_mul_sq_le_sq_mul_sq Finset.univ n g
  simpa [sq] using this

/-- The inverse trace inequality holds with the constant of degree 0 when the gradient is the same at all points of the element,
with the area and the volume the code computes. -/
theorem trace_constant_gradient (W J : Fin Nq → ℝ) (w : Fin nq → ℝ) (n : Fin dim → Fin nq → ℝ) (hdim : 0 < dim) (hw : ∀ q, 0 ≤ w q)
    (area volume : ℝ) (ha : area = ∑ q, w q * normalLength n q) (hv : volume = ∑ q, W q * J q) (hvpos : 0 < volume)
    (grad : Fin dim → ℝ) :
    ∑ q, w q * ((∑ r, n r q * grad r) ^ 2 / normalLength n q) ≤
      traceConstant dim 0 * (area / volume) * ∑ q, J q * W q * ∑ r, grad r ^ 2 := by
  have ht : traceConstant dim 0 = 1 := by
    unfold traceConstant
    have : (dim : ℝ) ≠ 0 := by exact_mod_cast hdim.ne'
    push_cast; field_simp
    ring
  have e1 : ∑ q, J q * W q * ∑ r, grad r ^ 2 = volume * ∑ r, grad r ^ 2 := by
    rw [hv, Finset.sum_mul]; apply Finset.sum_congr rfl; intro q _; ring
  rw [ht, e1, one_mul, div_mul_eq_mul_div, mul_comm volume, ← mul_assoc, mul_div_assoc, div_self hvpos.ne', mul_one, ha, Finset.sum_mul]
  apply Finset.sum_le_sum; intro q _
  rw [mul_assoc]
  apply mul_le_mul_of_nonneg_left _ (hw q)
  have hL : normalLength n q ^ 2 = ∑ r, n r q * n r q := Real.sq_sqrt (Finset.sum_nonneg (fun j _ => mul_self_nonneg _))
  have hc := cauchy_normal (fun r => n r q) grad
  rw [← hL] at hc
  rcases (Real.sqrt_nonneg (∑ j, n j q * n j q)).eq_or_lt with h | h
  · have h' : normalLength n q = 0 := h.symm
    rw [h']; simp
  · have h' : 0 < normalLength n q := h
    rw [div_le_iff₀ h']
    calc _ ≤ normalLength n q ^ 2 * ∑ r, grad r ^ 2 := hc
      _ = _ := by ring

/-- With positive coefficients that are convex combinations at the points, the hypotheses of C75 follow from the inverse trace
inequality. -/
theorem coercive_of_trace (N : Nat) (ref : Ref dim Nbf Nbm Nq nq) (g : Geometry dim Nq nq) (K : List Nat → Fin Nbm → ℝ)
    (area volume : List Nat → ℝ) (hw : ∀ q, 0 ≤ ref.w q) (hW : ∀ q, 0 ≤ ref.W q)
    (hJ : ∀ e, InElems P elems e → ∀ q, 0 ≤ g.absDetJ e q)
    (harea : ∀ e f, InElems P elems e → IsFacet e f → 0 < area f)
    (hvol : ∀ e, InElems P elems e → 0 < volume e)
    (hK : ∀ e, InElems P elems e → ∀ m, 0 < K e m) (hm : 0 < Nbm)
    (hEQ : ∀ q m, 0 ≤ ref.matE_Q_T q m) (hEQ1 : ∀ q, ∑ m, ref.matE_Q_T q m = 1)
    (hEq : ∀ l q m, 0 ≤ ref.matE_q_T l q m) (hEq1 : ∀ l q, ∑ m, ref.matE_q_T l q m = 1)
    (htr : ∀ e f, InElems P elems e → IsFacet e f → ∀ v : Fin Nbf → ℝ,
      ∑ q, ref.w q * ((∑ r, g.normal f e r q * gradOf (g.jInvFacet f e) (ref.Dxi_q (g.localNo e f)) v r q) ^ 2 / normalLength (g.normal f e) q) ≤
        traceConstant dim N * (area f / volume e) * ∑ q, g.absDetJ e q * ref.W q * ∑ r, gradOf (g.jInv e) ref.Dxi_Q v r q ^ 2) :
    Coercive P dim N elems ref g K area volume where
  w := hw
  W := hW
  detJ := hJ
  areaPos := harea
  volumePos := hvol
  positive := by
    intro e he
    haveI : Nonempty (Fin Nbm) := ⟨⟨0, hm⟩⟩
    obtain ⟨m, hm⟩ := exists_eq_ciInf_of_finite (f := K e)
    rw [← hm]; exact hK e he m
  lower := by
    intro e he q
    haveI : Nonempty (Fin Nbm) := ⟨⟨0, hm⟩⟩
    obtain ⟨m, hm⟩ := exists_eq_ciInf_of_finite (f := K e)
    exact (convex_bounds (K e) ref.matE_Q_T hEQ hEQ1 (hm ▸ hK e he m) q).1
  upper := by
    intro e f he hf q
    haveI : Nonempty (Fin Nbm) := ⟨⟨0, hm⟩⟩
    obtain ⟨m, hm⟩ := exists_eq_ciInf_of_finite (f := K e)
    exact (convex_bounds (K e) (ref.matE_q_T (g.localNo e f)) (hEq _) (hEq1 _) (hm ▸ hK e he m) q).2
  traceIneq := htr

/-- What the code computes as area of a facet (src/form/DGCurvilinearCommon.cpp lines 90-94) and volume of an element (lines 55-59),
on a mesh of straight elements with elements of degree one and coefficients that are convex combinations: then the hypotheses of
C75 hold without assuming an inverse trace inequality. -/
theorem coercive_degree_one (hdim : 0 < dim) (ref : Ref dim Nbf Nbm Nq nq) (g : Geometry dim Nq nq) (K : List Nat → Fin Nbm → ℝ)
    (area volume : List Nat → ℝ) (hw : ∀ q, 0 ≤ ref.w q) (hW : ∀ q, 0 ≤ ref.W q)
    (hJ : ∀ e, InElems P elems e → ∀ q, 0 ≤ g.absDetJ e q)
    (harea : ∀ e f, InElems P elems e → IsFacet e f → area f = ∑ q, ref.w q * normalLength (g.normal f e) q ∧ 0 < area f)
    (hvol : ∀ e, InElems P elems e → volume e = ∑ q, ref.W q * g.absDetJ e q ∧ 0 < volume e)
    (hK : ∀ e, InElems P elems e → ∀ m, 0 < K e m) (hm : 0 < Nbm)
    (hEQ : ∀ q m, 0 ≤ ref.matE_Q_T q m) (hEQ1 : ∀ q, ∑ m, ref.matE_Q_T q m = 1)
    (hEq : ∀ l q m, 0 ≤ ref.matE_q_T l q m) (hEq1 : ∀ l q, ∑ m, ref.matE_q_T l q m = 1)
    (hgrad : ∀ e f, InElems P elems e → IsFacet e f → ∀ v : Fin Nbf → ℝ, ∃ G : Fin dim → ℝ,
      (∀ r q, gradOf (g.jInv e) ref.Dxi_Q v r q = G r) ∧ (∀ r q, gradOf (g.jInvFacet f e) (ref.Dxi_q (g.localNo e f)) v r q = G r)) :
    Coercive P dim 0 elems ref g K area volume :=
  coercive_of_trace 0 ref g K area volume hw hW hJ (fun e f he hf => (harea e f he hf).2) (fun e he => (hvol e he).2) hK hm
    hEQ hEQ1 hEq hEq1 <| by
    intro e f he hf v
    obtain ⟨G, hG, hG'⟩ := hgrad e f he hf v
    simp only [hG, hG']
    exact trace_constant_gradient ref.W (g.absDetJ e) ref.w (g.normal f e) hdim hw (area f) (volume e) (harea e f he hf).1
      (hvol e he).1 (hvol e he).2 G

/-! ## The hypotheses of C75 can be met -/

/-- Basis functions x and y, one point per element and facet, constant coefficient basis. -/
noncomputable def xyRef : Ref 2 2 1 1 1 :=
  ⟨fun _ _ => 1 / 3, fun k e _ => if k = e then 1 else 0, fun _ _ => 1, fun _ => 1,
   fun l k _ => l * k.val, fun _ k e _ => if k = e then 1 else 0, fun _ _ _ => 1, fun _ => 1, fun _ _ => 1⟩

/-- Affine geometry of the strip with normals that differ between the facets. -/
noncomputable def idGeometry : Geometry 2 1 1 :=
  ⟨fun _ _ => 1, fun _ i j _ => if i = j then 1 else 0, fun _ _ i j _ => if i = j then 1 else 0,
   (exGeometry (Nq := 1) (nq := 1)).normal, (exGeometry (Nq := 1) (nq := 1)).localNo⟩

theorem idOpposite : idGeometry.Opposite 3 Ghosts.exElems := exOpposite (Nq := 1) (nq := 1)

/-- Coefficient that differs between the elements. -/
noncomputable def exCoefficient (e : List Nat) (_ : Fin 1) : ℝ := 1 + e.sum

theorem exCoercive : Coercive 3 2 0 Ghosts.exElems xyRef idGeometry exCoefficient (fun _ => 1000) (fun _ => 1) where
  w := fun _ => by simp [xyRef]
  W := fun _ => by simp [xyRef]
  detJ := fun _ _ _ => by simp [idGeometry]
  areaPos := fun _ _ _ _ => by norm_num
  volumePos := fun _ _ => by norm_num
  positive := by intro e _; rw [ciInf_unique]; unfold exCoefficient; positivity
  lower := by intro e _ q; rw [ciInf_unique]; simp [kKq, xyRef]
  upper := by
    intro e f _ _ q
    rw [ciSup_unique]; simp only [kKq, xyRef, Fin.sum_univ_one, mul_one]
    rw [abs_of_nonneg (by unfold exCoefficient; positivity)]; rfl
  traceIneq := by
    rintro e f ⟨s, hs, he⟩ hf v
    have hall : ∀ s, s < 3 → ∀ a ∈ Ghosts.exElems s, a ∈ Ghosts.exAll := by decide
    have hv : ∀ s, s < 3 → ∀ a ∈ Ghosts.exElems s, a.length = 3 ∧ a.Pairwise (· < ·) := by decide
    have h0 : ∀ a ∈ Ghosts.exAll, ∀ f ∈ Ghosts.facets 2 a, (2 * a.sum - 3 * f.sum : ℤ) ≤ 100 ∧ - 100 ≤ (2 * a.sum - 3 * f.sum : ℤ) := by decide +kernel
    obtain ⟨b1, b2⟩ := h0 e (hall s hs e he) f ((Ghosts.facets_spec 2 (by decide) e (hv s hs e he).1 (hv s hs e he).2).2 f |>.2 hf)
    have hgrad : ∀ (r : Fin 2), gradOf (idGeometry.jInvFacet f e) (xyRef.Dxi_q (idGeometry.localNo e f)) v r 0 = v r := by
      intro r; unfold gradOf idGeometry xyRef; fin_cases r <;> simp
    have hgrad' : ∀ (r : Fin 2), gradOf (idGeometry.jInv e) xyRef.Dxi_Q v r 0 = v r := by
      intro r; unfold gradOf idGeometry xyRef; fin_cases r <;> simp
    simp only [Fin.sum_univ_one, Fin.sum_univ_two, Fin.isValue, hgrad, hgrad']
    set c : ℝ := ((2 * e.sum - 3 * f.sum : ℤ) : ℝ) with hc
    have hn0 : idGeometry.normal f e 0 0 = c := by simp [idGeometry, exGeometry, hc]
    have hn1 : idGeometry.normal f e 1 0 = c * 2 := by simp [idGeometry, exGeometry, hc]; left; norm_num
    have hlen : normalLength (idGeometry.normal f e) 0 ^ 2 = 5 * c ^ 2 := by
      unfold normalLength
      rw [Real.sq_sqrt (Finset.sum_nonneg (fun j _ => mul_self_nonneg _)), Fin.sum_univ_two, hn0, hn1]; ring
    have hL0 : 0 ≤ normalLength (idGeometry.normal f e) 0 := Real.sqrt_nonneg _
    set L := normalLength (idGeometry.normal f e) 0
    have hc1 : c ≤ 100 := by rw [hc]; exact_mod_cast b1
    have hc2 : -100 ≤ c := by rw [hc]; exact_mod_cast b2
    have hL1 : L ≤ 1000 := by nlinarith
    rw [hn0, hn1]
    have ht : traceConstant 2 0 = 1 := by unfold traceConstant; norm_num
    rw [ht]
    simp only [xyRef, idGeometry, one_mul, div_one]
    have hle : (c * v 0 + c * 2 * v 1) ^ 2 ≤ L * L * (v 0 ^ 2 + v 1 ^ 2) := by
      rw [← sq, hlen]; nlinarith [sq_nonneg (2 * v 0 - v 1), sq_nonneg c, mul_nonneg (sq_nonneg c) (sq_nonneg (2 * v 0 - v 1))]
    rcases hL0.eq_or_lt with h | h
    · rw [← h, div_zero]; positivity
    · rw [div_le_iff₀ h]
      refine le_trans hle ?_
      have : 0 ≤ v 0 ^ 2 + v 1 ^ 2 := by positivity
      nlinarith [mul_nonneg this h.le]

open Classical in
/-- Penalty of the facets of the strip with `exCoefficient`. -/
noncomputable def exPenalty (f : List Nat) : ℝ :=
  if h : ∃ e a, InElems 3 Ghosts.exElems e ∧ InElems 3 Ghosts.exElems a ∧ e ≠ a ∧ IsFacet e f ∧ IsFacet a f then
    3 * sidePenalty 2 0 1000 1 (exCoefficient h.choose) / 4 + 3 * sidePenalty 2 0 1000 1 (exCoefficient h.choose_spec.choose) / 4
  else if h : ∃ e, InElems 3 Ghosts.exElems e ∧ IsFacet e f then 3 * sidePenalty 2 0 1000 1 (exCoefficient h.choose) else 0

/-- The strip on three ranks: all hypotheses of C75 hold together. -/
theorem example_coercive : ∃ (num fnum : List Nat → Nat) (views : Nat → View) (o : Nat → Op 2 2 1 1 1),
    IsDistributed 3 2 Ghosts.exElems num fnum exTag views ∧ idGeometry.Opposite 3 Ghosts.exElems ∧
    (∀ r, r < 3 → Samples (views r) (o r) .IP xyRef idGeometry exCoefficient exPenalty) ∧
    (∀ r, r < 3 → Measures (views r) (fun _ => 1000) (fun _ => 1) (fun _ => 1000) (fun _ => 1)) ∧
    (∀ r, r < 3 → ∀ i info, i < (views r).numLocalFacets → facetInfo (views r) i = some info →
      (o r).penalty_ i = preparePenalty 2 0 (fun _ => 1000) (fun _ => 1) (o r).K i info) ∧
    Coercive 3 2 0 Ghosts.exElems xyRef idGeometry exCoefficient (fun _ => 1000) (fun _ => 1) := by
  obtain ⟨num, fnum, views, o, h, ho⟩ := example_samples_of idGeometry (fun _ _ => rfl) .IP xyRef exCoefficient exPenalty
  have hmeas : ∀ r, r < 3 → Measures (views r) (fun _ => 1000) (fun _ => 1) (fun _ => 1000) (fun _ => 1) :=
    fun r _ => ⟨fun _ _ _ _ => rfl, fun _ _ _ => rfl⟩
  refine ⟨num, fnum, views, o, h, idOpposite, ho, hmeas, ?_, exCoercive⟩
  intro r hr i info hi hinfo
  have hv := h.view r hr
  obtain ⟨info', f, e0, e1, g1, g2, g3, g4, g5, g6, g7, _⟩ := C33_facet_info h r hr i hi
  rw [(ho r hr).penalty_ i f g2 hi]
  obtain ⟨p1, p2⟩ := penalty_eq h r hr 0 _ _ _ _ (hmeas r hr) (o r).K exCoefficient (ho r hr).K i info f hi hinfo g2
  unfold exPenalty
  by_cases hex : ∃ e a, InElems 3 Ghosts.exElems e ∧ InElems 3 Ghosts.exElems a ∧ e ≠ a ∧ IsFacet e f ∧ IsFacet a f
  · rw [dif_pos hex]
    obtain ⟨q1, q2, q3, q4, q5⟩ := hex.choose_spec.choose_spec
    rw [p2 _ _ q1 q2 q3 q4 q5]; norm_num
  · rw [dif_neg hex]
    have hex' : ∃ e, InElems 3 Ghosts.exElems e ∧ IsFacet e f := ⟨e0, mem_inElems hv g3, g5⟩
    rw [dif_pos hex']
    obtain ⟨q1, q2⟩ := hex'.choose_spec
    rw [p1 _ q1 q2 (fun a ha hfa => Classical.byContradiction (fun hne => hex ⟨a, _, ha, q1, hne, hfa, q2⟩))]; norm_num

end Tandem.Poisson
