import Verif.Props.PoissonMatrix
/-! # C71 for method BR2: symmetric if the coefficient is constant along each facet, not symmetric in general -/
namespace Tandem.Poisson
open Tandem.DGTopo Tandem.Spec
open Tandem.DGAssembly

variable {dim Nbf Nbm Nq nq : Nat}

/-- Moments of a product of traces with a component of the normal. -/
noncomputable def moment (w : Fin nq → ℝ) (n : Fin dim → Fin nq → ℝ) (Es Ex : Fin Nbf → Fin nq → ℝ) (i : Fin dim) (m l : Fin Nbf) : ℝ :=
  ∑ q, Es m q * Ex l q * n i q * w q

theorem kLift_moment (Minv : Fin Nbf → Fin Nbf → ℝ) (Es Ex : Fin Nbf → Fin nq → ℝ) (n : Fin dim → Fin nq → ℝ)
    (w : Fin nq → ℝ) (l : Fin Nbf) (i : Fin dim) (u : Fin Nbf) :
    kLift Minv Es Ex n w l i u = 0.5 * ∑ m, Minv u m * moment w n Es Ex i m l := by
  unfold kLift moment
  rw [Finset.mul_sum]
  apply Finset.sum_congr rfl; intro m _
  rw [Finset.mul_sum, Finset.mul_sum]
  apply Finset.sum_congr rfl; intro q _; ring

theorem br2_term (w : Fin nq → ℝ) (n : Fin dim → Fin nq → ℝ) (Es Ex : Fin Nbf → Fin nq → ℝ) (c : ℝ) (k : Fin Nbf) (i : Fin dim)
    (g : Fin Nbf → ℝ) :
    ∑ q, w q * (Ex k q * (0.5 * n i q * ∑ u, c * Es u q * g u)) = 0.5 * c * ∑ u, moment w n Es Ex i u k * g u := by
  unfold moment
  simp only [Finset.mul_sum, Finset.sum_mul]
  rw [Finset.sum_comm]
  apply Finset.sum_congr rfl; intro u _
  apply Finset.sum_congr rfl; intro q _
  ring

theorem quad_sym (Minv : Fin Nbf → Fin Nbf → ℝ) (hs : ∀ u m, Minv u m = Minv m u) (a b : Fin Nbf → ℝ) :
    ∑ u, a u * ∑ m, Minv u m * b m = ∑ u, b u * ∑ m, Minv u m * a m := by
  simp only [Finset.mul_sum]
  rw [Finset.sum_comm]
  apply Finset.sum_congr rfl; intro u _
  apply Finset.sum_congr rfl; intro m _
  rw [hs m u]; ring

theorem liftSkeleton_sym (Minv : Fin 2 → Fin Nbf → Fin Nbf → ℝ) (E : Fin 2 → Fin Nbf → Fin nq → ℝ)
    (Kq : Fin 2 → Fin nq → ℝ) (n : Fin dim → Fin nq → ℝ) (w : Fin nq → ℝ)
    (hM : ∀ s u m, Minv s u m = Minv s m u) (hK : ∀ s q p, Kq s q = Kq s p) :
    LiftSym w E (fun x => kLiftSkeleton Minv E Kq n w x) := by
  by_cases hnq : nq = 0
  · subst hnq; intro x y k l; simp
  have hc : ∀ s, ∃ c, ∀ q, Kq s q = c := fun s => ⟨Kq s ⟨0, by omega⟩, fun q => hK s _ _⟩
  choose c hc using hc
  have expand : ∀ x y k l, ∑ q, w q * (E x k q * kLiftSkeleton Minv E Kq n w y l q) =
      ∑ i, (0.25 * c 0 * (∑ u, moment w n (E 0) (E x) i u k * ∑ m, Minv 0 u m * moment w n (E 0) (E y) i m l) +
        0.25 * c 1 * (∑ u, moment w n (E 1) (E x) i u k * ∑ m, Minv 1 u m * moment w n (E 1) (E y) i m l)) := by
    intro x y k l
    unfold kLiftSkeleton
    have e1 : ∀ q, w q * (E x k q * ∑ i, 0.5 * n i q * ((∑ u, Kq 0 q * E 0 u q * kLift (Minv 0) (E 0) (E y) n w l i u) +
        ∑ v, Kq 1 q * E 1 v q * kLift (Minv 1) (E 1) (E y) n w l i v)) =
        ∑ i, (w q * (E x k q * (0.5 * n i q * ∑ u, c 0 * E 0 u q * kLift (Minv 0) (E 0) (E y) n w l i u)) +
          w q * (E x k q * (0.5 * n i q * ∑ u, c 1 * E 1 u q * kLift (Minv 1) (E 1) (E y) n w l i u))) := by
      intro q
      rw [Finset.mul_sum, Finset.mul_sum]
      apply Finset.sum_congr rfl; intro i _
      rw [hc 0, hc 1]; ring
    simp only [e1]
    rw [Finset.sum_comm]
    apply Finset.sum_congr rfl; intro i _
    rw [Finset.sum_add_distrib, br2_term, br2_term]
    have e2 : ∀ s, ∑ u, moment w n (E s) (E x) i u k * kLift (Minv s) (E s) (E y) n w l i u =
        0.5 * ∑ u, moment w n (E s) (E x) i u k * ∑ m, Minv s u m * moment w n (E s) (E y) i m l := by
      intro s
      rw [Finset.mul_sum]
      apply Finset.sum_congr rfl; intro u _
      rw [kLift_moment]; ring
    rw [e2, e2]; ring
  intro x y k l
  rw [expand, expand]
  apply Finset.sum_congr rfl; intro i _
  rw [quad_sym (Minv 0) (hM 0), quad_sym (Minv 1) (hM 1)]

theorem liftBoundary_sym (Minv : Fin Nbf → Fin Nbf → ℝ) (E : Fin Nbf → Fin nq → ℝ)
    (Kq : Fin nq → ℝ) (n : Fin dim → Fin nq → ℝ) (w : Fin nq → ℝ)
    (hM : ∀ u m, Minv u m = Minv m u) (hK : ∀ q p, Kq q = Kq p) :
    LiftSym w (fun _ => E) (fun _ => kLiftBoundary Minv E Kq n w) := by
  by_cases hnq : nq = 0
  · subst hnq; intro x y k l; simp
  obtain ⟨c, hc⟩ : ∃ c, ∀ q, Kq q = c := ⟨Kq ⟨0, by omega⟩, fun q => hK _ _⟩
  have expand : ∀ k l, ∑ q, w q * (E k q * kLiftBoundary Minv E Kq n w l q) =
      ∑ i, c * ∑ u, moment w n E E i u k * ∑ m, Minv u m * moment w n E E i m l := by
    intro k l
    unfold kLiftBoundary
    have e0 : ∀ (i : Fin dim) u, (∑ s, ∑ p, Minv u s * E s p * E l p * n i p * w p) = ∑ m, Minv u m * moment w n E E i m l := by
      intro i u
      apply Finset.sum_congr rfl; intro m _
      unfold moment
      rw [Finset.mul_sum]
      apply Finset.sum_congr rfl; intro p _; ring
    simp only [e0]
    have e1 : ∀ q, w q * (E k q * ∑ i, ∑ u, n i q * Kq q * E u q * ∑ m, Minv u m * moment w n E E i m l) =
        ∑ i, 2 * (w q * (E k q * (0.5 * n i q * ∑ u, c * E u q * ∑ m, Minv u m * moment w n E E i m l))) := by
      intro q
      rw [Finset.mul_sum, Finset.mul_sum]
      apply Finset.sum_congr rfl; intro i _
      have : ∑ u, n i q * Kq q * E u q * ∑ m, Minv u m * moment w n E E i m l =
          n i q * ∑ u, c * E u q * ∑ m, Minv u m * moment w n E E i m l := by
        rw [Finset.mul_sum]
        apply Finset.sum_congr rfl; intro u _
        rw [hc]; ring
      rw [this]; ring
    simp only [e1]
    rw [Finset.sum_comm]
    apply Finset.sum_congr rfl; intro i _
    rw [← Finset.mul_sum, br2_term]; ring
  intro x y k l
  simp only
  rw [expand, expand]
  apply Finset.sum_congr rfl; intro i _
  rw [quad_sym Minv hM]

theorem minvOf_sym (ref : Ref dim Nbf Nbm Nq nq) (hM : ∀ u m, ref.MinvRef u m = ref.MinvRef m u) (J : Fin Nq → ℝ) (k l : Fin Nbf) :
    minvOf ref J k l = minvOf ref J l k := by
  unfold minvOf
  rw [Finset.sum_comm]
  apply Finset.sum_congr rfl; intro s _
  apply Finset.sum_congr rfl; intro r _
  apply Finset.sum_congr rfl; intro q _
  rw [hM k r, hM s l]; ring

variable {P : Nat} {elems : Nat → List (List Nat)} {num fnum tag : List Nat → Nat} {views : Nat → View}

theorem skel2_transpose_br2 (ref : Ref dim Nbf Nbm Nq nq) (hM : ∀ u m, ref.MinvRef u m = ref.MinvRef m u) (pen : ℝ) (n : Fin dim → Fin nq → ℝ)
    (K : Fin 2 → Fin Nbm → ℝ) (JI : Fin 2 → Fin dim → Fin dim → Fin nq → ℝ) (loc : Fin 2 → Nat)
    (J : Fin 2 → Fin Nq → ℝ) (hK : ∀ s q p, kKq (K s) (ref.matE_q_T (loc s)) q = kKq (K s) (ref.matE_q_T (loc s)) p) (x y : Fin 2) :
    transpose (skel2 .BR2 ref pen n K JI loc J x y) = skel2 .BR2 ref pen n K JI loc J y x := by
  unfold skel2
  rw [coef_eq]
  exact surface_transpose _ _ _ _ _ _ _ (liftSkeleton_sym _ _ _ _ _ (fun s => minvOf_sym ref hM _) hK) x y

theorem symmetric_BR2 (ref : Ref dim Nbf Nbm Nq nq) (hM : ∀ u m, ref.MinvRef u m = ref.MinvRef m u)
    (g : Geometry dim Nq nq) (hg : g.Opposite P elems) (K : List Nat → Fin Nbm → ℝ)
    (hK : ∀ e f, InElems P elems e → IsFacet e f → ∀ q p,
      kKq (K e) (ref.matE_q_T (g.localNo e f)) q = kKq (K e) (ref.matE_q_T (g.localNo e f)) p)
    (pen : List Nat → ℝ) (tag : List Nat → Nat) :
    Symmetric transpose P elems (meshOp .BR2 ref g K pen tag) where
  zero := rfl
  add := fun _ _ => rfl
  vol := fun e _ => volume_symmetric _ _ _ _ _
  diag := by
    intro f e a he ha hne hf hfa
    unfold meshOp
    simp only
    rw [skel2_transpose_br2 ref hM]
    intro s; fin_cases s
    · exact hK e f he hf
    · exact hK a f ha hfa
  off := by
    intro f e a he ha hne hf hfa
    unfold meshOp
    simp only
    rw [skel2_transpose_br2 ref hM]
    · have := skel2_flip .BR2 ref (if Method.BR2 = .BR2 then ((dim + 1 : ℕ) : ℝ) else pen f) (g.normal f e) ![K e, K a]
        ![g.jInvFacet f e, g.jInvFacet f a] ![g.localNo e f, g.localNo a f] ![g.absDetJ e, g.absDetJ a] 0 1
      simp only [vec2_flip] at this
      rw [hg f e a he ha hne hf hfa]
      exact this.symm
    · intro s; fin_cases s
      · exact hK e f he hf
      · exact hK a f ha hfa
  bnd := by
    intro f e b he hf _ hb
    unfold meshOp at hb
    simp only at hb
    split at hb
    · simp at hb
    · obtain rfl := Option.some.inj hb
      have : (fun _ : Fin 2 => epsilon) = fun _ => (-1 : ℝ) := rfl
      rw [this]
      exact surface_transpose _ _ _ _ _ _ _ (liftBoundary_sym _ _ _ _ _ (minvOf_sym ref hM _) (hK e f he hf)) 0 0

/-- **C71 (Poisson, BR2)**: the global matrix is symmetric if the coefficient is constant along every facet, seen from
either side. -/
theorem C71_poisson_br2_symmetric (hd : IsDistributed P dim elems num fnum tag views)
    (ref : Ref dim Nbf Nbm Nq nq) (hM : ∀ u m, ref.MinvRef u m = ref.MinvRef m u)
    (g : Geometry dim Nq nq) (hg : g.Opposite P elems) (K : List Nat → Fin Nbm → ℝ)
    (hK : ∀ e f, InElems P elems e → IsFacet e f → ∀ q p,
      kKq (K e) (ref.matE_q_T (g.localNo e f)) q = kKq (K e) (ref.matE_q_T (g.localNo e f)) p)
    (pen : List Nat → ℝ) (o : Nat → Op dim Nbf Nbm Nq nq) (ho : ∀ r, r < P → Samples (views r) (o r) .BR2 ref g K pen) :
    ∃ blocks : Nat → List (Nat × Nat × (Fin Nbf → Fin Nbf → ℝ)),
      (∀ r, r < P → assemble (views r) (o r).localOp = some (blocks r)) ∧
      ∀ r r' e e', r < P → r' < P → e ∈ elems r → e' ∈ elems r' → ∀ k l,
        entry (views r) (blocks r) e e' k l = entry (views r') (blocks r') e' e l k := by
  obtain ⟨blocks, h1, h2⟩ := entry_transpose hd (fun r => (o r).localOp) (meshOp .BR2 ref g K pen tag)
    (fun r hr => agrees hd r hr (o r) .BR2 ref g hg K pen (ho r hr)) transpose (symmetric_BR2 ref hM g hg K hK pen tag)
  refine ⟨blocks, h1, ?_⟩
  intro r r' e e' hr hr' he he' k l
  rw [h2 r r' e e' hr hr' he he']; rfl

/-- Two basis functions, each one at one of the two quadrature points of the facet, mass matrix of ones; the coefficient
is 1 at the first point and 2 at the second. -/
noncomputable def varOp : Op 1 2 2 1 2 :=
  ⟨⟨fun _ _ => 1, fun _ _ _ => 0, fun _ _ => 1, fun _ => 1, fun _ k q => if k = q then 1 else 0, fun _ _ _ _ => 0,
    fun _ q m => if q = m then 1 else 0, fun _ => 1, fun k l => if k = l then 1 else 0⟩,
   .BR2, fun _ _ => 1, fun _ _ _ _ => 1, fun _ => ![1, 2], fun _ _ _ _ _ => 1, fun _ _ _ => 1, fun _ => 1⟩

/-- With a coefficient that varies along the facet the BR2 block of a boundary facet is not symmetric. -/
theorem C71_br2_not_symmetric : ∃ A, varOp.assembleBoundary 0 (exBoundary bcDirichlet) = some A ∧ A 0 1 ≠ A 1 0 := by
  refine ⟨_, by unfold Op.assembleBoundary; rw [if_neg (by decide)], ?_⟩
  rw [surface_entry, surface_entry]
  simp [Fin.sum_univ_two, Op.boundaryL, kLiftBoundary, varOp, Op.Kq, kKq, Op.Es, Op.minv, nflux, Op.KDx, kKDxq, Op.penalty, exBoundary, upOf]

end Tandem.Poisson
