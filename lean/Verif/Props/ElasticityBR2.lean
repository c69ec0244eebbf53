import Verif.Props.ElasticityMatrix
import Verif.Props.PoissonBR2
/-! # C71 for the elasticity operator with method BR2: symmetric if the Lamé parameters are constant along each facet, not
symmetric in general -/
namespace Tandem.Elasticity
open Tandem.DGTopo Tandem.Spec
open Tandem.DGAssembly
open Tandem.Poisson (Method normalLength unitNormal vec2_flip moment quad_sym exBoundary)

variable {dim Nbf Nbm Nq nq : Nat}

theorem kLift_moment (Minv : Fin Nbf → Fin Nbf → ℝ) (Es Ex : Fin Nbf → Fin nq → ℝ) (n : Fin dim → Fin nq → ℝ)
    (w : Fin nq → ℝ) (l : Fin Nbf) (i : Fin dim) (u : Fin Nbf) :
    kLift Minv Es Ex n w l i u = 0.5 * ∑ m, Minv u m * moment w n Es Ex i m l := by
  unfold kLift moment
  rw [Finset.mul_sum]
  apply Finset.sum_congr rfl; intro m _
  rw [Finset.mul_sum, Finset.mul_sum]
  apply Finset.sum_congr rfl; intro q _; ring

/-- Moments of the test function with `test_normal` for constant parameters. -/
theorem testNormal_moment (lam mu : ℝ) (w : Fin nq → ℝ) (n : Fin dim → Fin nq → ℝ) (Es Ex : Fin Nbf → Fin nq → ℝ)
    (p u s : Fin dim) (m k : Fin Nbf) :
    ∑ q, w q * (Ex k q * (kTestNormal (fun _ => lam) (fun _ => mu) n p u s q * Es m q)) =
      lam * delta u s * moment w n Es Ex p m k + mu * (delta p u * moment w n Es Ex s m k + delta p s * moment w n Es Ex u m k) := by
  unfold kTestNormal moment
  simp only [mul_add, Finset.mul_sum, ← Finset.sum_add_distrib]
  apply Finset.sum_congr rfl; intro q _; ring

/-- The lift from one side tested on one side, for constant parameters. -/
theorem lift_form (lam mu : ℝ) (Minv : Fin Nbf → Fin Nbf → ℝ) (w : Fin nq → ℝ) (n : Fin dim → Fin nq → ℝ)
    (Es Ex Ey : Fin Nbf → Fin nq → ℝ) (p u : Fin dim) (k l : Fin Nbf) :
    ∑ q, w q * (Ex k q * ∑ s, ∑ m, kTestNormal (fun _ => lam) (fun _ => mu) n p u s q * Es m q *
        ∑ o, Minv m o * moment w n Es Ey s o l) =
      lam * (∑ m, moment w n Es Ex p m k * ∑ o, Minv m o * moment w n Es Ey u o l) +
      mu * (delta p u * (∑ s, ∑ m, moment w n Es Ex s m k * ∑ o, Minv m o * moment w n Es Ey s o l) +
        ∑ m, moment w n Es Ex u m k * ∑ o, Minv m o * moment w n Es Ey p o l) := by
  have h : ∑ q, w q * (Ex k q * ∑ s, ∑ m, kTestNormal (fun _ => lam) (fun _ => mu) n p u s q * Es m q *
        ∑ o, Minv m o * moment w n Es Ey s o l) =
      ∑ s, ∑ m, (∑ q, w q * (Ex k q * (kTestNormal (fun _ => lam) (fun _ => mu) n p u s q * Es m q))) *
        ∑ o, Minv m o * moment w n Es Ey s o l := by
    generalize hG : (fun (s : Fin dim) (m : Fin Nbf) => ∑ o, Minv m o * moment w n Es Ey s o l) = G
    have hG' : ∀ s m, ∑ o, Minv m o * moment w n Es Ey s o l = G s m := fun s m => by rw [← hG]
    simp only [hG', Finset.mul_sum]
    rw [Finset.sum_comm]
    apply Finset.sum_congr rfl; intro s _
    rw [Finset.sum_comm]
    apply Finset.sum_congr rfl; intro m _
    rw [Finset.sum_mul]
    apply Finset.sum_congr rfl; intro q _; ring
  rw [h]
  simp only [testNormal_moment]
  have e1 : ∑ m, moment w n Es Ex p m k * ∑ o, Minv m o * moment w n Es Ey u o l =
      ∑ s, delta u s * ∑ m, moment w n Es Ex p m k * ∑ o, Minv m o * moment w n Es Ey s o l :=
    (delta_sum u (fun s => ∑ m, moment w n Es Ex p m k * ∑ o, Minv m o * moment w n Es Ey s o l)).symm
  have e2 : ∑ m, moment w n Es Ex u m k * ∑ o, Minv m o * moment w n Es Ey p o l =
      ∑ s, delta p s * ∑ m, moment w n Es Ex u m k * ∑ o, Minv m o * moment w n Es Ey s o l :=
    (delta_sum p (fun s => ∑ m, moment w n Es Ex u m k * ∑ o, Minv m o * moment w n Es Ey s o l)).symm
  rw [e1, e2]
  generalize hG : (fun (s : Fin dim) (m : Fin Nbf) => ∑ o, Minv m o * moment w n Es Ey s o l) = G
  have hG' : ∀ s m, ∑ o, Minv m o * moment w n Es Ey s o l = G s m := fun s m => by rw [← hG]
  simp only [hG']
  rw [Finset.mul_sum (a := delta p u), ← Finset.sum_add_distrib, Finset.mul_sum, Finset.mul_sum, ← Finset.sum_add_distrib]
  apply Finset.sum_congr rfl; intro s _
  simp only [Finset.mul_sum, ← Finset.sum_add_distrib]
  apply Finset.sum_congr rfl; intro m _
  ring

theorem lift_form_sym (lam mu : ℝ) (Minv : Fin Nbf → Fin Nbf → ℝ) (hM : ∀ u m, Minv u m = Minv m u) (w : Fin nq → ℝ)
    (n : Fin dim → Fin nq → ℝ) (Es Ex Ey : Fin Nbf → Fin nq → ℝ) (p u : Fin dim) (k l : Fin Nbf) :
    ∑ q, w q * (Ex k q * ∑ s, ∑ m, kTestNormal (fun _ => lam) (fun _ => mu) n p u s q * Es m q *
        ∑ o, Minv m o * moment w n Es Ey s o l) =
    ∑ q, w q * (Ey l q * ∑ s, ∑ m, kTestNormal (fun _ => lam) (fun _ => mu) n u p s q * Es m q *
        ∑ o, Minv m o * moment w n Es Ex s o k) := by
  rw [lift_form, lift_form, delta_comm u p]
  rw [quad_sym Minv hM (fun m => moment w n Es Ex p m k) (fun o => moment w n Es Ey u o l),
    quad_sym Minv hM (fun m => moment w n Es Ex u m k) (fun o => moment w n Es Ey p o l)]
  simp only [quad_sym Minv hM (fun m => moment w n Es Ex _ m k) (fun o => moment w n Es Ey _ o l)]

theorem liftSkeleton_sym (Minv : Fin 2 → Fin Nbf → Fin Nbf → ℝ) (E : Fin 2 → Fin Nbf → Fin nq → ℝ)
    (lq mq : Fin 2 → Fin nq → ℝ) (n : Fin dim → Fin nq → ℝ) (w : Fin nq → ℝ)
    (hM : ∀ s u m, Minv s u m = Minv s m u) (hl : ∀ s q p, lq s q = lq s p) (hm : ∀ s q p, mq s q = mq s p) :
    LiftSym w E (fun x => kLiftSkeleton Minv E lq mq n w x) := by
  by_cases hnq : nq = 0
  · subst hnq; intro x y k l p u; simp
  have hc : ∀ s, ∃ c, lq s = fun _ => c := fun s => ⟨lq s ⟨0, by omega⟩, funext fun q => hl s _ _⟩
  have hc' : ∀ s, ∃ c, mq s = fun _ => c := fun s => ⟨mq s ⟨0, by omega⟩, funext fun q => hm s _ _⟩
  choose cl hcl using hc
  choose cm hcm using hc'
  intro x y k l p u
  have expand : ∀ x y k l p u, ∑ q, w q * (E x k q * kLiftSkeleton Minv E lq mq n w y l p u q) =
      0.25 * (∑ q, w q * (E x k q * ∑ s, ∑ m, kTestNormal (fun _ => cl 0) (fun _ => cm 0) n p u s q * E 0 m q *
        ∑ o, Minv 0 m o * moment w n (E 0) (E y) s o l)) +
      0.25 * (∑ q, w q * (E x k q * ∑ s, ∑ m, kTestNormal (fun _ => cl 1) (fun _ => cm 1) n p u s q * E 1 m q *
        ∑ o, Minv 1 m o * moment w n (E 1) (E y) s o l)) := by
    intro x y k l p u
    rw [Finset.mul_sum, Finset.mul_sum, ← Finset.sum_add_distrib]
    apply Finset.sum_congr rfl; intro q _
    unfold kLiftSkeleton
    rw [hcl 0, hcl 1, hcm 0, hcm 1]
    have e : ∀ t, ∑ s, ∑ m, kTestNormal (fun _ => cl t) (fun _ => cm t) n p u s q * E t m q * kLift (Minv t) (E t) (E y) n w l s m =
        0.5 * ∑ s, ∑ m, kTestNormal (fun _ => cl t) (fun _ => cm t) n p u s q * E t m q * ∑ o, Minv t m o * moment w n (E t) (E y) s o l := by
      intro t
      rw [Finset.mul_sum]
      apply Finset.sum_congr rfl; intro s _
      rw [Finset.mul_sum]
      apply Finset.sum_congr rfl; intro m _
      rw [kLift_moment]; ring
    rw [e, e]; ring
  rw [expand, expand, lift_form_sym _ _ _ (hM 0), lift_form_sym _ _ _ (hM 1)]

theorem liftBoundary_sym (Minv : Fin Nbf → Fin Nbf → ℝ) (E : Fin Nbf → Fin nq → ℝ)
    (lq mq : Fin nq → ℝ) (n : Fin dim → Fin nq → ℝ) (w : Fin nq → ℝ)
    (hM : ∀ u m, Minv u m = Minv m u) (hl : ∀ q p, lq q = lq p) (hm : ∀ q p, mq q = mq p) :
    LiftSym w (fun _ => E) (fun _ => kLiftBoundary Minv E lq mq n w) := by
  by_cases hnq : nq = 0
  · subst hnq; intro x y k l p u; simp
  obtain ⟨cl, rfl⟩ : ∃ c, lq = fun _ => c := ⟨lq ⟨0, by omega⟩, funext fun q => hl _ _⟩
  obtain ⟨cm, rfl⟩ : ∃ c, mq = fun _ => c := ⟨mq ⟨0, by omega⟩, funext fun q => hm _ _⟩
  intro x y k l p u
  have expand : ∀ k l p u, ∑ q, w q * (E k q * kLiftBoundary Minv E (fun _ => cl) (fun _ => cm) n w l p u q) =
      ∑ q, w q * (E k q * ∑ s, ∑ m, kTestNormal (fun _ => cl) (fun _ => cm) n p u s q * E m q *
        ∑ o, Minv m o * moment w n E E s o l) := by
    intro k l p u
    apply Finset.sum_congr rfl; intro q _
    unfold kLiftBoundary moment
    congr 2
    apply Finset.sum_congr rfl; intro s _
    apply Finset.sum_congr rfl; intro m _
    congr 1
    apply Finset.sum_congr rfl; intro o _
    rw [Finset.mul_sum]
    apply Finset.sum_congr rfl; intro p _; ring
  simp only
  rw [expand, expand, lift_form_sym _ _ _ hM]

theorem minvOf_sym (ref : Ref dim Nbf Nbm Nq nq) (J : Fin Nq → ℝ) (k l : Fin Nbf) : minvOf ref J k l = minvOf ref J l k := by
  unfold minvOf
  have hs : (Matrix.of (kMassMatrix ref.E_Q ref.W J)).transpose = Matrix.of (kMassMatrix ref.E_Q ref.W J) := by
    ext a b
    simp only [Matrix.transpose_apply, Matrix.of_apply]
    unfold kMassMatrix
    apply Finset.sum_congr rfl; intro q _; ring
  have : ((Matrix.of (kMassMatrix ref.E_Q ref.W J))⁻¹).transpose = (Matrix.of (kMassMatrix ref.E_Q ref.W J))⁻¹ := by
    rw [Matrix.transpose_nonsing_inv, hs]
  have h := congrFun (congrFun this l) k
  rw [Matrix.transpose_apply] at h
  exact h

variable {P : Nat} {elems : Nat → List (List Nat)} {num fnum tag : List Nat → Nat} {views : Nat → View}

theorem skel2_transpose_br2 (ref : Ref dim Nbf Nbm Nq nq) (pen : ℝ) (n : Fin dim → Fin nq → ℝ)
    (lam mu : Fin 2 → Fin Nbm → ℝ) (JI : Fin 2 → Fin dim → Fin dim → Fin nq → ℝ) (loc : Fin 2 → Nat)
    (J : Fin 2 → Fin Nq → ℝ) (hl : ∀ s q p, kCoefq (ref.matE_q_T (loc s)) (lam s) q = kCoefq (ref.matE_q_T (loc s)) (lam s) p)
    (hm : ∀ s q p, kCoefq (ref.matE_q_T (loc s)) (mu s) q = kCoefq (ref.matE_q_T (loc s)) (mu s) p) (x y : Fin 2) :
    transpose (skel2 .BR2 ref pen n lam mu JI loc J x y) = skel2 .BR2 ref pen n lam mu JI loc J y x := by
  unfold skel2
  rw [coef_eq]
  exact surface_transpose _ _ _ _ _ _ (liftSkeleton_sym _ _ _ _ _ _ (fun s => minvOf_sym ref _) hl hm) x y

/-- The parameter is constant along every facet, seen from either side. -/
def FacetwiseConstant (P : Nat) (elems : Nat → List (List Nat)) (ref : Ref dim Nbf Nbm Nq nq) (g : Geometry dim Nq nq)
    (coef : List Nat → Fin Nbm → ℝ) : Prop :=
  ∀ e f, InElems P elems e → IsFacet e f → ∀ q p,
    ∑ t, ref.matE_q_T (g.localNo e f) q t * coef e t = ∑ t, ref.matE_q_T (g.localNo e f) p t * coef e t

theorem symmetric_BR2 (ref : Ref dim Nbf Nbm Nq nq)
    (g : Geometry dim Nq nq) (hg : g.Opposite P elems) (lam mu : List Nat → Fin Nbm → ℝ)
    (hl : FacetwiseConstant P elems ref g lam) (hm : FacetwiseConstant P elems ref g mu)
    (pen : List Nat → ℝ) (tag : List Nat → Nat) :
    Symmetric transpose P elems (meshOp .BR2 ref g lam mu pen tag) where
  zero := rfl
  add := fun _ _ => rfl
  vol := fun e _ => volume_symmetric _ _ _
  diag := by
    intro f e a he ha hne hf hfa
    unfold meshOp
    simp only
    rw [skel2_transpose_br2 ref]
    · intro s; fin_cases s
      · exact hl e f he hf
      · exact hl a f ha hfa
    · intro s; fin_cases s
      · exact hm e f he hf
      · exact hm a f ha hfa
  off := by
    intro f e a he ha hne hf hfa
    unfold meshOp
    simp only
    rw [skel2_transpose_br2 ref]
    · have := skel2_flip .BR2 ref (if Method.BR2 = .BR2 then ((dim + 1 : ℕ) : ℝ) else pen f) (g.normal f e) ![lam e, lam a] ![mu e, mu a]
        ![g.jInvFacet f e, g.jInvFacet f a] ![g.localNo e f, g.localNo a f] ![g.absDetJ e, g.absDetJ a] 0 1
      simp only [vec2_flip] at this
      rw [hg f e a he ha hne hf hfa]
      exact this.symm
    · intro s; fin_cases s
      · exact hl e f he hf
      · exact hl a f ha hfa
    · intro s; fin_cases s
      · exact hm e f he hf
      · exact hm a f ha hfa
  bnd := by
    intro f e b he hf _ hb
    unfold meshOp at hb
    simp only at hb
    split at hb
    · simp at hb
    · obtain rfl := Option.some.inj hb
      have : (fun _ : Fin 2 => epsilon) = fun _ => (-1 : ℝ) := rfl
      rw [this]
      exact surface_transpose _ _ _ _ _ _ (liftBoundary_sym _ _ _ _ _ _ (minvOf_sym ref _) (hl e f he hf) (hm e f he hf)) 0 0

/-- **C71 (elasticity, BR2)**: the global matrix is symmetric if the Lamé parameters are constant along every facet, seen from
either side. -/
theorem C71_elasticity_br2_symmetric (hd : IsDistributed P dim elems num fnum tag views)
    (ref : Ref dim Nbf Nbm Nq nq) (g : Geometry dim Nq nq) (hg : g.Opposite P elems) (lam mu : List Nat → Fin Nbm → ℝ)
    (hl : FacetwiseConstant P elems ref g lam) (hm : FacetwiseConstant P elems ref g mu)
    (pen : List Nat → ℝ) (o : Nat → Op dim Nbf Nbm Nq nq) (ho : ∀ r, r < P → Samples (views r) (o r) .BR2 ref g lam mu pen) :
    ∃ blocks : Nat → List (Nat × Nat × (Fin Nbf → Fin dim → Fin Nbf → Fin dim → ℝ)),
      (∀ r, r < P → assemble (views r) (o r).localOp = some (blocks r)) ∧
      ∀ r r' e e', r < P → r' < P → e ∈ elems r → e' ∈ elems r' → ∀ k p l u,
        entry (views r) (blocks r) e e' k p l u = entry (views r') (blocks r') e' e l u k p := by
  obtain ⟨blocks, h1, h2⟩ := entry_transpose hd (fun r => (o r).localOp) (meshOp .BR2 ref g lam mu pen tag)
    (fun r hr => agrees hd r hr (o r) .BR2 ref g hg lam mu pen (ho r hr)) transpose (symmetric_BR2 ref g hg lam mu hl hm pen tag)
  refine ⟨blocks, h1, ?_⟩
  intro r r' e e' hr hr' he he' k p l u
  rw [h2 r r' e e' hr hr' he he']; rfl

/-- **C71 (lift)**: the matrix used by BR2 inverts the mass matrix of the element, so that the lift of a jump is the function
whose product with every basis function is half the product of the jump with its trace. -/
theorem C71_elasticity_lift (o : Op dim Nbf Nbm Nq nq) (e : Nat)
    (hdet : (Matrix.of fun k l : Fin Nbf => ∑ q, o.ref.W q * o.J_Q e q * o.ref.E_Q k q * o.ref.E_Q l q).det ≠ 0)
    (Es Ex : Fin Nbf → Fin nq → ℝ) (n : Fin dim → Fin nq → ℝ) (l : Fin Nbf) (s : Fin dim) (k : Fin Nbf) :
    ∑ q, o.ref.W q * o.J_Q e q * o.ref.E_Q k q * (∑ m, o.ref.E_Q m q * kLift (o.minv e) Es Ex n o.ref.w l s m) =
      ∑ q, o.ref.w q * (Es k q * (0.5 * Ex l q * n s q)) := by
  have hM : Matrix.of (kMassMatrix o.ref.E_Q o.ref.W (o.J_Q e)) =
      Matrix.of fun k l : Fin Nbf => ∑ q, o.ref.W q * o.J_Q e q * o.ref.E_Q k q * o.ref.E_Q l q := by
    ext a b
    simp only [Matrix.of_apply]
    unfold kMassMatrix
    apply Finset.sum_congr rfl; intro q _; ring
  have hi := Matrix.mul_nonsing_inv (Matrix.of (kMassMatrix o.ref.E_Q o.ref.W (o.J_Q e))) (by rw [hM]; exact isUnit_iff_ne_zero.2 hdet)
  have hk : ∀ a, ∑ m, kMassMatrix o.ref.E_Q o.ref.W (o.J_Q e) k m * o.minv e m a = if k = a then 1 else 0 := by
    intro a
    have := congrFun (congrFun hi k) a
    rw [Matrix.mul_apply, Matrix.one_apply] at this
    exact this
  calc _ = ∑ m, kMassMatrix o.ref.E_Q o.ref.W (o.J_Q e) k m * kLift (o.minv e) Es Ex n o.ref.w l s m := by
        unfold kMassMatrix
        simp only [Finset.mul_sum, Finset.sum_mul]
        rw [Finset.sum_comm]
        apply Finset.sum_congr rfl; intro m _
        apply Finset.sum_congr rfl; intro q _; ring
    _ = ∑ a, (∑ m, kMassMatrix o.ref.E_Q o.ref.W (o.J_Q e) k m * o.minv e m a) * (∑ q, 0.5 * o.ref.w q * Es a q * Ex l q * n s q) := by
        unfold kLift
        simp only [Finset.mul_sum, Finset.sum_mul]
        rw [Finset.sum_comm]
        apply Finset.sum_congr rfl; intro a _
        rw [Finset.sum_comm]
        apply Finset.sum_congr rfl; intro q _
        apply Finset.sum_congr rfl; intro m _; ring
    _ = _ := by
        simp only [hk]
        simp only [ite_mul, one_mul, zero_mul, Finset.sum_ite_eq, Finset.mem_univ, if_true]
        apply Finset.sum_congr rfl; intro q _; ring

example : (Matrix.of fun k l : Fin 1 => ∑ q, (unitOp .BR2).ref.W q * (unitOp .BR2).J_Q 0 q * (unitOp .BR2).ref.E_Q k q * (unitOp .BR2).ref.E_Q l q).det ≠ 0 := by
  simp [unitOp]

/-- Constant parameters are constant along facets. -/
example (ref : Ref 2 Nbf 1 Nq nq) (hr : ∀ l q, ref.matE_q_T l q 0 = 1) :
    FacetwiseConstant 3 Ghosts.exElems ref Poisson.exGeometry (fun e _ => if e = [0, 1, 2] then 2 else 3) := by
  intro e f _ _ q p; simp [hr]

end Tandem.Elasticity
