import Verif.Props.Cfl
import Verif.Lemmas.GradCert2a
import Verif.Lemmas.GradCert2b
import Verif.Lemmas.GradCert2c
import Verif.Lemmas.GradCert3a
import Verif.Lemmas.GradCert3b
/-! # Property C97 on straight meshes: the inverse gradient inequality with the tabulated constants -/
namespace Tandem.Cfl
open Tandem.DGTopo Tandem.Spec Tandem.DGAssembly Tandem.Elasticity Finset Curvilinear
open Tandem.Poisson (traceConstant normalLength Measures)

variable {D Nbf Nbm Nq nq : ℕ}
variable {P : ℕ} {elems : ℕ → List (List ℕ)} {num fnum tag : List ℕ → ℕ} {views : ℕ → View}

/-- The degrees for which the table of gradient constants is checked: all of the table in two dimensions, up to five in three. -/
def Checked (dim p : ℕ) : Prop := dim = 2 ∧ 1 ≤ p ∧ p ≤ 10 ∨ dim = 3 ∧ 1 ≤ p ∧ p ≤ 5

theorem table_checked (dim p : ℕ) (h : Checked dim p) : ∃ kn C, GradIneq.gradCheck dim p kn 10000 = true ∧ gradConstant dim p = some C ∧
    (kn / 10000 : ℝ) = 2 * dim ^ 2 * C := by
  rcases h with ⟨rfl, h1, h2⟩ | ⟨rfl, h1, h2⟩
  · have : p = 1 ∨ p = 2 ∨ p = 3 ∨ p = 4 ∨ p = 5 ∨ p = 6 ∨ p = 7 ∨ p = 8 ∨ p = 9 ∨ p = 10 := by omega
    rcases this with rfl | rfl | rfl | rfl | rfl | rfl | rfl | rfl | rfl | rfl
    · exact ⟨_, _, GradIneq.cert2_1, rfl, by norm_num⟩
    · exact ⟨_, _, GradIneq.cert2_2, rfl, by norm_num⟩
    · exact ⟨_, _, GradIneq.cert2_3, rfl, by norm_num⟩
    · exact ⟨_, _, GradIneq.cert2_4, rfl, by norm_num⟩
    · exact ⟨_, _, GradIneq.cert2_5, rfl, by norm_num⟩
    · exact ⟨_, _, GradIneq.cert2_6, rfl, by norm_num⟩
    · exact ⟨_, _, GradIneq.cert2_7, rfl, by norm_num⟩
    · exact ⟨_, _, GradIneq.cert2_8, rfl, by norm_num⟩
    · exact ⟨_, _, GradIneq.cert2_9, rfl, by norm_num⟩
    · exact ⟨_, _, GradIneq.cert2_10, rfl, by norm_num⟩
  · have : p = 1 ∨ p = 2 ∨ p = 3 ∨ p = 4 ∨ p = 5 := by omega
    rcases this with rfl | rfl | rfl | rfl | rfl
    · exact ⟨_, _, GradIneq.cert3_1, rfl, by norm_num⟩
    · exact ⟨_, _, GradIneq.cert3_2, rfl, by norm_num⟩
    · exact ⟨_, _, GradIneq.cert3_3, rfl, by norm_num⟩
    · exact ⟨_, _, GradIneq.cert3_4, rfl, by norm_num⟩
    · exact ⟨_, _, GradIneq.cert3_5, rfl, by norm_num⟩

/-- **C97 (gradient constants, reference element)**: with the tabulated constant `C` of the degree, the integral of the square of the
gradient of every polynomial of that degree over the reference simplex is at most `2 dim² C` times the integral of its square. -/
theorem C97_gradient_reference (dim p : ℕ) (h : Checked dim p) : ∃ C, gradConstant dim p = some C ∧
    ∀ (u : (Fin dim → ℝ) → ℝ) (du : (Fin dim → ℝ) → Fin dim → ℝ), IsPoly dim p u → (∀ x, IsGradient u (du x) x) →
      ∑ d, simplexIntegral dim (fun x => du x d ^ 2) ≤ 2 * dim ^ 2 * C * simplexIntegral dim (fun x => u x ^ 2) := by
  obtain ⟨kn, C, h1, h2, h3⟩ := table_checked dim p h
  refine ⟨C, h2, ?_⟩
  rintro u du ⟨P, hP, hu⟩ hdu
  have hD : dim = 1 ∨ dim = 2 ∨ dim = 3 := by unfold Checked at h; omega
  have key := GradIneq.gradient_ineq hD p kn 10000 (by norm_num) h1 P hP
  have e1 : ∀ x d, du x d = MvPolynomial.eval x (MvPolynomial.pderiv d P) := by
    intro x d
    have h1 := hdu x (Pi.single d 1)
    simp only [hu] at h1
    have := h1.unique (CurvilinearBuild.hasDerivAt_eval P x d)
    rw [← this]
    simp [Pi.single_apply]
  simp only [e1, hu, ← h3]
  push_cast at key
  exact key

/-- The sides of a polytope: none is longer than the sum of the others. -/
theorem sides_le {E : Type*} [NormedAddCommGroup E] {n : ℕ} (v : Fin n → E) :
    ∑ d, ‖v d‖ ^ 2 ≤ 1 / 2 * (‖∑ d, v d‖ + ∑ d, ‖v d‖) ^ 2 := by
  set S := ‖∑ d, v d‖ + ∑ d, ‖v d‖ with hS
  have h1 : ∀ d, ‖v d‖ ≤ S / 2 := by
    intro d
    have e : v d = ∑ d, v d - ∑ e ∈ univ.erase d, v e := by
      rw [← Finset.add_sum_erase univ v (mem_univ d)]; abel
    have h2 : ‖v d‖ ≤ ‖∑ d, v d‖ + ∑ e ∈ univ.erase d, ‖v e‖ := by
      conv_lhs => rw [e]
      exact (norm_sub_le _ _).trans (add_le_add le_rfl (norm_sum_le _ _))
    have h3 := Finset.add_sum_erase univ (fun e => ‖v e‖) (mem_univ d)
    rw [hS]; linarith
  have h0 : 0 ≤ S := by positivity
  have hle : ∑ d, ‖v d‖ ≤ S := by rw [hS]; linarith [norm_nonneg (∑ d, v d)]
  calc ∑ d, ‖v d‖ ^ 2 ≤ ∑ d, (S / 2) * ‖v d‖ := sum_le_sum fun d _ => by rw [sq]; exact mul_le_mul_of_nonneg_right (h1 d) (norm_nonneg _)
    _ = (S / 2) * ∑ d, ‖v d‖ := by rw [mul_sum]
    _ ≤ (S / 2) * S := mul_le_mul_of_nonneg_left hle (by positivity)
    _ = _ := by ring

/-- The reference normals: minus the unit vectors, and the vector of ones for the face that lacks the first vertex. -/
theorem refNormal_eq (hD : D = 1 ∨ D = 2) (l : Fin (D + 2)) (d : Fin (D + 1)) :
    refNormal D l d = if missing l = 0 then 1 else if missing l = d.succ then -1 else 0 := by
  have h10 : ¬ (1 : ℝ) < 0 := by norm_num
  rcases hD with rfl | rfl
  · fin_cases l <;> fin_cases d <;>
      simp [refNormal, rawNormal, dot, missing, f2v, Equidistant.refVertices, Fin.sum_univ_succ, Fin.succAbove, Fin.rev, h10]
  · fin_cases l <;> fin_cases d <;>
      simp [refNormal, rawNormal, cross, dot, missing, f2v, Equidistant.refVertices, Fin.sum_univ_succ, Fin.succAbove, Fin.rev, h10]

/-- The length of the normal of facet `l` is the determinant times the length of a row of the inverse, or of the sum of all rows. -/
theorem normal_length (hD : D = 1 ∨ D = 2) (J : Matrix (Fin (D + 1)) (Fin (D + 1)) ℝ) (s : ℝ) (hs : |s| = 1) (l : Fin (D + 2)) :
    √(∑ r, (s * Curvilinear.normal l J r) * (s * Curvilinear.normal l J r)) =
      |J.det| * (if missing l = 0 then ‖∑ d, WithLp.toLp 2 (J⁻¹ d)‖ else ‖∑ d : Fin (D + 1), if missing l = d.succ then WithLp.toLp 2 (J⁻¹ d) else 0‖) := by
  have h1 : ∀ r, Curvilinear.normal l J r = |J.det| * ∑ d, J⁻¹ d r * refNormal D l d := by
    intro r
    simp [Curvilinear.normal, Matrix.mulVec, dotProduct]
  have hs2 : s * s = 1 := by rw [← abs_mul_abs_self, hs]; ring
  have h2 : ∑ r, (s * Curvilinear.normal l J r) * (s * Curvilinear.normal l J r) = |J.det| ^ 2 * ∑ r, (∑ d, J⁻¹ d r * refNormal D l d) ^ 2 := by
    rw [mul_sum]
    refine sum_congr rfl fun r _ => ?_
    rw [h1]
    calc _ = (s * s) * (|J.det| ^ 2 * (∑ d, J⁻¹ d r * refNormal D l d) ^ 2) := by ring
      _ = _ := by rw [hs2, one_mul]
  rw [h2, Real.sqrt_mul (sq_nonneg _), Real.sqrt_sq (abs_nonneg _)]
  congr 1
  split_ifs with h
  · rw [EuclideanSpace.norm_eq]
    congr 1
    refine sum_congr rfl fun r _ => ?_
    rw [Real.norm_eq_abs, sq_abs]
    congr 1
    simp only [refNormal_eq hD, h, if_true, mul_one, WithLp.ofLp_sum]
    exact (Finset.sum_apply r univ (fun d => J⁻¹ d)).symm
  · rw [EuclideanSpace.norm_eq]
    congr 1
    refine sum_congr rfl fun r _ => ?_
    rw [Real.norm_eq_abs, sq_abs]
    simp only [refNormal_eq hD, h, if_false, mul_ite, mul_neg, mul_one, mul_zero]
    rw [← neg_sq]
    congr 1
    rw [← sum_neg_distrib]
    simp only [WithLp.ofLp_sum, Finset.sum_apply]
    refine sum_congr rfl fun d _ => ?_
    split_ifs <;> simp

/-- With the areas and the volume the code computes, the square of the inverse of the Jacobian is at most the square of the surface
over the volume, over `2 dim²`. -/
theorem inverse_le (hD : D = 1 ∨ D = 2) (J : Matrix (Fin (D + 1)) (Fin (D + 1)) ℝ) (hJ : J.det ≠ 0) (sw sW : ℝ) (hW : 0 < sW) (hw : sw = (D + 1 : ℝ) * sW) (R : Fin (D + 2) → ℝ)
    (hR : ∀ l, R l = if missing l = 0 then ‖∑ d, WithLp.toLp 2 (J⁻¹ d)‖ else ‖∑ d : Fin (D + 1), if missing l = d.succ then WithLp.toLp 2 (J⁻¹ d) else 0‖) :
    ∑ e, ∑ j, J⁻¹ e j ^ 2 ≤ 1 / (2 * (D + 1 : ℝ) ^ 2) * ((∑ l, sw * (|J.det| * R l)) / (sW * |J.det|)) ^ 2 := by
  have hdet : 0 < |J.det| := abs_pos.2 hJ
  have hsum : ∑ l, R l = ‖∑ d, WithLp.toLp 2 (J⁻¹ d)‖ + ∑ d, ‖WithLp.toLp 2 (J⁻¹ d)‖ := by
    rw [← Equiv.sum_comp Fin.revPerm, Fin.sum_univ_succ]
    congr 1
    · rw [hR]; simp [missing]
    · refine sum_congr rfl fun d _ => ?_
      rw [hR]
      simp only [missing, Fin.revPerm_apply, Fin.rev_rev]
      rw [if_neg (Fin.succ_ne_zero d), sum_eq_single d]
      · simp
      · intro e _ hne
        rw [if_neg]
        intro h
        exact hne (Fin.succ_injective _ h).symm
      · simp
  have e1 : (∑ l, sw * (|J.det| * R l)) / (sW * |J.det|) = (D + 1 : ℝ) * ∑ l, R l := by
    rw [← mul_sum, ← mul_sum, hw]; field_simp
  have h := sides_le (fun d => WithLp.toLp 2 (J⁻¹ d))
  have e2 : ∑ d, ‖WithLp.toLp 2 (J⁻¹ d)‖ ^ 2 = ∑ e, ∑ j, J⁻¹ e j ^ 2 := by
    refine sum_congr rfl fun d _ => ?_
    rw [EuclideanSpace.norm_sq_eq]
    simp
  rw [e1, hsum, ← e2]
  refine h.trans (le_of_eq ?_)
  have : (D + 1 : ℝ) ≠ 0 := by positivity
  field_simp

/-- The Cauchy-Schwarz inequality for the product of a vector with a matrix. -/
theorem mat_vec_le {n : ℕ} (A : Fin n → Fin n → ℝ) (x : Fin n → ℝ) : ∑ j, (∑ e, A e j * x e) ^ 2 ≤ (∑ e, ∑ j, A e j ^ 2) * ∑ e, x e ^ 2 := by
  rw [sum_comm, sum_mul]
  exact sum_le_sum fun j _ => Finset.sum_mul_sq_le_sq_mul_sq univ (fun e => A e j) x

/-- Affine elements are straight. -/
theorem AffineElements.straight {g : Geometry (D + 1) Nq nq} (hD : D = 1 ∨ D = 2) (hg : AffineElements P elems g) : Straight P elems g where
  detJ := fun e he => by
    obtain ⟨J, h1, h2, _⟩ := hg.map e he
    exact ⟨_, abs_pos.2 h1, h2⟩
  jInv := fun e he => by
    obtain ⟨J, h1, h2, h3, h4⟩ := hg.map e he
    exact ⟨_, h3, fun f hf => (h4 f hf).1⟩
  normal := fun e f he hf => by
    obtain ⟨J, h1, h2, h3, h4⟩ := hg.map e he
    obtain ⟨_, l, hl, s, hs, hn⟩ := h4 f hf
    refine ⟨fun r => s * Curvilinear.normal l J r, ?_, hn⟩
    intro h0
    have hs0 : s ≠ 0 := by rintro rfl; simp at hs
    have hn0 : Curvilinear.normal l J = 0 := by
      funext r
      have := congrFun h0 r
      simpa [hs0] using this
    have hj := Curvilinear.normal_dot l J h1 (refNormal D l)
    rw [hn0] at hj
    have hpos : 0 < Curvilinear.dot (refNormal D l) (refNormal D l) := by
      unfold Curvilinear.dot
      refine sum_pos' (fun i _ => mul_self_nonneg _) ?_
      rcases Fin.eq_zero_or_eq_succ (missing l) with hm | ⟨d, hm⟩
      · exact ⟨0, mem_univ _, by rw [refNormal_eq hD, if_pos hm]; norm_num⟩
      · exact ⟨d, mem_univ _, by rw [refNormal_eq hD, if_neg (by rw [hm]; exact Fin.succ_ne_zero d), if_pos hm]; norm_num⟩
    have : |J.det| * Curvilinear.dot (refNormal D l) (refNormal D l) = 0 := by
      rw [← hj]; simp [Curvilinear.dot]
    have := mul_pos (abs_pos.2 h1) hpos
    linarith
  localNo := fun e f he hf => by
    obtain ⟨J, h1, h2, h3, h4⟩ := hg.map e he
    obtain ⟨_, l, hl, _⟩ := h4 f hf
    rw [hl]; exact l.2

theorem BasisTables.gradients {N : ℕ} {W : Fin Nq → ℝ} {w : Fin nq → ℝ} {E_Q : Fin Nbf → Fin Nq → ℝ} {E_q : ℕ → Fin Nbf → Fin nq → ℝ}
    {Dxi_Q : Fin Nbf → Fin (D + 1) → Fin Nq → ℝ} {Dxi_q : ℕ → Fin Nbf → Fin (D + 1) → Fin nq → ℝ}
    (h : BasisTables D N W w E_Q E_q Dxi_Q Dxi_q) : GradientTables D N W w Dxi_Q Dxi_q := by
  obtain ⟨xi, chi, phi, dphi, q1, q2, p1, p2, _, _, t1, t2⟩ := h
  exact ⟨xi, chi, phi, dphi, fun f hf => q1 f (RefElement.isPoly_mono _ _ _ (by omega) _ hf), fun f hf => q2 f (RefElement.isPoly_mono _ _ _ (by omega) _ hf), p1, p2, t1, t2⟩

/-- Sum over the facets of an element of a function of their local numbers. -/
theorem sum_facets (hm : Spec.Mesh P (D + 1) elems) {g : Geometry (D + 1) Nq nq} (hg : AffineElements P elems g) (e : List ℕ) (he : InElems P elems e)
    (F : Fin (D + 2) → ℝ) (area : List ℕ → ℝ) (h : ∀ f (l : Fin (D + 2)), IsFacet e f → g.localNo e f = l → area f = F l) :
    ((Ghosts.facets (D + 1) e).map area).sum = ∑ l, F l := by
  obtain ⟨J, _, _, _, h4⟩ := hg.map e he
  obtain ⟨hF1, hF2⟩ : (Ghosts.facets (D + 1) e).Nodup ∧ ∀ f, f ∈ Ghosts.facets (D + 1) e ↔ IsFacet e f := by
    obtain ⟨s, hs, h⟩ := he
    exact Ghosts.facets_spec (D + 1) hm.dim e (hm.size s hs e h) (hm.sorted s hs e h)
  have hlen := facets_length hm e he
  have hperm : ((Ghosts.facets (D + 1) e).map (fun f => (Fin.ofNat (D + 2) (g.localNo e f)))).Perm (List.finRange (D + 2)) := by
    refine (List.subperm_of_subset ?_ ?_).perm_of_length_le ?_
    · refine hF1.map_on ?_
      intro a ha b hb hab
      obtain ⟨_, la, hla, _⟩ := h4 a ((hF2 a).1 ha)
      obtain ⟨_, lb, hlb, _⟩ := h4 b ((hF2 b).1 hb)
      refine hg.localNo e a b he ((hF2 a).1 ha) ((hF2 b).1 hb) ?_
      rw [hla, hlb] at hab ⊢
      exact congrArg Fin.val (by simpa using hab : la = lb)
    · intro x _; exact List.mem_finRange x
    · rw [List.length_finRange, List.length_map, hlen]
  have e1 : (Ghosts.facets (D + 1) e).map area = ((Ghosts.facets (D + 1) e).map (fun f => (Fin.ofNat (D + 2) (g.localNo e f)))).map F := by
    rw [List.map_map]
    refine List.map_congr_left fun f hf => ?_
    obtain ⟨_, l, hl, _⟩ := h4 f ((hF2 f).1 hf)
    rw [h f l ((hF2 f).1 hf) hl]
    simp [hl]
  rw [e1, (hperm.map F).sum_eq]
  exact (Fin.sum_univ_def F).symm

/-- On meshes of affine elements the hypotheses of C97 hold, with the gradient constant of the table. -/
theorem bounded_straight (hD : D = 1 ∨ D = 2) (hm : Spec.Mesh P (D + 1) elems) (N : ℕ) (hN : Checked (D + 1) (N + 1)) (C_N : ℝ) (hC : gradConstant (D + 1) (N + 1) = some C_N)
    (ref : Ref (D + 1) Nbf Nbm Nq nq) (g : Geometry (D + 1) Nq nq)
    (hr : BasisTables D N ref.W ref.w ref.E_Q ref.E_q ref.Dxi_Q ref.Dxi_q) (hg : AffineElements P elems g) (lam mu : List ℕ → Fin Nbm → ℝ) (area volume : List ℕ → ℝ)
    (hW : ∀ q, 0 ≤ ref.W q)
    (harea : ∀ e f, InElems P elems e → IsFacet e f → area f = ∑ q, ref.w q * normalLength (g.normal f e) q)
    (hvol : ∀ e, InElems P elems e → volume e = ∑ q, ref.W q * g.absDetJ e q)
    (hEQ : ∀ q m, 0 ≤ ref.matE_Q_T q m) (hEQ1 : ∀ q, ∑ m, ref.matE_Q_T q m = 1) :
    Bounded P (D + 1) (N + 1) C_N elems ref g lam mu area volume := by
  have hs := AffineElements.straight hD hg
  obtain ⟨xi, chi, phi, dphi, q1, q2, p1, p2, t1, t2, t3, t4⟩ := hr
  obtain ⟨w1, w2, w3⟩ := TraceIneq.sum_weights hD (N + 1) ref.W ref.w xi chi q1 q2
  refine ⟨?_, ?_, ?_⟩
  · intro e he q
    have hcomb : ((D + 1 : ℕ) : ℝ) * kCoefq ref.matE_Q_T (lam e) q + 2 * kCoefq ref.matE_Q_T (mu e) q =
        kCoefq ref.matE_Q_T (fun t => ((D + 1 : ℕ) : ℝ) * lam e t + 2 * mu e t) q := by
      unfold kCoefq
      rw [Finset.mul_sum, Finset.mul_sum, ← Finset.sum_add_distrib]
      apply Finset.sum_congr rfl; intro t _; ring
    rw [hcomb]
    exact (convex_coef _ _ hEQ hEQ1 (⨅ t, (((D + 1 : ℕ) : ℝ) * lam e t + 2 * mu e t)) _
      (fun m => ciInf_le (Set.finite_range (fun t => ((D + 1 : ℕ) : ℝ) * lam e t + 2 * mu e t)).bddBelow m)
      (fun m => le_ciSup (Set.finite_range (fun t => ((D + 1 : ℕ) : ℝ) * lam e t + 2 * mu e t)).bddAbove m) q).2
  · intro e f he hf v
    obtain ⟨n, n1, n2⟩ := hs.normal e f he hf
    obtain ⟨J, j1, j2⟩ := hs.detJ e he
    set l : Fin (D + 2) := ⟨g.localNo e f, hs.localNo e f he hf⟩ with hl
    have hl' : g.localNo e f = (l : ℕ) := rfl
    set L := √(∑ i, n i * n i) with hLdef
    have key := TraceIneq.family_trace (ι := Fin (D + 1)) hD (N + 1) ref.W ref.w xi chi q1 q2 l
      (fun p x => ∑ k, phi k x * v k p)
      (fun p => RefElement.isPoly_sum _ _ _ _ fun k _ => by
        simp only [mul_comm _ (v k p)]
        exact RefElement.isPoly_const_mul _ _ _ _ (p1 k)) L J (Real.sqrt_nonneg _) j1
    rw [harea e f he hf, hvol e he]
    simp only [norm2, normalLength, Elasticity.val, n2, j2, t1, hl', t2, ← hLdef]
    exact key
  · intro e he v
    obtain ⟨J, j1, j2, j3, j4⟩ := hg.map e he
    obtain ⟨C', hC', hineq⟩ := C97_gradient_reference (D + 1) (N + 1) hN
    obtain rfl : C' = C_N := Option.some.inj (hC'.symm.trans hC)
    set R : Fin (D + 2) → ℝ := fun l => if missing l = 0 then ‖∑ d, WithLp.toLp 2 (J⁻¹ d)‖
      else ‖∑ d : Fin (D + 1), if missing l = d.succ then WithLp.toLp 2 (J⁻¹ d) else 0‖ with hR
    have hsurf : ((Ghosts.facets (D + 1) e).map area).sum = ∑ l, (∑ q, ref.w q) * (|J.det| * R l) := by
      refine sum_facets hm hg e he _ area ?_
      intro f l hf hl
      obtain ⟨_, l', hl', s, hs1, hs2⟩ := j4 f hf
      obtain rfl : l' = l := Fin.ext (hl'.symm.trans hl)
      rw [harea e f he hf, sum_mul]
      refine sum_congr rfl fun q _ => ?_
      congr 1
      unfold normalLength
      simp only [hs2]
      exact normal_length hD J s hs1 l'
    have hvol' : volume e = (∑ q, ref.W q) * |J.det| := by
      rw [hvol e he, sum_mul]; simp only [j2]
    have hinv := inverse_le hD J j1 (∑ q, ref.w q) (∑ q, ref.W q) w2 w1 R (fun l => rfl)
    rw [← hsurf, ← hvol'] at hinv
    set S := ((Ghosts.facets (D + 1) e).map area).sum / volume e with hS
    -- the displacement and its gradient as polynomials
    set u : Fin (D + 1) → (Fin (D + 1) → ℝ) → ℝ := fun i x => ∑ k, phi k x * v k i with hu
    set du : Fin (D + 1) → (Fin (D + 1) → ℝ) → Fin (D + 1) → ℝ := fun i x d => ∑ k, dphi k x d * v k i with hdu
    have hup : ∀ i, IsPoly (D + 1) (N + 1) (u i) := fun i => RefElement.isPoly_sum _ _ _ _ fun k _ => by
        simp only [mul_comm _ (v k i)]
        exact RefElement.isPoly_const_mul _ _ _ _ (p1 k)
    have hug : ∀ i x, IsGradient (u i) (du i x) x := by
      intro i x y
      have h := HasDerivAt.fun_sum (u := univ) fun k _ => (p2 k x y).mul_const (v k i)
      refine h.congr_deriv ?_
      simp only [hdu, sum_mul]
      rw [sum_comm]
      exact sum_congr rfl fun d _ => sum_congr rfl fun k _ => by ring
    have hgrad : ∀ i j q, grad (kDx (g.jInv e) ref.Dxi_Q) v i j q = ∑ d, J⁻¹ d j * du i (xi q) d := by
      intro i j q
      simp only [grad, kDx, j3, t3, hdu, mul_sum, sum_mul]
      rw [sum_comm]
      exact sum_congr rfl fun d _ => sum_congr rfl fun k _ => by ring
    have hsq : ∀ (w : (Fin (D + 1) → ℝ) → ℝ) M, M ≤ N + 1 → IsPoly (D + 1) M w → ∑ q, ref.W q * w (xi q) ^ 2 = simplexIntegral (D + 1) (fun x => w x ^ 2) := by
      rintro w M hM ⟨p, hp, hw⟩
      refine q1 (fun x => w x ^ 2) ⟨p ^ 2, ?_, fun x => by simp only [hw, map_pow]⟩
      exact (MvPolynomial.totalDegree_pow _ _).trans (by nlinarith)
    have hkey : ∀ i, ∑ q, ref.W q * ∑ d, du i (xi q) d ^ 2 ≤ 2 * ((D + 1 : ℕ) : ℝ) ^ 2 * C' * ∑ q, ref.W q * u i (xi q) ^ 2 := by
      intro i
      rw [hsq (u i) (N + 1) le_rfl (hup i)]
      refine le_trans (le_of_eq ?_) (hineq (u i) (du i) (hup i) (hug i))
      simp only [mul_sum]
      rw [sum_comm]
      refine sum_congr rfl fun d _ => ?_
      exact hsq (fun x => du i x d) N (by omega) (CurvilinearBuild.isPoly_gradient (N + 1) (u i) (hup i) (du i) (hug i) d)
    have h1 : ∑ q, g.absDetJ e q * ref.W q * ∑ i, ∑ j, grad (kDx (g.jInv e) ref.Dxi_Q) v i j q ^ 2 ≤
        |J.det| * ((∑ e, ∑ j, J⁻¹ e j ^ 2) * ∑ i, ∑ q, ref.W q * ∑ d, du i (xi q) d ^ 2) := by
      have e1 : |J.det| * ((∑ e, ∑ j, J⁻¹ e j ^ 2) * ∑ i, ∑ q, ref.W q * ∑ d, du i (xi q) d ^ 2) =
          ∑ q, |J.det| * ref.W q * ∑ i, (∑ e, ∑ j, J⁻¹ e j ^ 2) * ∑ d, du i (xi q) d ^ 2 := by
        generalize ∑ e, ∑ j, J⁻¹ e j ^ 2 = K
        rw [sum_comm, mul_sum, mul_sum]
        refine sum_congr rfl fun q _ => ?_
        rw [← mul_sum, ← mul_sum]; ring
      rw [e1]
      refine sum_le_sum fun q _ => ?_
      rw [j2]
      refine mul_le_mul_of_nonneg_left (sum_le_sum fun i _ => ?_) (mul_nonneg (abs_nonneg _) (hW q))
      simp only [hgrad]
      exact mat_vec_le (fun e j => J⁻¹ e j) (du i (xi q))
    have hG0 : 0 ≤ ∑ i, ∑ q, ref.W q * ∑ d, du i (xi q) d ^ 2 :=
      sum_nonneg fun i _ => sum_nonneg fun q _ => mul_nonneg (hW q) (sum_nonneg fun d _ => sq_nonneg _)
    have h2 := mul_le_mul_of_nonneg_right hinv hG0
    have h3 : ∑ i, ∑ q, ref.W q * ∑ d, du i (xi q) d ^ 2 ≤ 2 * ((D + 1 : ℕ) : ℝ) ^ 2 * C' * ∑ i, ∑ q, ref.W q * u i (xi q) ^ 2 := by
      rw [mul_sum]; exact sum_le_sum fun i _ => hkey i
    have h4 : norm2 ref g e v = |J.det| * ∑ i, ∑ q, ref.W q * u i (xi q) ^ 2 := by
      unfold norm2
      rw [sum_comm, mul_sum]
      refine sum_congr rfl fun q _ => ?_
      rw [← mul_sum, j2, mul_assoc]
      simp only [Elasticity.val, t1, hu]
    have hc0 : 0 ≤ 1 / (2 * (D + 1 : ℝ) ^ 2) * S ^ 2 := by positivity
    have h5 := mul_le_mul_of_nonneg_left h3 hc0
    have h6 := mul_le_mul_of_nonneg_left (h2.trans h5) (abs_nonneg J.det)
    refine h1.trans (h6.trans (le_of_eq ?_))
    rw [h4]
    have : (D + 1 : ℝ) ≠ 0 := by positivity
    push_cast
    field_simp

/-- **C97 (time step on straight meshes)**: no analytic hypothesis is left.  Affine elements in two or three dimensions, polynomials of the
checked degrees, quadratures exact to twice the degree, a material that is interpolated with nonnegative weights and has positive
shear modulus, nonnegative Lamé parameter and density at least one: for every eigenvalue `l` of the wave operator and every
nonnegative time step `t` up to the one the code computes, `l t² ≤ 1`. -/
theorem C97_step_straight (hD : D = 1 ∨ D = 2) (hd : IsDistributed P (D + 1) elems num fnum tag views) (N : ℕ) (hN : Checked (D + 1) (N + 1))
    (ref : Ref (D + 1) Nbf Nbm Nq nq) (hr : BasisTables D N ref.W ref.w ref.E_Q ref.E_q ref.Dxi_Q ref.Dxi_q) (hw : ∀ q, 0 ≤ ref.w q) (hW : ∀ q, 0 ≤ ref.W q)
    (g : Geometry (D + 1) Nq nq) (hg : g.Opposite P elems) (hs : AffineElements P elems g)
    (lam mu : List ℕ → Fin Nbm → ℝ) (hlam : ∀ e, InElems P elems e → ∀ m, 0 ≤ lam e m) (hmu : ∀ e, InElems P elems e → ∀ m, 0 < mu e m) (hm : 0 < Nbm)
    (hEQ : ∀ q m, 0 ≤ ref.matE_Q_T q m) (hEQ1 : ∀ q, ∑ m, ref.matE_Q_T q m = 1)
    (hEq : ∀ l q m, 0 ≤ ref.matE_q_T l q m) (hEq1 : ∀ l q, ∑ m, ref.matE_q_T l q m = 1)
    (area volume : List ℕ → ℝ)
    (harea : ∀ e f, InElems P elems e → IsFacet e f → area f = ∑ q, ref.w q * normalLength (g.normal f e) q)
    (hvol : ∀ e, InElems P elems e → volume e = ∑ q, ref.W q * g.absDetJ e q)
    (pen : List ℕ → ℝ) (o : ℕ → Op (D + 1) Nbf Nbm Nq nq) (ho : ∀ r, r < P → Samples (views r) (o r) .IP ref g lam mu pen)
    (areaR volumeR : ℕ → ℕ → ℝ) (hmeas : ∀ r, r < P → Measures (views r) (areaR r) (volumeR r) area volume)
    (hpen : ∀ r, r < P → ∀ i info, i < (views r).numLocalFacets → facetInfo (views r) i = some info →
      (o r).penalty_ i = preparePenalty (D + 1) N (areaR r) (volumeR r) (o r).lam (o r).mu i info)
    (rhoInv : List ℕ → Fin Nbm → ℝ) (hrho : ∀ r, r < P → ∀ (u : ℕ) (e : List ℕ), (views r).elems[u]? = some e → (o r).rhoInv u = rhoInv e)
    (hr0 : ∀ e, InElems P elems e → ∀ m, 0 < rhoInv e m) (hr1 : ∀ e, InElems P elems e → ∀ m, rhoInv e m ≤ 1)
    (hinv : IsInverse ref.MinvRef (massWith ref.E_Q ref.W (fun _ => 1)))
    (C_N : ℝ) (hC : gradConstant (D + 1) (N + 1) = some C_N)
    (dmax : ℝ) (dts : ℕ → List ℝ) (hdts : ∀ r, r < P → prepareCfl (views r) (N + 1) C_N (areaR r) (volumeR r) (o r) = some (dts r))
    (dt : ℝ) (hdt : globalStep ((List.range P).map (fun r => localStep dmax (dts r))) = some dt)
    (blocks : ℕ → List (ℕ × ℕ × (Fin Nbf → Fin (D + 1) → Fin Nbf → Fin (D + 1) → ℝ)))
    (hbl : ∀ r, r < P → assemble (views r) (o r).localOp = some (blocks r))
    (X : List ℕ → Fin Nbf → Fin (D + 1) → ℝ) (hX : ∃ e, InElems P elems e ∧ X e ≠ 0) (l : ℝ)
    (heig : ∀ r, r < P → ∀ u, u < (elems r).length → ∀ k c,
      - ∑ m, weightAdjusted ref.MinvRef ref.E_Q ref.W (fun q => (o r).rhoInvQ u q / (o r).J_Q u q) k m *
        rowApply Elasticity.mulVec (blocks r) (fun j => X ((views r).elems.getD j [])) u m c = - (l * X ((views r).elems.getD u []) k c)) :
    ∀ t, 0 ≤ t → t ≤ dt → l * t ^ 2 ≤ 1 := by
  have hN' : 0 ≤ C_N := by
    have h2 : ∀ c ∈ gradTable2, (0 : ℚ) ≤ c := by decide +kernel
    have h3 : ∀ c ∈ gradTable3, (0 : ℚ) ≤ c := by decide +kernel
    rcases hD with rfl | rfl
    · have hC : gradTable2[N + 1]?.map (fun c : ℚ => (c : ℝ)) = some C_N := hC
      obtain ⟨c, hc, rfl⟩ := Option.map_eq_some_iff.1 hC
      exact_mod_cast h2 c (List.mem_of_getElem? hc)
    · have hC : gradTable3[N + 1]?.map (fun c : ℚ => 4 * (c : ℝ)) = some C_N := hC
      obtain ⟨c, hc, rfl⟩ := Option.map_eq_some_iff.1 hC
      exact mul_nonneg (by norm_num) (by exact_mod_cast h3 c (List.mem_of_getElem? hc))
  have hst := AffineElements.straight hD hs
  haveI : Nonempty (Fin Nbm) := ⟨⟨0, hm⟩⟩
  have hle : ∀ e m, rhoInv e m ≤ inverseDensityUpperBound (rhoInv e) := fun e m => le_ciSup (Set.finite_range (rhoInv e)).bddAbove m
  exact C97_step hd ref g hg lam mu pen o ho N (N + 1) C_N hN' areaR volumeR area volume hmeas hpen
    (TraceIneq.elasticity_coercive hD N ref g (BasisTables.gradients hr) hst lam mu area volume hw hW harea hvol hlam hmu hm hEQ hEQ1 hEq hEq1)
    (bounded_straight hD hd.mesh N hN C_N hC ref g hr hs lam mu area volume hW harea hvol hEQ hEQ1) hst.detJ rhoInv hrho
    (fun e he q => (convex_coef _ _ hEQ hEQ1 0 _ (fun m => (hr0 e he m).le) (hle e) q).1)
    (fun e he q => (convex_coef _ _ hEQ hEQ1 0 _ (fun m => (hr0 e he m).le) (hle e) q).2)
    (fun e he => (hr0 e he ⟨0, hm⟩).trans_le (hle e _)) (fun e he => ciSup_le (hr1 e he))
    hinv dmax dts hdts dt hdt blocks hbl X hX l heig

/-! ## The hypotheses can be met: linear functions on the strip of triangles with vertices `(i, i mod 2)`, on three ranks -/

/-- Basis functions 1 and x, constant coefficient basis. -/
noncomputable def exRef : Ref 2 2 1 3 3 :=
  ⟨fun k q => if k = 0 then 1 else TraceIneq.exXi q 0, fun k e _ => if k = 1 ∧ e = 0 then 1 else 0, fun _ _ => 1, fun _ => 1 / 6,
   fun l k q => if k = 0 then 1 else facetParam (TraceIneq.exLocal l) (TraceIneq.exChi q) 0,
   fun _ k e _ => if k = 1 ∧ e = 0 then 1 else 0, fun _ _ _ => 1, ![1 / 6, 2 / 3, 1 / 6], fun k l => ![![6, -12], ![-12, 36]] k l⟩

/-- Jacobian of the elements of the strip. -/
noncomputable def exJ (e : List ℕ) : Matrix (Fin 2) (Fin 2) ℝ := if e.headD 0 % 2 = 0 then !![1, 2; 1, 0] else !![1, 2; -1, 0]
/-- Its inverse. -/
noncomputable def exJInv (e : List ℕ) : Matrix (Fin 2) (Fin 2) ℝ := if e.headD 0 % 2 = 0 then !![0, 1; 1 / 2, -1 / 2] else !![0, -1; 1 / 2, 1 / 2]

theorem exJ_det (e : List ℕ) : |(exJ e).det| = 2 := by
  unfold exJ; split_ifs <;> simp [Matrix.det_fin_two]

theorem exJ_inv (e : List ℕ) : (exJ e)⁻¹ = exJInv e := by
  refine Matrix.inv_eq_right_inv ?_
  unfold exJ exJInv
  split_ifs <;> (ext i j; fin_cases i <;> fin_cases j <;> simp [Matrix.mul_apply, Fin.sum_univ_two] <;> norm_num)

/-- The geometry of the strip. -/
noncomputable def exGeo : Geometry 2 3 3 :=
  ⟨fun _ _ => 2, fun e i j _ => exJInv e i j, fun _ e i j _ => exJInv e i j,
   fun f e i _ => Curvilinear.normal (D := 1) (TraceIneq.exLocal ((Ghosts.facets 2 e).idxOf f)) (exJ e) i, fun e f => (Ghosts.facets 2 e).idxOf f⟩

/-- The normals of the strip. -/
theorem exNormal (e f : List ℕ) (q : Fin 3) : (exGeo.normal f e 0 q, exGeo.normal f e 1 q) =
    if (Ghosts.facets 2 e).idxOf f = 0 then (if e.headD 0 % 2 = 0 then (-1, 1) else (-1, -1))
    else if (Ghosts.facets 2 e).idxOf f = 1 then (if e.headD 0 % 2 = 0 then (0, -2) else (0, 2))
    else (if e.headD 0 % 2 = 0 then (1, 1) else (1, -1)) := by
  have h : ∀ (l : Fin 3) r, Curvilinear.normal (D := 1) l (exJ e) r = 2 * (exJInv e 0 r * refNormal 1 l 0 + exJInv e 1 r * refNormal 1 l 1) := by
    intro l r
    simp [Curvilinear.normal, Matrix.mulVec, dotProduct, Fin.sum_univ_two, exJ_det, exJ_inv]
  simp only [exGeo, h, refNormal_eq (D := 1) (Or.inl rfl)]
  unfold TraceIneq.exLocal exJInv
  generalize e.headD 0 % 2 = m
  by_cases h0 : (Ghosts.facets 2 e).idxOf f = 0
  · by_cases he : m = 0 <;> simp [h0, he, missing, Fin.rev, Fin.ext_iff] <;> norm_num
  · by_cases h1 : (Ghosts.facets 2 e).idxOf f = 1
    · by_cases he : m = 0 <;> simp [h1, he, missing, Fin.rev, Fin.ext_iff] <;> norm_num
    · by_cases he : m = 0 <;> simp [h0, h1, he, missing, Fin.rev, Fin.ext_iff] <;> norm_num

theorem exMem {e : List ℕ} (he : InElems 3 Ghosts.exElems e) : e ∈ Ghosts.exAll ∧ ∀ f, f ∈ Ghosts.facets 2 e ↔ IsFacet e f := by
  have hall : ∀ s, s < 3 → ∀ a ∈ Ghosts.exElems s, a ∈ Ghosts.exAll := by decide
  have hv : ∀ s, s < 3 → ∀ a ∈ Ghosts.exElems s, a.length = 3 ∧ a.Pairwise (· < ·) := by decide
  obtain ⟨s, hs, he⟩ := he
  exact ⟨hall s hs e he, (Ghosts.facets_spec 2 (by decide) e (hv s hs e he).1 (hv s hs e he).2).2⟩

theorem exOpposite : exGeo.Opposite 3 Ghosts.exElems := by
  have h0 : ∀ a ∈ Ghosts.exAll, ∀ b ∈ Ghosts.exAll, ∀ f ∈ Ghosts.facets 2 a, a ≠ b → IsFacet b f →
      (b.headD 0 % 2 = 0 ↔ ¬ a.headD 0 % 2 = 0) ∧ ((Ghosts.facets 2 a).idxOf f = 0 ∧ (Ghosts.facets 2 b).idxOf f = 2 ∨
        (Ghosts.facets 2 a).idxOf f = 2 ∧ (Ghosts.facets 2 b).idxOf f = 0) := by decide +kernel
  rintro f e e' he he' hne hf hf'
  obtain ⟨h1, h2⟩ := h0 e (exMem he).1 e' (exMem he').1 f (((exMem he).2 f).2 hf) hne hf'
  funext i q
  have n1 := exNormal e f q
  have n2 := exNormal e' f q
  rcases h2 with ⟨a, b⟩ | ⟨a, b⟩ <;> by_cases hp : e.headD 0 % 2 = 0 <;> simp only [a, b, h1, hp] at n1 n2 <;>
    (obtain ⟨n11, n12⟩ := Prod.mk.inj n1; obtain ⟨n21, n22⟩ := Prod.mk.inj n2; fin_cases i <;> simp_all)

theorem exAffine : AffineElements 3 Ghosts.exElems exGeo where
  map := by
    intro e he
    refine ⟨exJ e, fun h => ?_, fun q => (exJ_det e).symm, fun i j q => by rw [exJ_inv]; rfl, fun f hf => ⟨fun i j q => by rw [exJ_inv]; rfl, ?_⟩⟩
    · have := exJ_det e; rw [h] at this; simp at this
    · refine ⟨TraceIneq.exLocal ((Ghosts.facets 2 e).idxOf f), ?_, 1, by simp, fun r q => by rw [one_mul]; rfl⟩
      have h0 : ∀ a ∈ Ghosts.exAll, ∀ f ∈ Ghosts.facets 2 a, (Ghosts.facets 2 a).idxOf f = TraceIneq.exLocal ((Ghosts.facets 2 a).idxOf f) := by decide +kernel
      exact h0 e (exMem he).1 f (((exMem he).2 f).2 hf)
  localNo := by
    intro e f f' he hf hf' h
    have h0 : ∀ a ∈ Ghosts.exAll, ∀ f ∈ Ghosts.facets 2 a, ∀ f' ∈ Ghosts.facets 2 a, (Ghosts.facets 2 a).idxOf f = (Ghosts.facets 2 a).idxOf f' → f = f' := by decide +kernel
    exact h0 e (exMem he).1 f (((exMem he).2 f).2 hf) f' (((exMem he).2 f').2 hf') h

/-- Lengths of the edges of the strip. -/
noncomputable def exArea (f : List ℕ) : ℝ := if f.getD 1 0 = f.getD 0 0 + 1 then √2 else 2

theorem exAreaEq (e f : List ℕ) (he : InElems 3 Ghosts.exElems e) (hf : IsFacet e f) :
    exArea f = ∑ q, exRef.w q * normalLength (exGeo.normal f e) q := by
  have h0 : ∀ a ∈ Ghosts.exAll, ∀ f ∈ Ghosts.facets 2 a, ((Ghosts.facets 2 a).idxOf f = 0 ∨ (Ghosts.facets 2 a).idxOf f = 2) ∧ f.getD 1 0 = f.getD 0 0 + 1 ∨
      (Ghosts.facets 2 a).idxOf f = 1 ∧ ¬ f.getD 1 0 = f.getD 0 0 + 1 := by decide +kernel
  have hl : ∀ q, normalLength (exGeo.normal f e) q = exArea f := by
    intro q
    have n1 := exNormal e f q
    unfold normalLength exArea
    rw [Fin.sum_univ_two]
    have h4 : √(2 * 2) = 2 := Real.sqrt_mul_self (by norm_num)
    have h5 := h0 e (exMem he).1 f (((exMem he).2 f).2 hf)
    generalize f.getD 1 0 = f1 at h5 ⊢
    generalize f.getD 0 0 = f0 at h5 ⊢
    rcases h5 with ⟨h1 | h1, h2⟩ | ⟨h1, h2⟩ <;> by_cases hp : e.headD 0 % 2 = 0 <;>
      simp only [h1, hp] at n1 <;> (obtain ⟨n11, n12⟩ := Prod.mk.inj n1; simp [n11, n12, h2, h4] <;> norm_num)
  simp only [hl]
  rw [← sum_mul, Fin.sum_univ_three]
  simp [exRef]; norm_num

theorem exVolumeEq (e : List ℕ) : (1 : ℝ) = ∑ q, exRef.W q * exGeo.absDetJ e q := by
  rw [Fin.sum_univ_three]; simp [exRef, exGeo]; norm_num

theorem exBasisTables : BasisTables 1 0 exRef.W exRef.w exRef.E_Q exRef.E_q exRef.Dxi_Q exRef.Dxi_q := by
  refine ⟨TraceIneq.exXi, TraceIneq.exChi, fun k x => if k = 0 then 1 else x 0, fun k _ e => if k = 1 ∧ e = 0 then 1 else 0, ?_, ?_, ?_, ?_,
    fun _ _ => rfl, ?_, fun _ _ _ => rfl, fun _ _ _ _ => rfl⟩
  · have := Functions.exact_of_monomials 2 2 (by simp) [![1/2, 0], ![0, 1/2], ![1/2, 1/2]] [1/6, 1/6, 1/6] rfl fun m hm => ?_
    · intro f hf
      have h := this.2 f hf
      rw [← h, Fin.sum_univ_three]
      simp [exRef, TraceIneq.exXi]; ring
    · rw [Fin.sum_univ_two] at hm
      have : (m 0 = 0 ∧ m 1 = 0) ∨ (m 0 = 1 ∧ m 1 = 0) ∨ (m 0 = 0 ∧ m 1 = 1) ∨ (m 0 = 2 ∧ m 1 = 0)
        ∨ (m 0 = 1 ∧ m 1 = 1) ∨ (m 0 = 0 ∧ m 1 = 2) := by omega
      rcases this with ⟨h0, h1⟩ | ⟨h0, h1⟩ | ⟨h0, h1⟩ | ⟨h0, h1⟩ | ⟨h0, h1⟩ | ⟨h0, h1⟩ <;>
        simp [Functions.moment, Fin.prod_univ_two, Fin.sum_univ_two, h0, h1, Nat.factorial] <;> norm_num
  · have := Functions.exact_of_monomials 1 2 (by simp) [![0], ![1/2], ![1]] [1/6, 2/3, 1/6] rfl fun m hm => ?_
    · intro f hf
      have h := this.2 f hf
      rw [← h, Fin.sum_univ_three]
      simp [exRef, TraceIneq.exChi]; ring
    · rw [Fin.sum_univ_one] at hm
      have : m 0 = 0 ∨ m 0 = 1 ∨ m 0 = 2 := by omega
      rcases this with h | h | h <;> simp [Functions.moment, h, Nat.factorial] <;> norm_num
  · intro k
    fin_cases k
    · exact ⟨1, by simp, fun x => by simp⟩
    · simpa using RefElement.isPoly_coord 2 0
  · intro k x v
    fin_cases k
    · simpa using hasDerivAt_const (0 : ℝ) (1 : ℝ)
    · have e : ∑ d : Fin 2, (if (1 : Fin 2) = 1 ∧ d = 0 then (1 : ℝ) else 0) * v d = v 0 := by
        rw [Fin.sum_univ_two]; simp
      have : HasDerivAt (fun t : ℝ => x 0 + t * v 0) (v 0) 0 := by
        simpa using ((hasDerivAt_id (0:ℝ)).mul_const (v 0)).const_add (x 0)
      exact this.congr_deriv e.symm
  · intro l k q
    have : TraceIneq.exLocal l = l := by fin_cases l <;> rfl
    simp only [exRef, this]

open Classical in
/-- Penalty of the facets of the strip. -/
noncomputable def exPen (f : List ℕ) : ℝ :=
  if h : ∃ e a, InElems 3 Ghosts.exElems e ∧ InElems 3 Ghosts.exElems a ∧ e ≠ a ∧ IsFacet e f ∧ IsFacet a f then
    3 * Elasticity.sidePenalty 2 0 (exArea f) 1 (exLam h.choose) (exMu h.choose) / 4 + 3 * Elasticity.sidePenalty 2 0 (exArea f) 1 (exLam h.choose_spec.choose) (exMu h.choose_spec.choose) / 4
  else if h : ∃ e, InElems 3 Ghosts.exElems e ∧ IsFacet e f then 3 * Elasticity.sidePenalty 2 0 (exArea f) 1 (exLam h.choose) (exMu h.choose) else 0

/-- Linear elements on the strip on three ranks: all hypotheses of `C97_step_straight` hold together, the time step is computed, and the
conclusion holds for every eigenpair. -/
example (dmax : ℝ) : ∃ (num fnum : List ℕ → ℕ) (views : ℕ → View) (o : ℕ → Op 2 2 1 3 3) (areaR : ℕ → ℕ → ℝ) (dts : ℕ → List ℝ) (dt : ℝ)
      (blocks : ℕ → List (ℕ × ℕ × (Fin 2 → Fin 2 → Fin 2 → Fin 2 → ℝ))),
    IsDistributed 3 2 Ghosts.exElems num fnum Poisson.exTag views ∧ (∀ r, r < 3 → Samples (views r) (o r) .IP exRef exGeo exLam exMu exPen) ∧
    (∀ r, r < 3 → prepareCfl (views r) 1 6 (areaR r) (fun _ => 1) (o r) = some (dts r)) ∧
    globalStep ((List.range 3).map (fun r => localStep dmax (dts r))) = some dt ∧
    (∀ r, r < 3 → assemble (views r) (o r).localOp = some (blocks r)) ∧
    ∀ X : List ℕ → Fin 2 → Fin 2 → ℝ, (∃ e, InElems 3 Ghosts.exElems e ∧ X e ≠ 0) → ∀ l : ℝ,
      (∀ r, r < 3 → ∀ u, u < (Ghosts.exElems r).length → ∀ k c,
        - ∑ m, weightAdjusted exRef.MinvRef exRef.E_Q exRef.W (fun q => (o r).rhoInvQ u q / (o r).J_Q u q) k m *
          rowApply Elasticity.mulVec (blocks r) (fun j => X ((views r).elems.getD j [])) u m c = - (l * X ((views r).elems.getD u []) k c)) →
      ∀ t, 0 ≤ t → t ≤ dt → l * t ^ 2 ≤ 1 := by
  obtain ⟨num, fnum, views, o', h, ho'⟩ := Elasticity.example_samples_of exGeo (fun _ _ => rfl) .IP exRef exLam exMu exPen
  set rhoInv : List ℕ → Fin 1 → ℝ := fun e _ => 1 / (1 + e.sum : ℝ) with hrho
  set o : ℕ → Op 2 2 1 3 3 := fun r => { o' r with rhoInv := fun u => rhoInv ((views r).elems.getD u []) } with hodef
  have ho : ∀ r, r < 3 → Samples (views r) (o r) .IP exRef exGeo exLam exMu exPen := fun r hr =>
    ⟨(ho' r hr).method, (ho' r hr).ref, (ho' r hr).numbers, (ho' r hr).J_Q, (ho' r hr).G_Q, (ho' r hr).lam, (ho' r hr).mu, (ho' r hr).JInv, (ho' r hr).n_q, (ho' r hr).penalty_⟩
  set areaR : ℕ → ℕ → ℝ := fun r i => exArea ((views r).facets.getD i []) with haR
  have hmeas : ∀ r, r < 3 → Measures (views r) (areaR r) (fun _ => 1) exArea (fun _ => 1) :=
    fun r _ => ⟨fun i f hf _ => by simp [haR, List.getD_eq_getElem?_getD, hf], fun _ _ _ => rfl⟩
  have hrho' : ∀ r, r < 3 → ∀ (u : ℕ) (e : List ℕ), (views r).elems[u]? = some e → (o r).rhoInv u = rhoInv e := fun r _ u e he => by
    simp [hodef, List.getD_eq_getElem?_getD, he]
  have hdts : ∀ r, ∃ l, r < 3 → prepareCfl (views r) 1 6 (areaR r) (fun _ => 1) (o r) = some l := by
    intro r
    by_cases hr : r < 3
    · exact ⟨_, fun _ => C97_prepare h r hr exRef exGeo exLam exMu exPen (o r) (ho r hr) 1 6 (areaR r) (fun _ => 1) exArea (fun _ => 1) (hmeas r hr) rhoInv (hrho' r hr)⟩
    · exact ⟨[], fun h => absurd h hr⟩
  choose dts hdts using hdts
  have hpen : ∀ r, r < 3 → ∀ i info, i < (views r).numLocalFacets → facetInfo (views r) i = some info →
      (o r).penalty_ i = preparePenalty 2 0 (areaR r) (fun _ => 1) (o r).lam (o r).mu i info := by
    intro r hr i info hi hinfo
    have hv := h.view r hr
    obtain ⟨info', f, e0, e1, g1, g2, g3, g4, g5, g6, g7, _⟩ := C33_facet_info h r hr i hi
    rw [(ho r hr).penalty_ i f g2 hi]
    obtain ⟨p1, p2⟩ := Elasticity.penalty_eq h r hr 0 _ _ _ _ (hmeas r hr) (o r).lam (o r).mu exLam exMu (ho r hr).lam (ho r hr).mu i info f hi hinfo g2
    unfold exPen
    by_cases hex : ∃ e a, InElems 3 Ghosts.exElems e ∧ InElems 3 Ghosts.exElems a ∧ e ≠ a ∧ IsFacet e f ∧ IsFacet a f
    · rw [dif_pos hex]
      obtain ⟨q1, q2, q3, q4, q5⟩ := hex.choose_spec.choose_spec
      rw [p2 _ _ q1 q2 q3 q4 q5]; norm_num
    · rw [dif_neg hex]
      have hex' : ∃ e, InElems 3 Ghosts.exElems e ∧ IsFacet e f := ⟨e0, mem_inElems hv g3, g5⟩
      rw [dif_pos hex']
      obtain ⟨q1, q2⟩ := hex'.choose_spec
      rw [p1 _ q1 q2 (fun a ha hfa => Classical.byContradiction (fun hne => hex ⟨a, _, ha, q1, hne, hfa, q2⟩))]; norm_num
  have hw : ∀ q, (0 : ℝ) ≤ exRef.w q := fun q => by fin_cases q <;> simp [exRef] <;> norm_num
  have hW : ∀ q, (0 : ℝ) ≤ exRef.W q := fun q => by simp [exRef]
  have hl0 : ∀ e, InElems 3 Ghosts.exElems e → ∀ m, 0 ≤ exLam e m := fun e _ m => by unfold exLam; positivity
  have hm0 : ∀ e, InElems 3 Ghosts.exElems e → ∀ m, 0 < exMu e m := fun e _ m => by unfold exMu; positivity
  have hblocks := TraceIneq.C75_elasticity_straight (D := 1) (Or.inl rfl) h 0 exRef (BasisTables.gradients exBasisTables) hw hW exGeo exOpposite
    (AffineElements.straight (Or.inl rfl) exAffine) exLam exMu hl0 hm0 one_pos (fun _ _ => zero_le_one) (fun q => by simp [exRef])
    (fun _ _ _ => zero_le_one) (fun _ _ => by simp [exRef]) exArea (fun _ => 1) exAreaEq (fun e _ => exVolumeEq e) exPen o ho areaR (fun _ _ => 1) hmeas hpen (fun _ _ _ => 0)
  obtain ⟨blocks, hbl, _⟩ := hblocks
  refine ⟨num, fnum, views, o, areaR, dts, _, blocks, h, ho, hdts, rfl, hbl, ?_⟩
  intro X hX l heig
  refine C97_step_straight (D := 1) (Or.inl rfl) h 0 (Or.inl ⟨rfl, le_rfl, by norm_num⟩) exRef exBasisTables hw hW exGeo exOpposite exAffine exLam exMu hl0 hm0 one_pos
    (fun _ _ => zero_le_one) (fun q => by simp [exRef]) (fun _ _ _ => zero_le_one) (fun _ _ => by simp [exRef]) exArea (fun _ => 1) exAreaEq (fun e _ => exVolumeEq e)
    exPen o ho areaR (fun _ _ => 1) hmeas hpen rhoInv hrho' (fun e _ m => by simp only [hrho]; positivity) (fun e _ m => ?_) ?_ 6 ?_ dmax dts hdts _ rfl blocks hbl X hX l heig
  · simp only [hrho]
    rw [div_le_one (by positivity)]
    have : (0 : ℝ) ≤ (e.sum : ℝ) := by positivity
    linarith
  · intro k l
    fin_cases k <;> fin_cases l <;> simp [exRef, massWith, Fin.sum_univ_two, Fin.sum_univ_three, TraceIneq.exXi] <;> norm_num
  · simp [gradConstant, gradTable2]

end Tandem.Cfl
