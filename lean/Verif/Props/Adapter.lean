import Verif.Props.FacetBasis
import Verif.Model.Adapter
import Verif.Props.RateAndState
import Mathlib.LinearAlgebra.Matrix.PosDef
/-!
# C80: the fault sees the volume problem consistently
-/
namespace Tandem.Adapter
open Curvilinear Matrix

variable {D nq nbf : ℕ}

theorem norm_neg' (n : Fin D → ℝ) : norm (-n) = norm n := by
  unfold norm dot; simp

/-- The values at a point from the two sides of the facet. -/
theorem preparePoint_swap {tol : ℝ} (ht : 0 < tol) (fb : (Fin D → ℝ) → Option (Fin D → Fin D → ℝ))
    (ref n : Fin D → ℝ) : preparePoint tol fb ref (-n) =
      (preparePoint tol fb ref n).map (fun r => (!r.1, r.2.1, r.2.2.1, -r.2.2.2)) := by
  unfold preparePoint orient
  have hc : dot ref (-n) = - dot ref n := by rw [dot_comm, neg_dot, dot_comm]
  simp only [hc, abs_neg, norm_neg', neg_neg]
  by_cases h : |dot ref n| < tol
  · simp [h]
  · have h0 : dot ref n ≠ 0 := by
      intro e; apply h; rw [e, abs_zero]; exact ht
    rcases lt_or_gt_of_ne h0 with h1 | h1
    · have h2 : ¬ -dot ref n < 0 := by linarith
      simp only [h, h1, h2, if_true, if_false, Option.bind_eq_bind, Option.bind_some]
      cases fb (-n) with
      | none => rfl
      | some b => simp; funext o p; simp
    · have h2 : -dot ref n < 0 := by linarith
      have h3 : ¬ dot ref n < 0 := by linarith
      simp only [h, h3, h2, if_true, if_false, Option.bind_eq_bind, Option.bind_some]
      cases fb n with
      | none => rfl
      | some b => simp; funext o p; simp

/-- What the adapter stores when the facet is seen from the other side. -/
def swapped (ft : Fault D nq) : Fault D nq :=
  ⟨fun q => !ft.flipped q, ft.normal, ft.nl, fun q => -ft.basis q⟩

/-- C80 (both sides): whichever of the two elements comes first, the adapter stores the same normal and
the same length; the fault basis and the flag change sign. -/
theorem C80_swap {tol : ℝ} (ht : 0 < tol) (fb : (Fin D → ℝ) → Option (Fin D → Fin D → ℝ))
    (ref : Fin D → ℝ) (n : Fin nq → Fin D → ℝ) :
    prepare tol fb ref (fun q => -n q) = (prepare tol fb ref n).map swapped := by
  have hs : ∀ q, (preparePoint tol fb ref (-n q)).isSome = (preparePoint tol fb ref (n q)).isSome := by
    intro q; rw [preparePoint_swap ht]; simp
  unfold prepare
  simp only [hs]
  by_cases h : ∀ q, (preparePoint tol fb ref (n q)).isSome
  · simp only [h, dif_pos, implies_true, Option.map_some]
    unfold swapped
    simp only [preparePoint_swap ht, Option.get_map]
  · rw [dif_neg h, dif_neg h]; rfl

/-- What `prepare` stores. -/
theorem prepare_spec {tol : ℝ} (fb : (Fin D → ℝ) → Option (Fin D → Fin D → ℝ))
    (ref : Fin D → ℝ) (n : Fin nq → Fin D → ℝ) (ft : Fault D nq) (h : prepare tol fb ref n = some ft) (q : Fin nq) :
    tol ≤ |dot ref (n q)| ∧ ft.flipped q = decide (dot ref (n q) < 0) ∧
    ft.normal q = (if dot ref (n q) < 0 then -n q else n q) ∧ ft.nl q = norm (n q) ∧
    ∃ b, fb (ft.normal q) = some b ∧ ft.basis q = if dot ref (n q) < 0 then -b else b := by
  unfold prepare at h
  split at h
  · rename_i hs
    simp only [Option.some.injEq] at h
    subst h
    have h1 := hs q
    simp only
    generalize hr : (preparePoint tol fb ref (n q)).get (hs q) = r
    have h2 : preparePoint tol fb ref (n q) = some r := by rw [← hr]; simp
    clear hr h1
    unfold preparePoint orient at h2
    by_cases h : |dot ref (n q)| < tol
    · simp [h] at h2
    · by_cases h3 : dot ref (n q) < 0
      · simp only [h, h3, if_true, if_false, Option.bind_eq_bind, Option.bind_some, Option.bind_eq_some_iff] at h2
        obtain ⟨b, hb, e⟩ := h2
        simp only [Option.some.injEq] at e
        subst e
        refine ⟨not_lt.1 h, by simp [h3], by simp [h3], rfl, b, hb, ?_⟩
        simp only [h3, if_true]
        funext o p; simp
      · simp only [h, h3, if_true, if_false, Option.bind_eq_bind, Option.bind_some, Option.bind_eq_some_iff] at h2
        obtain ⟨b, hb, e⟩ := h2
        simp only [Option.some.injEq] at e
        subst e
        refine ⟨not_lt.1 h, by simp [h3], by simp [h3], rfl, b, hb, ?_⟩
        simp [h3]
  · cases h

/-- C80 (slip from both sides): the jump of the displacement that a slip prescribes is opposite if the
elements are exchanged, so it is the same motion of the two sides. -/
theorem C80_slip_swap (ft : Fault (D + 1) nq) (e_q : Fin nbf → Fin nq → ℝ) (slip : Fin nbf → Fin D → ℝ)
    (s1 : Fin nbf → ℝ) :
    elSlip (swapped ft) e_q slip = -elSlip ft e_q slip ∧ poSlip (swapped ft) e_q s1 = -poSlip ft e_q s1 := by
  constructor
  · funext p q
    simp only [elSlip, swapped, Pi.neg_apply]
    simp only [← Finset.sum_neg_distrib]
    refine Finset.sum_congr rfl fun l _ => Finset.sum_congr rfl fun o _ => Finset.sum_congr rfl fun n _ => ?_
    ring
  · funext q
    simp only [poSlip, swapped, Pi.neg_apply]
    by_cases h : ft.flipped q = true <;> simp [h]

/-- C80 (traction from both sides): the traction block does not depend on which element comes first
(exchanging them changes the sign of the traction vector in elasticity, and nothing in the gradient for
Poisson). -/
theorem C80_traction_swap (ft : Fault D nq) (w : Fin nq → ℝ) (e_q : Fin nbf → Fin nq → ℝ)
    (t g : Fin D → Fin nq → ℝ) :
    elTraction (swapped ft) w e_q (-t) = elTraction ft w e_q t ∧
    poTractionBlock (swapped ft) w e_q g = poTractionBlock ft w e_q g := by
  constructor
  · funext k p
    simp only [elTraction, swapped, Pi.neg_apply]
    refine Finset.sum_congr rfl fun l _ => Finset.sum_congr rfl fun q _ => Finset.sum_congr rfl fun o _ => ?_
    ring
  · rfl

/-- C80 (no opening): the fault basis that `prepare` stores is orthonormal, so the prescribed jump has no
component along the normal and its tangential components are the slip of the fault's unknowns (with the
opposite sign if flipped). -/
theorem C80_tangential (ft : Fault (D + 1) nq) (q : Fin nq) (ho : IsOrthonormal (ft.basis q))
    (e_q : Fin nbf → Fin nq → ℝ) (slip : Fin nbf → Fin D → ℝ) :
    dot (ft.basis q 0) (fun p => elSlip ft e_q slip p q) = 0 ∧
    ∀ n : Fin D, dot (ft.basis q n.succ) (fun p => elSlip ft e_q slip p q) = ∑ l, e_q l q * slip l n := by
  have h : ∀ o', dot (ft.basis q o') (fun p => elSlip ft e_q slip p q) =
      ∑ l, ∑ n, e_q l q * slip l n * copySlip n o' := by
    intro o'
    have e1 : ∀ p, elSlip ft e_q slip p q = ∑ o, ft.basis q o p * ∑ l, ∑ n, e_q l q * slip l n * copySlip n o := by
      intro p
      unfold elSlip
      rw [Finset.sum_comm]
      refine Finset.sum_congr rfl fun o _ => ?_
      rw [Finset.mul_sum]
      refine Finset.sum_congr rfl fun l _ => ?_
      rw [Finset.mul_sum]
      refine Finset.sum_congr rfl fun n _ => by ring
    unfold dot
    simp only [e1, Finset.mul_sum (s := Finset.univ (α := Fin (D + 1)))]
    rw [Finset.sum_comm]
    have e2 : ∀ o, ∑ p, ft.basis q o' p * (ft.basis q o p * ∑ l, ∑ n, e_q l q * slip l n * copySlip n o) =
        (if o' = o then 1 else 0) * ∑ l, ∑ n, e_q l q * slip l n * copySlip n o := by
      intro o
      rw [← ho o' o]
      unfold dot
      rw [Finset.sum_mul]
      exact Finset.sum_congr rfl fun p _ => by ring
    simp only [e2]
    simp
  constructor
  · rw [h]
    simp [copySlip]
  · intro n
    rw [h]
    refine Finset.sum_congr rfl fun l _ => ?_
    rw [Finset.sum_eq_single n]
    · simp [copySlip]
    · intro m _ hm
      have : ¬ n.val + 1 = m.val + 1 := by
        intro e; apply hm; exact Fin.ext (by omega)
      simp only [copySlip, Fin.val_succ, if_neg this, mul_zero]
    · simp

/-- What is stored is an orthonormal system. -/
theorem prepare_orthonormal {D : ℕ} {tol : ℝ} (fb : (Fin D → ℝ) → Option (Fin D → Fin D → ℝ))
    (hfb : ∀ n b, fb n = some b → IsOrthonormal b)
    (ref : Fin D → ℝ) (n : Fin nq → Fin D → ℝ) (ft : Fault D nq) (h : prepare tol fb ref n = some ft) (q : Fin nq) :
    IsOrthonormal (ft.basis q) := by
  obtain ⟨-, -, -, -, b, hb, he⟩ := prepare_spec fb ref n ft h q
  have := hfb _ _ hb
  rw [he]
  split
  · intro i j
    rw [← this i j]
    simp [dot]
  · exact this

/-- C80 (no opening, the stored basis): with the facet basis of `Curvilinear` in two and three dimensions
the hypothesis of `C80_tangential` holds at every point, and the first vector is along the normal of
element 0. -/
theorem C80_basis (tol tol' : ℝ) (ht : 0 < tol ∧ tol ≤ 1) :
    (∀ (up ref : Fin 2 → ℝ) (n : Fin nq → Fin 2 → ℝ) (ft : Fault 2 nq),
      prepare tol' (facetBasis2 tol up) ref n = some ft → ∀ q, IsOrthonormal (ft.basis q) ∧
        ∃ c : ℝ, 0 < c ∧ c • ft.basis q 0 = n q) ∧
    (∀ (up ref : Fin 3 → ℝ) (n : Fin nq → Fin 3 → ℝ) (ft : Fault 3 nq),
      prepare tol' (facetBasis3 tol up) ref n = some ft → ∀ q, IsOrthonormal (ft.basis q) ∧
        ∃ c : ℝ, 0 < c ∧ c • ft.basis q 0 = n q) := by
  have fin : ∀ {D : ℕ} [NeZero D] (fb : (Fin D → ℝ) → Option (Fin D → Fin D → ℝ)),
      (∀ n b, fb n = some b → IsOrthonormal b ∧ ∃ c : ℝ, 0 < c ∧ c • b 0 = n) →
      ∀ (ref : Fin D → ℝ) (n : Fin nq → Fin D → ℝ) (ft : Fault D nq),
      prepare tol' fb ref n = some ft → ∀ q, IsOrthonormal (ft.basis q) ∧
        ∃ c : ℝ, 0 < c ∧ c • ft.basis q 0 = n q := by
    intro D _ fb hfb ref n ft h q
    refine ⟨prepare_orthonormal fb (fun n b hb => (hfb n b hb).1) ref n ft h q, ?_⟩
    obtain ⟨-, -, hn, -, b, hb, he⟩ := prepare_spec fb ref n ft h q
    obtain ⟨c, hc, hcb⟩ := (hfb _ _ hb).2
    refine ⟨c, hc, ?_⟩
    rw [he]
    by_cases h0 : dot ref (n q) < 0
    · rw [if_pos h0] at hn ⊢
      rw [Pi.neg_apply, smul_neg, hcb, hn, neg_neg]
    · rw [if_neg h0] at hn ⊢
      rw [hcb, hn]
  constructor
  · intro up
    refine fin _ ?_
    intro n b hb
    by_cases h0 : up 0 * n 1 - up 1 * n 0 = 0
    · rw [((C79_refused tol ht).1 up n).2 h0] at hb; cases hb
    · have hn : n ≠ 0 := by rintro rfl; simp at h0
      obtain ⟨b', hb', h1, h2, -⟩ := C79_basis2 tol ht up n hn h0
      rw [hb] at hb'; cases hb'
      exact ⟨h1, h2⟩
  · intro up
    refine fin _ ?_
    intro n b hb
    by_cases h0 : cross up n = 0
    · rw [((C79_refused tol ht).2 up n).2 h0] at hb; cases hb
    · obtain ⟨b', hb', h1, h2, -⟩ := C79_basis3 tol ht up n h0
      rw [hb] at hb'; cases hb'
      exact ⟨h1, h2⟩

theorem mass_symm (w nl : Fin nq → ℝ) (e_q : Fin nbf → Fin nq → ℝ) (i j : Fin nbf) :
    mass w nl e_q i j = mass w nl e_q j i := by
  simp only [mass, Matrix.of_apply]
  exact Finset.sum_congr rfl fun q _ => by ring

/-- C80 (mass matrix): with positive weights and lengths and basis functions that are independent at the
quadrature points, the mass matrix of a fault facet is invertible. -/
theorem C80_mass (w nl : Fin nq → ℝ) (e_q : Fin nbf → Fin nq → ℝ) (hw : ∀ q, 0 < w q) (hl : ∀ q, 0 < nl q)
    (hi : ∀ c : Fin nbf → ℝ, (∀ q, ∑ k, c k * e_q k q = 0) → c = 0) : (mass w nl e_q).det ≠ 0 := by
  rw [← isUnit_iff_ne_zero, ← Matrix.isUnit_iff_isUnit_det, ← Matrix.mulVec_injective_iff_isUnit]
  intro a b hab
  rw [← sub_eq_zero]
  apply hi
  have h0 : mass w nl e_q *ᵥ (a - b) = 0 := by rw [Matrix.mulVec_sub]; exact sub_eq_zero.2 hab
  set c := a - b
  have h1 : ∑ q, w q * nl q * ((∑ k, c k * e_q k q) * (∑ k, c k * e_q k q)) = 0 := by
    have : ∑ i, c i * (mass w nl e_q *ᵥ c) i = ∑ q, w q * nl q * ((∑ k, c k * e_q k q) * (∑ k, c k * e_q k q)) := by
      simp only [Matrix.mulVec, dotProduct, mass, Matrix.of_apply, Finset.sum_mul, Finset.mul_sum]
      rw [Finset.sum_congr rfl fun i _ => Finset.sum_comm, Finset.sum_comm]
      refine Finset.sum_congr rfl fun q _ => ?_
      rw [Finset.sum_comm]
      refine Finset.sum_congr rfl fun i _ => Finset.sum_congr rfl fun j _ => by ring
    rw [← this, h0]; simp
  intro q
  have h2 := (Finset.sum_eq_zero_iff_of_nonneg (fun q _ =>
    mul_nonneg (mul_nonneg (hw q).le (hl q).le) (mul_self_nonneg (∑ k, c k * e_q k q)))).1 h1 q (Finset.mem_univ q)
  rcases mul_eq_zero.1 h2 with h3 | h3
  · exact absurd h3 (mul_pos (hw q) (hl q)).ne'
  · exact mul_self_eq_zero.1 h3

theorem massInv_mul (w nl : Fin nq → ℝ) (e_q : Fin nbf → Fin nq → ℝ) (hM : (mass w nl e_q).det ≠ 0)
    (x : Fin nbf → ℝ) (l : Fin nbf) : ∑ k, mass w nl e_q l k * ∑ j, massInv w nl e_q j k * x j = x l := by
  have hs : (massInv w nl e_q)ᵀ = massInv w nl e_q := by
    unfold massInv
    rw [Matrix.transpose_nonsing_inv]
    congr 1
    ext i j
    rw [Matrix.transpose_apply, mass_symm]
  have h1 : ∀ k, ∑ j, massInv w nl e_q j k * x j = (massInv w nl e_q *ᵥ x) k := by
    intro k
    simp only [Matrix.mulVec, dotProduct]
    refine Finset.sum_congr rfl fun j _ => ?_
    rw [← congrFun (congrFun hs k) j]; rfl
  simp only [h1]
  change (mass w nl e_q *ᵥ (massInv w nl e_q *ᵥ x)) l = x l
  unfold massInv
  rw [Matrix.mulVec_mulVec, Matrix.mul_nonsing_inv _ (isUnit_iff_ne_zero.2 hM), Matrix.one_mulVec]

/-- C80 (projection): the traction block holds the L² projection of the traction vector's components in
the fault basis: tested with every basis function, the integrals over the fault agree. -/
theorem C80_projection (ft : Fault D nq) (w : Fin nq → ℝ) (e_q : Fin nbf → Fin nq → ℝ)
    (hM : (mass w ft.nl e_q).det ≠ 0) (t : Fin D → Fin nq → ℝ) (l : Fin nbf) (p : Fin D) :
    ∑ q, w q * ft.nl q * (e_q l q * ∑ k, elTraction ft w e_q t k p * e_q k q) =
      ∑ q, w q * ft.nl q * (e_q l q * dot (ft.basis q p) (fun o => t o q)) := by
  have h1 : ∀ k, elTraction ft w e_q t k p =
      ∑ j, massInv w ft.nl e_q j k * ∑ q, w q * ft.nl q * (e_q j q * dot (ft.basis q p) (fun o => t o q)) := by
    intro k
    unfold elTraction dot
    refine Finset.sum_congr rfl fun j _ => ?_
    rw [Finset.mul_sum]
    refine Finset.sum_congr rfl fun q _ => ?_
    simp only [Finset.mul_sum]
    exact Finset.sum_congr rfl fun o _ => by ring
  rw [← massInv_mul w ft.nl e_q hM (fun j => ∑ q, w q * ft.nl q * (e_q j q * dot (ft.basis q p) (fun o => t o q))) l]
  simp only [← h1]
  simp only [mass, Matrix.of_apply, Finset.sum_mul, Finset.mul_sum]
  rw [Finset.sum_comm]
  exact Finset.sum_congr rfl fun k _ => Finset.sum_congr rfl fun q _ => by ring

/-- C80 (projection, Poisson): the same for the scalar traction, the flux along the stored normal; the
first half of the block (the normal stress) is zero. -/
theorem C80_projection_poisson (ft : Fault D nq) (w : Fin nq → ℝ) (e_q : Fin nbf → Fin nq → ℝ)
    (hM : (mass w ft.nl e_q).det ≠ 0) (g : Fin D → Fin nq → ℝ) :
    (∀ i : Fin nbf, poTractionBlock ft w e_q g i = 0) ∧
    ∀ l : Fin nbf, ∑ q, w q * ft.nl q * (e_q l q * ∑ k : Fin nbf, poTractionBlock ft w e_q g (nbf + k) * e_q k q) =
      ∑ q, w q * (e_q l q * dot (ft.normal q) (fun o => g o q)) := by
  have hb : ∀ k : Fin nbf, poTractionBlock ft w e_q g (nbf + k) = poTraction ft w e_q g k := by
    intro k
    unfold poTractionBlock
    rw [dif_pos ⟨by omega, by omega⟩]
    congr 1
    exact Fin.ext (by simp)
  refine ⟨fun i => ?_, fun l => ?_⟩
  · unfold poTractionBlock
    rw [dif_neg (by omega)]
  · simp only [hb]
    have h1 : ∀ k, poTraction ft w e_q g k =
        ∑ j, massInv w ft.nl e_q j k * ∑ q, w q * (e_q j q * dot (ft.normal q) (fun o => g o q)) := by
      intro k
      unfold poTraction dot
      refine Finset.sum_congr rfl fun j _ => ?_
      rw [Finset.mul_sum]
      refine Finset.sum_congr rfl fun q _ => ?_
      simp only [Finset.mul_sum]
      exact Finset.sum_congr rfl fun o _ => by ring
    rw [← massInv_mul w ft.nl e_q hM (fun j => ∑ q, w q * (e_q j q * dot (ft.normal q) (fun o => g o q))) l]
    simp only [← h1]
    simp only [mass, Matrix.of_apply, Finset.sum_mul, Finset.mul_sum]
    rw [Finset.sum_comm]
    exact Finset.sum_congr rfl fun k _ => Finset.sum_congr rfl fun q _ => by ring

/-- C80 (work): the work of the traction vector on the prescribed jump, integrated over the facet, is the
work of the fault's shear traction on the fault's slip: no energy is lost or made between the volume
problem and the fault. -/
theorem C80_work (ft : Fault (D + 1) nq) (w : Fin nq → ℝ) (e_q : Fin nbf → Fin nq → ℝ)
    (hM : (mass w ft.nl e_q).det ≠ 0) (t : Fin (D + 1) → Fin nq → ℝ) (slip : Fin nbf → Fin D → ℝ) :
    ∑ q, w q * ft.nl q * dot (fun p => t p q) (fun p => elSlip ft e_q slip p q) =
      ∑ q, w q * ft.nl q * ∑ n : Fin D, (∑ l, slip l n * e_q l q) * (∑ k, elTraction ft w e_q t k n.succ * e_q k q) := by
  have e1 : ∀ q, dot (fun p => t p q) (fun p => elSlip ft e_q slip p q) =
      ∑ n : Fin D, ∑ l, slip l n * (e_q l q * dot (ft.basis q n.succ) (fun o => t o q)) := by
    intro q
    have e0 : ∀ p, elSlip ft e_q slip p q = ∑ n : Fin D, ∑ l, slip l n * (e_q l q * ft.basis q n.succ p) := by
      intro p
      unfold elSlip
      have : ∀ l, ∑ o, ∑ n, e_q l q * ft.basis q o p * slip l n * copySlip n o =
          ∑ n : Fin D, slip l n * (e_q l q * ft.basis q n.succ p) := by
        intro l
        rw [Finset.sum_comm]
        refine Finset.sum_congr rfl fun n _ => ?_
        rw [Finset.sum_eq_single n.succ]
        · simp [copySlip]; ring
        · intro o _ ho
          have : ¬ o.val = n.val + 1 := fun e => ho (Fin.ext (by simpa using e))
          simp [copySlip, this]
        · simp
      simp only [this]
      rw [Finset.sum_comm]
    unfold dot
    simp only [e0, Finset.mul_sum]
    rw [Finset.sum_comm]
    refine Finset.sum_congr rfl fun n _ => ?_
    rw [Finset.sum_comm]
    exact Finset.sum_congr rfl fun l _ => Finset.sum_congr rfl fun p _ => by ring
  have e2 : ∀ (F : Fin nq → Fin D → Fin nbf → ℝ), ∑ q, w q * ft.nl q * ∑ n : Fin D, ∑ l, slip l n * F q n l =
      ∑ n : Fin D, ∑ l, slip l n * ∑ q, w q * ft.nl q * F q n l := by
    intro F
    simp only [Finset.mul_sum]
    rw [Finset.sum_comm]
    refine Finset.sum_congr rfl fun n _ => ?_
    rw [Finset.sum_comm]
    exact Finset.sum_congr rfl fun l _ => Finset.sum_congr rfl fun q _ => by ring
  simp only [e1]
  rw [e2]
  simp only [← C80_projection ft w e_q hM t]
  rw [← e2 fun q n l => e_q l q * ∑ k, elTraction ft w e_q t k n.succ * e_q k q]
  refine Finset.sum_congr rfl fun q _ => ?_
  congr 1
  refine Finset.sum_congr rfl fun n _ => ?_
  rw [Finset.sum_mul]
  exact Finset.sum_congr rfl fun l _ => by ring

/-- C80 (work, Poisson): the same; the flux is the one out of element 0. -/
theorem C80_work_poisson {tol : ℝ} (fb : (Fin D → ℝ) → Option (Fin D → Fin D → ℝ)) (ref : Fin D → ℝ)
    (n : Fin nq → Fin D → ℝ) (ft : Fault D nq) (hp : prepare tol fb ref n = some ft)
    (w : Fin nq → ℝ) (e_q : Fin nbf → Fin nq → ℝ)
    (hM : (mass w ft.nl e_q).det ≠ 0) (g : Fin D → Fin nq → ℝ) (slip : Fin nbf → ℝ) :
    ∑ q, w q * (dot (n q) (fun o => g o q) * poSlip ft e_q slip q) =
      ∑ q, w q * ft.nl q * ((∑ l, slip l * e_q l q) * (∑ k : Fin nbf, poTractionBlock ft w e_q g (nbf + k) * e_q k q)) := by
  have h0 : ∀ q, dot (n q) (fun o => g o q) * poSlip ft e_q slip q =
      dot (ft.normal q) (fun o => g o q) * ∑ l, slip l * e_q l q := by
    intro q
    obtain ⟨-, h1, h2, -, -⟩ := prepare_spec fb ref n ft hp q
    have hc : ∑ p, e_q p q * slip p = ∑ l, slip l * e_q l q := Finset.sum_congr rfl fun l _ => mul_comm _ _
    unfold poSlip
    rw [h1, h2]
    simp only [hc, decide_eq_true_eq]
    split
    · rw [neg_dot]; ring
    · rfl
  simp only [h0]
  have h3 := (C80_projection_poisson ft w e_q hM g).2
  have e2 : ∀ (v : Fin nq → ℝ) (F : Fin nq → Fin nbf → ℝ), ∑ q, v q * ∑ l, slip l * F q l =
      ∑ l, slip l * ∑ q, v q * F q l := by
    intro v F
    simp only [Finset.mul_sum]
    rw [Finset.sum_comm]
    exact Finset.sum_congr rfl fun l _ => Finset.sum_congr rfl fun q _ => by ring
  have e3 : ∀ q, w q * (dot (ft.normal q) (fun o => g o q) * ∑ l, slip l * e_q l q) =
      w q * ∑ l, slip l * (e_q l q * dot (ft.normal q) (fun o => g o q)) := by
    intro q
    rw [Finset.mul_sum]
    congr 1
    exact Finset.sum_congr rfl fun l _ => by ring
  simp only [e3]
  rw [e2]
  simp only [← h3]
  rw [← e2 (fun q => w q * ft.nl q)]
  refine Finset.sum_congr rfl fun q _ => ?_
  congr 1
  rw [Finset.sum_mul]
  exact Finset.sum_congr rfl fun l _ => by ring

/-- C80 (moment rate): the moment rate written for a fault facet is, for every tangential component, the
integral over the facet of the shear modulus times the slip rate that the friction law returned at the
nodes, interpolated with the basis functions. -/
theorem C80_moment_rate {X : Type} (o : RateAndState.Op ℝ X) (hs : RateAndState.Sized o)
    (ho : RateAndState.IsOrder o.ar.lt) (time : ℝ) (f : ℕ) (tr state result : ℕ → ℝ) (hT : o.T = D)
    (w nl mu : Fin nq → ℝ) (e_q : Fin o.nbf → Fin nq → ℝ) (i : Fin D) :
    computeMomentRate w nl e_q (RateAndState.rhs o time f tr state result).1 mu i =
      ∑ q, w q * nl q * (mu q * ∑ l : Fin o.nbf, e_q l q *
        ((RateAndState.answer o time f (RateAndState.asMatrix o.nbf tr)
          (RateAndState.asMatrix o.nbf state l o.T) l).1[i.val]?).getD 0) := by
  have h := (RateAndState.C64_rhs o hs ho time f tr state result).1
  unfold computeMomentRate momentRate
  refine Finset.sum_congr rfl fun q _ => ?_
  simp only [Finset.mul_sum]
  refine Finset.sum_congr rfl fun l _ => ?_
  have h2 := h l.val i.val l.isLt (by omega)
  simp only at h2
  rw [← h2]
  simp only [Option.getD_some, RateAndState.asMatrix, Fin.val_castSucc]
  ring

/-- C80 (moment rate of a uniform slip rate): if the basis functions add up to one, it is the slip rate
times the integral of the shear modulus. -/
theorem C80_moment_uniform (w nl mu : Fin nq → ℝ) (e_q : Fin nbf → Fin nq → ℝ) (h1 : ∀ q, ∑ l, e_q l q = 1)
    (block : ℕ → ℝ) (i : Fin D) (V : ℝ) (hV : ∀ l, l < nbf → block (l + i.val * nbf) = V) :
    computeMomentRate w nl e_q block mu i = V * ∑ q, w q * nl q * mu q := by
  unfold computeMomentRate momentRate
  rw [Finset.mul_sum]
  refine Finset.sum_congr rfl fun q _ => ?_
  have : ∀ l : Fin nbf, w q * e_q l q * block (l.val + i.castSucc.val * nbf) * nl q * mu q =
      e_q l q * (V * (w q * nl q * mu q)) := by
    intro l
    rw [Fin.val_castSucc, hV l.val l.isLt]; ring
  simp only [this]
  rw [← Finset.sum_mul, h1, one_mul]

/-- C80 (shear modulus on the fault, elasticity): the mean of the values of the two elements at the same
point, whichever element comes first. -/
theorem C80_mu_elasticity (mu0 mu1 : Fin nq → ℝ) (q : Fin nq) :
    elasticityMuAvg mu0 mu1 q = (mu0 q + mu1 q) / 2 ∧ elasticityMuAvg mu0 mu1 q = elasticityMuAvg mu1 mu0 q := by
  unfold elasticityMuAvg
  constructor <;> ring

/-- C80 (shear modulus on the fault, Poisson): right for a constant modulus (if there are at least as many
coefficients as points), … -/
theorem C80_mu_poisson_constant (K0 K1 : ℕ → ℝ) (Nbm : ℕ) (hn : nq ≤ Nbm) (k0 k1 : ℝ)
    (h0 : ∀ m, m < Nbm → K0 m = k0) (h1 : ∀ m, m < Nbm → K1 m = k1) (q : Fin nq) :
    poissonMuAvg K0 K1 q = (k0 + k1) / 2 := by
  unfold poissonMuAvg
  rw [h0 _ (by omega), h1 _ (by omega)]; ring

/-- … but not in general: coefficients are taken for values at the points.  Here the modulus is linear with
nodal values 1, 2, 3 in both elements, the facet joins the last two nodes, its midpoint is the only
quadrature point: the modulus there is 2.5, but 1 is used. -/
theorem C80_mu_poisson_wrong :
    ∃ (K : Fin 3 → ℝ) (matE_q_T : Fin 1 → Fin 3 → ℝ), matE_q_T = ![![0, 0.5, 0.5]] ∧
      Poisson.kKq K matE_q_T 0 = 2.5 ∧
      poissonMuAvg (nq := 1) (fun m => K (Fin.ofNat 3 m)) (fun m => K (Fin.ofNat 3 m)) 0 = 1 := by
  refine ⟨![1, 2, 3], _, rfl, ?_, ?_⟩
  · simp [Poisson.kKq, Fin.sum_univ_succ]; norm_num
  · simp [poissonMuAvg]; norm_num

/-- Two views of one fault facet with the elements in opposite order: same reference element, method and
penalty; material, local numbers and Jacobians exchanged; the normal is opposite. -/
structure Exchanged {dim Nbf Nbm Nq nqf : ℕ} (o o' : Poisson.Op dim Nbf Nbm Nq nqf) (f f' : ℕ) (i i' : DGTopo.FacetInfo) : Prop where
  ref : o'.ref = o.ref
  penalty : o'.penalty f' = o.penalty f
  material : ∀ s, o'.K (DGAssembly.upOf i' s) = o.K (DGAssembly.upOf i (1 - s))
  localNo : ∀ s, DGAssembly.localNoOf i' s = DGAssembly.localNoOf i (1 - s)
  jInv : ∀ s, o'.JInv f' s = o.JInv f (1 - s)
  normal : ∀ k q, o'.n_q f' k q = -o.n_q f k q

/-- C80 (Poisson, slip to traction): two ranks that see a fault facet with the elements in opposite order
prescribe the same motion for the same slip and report the same traction for the same displacements. -/
theorem C80_poisson_order {dim Nbf Nbm Nq nqf : ℕ} (o o' : Poisson.Op dim Nbf Nbm Nq nqf) (f f' : ℕ)
    (i i' : DGTopo.FacetInfo) (hx : Exchanged o o' f f' i i') (hb : i.bc = DGAssembly.bcFault) (hb' : i'.bc = DGAssembly.bcFault)
    {tol : ℝ} (ht : 0 < tol) (fb : (Fin dim → ℝ) → Option (Fin dim → Fin dim → ℝ)) (ref : Fin dim → ℝ)
    (ft ft' : Fault dim nqf) (hp : prepare tol fb ref (fun q k => o.n_q f k q) = some ft)
    (hp' : prepare tol fb ref (fun q k => o'.n_q f' k q) = some ft')
    (w : Fin nqf → ℝ) (e_q : Fin nbf → Fin nqf → ℝ) (slip : Fin nbf → ℝ) (d d' : Poisson.Data Nq nqf)
    (hd : d.slip f false = poSlip ft e_q slip) (hd' : d'.slip f' false = poSlip ft' e_q slip)
    (junk junk' : Fin nqf → ℝ) (u0 u1 : Fin Nbf → ℝ) :
    (∀ q, d'.slip f' false q = -d.slip f false q) ∧
    poTractionBlock ft' w e_q (o'.tractionSkeleton d' junk' f' i' u1 u0) =
      poTractionBlock ft w e_q (o.tractionSkeleton d junk f i u0 u1) := by
  have hn : (fun q k => o'.n_q f' k q) = fun q => -(fun k => o.n_q f k q) := by
    funext q k; exact hx.normal k q
  rw [hn, C80_swap ht, hp] at hp'
  simp only [Option.map_some, Option.some.injEq] at hp'
  subst hp'
  have hsl : ∀ q, d'.slip f' false q = -d.slip f false q := by
    intro q
    rw [hd, hd']
    simp only [poSlip, swapped]
    by_cases h : ft.flipped q = true <;> simp [h]
  refine ⟨hsl, ?_⟩
  have hg : o'.tractionSkeleton d' junk' f' i' u1 u0 = o.tractionSkeleton d junk f i u0 u1 := by
    have hK : ∀ s, o'.KDx f' i' s = o.KDx f i (1 - s) := by
      intro s
      unfold Poisson.Op.KDx
      rw [hx.material, hx.localNo, hx.jInv, hx.ref]
    have hE : ∀ s, o'.Es i' s = o.Es i (1 - s) := by
      intro s
      unfold Poisson.Op.Es
      rw [hx.localNo, hx.ref]
    have hu : ∀ k q, o'.n_unit_q f' k q = -o.n_unit_q f k q := by
      intro k q
      have : o'.n_q f' = fun k q => -o.n_q f k q := by funext k q; exact hx.normal k q
      unfold Poisson.Op.n_unit_q Poisson.unitNormal
      rw [this]
      simp only [neg_mul_neg]
      split
      · ring
      · rfl
    funext p q
    unfold Poisson.Op.tractionSkeleton Poisson.kGradU Poisson.bcSkeleton
    rw [if_pos hb, if_pos hb', hx.penalty, hu, hK, hK, hE, hE]
    simp only [Option.getD_some, hsl, sub_zero, sub_self, Fin.isValue]
    ring
  rw [hg]
  rfl

/-- Non-vacuity: a vertical fault seen from its two sides. -/
example : ∃ ft : Fault 2 1, prepare (1 / 1000) (facetBasis2 (1 / 1000) ![0, 1]) ![1, 0] (fun _ => ![-2, 0]) = some ft ∧
    ft.flipped 0 = true ∧ ft.nl 0 = 2 := by
  have hb : ∃ b, facetBasis2 (1 / 1000) ![0, 1] ![2, 0] = some b := by
    obtain ⟨b, hb, -⟩ := C79_basis2 (1 / 1000) (by norm_num) ![0, 1] ![2, 0]
      (by intro h; have := congrFun h 0; simp at this) (by simp)
    exact ⟨b, hb⟩
  obtain ⟨b, hb⟩ := hb
  have hp : preparePoint (1 / 1000) (facetBasis2 (1 / 1000) ![0, 1]) ![1, 0] ![-2, 0] =
      some (true, ![2, 0], norm ![-2, 0], fun o p => b o p * (-1)) := by
    have hd : dot ![1, 0] ![(-2 : ℝ), 0] = -2 := by simp [dot]
    have hn : -(![-2, 0] : Fin 2 → ℝ) = ![2, 0] := by simp
    unfold preparePoint orient
    simp only [hd, hn]
    norm_num [hb]
  refine ⟨⟨fun _ => true, fun _ => ![2, 0], fun _ => norm ![-2, 0], fun _ o p => b o p * (-1)⟩, ?_, rfl, ?_⟩
  · unfold prepare
    simp only [hp, Option.isSome_some, implies_true, dif_pos, Option.get_some]
  · have : dot ![(-2 : ℝ), 0] ![-2, 0] = 2 * 2 := by simp [dot]
    show norm ![(-2 : ℝ), 0] = 2
    unfold norm
    rw [this, Real.sqrt_mul_self (by norm_num)]

example : ∀ c : Fin 2 → ℝ, (∀ q : Fin 2, ∑ k, c k * (![![1, 0], ![0, 1]] : Fin 2 → Fin 2 → ℝ) k q = 0) → c = 0 := by
  intro c h
  funext k
  have := h k
  fin_cases k <;> simpa [Fin.sum_univ_succ] using this

end Tandem.Adapter
