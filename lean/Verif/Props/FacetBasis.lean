import Verif.Lemmas.Curvilinear
/-!
# C79: the coordinate system of the fault
-/
namespace Tandem.Curvilinear
open Matrix

variable {D : ℕ}

/-- The vectors form an orthonormal system. -/
def IsOrthonormal (b : Fin D → Fin D → ℝ) : Prop := ∀ i j, dot (b i) (b j) = if i = j then 1 else 0

theorem dot2 (a b : Fin 2 → ℝ) : dot a b = a 0 * b 0 + a 1 * b 1 := by
  simp [dot, Fin.sum_univ_succ]

theorem dot3 (a b : Fin 3 → ℝ) : dot a b = a 0 * b 0 + a 1 * b 1 + a 2 * b 2 := by
  simp [dot, Fin.sum_univ_succ]; ring

theorem cross_vec (a b : Fin 3 → ℝ) :
    cross a b = ![a 1 * b 2 - a 2 * b 1, a 2 * b 0 - a 0 * b 2, a 0 * b 1 - a 1 * b 0] := by
  funext d; fin_cases d <;> rfl

theorem normalized_smul (x : Fin D → ℝ) (h : x ≠ 0) : normalized x = (1 / Real.sqrt (dot x x)) • x := by
  unfold normalized
  rw [if_pos (dot_self_pos x h)]
  funext d
  simp only [Pi.smul_apply, smul_eq_mul]
  ring

theorem sqrt_pos' (x : Fin D → ℝ) (h : x ≠ 0) : 0 < Real.sqrt (dot x x) := Real.sqrt_pos.2 (dot_self_pos x h)

theorem dot_normalized (x : Fin D → ℝ) (h : x ≠ 0) : dot (normalized x) (normalized x) = 1 := by
  rw [normalized_smul x h, dot_smul, smul_dot]
  have := sqrt_pos' x h
  have h2 := Real.mul_self_sqrt (dot_self_nonneg x)
  field_simp
  nlinarith [h2]

theorem normalized_zero : normalized (0 : Fin D → ℝ) = 0 := by
  simp [normalized, dot]

theorem normalized_unit (x : Fin D → ℝ) (h : dot x x = 1) : normalized x = x := by
  unfold normalized
  rw [h, if_pos one_pos, Real.sqrt_one]
  simp

theorem dot_cross_left (a b : Fin 3 → ℝ) : dot (cross a b) a = 0 := by
  rw [cross_vec, dot3]; simp; ring

theorem dot_cross_right (a b : Fin 3 → ℝ) : dot (cross a b) b = 0 := by
  rw [cross_vec, dot3]; simp; ring

theorem lagrange (a b : Fin 3 → ℝ) :
    dot (cross a b) (cross a b) = dot a a * dot b b - dot a b * dot a b := by
  rw [cross_vec, dot3, dot3, dot3, dot3]; simp; ring

/-- C79 (two dimensions): with a non-zero normal that is not colinear with `up`, the facet basis exists;
its first vector is the unit normal, the second one is perpendicular to it and points down. -/
theorem C79_basis2 (tol : ℝ) (ht : 0 < tol ∧ tol ≤ 1) (up n : Fin 2 → ℝ) (hn : n ≠ 0)
    (hup : up 0 * n 1 - up 1 * n 0 ≠ 0) :
    ∃ b, facetBasis2 tol up n = some b ∧ IsOrthonormal b ∧ (∃ c : ℝ, 0 < c ∧ c • b 0 = n) ∧ dot (b 1) up < 0 := by
  have hs := sqrt_pos' n hn
  have hN := dot_normalized n hn
  have hsm := normalized_smul n hn
  set N := normalized n with hNdef
  have hx : up 0 * N 1 - up 1 * N 0 = (1 / Real.sqrt (dot n n)) * (up 0 * n 1 - up 1 * n 0) := by
    rw [hsm]; simp only [Pi.smul_apply, smul_eq_mul]; ring
  have hx0 : up 0 * N 1 - up 1 * N 0 ≠ 0 := by
    rw [hx]; exact mul_ne_zero (by positivity) hup
  set t := up 0 * N 1 - up 1 * N 0 with htdef
  have key : ∀ s : ℝ, s * s = 1 → 0 < s * t → IsOrthonormal ![N, ![-s * N 1, s * N 0]] ∧
      dot ((![N, ![-s * N 1, s * N 0]] : Fin 2 → Fin 2 → ℝ) 1) up < 0 := by
    intro s hs1 hs2
    rw [dot2] at hN
    constructor
    · intro i j
      fin_cases i <;> fin_cases j <;> simp [dot2]
      · exact hN
      · ring
      · ring
      · linear_combination (N 1 * N 1 + N 0 * N 0) * hs1 + hN
    · simp only [dot2, Matrix.cons_val_one, Matrix.cons_val_zero]
      rw [htdef] at hs2
      linarith
  have hc : ∃ c : ℝ, 0 < c ∧ c • N = n := by
    refine ⟨Real.sqrt (dot n n), hs, ?_⟩
    rw [hsm, smul_smul, mul_one_div_cancel hs.ne', one_smul]
  unfold facetBasis2
  simp only [← hNdef, ← htdef]
  rcases lt_or_gt_of_ne hx0 with h | h
  · rw [sign_neg h]
    have h1 : ¬ |(((-1 : SignType) : ℤ) : ℝ)| < tol := by simp; exact ht.2
    rw [if_neg h1]
    obtain ⟨a, b⟩ := key (-1) (by ring) (by linarith)
    refine ⟨_, rfl, ?_, hc, ?_⟩
    · simpa using a
    · simpa using b
  · rw [sign_pos h]
    have h1 : ¬ |(((1 : SignType) : ℤ) : ℝ)| < tol := by simp; exact ht.2
    rw [if_neg h1]
    obtain ⟨a, b⟩ := key 1 (by ring) (by linarith)
    refine ⟨_, rfl, ?_, hc, ?_⟩
    · simpa using a
    · simpa using b

/-- C79 (three dimensions): normal, dip and strike direction are orthonormal and right-handed; dip points
down, strike is horizontal (perpendicular to `up`). -/
theorem C79_basis3 (tol : ℝ) (ht : 0 < tol ∧ tol ≤ 1) (up n : Fin 3 → ℝ) (hup : cross up n ≠ 0) :
    ∃ b, facetBasis3 tol up n = some b ∧ IsOrthonormal b ∧ (∃ c : ℝ, 0 < c ∧ c • b 0 = n) ∧
      cross (b 0) (b 1) = b 2 ∧ dot (b 1) up < 0 ∧ dot (b 2) up = 0 := by
  have hn : n ≠ 0 := by
    rintro rfl
    apply hup
    funext d
    simp [cross]
  have hs := sqrt_pos' n hn
  have hN := dot_normalized n hn
  have hsm := normalized_smul n hn
  set N := normalized n with hNdef
  have hx : cross up N = (1 / Real.sqrt (dot n n)) • cross up n := by
    rw [hsm]; funext d; simp only [cross, Pi.smul_apply, smul_eq_mul]; ring
  have hx0 : cross up N ≠ 0 := by
    rw [hx]
    exact smul_ne_zero (by positivity) hup
  have hS := dot_normalized _ hx0
  have hSm := normalized_smul _ hx0
  have hSp := sqrt_pos' _ hx0
  set S := normalized (cross up N) with hSdef
  set r := Real.sqrt (dot (cross up N) (cross up N)) with hr
  have hSN : dot S N = 0 := by rw [hSm, smul_dot, dot_cross_right, mul_zero]
  have hSu : dot S up = 0 := by rw [hSm, smul_dot, dot_cross_left, mul_zero]
  have hd1 : dot (cross S N) (cross S N) = 1 := by rw [lagrange, hS, hN, hSN]; ring
  have hcS : cross up N = r • S := by
    rw [hSm, smul_smul, mul_one_div_cancel hSp.ne', one_smul]
  have hdu : dot (cross S N) up = -r := by
    have e1 : dot (cross S N) up = -dot S (cross up N) := by
      rw [cross_vec, cross_vec, dot3, dot3]; simp; ring
    rw [e1, hcS, dot_smul, hS, mul_one]
  have hnd : cross N (cross S N) = S := by
    have e1 : cross N (cross S N) = dot N N • S - dot S N • N := by
      rw [cross_vec N, cross_vec S]
      funext d
      simp only [dot3, Pi.sub_apply, Pi.smul_apply, smul_eq_mul]
      fin_cases d <;> simp <;> ring
    rw [e1, hN, hSN]; simp
  have hc : ∃ c : ℝ, 0 < c ∧ c • N = n := by
    refine ⟨Real.sqrt (dot n n), hs, ?_⟩
    rw [hsm, smul_smul, mul_one_div_cancel hs.ne', one_smul]
  unfold facetBasis3
  simp only [← hNdef, ← hSdef]
  have h1 : ¬ norm S < tol := by
    unfold norm; rw [hS, Real.sqrt_one]; exact not_lt.2 ht.2
  rw [if_neg h1, normalized_unit _ hd1]
  refine ⟨_, rfl, ?_, hc, hnd, ?_, hSu⟩
  · intro i j
    have a1 := dot_cross_left S N
    have a2 := dot_cross_right S N
    fin_cases i <;> fin_cases j <;> simp
    · exact hN
    · rw [dot_comm]; exact a2
    · rw [dot_comm]; exact hSN
    · exact a2
    · exact hd1
    · exact a1
    · exact hSN
    · rw [dot_comm]; exact a1
    · exact hS
  · simp only [Matrix.cons_val_one, Matrix.cons_val_zero]
    rw [hdu]; linarith

/-- C79 (the check): the facet basis is refused only if `up` is exactly colinear with the normal (or the
normal vanishes): an `up` vector that is almost colinear is not noticed, however small the
tolerance `tol ≤ 1`. -/
theorem C79_refused (tol : ℝ) (ht : 0 < tol ∧ tol ≤ 1) :
    (∀ up n : Fin 2 → ℝ, facetBasis2 tol up n = none ↔ up 0 * n 1 - up 1 * n 0 = 0) ∧
    (∀ up n : Fin 3 → ℝ, facetBasis3 tol up n = none ↔ cross up n = 0) := by
  constructor
  · intro up n
    constructor
    · intro h
      by_contra hc
      have hn : n ≠ 0 := by rintro rfl; simp at hc
      obtain ⟨b, hb, -⟩ := C79_basis2 tol ht up n hn hc
      rw [h] at hb; cases hb
    · intro h
      have h0 : up 0 * normalized n 1 - up 1 * normalized n 0 = 0 := by
        by_cases hn : n = 0
        · subst hn; rw [normalized_zero]; simp
        · rw [normalized_smul n hn]
          simp only [Pi.smul_apply, smul_eq_mul]
          linear_combination (1 / Real.sqrt (dot n n)) * h
      unfold facetBasis2
      simp only [h0]
      simp [ht.1]
  · intro up n
    constructor
    · intro h
      by_contra hc
      obtain ⟨b, hb, -⟩ := C79_basis3 tol ht up n hc
      rw [h] at hb; cases hb
    · intro h
      have h0 : cross up (normalized n) = 0 := by
        by_cases hn : n = 0
        · subst hn; rw [normalized_zero]; funext d; simp [cross]
        · have : cross up (normalized n) = (1 / Real.sqrt (dot n n)) • cross up n := by
            rw [normalized_smul n hn]; funext d; simp only [cross, Pi.smul_apply, smul_eq_mul]; ring
          rw [this, h, smul_zero]
      unfold facetBasis3
      simp only [h0, normalized_zero]
      rw [if_pos]
      simp [norm, dot, ht.1]

/-- C79 (tangents of the simplex): at a point with invertible Jacobian, the basis computed from the edges
of the simplex is orthonormal, its first vector is the unit normal and its second one follows the image
of the first edge of the face. -/
theorem C79_plex_basis :
    (∀ (f : Fin 3) (J : Matrix (Fin 2) (Fin 2) ℝ), J.det ≠ 0 →
      IsOrthonormal (plexBasis2 f J (normal f J)) ∧ (∃ c : ℝ, 0 < c ∧ c • plexBasis2 f J (normal f J) 0 = normal f J) ∧
      ∃ c : ℝ, 0 < c ∧ c • plexBasis2 f J (normal f J) 1 = J *ᵥ tangent f 1) ∧
    (∀ (f : Fin 4) (J : Matrix (Fin 3) (Fin 3) ℝ), J.det ≠ 0 →
      IsOrthonormal (plexBasis3 f J (normal f J)) ∧ (∃ c : ℝ, 0 < c ∧ c • plexBasis3 f J (normal f J) 0 = normal f J) ∧
      (∃ c : ℝ, 0 < c ∧ c • plexBasis3 f J (normal f J) 1 = J *ᵥ tangent f 1) ∧
      cross (plexBasis3 f J (normal f J) 0) (plexBasis3 f J (normal f J) 1) = plexBasis3 f J (normal f J) 2) := by
  have hcol : ∀ {D : ℕ} (x : Fin D → ℝ), x ≠ 0 → ∃ c : ℝ, 0 < c ∧ c • normalized x = x := by
    intro D x hx
    refine ⟨Real.sqrt (dot x x), sqrt_pos' x hx, ?_⟩
    rw [normalized_smul x hx, smul_smul, mul_one_div_cancel (sqrt_pos' x hx).ne', one_smul]
  have hnn : ∀ {D : ℕ} (hD : D = 0 ∨ D = 1 ∨ D = 2) (f : Fin (D + 2)) (J : Matrix (Fin (D + 1)) (Fin (D + 1)) ℝ),
      J.det ≠ 0 → normal f J ≠ 0 := by
    intro D hD f J hJ h
    have := normal_inward hD f J hJ
    rw [h] at this
    have h0 : dot (0 : Fin (D + 1) → ℝ) (J *ᵥ inward f) = 0 := by simp [dot]
    rw [h0] at this
    have := abs_pos.2 hJ
    linarith
  have htn : ∀ {D : ℕ} (f : Fin (D + 2)) (k : Fin D) (J : Matrix (Fin (D + 1)) (Fin (D + 1)) ℝ),
      J.det ≠ 0 → tangent f k.succ ≠ 0 → J *ᵥ tangent f k.succ ≠ 0 := by
    intro D f k J hJ ht h
    apply ht
    have : J⁻¹ *ᵥ (J *ᵥ tangent f k.succ) = tangent f k.succ := by
      rw [Matrix.mulVec_mulVec, Matrix.nonsing_inv_mul _ (isUnit_iff_ne_zero.2 hJ), Matrix.one_mulVec]
    rw [← this, h, Matrix.mulVec_zero]
  have htz : ∀ {D : ℕ} (f : Fin (D + 2)) (k : Fin D), tangent f k.succ ≠ 0 := by
    intro D f k h
    have hne : f2v f k.succ ≠ f2v f 0 := by
      unfold f2v
      intro e
      exact absurd (Fin.succAbove_right_injective e) (Fin.succ_ne_zero k)
    unfold tangent at h
    have hi : Function.Injective (Equidistant.refVertices (D + 1)) := by
      intro a b hab
      revert hab
      refine Fin.cases ?_ (fun a => ?_) a <;> refine Fin.cases ?_ (fun b => ?_) b
      · simp
      · intro e; have := congrFun e b; simp [Equidistant.refVertices] at this
      · intro e; have := congrFun e a; simp [Equidistant.refVertices] at this
      · intro e; have := congrFun e a; simp [Equidistant.refVertices, Fin.val_inj] at this
        exact congrArg _ this.symm
    exact hne (hi (sub_eq_zero.1 h))
  constructor
  · intro f J hJ
    have h1 := hnn (D := 1) (by simp) f J hJ
    have h2 : J *ᵥ tangent f 1 ≠ 0 := htn (D := 1) f 0 J hJ (htz f 0)
    have h3 : dot (normalized (normal f J)) (normalized (J *ᵥ tangent f 1)) = 0 := by
      rw [normalized_smul _ h1, normalized_smul _ h2, smul_dot, dot_smul,
        normal_tangent (D := 1) (by simp) f J hJ, mul_zero, mul_zero]
    refine ⟨?_, hcol _ h1, hcol _ h2⟩
    intro i j
    fin_cases i <;> fin_cases j <;> simp [plexBasis2]
    · exact dot_normalized _ h1
    · exact h3
    · rw [dot_comm]; exact h3
    · exact dot_normalized _ h2
  · intro f J hJ
    have h1 := hnn (D := 2) (by simp) f J hJ
    have h2 : J *ᵥ tangent f 1 ≠ 0 := htn (D := 2) f 0 J hJ (htz f 0)
    have h3 : dot (normalized (normal f J)) (normalized (J *ᵥ tangent f 1)) = 0 := by
      rw [normalized_smul _ h1, normalized_smul _ h2, smul_dot, dot_smul,
        normal_tangent (D := 2) (by simp) f J hJ, mul_zero, mul_zero]
    have e1 := dot_normalized _ h1
    have e2 := dot_normalized _ h2
    have e3 : dot (cross (normalized (normal f J)) (normalized (J *ᵥ tangent f 1)))
        (cross (normalized (normal f J)) (normalized (J *ᵥ tangent f 1))) = 1 := by
      rw [lagrange, e1, e2, h3]; ring
    have a1 := dot_cross_left (normalized (normal f J)) (normalized (J *ᵥ tangent f 1))
    have a2 := dot_cross_right (normalized (normal f J)) (normalized (J *ᵥ tangent f 1))
    refine ⟨?_, hcol _ h1, hcol _ h2, ?_⟩
    · intro i j
      unfold plexBasis3
      simp only [show (Equidistant.refVertices 3 (f2v f 1) - Equidistant.refVertices 3 (f2v f 0)) = tangent f 1 from rfl]
      rw [normalized_unit _ e3]
      fin_cases i <;> fin_cases j <;> simp
      · exact e1
      · exact h3
      · rw [dot_comm]; exact a1
      · rw [dot_comm]; exact h3
      · exact e2
      · rw [dot_comm]; exact a2
      · exact a1
      · exact a2
      · exact e3
    · unfold plexBasis3
      simp only [show (Equidistant.refVertices 3 (f2v f 1) - Equidistant.refVertices 3 (f2v f 0)) = tangent f 1 from rfl]
      rw [normalized_unit _ e3]
      rfl

/-- Non-vacuity: a vertical fault and `up` along the third axis. -/
example : cross ![0, 0, 1] ![2, 1, 0] ≠ (0 : Fin 3 → ℝ) := by
  intro h
  have := congrFun h 0
  simp [cross] at this

example : (![0, 1] : Fin 2 → ℝ) 0 * (![3, 1] : Fin 2 → ℝ) 1 - (![0, 1] : Fin 2 → ℝ) 1 * (![3, 1] : Fin 2 → ℝ) 0 ≠ 0 := by
  simp

end Tandem.Curvilinear
