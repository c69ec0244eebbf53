import Verif.Lemmas.JacobiPoly
import Verif.Spec.RefElement
/-! # Orthogonality of the Dubiner functions on the reference simplex -/
namespace Tandem.Functions
open Finset intervalIntegral Polynomial

theorem jform_homog (n a b : ℕ) (c x y : ℝ) : jform n a b (c * x) (c * y) = c ^ n * jform n a b x y := by
  unfold jform
  rw [mul_sum]
  refine sum_congr rfl fun s hs => ?_
  rw [mem_range] at hs
  rw [← mul_sub, mul_pow, mul_pow, smul_eq_mul, smul_eq_mul]
  have : c ^ n = c ^ s * c ^ (n - s) := by rw [← pow_add]; congr 1; omega
  rw [this]; ring

theorem jform_one (n a b : ℕ) (x : ℝ) : jform n a b x 1 = (jpoly n a b).eval x := by
  rw [eval_jpoly, jform_real, homJacobi_at_one]

theorem dub1 (j : Fin 1 → ℕ) (x : Fin 1 → ℝ) : dubinerP 1 j x = (jpoly (j 0) 0 0).eval (x 0) := by
  rw [← jform_one]
  simp only [dubinerP, lineDubinerP, jform_real, jacobi_eq, homJacobi_at_one]

theorem dub2 (j : Fin 2 → ℕ) (x : Fin 2 → ℝ) : dubinerP 2 j x
    = jform (j 0) 0 0 (x 0) (1 - x 1) * (jpoly (j 1) (2 * j 0 + 1) 0).eval (x 1) := by
  rw [← jform_one]
  simp only [dubinerP, triDubinerP, jform_real, sf_eq]
  rw [show 2 * x 0 - (1 - x 1) = 2 * x 0 - 1 + x 1 by ring]

theorem dub3 (j : Fin 3 → ℕ) (x : Fin 3 → ℝ) : dubinerP 3 j x
    = jform (j 0) 0 0 (x 0) (1 - x 1 - x 2) * jform (j 1) (2 * j 0 + 1) 0 (x 1) (1 - x 2)
      * (jpoly (j 2) (2 * j 0 + 2 * j 1 + 2) 0).eval (x 2) := by
  rw [← jform_one]
  simp only [dubinerP, tetraDubinerP, jform_real, sf_eq]
  rw [show 2 * x 0 - (1 - x 1 - x 2) = 2 * x 0 - 1 + x 1 + x 2 by ring,
    show 2 * x 1 - (1 - x 2) = 2 * x 1 - 1 + x 2 by ring]

theorem scale (c : ℝ) (g : ℝ → ℝ) : ∫ x in (0:ℝ)..c, g x = c * ∫ u in (0:ℝ)..1, g (c * u) := by
  rw [mul_integral_comp_mul_left]; simp

/-- The product of two homogenised Jacobi polynomials along a segment. -/
theorem inner_int (n m a : ℕ) (c : ℝ) :
    ∫ x in (0:ℝ)..c, (c - x) ^ a * (jform n a 0 x c * jform m a 0 x c)
      = c ^ (a + n + m + 1) * if n = m then 1 / (2 * n + a + 1 : ℝ) else 0 := by
  rw [scale, ← wint_zero, wint_apply]
  have e : ∀ u : ℝ, (c - c * u) ^ a * (jform n a 0 (c * u) c * jform m a 0 (c * u) c)
      = c ^ (a + n + m) * ((1 - u) ^ a * u ^ 0 * (jpoly n a 0 * jpoly m a 0).eval u) := by
    intro u
    have h1 := jform_homog n a 0 c u 1
    have h2 := jform_homog m a 0 c u 1
    rw [mul_one] at h1 h2
    rw [h1, h2, jform_one, jform_one, eval_mul, show c - c * u = c * (1 - u) by ring, mul_pow, pow_add, pow_add]
    ring
  rw [integral_congr (fun u _ => e u), integral_const_mul, pow_succ]
  ring

/-- The squared norm of a Dubiner function. -/
noncomputable def dubNorm : (D : ℕ) → (Fin D → ℕ) → ℝ
  | 1, j => 1 / (2 * j 0 + 1)
  | 2, j => 1 / (2 * j 0 + 1) * (1 / (2 * j 1 + 2 * j 0 + 2))
  | 3, j => 1 / (2 * j 0 + 1) * (1 / (2 * j 1 + 2 * j 0 + 2)) * (1 / (2 * j 2 + 2 * j 0 + 2 * j 1 + 3))
  | _, _ => 0

theorem dubNorm_pos (D : ℕ) (hD : D = 1 ∨ D = 2 ∨ D = 3) (j : Fin D → ℕ) : 0 < dubNorm D j := by
  rcases hD with rfl | rfl | rfl <;> simp only [dubNorm] <;> positivity

theorem ortho1 (i j : Fin 1 → ℕ) :
    Spec.simplexIntegral 1 (fun x => dubinerP 1 i x * dubinerP 1 j x) = if i = j then dubNorm 1 i else 0 := by
  have h := wint_zero (i 0) (j 0) 0
  have hij : i = j ↔ i 0 = j 0 := by
    constructor
    · rintro rfl; rfl
    · intro h; funext d; fin_cases d; exact h
  simp only [hij]
  rw [wint_apply] at h
  simp only [Spec.simplexIntegral, dub1, dubNorm]
  simp only [pow_zero, one_mul, eval_mul, Nat.cast_zero, add_zero] at h
  simpa using h

theorem ortho2 (i j : Fin 2 → ℕ) :
    Spec.simplexIntegral 2 (fun x => dubinerP 2 i x * dubinerP 2 j x) = if i = j then dubNorm 2 i else 0 := by
  have hij : i = j ↔ i 0 = j 0 ∧ i 1 = j 1 := by
    constructor
    · rintro rfl; exact ⟨rfl, rfl⟩
    · rintro ⟨h, h'⟩; funext d; fin_cases d; exacts [h, h']
  simp only [hij, Spec.simplexIntegral, dub2, dubNorm, Matrix.cons_val_zero, Matrix.cons_val_one]
  have e1 : ∀ y : ℝ, ∫ x in (0:ℝ)..(1 - y), jform (i 0) 0 0 x (1 - y) * eval y (jpoly (i 1) (2 * i 0 + 1) 0)
        * (jform (j 0) 0 0 x (1 - y) * eval y (jpoly (j 1) (2 * j 0 + 1) 0))
      = (if i 0 = j 0 then 1 / (2 * i 0 + 1 : ℝ) else 0) * ((1 - y) ^ (i 0 + j 0 + 1)
        * (eval y (jpoly (i 1) (2 * i 0 + 1) 0) * eval y (jpoly (j 1) (2 * j 0 + 1) 0))) := by
    intro y
    have := inner_int (i 0) (j 0) 0 (1 - y)
    simp only [pow_zero, one_mul, Nat.cast_zero, add_zero, zero_add] at this
    rw [← mul_assoc, mul_comm (ite _ _ _), ← this, ← integral_mul_const]
    exact integral_congr fun x _ => by ring
  simp only [e1, integral_const_mul]
  by_cases h0 : i 0 = j 0
  · have := wint_zero (i 1) (j 1) (2 * i 0 + 1)
    rw [wint_apply] at this
    rw [if_pos h0, ← h0, show i 0 + i 0 + 1 = 2 * i 0 + 1 by ring]
    simp only [eval_mul, pow_zero, mul_one] at this
    rw [this]
    by_cases h1 : i 1 = j 1
    · rw [if_pos h1, if_pos ⟨rfl, h1⟩]; push_cast; ring
    · rw [if_neg h1, if_neg (fun h => h1 h.2), mul_zero]
  · rw [if_neg h0, if_neg (fun h => h0 h.1), zero_mul]

theorem ortho3 (i j : Fin 3 → ℕ) :
    Spec.simplexIntegral 3 (fun x => dubinerP 3 i x * dubinerP 3 j x) = if i = j then dubNorm 3 i else 0 := by
  have hij : i = j ↔ i 0 = j 0 ∧ i 1 = j 1 ∧ i 2 = j 2 := by
    constructor
    · rintro rfl; exact ⟨rfl, rfl, rfl⟩
    · rintro ⟨h, h', h''⟩; funext d; fin_cases d; exacts [h, h', h'']
  simp only [hij, Spec.simplexIntegral, dub3, dubNorm, Matrix.cons_val_zero, Matrix.cons_val_one,
    Matrix.cons_val]
  have e1 : ∀ y z : ℝ, ∫ x in (0:ℝ)..(1 - y - z),
        jform (i 0) 0 0 x (1 - y - z) * jform (i 1) (2 * i 0 + 1) 0 y (1 - z)
            * eval z (jpoly (i 2) (2 * i 0 + 2 * i 1 + 2) 0)
          * (jform (j 0) 0 0 x (1 - y - z) * jform (j 1) (2 * j 0 + 1) 0 y (1 - z)
            * eval z (jpoly (j 2) (2 * j 0 + 2 * j 1 + 2) 0))
      = (if i 0 = j 0 then 1 / (2 * i 0 + 1 : ℝ) else 0) * ((1 - z - y) ^ (i 0 + j 0 + 1)
        * (jform (i 1) (2 * i 0 + 1) 0 y (1 - z) * jform (j 1) (2 * j 0 + 1) 0 y (1 - z))
        * (eval z (jpoly (i 2) (2 * i 0 + 2 * i 1 + 2) 0) * eval z (jpoly (j 2) (2 * j 0 + 2 * j 1 + 2) 0))) := by
    intro y z
    have := inner_int (i 0) (j 0) 0 (1 - y - z)
    simp only [pow_zero, one_mul, Nat.cast_zero, add_zero, zero_add] at this
    rw [show 1 - z - y = 1 - y - z by ring, mul_assoc ((1 - y - z) ^ (i 0 + j 0 + 1)), ← mul_assoc,
      mul_comm (ite _ _ _), ← this, ← integral_mul_const]
    exact integral_congr fun x _ => by ring
  simp only [e1, integral_const_mul]
  by_cases h0 : i 0 = j 0
  · rw [if_pos h0, ← h0]
    have e2 : ∀ z : ℝ, ∫ y in (0:ℝ)..(1 - z), (1 - z - y) ^ (i 0 + i 0 + 1)
        * (jform (i 1) (2 * i 0 + 1) 0 y (1 - z) * jform (j 1) (2 * i 0 + 1) 0 y (1 - z))
        * (eval z (jpoly (i 2) (2 * i 0 + 2 * i 1 + 2) 0) * eval z (jpoly (j 2) (2 * i 0 + 2 * j 1 + 2) 0))
      = (if i 1 = j 1 then 1 / (2 * i 1 + 2 * i 0 + 2 : ℝ) else 0) * ((1 - z) ^ (2 * i 0 + i 1 + j 1 + 2)
        * (eval z (jpoly (i 2) (2 * i 0 + 2 * i 1 + 2) 0) * eval z (jpoly (j 2) (2 * i 0 + 2 * j 1 + 2) 0))) := by
      intro z
      have := inner_int (i 1) (j 1) (2 * i 0 + 1) (1 - z)
      rw [integral_mul_const, show i 0 + i 0 + 1 = 2 * i 0 + 1 by ring, this,
        show 2 * i 0 + 1 + i 1 + j 1 + 1 = 2 * i 0 + i 1 + j 1 + 2 by ring]
      push_cast
      rw [show (2 * (i 1 : ℝ) + (2 * i 0 + 1) + 1) = 2 * i 1 + 2 * i 0 + 2 by ring]
      ring
    simp only [e2, integral_const_mul]
    by_cases h1 : i 1 = j 1
    · have := wint_zero (i 2) (j 2) (2 * i 0 + 2 * i 1 + 2)
      rw [wint_apply] at this
      rw [if_pos h1, ← h1, show 2 * i 0 + i 1 + i 1 + 2 = 2 * i 0 + 2 * i 1 + 2 by ring]
      simp only [eval_mul, pow_zero, mul_one] at this
      rw [this]
      by_cases h2 : i 2 = j 2
      · rw [if_pos h2, if_pos (by simp [h2])]; push_cast; ring
      · rw [if_neg h2, if_neg (fun h => h2 h.2.2)]; ring
    · rw [if_neg h1, if_neg (fun h => h1 h.2.1)]; ring
  · rw [if_neg h0, if_neg (fun h => h0 h.1), zero_mul]

/-- Orthogonality in all three dimensions. -/
theorem dubiner_ortho (D : ℕ) (hD : D = 1 ∨ D = 2 ∨ D = 3) (i j : Fin D → ℕ) :
    Spec.simplexIntegral D (fun x => dubinerP D i x * dubinerP D j x) = if i = j then dubNorm D i else 0 := by
  rcases hD with rfl | rfl | rfl
  exacts [ortho1 i j, ortho2 i j, ortho3 i j]

end Tandem.Functions
