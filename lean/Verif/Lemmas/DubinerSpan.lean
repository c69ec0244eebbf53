import Verif.Lemmas.Functions
import Mathlib.Algebra.MvPolynomial.Degrees
import Mathlib.Algebra.MvPolynomial.CommRing
import Mathlib.LinearAlgebra.Span.Basic
import Mathlib.Algebra.Algebra.Bilinear
import Mathlib.Algebra.Order.BigOperators.Group.Finset
/-! # The Dubiner polynomials span the polynomials -/
namespace Tandem.Functions
open Finset

section form
variable {A : Type*} [CommRing A] [Algebra ℝ A]

/-- The homogenised Jacobi polynomial with arguments `2x - y` and `y` in a commutative algebra. -/
noncomputable def jform (n a b : ℕ) (x y : A) : A :=
  ∑ s ∈ range (n + 1), (((n + a).choose (n - s) : ℝ) * ((n + b).choose s : ℝ)) • ((x - y) ^ s * x ^ (n - s))

theorem jform_real (n a b : ℕ) (x y : ℝ) : jform n a b x y = Spec.homJacobi n a b (2 * x - y) y := by
  unfold jform Spec.homJacobi
  refine sum_congr rfl fun s _ => ?_
  rw [show (2 * x - y - y) / 2 = x - y by ring, show (2 * x - y + y) / 2 = x by ring, smul_eq_mul]
  ring

theorem map_jform {B : Type*} [CommRing B] [Algebra ℝ B] (f : A →ₐ[ℝ] B) (n a b : ℕ) (x y : A) :
    f (jform n a b x y) = jform n a b (f x) (f y) := by
  unfold jform
  rw [map_sum]
  refine sum_congr rfl fun s _ => ?_
  rw [map_smul, map_mul, map_pow, map_pow, map_sub]

/-- If the multiples `x^k t` with `k < n` are in `M` then `(x-y)^s x^r u` is `x^(s+r) u` up to `M`. -/
theorem shift_mem (x y : A) (T : ℕ → Submodule ℝ A) (hT : ∀ m t, t ∈ T m → y * t ∈ T (m + 1))
    (N n : ℕ) (hn : n ≤ N) (M : Submodule ℝ A)
    (ih : ∀ k, k < n → ∀ t ∈ T (N - k), x ^ k * t ∈ M) :
    ∀ s r, s + r ≤ n → ∀ u ∈ T (N - (s + r)), (x - y) ^ s * x ^ r * u - x ^ (s + r) * u ∈ M := by
  intro s
  induction s with
  | zero => intro r _ u _; simp
  | succ s ihs =>
    intro r hr u hu
    have hu' : y * u ∈ T (N - (s + r)) := by
      have := hT _ _ hu
      rwa [show N - (s + 1 + r) + 1 = N - (s + r) by omega] at this
    have h1 := ihs (r + 1) (by omega) u (by rwa [show s + (r + 1) = s + 1 + r by ring])
    have h2 := ihs r (by omega) (y * u) hu'
    have h3 := ih (s + r) (by omega) (y * u) hu'
    have := M.sub_mem h1 (M.add_mem h2 h3)
    convert this using 1
    ring

theorem jform_lead_pos (n a b : ℕ) :
    0 < ∑ s ∈ range (n + 1), ((n + a).choose (n - s) : ℝ) * ((n + b).choose s : ℝ) := by
  apply sum_pos
  · intro s hs
    rw [mem_range] at hs
    have h1 := Nat.choose_pos (show n - s ≤ n + a by omega)
    have h2 := Nat.choose_pos (show s ≤ n + b by omega)
    positivity
  · exact ⟨0, by simp⟩

theorem span_step (x y : A) (T : ℕ → Submodule ℝ A) (hT : ∀ m t, t ∈ T m → y * t ∈ T (m + 1))
    (a b N : ℕ) (M : Submodule ℝ A)
    (hM : ∀ n, n ≤ N → ∀ t ∈ T (N - n), jform n a b x y * t ∈ M) :
    ∀ n, n ≤ N → ∀ t ∈ T (N - n), x ^ n * t ∈ M := by
  intro n
  induction n using Nat.strong_induction_on with
  | _ n ih =>
    intro hn t ht
    have h1 := hM n hn t ht
    have h2 := shift_mem x y T hT N n hn M (fun k hk t ht => ih k hk (by omega) t ht)
    have hs : jform n a b x y * t
        - (∑ s ∈ range (n + 1), ((n + a).choose (n - s) : ℝ) * ((n + b).choose s : ℝ)) • (x ^ n * t) ∈ M := by
      unfold jform
      rw [sum_mul, sum_smul, ← sum_sub_distrib]
      refine M.sum_mem fun s hs => ?_
      rw [mem_range] at hs
      have := h2 s (n - s) (by omega) t (by rwa [show s + (n - s) = n by omega])
      rw [show s + (n - s) = n by omega] at this
      rw [smul_mul_assoc, ← smul_sub]
      exact M.smul_mem _ this
    have h3 := M.sub_mem h1 hs
    rw [sub_sub_cancel] at h3
    exact (M.smul_mem_iff (jform_lead_pos n a b).ne').1 h3

theorem pow_mem_span (x : A) (a b N : ℕ) (n : ℕ) (hn : n ≤ N) :
    x ^ n ∈ Submodule.span ℝ {p | ∃ j, j ≤ N ∧ p = jform j a b x 1} := by
  have := span_step x 1 (fun _ => Submodule.span ℝ {1}) (fun _ t ht => by simpa using ht) a b N
    (Submodule.span ℝ {p | ∃ j, j ≤ N ∧ p = jform j a b x 1}) (fun n hn t ht => by
      obtain ⟨c, rfl⟩ := Submodule.mem_span_singleton.1 ht
      rw [mul_smul_comm, mul_one]
      exact Submodule.smul_mem _ _ (Submodule.subset_span ⟨n, hn, rfl⟩)) n hn 1
    (Submodule.mem_span_singleton_self 1)
  simpa using this

/-- Polynomials in `y` of degree at most `m`. -/
def lineT (y : A) (m : ℕ) : Submodule ℝ A := Submodule.span ℝ {p | ∃ k, k ≤ m ∧ p = y ^ k}

theorem lineT_le (y : A) (a b m : ℕ) :
    lineT y m ≤ Submodule.span ℝ {p | ∃ j, j ≤ m ∧ p = jform j a b y 1} := by
  refine Submodule.span_le.2 ?_
  rintro p ⟨k, hk, rfl⟩
  exact pow_mem_span y a b m k hk

theorem lineT_step (y : A) (m : ℕ) (t : A) (ht : t ∈ lineT y m) : (1 - y) * t ∈ lineT y (m + 1) := by
  have : lineT y m ≤ (lineT y (m + 1)).comap (LinearMap.mulLeft ℝ (1 - y)) := by
    refine Submodule.span_le.2 ?_
    rintro p ⟨k, hk, rfl⟩
    simp only [Submodule.comap_coe, Set.mem_preimage, LinearMap.mulLeft_apply, SetLike.mem_coe]
    rw [sub_mul, one_mul, ← pow_succ']
    exact Submodule.sub_mem _ (Submodule.subset_span ⟨k, by omega, rfl⟩)
      (Submodule.subset_span ⟨k + 1, by omega, rfl⟩)
  exact this ht

/-- Triangular basis functions with general parameters. -/
noncomputable def triForm (a : ℕ) (c : ℕ → ℕ) (x y : A) (i j : ℕ) : A :=
  jform i a 0 x (1 - y) * jform j (c i) 0 y 1

theorem tri_mem_span (a : ℕ) (c : ℕ → ℕ) (x y : A) (N i j : ℕ) (h : i + j ≤ N) :
    x ^ i * y ^ j ∈ Submodule.span ℝ {p | ∃ i j, i + j ≤ N ∧ p = triForm a c x y i j} := by
  refine span_step x (1 - y) (lineT y) (lineT_step y) a 0 N _ (fun n hn t ht => ?_) i (by omega)
    (y ^ j) (Submodule.subset_span ⟨j, by omega, rfl⟩)
  have ht' := lineT_le y (c n) 0 _ ht
  have : Submodule.span ℝ {p | ∃ j, j ≤ N - n ∧ p = jform j (c n) 0 y 1} ≤
      (Submodule.span ℝ {p | ∃ i j, i + j ≤ N ∧ p = triForm a c x y i j}).comap
        (LinearMap.mulLeft ℝ (jform n a 0 x (1 - y))) := by
    refine Submodule.span_le.2 ?_
    rintro p ⟨k, hk, rfl⟩
    exact Submodule.subset_span ⟨n, k, by omega, rfl⟩
  exact this ht'

/-- Polynomials in `y`, `z` of degree at most `m`. -/
def planeT (y z : A) (m : ℕ) : Submodule ℝ A :=
  Submodule.span ℝ {p | ∃ i j, i + j ≤ m ∧ p = y ^ i * z ^ j}

theorem planeT_step (y z : A) (m : ℕ) (t : A) (ht : t ∈ planeT y z m) :
    (1 - y - z) * t ∈ planeT y z (m + 1) := by
  have : planeT y z m ≤ (planeT y z (m + 1)).comap (LinearMap.mulLeft ℝ (1 - y - z)) := by
    refine Submodule.span_le.2 ?_
    rintro p ⟨i, j, hk, rfl⟩
    simp only [Submodule.comap_coe, Set.mem_preimage, LinearMap.mulLeft_apply, SetLike.mem_coe]
    have e : (1 - y - z) * (y ^ i * z ^ j) = y ^ i * z ^ j - y ^ (i + 1) * z ^ j - y ^ i * z ^ (j + 1) := by
      ring
    rw [e]
    exact Submodule.sub_mem _ (Submodule.sub_mem _ (Submodule.subset_span ⟨i, j, by omega, rfl⟩)
      (Submodule.subset_span ⟨i + 1, j, by omega, rfl⟩))
      (Submodule.subset_span ⟨i, j + 1, by omega, rfl⟩)
  exact this ht

noncomputable def tetForm (x y z : A) (i j k : ℕ) : A :=
  jform i 0 0 x (1 - y - z) * triForm (2 * i + 1) (fun j => 2 * i + 2 * j + 2) y z j k

theorem tet_mem_span (x y z : A) (N i j k : ℕ) (h : i + j + k ≤ N) :
    x ^ i * (y ^ j * z ^ k) ∈
      Submodule.span ℝ {p | ∃ i j k, i + j + k ≤ N ∧ p = tetForm x y z i j k} := by
  refine span_step x (1 - y - z) (planeT y z) (planeT_step y z) 0 0 N _ (fun n hn t ht => ?_) i (by omega)
    (y ^ j * z ^ k) (Submodule.subset_span ⟨j, k, by omega, rfl⟩)
  have ht' : t ∈ Submodule.span ℝ {p | ∃ j k, j + k ≤ N - n ∧
      p = triForm (2 * n + 1) (fun j => 2 * n + 2 * j + 2) y z j k} := by
    have : planeT y z (N - n) ≤ Submodule.span ℝ {p | ∃ j k, j + k ≤ N - n ∧
        p = triForm (2 * n + 1) (fun j => 2 * n + 2 * j + 2) y z j k} := by
      refine Submodule.span_le.2 ?_
      rintro p ⟨i, j, hk, rfl⟩
      exact tri_mem_span _ _ y z _ i j hk
    exact this ht
  have : Submodule.span ℝ {p | ∃ j k, j + k ≤ N - n ∧
      p = triForm (2 * n + 1) (fun j => 2 * n + 2 * j + 2) y z j k} ≤
      (Submodule.span ℝ {p | ∃ i j k, i + j + k ≤ N ∧ p = tetForm x y z i j k}).comap
        (LinearMap.mulLeft ℝ (jform n 0 0 x (1 - y - z))) := by
    refine Submodule.span_le.2 ?_
    rintro p ⟨j, k, hk, rfl⟩
    exact Submodule.subset_span ⟨n, j, k, by omega, rfl⟩
  exact this ht'

end form

open MvPolynomial

/-- The Dubiner functions as polynomials. -/
noncomputable def dubPoly : (D : ℕ) → (Fin D → ℕ) → MvPolynomial (Fin D) ℝ
  | 1, j => jform (j 0) 0 0 (X 0) 1
  | 2, j => triForm 0 (fun i => 2 * i + 1) (X 0) (X 1) (j 0) (j 1)
  | 3, j => tetForm (X 0) (X 1) (X 2) (j 0) (j 1) (j 2)
  | _, _ => 0

theorem eval_dubPoly (D : ℕ) (j : Fin D → ℕ) (x : Fin D → ℝ) :
    eval x (dubPoly D j) = dubinerP D j x := by
  have hm : ∀ (n a b : ℕ) (p q : MvPolynomial (Fin D) ℝ),
      eval x (jform n a b p q) = jform n a b (eval x p) (eval x q) := fun n a b p q => by
    have := map_jform (aeval x : MvPolynomial (Fin D) ℝ →ₐ[ℝ] ℝ) n a b p q
    simpa [aeval_eq_eval] using this
  match D, j, x, hm with
  | 0, _, _, _ => simp [dubPoly, dubinerP]
  | 1, j, x, hm =>
    simp only [dubPoly, dubinerP, lineDubinerP, hm, eval_X, map_one, jform_real, jacobi_eq,
      homJacobi_at_one]
  | 2, j, x, hm =>
    simp only [dubPoly, dubinerP, triDubinerP, triForm, map_mul, hm, eval_X, map_one, map_sub,
      jform_real, sf_eq]
    rw [show 2 * x 0 - (1 - x 1) = 2 * x 0 - 1 + x 1 by ring]
  | 3, j, x, hm =>
    simp only [dubPoly, dubinerP, tetraDubinerP, tetForm, triForm, map_mul, hm, eval_X, map_one, map_sub,
      jform_real, sf_eq]
    rw [show 2 * x 0 - (1 - x 1 - x 2) = 2 * x 0 - 1 + x 1 + x 2 by ring,
      show 2 * x 1 - (1 - x 2) = 2 * x 1 - 1 + x 2 by ring, mul_assoc]
  | n + 4, _, _, _ => simp [dubPoly, dubinerP]

theorem totalDegree_jform {D : ℕ} (n a b : ℕ) (p q : MvPolynomial (Fin D) ℝ)
    (hp : p.totalDegree ≤ 1) (hq : q.totalDegree ≤ 1) : (jform n a b p q).totalDegree ≤ n := by
  unfold jform
  refine totalDegree_finsetSum_le fun s hs => ?_
  rw [mem_range] at hs
  refine (totalDegree_smul_le _ _).trans ?_
  refine (totalDegree_mul _ _).trans ?_
  have h1 := (totalDegree_pow (p - q) s).trans (Nat.mul_le_mul_left s ((totalDegree_sub p q).trans (max_le hp hq)))
  have h2 := (totalDegree_pow p (n - s)).trans (Nat.mul_le_mul_left (n - s) hp)
  omega

theorem totalDegree_dubPoly (D : ℕ) (j : Fin D → ℕ) : (dubPoly D j).totalDegree ≤ ∑ d, j d := by
  have hX : ∀ (D : ℕ) (d : Fin D), (X d : MvPolynomial (Fin D) ℝ).totalDegree ≤ 1 := fun D d => by simp
  have h1 : ∀ D : ℕ, (1 : MvPolynomial (Fin D) ℝ).totalDegree ≤ 1 := fun D => by simp
  have hs : ∀ (D : ℕ) (p q : MvPolynomial (Fin D) ℝ), p.totalDegree ≤ 1 → q.totalDegree ≤ 1 →
      (p - q).totalDegree ≤ 1 := fun D p q hp hq => (totalDegree_sub p q).trans (max_le hp hq)
  match D, j with
  | 0, _ => simp [dubPoly]
  | 1, j => simpa [dubPoly] using totalDegree_jform (j 0) 0 0 _ _ (hX 1 0) (h1 1)
  | 2, j =>
    rw [Fin.sum_univ_two]
    exact (totalDegree_mul _ _).trans (Nat.add_le_add
      (totalDegree_jform _ _ _ _ _ (hX 2 0) (hs _ _ _ (h1 2) (hX 2 1)))
      (totalDegree_jform _ _ _ _ _ (hX 2 1) (h1 2)))
  | 3, j =>
    rw [Fin.sum_univ_three, add_assoc]
    exact (totalDegree_mul _ _).trans (Nat.add_le_add
      (totalDegree_jform _ _ _ _ _ (hX 3 0) (hs _ _ _ (hs _ _ _ (h1 3) (hX 3 1)) (hX 3 2)))
      ((totalDegree_mul _ _).trans (Nat.add_le_add
      (totalDegree_jform _ _ _ _ _ (hX 3 1) (hs _ _ _ (h1 3) (hX 3 2)))
      (totalDegree_jform _ _ _ _ _ (hX 3 2) (h1 3)))))
  | n + 4, _ => simp [dubPoly]

/-- Every polynomial of degree at most `N` is a combination of the Dubiner polynomials of degree at
most `N`. -/
theorem poly_mem_span (D N : ℕ) (hD : D = 1 ∨ D = 2 ∨ D = 3) (p : MvPolynomial (Fin D) ℝ)
    (hp : p.totalDegree ≤ N) :
    p ∈ Submodule.span ℝ {q | ∃ j : Fin D → ℕ, ∑ d, j d ≤ N ∧ q = dubPoly D j} := by
  rw [p.as_sum]
  refine Submodule.sum_mem _ fun m hm => ?_
  have hdeg : m.sum (fun _ e => e) ≤ N := (le_totalDegree hm).trans hp
  rw [Finsupp.sum_fintype _ _ (fun _ => rfl)] at hdeg
  have e : monomial m (coeff m p) = coeff m p • ∏ d, (X d : MvPolynomial (Fin D) ℝ) ^ m d := by
    rw [monomial_eq, Finsupp.prod_fintype _ _ (fun _ => pow_zero _), smul_eq_C_mul]
  rw [e]
  refine Submodule.smul_mem _ _ ?_
  rcases hD with rfl | rfl | rfl
  · rw [Fin.prod_univ_one]
    rw [Fin.sum_univ_one] at hdeg
    refine Submodule.span_mono ?_ (pow_mem_span (X 0) 0 0 N (m 0) hdeg)
    rintro q ⟨j, hj, rfl⟩
    exact ⟨![j], by simpa using hj, rfl⟩
  · rw [Fin.prod_univ_two]
    rw [Fin.sum_univ_two] at hdeg
    refine Submodule.span_mono ?_ (tri_mem_span 0 (fun i => 2 * i + 1) (X 0) (X 1) N (m 0) (m 1) hdeg)
    rintro q ⟨i, j, hj, rfl⟩
    exact ⟨![i, j], by simpa using hj, rfl⟩
  · rw [Fin.prod_univ_three, mul_assoc]
    rw [Fin.sum_univ_three] at hdeg
    refine Submodule.span_mono ?_ (tet_mem_span (X 0) (X 1) (X 2) N (m 0) (m 1) (m 2) hdeg)
    rintro q ⟨i, j, k, hj, rfl⟩
    exact ⟨![i, j, k], by simpa [Fin.sum_univ_three] using hj, rfl⟩

end Tandem.Functions
