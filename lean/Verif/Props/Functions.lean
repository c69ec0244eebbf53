import Verif.Lemmas.Functions
import Verif.Props.Combinatorics
import Mathlib.Algebra.BigOperators.Fin
import Mathlib.Analysis.Calculus.Deriv.Comp
import Mathlib.Tactic.NormNum
/-! # Properties C54, C55, C56: polynomial bases and number of nodes -/
namespace Tandem.Functions

/-- C54 (Jacobi): `JacobiP(n,a,b,x)` is the Jacobi polynomial. -/
theorem C54_jacobi (n a b : ℕ) (x : ℝ) : jacobiP n a b x = Spec.jacobi n a b x := jacobi_eq n a b x

/-- C54 (homogenised): `SingularityFreeJacobiP(n,a,b,x,y)` is `y^n P_n(x/y)` for `y ≠ 0`, is
`JacobiP(n,a,b,x)` for `y = 1`, and for all `x`, `y`, in particular `y = 0`, it is the form of
degree `n` that homogenises the Jacobi polynomial. -/
theorem C54_homogenised (n a b : ℕ) (x y : ℝ) :
    (y ≠ 0 → sfJacobiP n a b x y = y ^ n * Spec.jacobi n a b (x / y)) ∧
    sfJacobiP n a b x 1 = jacobiP n a b x ∧
    sfJacobiP n a b x y = Spec.homJacobi n a b x y := by
  refine ⟨fun hy => ?_, ?_, sf_eq n a b x y⟩
  · rw [sf_eq, homJacobi_homog n a b x y hy]
  · rw [sf_eq, jacobi_eq, homJacobi_at_one]

/-- C54 (derivatives): `SingularityFreeJacobiPAndDerivatives` returns the value of
`SingularityFreeJacobiP` and its two partial derivatives, at every point. -/
theorem C54_derivatives (n a b : ℕ) (x y : ℝ) :
    (sfJacobiPAndDerivatives n a b x y).1 = sfJacobiP n a b x y ∧
    HasDerivAt (fun t => sfJacobiP n a b t y) (sfJacobiPAndDerivatives n a b x y).2.1 x ∧
    HasDerivAt (fun t => sfJacobiP n a b x t) (sfJacobiPAndDerivatives n a b x y).2.2 y := by
  obtain ⟨h1, h2⟩ := sfd_eq n a b x y
  refine ⟨by rw [h1, sf_eq], ?_, ?_⟩
  · have := h2 (fun t => t) (fun _ => y) 1 0 x rfl rfl (hasDerivAt_id' x) (hasDerivAt_const x y)
    simp only [mul_one, mul_zero, add_zero] at this
    simpa only [sf_eq] using this
  · have := h2 (fun _ => x) (fun t => t) 0 1 y rfl rfl (hasDerivAt_const y x) (hasDerivAt_id' y)
    simp only [mul_one, mul_zero, zero_add] at this
    simpa only [sf_eq] using this

/-- C54 (derivative of `JacobiP`): `JacobiPDerivative(n,a,b,x)` is the derivative of
`JacobiP(n,a,b,·)` at `x`. -/
theorem C54_jacobi_derivative (n a b : ℕ) (x : ℝ) :
    HasDerivAt (fun t => jacobiP n a b t) (jacobiPDerivative n a b x) x := by
  have := jacobi_deriv n a b x
  simpa only [jacobi_eq] using this

/-- The recurrence really runs: the degree three polynomial at `x = 1/2`, and the homogenised one at
`y = 0`, where `x / y` makes no sense. -/
example : jacobiP 3 0 0 (1 / 2) = -7 / 16 := by
  norm_num [jacobiP, jacobiStep, List.range']

example : sfJacobiP 2 0 0 1 0 = 3 / 2 := by
  norm_num [sfJacobiP, recursion, factors, List.range']

/-- C55 (value): away from the collapsed vertex, `TriDubinerP` is the Dubiner polynomial of the
triangle in collapsed coordinates. -/
theorem C55_tri_value (i : Fin 2 → ℕ) (xi : Fin 2 → ℝ) (h : xi 1 ≠ 1) :
    dubinerP 2 i xi = Spec.dubinerTri (i 0) (i 1) (xi 0) (xi 1) := by
  have hne : (1 : ℝ) - xi 1 ≠ 0 := fun e => h (by linear_combination -e)
  simp only [dubinerP, triDubinerP, Spec.dubinerTri, sf_eq, homJacobi_at_one]
  rw [homJacobi_homog _ _ _ _ _ hne,
    show (2 * xi 0 - 1 + xi 1) / (1 - xi 1) = 2 * xi 0 / (1 - xi 1) - 1 by field_simp; ring]
  ring

/-- C55 (value): off the collapsed edge, `TetraDubinerP` is the Dubiner polynomial of the
tetrahedron in collapsed coordinates. -/
theorem C55_tet_value (i : Fin 3 → ℕ) (xi : Fin 3 → ℝ) (h : xi 2 ≠ 1) (h' : xi 1 + xi 2 ≠ 1) :
    dubinerP 3 i xi = Spec.dubinerTet (i 0) (i 1) (i 2) (xi 0) (xi 1) (xi 2) := by
  have hne : (1 : ℝ) - xi 2 ≠ 0 := fun e => h (by linear_combination -e)
  have hne' : (1 : ℝ) - xi 1 - xi 2 ≠ 0 := fun e => h' (by linear_combination -e)
  simp only [dubinerP, tetraDubinerP, Spec.dubinerTet, sf_eq, homJacobi_at_one]
  rw [homJacobi_homog _ _ _ _ _ hne, homJacobi_homog _ _ _ _ _ hne',
    show (2 * xi 0 - 1 + xi 1 + xi 2) / (1 - xi 1 - xi 2) = 2 * xi 0 / (1 - xi 1 - xi 2) - 1 by
      field_simp; ring,
    show (2 * xi 1 - 1 + xi 2) / (1 - xi 2) = 2 * xi 1 / (1 - xi 2) - 1 by field_simp; ring]
  ring

/-- C55 (triangle): `gradDubinerP` is the gradient of `DubinerP` at every point of the plane, the
collapsed vertex included. -/
theorem C55_tri (i : Fin 2 → ℕ) (xi : Fin 2 → ℝ) :
    Spec.IsGradient (dubinerP 2 i) (gradDubinerP 2 i xi) xi := by
  intro v
  simp only [dubinerP, gradDubinerP, triDubinerP, gradTriDubinerP, sf_eq]
  obtain ⟨v1, d1⟩ := sfd_eq (i 0) 0 0 (2 * xi 0 - 1 + xi 1) (1 - xi 1)
  obtain ⟨v2, d2⟩ := sfd_eq (i 1) (2 * i 0 + 1) 0 (2 * xi 1 - 1) 1
  have l : ∀ d, HasDerivAt (fun t : ℝ => xi d + t * v d) (v d) 0 := fun d => by
    simpa using ((hasDerivAt_id' (0 : ℝ)).mul_const (v d)).const_add (xi d)
  have e1 := d1 (fun t => 2 * (xi 0 + t * v 0) - 1 + (xi 1 + t * v 1)) (fun t => 1 - (xi 1 + t * v 1))
    (2 * v 0 + v 1) (-v 1) 0 (by ring) (by ring)
    ((((l 0).const_mul 2).sub_const 1).fun_add (l 1)) ((l 1).const_sub 1)
  have e2 := d2 (fun t => 2 * (xi 1 + t * v 1) - 1) (fun _ => 1) (2 * v 1) 0 0 (by ring) rfl
    (((l 1).const_mul 2).sub_const 1) (hasDerivAt_const 0 1)
  refine (e1.fun_mul e2).congr_deriv ?_
  simp only [zero_mul, add_zero, Fin.sum_univ_two, Matrix.cons_val_zero, Matrix.cons_val_one, v1, v2]
  ring

/-- C55 (tetrahedron): `gradDubinerP` is the gradient of `DubinerP` at every point of space. -/
theorem C55_tet (i : Fin 3 → ℕ) (xi : Fin 3 → ℝ) :
    Spec.IsGradient (dubinerP 3 i) (gradDubinerP 3 i xi) xi := by
  intro v
  simp only [dubinerP, gradDubinerP, tetraDubinerP, gradTetraDubinerP, sf_eq]
  obtain ⟨v1, d1⟩ := sfd_eq (i 0) 0 0 (2 * xi 0 - 1 + xi 1 + xi 2) (1 - xi 1 - xi 2)
  obtain ⟨v2, d2⟩ := sfd_eq (i 1) (2 * i 0 + 1) 0 (2 * xi 1 - 1 + xi 2) (1 - xi 2)
  obtain ⟨v3, d3⟩ := sfd_eq (i 2) (2 * i 0 + 2 * i 1 + 2) 0 (2 * xi 2 - 1) 1
  have l : ∀ d, HasDerivAt (fun t : ℝ => xi d + t * v d) (v d) 0 := fun d => by
    simpa using ((hasDerivAt_id' (0 : ℝ)).mul_const (v d)).const_add (xi d)
  have e1 := d1 (fun t => 2 * (xi 0 + t * v 0) - 1 + (xi 1 + t * v 1) + (xi 2 + t * v 2))
    (fun t => 1 - (xi 1 + t * v 1) - (xi 2 + t * v 2))
    (2 * v 0 + v 1 + v 2) (-v 1 - v 2) 0 (by ring) (by ring)
    (((((l 0).const_mul 2).sub_const 1).fun_add (l 1)).fun_add (l 2))
    (((l 1).const_sub 1).fun_sub (l 2))
  have e2 := d2 (fun t => 2 * (xi 1 + t * v 1) - 1 + (xi 2 + t * v 2)) (fun t => 1 - (xi 2 + t * v 2))
    (2 * v 1 + v 2) (-v 2) 0 (by ring) (by ring)
    ((((l 1).const_mul 2).sub_const 1).fun_add (l 2)) ((l 2).const_sub 1)
  have e3 := d3 (fun t => 2 * (xi 2 + t * v 2) - 1) (fun _ => 1) (2 * v 2) 0 0 (by ring) rfl
    (((l 2).const_mul 2).sub_const 1) (hasDerivAt_const 0 1)
  refine ((e1.fun_mul e2).fun_mul e3).congr_deriv ?_
  simp only [zero_mul, add_zero, Fin.sum_univ_three, Matrix.cons_val_zero, Matrix.cons_val_one,
    Matrix.cons_val, v1, v2, v3]
  ring

/-- C55 (line): in one dimension `gradDubinerP` is *half* the derivative of `DubinerP`: the inner
derivative of `2 ξ - 1` is missing. -/
theorem C55_line (i : Fin 1 → ℕ) (xi : Fin 1 → ℝ) :
    Spec.IsGradient (dubinerP 1 i) (fun d => 2 * gradDubinerP 1 i xi d) xi := by
  intro v
  simp only [dubinerP, gradDubinerP, lineDubinerP, gradLineDubinerP]
  have l : HasDerivAt (fun t : ℝ => 2 * (xi 0 + t * v 0) - 1) (2 * v 0) 0 := by
    have := ((hasDerivAt_id' (0 : ℝ)).mul_const (v 0)).const_add (xi 0)
    simpa using (this.const_mul 2).sub_const 1
  have := C54_jacobi_derivative (i 0) 0 0 (2 * xi 0 - 1)
  rw [show (2 * xi 0 - 1) = 2 * (xi 0 + 0 * v 0) - 1 by ring] at this
  have key := HasDerivAt.comp (h := fun t : ℝ => 2 * (xi 0 + t * v 0) - 1) (0 : ℝ) this l
  refine key.congr_deriv ?_
  simp
  ring

/-- C55 (line, counterexample): the one-dimensional gradient is not the derivative, already for
degree one. -/
theorem C55_line_wrong : ¬ ∀ (i : Fin 1 → ℕ) (xi : Fin 1 → ℝ),
    Spec.IsGradient (dubinerP 1 i) (gradDubinerP 1 i xi) xi := by
  intro h
  have h1 := h (fun _ => 1) (fun _ => 0) (fun _ => 1)
  have h2 := C55_line (fun _ => 1) (fun _ => 0) (fun _ => 1)
  have := h1.unique h2
  norm_num [gradDubinerP, gradLineDubinerP, jacobiPDerivative, jacobiP] at this

example : gradDubinerP 2 ![1, 1] ![1 / 3, 1 / 3] = ![4 / 3, 2 / 3] := by
  funext d
  fin_cases d <;>
  norm_num [gradDubinerP, gradTriDubinerP, sfJacobiPAndDerivatives, sfJacobiP, List.range']

/-! ## C56 -/

theorem choose_strictMono (D : ℕ) (hD : 0 < D) {N M : ℕ} (h : N < M) :
    (N + D).choose D < (M + D).choose D := by
  induction M, h using Nat.le_induction with
  | base =>
    obtain ⟨d, rfl⟩ : ∃ d, D = d + 1 := ⟨D - 1, by omega⟩
    rw [show N.succ + (d + 1) = (N + (d + 1)) + 1 by omega, Nat.choose_succ_succ']
    have := Nat.choose_pos (show d ≤ N + (d + 1) by omega)
    omega
  | succ M hM ih =>
    refine lt_of_lt_of_le ih (Nat.choose_le_choose D (by omega))

theorem choose_ge (D : ℕ) (hD : 0 < D) (N : ℕ) : N + 1 ≤ (N + D).choose D := by
  induction N with
  | zero => simp
  | succ N ih =>
    have := choose_strictMono D hD (show N < N + 1 by omega)
    omega

theorem degreeLoop_spec (D n : ℕ) (hD : 0 < D) (fuel N : ℕ) (hf : 0 < fuel) (h : n ≤ fuel + N) :
    ∃ M, degreeLoop D n fuel N = some M ∧ N ≤ M ∧ n ≤ (M + D).choose D ∧
      ∀ K, N ≤ K → K < M → (K + D).choose D < n := by
  induction fuel generalizing N with
  | zero => omega
  | succ fuel ih =>
    unfold degreeLoop
    rw [Combinatorics.C05_binom _ _ (by omega)]
    simp only
    split
    · rename_i hlt
      have hge := choose_ge D hD N
      obtain ⟨M, h1, h2, h3, h4⟩ := ih (N + 1) (by omega) (by omega)
      refine ⟨M, h1, by omega, h3, fun K hK hKM => ?_⟩
      rcases Nat.eq_or_lt_of_le hK with rfl | hK
      · exact hlt
      · exact h4 K (by omega) hKM
    · rename_i hlt
      exact ⟨N, rfl, le_refl _, by omega, fun K hK hKM => by omega⟩

/-- C56: `num_nodes_to_degree` always ends and returns degree `N` exactly if `N ≥ 1` and the number
of nodes is the number `binom(N+D, D)` of nodes of that degree; for any other number it returns
`nullopt`. -/
theorem C56_degree (D n fuel : ℕ) (hD : 0 < D) (hf : n ≤ fuel + 1) (h0 : 0 < fuel) :
    ∃ r, numNodesToDegree D n fuel = some r ∧
      ∀ N, r = some N ↔ (1 ≤ N ∧ n = (N + D).choose D) := by
  obtain ⟨M, h1, h2, h3, h4⟩ := degreeLoop_spec D n hD fuel 1 h0 (by omega)
  unfold numNodesToDegree
  rw [h1]
  refine ⟨_, rfl, fun N => ?_⟩
  rw [Combinatorics.C05_binom _ _ (by omega)]
  constructor
  · intro h
    split at h
    · rename_i he
      cases h
      exact ⟨h2, (Option.some.inj he).symm⟩
    · cases h
  · rintro ⟨hN, hn⟩
    have : M = N := by
      rcases lt_trichotomy M N with hlt | heq | hgt
      · have := choose_strictMono D hD hlt; omega
      · exact heq
      · have := h4 N hN hgt; omega
    rw [this, if_pos (by rw [hn])]

/-- C56 (round trip): the number of nodes of every degree `N ≥ 1` gives back `N`; degree zero (one
node) is rejected. -/
theorem C56_round_trip (D N fuel : ℕ) (hD : 0 < D) (hN : 1 ≤ N) (hf : (N + D).choose D ≤ fuel) :
    numNodesToDegree D ((N + D).choose D) fuel = some (some N) := by
  have hp := choose_ge D hD N
  obtain ⟨r, h1, h2⟩ := C56_degree D ((N + D).choose D) fuel hD (by omega) (by omega)
  rw [h1, (h2 N).2 ⟨hN, rfl⟩]

theorem C56_degree_zero (D fuel : ℕ) (hD : 0 < D) (hf : 0 < fuel) :
    numNodesToDegree D ((0 + D).choose D) fuel = some none := by
  obtain ⟨r, h1, h2⟩ := C56_degree D ((0 + D).choose D) fuel hD (by simp) hf
  rw [h1]
  cases r with
  | none => rfl
  | some N =>
    obtain ⟨a, b⟩ := (h2 N).1 rfl
    have := choose_strictMono D hD (show 0 < N by omega)
    omega

example : numNodesToDegree 3 20 20 = some (some 3) := by decide +kernel
example : numNodesToDegree 2 7 10 = some none := by decide +kernel

end Tandem.Functions
