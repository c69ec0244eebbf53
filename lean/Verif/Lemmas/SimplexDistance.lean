import Verif.Model.SimplexDistance
import Verif.Spec.SimplexDistance
import Verif.Props.Combinatorics
import Verif.Lemmas.Curvilinear
import Mathlib.LinearAlgebra.AffineSpace.Independent
import Mathlib.Analysis.Convex.StdSimplex
import Mathlib.Topology.Order.Compact
import Mathlib.Data.Nat.Choose.Bounds
import Mathlib.Tactic.Ring
import Mathlib.Tactic.Linarith
import Mathlib.Tactic.Positivity
import Mathlib.Tactic.FieldSimp
/-! # Lemmas for C59 -/
namespace Tandem.SimplexDistance
open Combinatorics Curvilinear Matrix Spec

noncomputable section
variable {D V : ℕ}

theorem dot_sub (a b c : Fin D → ℝ) : dot a (b - c) = dot a b - dot a c := by
  simp [dot, mul_sub, Finset.sum_sub_distrib]

theorem dot_sum {ι : Type} [Fintype ι] (a : Fin D → ℝ) (mu : ι → ℝ) (w : ι → Fin D → ℝ) :
    dot a (fun d => ∑ i, mu i * w i d) = ∑ i, mu i * dot a (w i) := by
  simp only [dot, Finset.mul_sum]
  rw [Finset.sum_comm]
  exact Finset.sum_congr rfl fun i _ => Finset.sum_congr rfl fun d _ => by ring

theorem dot_self_zero (a : Fin D → ℝ) (h : dot a a = 0) : a = 0 := by
  by_contra hne
  exact absurd h (dot_self_pos a hne).ne'

theorem foldl_add {β : Type} (l : List β) (f : β → ℝ) (x : ℝ) :
    l.foldl (fun x j => x + f j) x = x + (l.map f).sum := by
  induction l generalizing x with
  | nil => simp
  | cons b l ih => simp [ih, add_assoc]

theorem combine_eq (v : Fin V → Fin D → ℝ) (DD : ℕ) (is : Fin (DD + 1) → ℕ)
    (lambda : Fin (DD + 1) → ℝ) :
    combine v DD is lambda = fun d => ∑ j, lambda j * vert v (is j) d := by
  funext d
  rw [combine, foldl_add (f := fun j => lambda j * vert v (is j) d), zero_add, Fin.sum_univ_def]

/-- A family of vertices that is linearly independent in the affine sense gives regular solver
matrices. -/
theorem solver_regular (v : Fin V → Fin D → ℝ) (hv : AffineIndependent ℝ v) (DD : ℕ)
    (is : Fin (DD + 1) → ℕ) (hlt : ∀ j, is j < V) (hinj : Function.Injective is) :
    IsUnit (solverMatrix v DD is).det := by
  rw [← Matrix.isUnit_iff_isUnit_det, ← Matrix.mulVec_injective_iff_isUnit]
  have hind : AffineIndependent ℝ (fun j => vert v (is j)) := by
    have he : (fun j => vert v (is j)) = v ∘ (fun j => (⟨is j, hlt j⟩ : Fin V)) := by
      funext j; simp [vert, hlt]
    rw [he]
    exact hv.comp_embedding ⟨fun j => ⟨is j, hlt j⟩, fun a b h => hinj (by simpa using h)⟩
  have key : ∀ mu : Fin (DD + 1) → ℝ, solverMatrix v DD is *ᵥ mu = 0 → mu = 0 := by
    intro mu hmu
    have hsum : ∑ j, mu j = 0 := by
      have := congrFun hmu (Fin.last DD)
      simpa [solverMatrix, Matrix.mulVec, dotProduct] using this
    set w : Fin D → ℝ := fun d => ∑ j, mu j * vert v (is j) d with hw
    have hrow : ∀ j, dot (vert v (is j)) w = dot (vert v (is 0)) w := by
      intro j
      induction j using Fin.cases with
      | zero => rfl
      | succ i =>
        have := congrFun hmu i.castSucc
        simp only [solverMatrix, Matrix.mulVec, dotProduct, Matrix.of_apply, Fin.val_castSucc, i.isLt,
          dif_pos, Pi.zero_apply, sub_mul, Finset.sum_sub_distrib] at this
        rw [hw, dot_sum, dot_sum]
        have hs : (⟨(i : ℕ) + 1, by omega⟩ : Fin (DD + 1)) = i.succ := rfl
        rw [hs] at this
        simp only [mul_comm (dot _ _)] at this
        linarith
    have hww : dot w w = 0 := by
      have : dot w w = ∑ j, mu j * dot w (vert v (is j)) := by
        conv_lhs => rw [hw]
        rw [← dot_sum]
      rw [this]
      simp only [Curvilinear.dot_comm w, hrow]
      rw [← Finset.sum_mul, hsum, zero_mul]
    have hw0 := dot_self_zero w hww
    rw [affineIndependent_iff] at hind
    funext j
    refine hind Finset.univ mu hsum ?_ j (Finset.mem_univ _)
    funext d
    have := congrFun hw0 d
    simpa [hw, Finset.sum_apply] using this
  intro a b hab
  have := key (a - b) (by rw [Matrix.mulVec_sub, sub_eq_zero]; exact hab)
  exact sub_eq_zero.mp this

theorem solve_eq (v : Fin V → Fin D → ℝ) (p : Fin D → ℝ) (hv : AffineIndependent ℝ v) (DD : ℕ)
    (is : Fin (DD + 1) → ℕ) (hlt : ∀ j, is j < V) (hinj : Function.Injective is)
    (mu : Fin (DD + 1) → ℝ) :
    solve v p DD is = mu ↔ solverMatrix v DD is *ᵥ mu = solverRhs v p DD is := by
  have hu := solver_regular v hv DD is hlt hinj
  constructor
  · rintro rfl
    rw [solve, Matrix.mulVec_mulVec, Matrix.mul_nonsing_inv _ hu, Matrix.one_mulVec]
  · intro h
    rw [solve, ← h, Matrix.mulVec_mulVec, Matrix.nonsing_inv_mul _ hu, Matrix.one_mulVec]

/-- The solution of a solver has coordinates with sum one. -/
theorem solve_sum (v : Fin V → Fin D → ℝ) (p : Fin D → ℝ) (hv : AffineIndependent ℝ v) (DD : ℕ)
    (is : Fin (DD + 1) → ℕ) (hlt : ∀ j, is j < V) (hinj : Function.Injective is) :
    ∑ j, solve v p DD is j = 1 := by
  have := congrFun ((solve_eq v p hv DD is hlt hinj _).mp rfl) (Fin.last DD)
  simpa [solverMatrix, solverRhs, Matrix.mulVec, dotProduct] using this

theorem foldl_update (DD : ℕ) (is : Fin (DD + 1) → Fin V) (hinj : Function.Injective is)
    (lambda : Fin (DD + 1) → ℝ) (l : List (Fin (DD + 1))) (hl : l.Nodup) (b : Fin V → ℝ) (i : Fin V) :
    l.foldl (fun b j => Function.update b (is j) (lambda j)) b i
      = if i ∈ l.map is then ∑ j, (if is j = i then lambda j else 0) else b i := by
  induction l generalizing b with
  | nil => simp
  | cons x l ih =>
    rw [List.nodup_cons] at hl
    rw [List.foldl_cons, ih hl.2]
    by_cases h1 : i ∈ l.map is
    · rw [if_pos h1, if_pos (by simp only [List.map_cons, List.mem_cons]; exact Or.inr h1)]
    · rw [if_neg h1]
      by_cases h2 : i = is x
      · subst h2
        rw [if_pos (by simp), Function.update_self]
        rw [Finset.sum_eq_single x]
        · simp
        · intro j _ hj; rw [if_neg (fun h => hj (hinj h))]
        · simp
      · rw [Function.update_of_ne h2, if_neg]
        simp only [List.map_cons, List.mem_cons, not_or]
        exact ⟨h2, h1⟩

theorem scatter_eq (DD : ℕ) (is : Fin (DD + 1) → ℕ) (hlt : ∀ j, is j < V)
    (hinj : Function.Injective is) (lambda : Fin (DD + 1) → ℝ) (i : Fin V) :
    (scatter DD is lambda : Fin V → ℝ) i = ∑ j, (if is j = i then lambda j else 0) := by
  have hf : (fun (b : Fin V → ℝ) j => if h : is j < V then Function.update b ⟨is j, h⟩ (lambda j) else b)
      = fun b j => Function.update b (⟨is j, hlt j⟩ : Fin V) (lambda j) := by
    funext b j; rw [dif_pos (hlt j)]
  have hi : Function.Injective (fun j => (⟨is j, hlt j⟩ : Fin V)) :=
    fun a b h => hinj (by simpa using h)
  rw [scatter, hf, foldl_update DD _ hi lambda _ (List.nodup_finRange _)]
  simp only [List.mem_map, List.mem_finRange, true_and, Fin.ext_iff]
  split
  · rfl
  · rename_i h
    symm
    apply Finset.sum_eq_zero
    intro j _
    rw [if_neg (fun h' => h ⟨j, h'⟩)]

theorem scatter_sum (DD : ℕ) (is : Fin (DD + 1) → ℕ) (hlt : ∀ j, is j < V)
    (hinj : Function.Injective is) (lambda : Fin (DD + 1) → ℝ) (f : Fin V → ℝ) :
    ∑ i, (scatter DD is lambda : Fin V → ℝ) i * f i = ∑ j, lambda j * f ⟨is j, hlt j⟩ := by
  simp only [scatter_eq DD is hlt hinj, Finset.sum_mul]
  rw [Finset.sum_comm]
  refine Finset.sum_congr rfl fun j _ => ?_
  rw [Finset.sum_eq_single (⟨is j, hlt j⟩ : Fin V)]
  · simp
  · intro i _ hi
    rw [if_neg (fun h => hi (Fin.ext h.symm)), zero_mul]
  · simp

/-- A tuple of `Choose` as a function is injective with values below `V`. -/
theorem isOf_spec (DD : ℕ) (c : List ℕ) (hc : IsSubset V (DD + 1) c) :
    (∀ j, isOf DD c j < V) ∧ Function.Injective (isOf DD c) := by
  obtain ⟨h1, h2, h3⟩ := hc
  have hg : ∀ j : Fin (DD + 1), isOf DD c j = c[(j : ℕ)]'(by omega) := by
    intro j
    rw [isOf, List.getD_eq_getElem?_getD, List.getElem?_eq_getElem (by omega), Option.getD_some]
  refine ⟨fun j => ?_, fun a b hab => ?_⟩
  · rw [hg]; exact h3 _ (List.getElem_mem _)
  · rw [hg, hg] at hab
    exact Fin.ext ((List.Nodup.getElem_inj_iff (h2.imp (fun h => Nat.ne_of_lt h))).mp hab)

theorem solvers_spec (V DD : ℕ) (h : DD < V) :
    ∃ cs, solvers V DD = some cs ∧ ∀ c, c ∈ cs ↔ IsSubset V (DD + 1) c := by
  have hch : V.choose (DD + 1) ≤ 2 ^ V + 1 := (Nat.choose_le_two_pow _ _).trans (Nat.le_succ _)
  obtain ⟨cs, h1, h2, _, h4⟩ := C05_choose_enumerates V (DD + 1) h (2 ^ V) hch
  exact ⟨cs, by simp [solvers, h1, h4], h2.2⟩

end
end Tandem.SimplexDistance
