import Verif.Model.EigDeflate
import Verif.Spec.EigDeflate
import Mathlib.LinearAlgebra.Dimension.Constructions
import Mathlib.LinearAlgebra.Dimension.OrzechProperty
import Mathlib.LinearAlgebra.FiniteDimensional.Lemmas
import Mathlib.LinearAlgebra.Matrix.DotProduct
import Mathlib.Tactic.Ring
import Mathlib.Tactic.Linarith
import Mathlib.Tactic.FieldSimp
import Mathlib.Tactic.Positivity
/-! # Gram-Schmidt, symmetrisation, reversal -/
namespace Tandem.EigDeflate
open Matrix Spec

variable {M n : ℕ}

theorem vdot_eq (x y : Fin M → ℝ) : vdot x y = x ⬝ᵥ y := rfl

/-! ### Modified Gram-Schmidt -/

theorem step_self (X : Cols M n) (j : Fin n) : mgsStep X j j = (1 / Real.sqrt (vdot (X j) (X j))) • X j := by
  simp [mgsStep]

theorem step_lt (X : Cols M n) (j k : Fin n) (h : k < j) : mgsStep X j k = X k := by
  simp [mgsStep, h.ne, not_lt_of_gt h]

theorem step_gt (X : Cols M n) (j k : Fin n) (h : j < k) :
    mgsStep X j k = X k - (mgsStep X j j ⬝ᵥ X k) • mgsStep X j j := by
  rw [step_self]
  simp only [mgsStep, if_neg h.ne', if_pos h]
  rw [vdot_eq, vdot_eq, neg_smul, sub_eq_add_neg]

theorem self_pos (v : Fin M → ℝ) (h : v ≠ 0) : 0 < v ⬝ᵥ v := by
  have h0 : 0 ≤ v ⬝ᵥ v := Finset.sum_nonneg fun i _ => mul_self_nonneg (v i)
  rcases h0.lt_or_eq with h' | h'
  · exact h'
  · exact absurd (dotProduct_self_eq_zero.1 h'.symm) h

theorem step_span (X : Cols M n) (j : Fin n) (hj : X j ≠ 0) (l : Fin n) :
    Submodule.span ℝ (mgsStep X j '' Set.Iic l) = Submodule.span ℝ (X '' Set.Iic l) := by
  have hs : 0 < Real.sqrt (vdot (X j) (X j)) := Real.sqrt_pos.2 (self_pos _ hj)
  apply le_antisymm
  · rw [Submodule.span_le]
    rintro _ ⟨k, hk, rfl⟩
    have mem : ∀ i ≤ l, X i ∈ Submodule.span ℝ (X '' Set.Iic l) := fun i hi =>
      Submodule.subset_span ⟨i, hi, rfl⟩
    rcases lt_trichotomy k j with h | h | h
    · rw [step_lt _ _ _ h]; exact mem k hk
    · subst h; rw [step_self]; exact Submodule.smul_mem _ _ (mem k hk)
    · rw [step_gt _ _ _ h, step_self]
      exact Submodule.sub_mem _ (mem k hk) (Submodule.smul_mem _ _ (Submodule.smul_mem _ _
        (mem j (h.le.trans hk))))
  · rw [Submodule.span_le]
    rintro _ ⟨k, hk, rfl⟩
    have mem : ∀ i ≤ l, mgsStep X j i ∈ Submodule.span ℝ (mgsStep X j '' Set.Iic l) := fun i hi =>
      Submodule.subset_span ⟨i, hi, rfl⟩
    rcases lt_trichotomy k j with h | h | h
    · have := mem k hk; rw [step_lt _ _ _ h] at this; exact this
    · subst h
      have := Submodule.smul_mem _ (Real.sqrt (vdot (X k) (X k))) (mem k hk)
      rw [step_self, smul_smul, mul_one_div, div_self hs.ne', one_smul] at this
      exact this
    · have h1 := Submodule.add_mem _ (mem k hk) (Submodule.smul_mem _ (mgsStep X j j ⬝ᵥ X k)
        (mem j (h.le.trans hk)))
      rw [step_gt _ _ _ h, sub_add_cancel] at h1
      exact h1

theorem span_range_eq (X Y : Cols M n)
    (h : ∀ l, Submodule.span ℝ (X '' Set.Iic l) = Submodule.span ℝ (Y '' Set.Iic l)) :
    Submodule.span ℝ (Set.range X) = Submodule.span ℝ (Set.range Y) := by
  have key : ∀ X Y : Cols M n, (∀ l, Submodule.span ℝ (X '' Set.Iic l) = Submodule.span ℝ (Y '' Set.Iic l)) →
      Submodule.span ℝ (Set.range X) ≤ Submodule.span ℝ (Set.range Y) := by
    intro X Y h
    rw [Submodule.span_le]
    rintro _ ⟨k, rfl⟩
    have h1 : X k ∈ Submodule.span ℝ (X '' Set.Iic k) := Submodule.subset_span ⟨k, Set.mem_Iic.2 le_rfl, rfl⟩
    rw [h k] at h1
    exact Submodule.span_mono (Set.image_subset_range _ _) h1
  exact le_antisymm (key X Y h) (key Y X fun l => (h l).symm)

theorem indep_of_span (X Y : Cols M n) (h : Submodule.span ℝ (Set.range X) = Submodule.span ℝ (Set.range Y))
    (hX : LinearIndependent ℝ X) : LinearIndependent ℝ Y := by
  rw [linearIndependent_iff_card_eq_finrank_span] at hX ⊢
  rw [hX]
  unfold Set.finrank
  rw [h]

/-- The state of Gram-Schmidt before column `m`. -/
structure MgsInv (X0 X : Cols M n) (m : ℕ) : Prop where
  norm : ∀ i j : Fin n, i.val < m → j.val < m → X i ⬝ᵥ X j = if i = j then 1 else 0
  perp : ∀ i j : Fin n, i.val < m → m ≤ j.val → X i ⬝ᵥ X j = 0
  span : ∀ l, Submodule.span ℝ (X '' Set.Iic l) = Submodule.span ℝ (X0 '' Set.Iic l)

theorem inv_step (X0 X : Cols M n) (h0 : LinearIndependent ℝ X0) (j : Fin n) (h : MgsInv X0 X j.val) :
    MgsInv X0 (mgsStep X j) (j.val + 1) := by
  have hind : LinearIndependent ℝ X := indep_of_span _ _ (span_range_eq _ _ fun l => (h.span l).symm) h0
  have hj : X j ≠ 0 := hind.ne_zero j
  have hpos := self_pos _ hj
  have hs : 0 < Real.sqrt (vdot (X j) (X j)) := Real.sqrt_pos.2 hpos
  set q := mgsStep X j j with hq
  have hqq : q ⬝ᵥ q = 1 := by
    rw [hq, step_self, smul_dotProduct, dotProduct_smul, smul_eq_mul, smul_eq_mul]
    have e : Real.sqrt (vdot (X j) (X j)) * Real.sqrt (vdot (X j) (X j)) = X j ⬝ᵥ X j :=
      Real.mul_self_sqrt hpos.le
    rw [← e]
    field_simp
  have hlt : ∀ k : Fin n, k.val < j.val → mgsStep X j k = X k := fun k hk => step_lt X j k hk
  have hiq : ∀ i : Fin n, i.val < j.val → X i ⬝ᵥ q = 0 := by
    intro i hi
    rw [hq, step_self, dotProduct_smul, h.perp i j hi le_rfl, smul_zero]
  refine ⟨fun i k hi hk => ?_, fun i k hi hk => ?_, fun l => ?_⟩
  · rcases Nat.lt_succ_iff_lt_or_eq.1 hi with hi | hi <;> rcases Nat.lt_succ_iff_lt_or_eq.1 hk with hk | hk
    · rw [hlt i hi, hlt k hk]; exact h.norm i k hi hk
    · obtain rfl : k = j := Fin.ext hk
      rw [hlt i hi, ← hq, hiq i hi, if_neg (fun e => by rw [e] at hi; exact lt_irrefl _ hi)]
    · obtain rfl : i = j := Fin.ext hi
      rw [hlt k hk, ← hq, dotProduct_comm, hiq k hk, if_neg (fun e => by rw [← e] at hk; exact lt_irrefl _ hk)]
    · obtain rfl : i = j := Fin.ext hi
      obtain rfl : k = i := Fin.ext hk
      rw [← hq, hqq, if_pos rfl]
  · have hjk : j < k := hk
    rw [step_gt X j k hjk, ← hq]
    rcases Nat.lt_succ_iff_lt_or_eq.1 hi with hi | hi
    · rw [hlt i hi, dotProduct_sub, dotProduct_smul, hiq i hi, h.perp i k hi (by omega), smul_zero, sub_zero]
    · obtain rfl : i = j := Fin.ext hi
      rw [← hq, dotProduct_sub, dotProduct_smul, hqq, smul_eq_mul, mul_one, sub_self]
  · rw [step_span X j hj, h.span l]

theorem foldl_finRange_ind {α : Type*} (f : α → Fin n → α) (P : α → ℕ → Prop) (x : α) (h0 : P x 0)
    (hs : ∀ y (j : Fin n), P y j.val → P (f y j) (j.val + 1)) : P ((List.finRange n).foldl f x) n := by
  have key : ∀ m (hm : m ≤ n), P (((List.finRange n).take m).foldl f x) m := by
    intro m
    induction m with
    | zero => intro _; simpa using h0
    | succ m ih =>
      intro hm
      have hlt : m < (List.finRange n).length := by rw [List.length_finRange]; omega
      rw [List.take_succ_eq_append_getElem hlt, List.foldl_append]
      simp only [List.foldl_cons, List.foldl_nil, List.getElem_finRange]
      exact hs _ ⟨m, by omega⟩ (ih (by omega))
  have := key n le_rfl
  rwa [List.take_of_length_le (by rw [List.length_finRange])] at this

theorem mgs_inv (X : Cols M n) (h : LinearIndependent ℝ X) : MgsInv X (orthonormalize X) n := by
  unfold orthonormalize
  refine foldl_finRange_ind mgsStep (fun Y m => MgsInv X Y m) X ⟨?_, ?_, fun l => rfl⟩ ?_
  · intro i j hi; omega
  · intro i j hi; omega
  · intro Y j hY; exact inv_step X Y h j hY

/-! ### Symmetrisation -/

theorem sym_mem (i j : Fin n) : (i, j) ∈ ((List.finRange n).flatMap fun i =>
    ((List.finRange n).filter fun j => decide (i ≤ j)).map fun j => (i, j)) ↔ i ≤ j := by
  simp only [List.mem_flatMap, List.mem_map, List.mem_filter, List.mem_finRange, true_and,
    decide_eq_true_eq, Prod.mk.injEq]
  constructor
  · rintro ⟨a, b, h, rfl, rfl⟩; exact h
  · intro h; exact ⟨i, j, h, rfl, rfl⟩

theorem symFold (A : Fin n → Fin n → ℝ) (l : List (Fin n × Fin n)) : ∀ B : Fin n → Fin n → ℝ,
    (∀ i j, B i j = A i j ∧ B j i = A j i ∨ B i j = 0.5 * (A i j + A j i) ∧ B j i = 0.5 * (A i j + A j i)) →
    ∀ i j, (l.foldl symStep B i j = A i j ∧ l.foldl symStep B j i = A j i ∧ B i j = A i j ∧ B j i = A j i
        ∧ (i, j) ∉ l ∧ (j, i) ∉ l)
      ∨ l.foldl symStep B i j = 0.5 * (A i j + A j i) := by
  induction l with
  | nil =>
    intro B hB i j
    rcases hB i j with h | h
    · left; exact ⟨h.1, h.2, h.1, h.2, by simp, by simp⟩
    · right; exact h.1
  | cons p l ih =>
    intro B hB i j
    have hstep : ∀ i j, symStep B p i j = if (i = p.1 ∧ j = p.2) ∨ (i = p.2 ∧ j = p.1)
        then 0.5 * (A i j + A j i) else B i j := by
      intro i j
      have hval : 0.5 * (B p.1 p.2 + B p.2 p.1) = 0.5 * (A p.1 p.2 + A p.2 p.1) := by
        rcases hB p.1 p.2 with h | h
        · rw [h.1, h.2]
        · rw [h.1, h.2]; ring
      unfold symStep assign
      simp only [hval]
      by_cases h1 : i = p.2 ∧ j = p.1
      · rw [if_pos h1, if_pos (Or.inr h1), h1.1, h1.2, add_comm]
      · rw [if_neg h1]
        by_cases h2 : i = p.1 ∧ j = p.2
        · rw [if_pos h2, if_pos (Or.inl h2), h2.1, h2.2]
        · rw [if_neg h2, if_neg (by rintro (h | h); exacts [h2 h, h1 h])]
    have hB' : ∀ i j, symStep B p i j = A i j ∧ symStep B p j i = A j i ∨
        symStep B p i j = 0.5 * (A i j + A j i) ∧ symStep B p j i = 0.5 * (A i j + A j i) := by
      intro i j
      rw [hstep i j, hstep j i]
      by_cases h : (i = p.1 ∧ j = p.2) ∨ (i = p.2 ∧ j = p.1)
      · have h' : (j = p.1 ∧ i = p.2) ∨ (j = p.2 ∧ i = p.1) := by
          rcases h with h | h
          · exact Or.inr ⟨h.2, h.1⟩
          · exact Or.inl ⟨h.2, h.1⟩
        rw [if_pos h, if_pos h']
        right
        exact ⟨rfl, by rw [add_comm]⟩
      · have h' : ¬ ((j = p.1 ∧ i = p.2) ∨ (j = p.2 ∧ i = p.1)) := by
          rintro (h' | h')
          · exact h (Or.inr ⟨h'.2, h'.1⟩)
          · exact h (Or.inl ⟨h'.2, h'.1⟩)
        rw [if_neg h, if_neg h']
        exact hB i j
    rw [List.foldl_cons]
    rcases ih _ hB' i j with ⟨a, b, c, d, e, f⟩ | h
    · by_cases hp : (i = p.1 ∧ j = p.2) ∨ (i = p.2 ∧ j = p.1)
      · right
        rw [hstep i j, if_pos hp] at c
        rw [a, c]
      · have hp' : ¬ ((j = p.1 ∧ i = p.2) ∨ (j = p.2 ∧ i = p.1)) := by
          rintro (h' | h')
          · exact hp (Or.inr ⟨h'.2, h'.1⟩)
          · exact hp (Or.inl ⟨h'.2, h'.1⟩)
        left
        rw [hstep i j, if_neg hp] at c
        rw [hstep j i, if_neg hp'] at d
        refine ⟨a, b, c, d, ?_, ?_⟩
        · rw [List.mem_cons, not_or]
          exact ⟨fun h => hp (Or.inl ⟨congrArg Prod.fst h, congrArg Prod.snd h⟩), e⟩
        · rw [List.mem_cons, not_or]
          exact ⟨fun h => hp' (Or.inl ⟨congrArg Prod.fst h, congrArg Prod.snd h⟩), f⟩
    · right; exact h

theorem symmetrize_eq (A : Fin n → Fin n → ℝ) (i j : Fin n) :
    symmetrize A i j = 0.5 * (A i j + A j i) := by
  rcases symFold A _ A (fun i j => Or.inl ⟨rfl, rfl⟩) i j with ⟨_, _, _, _, h1, h2⟩ | h
  · exfalso
    rw [sym_mem] at h1 h2
    omega
  · exact h

/-! ### Reversal -/

theorem swap_fold {α : Type} (f : Fin n → α) (l : List (Fin n)) : ∀ g : Fin n → α, l.Nodup →
    (∀ i ∈ l, i.val < n / 2) →
    l.foldl swapStep g = fun j => if j ∈ l ∨ j.rev ∈ l then g j.rev else g j := by
  induction l with
  | nil => intro g _ _; simp
  | cons i l ih =>
    intro g hnd hl
    rw [List.nodup_cons] at hnd
    rw [List.foldl_cons, ih _ hnd.2 fun k hk => hl k (List.mem_cons_of_mem _ hk)]
    have hi : i.val < n / 2 := hl i List.mem_cons_self
    funext j
    have hrev : ∀ k ∈ l, k ≠ i.rev := by
      intro k hk h
      have := hl k (List.mem_cons_of_mem _ hk)
      rw [h, Fin.val_rev] at this
      omega
    unfold swapStep
    by_cases hj : j ∈ l ∨ j.rev ∈ l
    · have h1 : j ≠ i := by
        rintro rfl
        rcases hj with h | h
        · exact hnd.1 h
        · exact hrev _ h rfl
      have h2 : j ≠ i.rev := by
        rintro rfl
        rcases hj with h | h
        · exact hrev _ h rfl
        · rw [Fin.rev_rev] at h; exact hnd.1 h
      have h1' : j.rev ≠ i := fun h => h2 (by rw [← h, Fin.rev_rev])
      have h2' : j.rev ≠ i.rev := fun h => h1 (Fin.rev_injective h)
      rw [if_pos hj, if_neg h1', if_neg h2', if_pos]
      rcases hj with h | h
      · exact Or.inl (List.mem_cons_of_mem _ h)
      · exact Or.inr (List.mem_cons_of_mem _ h)
    · rw [if_neg hj]
      by_cases h1 : j = i
      · subst h1
        rw [if_pos rfl, if_pos (Or.inl List.mem_cons_self)]
      · rw [if_neg h1]
        by_cases h2 : j = i.rev
        · subst h2
          rw [if_pos rfl, if_pos (Or.inr (by rw [Fin.rev_rev]; exact List.mem_cons_self)), Fin.rev_rev]
        · rw [if_neg h2, if_neg]
          rw [List.mem_cons, List.mem_cons]
          rintro ((h | h) | (h | h))
          · exact h1 h
          · exact hj (Or.inl h)
          · exact h2 (by rw [← h, Fin.rev_rev])
          · exact hj (Or.inr h)

theorem reverse_eq {α : Type} (f : Fin n → α) (j : Fin n) : reverse f j = f j.rev := by
  unfold reverse
  rw [swap_fold f _ f ((List.nodup_finRange n).filter _) (by
    intro i hi
    simpa using (List.mem_filter.1 hi).2)]
  simp only [List.mem_filter, List.mem_finRange, true_and, decide_eq_true_eq, Fin.val_rev]
  split
  · rfl
  · rename_i h
    have : j.rev = j := by
      apply Fin.ext
      rw [Fin.val_rev]
      have := j.2
      omega
    rw [this]

end Tandem.EigDeflate
