import Verif.Model.Equidistant
import Mathlib.Algebra.Order.Antidiag.Pi
import Mathlib.Algebra.Order.Antidiag.FinsuppEquiv
import Mathlib.Algebra.BigOperators.Ring.Finset
import Mathlib.Algebra.BigOperators.Field
import Mathlib.Algebra.Order.BigOperators.Group.Finset
import Mathlib.Algebra.BigOperators.GroupWithZero.Action
import Mathlib.Algebra.Module.BigOperators
import Mathlib.Tactic.Positivity
import Mathlib.Tactic.Ring
import Mathlib.Tactic.FieldSimp
import Mathlib.Tactic.FinCases
import Mathlib.Tactic.LinearCombination
/-! # Equidistant nodes: the lattice behind the lists -/
namespace Tandem.Equidistant
open Finset

variable {D : ℕ}

/-- The point with barycentric coordinates `α / n`. -/
noncomputable def point {k : ℕ} (n : ℕ) (α : Fin (k + 1) → ℕ) (v : Fin (k + 1) → Fin D → ℝ) :
    Fin D → ℝ :=
  if n = 0 then v 0 else ∑ j, ((α j : ℝ) / n) • v j

/-- Indices of the interior nodes of an edge. -/
def edgeIdx {k : ℕ} (n : ℕ) (i j : Fin (k + 1)) : List (Fin (k + 1) → ℕ) :=
  (List.range' 1 (n - 1)).map fun m l => if l = i then n - m else if l = j then m else 0

theorem mem_edgeIdx {k : ℕ} (n : ℕ) (i j : Fin (k + 1)) (hij : i ≠ j) (α : Fin (k + 1) → ℕ) :
    α ∈ edgeIdx n i j ↔ (0 < α i ∧ 0 < α j ∧ α i + α j = n ∧ ∀ l, l ≠ i → l ≠ j → α l = 0) := by
  unfold edgeIdx
  simp only [List.mem_map, List.mem_range'_1]
  constructor
  · rintro ⟨m, hm, rfl⟩
    have : j ≠ i := fun e => hij e.symm
    simp only [if_true, if_neg this]
    refine ⟨by omega, by omega, by omega, fun l h1 h2 => ?_⟩
    rw [if_neg h1, if_neg h2]
  · rintro ⟨h1, h2, h3, h4⟩
    refine ⟨α j, by omega, ?_⟩
    funext l
    split
    · rename_i h; subst h; omega
    · rename_i h
      split
      · rename_i h'; subst h'; rfl
      · rename_i h'; rw [h4 l h h']

theorem sum_two {k : ℕ} {M : Type*} [AddCommMonoid M] (i j : Fin (k + 1)) (hij : i ≠ j)
    (g : Fin (k + 1) → M) (h : ∀ l, l ≠ i → l ≠ j → g l = 0) : ∑ l, g l = g i + g j := by
  rw [← Finset.sum_subset (Finset.subset_univ {i, j}), Finset.sum_pair hij]
  intro l _ hl
  simp only [Finset.mem_insert, Finset.mem_singleton, not_or] at hl
  exact h l hl.1 hl.2

theorem edge_eq {k : ℕ} (n : ℕ) (hn : 0 < n) (i j : Fin (k + 1)) (hij : i ≠ j)
    (v : Fin (k + 1) → Fin D → ℝ) :
    edge (n - 1) (v i) (v j) = (edgeIdx n i j).map fun α => point n α v := by
  unfold edge edgeIdx
  rw [List.map_map]
  refine List.map_congr_left fun m hm => ?_
  rw [List.mem_range'_1] at hm
  have hn' : (n : ℝ) ≠ 0 := by positivity
  have hji : j ≠ i := fun e => hij e.symm
  simp only [Function.comp, point, if_neg (by omega : ¬ n = 0)]
  rw [sum_two i j hij _ fun l h1 h2 => by rw [if_neg h1, if_neg h2]; simp]
  rw [if_pos rfl, if_neg hji, if_pos rfl]
  have e1 : ((n - 1 : ℕ) : ℝ) + 1 = n := by
    rw [Nat.cast_sub (by omega)]; ring
  rw [e1, Nat.cast_sub (by omega)]
  congr 2
  · field_simp
  · field_simp

/-- The inner simplex: its nodes are the nodes of the outer one with all coordinates positive. -/
theorem point_shrink {k : ℕ} (n : ℕ) (hn : k + 1 ≤ n) (β : Fin (k + 1) → ℕ)
    (hβ : ∑ j, β j = n - (k + 1)) (v : Fin (k + 1) → Fin D → ℝ) :
    point (n - (k + 1)) β (shrinkAndShift (1 / n) v) = point n (fun j => β j + 1) v := by
  have hn' : (n : ℝ) ≠ 0 := by
    have : 0 < n := by omega
    positivity
  unfold point shrinkAndShift
  rw [if_neg (by omega : ¬ n = 0)]
  split
  · rename_i h0
    have hk : n = k + 1 := by omega
    have hz : ∀ j, β j = 0 := by
      intro j
      have := Finset.single_le_sum (f := β) (fun i _ => Nat.zero_le _) (Finset.mem_univ j)
      omega
    refine Finset.sum_congr rfl fun j _ => ?_
    congr 1
    simp only [hz j]
    have hk' : (n : ℝ) = k + 1 := by rw [hk]; push_cast; ring
    split
    · field_simp; rw [hk']; push_cast; ring
    · push_cast; ring
  · rename_i h0
    have hb : (∑ j, (β j : ℝ)) = ((n - (k + 1) : ℕ) : ℝ) := by rw [← hβ]; push_cast; rfl
    have hm : ((n - (k + 1) : ℕ) : ℝ) ≠ 0 := by
      have : 0 < n - (k + 1) := by omega
      positivity
    have hm' : ((n - (k + 1) : ℕ) : ℝ) = n - (k + 1) := by rw [Nat.cast_sub hn]; push_cast; ring
    simp only [Finset.smul_sum, smul_smul]
    rw [Finset.sum_comm]
    refine Finset.sum_congr rfl fun j _ => ?_
    rw [← Finset.sum_smul]
    congr 1
    have : ∀ i, (β i : ℝ) / ((n - (k + 1) : ℕ) : ℝ) * (if i = j then 1 - k * (1 / (n : ℝ)) else 1 / n)
        = (β i : ℝ) / ((n - (k + 1) : ℕ) : ℝ) * (1 / n)
          + (if i = j then (β i : ℝ) / ((n - (k + 1) : ℕ) : ℝ) * (1 - (k + 1) * (1 / (n : ℝ))) else 0) := by
      intro i
      split
      · ring
      · ring
    rw [Finset.sum_congr rfl fun i _ => this i, Finset.sum_add_distrib, ← Finset.sum_mul,
      ← Finset.sum_div, hb, div_self hm, Finset.sum_ite_eq' Finset.univ j]
    simp only [Finset.mem_univ, if_true]
    rw [hm'] at hm ⊢
    field_simp
    push_cast
    ring

/-! ## The triangle -/

/-- Indices of the nodes of the triangle, in the order of `triangle`. -/
def triIdx (n : ℕ) : List (Fin 3 → ℕ) :=
  ![n, 0, 0] :: (if n = 0 then [] else
    [![0, n, 0], ![0, 0, n]] ++ edgeIdx n 0 1 ++ edgeIdx n 1 2 ++ edgeIdx n 2 0
      ++ (if 3 ≤ n then (triIdx (n - 3)).map (fun β j => β j + 1) else []))
termination_by n

theorem vec3 (α : Fin 3 → ℕ) : α = ![α 0, α 1, α 2] := by
  funext i; fin_cases i <;> rfl

theorem vec4 (α : Fin 4 → ℕ) : α = ![α 0, α 1, α 2, α 3] := by
  funext i; fin_cases i <;> rfl

theorem mem_triIdx (n : ℕ) (α : Fin 3 → ℕ) : α ∈ triIdx n ↔ α 0 + α 1 + α 2 = n := by
  induction n using Nat.strong_induction_on generalizing α with
  | _ n ih =>
  unfold triIdx
  have l3 : ∀ a b c : ℕ, α = ![a, b, c] ↔ (α 0 = a ∧ α 1 = b ∧ α 2 = c) := by
    intro a b c
    constructor
    · rintro rfl; simp
    · rintro ⟨h1, h2, h3⟩; rw [vec3 α, h1, h2, h3]
  rcases Nat.eq_zero_or_pos n with hn | hn
  · subst hn
    simp only [if_true, List.mem_cons, List.not_mem_nil, or_false, l3]
    omega
  · have hin : (α ∈ (if 3 ≤ n then (triIdx (n - 3)).map (fun β j => β j + 1) else []))
        ↔ (0 < α 0 ∧ 0 < α 1 ∧ 0 < α 2 ∧ α 0 + α 1 + α 2 = n) := by
      split
      · rw [List.mem_map]
        constructor
        · rintro ⟨β, hβ, rfl⟩
          rw [ih (n - 3) (by omega)] at hβ
          simp only
          omega
        · rintro ⟨h0, h1, h2, hs⟩
          refine ⟨fun j => α j - 1, (ih (n - 3) (by omega) _).2 (by omega), ?_⟩
          funext j
          fin_cases j <;> simp <;> omega
      · constructor
        · intro h; cases h
        · intro h; omega
    simp only [if_neg (by omega : ¬ n = 0), List.mem_cons, List.mem_append, List.not_mem_nil, or_false,
      hin, mem_edgeIdx n (0 : Fin 3) 1 (by decide), mem_edgeIdx n (1 : Fin 3) 2 (by decide),
      mem_edgeIdx n (2 : Fin 3) 0 (by decide), l3]
    simp only [Fin.forall_fin_succ, Fin.succ_zero_eq_one, IsEmpty.forall_iff, and_true, ne_eq,
      not_true, false_implies, true_implies, implies_true]
    simp
    omega

theorem length_edgeIdx {k : ℕ} (n : ℕ) (i j : Fin (k + 1)) : (edgeIdx n i j).length = n - 1 := by
  simp [edgeIdx]

theorem length_triIdx (n : ℕ) : 2 * (triIdx n).length = (n + 1) * (n + 2) := by
  induction n using Nat.strong_induction_on with
  | _ n ih =>
  unfold triIdx
  rcases Nat.eq_zero_or_pos n with hn | hn
  · subst hn; simp
  · rw [if_neg (by omega)]
    simp only [List.length_cons, List.length_append, length_edgeIdx, List.length_nil]
    split
    · rename_i h3
      have := ih (n - 3) (by omega)
      obtain ⟨m, rfl⟩ : ∃ m, n = m + 3 := ⟨n - 3, by omega⟩
      simp only [Nat.add_sub_cancel, List.length_map] at this ⊢
      rw [show m + 3 - 1 = m + 2 by omega]
      have e : (m + 3 + 1) * (m + 3 + 2) = (m + 1) * (m + 2) + 6 * m + 18 := by ring
      omega
    · have : n = 1 ∨ n = 2 := by omega
      rcases this with rfl | rfl <;> simp

theorem triangle_eq (n : ℕ) (v : Fin 3 → Fin D → ℝ) :
    triangle n v = (triIdx n).map fun α => point n α v := by
  induction n using Nat.strong_induction_on generalizing v with
  | _ n ih =>
  unfold triangle triIdx
  rcases Nat.eq_zero_or_pos n with hn | hn
  · subst hn; simp [point]
  · have hn0 : ¬ n = 0 := by omega
    have hn' : (n : ℝ) ≠ 0 := by positivity
    rw [if_neg hn0, if_neg hn0]
    simp only [List.map_cons, List.map_append]
    rw [edge_eq n hn 0 1 (by decide), edge_eq n hn 1 2 (by decide), edge_eq n hn 2 0 (by decide)]
    have p0 : v 0 = point n ![n, 0, 0] v := by
      simp [point, hn0, Fin.sum_univ_three, div_self hn']
    have p1 : v 1 = point n ![0, n, 0] v := by
      simp [point, hn0, Fin.sum_univ_three, div_self hn']
    have p2 : v 2 = point n ![0, 0, n] v := by
      simp [point, hn0, Fin.sum_univ_three, div_self hn']
    rw [← p0, ← p1, ← p2]
    congr 2
    split
    · rename_i h3
      rw [ih (n - 3) (by omega), List.map_map]
      refine List.map_congr_left fun β hβ => ?_
      rw [mem_triIdx] at hβ
      exact point_shrink n h3 β (by rw [Fin.sum_univ_three]; omega) v
    · rfl

/-! ## The tetrahedron -/

/-- Indices of the interior nodes of the face `f`. -/
def faceIdx (n : ℕ) (f : Fin 4 × Fin 4 × Fin 4) : List (Fin 4 → ℕ) :=
  (triIdx (n - 3)).map fun β l =>
    if l = f.1 then β 0 + 1 else if l = f.2.1 then β 1 + 1 else if l = f.2.2 then β 2 + 1 else 0

/-- Indices of the nodes of the tetrahedron, in the order of `tet`. -/
def tetIdx (conv : Convention) (n : ℕ) : List (Fin 4 → ℕ) :=
  ![n, 0, 0, 0] :: (if n = 0 then [] else
    [![0, n, 0, 0], ![0, 0, n, 0], ![0, 0, 0, n]]
      ++ (tetEdges conv).flatMap (fun e => edgeIdx n e.1 e.2)
      ++ (if 3 ≤ n then (tetFaces conv).flatMap (fun f => faceIdx n f) else [])
      ++ (if 4 ≤ n then (tetIdx conv (n - 4)).map (fun β j => β j + 1) else []))
termination_by n

theorem mem_faceIdx (n : ℕ) (hn : 3 ≤ n) (f : Fin 4 × Fin 4 × Fin 4) (h1 : f.1 ≠ f.2.1)
    (h2 : f.1 ≠ f.2.2) (h3 : f.2.1 ≠ f.2.2) (α : Fin 4 → ℕ) :
    α ∈ faceIdx n f ↔ (0 < α f.1 ∧ 0 < α f.2.1 ∧ 0 < α f.2.2 ∧ α f.1 + α f.2.1 + α f.2.2 = n ∧
      ∀ l, l ≠ f.1 → l ≠ f.2.1 → l ≠ f.2.2 → α l = 0) := by
  unfold faceIdx
  rw [List.mem_map]
  constructor
  · rintro ⟨β, hβ, rfl⟩
    rw [mem_triIdx] at hβ
    simp only [if_true, if_neg h1.symm, if_neg h2.symm, if_neg h3.symm]
    refine ⟨by omega, by omega, by omega, by omega, fun l a b c => ?_⟩
    rw [if_neg a, if_neg b, if_neg c]
  · rintro ⟨a, b, c, hs, hz⟩
    refine ⟨![α f.1 - 1, α f.2.1 - 1, α f.2.2 - 1], (mem_triIdx _ _).2 (by simp; omega), ?_⟩
    funext l
    simp only [Matrix.cons_val_zero, Matrix.cons_val_one, Matrix.cons_val]
    split
    · rename_i h; subst h; omega
    · split
      · rename_i h; subst h; omega
      · split
        · rename_i h; subst h; omega
        · rename_i u w x; rw [hz l u w x]

/-- Case distinction on which of four naturals vanish. -/
macro "cases4" α:term : tactic => `(tactic| (
  simp only [Nat.pos_iff_ne_zero]
  by_cases h0 : $α 0 = 0 <;> by_cases h1 : $α 1 = 0 <;> by_cases h2 : $α 2 = 0 <;>
    by_cases h3' : $α 3 = 0 <;> first
    | (simp [h0, h1, h2, h3']; done)
    | (simp [h0, h1, h2, h3']; omega)))

theorem mem_tetIdx (conv : Convention) (n : ℕ) (α : Fin 4 → ℕ) :
    α ∈ tetIdx conv n ↔ α 0 + α 1 + α 2 + α 3 = n := by
  induction n using Nat.strong_induction_on generalizing α with
  | _ n ih =>
  unfold tetIdx
  have l4 : ∀ a b c d : ℕ, α = ![a, b, c, d] ↔ (α 0 = a ∧ α 1 = b ∧ α 2 = c ∧ α 3 = d) := by
    intro a b c d
    constructor
    · rintro rfl; simp
    · rintro ⟨h1, h2, h3, h4⟩; rw [vec4 α, h1, h2, h3, h4]
  rcases Nat.eq_zero_or_pos n with hn | hn
  · subst hn
    simp only [if_true, List.mem_cons, List.not_mem_nil, or_false, l4]
    omega
  · have hin : (α ∈ (if 4 ≤ n then (tetIdx conv (n - 4)).map (fun β j => β j + 1) else []))
        ↔ (0 < α 0 ∧ 0 < α 1 ∧ 0 < α 2 ∧ 0 < α 3 ∧ α 0 + α 1 + α 2 + α 3 = n) := by
      split
      · rw [List.mem_map]
        constructor
        · rintro ⟨β, hβ, rfl⟩
          rw [ih (n - 4) (by omega)] at hβ
          simp only
          omega
        · rintro ⟨h0, h1, h2, h3, hs⟩
          refine ⟨fun j => α j - 1, (ih (n - 4) (by omega) _).2 (by omega), ?_⟩
          funext j
          fin_cases j <;> simp <;> omega
      · constructor
        · intro h; cases h
        · intro h; omega
    have hfc : (α ∈ (if 3 ≤ n then (tetFaces conv).flatMap (fun f => faceIdx n f) else []))
        ↔ (α 0 + α 1 + α 2 + α 3 = n ∧
          ((0 < α 0 ∧ 0 < α 1 ∧ 0 < α 2 ∧ α 3 = 0) ∨ (0 < α 0 ∧ 0 < α 1 ∧ 0 < α 3 ∧ α 2 = 0) ∨
            (0 < α 0 ∧ 0 < α 2 ∧ 0 < α 3 ∧ α 1 = 0) ∨ (0 < α 1 ∧ 0 < α 2 ∧ 0 < α 3 ∧ α 0 = 0))) := by
      split
      · rename_i h3
        cases conv <;>
        · simp only [tetFaces, List.flatMap_cons, List.flatMap_nil, List.mem_append,
            List.not_mem_nil, or_false]
          rw [mem_faceIdx n h3 _ (by decide) (by decide) (by decide),
            mem_faceIdx n h3 _ (by decide) (by decide) (by decide),
            mem_faceIdx n h3 _ (by decide) (by decide) (by decide),
            mem_faceIdx n h3 _ (by decide) (by decide) (by decide)]
          simp only [Fin.forall_fin_succ]
          cases4 α
      · constructor
        · intro h; cases h
        · intro h; omega
    have hed : (α ∈ (tetEdges conv).flatMap (fun e => edgeIdx n e.1 e.2))
        ↔ (α 0 + α 1 + α 2 + α 3 = n ∧
          ((0 < α 0 ∧ 0 < α 1 ∧ α 2 = 0 ∧ α 3 = 0) ∨ (0 < α 0 ∧ 0 < α 2 ∧ α 1 = 0 ∧ α 3 = 0) ∨
            (0 < α 0 ∧ 0 < α 3 ∧ α 1 = 0 ∧ α 2 = 0) ∨ (0 < α 1 ∧ 0 < α 2 ∧ α 0 = 0 ∧ α 3 = 0) ∨
            (0 < α 1 ∧ 0 < α 3 ∧ α 0 = 0 ∧ α 2 = 0) ∨ (0 < α 2 ∧ 0 < α 3 ∧ α 0 = 0 ∧ α 1 = 0))) := by
      cases conv <;>
      · simp only [tetEdges, List.flatMap_cons, List.flatMap_nil, List.mem_append,
          List.not_mem_nil, or_false]
        rw [mem_edgeIdx n _ _ (by decide), mem_edgeIdx n _ _ (by decide),
          mem_edgeIdx n _ _ (by decide), mem_edgeIdx n _ _ (by decide),
          mem_edgeIdx n _ _ (by decide), mem_edgeIdx n _ _ (by decide)]
        simp only [Fin.forall_fin_succ]
        cases4 α
    simp only [if_neg (by omega : ¬ n = 0), List.mem_cons, List.mem_append, List.not_mem_nil, or_false,
      hin, hfc, hed, l4]
    clear hin hfc hed l4
    cases4 α

theorem length_tetIdx (conv : Convention) (n : ℕ) :
    6 * (tetIdx conv n).length = (n + 1) * (n + 2) * (n + 3) := by
  induction n using Nat.strong_induction_on with
  | _ n ih =>
  unfold tetIdx
  rcases Nat.eq_zero_or_pos n with hn | hn
  · subst hn; simp
  · rw [if_neg (by omega)]
    have hed : ((tetEdges conv).flatMap (fun e => edgeIdx n e.1 e.2)).length = 6 * (n - 1) := by
      cases conv <;> simp [tetEdges, length_edgeIdx] <;> omega
    have hfc : ((tetFaces conv).flatMap (fun f => faceIdx n f)).length
        = 4 * (triIdx (n - 3)).length := by
      cases conv <;> simp [tetFaces, faceIdx] <;> omega
    have ht := length_triIdx (n - 3)
    simp only [List.length_cons, List.length_append, hed, List.length_nil]
    split
    · rename_i h3
      rw [hfc]
      split
      · rename_i h4
        have := ih (n - 4) (by omega)
        obtain ⟨m, rfl⟩ : ∃ m, n = m + 4 := ⟨n - 4, by omega⟩
        simp only [Nat.add_sub_cancel, List.length_map] at this ⊢
        rw [show m + 4 - 3 = m + 1 by omega] at ht ⊢
        rw [show m + 4 - 1 = m + 3 by omega]
        have e : (m + 4 + 1) * (m + 4 + 2) * (m + 4 + 3)
            = (m + 1) * (m + 2) * (m + 3) + 12 * ((m + 1 + 1) * (m + 1 + 2)) + 36 * (m + 3) + 24 := by
          ring
        omega
      · have : n = 3 := by omega
        subst this
        simp at ht ⊢
        omega
    · rw [if_neg (by omega)]
      have : n = 1 ∨ n = 2 := by omega
      rcases this with rfl | rfl <;> simp

theorem face_eq (n : ℕ) (hn : 3 ≤ n) (f : Fin 4 × Fin 4 × Fin 4) (h1 : f.1 ≠ f.2.1)
    (h2 : f.1 ≠ f.2.2) (h3 : f.2.1 ≠ f.2.2) (v : Fin 4 → Fin D → ℝ) :
    triangle (n - 3) (shrinkAndShift (1 / n) ![v f.1, v f.2.1, v f.2.2])
      = (faceIdx n f).map fun α => point n α v := by
  unfold faceIdx
  rw [triangle_eq, List.map_map]
  refine List.map_congr_left fun β hβ => ?_
  rw [mem_triIdx] at hβ
  have := point_shrink (k := 2) n hn β (by rw [Fin.sum_univ_three]; omega) ![v f.1, v f.2.1, v f.2.2]
  refine this.trans ?_
  simp only [Function.comp, point, if_neg (by omega : ¬ n = 0)]
  rw [Fin.sum_univ_three, ← Finset.sum_subset (Finset.subset_univ {f.1, f.2.1, f.2.2})]
  · rw [Finset.sum_insert (by simp [h1, h2]), Finset.sum_insert (by simp [h3]), Finset.sum_singleton]
    simp [h1.symm, h2.symm, h3.symm, add_assoc]
  · intro l _ hl
    simp only [Finset.mem_insert, Finset.mem_singleton, not_or] at hl
    rw [if_neg hl.1, if_neg hl.2.1, if_neg hl.2.2]
    simp

theorem tet_eq (conv : Convention) (n : ℕ) (v : Fin 4 → Fin D → ℝ) :
    tet conv n v = (tetIdx conv n).map fun α => point n α v := by
  induction n using Nat.strong_induction_on generalizing v with
  | _ n ih =>
  unfold tet tetIdx
  rcases Nat.eq_zero_or_pos n with hn | hn
  · subst hn; simp [point]
  · have hn0 : ¬ n = 0 := by omega
    have hn' : (n : ℝ) ≠ 0 := by positivity
    rw [if_neg hn0, if_neg hn0]
    simp only [List.map_cons, List.map_append, List.map_nil, List.map_flatMap]
    have hed : (tetEdges conv).flatMap (fun e => edge (n - 1) (v e.1) (v e.2))
        = (tetEdges conv).flatMap (fun e => (edgeIdx n e.1 e.2).map fun α => point n α v) := by
      cases conv <;>
      · simp only [tetEdges, List.flatMap_cons, List.flatMap_nil]
        rw [edge_eq n hn _ _ (by decide), edge_eq n hn _ _ (by decide), edge_eq n hn _ _ (by decide),
          edge_eq n hn _ _ (by decide), edge_eq n hn _ _ (by decide), edge_eq n hn _ _ (by decide)]
    have p0 : v 0 = point n ![n, 0, 0, 0] v := by
      simp [point, hn0, Fin.sum_univ_four, div_self hn']
    have p1 : v 1 = point n ![0, n, 0, 0] v := by
      simp [point, hn0, Fin.sum_univ_four, div_self hn']
    have p2 : v 2 = point n ![0, 0, n, 0] v := by
      simp [point, hn0, Fin.sum_univ_four, div_self hn']
    have p3 : v 3 = point n ![0, 0, 0, n] v := by
      simp [point, hn0, Fin.sum_univ_four, div_self hn']
    rw [← p0, ← p1, ← p2, ← p3, hed]
    congr 2
    · congr 1
      split
      · rename_i h3
        cases conv <;>
        · simp only [tetFaces, List.flatMap_cons, List.flatMap_nil, List.map_append, List.map_nil]
          rw [face_eq n h3 (_, _, _) (by decide) (by decide) (by decide),
            face_eq n h3 (_, _, _) (by decide) (by decide) (by decide),
            face_eq n h3 (_, _, _) (by decide) (by decide) (by decide),
            face_eq n h3 (_, _, _) (by decide) (by decide) (by decide)]
      · rfl
    · split
      · rename_i h4
        rw [ih (n - 4) (by omega), List.map_map]
        refine List.map_congr_left fun β hβ => ?_
        rw [mem_tetIdx] at hβ
        exact point_shrink n h4 β (by rw [Fin.sum_univ_four]; omega) v
      · rfl

/-- A list that contains all multi-indices of sum `n` and has their number has no duplicates. -/
theorem nodup_of_count {k : ℕ} (n : ℕ) (l : List (Fin (k + 1) → ℕ))
    (hm : ∀ α, α ∈ l ↔ ∑ j, α j = n) (hl : l.length = (n + k).choose k) : l.Nodup := by
  classical
  have e : l.toFinset = Finset.piAntidiag Finset.univ n := by
    ext α
    rw [List.mem_toFinset, hm, Finset.mem_piAntidiag]
    simp
  rw [← Multiset.coe_nodup, ← Multiset.toFinset_card_eq_card_iff_nodup]
  change l.toFinset.card = l.length
  rw [e, hl]
  have hc := Finset.card_finsuppAntidiag_nat_eq_choose (s := (Finset.univ : Finset (Fin (k + 1)))) n
  rw [Finset.card_univ, Fintype.card_fin, show k + 1 + n - 1 = n + k by omega,
    Nat.choose_symm_of_eq_add (show n + k = n + k from rfl)] at hc
  rw [← hc]
  refine Finset.card_bij' (fun f _ => Finsupp.equivFunOnFinite.symm f)
    (fun f _ => Finsupp.equivFunOnFinite f) ?_ ?_ ?_ ?_
  · intro f hf
    rw [Finset.mem_piAntidiag] at hf
    rw [Finset.mem_finsuppAntidiag]
    exact ⟨hf.1, Finset.subset_univ _⟩
  · intro f hf
    rw [Finset.mem_finsuppAntidiag] at hf
    rw [Finset.mem_piAntidiag]
    exact ⟨hf.1, fun _ _ => Finset.mem_univ _⟩
  · intro f _; simp
  · intro f _; simp

end Tandem.Equidistant
