import Verif.Lemmas.Combinatorics
import Verif.Lemmas.Sums
import Verif.Lemmas.Lehmer
import Verif.Spec.Combinatorics
import Verif.Spec.Algorithm
import Mathlib.Algebra.BigOperators.Group.List.Basic
/-! # Properties C05, C06, C07, C08 -/
namespace Tandem.Combinatorics
open Tandem.Spec

theorem incFrom_iff (lo n : Nat) (c : List Nat) :
    IncFrom lo n c ↔ c.Pairwise (· < ·) ∧ (∀ x ∈ c, x < n) ∧ (∀ x ∈ c, lo ≤ x) := by
  induction c generalizing lo with
  | nil => simp [IncFrom]
  | cons x c ih =>
    simp only [IncFrom, ih, List.pairwise_cons, List.mem_cons, forall_eq_or_imp]
    constructor
    · rintro ⟨h1, h2, h3, h4, h5⟩
      exact ⟨⟨fun a ha => by have := h5 a ha; omega, h3⟩, ⟨h2, h4⟩, h1,
        fun a ha => by have := h5 a ha; omega⟩
    · rintro ⟨⟨h1, h2⟩, ⟨h3, h4⟩, h5, h6⟩
      exact ⟨h5, h3, h2, h4, fun a ha => by have := h1 a ha; omega⟩

theorem lexLt_lt (c d : List Nat) (h : LexLt c d) : c < d := by
  induction c generalizing d with
  | nil => cases d <;> simp [LexLt] at h
  | cons x c ih =>
    cases d with
    | nil => simp [LexLt] at h
    | cons y d =>
      rw [List.cons_lt_cons_iff]
      rcases h with h | ⟨h1, h2⟩
      · exact Or.inl h
      · exact Or.inr ⟨h1, ih d h2⟩

/-- C05: `do visit(current()) while (next())` on `Choose<k>(n)`, `k ≤ n`, terminates and visits
every `k`-subset of `{0,...,n-1}` exactly once, in strictly increasing lexicographic order, and
their number is `binom(n,k)`. -/
theorem C05_choose_enumerates (n k : Nat) (hkn : k ≤ n) (fuel : Nat) (hf : n.choose k ≤ fuel + 1) :
    ∃ visited, chooseVisit n k fuel = some visited ∧ ListsExactly visited (IsSubset n k) ∧
      visited.Pairwise (· < ·) ∧ binom n k = some visited.length := by
  obtain ⟨L, hL⟩ := combos_head k 0 n hkn
  have hchain := combos_chain n k 0 n (by omega) hkn
  have hlen := combos_length k 0 n
  refine ⟨combos k 0 n, ?_, ⟨?_, ?_⟩, (combos_lex k 0 n).imp (fun h => lexLt_lt _ _ h), ?_⟩
  · rw [hL] at hchain hlen ⊢
    exact chooseLoop_chain n k L _ fuel hchain (by simp at hlen; omega)
  · exact (combos_lex k 0 n).imp (fun {a b} h (e : a = b) => LexLt.irrefl a (by
      subst e; exact h))
  · intro c
    rw [mem_combos, Nat.zero_add, incFrom_iff]
    simp [IsSubset]
  · rw [hlen, binom_eq n k hkn]

/-- C05: `binom(n,k)` is the binomial coefficient. -/
theorem C05_binom (n k : Nat) (h : k ≤ n) : binom n k = some (n.choose k) := binom_eq n k h

example : chooseVisit 4 2 5 = some [[0,1],[0,2],[0,3],[1,2],[1,3],[2,3]] := by decide
example : (2 : Nat) ≤ 4 ∧ Nat.choose 4 2 ≤ 5 + 1 := by decide

/-- C06: `AllIntegerSums<D>(N)` visits every `D`-tuple with sum at most `N` exactly once. -/
theorem C06_sums_at_most (D N : Nat) (hD : 0 < D) (fuel : Nat) (hf : (N + D).choose D ≤ fuel) :
    ∃ visited, sumsVisit D true N fuel = some visited ∧
      ListsExactly visited (fun t => t.length = D ∧ t.sum ≤ N) ∧
      visited.length = (N + D).choose D := by
  have hm : List.replicate D 0 ≠ [] := by simp; omega
  have hmono : Mono (List.replicate D 0) := List.pairwise_replicate.2 (Or.inr (Nat.le_refl _))
  have hstop : sumsStep (sumsMake D true N N) = List.replicate (D - 1) 0 ++ [N + 1] := by
    simp only [sumsMake, if_true]; exact sumsStep_replicate D N hD
  have hrs : rank 0 (List.replicate (D - 1) 0 ++ [N + 1]) = (N + D).choose D := by
    rw [rank_zeros_snoc D (N + 1) hD]; congr 1; omega
  have hr0 : rank 0 (List.replicate D 0) = 0 := rank_zeros 0 D
  have hrun := sumsLoop_eq (List.replicate (D - 1) 0 ++ [N + 1]) (List.replicate D 0)
    ((N + D).choose D) fuel hm hmono (mono_zeros_snoc _ _) (by simp; omega) (by omega) hf
  obtain ⟨c1, c2⟩ := sums_visit_core (List.replicate D 0) ((N + D).choose D) hm hmono
  refine ⟨_, by rw [sumsVisit, hstop]; exact hrun, ⟨c1, ?_⟩, by simp⟩
  intro t
  rw [c2 t, hr0]
  simp only [List.length_replicate, Nat.zero_le, true_and, Nat.zero_add]
  constructor
  · rintro ⟨h1, h2⟩
    refine ⟨h1, ?_⟩
    have hne : psums 0 t.reverse ≠ [] := by
      intro h; have := psums_length 0 t.reverse; rw [h] at this; simp at this; omega
    have := rank_lt_iff _ hne (List.pairwise_cons.1 (psums_mono 0 t.reverse)).2 N
    rw [psums_length, List.length_reverse, h1] at this
    have h3 := this.1 h2
    have h4 := psums_getLast 0 t.reverse
    rw [List.getLast_cons hne] at h4
    rw [h4] at h3
    simpa using h3
  · rintro ⟨h1, h2⟩
    refine ⟨h1, ?_⟩
    have hne : psums 0 t.reverse ≠ [] := by
      intro h; have := psums_length 0 t.reverse; rw [h] at this; simp at this; omega
    have := rank_lt_iff _ hne (List.pairwise_cons.1 (psums_mono 0 t.reverse)).2 N
    rw [psums_length, List.length_reverse, h1] at this
    apply this.2
    have h4 := psums_getLast 0 t.reverse
    rw [List.getLast_cons hne] at h4
    rw [h4]
    simpa using h2

/-- C06: `AllIntegerSums<D, false>(N)` visits every `D`-tuple with sum equal to `N` exactly once. -/
theorem C06_sums_exact (D N : Nat) (hD : 0 < D) (fuel : Nat) (hf : (N + D).choose D ≤ fuel) :
    ∃ visited, sumsVisit D false N fuel = some visited ∧
      ListsExactly visited (fun t => t.length = D ∧ t.sum = N) := by
  have hm : List.replicate (D - 1) 0 ++ [N] ≠ [] := by simp
  have hmono := mono_zeros_snoc (D - 1) N
  have hstop : sumsStep (sumsMake D false N N) = List.replicate (D - 1) 0 ++ [N + 1] := by
    rw [← sumsStep_replicate D N hD]
    congr 1
    rw [sumsMake]
    conv_rhs => rw [show D = (D - 1) + 1 by omega, List.replicate_succ']
    simp
  have hrs : rank 0 (List.replicate (D - 1) 0 ++ [N + 1]) = (N + D).choose D := by
    rw [rank_zeros_snoc D (N + 1) hD]; congr 1; omega
  have hr0 := rank_zeros_snoc D N hD
  have hle : (N + (D - 1)).choose D ≤ (N + D).choose D := Nat.choose_le_choose _ (by omega)
  have hrun := sumsLoop_eq (List.replicate (D - 1) 0 ++ [N + 1]) (List.replicate (D - 1) 0 ++ [N])
    ((N + D).choose D - (N + (D - 1)).choose D) fuel hm hmono (mono_zeros_snoc _ _) (by simp)
    (by omega) (by omega)
  obtain ⟨c1, c2⟩ := sums_visit_core (List.replicate (D - 1) 0 ++ [N])
    ((N + D).choose D - (N + (D - 1)).choose D) hm hmono
  refine ⟨_, by rw [sumsVisit, hstop]; exact hrun, ⟨c1, ?_⟩⟩
  intro t
  rw [c2 t, hr0]
  have hl : (List.replicate (D - 1) 0 ++ [N]).length = D := by simp; omega
  rw [hl, show (N + (D - 1)).choose D + ((N + D).choose D - (N + (D - 1)).choose D) =
    (N + D).choose D by omega]
  by_cases h1 : t.length = D
  · simp only [h1, true_and]
    have hne : psums 0 t.reverse ≠ [] := by
      intro h; have := psums_length 0 t.reverse; rw [h] at this; simp at this; omega
    have := getLast_eq_iff_rank _ hne (List.pairwise_cons.1 (psums_mono 0 t.reverse)).2 N
    rw [psums_length, List.length_reverse, h1] at this
    rw [this]
    have h4 := psums_getLast 0 t.reverse
    rw [List.getLast_cons hne] at h4
    rw [h4]
    simp
  · simp [h1]

example : sumsVisit 2 true 2 6 = some [[0,0],[1,0],[0,1],[2,0],[1,1],[0,2]] := by decide
example : sumsVisit 3 false 1 4 = some [[1,0,0],[0,1,0],[0,0,1]] := by decide
example : (2 + 2 : Nat).choose 2 ≤ 6 ∧ (1 + 3 : Nat).choose 3 ≤ 4 := by decide

/-- The permutation number computed by the code (`none` if `bitset::set` throws). -/
def permutationNumber (p : List Nat) : Option Nat := (permutationToLehmer p).map lehmerToInteger

/-- C07: for `N ≤ 12` the number of a permutation of `0..N-1` exists and is below `N!` (so 32 bit
arithmetic does not wrap). -/
theorem C07_number_below_factorial (p : List Nat) (hp : IsPermutation p p.length)
    (hN : p.length ≤ 12) : ∃ a, permutationNumber p = some a ∧ a < p.length.factorial := by
  obtain ⟨L, h1, h2, h3⟩ := lehmerLoop_eq p.length (fun _ => false) p hp.2.1 hp.2.2 (by simp)
  rw [unseen_empty] at h3
  have h3' : ∀ i (hi : i < L.length), L[i] + i < L.length := fun i hi => by have := h3 i hi; omega
  refine ⟨value L, ?_, ?_⟩
  · simp only [permutationNumber, permutationToLehmer, h1, Option.map_some]
    rw [lehmerToInteger_eq L (by omega) h3']
  · rw [← h2]; exact value_lt L (digits_getElem L h3')

/-- C07: for `N ≤ 12` two permutations of the same length with the same number are equal. -/
theorem C07_number_injective (p q : List Nat) (hp : IsPermutation p p.length)
    (hq : IsPermutation q q.length) (hl : p.length = q.length) (hN : p.length ≤ 12)
    (h : permutationNumber p = permutationNumber q) : p = q := by
  obtain ⟨L, h1, h2, h3⟩ := lehmerLoop_eq p.length (fun _ => false) p hp.2.1 hp.2.2 (by simp)
  obtain ⟨M, g1, g2, g3⟩ := lehmerLoop_eq q.length (fun _ => false) q hq.2.1 hq.2.2 (by simp)
  rw [unseen_empty] at h3 g3
  have h3' : ∀ i (hi : i < L.length), L[i] + i < L.length := fun i hi => by have := h3 i hi; omega
  have g3' : ∀ i (hi : i < M.length), M[i] + i < M.length := fun i hi => by have := g3 i hi; omega
  simp only [permutationNumber, permutationToLehmer, h1, g1, Option.map_some,
    Option.some.injEq] at h
  rw [lehmerToInteger_eq L (by omega) h3', lehmerToInteger_eq M (by omega) g3'] at h
  have e := value_inj L M (by omega) (digits_getElem L h3') (digits_getElem M g3') h
  apply lehmerLoop_inj p.length (fun _ => false) p q hp.2.1 (by rw [hl]; exact hq.2.1) hp.2.2
    hq.2.2 (by simp) (by simp)
  rw [h1, hl, g1, e]

example : IsPermutation [2, 0, 3, 1] 4 ∧ permutationNumber [2, 0, 3, 1] = some 13 := by
  refine ⟨by unfold IsPermutation; decide, by decide⟩

/-- C07: the bound `N ≤ 12` is sharp: at `N = 13` the 32-bit number of two different permutations
collides. -/
theorem C07_collision_at_13 :
    IsPermutation (List.range 13) 13 ∧
    IsPermutation [8, 12, 6, 5, 10, 0, 1, 4, 2, 9, 11, 3, 7] 13 ∧
    permutationNumber (List.range 13) =
      permutationNumber [8, 12, 6, 5, 10, 0, 1, 4, 2, 9, 11, 3, 7] := by
  refine ⟨by unfold IsPermutation; decide, by unfold IsPermutation; decide, ?_⟩
  decide +kernel

theorem rangeProductLoop_eq (b : Nat) (hb : b < 2 ^ 64 - 1) (d a prod fuel : Nat)
    (hd : a + d = b + 1) (hf : d ≤ fuel) (hp : prod < 2 ^ 64) :
    rangeProductLoop b fuel a prod =
      some (prod * ((List.range d).map (fun i => a + i)).prod % 2 ^ 64) := by
  induction d generalizing a prod fuel with
  | zero =>
    unfold rangeProductLoop
    rw [if_neg (by omega)]
    simp only [List.range_zero, List.map_nil, List.prod_nil, Nat.mul_one, Nat.mod_eq_of_lt hp]
  | succ d ih =>
    unfold rangeProductLoop
    rw [if_pos (by omega)]
    cases fuel with
    | zero => omega
    | succ fuel =>
      simp only
      have hm : (a + 1) % 2 ^ 64 = a + 1 := Nat.mod_eq_of_lt (by omega)
      rw [hm, ih (a + 1) _ fuel (by omega) (by omega) (Nat.mod_lt _ (by decide))]
      rw [List.range_succ_eq_map]
      simp only [List.map_cons, List.map_map, List.prod_cons, Nat.add_zero]
      have e : ((fun i => a + i) ∘ Nat.succ) = fun i => a + 1 + i := by funext i; simp; omega
      rw [e, Nat.mod_mul_mod, Nat.mul_assoc]

/-- C08: for every `b < 2^64 - 1`, `rangeProduct(a,b)` terminates and returns the product of all
integers from `a` to `b` modulo `2^64` (1 for `a > b`). -/
theorem C08_rangeProduct (a b : Nat) (hb : b < 2 ^ 64 - 1) (fuel : Nat) (hf : b + 1 ≤ fuel + a) :
    rangeProduct fuel a b = some (productFromTo a b % 2 ^ 64) := by
  unfold rangeProduct productFromTo
  by_cases h : a ≤ b + 1
  · rw [rangeProductLoop_eq b hb (b + 1 - a) a 1 fuel (by omega) (by omega) (by decide)]
    simp
  · unfold rangeProductLoop
    rw [if_neg (by omega), show b + 1 - a = 0 by omega]
    simp

/-- C08: for `b = 2^64 - 1` and any 64-bit `a` the loop never ends. -/
theorem C08_rangeProduct_diverges (a : Nat) (ha : a < 2 ^ 64) (fuel : Nat) :
    rangeProduct fuel a (2 ^ 64 - 1) = none := by
  have key : ∀ (fuel a prod : Nat), a < 2 ^ 64 →
      rangeProductLoop (2 ^ 64 - 1) fuel a prod = none := by
    intro fuel
    induction fuel with
    | zero => intro a prod ha; unfold rangeProductLoop; rw [if_pos (by omega)]
    | succ f ih =>
      intro a prod ha
      unfold rangeProductLoop
      rw [if_pos (by omega)]
      exact ih _ _ (Nat.mod_lt _ (by decide))
  exact key fuel a 1 ha

theorem productFromTo_factorial (n : Nat) : productFromTo 1 n = n.factorial := by
  unfold productFromTo
  simp only [Nat.add_sub_cancel]
  induction n with
  | zero => rfl
  | succ n ih =>
    rw [List.range_succ, List.map_append, List.prod_append, ih, Nat.factorial_succ]
    simp; ring

/-- C08: `factorial(n) = n!` exactly for `n ≤ 20`. -/
theorem C08_factorial (n : Nat) (hn : n ≤ 20) (fuel : Nat) (hf : n ≤ fuel) :
    factorial fuel n = some n.factorial := by
  rw [factorial, C08_rangeProduct 1 n (by omega) fuel (by omega), productFromTo_factorial,
    Nat.mod_eq_of_lt]
  have := Nat.factorial_le hn
  have e : Nat.factorial 20 = 2432902008176640000 := by decide
  omega

/-- C08: 20 is the last exact one. -/
theorem C08_factorial_21_wraps : factorial 21 21 ≠ some (Nat.factorial 21) := by decide +kernel

example : rangeProduct 10 3 6 = some 360 ∧ (6 + 1 ≤ 10 + 3) := by decide

end Tandem.Combinatorics
