import Verif.Lemmas.Algorithm
/-! # Properties C03 and C04 -/
namespace Tandem.Algorithm
open Tandem.Spec

/-- C03: for every vector and every permutation of its positions, `apply_permutation` terminates
(every cycle walk takes at most `n` steps), reads and writes in bounds, and is the gather
`v'[i] = v[p[i]]`. -/
theorem C03_apply_permutation {α : Type} (v : List α) (p : List Nat)
    (hp : IsPermutation p v.length) (fuel : Nat) (hfuel : v.length ≤ fuel) :
    ∃ v', applyPermutation fuel v p = .ok v' ∧ v'.length = v.length ∧
      ∀ i (hi : i < p.length), v'[i]? = v[p[i]]? := by
  obtain ⟨v', h1, h2, h3⟩ := applyPermutationWith_ok v.length (fun w : List α => w.length = v.length)
    (fun w k => w[k]?) swapList (swapList_spec _) fuel hfuel v rfl p hp
  exact ⟨v', by simp [applyPermutation, h1], h2, h3⟩

/-- C03: consequently no element is lost or duplicated. -/
theorem C03_apply_permutation_perm {α : Type} (v : List α) (p : List Nat)
    (hp : IsPermutation p v.length) (fuel : Nat) (hfuel : v.length ≤ fuel) :
    ∃ v', applyPermutation fuel v p = .ok v' ∧ v'.Perm v := by
  obtain ⟨v', h1, h2, h3⟩ := C03_apply_permutation v p hp fuel hfuel
  refine ⟨v', h1, ?_⟩
  have e1 : v' = p.filterMap (fun k => v[k]?) := by
    apply List.ext_getElem?
    intro i
    rw [filterMap_getElem? _ _ (fun x hx => by simpa using hp.2.1 x hx)]
    by_cases hi : i < p.length
    · rw [h3 i hi, List.getElem?_eq_getElem hi]; rfl
    · rw [List.getElem?_eq_none (by have := hp.1; omega), List.getElem?_eq_none (by omega)]; rfl
  have e2 := (perm_range_of_isPermutation p _ hp).filterMap (fun k => v[k]?)
  rw [filterMap_range_getElem?] at e2
  rw [e1]; exact e2

example : IsPermutation [2, 0, 3, 1, 4] ["a", "b", "c", "d", "e"].length := by
  unfold IsPermutation; decide
example : applyPermutation 5 ["a", "b", "c", "d", "e"] [2, 0, 3, 1, 4] =
    .ok ["c", "a", "d", "b", "e"] := by decide

/-- C03, outside the precondition: an index vector that is not a permutation can make the cycle
walk run forever (`v = {x,y}`, `indices = {1,1}`), whatever number of iterations is allowed. -/
theorem C03_not_a_permutation_may_diverge (fuel : Nat) :
    applyPermutation fuel [7, 8] [1, 1] = Outcome.outOfFuel := by
  have key : ∀ (fuel : Nat) (v : List Nat), v.length = 2 →
      walk swapList 0 fuel v [0, 1] 1 = .outOfFuel := by
    intro fuel
    induction fuel with
    | zero => intro v hv; rfl
    | succ f ih =>
      intro v hv
      match v, hv with
      | [a, b], _ => exact ih [a, b] rfl
  have h : walk swapList 0 fuel [7, 8] [1, 1] 0 = .outOfFuel := by
    cases fuel with
    | zero => rfl
    | succ f => exact key f [8, 7] rfl
  simp [applyPermutation, applyPermutationWith, outer, h]

/-- C04: `find_blocks` is lossless, its blocks are non-empty, and neighbouring blocks cannot be
merged (the next block does not start where the previous one ends). -/
theorem C04_find_blocks (l : List Int) :
    (findBlocks l).flatMap blockIndices = l ∧ (∀ b ∈ findBlocks l, 1 ≤ b.2) ∧
      (∀ k (h : k + 1 < (findBlocks l).length),
        (findBlocks l)[k + 1].1 ≠ (findBlocks l)[k].1 + (findBlocks l)[k].2) := by
  obtain ⟨h1, h2, h3⟩ := findBlocks_foldl l [] (by simp) (by simp)
  refine ⟨by simpa [findBlocks] using h1, by simpa [findBlocks] using h2, ?_⟩
  intro k hk
  unfold findBlocks at hk ⊢
  simp only [List.length_reverse] at hk
  rw [List.getElem_reverse, List.getElem_reverse]
  have := h3 ((l.foldl findBlocksStep []).length - 1 - (k + 1)) (by omega)
  have e : (l.foldl findBlocksStep []).length - 1 - (k + 1) + 1 =
    (l.foldl findBlocksStep []).length - 1 - k := by omega
  simp only [e] at this
  exact this

example : findBlocks [4, 5, 6, 2, 3, 9] = [(4, 3), (2, 2), (9, 1)] := by decide

end Tandem.Algorithm
