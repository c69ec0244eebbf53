/-! # Prefix sums tile an index range -/
namespace Tandem.Tiling

theorem sum_take_succ (ns : List Nat) (r : Nat) (hr : r < ns.length) :
    (ns.take (r + 1)).sum = (ns.take r).sum + ns.getD r 0 := by
  rw [List.take_succ, List.getElem?_eq_getElem hr, List.sum_append]
  simp [List.getD, hr]

theorem sum_take_le (ns : List Nat) {r s : Nat} (h : r ≤ s) : (ns.take r).sum ≤ (ns.take s).sum := by
  induction s with
  | zero => obtain rfl : r = 0 := by omega
            exact Nat.le_refl _
  | succ s ih =>
    rcases Nat.lt_or_ge s r with h' | h'
    · obtain rfl : r = s + 1 := by omega
      exact Nat.le_refl _
    · refine Nat.le_trans (ih h') ?_
      rcases Nat.lt_or_ge s ns.length with hs | hs
      · rw [sum_take_succ ns s hs]; omega
      · rw [List.take_of_length_le hs, List.take_of_length_le (by omega)]
        exact Nat.le_refl _

theorem sum_take_le_sum (ns : List Nat) (r : Nat) : (ns.take r).sum ≤ ns.sum := by
  rcases Nat.lt_or_ge r ns.length with h | h
  · have := sum_take_le ns (Nat.le_of_lt h)
    rwa [List.take_length] at this
  · rw [List.take_of_length_le h]; exact Nat.le_refl _

/-- Different parts do not overlap. -/
theorem part_unique (ns : List Nat) {r s p q : Nat} (hr : r < ns.length) (hs : s < ns.length)
    (hp : p < ns.getD r 0) (hq : q < ns.getD s 0) (h : (ns.take r).sum + p = (ns.take s).sum + q) :
    r = s ∧ p = q := by
  rcases Nat.lt_trichotomy r s with hlt | heq | hlt
  · have := sum_take_le ns hlt
    rw [sum_take_succ ns r hr] at this
    omega
  · subst heq; exact ⟨rfl, by omega⟩
  · have := sum_take_le ns hlt
    rw [sum_take_succ ns s hs] at this
    omega

/-- The parts cover everything. -/
theorem part_exists (ns : List Nat) : ∀ i, i < ns.sum →
    ∃ r p, r < ns.length ∧ p < ns.getD r 0 ∧ i = (ns.take r).sum + p := by
  induction ns with
  | nil => intro i hi; simp at hi
  | cons a ns ih =>
    intro i hi
    rcases Nat.lt_or_ge i a with h | h
    · exact ⟨0, i, by simp, by simpa using h, by simp⟩
    · obtain ⟨r, p, h1, h2, h3⟩ := ih (i - a) (by simp at hi; omega)
      exact ⟨r + 1, p, by simpa using h1, by simpa using h2, by simp; omega⟩

theorem part_lt (ns : List Nat) {r p : Nat} (hr : r < ns.length) (hp : p < ns.getD r 0) :
    (ns.take r).sum + p < ns.sum := by
  have := sum_take_le_sum ns (r + 1)
  rw [sum_take_succ ns r hr] at this
  omega

end Tandem.Tiling
