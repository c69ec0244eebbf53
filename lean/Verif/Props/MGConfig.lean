/-
C46: multigrid level degrees, `app/common/MGConfig.cpp`.
-/
import Verif.Model.MGConfig

namespace Tandem.MGConfig

/-- The coarse degree used: the requested one, unless that is not below the maximum degree. -/
theorem effectiveCoarse_lt {c m : Nat} (h : 0 < m) : effectiveCoarse c m < m := by
  unfold effectiveCoarse; split <;> first | omega | (split <;> omega)

/-- The halving sequence, starting value included, with the last entry replaced by the coarse degree: strictly
decreasing, ends with the coarse degree, and each entry is the half of the one before, except the last one,
which is at least that. -/
theorem fixBack_halve (c m : Nat) (h : c ≤ m) :
    (fixBack c (m :: halve c m)).Pairwise (· > ·) ∧
    (fixBack c (m :: halve c m)).getLast? = some c ∧
    (c < m → (fixBack c (m :: halve c m)).head? = some m) ∧
    (∀ x ∈ fixBack c (m :: halve c m), c ≤ x ∧ x ≤ m) ∧
    (fixBack c (m :: halve c m)).length ≤ m - c + 1 := by
  induction m using Nat.strongRecOn with
  | ind m ih =>
    by_cases hm : c < m
    · have e : halve c m = (m / 2) :: halve c (m / 2) := by rw [halve.eq_def]; simp [hm]
      by_cases h2 : c ≤ m / 2
      · obtain ⟨a, b, _, d, f⟩ := ih (m / 2) (by omega) h2
        have e2 : fixBack c (m :: halve c m) = m :: fixBack c (m / 2 :: halve c (m / 2)) := by
          rw [e]; unfold fixBack
          simp only [List.getLast?_cons_cons, List.dropLast_cons₂]
          split <;> simp
        rw [e2]
        refine ⟨?_, ?_, ?_, ?_, ?_⟩
        · refine List.pairwise_cons.2 ⟨fun x hx => ?_, a⟩
          have := (d x hx).2; omega
        · rw [List.getLast?_cons, b]; rfl
        · intro _; rfl
        · intro x hx
          rcases List.mem_cons.1 hx with hx | hx
          · omega
          · have := d x hx; omega
        · simp only [List.length_cons]; omega
      · have e3 : halve c (m / 2) = [] := by rw [halve.eq_def]; simp; omega
        have e2 : fixBack c (m :: halve c m) = [m, c] := by
          rw [e, e3]; unfold fixBack; simp
        rw [e2]
        refine ⟨by simp [hm], rfl, fun _ => rfl, ?_, ?_⟩
        · intro x hx; simp at hx; omega
        · simp; omega
    · have : c = m := by omega
      subst this
      have e : halve c c = [] := by rw [halve.eq_def]; simp
      have e2 : fixBack c (c :: halve c c) = [c] := by rw [e]; unfold fixBack; simp
      rw [e2]
      simp

/-- C46: for every strategy and every positive maximum degree the list of level degrees starts with the coarse
degree (the requested one if it is below the maximum degree, else the maximum degree minus one), ends with the
maximum degree, is strictly increasing and has at most `max - coarse + 1` entries. -/
theorem C46_levels (s : Strategy) (hs : s ≠ .unknown) (coarse m : Nat) (hm : 0 < m) :
    let c := if coarse < m then coarse else m - 1
    (levels s coarse m).Pairwise (· < ·) ∧ (levels s coarse m).head? = some c ∧
    (levels s coarse m).getLast? = some m ∧ (levels s coarse m).length ≤ m - c + 1 ∧
    2 ≤ (levels s coarse m).length := by
  intro c
  have hc : effectiveCoarse coarse m = c := by
    unfold effectiveCoarse; simp only [c]; split <;> split <;> first | omega | (split <;> omega)
  have hlt : c < m := hc ▸ effectiveCoarse_lt hm
  cases s with
  | unknown => exact absurd rfl hs
  | twoLevel => simp only [levels, hc]; simp; omega
  | logarithmic =>
    obtain ⟨p, q, r, d, l⟩ := fixBack_halve c m (by omega)
    have r := r hlt
    simp only [levels, hc]
    refine ⟨List.pairwise_reverse.2 p, by rw [List.head?_reverse, q], by rw [List.getLast?_reverse, r],
      by simpa using l, ?_⟩
    rw [List.length_reverse]
    rcases hv : fixBack c (m :: halve c m) with _ | ⟨x, _ | ⟨y, t⟩⟩
    · rw [hv] at r; simp at r
    · rw [hv] at r q; simp at r q; omega
    · simp
  | full =>
    simp only [levels, hc]
    refine ⟨?_, ?_, ?_, by simp, ?_⟩
    · rw [List.pairwise_map]
      exact List.pairwise_lt_range.imp (by omega)
    · simp [List.head?_range]
    · simp [List.getLast?_range]; omega
    · simp; omega

/-- C46: with the full strategy every degree between the coarse and the maximum degree is a level. -/
theorem C46_full (coarse m : Nat) (hm : 0 < m) (d : Nat) :
    d ∈ levels .full coarse m ↔ (if coarse < m then coarse else m - 1) ≤ d ∧ d ≤ m := by
  have hc : effectiveCoarse coarse m = (if coarse < m then coarse else m - 1) := by
    unfold effectiveCoarse; split <;> split <;> first | omega | (split <;> omega)
  simp only [levels, hc, List.mem_map, List.mem_range]
  generalize (if coarse < m then coarse else m - 1) = c at *
  have hlt : c < m := hc ▸ effectiveCoarse_lt hm
  constructor
  · rintro ⟨a, h, rfl⟩; omega
  · intro h; exact ⟨d - c, by omega, by omega⟩

theorem halve_chain (c m : Nat) : ∀ i a b, (m :: halve c m)[i]? = some a → (m :: halve c m)[i + 1]? = some b →
    b = a / 2 := by
  induction m using Nat.strongRecOn with
  | ind m ih =>
    intro i a b ha hb
    by_cases hm : c < m
    · have e : halve c m = (m / 2) :: halve c (m / 2) := by rw [halve.eq_def]; simp [hm]
      rw [e] at ha hb
      cases i with
      | zero => simp at ha hb; omega
      | succ i =>
        simp only [List.getElem?_cons_succ] at ha hb
        exact ih (m / 2) (by omega) i a b ha (by simpa using hb)
    · have e : halve c m = [] := by rw [halve.eq_def]; simp; omega
      rw [e] at hb; simp at hb

/-- C46: with the logarithmic strategy, read from the finest level, each level has half the degree of the
previous one, until the coarse degree is reached or passed. -/
theorem C46_logarithmic (coarse m : Nat) (hm : 0 < m) (i : Nat) (a b : Nat)
    (ha : (levels .logarithmic coarse m).reverse[i]? = some a)
    (hb : (levels .logarithmic coarse m).reverse[i + 1]? = some b) :
    b = max (a / 2) (if coarse < m then coarse else m - 1) := by
  have hc : effectiveCoarse coarse m = (if coarse < m then coarse else m - 1) := by
    unfold effectiveCoarse; split <;> split <;> first | omega | (split <;> omega)
  simp only [levels, hc, List.reverse_reverse] at ha hb
  generalize (if coarse < m then coarse else m - 1) = c at *
  have hlt : c < m := hc ▸ effectiveCoarse_lt hm
  clear hc hm
  induction m using Nat.strongRecOn generalizing i with
  | ind m ih =>
    have e : halve c m = (m / 2) :: halve c (m / 2) := by rw [halve.eq_def]; simp [hlt]
    by_cases h2 : c ≤ m / 2
    · have e2 : fixBack c (m :: halve c m) = m :: fixBack c (m / 2 :: halve c (m / 2)) := by
        rw [e]; unfold fixBack
        simp only [List.getLast?_cons_cons, List.dropLast_cons₂]
        split <;> simp
      rw [e2] at ha hb
      by_cases h3 : c = m / 2
      · have e3 : fixBack c (m / 2 :: halve c (m / 2)) = [c] := by
          rw [← h3, halve.eq_def]; unfold fixBack; simp
        rw [e3] at ha hb
        cases i with
        | zero => simp at ha hb; omega
        | succ i => simp at hb
      · obtain ⟨_, _, r, _, _⟩ := fixBack_halve c (m / 2) h2
        have r := r (by omega)
        cases i with
        | zero =>
          rw [List.head?_eq_getElem?] at r
          simp only [List.getElem?_cons_succ, List.getElem?_cons_zero] at ha hb
          rw [r] at hb; simp at ha hb; omega
        | succ i =>
          exact ih (m / 2) (by omega) i (by simpa using ha) (by simpa using hb) (by omega)
    · have e3 : halve c (m / 2) = [] := by rw [halve.eq_def]; simp; omega
      have e2 : fixBack c (m :: halve c m) = [m, c] := by
        rw [e, e3]; unfold fixBack; simp
      rw [e2] at ha hb
      cases i with
      | zero => simp at ha hb; omega
      | succ i => simp at hb

example : levels .logarithmic 1 9 = [1, 2, 4, 9] := by decide +kernel
example : levels .logarithmic 3 9 = [3, 4, 9] := by decide +kernel
example : levels .logarithmic 5 5 = [4, 5] := by decide +kernel

/-- C46, negative: for degree 0 the two-level strategy gives the same degree twice. -/
theorem C46_degree_zero (coarse : Nat) : levels .twoLevel coarse 0 = [0, 0] := by
  simp [levels, effectiveCoarse]

/-- C46, negative: an unknown strategy gives no level at all. -/
theorem C46_unknown (coarse m : Nat) : levels .unknown coarse m = [] := rfl

end Tandem.MGConfig
