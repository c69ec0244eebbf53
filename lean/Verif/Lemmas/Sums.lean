import Verif.Model.Combinatorics
import Mathlib.Data.Nat.Choose.Basic
import Mathlib.Algebra.BigOperators.Group.List.Basic
import Mathlib.Tactic.Ring
/-! Helper lemmas for `AllIntegerSums`: the marker odometer counts in the combinatorial number
system. -/
namespace Tandem.Combinatorics

/-- rank of a suffix of a marker list starting at position `j` -/
def rank : Nat → List Nat → Nat
  | _, [] => 0
  | j, x :: xs => (x + j).choose (j + 1) + rank (j + 1) xs

/-- first marker -/
def hd : List Nat → Nat
  | [] => 0
  | x :: _ => x

theorem rank_step (j : Nat) (x : Nat) (xs : List Nat) :
    rank j (sumsStep (x :: xs)) = rank j (x :: xs) + (x + j).choose j := by
  induction xs generalizing j x with
  | nil =>
    simp only [sumsStep, rank]
    rw [show x + 1 + j = x + j + 1 by omega, Nat.choose_succ_succ']; omega
  | cons y ys ih =>
    unfold sumsStep
    by_cases h : x = y
    · subst h
      simp only [if_true, rank, Nat.zero_add, Nat.choose_succ_self, ih]
      have : (x + (j + 1)).choose (j + 1) = (x + j).choose j + (x + j).choose (j + 1) := by
        rw [show x + (j + 1) = x + j + 1 by omega, Nat.choose_succ_succ]
      omega
    · simp only [if_neg h, rank]
      rw [show x + 1 + j = x + j + 1 by omega, Nat.choose_succ_succ']; omega

theorem sumsStep_length (m : List Nat) : (sumsStep m).length = m.length := by
  induction m with
  | nil => rfl
  | cons x xs ih =>
    cases xs with
    | nil => rfl
    | cons y ys =>
      unfold sumsStep; split
      · simpa using ih
      · rfl

/-- non-decreasing -/
abbrev Mono (m : List Nat) : Prop := m.Pairwise (· ≤ ·)

theorem mono_cons2 (x y : Nat) (ys : List Nat) :
    Mono (x :: y :: ys) ↔ x ≤ y ∧ Mono (y :: ys) := by
  constructor
  · intro h; exact ⟨(List.pairwise_cons.1 h).1 y (by simp), (List.pairwise_cons.1 h).2⟩
  · rintro ⟨h1, h2⟩
    refine List.pairwise_cons.2 ⟨?_, h2⟩
    intro z hz
    rcases List.mem_cons.1 hz with rfl | hz
    · exact h1
    · exact Nat.le_trans h1 ((List.pairwise_cons.1 h2).1 z hz)

theorem sumsStep_mono (m : List Nat) (h : Mono m) : Mono (sumsStep m) := by
  induction m with
  | nil => simp [sumsStep]
  | cons x xs ih =>
    cases xs with
    | nil => simp [sumsStep]
    | cons y ys =>
      rw [mono_cons2] at h
      unfold sumsStep; split
      · refine List.pairwise_cons.2 ⟨by simp, ih h.2⟩
      · rw [mono_cons2]; exact ⟨by omega, h.2⟩

theorem rank_append (j : Nat) (a b : List Nat) :
    rank j (a ++ b) = rank j a + rank (j + a.length) b := by
  induction a generalizing j with
  | nil => simp [rank]
  | cons x a ih => simp only [List.cons_append, rank, ih, List.length_cons]; rw [show j + 1 + a.length = j + (a.length + 1) by omega]; omega

theorem rank_snoc (a : List Nat) (z : Nat) :
    rank 0 (a ++ [z]) = rank 0 a + (z + a.length).choose (a.length + 1) := by
  rw [rank_append]; simp [rank]

theorem rank_lt (m : List Nat) (z : Nat) (hm : Mono m) (hz : ∀ x ∈ m, x ≤ z) :
    rank 0 m < (z + m.length).choose m.length := by
  induction hn : m.length generalizing m z with
  | zero =>
    have := List.eq_nil_of_length_eq_zero hn
    subst this; simp [rank]
  | succ n ih =>
    obtain ⟨a, y, rfl⟩ : ∃ a y, m = a ++ [y] := by
      refine ⟨m.dropLast, m.getLast (by intro h; simp [h] at hn), ?_⟩
      rw [List.dropLast_concat_getLast]
    have hl : a.length = n := by simpa using hn
    have hma := (List.pairwise_append.1 hm)
    have hya : ∀ x ∈ a, x ≤ y := fun x hx => hma.2.2 x hx y (by simp)
    have h1 := ih a y hma.1 hya hl
    rw [rank_snoc, hl]
    have h2 : (y + n + 1).choose (n + 1) = (y + n).choose n + (y + n).choose (n + 1) :=
      Nat.choose_succ_succ _ _
    have h3 : (y + n + 1).choose (n + 1) ≤ (z + (n + 1)).choose (n + 1) :=
      Nat.choose_le_choose _ (by have := hz y (by simp); omega)
    omega

theorem rank_inj (m m' : List Nat) (hl : m.length = m'.length) (hm : Mono m) (hm' : Mono m')
    (hr : rank 0 m = rank 0 m') : m = m' := by
  induction hn : m.length generalizing m m' with
  | zero =>
    have h1 := List.eq_nil_of_length_eq_zero hn
    have h2 := List.eq_nil_of_length_eq_zero (hl ▸ hn)
    rw [h1, h2]
  | succ n ih =>
    obtain ⟨a, y, rfl⟩ : ∃ a y, m = a ++ [y] := by
      refine ⟨m.dropLast, m.getLast (by intro h; simp [h] at hn), ?_⟩
      rw [List.dropLast_concat_getLast]
    obtain ⟨b, z, rfl⟩ : ∃ b z, m' = b ++ [z] := by
      refine ⟨m'.dropLast, m'.getLast (by intro h; simp [h] at hl), ?_⟩
      rw [List.dropLast_concat_getLast]
    have hla : a.length = n := by simpa using hn
    have hlb : b.length = n := by simp at hl; omega
    have hma := (List.pairwise_append.1 hm)
    have hmb := (List.pairwise_append.1 hm')
    have hya : ∀ x ∈ a, x ≤ y := fun x hx => hma.2.2 x hx y (by simp)
    have hzb : ∀ x ∈ b, x ≤ z := fun x hx => hmb.2.2 x hx z (by simp)
    have ra := rank_lt a y hma.1 hya
    have rb := rank_lt b z hmb.1 hzb
    rw [rank_snoc, rank_snoc, hla, hlb] at hr
    rw [hla] at ra
    rw [hlb] at rb
    have cy : (y + n + 1).choose (n + 1) = (y + n).choose n + (y + n).choose (n + 1) :=
      Nat.choose_succ_succ _ _
    have cz : (z + n + 1).choose (n + 1) = (z + n).choose n + (z + n).choose (n + 1) :=
      Nat.choose_succ_succ _ _
    have hyz : y = z := by
      rcases Nat.lt_trichotomy y z with h | h | h
      · have : (y + n + 1).choose (n + 1) ≤ (z + n).choose (n + 1) :=
          Nat.choose_le_choose _ (by omega)
        omega
      · exact h
      · have : (z + n + 1).choose (n + 1) ≤ (y + n).choose (n + 1) :=
          Nat.choose_le_choose _ (by omega)
        omega
    subst hyz
    have := ih a b (by omega) hma.1 hmb.1 (by omega) hla
    rw [this]

/-- iterated step -/
def steps : Nat → List Nat → List Nat
  | 0, m => m
  | n + 1, m => steps n (sumsStep m)

theorem rank_steps (n : Nat) (m : List Nat) (hm : m ≠ []) : rank 0 (steps n m) = rank 0 m + n := by
  induction n generalizing m with
  | zero => rfl
  | succ n ih =>
    have : sumsStep m ≠ [] := by
      intro h; apply hm; have := sumsStep_length m; rw [h] at this
      exact List.eq_nil_of_length_eq_zero this.symm
    rw [steps, ih _ this]
    cases m with
    | nil => exact absurd rfl hm
    | cons x xs => rw [rank_step]; simp; omega

theorem steps_mono (n : Nat) (m : List Nat) (h : Mono m) : Mono (steps n m) := by
  induction n generalizing m with
  | zero => exact h
  | succ n ih => exact ih _ (sumsStep_mono _ h)

theorem steps_length (n : Nat) (m : List Nat) : (steps n m).length = m.length := by
  induction n generalizing m with
  | zero => rfl
  | succ n ih => rw [steps, ih, sumsStep_length]

theorem sumsLoop_eq (stop m : List Nat) (d fuel : Nat) (hm : m ≠ []) (hmono : Mono m)
    (hsm : Mono stop) (hl : stop.length = m.length)
    (hd : rank 0 m + d = rank 0 stop) (hf : d ≤ fuel) :
    sumsLoop stop fuel m = some ((List.range d).map (fun i => sumsDeref (steps i m))) := by
  induction d generalizing m fuel with
  | zero =>
    have : m = stop := rank_inj _ _ hl.symm hmono hsm (by omega)
    unfold sumsLoop
    simp [this]
  | succ d ih =>
    have hne : m ≠ stop := by rintro rfl; omega
    unfold sumsLoop
    rw [if_neg hne]
    cases fuel with
    | zero => omega
    | succ fuel =>
      have h1 : rank 0 (sumsStep m) = rank 0 m + 1 := by
        have := rank_steps 1 m hm; simpa [steps] using this
      have h2 : sumsStep m ≠ [] := by
        intro h; apply hm; have := sumsStep_length m; rw [h] at this
        exact List.eq_nil_of_length_eq_zero this.symm
      simp only
      rw [ih (sumsStep m) fuel h2 (sumsStep_mono _ hmono) (by rw [sumsStep_length, hl]) (by omega)
        (by omega)]
      simp only [Option.map_some, List.range_succ_eq_map, List.map_cons, List.map_map]
      rfl

theorem mem_steps_iff (m0 : List Nat) (d : Nat) (hm : m0 ≠ []) (hmono : Mono m0) (m : List Nat) :
    (∃ i, i < d ∧ steps i m0 = m) ↔
      (m.length = m0.length ∧ Mono m ∧ rank 0 m0 ≤ rank 0 m ∧ rank 0 m < rank 0 m0 + d) := by
  constructor
  · rintro ⟨i, hi, rfl⟩
    refine ⟨steps_length _ _, steps_mono _ _ hmono, ?_, ?_⟩ <;> rw [rank_steps _ _ hm] <;> omega
  · rintro ⟨h1, h2, h3, h4⟩
    refine ⟨rank 0 m - rank 0 m0, by omega, ?_⟩
    apply rank_inj _ _ (by rw [steps_length, h1]) (steps_mono _ _ hmono) h2
    rw [rank_steps _ _ hm]; omega

/-! ### dereferencing -/

/-- partial sums starting from `s` -/
def psums : Nat → List Nat → List Nat
  | _, [] => []
  | s, t :: ts => (s + t) :: psums (s + t) ts

/-- differences starting from `s` -/
def diffs : Nat → List Nat → List Nat
  | _, [] => []
  | s, m :: ms => (m - s) :: diffs m ms

theorem adjacentDifference_eq (m : List Nat) : adjacentDifference m = diffs 0 m := by
  cases m with
  | nil => rfl
  | cons x xs =>
    simp only [adjacentDifference, diffs, Nat.sub_zero, List.cons.injEq, true_and]
    induction xs generalizing x with
    | nil => rfl
    | cons y ys ih => simp only [List.zipWith_cons_cons, diffs, ih]

theorem diffs_psums (s : Nat) (t : List Nat) : diffs s (psums s t) = t := by
  induction t generalizing s with
  | nil => rfl
  | cons x t ih => simp [psums, diffs, ih]

theorem psums_diffs (s : Nat) (m : List Nat) (h : Mono (s :: m)) : psums s (diffs s m) = m := by
  induction m generalizing s with
  | nil => rfl
  | cons x m ih =>
    rw [mono_cons2] at h
    simp only [diffs, psums]
    rw [show s + (x - s) = x by omega, ih x h.2]

theorem psums_mono (s : Nat) (t : List Nat) : Mono (s :: psums s t) := by
  induction t generalizing s with
  | nil => simp [psums]
  | cons x t ih => simp only [psums]; rw [mono_cons2]; exact ⟨by omega, ih _⟩

theorem psums_length (s : Nat) (t : List Nat) : (psums s t).length = t.length := by
  induction t generalizing s with
  | nil => rfl
  | cons x t ih => simp [psums, ih]

theorem psums_getLast (s : Nat) (t : List Nat) :
    (s :: psums s t).getLast (by simp) = s + t.sum := by
  induction t generalizing s with
  | nil => simp [psums]
  | cons x t ih =>
    have := ih (s + x)
    simp only [psums]
    rw [List.getLast_cons (by simp), this]
    simp; omega

theorem mono_le_getLast (m : List Nat) (hm : m ≠ []) (h : Mono m) : ∀ x ∈ m, x ≤ m.getLast hm := by
  intro x hx
  rw [← List.dropLast_concat_getLast hm] at hx h
  rcases List.mem_append.1 hx with h' | h'
  · exact (List.pairwise_append.1 h).2.2 x h' _ (by simp)
  · simp at h'; omega

/-- rank window of monotone lists with bounded last marker -/
theorem rank_lt_iff (m : List Nat) (hm : m ≠ []) (h : Mono m) (N : Nat) :
    rank 0 m < (N + m.length).choose m.length ↔ m.getLast hm ≤ N := by
  constructor
  · intro hr
    by_contra hc
    have e := List.dropLast_concat_getLast hm
    have hl : m.dropLast.length + 1 = m.length := by
      have := congrArg List.length e; simp at this; simp; omega
    rw [← e, rank_snoc] at hr
    have : (N + (m.dropLast ++ [m.getLast hm]).length).choose
        (m.dropLast ++ [m.getLast hm]).length ≤
        (m.getLast hm + m.dropLast.length).choose (m.dropLast.length + 1) := by
      rw [e, ← hl]
      apply Nat.choose_le_choose
      omega
    omega
  · intro hz
    exact rank_lt m N h (fun x hx => Nat.le_trans (mono_le_getLast m hm h x hx) hz)

theorem getLast_eq_iff_rank (m : List Nat) (hm : m ≠ []) (h : Mono m) (N : Nat) :
    ((N + (m.length - 1)).choose m.length ≤ rank 0 m ∧ rank 0 m < (N + m.length).choose m.length) ↔
      m.getLast hm = N := by
  have hpos : 0 < m.length := List.length_pos_of_ne_nil hm
  rw [rank_lt_iff m hm h N]
  cases N with
  | zero =>
    have : (0 + (m.length - 1)).choose m.length = 0 := Nat.choose_eq_zero_of_lt (by omega)
    rw [this]; omega
  | succ N =>
    have h1 := rank_lt_iff m hm h N
    rw [show N + 1 + (m.length - 1) = N + m.length by omega]
    constructor
    · rintro ⟨ha, hb⟩
      by_contra hc
      have : m.getLast hm ≤ N := by omega
      have := h1.2 this
      omega
    · intro he
      refine ⟨?_, by omega⟩
      by_contra hc
      have := h1.1 (by omega)
      omega

theorem rank_zeros (j n : Nat) : rank j (List.replicate n 0) = 0 := by
  induction n generalizing j with
  | zero => rfl
  | succ n ih => simp [List.replicate_succ, rank, ih]

theorem sumsStep_replicate (D N : Nat) (hD : 0 < D) :
    sumsStep (List.replicate D N) = List.replicate (D - 1) 0 ++ [N + 1] := by
  induction D with
  | zero => omega
  | succ D ih =>
    cases D with
    | zero => rfl
    | succ D =>
      have := ih (by omega)
      simp only [List.replicate_succ, sumsStep, if_true, Nat.add_sub_cancel] at *
      rw [this]; rfl

theorem rank_zeros_snoc (D N : Nat) (hD : 0 < D) :
    rank 0 (List.replicate (D - 1) 0 ++ [N]) = (N + (D - 1)).choose D := by
  rw [rank_snoc, rank_zeros]
  simp only [List.length_replicate, Nat.zero_add]
  rw [show D - 1 + 1 = D by omega]

theorem mono_zeros_snoc (n N : Nat) : Mono (List.replicate n 0 ++ [N]) := by
  refine List.pairwise_append.2 ⟨?_, by simp, ?_⟩
  · exact List.pairwise_replicate.2 (Or.inr (Nat.le_refl _))
  · intro a ha b hb; have := List.eq_of_mem_replicate ha; omega

/-- summary: which tuples are visited between two odometer readings -/
theorem sums_visit_core (m0 : List Nat) (d : Nat) (hm : m0 ≠ []) (hmono : Mono m0) :
    ((List.range d).map (fun i => sumsDeref (steps i m0))).Nodup ∧
    ∀ t, t ∈ (List.range d).map (fun i => sumsDeref (steps i m0)) ↔
      (t.length = m0.length ∧ rank 0 m0 ≤ rank 0 (psums 0 t.reverse) ∧
        rank 0 (psums 0 t.reverse) < rank 0 m0 + d) := by
  have hder : ∀ m, Mono m → psums 0 (sumsDeref m).reverse = m := by
    intro m h
    rw [sumsDeref, List.reverse_reverse, adjacentDifference_eq, psums_diffs]
    exact List.pairwise_cons.2 ⟨by simp, h⟩
  constructor
  · rw [List.nodup_iff_pairwise_ne, List.pairwise_map]
    refine List.Pairwise.imp_of_mem ?_ (List.nodup_range (n := d))
    intro a b _ _ hab he
    apply hab
    have h1 := hder _ (steps_mono a m0 hmono)
    have h2 := hder _ (steps_mono b m0 hmono)
    have : rank 0 (steps a m0) = rank 0 (steps b m0) := by rw [← h1, ← h2, he]
    rw [rank_steps _ _ hm, rank_steps _ _ hm] at this
    omega
  · intro t
    have hpm : Mono (psums 0 t.reverse) := (List.pairwise_cons.1 (psums_mono 0 t.reverse)).2
    have := mem_steps_iff m0 d hm hmono (psums 0 t.reverse)
    rw [psums_length, List.length_reverse] at this
    constructor
    · intro ht
      obtain ⟨i, hi, rfl⟩ := List.mem_map.1 ht
      rw [hder _ (steps_mono i m0 hmono)]
      have := (mem_steps_iff m0 d hm hmono (steps i m0)).1 ⟨i, by simpa using hi, rfl⟩
      refine ⟨?_, this.2.2.1, this.2.2.2⟩
      rw [sumsDeref, List.length_reverse, adjacentDifference_eq]
      rw [← this.1]
      have e : (psums 0 (diffs 0 (steps i m0))).length = (steps i m0).length := by
        rw [psums_diffs _ _ (List.pairwise_cons.2 ⟨by simp, steps_mono i m0 hmono⟩)]
      rw [psums_length] at e; exact e
    · rintro ⟨h1, h2, h3⟩
      obtain ⟨i, hi, he⟩ := this.2 ⟨h1, hpm, h2, h3⟩
      refine List.mem_map.2 ⟨i, by simpa using hi, ?_⟩
      rw [he, sumsDeref, adjacentDifference_eq, diffs_psums, List.reverse_reverse]

end Tandem.Combinatorics
