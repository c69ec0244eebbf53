/-
C49: the times in the log denote the simulation time exactly.
-/
import Verif.Spec.LogTime

namespace Tandem.LogTime
open Tandem.Spec

theorem toInt_spec (x : ℚ) (h : 0 ≤ x) : 0 ≤ toInt x ∧ (toInt x : ℚ) ≤ x ∧ x < toInt x + 1 := by
  unfold toInt
  rw [if_pos h]
  exact ⟨Int.floor_nonneg.mpr h, Int.floor_le x, Int.lt_floor_add_one x⟩

/-- The split of a non-negative time. -/
theorem split_spec (t : ℚ) (h : 0 ≤ t) :
    let p := split t
    0 ≤ p.years ∧ 0 ≤ p.days ∧ 0 ≤ p.hours ∧ 0 ≤ p.minutes ∧ 0 ≤ p.seconds ∧
    t = p.years * 31557600 + p.days * 86400 + p.hours * 3600 + p.minutes * 60 + p.seconds ∧
    p.seconds < 60 ∧ p.minutes * 60 + p.seconds < 3600 ∧ p.hours * 3600 + p.minutes * 60 + p.seconds < 86400 ∧
    p.days * 86400 + p.hours * 3600 + p.minutes * 60 + p.seconds < 31557600 := by
  intro p
  obtain ⟨a1, a2, a3⟩ := toInt_spec (t / (60 * 60 * 24 * (36525 / 100))) (by positivity)
  set y := toInt (t / (60 * 60 * 24 * (36525 / 100))) with hy
  rw [le_div_iff₀ (by norm_num)] at a2
  rw [div_lt_iff₀ (by norm_num)] at a3
  set t1 := t - y * 60 * 60 * 24 * (36525 / 100) with ht1
  have h1 : 0 ≤ t1 := by linarith
  obtain ⟨b1, b2, b3⟩ := toInt_spec (t1 / (60 * 60 * 24)) (by positivity)
  set d := toInt (t1 / (60 * 60 * 24)) with hd
  rw [le_div_iff₀ (by norm_num)] at b2
  rw [div_lt_iff₀ (by norm_num)] at b3
  set t2 := t1 - d * 60 * 60 * 24 with ht2
  have h2 : 0 ≤ t2 := by linarith
  obtain ⟨c1, c2, c3⟩ := toInt_spec (t2 / (60 * 60)) (by positivity)
  set hh := toInt (t2 / (60 * 60)) with hhh
  rw [le_div_iff₀ (by norm_num)] at c2
  rw [div_lt_iff₀ (by norm_num)] at c3
  set t3 := t2 - hh * 60 * 60 with ht3
  have h3 : 0 ≤ t3 := by linarith
  obtain ⟨d1, d2, d3⟩ := toInt_spec (t3 / 60) (by positivity)
  set m := toInt (t3 / 60) with hm
  rw [le_div_iff₀ (by norm_num)] at d2
  rw [div_lt_iff₀ (by norm_num)] at d3
  have hp : p = ⟨y, d, hh, m, t3 - m * 60⟩ := rfl
  rw [hp]
  refine ⟨a1, b1, c1, d1, ?_, ?_, ?_, ?_, ?_, ?_⟩ <;> simp only <;> linarith

theorem cond_sum (P : Prop) [Decidable P] (x : ℚ) (u : TimeUnit) (h : ¬ P → x = 0) :
    durationOf (if P then [(x, u)] else []) = x * unitSeconds u := by
  by_cases hP : P
  · simp [hP, durationOf]
  · simp [hP, durationOf, h hP]

theorem durationOf_append (a b : List (ℚ × TimeUnit)) :
    durationOf (a ++ b) = durationOf a + durationOf b := by simp [durationOf]

/-- C49: the printed pieces add up to the time, exactly. -/
theorem C49_exact (t : ℚ) (h : 0 ≤ t) : durationOf (pieces t) = t := by
  obtain ⟨a, b, c, d, e, f, -, -, -, -⟩ := split_spec t h
  have z : ∀ n : ℤ, 0 ≤ n → ¬ 0 < n → ((n : ℤ) : ℚ) = 0 := by
    intro n h1 h2; have : n = 0 := by omega
    simp [this]
  have key : durationOf (largeUnits (split t)) + (split t).seconds = t := by
    unfold largeUnits
    rw [durationOf_append, durationOf_append, durationOf_append, cond_sum _ _ _ (z _ a), cond_sum _ _ _ (z _ b),
      cond_sum _ _ _ (z _ c), cond_sum _ _ _ (z _ d)]
    simp only [unitSeconds]
    linarith
  unfold pieces
  split
  · rw [durationOf_append]; simpa [durationOf, unitSeconds] using key
  · rename_i hn
    rw [not_or] at hn
    have : (split t).seconds = 0 := le_antisymm (not_lt.mp hn.1) e
    rw [this, add_zero] at key
    exact key

theorem read_number (val : List Char → ℚ) (n : List Char) (hn : ∀ c ∈ n, letterSeconds c = none ∧ c ≠ ' ') :
    ∀ w cs, readDuration val w (n ++ cs) = readDuration val (w ++ n) cs := by
  induction n with
  | nil => intro w cs; simp
  | cons c n ih =>
    intro w cs
    obtain ⟨h1, h2⟩ := hn c (by simp)
    rw [List.cons_append, readDuration, h1]
    simp only [if_neg h2]
    rw [ih (fun c hc => hn c (by simp [hc])), List.append_assoc]; rfl

/-- C49: whoever reads the printed text, number by number and unit by unit, gets the time; `num` prints a number
without unit letters and blanks, `val` reads it. -/
theorem C49_text (num : ℚ → String) (val : List Char → ℚ) (hn : ∀ x, ∀ c ∈ (num x).toList, letterSeconds c = none ∧ c ≠ ' ')
    (hv : ∀ x, val (num x).toList = x) (t : ℚ) (h : 0 ≤ t) : readDuration val [] (formatTime num t).toList = t := by
  have key : ∀ l : List (ℚ × TimeUnit), readDuration val [] (String.join (l.map (pieceText num))).toList = durationOf l := by
    intro l
    induction l with
    | nil => rfl
    | cons p l ih =>
      rw [List.map_cons, String.join_cons, String.toList_append]
      have hp : (pieceText num p).toList = (num p.1).toList ++ (unitText p.2).toList := by
        unfold pieceText; rw [String.toList_append]
      rw [hp, List.append_assoc, read_number val _ (hn p.1), List.nil_append]
      have e : durationOf (p :: l) = p.1 * unitSeconds p.2 + durationOf l := by simp [durationOf]
      rw [e, ← ih, ← hv p.1]
      generalize (String.join (l.map (pieceText num))).toList = cs
      rcases p with ⟨x, u⟩
      cases u <;> simp [unitText, readDuration, letterSeconds, unitSeconds, hv]
  unfold formatTime
  rw [key, C49_exact t h]

example : readDuration (fun l => (l.map fun c => (c.toNat : ℚ) - 48).foldl (fun a d => 10 * a + d) 0) []
    "1y 1d 3h 1m 2s".toList = 31654862 := by decide +kernel

/-- C49: different times are printed differently (before the rounding of the seconds). -/
theorem C49_injective (t t' : ℚ) (h : 0 ≤ t) (h' : 0 ≤ t') (e : pieces t = pieces t') : t = t' := by
  rw [← C49_exact t h, ← C49_exact t' h', e]

theorem wellWritten_cons (P : Prop) [Decidable P] (x : ℚ) (u : TimeUnit) (l : List (ℚ × TimeUnit))
    (h1 : P → 0 < x) (h2 : u ≠ .s → 0 ≤ x → ∃ n : ℕ, x = n) (h3 : ∀ q ∈ l, unitSeconds q.2 < unitSeconds u)
    (h4 : durationOf l < unitSeconds u) (h5 : WellWritten l) :
    WellWritten ((if P then [(x, u)] else []) ++ l) := by
  by_cases hP : P
  · simp only [hP, if_true, List.cons_append, List.nil_append, WellWritten]
    exact ⟨h1 hP, fun hu => h2 hu (le_of_lt (h1 hP)), h3, h4, h5⟩
  · simpa [hP] using h5

theorem durationOf_nonneg_part (P : Prop) [Decidable P] (x : ℚ) (u : TimeUnit) (hx : ¬ P → x = 0)
    (l : List (ℚ × TimeUnit)) :
    durationOf ((if P then [(x, u)] else []) ++ l) = x * unitSeconds u + durationOf l := by
  rw [durationOf_append, cond_sum _ _ _ hx]

/-- C49: a positive time is written from years to seconds without superfluous parts, and every number is below one
of the next larger unit. -/
theorem C49_well_written (t : ℚ) (h : 0 < t) :
    WellWritten (pieces t) ∧ ∀ q ∈ pieces t, belowNext q := by
  obtain ⟨a, b, c, d, e, f, b1, b2, b3, b4⟩ := split_spec t h.le
  have z : ∀ n : ℤ, 0 ≤ n → ¬ 0 < n → ((n : ℤ) : ℚ) = 0 := by
    intro n h1 h2; have : n = 0 := by omega
    simp [this]
  have nn : ∀ n : ℤ, (0 : ℚ) ≤ n → ∃ k : ℕ, (n : ℚ) = k := by
    intro n hn
    obtain ⟨k, hk⟩ := Int.eq_ofNat_of_zero_le (by exact_mod_cast hn : 0 ≤ n)
    exact ⟨k, by rw [hk]; simp⟩
  have pos : ∀ n : ℤ, 0 < n → (0 : ℚ) < n := fun n hn => by exact_mod_cast hn
  have nnq : ∀ n : ℤ, 0 ≤ n → (0 : ℚ) ≤ n := fun n hn => by exact_mod_cast hn
  set p := split t with hp
  -- the seconds are written iff they are positive
  have hpieces : pieces t =
      (if 0 < p.years then [((p.years : ℚ), TimeUnit.y)] else []) ++
      ((if 0 < p.days then [((p.days : ℚ), TimeUnit.d)] else []) ++
      ((if 0 < p.hours then [((p.hours : ℚ), TimeUnit.h)] else []) ++
      ((if 0 < p.minutes then [((p.minutes : ℚ), TimeUnit.m)] else []) ++
      ((if 0 < p.seconds then [(p.seconds, TimeUnit.s)] else []) ++ [])))) := by
    unfold pieces
    rw [← hp]
    by_cases hs : 0 < p.seconds
    · rw [if_pos (Or.inl hs)]; simp [largeUnits, hs]
    · have hs0 : p.seconds = 0 := le_antisymm (not_lt.mp hs) e
      have : ¬ (largeUnits p = []) := by
        intro hnil
        simp only [largeUnits, List.append_eq_nil_iff] at hnil
        obtain ⟨⟨⟨n1, n2⟩, n3⟩, n4⟩ := hnil
        have q1 : ¬ 0 < p.years := fun hh => by simp [hh] at n1
        have q2 : ¬ 0 < p.days := fun hh => by simp [hh] at n2
        have q3 : ¬ 0 < p.hours := fun hh => by simp [hh] at n3
        have q4 : ¬ 0 < p.minutes := fun hh => by simp [hh] at n4
        rw [z _ a q1, z _ b q2, z _ c q3, z _ d q4, hs0] at f
        linarith
      rw [if_neg (by rintro (x | x); exacts [hs x, this x])]
      simp [largeUnits, hs]
  have s0 : ¬ 0 < p.seconds → p.seconds = 0 := fun hs => le_antisymm (not_lt.mp hs) e
  rw [hpieces]
  have := nnq _ a; have := nnq _ b; have := nnq _ c; have := nnq _ d
  constructor
  · refine wellWritten_cons _ _ _ _ (pos _) (fun _ => nn _) ?_ ?_
      (wellWritten_cons _ _ _ _ (pos _) (fun _ => nn _) ?_ ?_
      (wellWritten_cons _ _ _ _ (pos _) (fun _ => nn _) ?_ ?_
      (wellWritten_cons _ _ _ _ (pos _) (fun _ => nn _) ?_ ?_
      (wellWritten_cons _ _ _ _ id (fun h => absurd rfl h) ?_ ?_ trivial))))
    all_goals
      first
      | (intro q hq
         simp only [List.mem_append, List.mem_ite_nil_right, List.mem_singleton, List.not_mem_nil, or_false] at hq
         rcases hq with ⟨-, rfl⟩ | ⟨-, rfl⟩ | ⟨-, rfl⟩ | ⟨-, rfl⟩ <;> norm_num [unitSeconds])
      | (intro q hq
         simp only [List.mem_append, List.mem_ite_nil_right, List.mem_singleton, List.not_mem_nil, or_false] at hq
         rcases hq with ⟨-, rfl⟩ | ⟨-, rfl⟩ | ⟨-, rfl⟩ <;> norm_num [unitSeconds])
      | (intro q hq
         simp only [List.mem_append, List.mem_ite_nil_right, List.mem_singleton, List.not_mem_nil, or_false] at hq
         rcases hq with ⟨-, rfl⟩ | ⟨-, rfl⟩ <;> norm_num [unitSeconds])
      | (intro q hq
         simp only [List.mem_append, List.mem_ite_nil_right, List.mem_singleton, List.not_mem_nil, or_false] at hq
         rcases hq with ⟨-, rfl⟩ ; norm_num [unitSeconds])
      | (intro q hq; simp at hq)
      | (simp only [durationOf_nonneg_part _ _ _ (z _ a), durationOf_nonneg_part _ _ _ (z _ b),
          durationOf_nonneg_part _ _ _ (z _ c), durationOf_nonneg_part _ _ _ (z _ d),
          durationOf_nonneg_part _ _ _ s0, unitSeconds]
         simp only [durationOf, List.map_nil, List.sum_nil]
         linarith)
  · intro q hq
    simp only [List.mem_append, List.mem_ite_nil_right, List.mem_singleton, List.not_mem_nil, or_false] at hq
    rcases hq with ⟨-, rfl⟩ | ⟨-, rfl⟩ | ⟨-, rfl⟩ | ⟨-, rfl⟩ | ⟨-, rfl⟩ <;> simp only [belowNext] <;> linarith

/-- C49: time zero is printed as zero seconds. -/
theorem C49_zero : pieces 0 = [(0, .s)] := by
  simp [pieces, split, toInt, largeUnits]

/-- C49: something is printed for every time. -/
theorem C49_nonempty (num : ℚ → String) (t : ℚ) : pieces t ≠ [] ∧ formatTime num t ≠ "" := by
  have h : pieces t ≠ [] := by
    unfold pieces
    split
    · simp
    · rename_i hn; rw [not_or] at hn; exact hn.2
  refine ⟨h, ?_⟩
  unfold formatTime
  cases hp : pieces t with
  | nil => exact absurd hp h
  | cons p l =>
    intro he
    have := congrArg String.length he
    rw [List.map_cons, String.join_cons, String.length_append] at this
    have hl : 0 < (pieceText num p).length := by
      unfold pieceText
      rw [String.length_append]
      have : 0 < (unitText p.2).length := by
        cases p.2 <;> decide
      omega
    rw [show "".length = 0 from rfl] at this
    omega

/-- C49, negative: a negative time is not printed correctly; minus one hour becomes zero seconds. -/
theorem C49_negative : pieces (-3600) = [(0, .s)] := by decide +kernel

example : pieces 31654862 = [(1, .y), (1, .d), (3, .h), (1, .m), (2, .s)] := by decide +kernel
example : formatTime (fun x => toString x.num) 31654862 = "1y 1d 3h 1m 2s" := by decide +kernel
example : pieces 3600 = [(1, .h)] := by decide +kernel

end Tandem.LogTime
