import Verif.Model.Distribute
/-! # Properties C15 (`distribute`) and C16 (`SortedDistributionToRank`) -/
namespace Tandem.Distribute

/-- C15: with at least one rank, `distribute` succeeds on every rank; rank 0 starts at the beginning
of the range, every rank starts where the previous one ends, the last one ends at the end; the number
of items of a rank is `⌊n/size⌋` or one more (so counts differ by at most one), and never less than
that of a later rank. -/
theorem C15_distribute (a b size : Nat) (hab : a ≤ b) (hs : 0 < size) :
    ∃ f : Nat → Nat × Nat, (∀ rank, distribute a b rank size = some (f rank)) ∧
      (f 0).1 = a ∧ (f (size - 1)).2 = b ∧
      (∀ rank, rank + 1 < size → (f rank).2 = (f (rank + 1)).1) ∧
      (∀ rank, rank < size → (f rank).1 ≤ (f rank).2 ∧
        ((f rank).2 - (f rank).1 = (b - a) / size ∨ (f rank).2 - (f rank).1 = (b - a) / size + 1)) ∧
      (∀ r r', r ≤ r' → (f r').2 - (f r').1 ≤ (f r).2 - (f r).1) := by
  have hd : (b - a) / size * size + (b - a) % size = b - a := by
    rw [Nat.mul_comm]; exact Nat.div_add_mod _ _
  have hm : (b - a) % size < size := Nat.mod_lt _ hs
  generalize hq : (b - a) / size = q at hd
  generalize he : (b - a) % size = e at hd hm
  have hex : b - a - q * size = e := by omega
  refine ⟨fun rank => (a + rank * q + (if rank < e then rank else e),
    a + rank * q + (if rank < e then rank else e) + q + (if rank < e then 1 else 0)), ?_, ?_, ?_, ?_, ?_, ?_⟩
  · intro rank
    simp only [distribute, show ¬ size = 0 by omega, if_false, hq, hex]
  · simp
  · simp only
    obtain ⟨k, rfl⟩ : ∃ k, size = k + 1 := ⟨size - 1, by omega⟩
    simp only [Nat.add_sub_cancel]
    have h1 : (k + 1) * q = k * q + q := by rw [Nat.add_mul, Nat.one_mul]
    have h2 : q * (k + 1) = (k + 1) * q := Nat.mul_comm _ _
    split <;> omega
  · intro rank h
    have h1 : (rank + 1) * q = rank * q + q := by rw [Nat.add_mul, Nat.one_mul]
    simp only [h1]
    split <;> split <;> omega
  · intro rank h
    simp only
    constructor
    · omega
    · split <;> omega
  · intro r r' h
    simp only
    split <;> split <;> omega

/-- C15: zero ranks is a division by zero. -/
theorem C15_zero_ranks (a b rank : Nat) : distribute a b rank 0 = none := rfl

example : (List.range 3).map (fun r => distribute 5 16 r 3) =
    [some (5, 9), some (9, 13), some (13, 16)] := by decide

/-! ## C16 -/

/-- `down` stops at a rank whose start is at most `id`. -/
theorem down_ok (dist : List Nat) (id g : Nat) (hg : g < dist.length) (h0 : ∃ h : 0 < dist.length, dist[0] ≤ id) :
    ∃ g', down dist id g = .ok g' ∧ g' ≤ g ∧ ∃ h : g' < dist.length, dist[g'] ≤ id := by
  induction g with
  | zero => exact ⟨0, rfl, Nat.le_refl _, hg, h0.2⟩
  | succ g ih =>
    have hget : dist[g + 1]? = some dist[g + 1] := List.getElem?_eq_getElem hg
    simp only [down, hget]
    split
    · obtain ⟨g', h1, h2, h3⟩ := ih (by omega)
      exact ⟨g', h1, by omega, h3⟩
    · exact ⟨g + 1, rfl, Nat.le_refl _, hg, by omega⟩

theorem up_ok (dist : List Nat) (id : Nat) (hlast : ∃ h : dist.length - 1 < dist.length, id < dist[dist.length - 1]) :
    ∀ (todo g : Nat), todo + g = dist.length - 1 → (∃ h : g < dist.length, dist[g] ≤ id) →
    ∃ r, up dist id todo g = .ok r ∧ ∃ h : r + 1 < dist.length, dist[r] ≤ id ∧ id < dist[r + 1] := by
  intro todo
  induction todo with
  | zero =>
    intro g hg h
    obtain ⟨h1, h2⟩ := h
    obtain ⟨h3, h4⟩ := hlast
    have : g = dist.length - 1 := by omega
    subst this
    omega
  | succ t ih =>
    intro g hg h
    obtain ⟨h1, h2⟩ := h
    have hl : g + 1 < dist.length := by omega
    have hget : dist[g + 1]? = some dist[g + 1] := List.getElem?_eq_getElem hl
    simp only [up, hget]
    split
    · rename_i hid
      exact ih (g + 1) (by omega) ⟨hl, hid⟩
    · rename_i hid
      exact ⟨g, rfl, hl, h2, by omega⟩

/-- C16: for a distribution that starts at 0 and an `id` below its end (64-bit numbers), the lookup
reads only valid entries and returns a rank whose interval contains `id`.  (No monotonicity is needed
for this; see `C16_unique` for uniqueness.) -/
theorem C16_finds_rank (dist : List Nat) (hlen : 2 ≤ dist.length) (h0 : dist[0]'(by omega) = 0)
    (hmax : dist[dist.length - 1]'(by omega) < 2 ^ 64)
    (id : Nat) (hid : id < dist[dist.length - 1]'(by omega)) :
    ∃ r, toRank dist id = .ok r ∧ ∃ h : r + 1 < dist.length, dist[r] ≤ id ∧ id < dist[r + 1] := by
  have hback : dist.getLast? = some (dist[dist.length - 1]'(by omega)) := by
    rw [List.getLast?_eq_getElem?]; exact List.getElem?_eq_getElem _
  generalize hB : dist[dist.length - 1]'(by omega) = B at *
  have hBpos : 0 < B := by omega
  have hmod : (B + (2 ^ 64 - 1)) % 2 ^ 64 = B - 1 := by
    rw [show B + (2 ^ 64 - 1) = (B - 1) + 2 ^ 64 by omega, Nat.add_mod_right, Nat.mod_eq_of_lt (by omega)]
  have hdiv : (B - 1) / (dist.length - 1) ≤ B - 1 := Nat.div_le_self _ _
  have hgs : guessSize dist = .ok (1 + (B - 1) / (dist.length - 1)) := by
    simp only [guessSize, hback, hmod]
    rw [if_neg (by omega), Nat.mod_eq_of_lt (by omega)]
  have hpos0 : ¬ (1 + (B - 1) / (dist.length - 1) = 0) := by
    generalize (B - 1) / (dist.length - 1) = q; omega
  have hguess : id / (1 + (B - 1) / (dist.length - 1)) < dist.length - 1 := by
    rw [Nat.div_lt_iff_lt_mul (Nat.lt_of_lt_of_le Nat.zero_lt_one (Nat.le_add_right _ _))]
    have h1 := Nat.div_add_mod (B - 1) (dist.length - 1)
    have h2 := Nat.mod_lt (B - 1) (show 0 < dist.length - 1 by omega)
    rw [Nat.mul_add, Nat.mul_one]
    omega
  obtain ⟨g, hg1, hg2, hg3⟩ := down_ok dist id (id / (1 + (B - 1) / (dist.length - 1))) (by omega)
    ⟨by omega, by omega⟩
  have hgl : g ≤ dist.length - 1 := by omega
  obtain ⟨r, hr1, hr2⟩ := up_ok dist id ⟨by omega, by rw [hB]; exact hid⟩ (dist.length - 1 - g) g
    (by omega) hg3
  refine ⟨r, ?_, hr2⟩
  simp only [toRank, hgs, if_neg (hpos0), hg1, hr1]

/-- C16 (uniqueness): in a non-decreasing distribution only one rank's interval contains `id`. -/
theorem C16_unique (dist : List Nat) (hmono : dist.Pairwise (· ≤ ·)) (id r r' : Nat)
    (h : r + 1 < dist.length) (h' : r' + 1 < dist.length)
    (hr : dist[r] ≤ id ∧ id < dist[r + 1]) (hr' : dist[r'] ≤ id ∧ id < dist[r' + 1]) : r = r' := by
  rw [List.pairwise_iff_getElem] at hmono
  have key : ∀ a b : Nat, a < b → (ha : a + 1 < dist.length) → (hb : b + 1 < dist.length) →
      dist[b] ≤ id → id < dist[a + 1] → False := by
    intro a b hab ha hb h1 h2
    rcases Nat.lt_or_ge (a + 1) b with hlt | hge
    · have := hmono (a + 1) b ha (by omega) hlt; omega
    · have : a + 1 = b := by omega
      subst this; omega
  rcases Nat.lt_trichotomy r r' with hlt | heq | hgt
  · exact (key r r' hlt h h' hr'.1 hr.2).elim
  · exact heq
  · exact (key r' r hgt h' h hr.1 hr'.2).elim

theorem prefixSums_get : ∀ (ns : List Nat) (acc i : Nat), i ≤ ns.length →
    (prefixSums acc ns)[i]? = some (acc + (ns.take i).sum) := by
  intro ns
  induction ns with
  | nil => intro acc i hi; have : i = 0 := by simpa using hi
           subst this; simp [prefixSums]
  | cons n ns ih =>
    intro acc i hi
    cases i with
    | zero => simp [prefixSums]
    | succ i =>
      simp only [prefixSums, List.getElem?_cons_succ, List.take_succ_cons, List.sum_cons]
      rw [ih (acc + n) i (by simpa using hi)]
      simp only [Nat.add_assoc]

theorem prefixSums_length : ∀ (ns : List Nat) (acc : Nat), (prefixSums acc ns).length = ns.length + 1 := by
  intro ns
  induction ns with
  | nil => intro acc; rfl
  | cons n ns ih => intro acc; simp [prefixSums, ih]

/-- C16 end to end: if the ranks contribute `nums` items each, then the lookup in the distribution
built from them returns, for every item number below the total, the rank `r` that contributed it: the
number is at least the sum of the contributions of the ranks before `r`, and less than that sum plus
`r`'s contribution. -/
theorem C16_owner (nums : List Nat) (htot : nums.sum < 2 ^ 64) (id : Nat) (hid : id < nums.sum) :
    ∃ r, toRank (makeSortedDistribution nums) id = .ok r ∧ ∃ h : r < nums.length,
      (nums.take r).sum ≤ id ∧ id < (nums.take r).sum + nums[r] := by
  have hl := prefixSums_length nums 0
  have hn : 1 ≤ nums.length := by
    cases nums with
    | nil => simp at hid
    | cons => simp
  have hget : ∀ i, (h : i ≤ nums.length) → ∃ h' : i < (makeSortedDistribution nums).length,
      (makeSortedDistribution nums)[i] = (nums.take i).sum := by
    intro i h
    have h1 := prefixSums_get nums 0 i h
    have h2 : i < (prefixSums 0 nums).length := by omega
    refine ⟨h2, ?_⟩
    rw [List.getElem?_eq_getElem h2] at h1
    simpa [makeSortedDistribution] using h1
  have hlen : (makeSortedDistribution nums).length = nums.length + 1 := hl
  have hlast : (makeSortedDistribution nums)[(makeSortedDistribution nums).length - 1]'(by omega) = nums.sum := by
    obtain ⟨h1, h2⟩ := hget nums.length (Nat.le_refl _)
    simp only [hlen, Nat.add_sub_cancel]
    rw [h2, List.take_length]
  obtain ⟨r, hr1, hr2, hr3, hr4⟩ := C16_finds_rank (makeSortedDistribution nums) (by omega)
    (by have := (hget 0 (by omega)).2; simpa using this) (by rw [hlast]; exact htot) id
    (by rw [hlast]; exact hid)
  have hrn : r < nums.length := by omega
  refine ⟨r, hr1, hrn, ?_, ?_⟩
  · rw [(hget r (by omega)).2] at hr3; exact hr3
  · rw [(hget (r + 1) (by omega)).2] at hr4
    rw [List.take_add_one, List.getElem?_eq_getElem hrn, List.sum_append] at hr4
    simpa using hr4

/-- C16 (boundary): an empty distribution over one rank makes every lookup divide by zero, because
`1 + (0 - 1) / 1` wraps to zero. -/
theorem C16_empty_single_rank (id : Nat) : toRank [0, 0] id = .ub := by
  have : guessSize [0, 0] = .ok 0 := by decide
  simp [toRank, this]

/-- C16 (boundary): ids at or above the end are not rejected: just above, the number of ranks is
returned; further above, the table is read out of bounds. -/
theorem C16_id_too_large : toRank [0, 2, 4] 4 = .ok 2 ∧ toRank [0, 2, 4] 6 = .ub := by decide

/-- Non-vacuity, with empty ranks. -/
example : toRank (makeSortedDistribution [3, 0, 0, 5, 0]) 3 = .ok 3 ∧
    toRank (makeSortedDistribution [3, 0, 0, 5, 0]) 2 = .ok 0 ∧ 3 < [3, 0, 0, 5, 0].sum := by decide

end Tandem.Distribute
