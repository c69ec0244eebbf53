import Verif.Lemmas.MultiIndex
/-! # Properties C01 and C02: multi-indices -/
namespace Tandem.MultiIndex
open Tandem.Spec

/-- C01: `flatten` is the position with the first component fastest, it is below the volume of the
shape, and `unflatten` recovers the multi-index (no undefined behaviour). -/
theorem C01_unflatten_flatten (idx shape : List Nat) (h : InShape idx shape) :
    flatten idx shape = position idx shape ∧ flatten idx shape < volume shape ∧
      unflatten (flatten idx shape) shape = some idx := by
  rw [flatten_eq_position]
  exact ⟨rfl, position_lt _ _ h, unflatten_position _ _ h⟩

/-- C01: every number below the volume unflattens to a multi-index of the shape, and flattening
returns the number. -/
theorem C01_flatten_unflatten (k : Nat) (shape : List Nat) (hk : k < volume shape) :
    ∃ idx, unflatten k shape = some idx ∧ InShape idx shape ∧ flatten idx shape = k := by
  obtain ⟨idx, h1, h2, h3⟩ := unflatten_inShape k shape hk
  exact ⟨idx, h1, h2, by rw [flatten_eq_position, h3]⟩

/-- C01: `unflatten` is undefined behaviour exactly if some extent is zero. -/
theorem C01_unflatten_ub_iff (k : Nat) (shape : List Nat) :
    unflatten k shape = none ↔ 0 ∈ shape := by
  induction shape generalizing k with
  | nil => simp [unflatten]
  | cons n ns ih =>
    by_cases hn : n = 0
    · simp [unflatten, hn]
    · simp [unflatten, hn, ih, Ne.symm hn]

example : InShape [2, 0, 3] [3, 1, 4] := by
  refine ⟨rfl, ?_⟩
  intro d h h'
  match d with
  | 0 => simp
  | 1 => simp
  | 2 => simp
example : flatten [2, 0, 3] [3, 1, 4] = 11 ∧ unflatten 11 [3, 1, 4] = some [2, 0, 3] := by decide
example : (11 : Nat) < volume [3, 1, 4] := by decide

/-- C02: iterating over `product(shape)` ends after exactly `volume shape` iterations and visits
every multi-index of the shape exactly once, the `k`-th visited one having flat index `k`.
Required: all extents but the last are positive (`D ≥ 1`). -/
theorem C02_product_complete (shape : List Nat) (hD : shape ≠ [])
    (hpos : ∀ n ∈ shape.dropLast, 0 < n) (fuel : Nat) (hf : volume shape ≤ fuel) :
    ∃ visited, visit shape fuel = some visited ∧ visited.length = volume shape ∧
      visited.Nodup ∧ (∀ idx, idx ∈ visited ↔ InShape idx shape) ∧
      (∀ k (hk : k < visited.length), flatten visited[k] shape = k) := by
  cases shape with
  | nil => exact absurd rfl hD
  | cons n ns =>
    have hi : InnerPos (n :: ns) := (innerPos_iff _).2 hpos
    have hrun := loop_un n ns hi (volume (n :: ns)) 0 fuel (by omega) hf
    have hun : ∀ k, k < volume (n :: ns) →
        InShape (un k (n :: ns)) (n :: ns) ∧ flatten (un k (n :: ns)) (n :: ns) = k := by
      intro k hk
      obtain ⟨idx, h1, h2, h3⟩ := C01_flatten_unflatten k (n :: ns) hk
      rw [un_eq_unflatten k _ hk] at h1
      cases h1
      exact ⟨h2, h3⟩
    refine ⟨_, by rw [visit, first_eq]; exact hrun, by simp, ?_, ?_, ?_⟩
    · refine List.Pairwise.map _ (fun a b (hab : a ≠ b) he => hab (un_inj _ _ _ _ he)) ?_
      exact List.nodup_range'
    · intro idx
      simp only [List.mem_map, List.mem_range'_1, Nat.zero_add, Nat.zero_le, true_and]
      constructor
      · rintro ⟨k, hk, rfl⟩
        exact (hun k hk).1
      · intro h
        obtain ⟨_, h2, h3⟩ := C01_unflatten_flatten idx _ h
        refine ⟨_, h2, ?_⟩
        rw [un_eq_unflatten _ _ h2] at h3
        exact Option.some.inj h3
    · intro k hk
      simp only [List.length_map, List.length_range'] at hk
      simpa using (hun k hk).2

/-- C02: with fewer iterations than `volume shape` the loop has not ended (so the iteration count
is exactly `volume shape`). -/
theorem C02_product_not_earlier (shape : List Nat) (hD : shape ≠ [])
    (hpos : ∀ n ∈ shape.dropLast, 0 < n) (fuel : Nat) (hf : fuel < volume shape) :
    visit shape fuel = none := by
  cases shape with
  | nil => exact absurd rfl hD
  | cons n ns =>
    rw [visit, first_eq]
    exact loop_short n ns ((innerPos_iff _).2 hpos) fuel 0 (by omega)

example : visit [2, 3] 6 = some [[0,0],[1,0],[0,1],[1,1],[0,2],[1,2]] := by
  simp [visit, first, loop, last, step, carry]
example : ([2, 3] : List Nat) ≠ [] ∧ (∀ n ∈ ([2, 3] : List Nat).dropLast, 0 < n) ∧
    volume [2, 3] ≤ 6 := by decide

theorem last_getLast (n : Nat) (ns : List Nat) :
    last (n :: ns) = first (n :: ns) → (n :: ns).getLast (by simp) = 0 := by
  induction ns generalizing n with
  | nil => intro h; simpa [last, first] using h
  | cons m ns ih =>
    intro h
    have := ih m (by simpa [last, first] using h)
    simpa [List.getLast_cons] using this

/-- C02, boundary case the code gets wrong: if some inner extent is zero while the last extent is
positive, a user expects nothing to be visited (there is no multi-index of that shape), but the
loop visits the out-of-shape index `(0,...,0)` first. -/
theorem C02_zero_extent_visits_bogus_index (shape : List Nat) (hz : 0 ∈ shape.dropLast)
    (hl : shape.getLast? ≠ some 0) (fuel : Nat) :
    (∀ idx, ¬ InShape idx shape) ∧
    (∀ visited, visit shape fuel = some visited →
      ∃ t, visited = shape.map (fun _ => 0) :: t) := by
  constructor
  · rintro idx ⟨hlen, h⟩
    have hz' : 0 ∈ shape := List.dropLast_subset _ hz
    obtain ⟨d, hd, he⟩ := List.getElem_of_mem hz'
    have := h d (by omega) hd
    omega
  · intro visited hv
    cases shape with
    | nil => simp at hz
    | cons n ns =>
      have hne : first (n :: ns) ≠ last (n :: ns) := by
        intro he
        apply hl
        rw [List.getLast?_eq_some_getLast (by simp), last_getLast n ns he.symm]
      unfold visit loop at hv
      rw [if_neg hne] at hv
      cases fuel with
      | zero => simp at hv
      | succ f =>
        simp only [Option.map_eq_some_iff] at hv
        obtain ⟨t, _, rfl⟩ := hv
        exact ⟨t, rfl⟩

/-- C02, concrete witness of the boundary case: `product({0,3})` visits three indices. -/
theorem C02_zero_extent_witness : visit [0, 3] 3 = some [[0, 0], [0, 1], [0, 2]] := by
  simp [visit, first, loop, last, step, carry]

end Tandem.MultiIndex
