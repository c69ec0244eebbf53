import Verif.Lemmas.GenMesh
import Verif.Props.Simplex
import Mathlib.Tactic.Linarith
import Mathlib.Tactic.FieldSimp
import Mathlib.Tactic.Ring
import Mathlib.Algebra.Order.Field.Basic
import Mathlib.Algebra.Order.Round
import Mathlib.Data.Rat.Floor
/-! # Properties C26 (elements and vertices do not depend on the number of ranks), C28 (resolution) and
C29 (region lookup) -/
namespace Tandem.GenMesh
open Tandem.MultiIndex Tandem.Distribute Tandem.Spec

theorem volume_pos (N : List Nat) (hpos : ∀ n ∈ N, 0 < n) : 0 < volume N := by
  induction N with
  | nil => simp [volume]
  | cons n N ih =>
    have := ih (fun m hm => hpos m (by simp [hm]))
    have h2 := hpos n (by simp)
    simp only [volume, List.foldr_cons] at *
    exact Nat.mul_pos h2 this

/-- Slices of one list cut at the borders of `distribute`, concatenated. -/
theorem distributed_concat {α : Type} (G : List α) (g : Nat → Option (List α)) (size : Nat)
    (hs : 0 < size) (hg : ∀ rank a b, rank < size → distribute 0 G.length rank size = some (a, b) →
      a ≤ b → b ≤ G.length → g rank = some (slice G a b)) :
    ∃ parts, (List.range size).mapM g = some parts ∧ parts.flatten = G := by
  obtain ⟨f, h1, h2, h3, h4, h5, _⟩ := C15_distribute 0 G.length size (Nat.zero_le _) hs
  have hle : ∀ k rank, rank + k = size - 1 → (f rank).2 ≤ G.length := by
    intro k
    induction k with
    | zero => intro rank h; rw [show rank = size - 1 by omega, h3]
    | succ k ih =>
      intro rank h
      have := ih (rank + 1) (by omega)
      have := (h5 (rank + 1) (by omega)).1
      rw [h4 rank (by omega)]
      omega
  refine ⟨(List.range size).map (fun r => slice G (f r).1 (f r).2), ?_, ?_⟩
  · apply mapM_congr_some
    intro r hr
    have hr := List.mem_range.1 hr
    exact hg r _ _ hr (by rw [h1]) (h5 r hr).1 (hle (size - 1 - r) r (by omega))
  · rw [slice_flat G f h2 size hs h4 (fun r hr => (h5 r hr).1), h3, slice_full]

/-- C26: in two and three dimensions, with at least one cell in every direction, the element lists
of the ranks `0, ..., size-1`, one after the other, are the list of a run on one rank, for every
number of ranks.  The list has `S·N₀·…·N_{D-1}` elements (`S = 2` or `5`), and every element has
`D+1` vertices. -/
theorem C26_elements (N : List Nat) (hD : N.length = 2 ∨ N.length = 3) (hpos : ∀ n ∈ N, 0 < n) :
    ∃ G, rankElements N 0 1 = some G ∧
      G.length = volume N * (if N.length = 2 then 2 else 5) ∧
      (∀ s ∈ G, s.length = N.length + 1) ∧
      ∀ size, 0 < size →
        ∃ parts, (List.range size).mapM (fun rank => rankElements N rank size) = some parts ∧
          parts.flatten = G := by
  have hcs : ∀ c, ∃ l, c < volume N → cubeSimplices N c = some l ∧
      l.length = numSimplices N.length ∧ ∀ s ∈ l, s.length = N.length + 1 := by
    intro c
    by_cases h : c < volume N
    · obtain ⟨e, he, -, -⟩ := unflatten_inShape c N h
      refine ⟨_, fun _ => ⟨cubeSimplices_eq N c e he, ?_, ?_⟩⟩
      · simp [cellSimplices, tess_length _ _ hD]
      · intro s hs
        obtain ⟨t, ht, rfl⟩ := List.mem_map.1 hs
        have := (Simplex.sort_perm (t.map (vid N e))).length_eq
        rw [Simplex.mk, this, List.length_map]
        exact tess_simplex_length _ _ t ht
    · exact ⟨[], fun h' => absurd h' h⟩
  obtain ⟨cs, hcs⟩ := Classical.axiomOfChoice hcs
  have hlen := flatMap_length cs (numSimplices N.length) (volume N) (fun c hc => (hcs c hc).2.1)
  have key := fun rank size a b => rankElements_eq N hD hpos cs
    (fun c hc => ⟨(hcs c hc).1, (hcs c hc).2.1⟩) rank size a b
  refine ⟨(List.range (volume N)).flatMap cs, ?_, ?_, ?_, ?_⟩
  · rw [key 0 1 0 _ (by simp [distribute]) (by omega) (Nat.le_refl _), ← hlen, slice_full]
  · rw [hlen]
    rcases hD with h | h <;> simp [h, numSimplices]
  · intro s hs
    obtain ⟨c, hc, hs⟩ := List.mem_flatMap.1 hs
    exact (hcs c (List.mem_range.1 hc)).2.2 s hs
  · intro size hs
    apply distributed_concat _ _ _ hs
    intro rank a b _ hd hab hb
    rw [hlen] at hd hb
    exact key rank size a b hd hab hb

/-- C26, boundary: with an empty direction there is no mesh to be generated, but every rank divides by
zero (`1 + (0 - 1) / S` is `1` in C++). -/
theorem C26_empty_direction_ub (N : List Nat) (hD : N.length = 2 ∨ N.length = 3) (h0 : 0 ∈ N)
    (rank size : Nat) (hs : 0 < size) : rankElements N rank size = none := by
  have hv : volume N = 0 := by
    clear hD
    induction N with
    | nil => simp at h0
    | cons n N ih =>
      simp only [volume, List.foldr_cons]
      rcases List.mem_cons.1 h0 with h | h
      · simp [← h]
      · have := ih h
        simp only [volume] at this
        simp [this]
  have hd : distribute 0 0 rank size = some (0, 0) := by
    simp [distribute, Nat.ne_of_gt hs]
  have h1 : (1 + Int.tdiv (((0 : Nat) : Int) - 1) (numSimplices N.length : Int)).toNat = 1 := by
    rcases hD with h | h <;> rw [h] <;> decide
  have hc : cubeSimplices N 0 = none := by
    have : unflatten 0 N = none := by
      have : ∀ k, unflatten k N = none := by
        clear hD hv hd h1
        induction N with
        | nil => simp at h0
        | cons n N ih =>
          intro k
          by_cases hn : n = 0
          · simp [unflatten, hn]
          · have := ih (by rcases List.mem_cons.1 h0 with h | h; exact absurd h.symm hn; exact h)
            simp [unflatten, hn, this]
      exact this 0
    rw [cubeSimplices, this]; rfl
  rw [rankElements]
  simp only [Option.bind_eq_bind, prod_eq, hv, Nat.zero_mul, hd, Option.bind_some, h1,
    Nat.zero_div, Nat.sub_zero, List.replicate_zero]
  simp [cubeLoop, hc]

example : ((List.range 3).map (fun r => rankElements [2, 1] r 3)) =
    [some [[0, 1, 3], [1, 3, 4]], some [[1, 2, 5]], some [[1, 4, 5]]] := by decide

example : [2, 1].length = 2 ∧ ∀ n ∈ [2, 1], 0 < n := by decide

/-! ## C29 -/

theorem findRegionLoop_ok (regions : List Nat) (v : Nat)
    (hlast : ∃ h : regions.length - 1 < regions.length, v ≤ regions[regions.length - 1])
    (h2 : 2 ≤ regions.length) : ∀ fuel r, regions.length ≤ fuel + r → r + 1 < regions.length →
      (∀ j, (hj : j < regions.length) → 0 < j → j ≤ r → regions[j] < v) →
      ∃ r', findRegionLoop regions v fuel r = some r' ∧
        ∃ h : r' + 1 < regions.length, v ≤ regions[r' + 1] ∧
          ∀ j, (hj : j < regions.length) → 0 < j → j ≤ r' → regions[j] < v := by
  intro fuel
  induction fuel with
  | zero => intro r h h'; omega
  | succ fuel ih =>
    intro r hf hr hb
    have hg : regions[r + 1]? = some regions[r + 1] := List.getElem?_eq_getElem hr
    rw [findRegionLoop, hg]
    simp only
    by_cases hv : v > regions[r + 1]
    · rw [if_pos ⟨hv, by omega⟩]
      have hr2 : r + 1 ≠ regions.length - 1 := by
        intro h
        obtain ⟨h3, h4⟩ := hlast
        have : regions[regions.length - 1] = regions[r + 1] := by congr 1; omega
        omega
      apply ih (r + 1) (by omega) (by omega)
      intro j hj h0 hle
      rcases Nat.lt_or_ge j (r + 1) with h | h
      · exact hb j hj h0 (by omega)
      · have : j = r + 1 := by omega
        subst this; exact hv
    · rw [if_neg (by omega), if_neg (by omega)]
      exact ⟨r, rfl, hr, by omega, hb⟩

/-- C29: for region boundaries in non-decreasing order starting at `0`, and an index up to the last
boundary, `findRegion` returns the first region whose upper boundary is not below the index; that region
contains the index, both boundaries included. -/
theorem C29_find_region (regions : List Nat) (h2 : 2 ≤ regions.length)
    (h0 : regions[0] = 0) (v : Nat) (hv : v ≤ regions[regions.length - 1]) :
    ∃ r, findRegion regions v = some r ∧ ∃ h : r + 1 < regions.length,
      regions[r] ≤ v ∧ v ≤ regions[r + 1] ∧
      ∀ j, (hj : j + 1 < regions.length) → v ≤ regions[j + 1] → r ≤ j := by
  obtain ⟨r, h3, h4, h5, h6⟩ := findRegionLoop_ok regions v ⟨by omega, hv⟩ h2 (regions.length + 1) 0
    (by omega) (by omega) (by intro j _ _ _; omega)
  refine ⟨r, h3, h4, ?_, h5, ?_⟩
  · rcases Nat.eq_zero_or_pos r with hr | hr
    · subst hr; omega
    · have := h6 r (by omega) hr (Nat.le_refl _); omega
  · intro j hj hvj
    rcases Nat.lt_or_ge j r with h | h
    · have := h6 (j + 1) hj (by omega) (by omega); omega
    · exact h

/-- C29: an index above the last boundary reads behind the end of the array of boundaries (the bound
on the region is tested after the read). -/
theorem C29_out_of_range (regions : List Nat) (v : Nat) (hv : ∀ r ∈ regions, r < v) :
    findRegion regions v = none := by
  have : ∀ fuel r, findRegionLoop regions v fuel r = none := by
    intro fuel
    induction fuel with
    | zero => intro r; rfl
    | succ fuel ih =>
      intro r
      rw [findRegionLoop]
      cases hg : regions[r + 1]? with
      | none => rfl
      | some x =>
        obtain ⟨h, rfl⟩ := List.getElem?_eq_some_iff.1 hg
        have := hv _ (List.getElem_mem h)
        simp only
        rw [if_pos ⟨this, by omega⟩]
        exact ih _
  exact this _ _

example : findRegion [0, 2, 5] 2 = some 0 ∧ findRegion [0, 2, 5] 3 = some 1 ∧
    findRegion [0, 2, 5] 5 = some 1 ∧ findRegion [0, 2, 5] 6 = none := by decide


/-! ### Coordinates -/

section coords
variable {K : Type} [Field K] [LinearOrder K] [IsStrictOrderedRing K]

/-- The data of one direction as the constructors set them up: one more corner point than regions, the
boundaries start at zero and do not decrease, and the first region is not empty. -/
def ValidDirection (points : List K) (regions : List Nat) (N : Nat) : Prop :=
  points.length = regions.length ∧ 2 ≤ regions.length ∧ regions[0]? = some 0 ∧
    regions[regions.length - 1]? = some N ∧ regions.Pairwise (· ≤ ·) ∧
    ∀ r, regions[1]? = some r → 0 < r

theorem coordinate_formula (points : List K) (regions : List Nat) (N : Nat)
    (hv : ValidDirection points regions N) (v : Nat) (hvN : v ≤ N) :
    ∃ (r : Nat) (x : K) (h : r + 1 < regions.length) (h' : r + 1 < points.length),
      findRegion regions v = some r ∧ coordinate points regions v = some x ∧
      regions[r] ≤ v ∧ v ≤ regions[r + 1] ∧ regions[r] < regions[r + 1] ∧
      (0 < r → regions[r] < v) ∧
      x = points[r] + ((v : K) - (regions[r] : K)) * ((points[r + 1] - points[r]) /
        ((regions[r + 1] : K) - (regions[r] : K))) := by
  obtain ⟨hl, h2, h0, hN, hs, h1⟩ := hv
  obtain ⟨h0l, h0⟩ := List.getElem?_eq_some_iff.1 h0
  obtain ⟨hNl, hN⟩ := List.getElem?_eq_some_iff.1 hN
  obtain ⟨r, f1, f2, f3, f4, f5⟩ := C29_find_region regions h2 h0 v (by omega)
  have hlt : 0 < r → regions[r] < v := by
    intro hr
    rcases Nat.lt_or_ge regions[r] v with h | h
    · exact h
    · exfalso
      have := f5 (r - 1) (by omega) (by
        have e : regions[r - 1 + 1] = regions[r] := by congr 1; omega
        omega)
      omega
  have hne : regions[r] < regions[r + 1] := by
    rcases Nat.eq_zero_or_pos r with hr | hr
    · subst hr
      have := h1 regions[1] (List.getElem?_eq_getElem _)
      show regions[0] < regions[1]
      omega
    · have := hlt hr; omega
  refine ⟨r, _, f2, by omega, f1, ?_, f3, f4, hne, hlt, rfl⟩
  rw [coordinate, f1]
  simp only [Option.bind_eq_bind, Option.bind_some,
    List.getElem?_eq_getElem (show r + 1 < points.length by omega),
    List.getElem?_eq_getElem (show r < points.length by omega),
    List.getElem?_eq_getElem (show r + 1 < regions.length by omega),
    List.getElem?_eq_getElem (show r < regions.length by omega)]
  rw [if_neg (by omega)]
  simp only [Option.pure_def, Option.some.injEq]
  rw [Nat.cast_sub f3, Nat.cast_sub (by omega)]

/-- C29: for every index up to `N` the coordinate is computed without error, and it is the linear
interpolation in a region `[points r, points (r+1)]` whose index interval contains the index. -/
theorem C29_coordinate_interpolates (points : List K) (regions : List Nat) (N : Nat)
    (hv : ValidDirection points regions N) (v : Nat) (hvN : v ≤ N) :
    ∃ (r : Nat) (x : K) (h : r + 1 < regions.length) (h' : r + 1 < points.length),
      coordinate points regions v = some x ∧ regions[r] ≤ v ∧ v ≤ regions[r + 1] ∧
      (x - points[r]) * ((regions[r + 1] : K) - (regions[r] : K)) =
        ((v : K) - (regions[r] : K)) * (points[r + 1] - points[r]) := by
  obtain ⟨r, x, h, h', -, h1, h2, h3, h4, -, h5⟩ := coordinate_formula points regions N hv v hvN
  refine ⟨r, x, h, h', h1, h2, h3, ?_⟩
  have : ((regions[r + 1] : K) - (regions[r] : K)) ≠ 0 := by
    rw [sub_ne_zero]; exact_mod_cast Nat.ne_of_gt h4
  subst h5
  field_simp
  ring

/-- C29: if every region has at least one cell, the grid line number `regions[k]` passes through the
corner point `points[k]`. -/
theorem C29_corner_points (points : List K) (regions : List Nat) (N : Nat)
    (hv : ValidDirection points regions N) (hs : regions.Pairwise (· < ·)) (k : Nat)
    (hk : k < regions.length) (hk' : k < points.length) :
    coordinate points regions regions[k] = some points[k] := by
  have hkN : regions[k] ≤ N := by
    obtain ⟨-, h2, -, hN, hs', -⟩ := hv
    obtain ⟨hNl, hN⟩ := List.getElem?_eq_some_iff.1 hN
    rcases Nat.lt_or_ge k (regions.length - 1) with h | h
    · have := (List.pairwise_iff_getElem.1 hs') k _ hk hNl h; omega
    · have : regions[k] = regions[regions.length - 1] := by congr 1; omega
      omega
  obtain ⟨r, x, h, h', -, h1, h2, h3, h4, hr, h5⟩ := coordinate_formula points regions N hv _ hkN
  rw [h1, h5]
  congr 1
  have hne : ((regions[r + 1] : K) - (regions[r] : K)) ≠ 0 := by
    rw [sub_ne_zero]; exact_mod_cast Nat.ne_of_gt h4
  have hmono := List.pairwise_iff_getElem.1 hs
  rcases Nat.lt_or_ge k r with hlt | hge
  · have := hmono k r hk (by omega) hlt; omega
  · rcases Nat.lt_or_ge (r + 1) k with hlt | hge'
    · have := hmono (r + 1) k h hk hlt; omega
    · rcases Nat.eq_or_lt_of_le hge with e | e
      · subst e; simp
      · have : k = r + 1 := by omega
        subst this
        rw [mul_div_cancel₀ _ hne]; ring

/-- C29: with ascending corner points the coordinates ascend with the index: no two grid lines
coincide or change order. -/
theorem C29_coordinates_ascend (points : List K) (regions : List Nat) (N : Nat)
    (hv : ValidDirection points regions N) (hp : points.Pairwise (· < ·)) (v w : Nat) (hvw : v < w)
    (hw : w ≤ N) (x y : K) (hx : coordinate points regions v = some x)
    (hy : coordinate points regions w = some y) : x < y := by
  obtain ⟨r, x', a1, a2, ar, a3, a4, a5, a6, a7, a8⟩ := coordinate_formula points regions N hv v (by omega)
  obtain ⟨q, y', b1, b2, bq, b3, b4, b5, b6, b7, b8⟩ := coordinate_formula points regions N hv w hw
  rw [hx] at a3; rw [hy] at b3
  cases a3; cases b3
  have hmono := List.pairwise_iff_getElem.1 hp
  have hrm := List.pairwise_iff_getElem.1 hv.2.2.2.2.1
  have c1 : (0 : K) < (regions[r + 1] : K) - (regions[r] : K) := by
    rw [sub_pos]; exact_mod_cast a6
  have c2 : (0 : K) < (regions[q + 1] : K) - (regions[q] : K) := by
    rw [sub_pos]; exact_mod_cast b6
  have d1 : points[r] < points[r + 1] := hmono r (r + 1) (by omega) a2 (by omega)
  have d2 : points[q] < points[q + 1] := hmono q (q + 1) (by omega) b2 (by omega)
  have s1 : 0 < (points[r + 1] - points[r]) / ((regions[r + 1] : K) - (regions[r] : K)) :=
    div_pos (by linarith) c1
  have s2 : 0 < (points[q + 1] - points[q]) / ((regions[q + 1] : K) - (regions[q] : K)) :=
    div_pos (by linarith) c2
  have hrq : r ≤ q := by
    rcases Nat.lt_or_ge q r with h | h
    · exfalso
      have h1 : regions[q + 1] ≤ regions[r] := by
        rcases Nat.eq_or_lt_of_le (show q + 1 ≤ r by omega) with e | e
        · subst e; exact Nat.le_refl _
        · exact hrm (q + 1) r (by omega) (by omega) e
      omega
    · exact h
  rcases Nat.eq_or_lt_of_le hrq with e | e
  · subst e
    rw [a8, b8]
    have : (v : K) < (w : K) := by exact_mod_cast hvw
    have := mul_lt_mul_of_pos_right (show (v : K) - (regions[r] : K) < (w : K) - (regions[r] : K) by linarith) s1
    linarith
  · have hxle : x ≤ points[r + 1] := by
      rw [a8]
      have hvr : (v : K) ≤ (regions[r + 1] : K) := by exact_mod_cast a5
      have := mul_le_mul_of_nonneg_right (show (v : K) - (regions[r] : K) ≤ (regions[r + 1] : K) - (regions[r] : K) by linarith) (le_of_lt s1)
      rw [mul_div_cancel₀ _ (ne_of_gt c1)] at this
      linarith
    have hyq : points[q] < y := by
      rw [b8]
      have : (regions[q] : K) < (w : K) := by exact_mod_cast b7 (by omega)
      have := mul_pos (show (0 : K) < (w : K) - (regions[q] : K) by linarith) s2
      linarith
    have hpp : points[r + 1] ≤ points[q] := by
      rcases Nat.eq_or_lt_of_le (show r + 1 ≤ q by omega) with e' | e'
      · have : points[r + 1] = points[q] := by congr 1
        exact le_of_eq this
      · exact le_of_lt (hmono (r + 1) q (by omega) (by omega) e')
    exact lt_of_le_of_lt hxle (lt_of_le_of_lt hpp hyq)

/-- C26: for valid data in every direction, the vertex lists of the ranks, one after the other, are the
list of a run on one rank, for every number of ranks; it has `(N₀+1)·…·(N_{D-1}+1)` vertices, and
vertex number `flatten(v)` is the point whose `d`-th coordinate is that of index `v_d`. -/
theorem C26_vertices (points : List (List K)) (regions : List (List Nat)) (N : List Nat)
    (hv : ∀ d (h : d < N.length), ValidDirection (points.getD d []) (regions.getD d []) N[d]) :
    ∃ G, rankVertices points regions N 0 1 = some G ∧
      G.length = volume (N.map (· + 1)) ∧
      (∀ v, InShape v (N.map (· + 1)) → ∃ p, G[position v (N.map (· + 1))]? = some p ∧
        p.length = N.length ∧ ∀ d (h : d < v.length), ∃ x, p[d]? = some x ∧
          coordinate (points.getD d []) (regions.getD d []) v[d] = some x) ∧
      ∀ size, 0 < size →
        ∃ parts, (List.range size).mapM (fun rank => rankVertices points regions N rank size) =
            some parts ∧ parts.flatten = G := by
  have hP : ∀ v, ∃ p, InShape v (np1 N) → vertexPos points regions v = some p ∧
      p.length = N.length ∧ ∀ d (h : d < v.length), ∃ x, p[d]? = some x ∧
          coordinate (points.getD d []) (regions.getD d []) v[d] = some x := by
    intro v
    by_cases hin : InShape v (np1 N)
    · have hl : v.length = N.length := by simpa [np1] using hin.1
      have hc : ∀ d, ∃ x : K, d < v.length →
          coordinate (points.getD d []) (regions.getD d []) (v.getD d 0) = some x := by
        intro d
        by_cases hd : d < v.length
        · have h1 := hin.2 d hd (by simp [np1]; omega)
          simp only [np1, List.getElem_map] at h1
          obtain ⟨r, x, h, h', h2, -⟩ := C29_coordinate_interpolates _ _ _ (hv d (by omega)) v[d] (by omega)
          exact ⟨x, fun _ => by simpa [List.getD, hd] using h2⟩
        · exact ⟨0, fun h => absurd h hd⟩
      obtain ⟨X, hX⟩ := Classical.axiomOfChoice hc
      refine ⟨(List.range v.length).map X, fun _ => ⟨?_, ?_, ?_⟩⟩
      · apply mapM_congr_some
        intro d hd
        exact hX d (List.mem_range.1 hd)
      · simp [hl]
      · intro d hd
        refine ⟨X d, by simp [hd], ?_⟩
        have := hX d hd
        simpa [List.getD, hd] using this
    · exact ⟨[], fun h => absurd h hin⟩
  obtain ⟨P, hP⟩ := Classical.axiomOfChoice hP
  have hU : ∀ k, ∃ v, k < volume (np1 N) → unflatten k (np1 N) = some v ∧ InShape v (np1 N) := by
    intro k
    by_cases hk : k < volume (np1 N)
    · obtain ⟨v, h1, h2, -⟩ := unflatten_inShape k _ hk
      exact ⟨v, fun _ => ⟨h1, h2⟩⟩
    · exact ⟨[], fun h => absurd h hk⟩
  obtain ⟨U, hU⟩ := Classical.axiomOfChoice hU
  have key : ∀ rank size a b, distribute 0 (volume (np1 N)) rank size = some (a, b) → a ≤ b →
      b ≤ volume (np1 N) → rankVertices points regions N rank size =
        some (slice ((List.range (volume (np1 N))).map (fun k => P (U k))) a b) := by
    intro rank size a b hd hab hb
    rw [rankVertices, prod_eq, hd]
    simp only [Option.bind_eq_bind, Option.bind_some]
    rw [mapM_congr_some _ (fun k => P (U k))]
    · congr 1
      rw [slice, ← List.map_take, ← List.map_drop]
      congr 1
      exact List.ext_getElem (by simp; omega) (by intro i h1 h2; simp)
    · intro k hk
      rw [List.mem_range'_1] at hk
      have hk' : k < volume (np1 N) := by omega
      rw [(hU k hk').1]
      exact (hP _ (hU k hk').2).1
  refine ⟨(List.range (volume (np1 N))).map (fun k => P (U k)), ?_, by simp [np1], ?_, ?_⟩
  · have hl : ((List.range (volume (np1 N))).map (fun k => P (U k))).length = volume (np1 N) := by simp
    rw [key 0 1 0 _ (by simp [distribute]) (by omega) (Nat.le_refl _)]
    conv => lhs; rw [← hl]
    rw [List.length_map, List.length_range]
    congr 1
    conv => rhs; rw [← slice_full ((List.range (volume (np1 N))).map (fun k => P (U k)))]
    rw [hl]
  · intro v hin
    have hlt := position_lt v _ hin
    have hu := unflatten_position v _ hin
    have e := (hU _ hlt).1
    change unflatten (position v (N.map (· + 1))) (N.map (· + 1)) = _ at e
    rw [hu] at e
    refine ⟨P v, ?_, (hP v hin).2⟩
    have hlt' : position v (N.map (· + 1)) < volume (np1 N) := hlt
    rw [List.getElem?_map, List.getElem?_range hlt']
    simp only [Option.map_some, Option.some.injEq]
    rw [← Option.some.inj e]
  · intro size hs
    apply distributed_concat _ _ _ hs
    intro rank a b _ hd hab hb
    rw [List.length_map, List.length_range] at hd hb
    exact key rank size a b hd hab hb

example : ValidDirection [(0 : ℚ), 1, 3] [0, 2, 3] 3 := by
  refine ⟨rfl, by decide, rfl, rfl, by decide, ?_⟩
  intro r h; simp at h; omega

/-! ## C28: resolution -/

/-- C28: the resolution that really is guaranteed.  If `lround` rounds to a nearest integer and the
extent of every region is at least `h/2` (so that it gets a cell), then every cell is at most `1.5 h`
wide. -/
theorem C28_resolution (lround : K → Nat) (hl : ∀ x, 0 ≤ x → |(lround x : K) - x| ≤ 1 / 2)
    (h p q : K) (hh : 0 < h) (hpq : p < q) (hn : 0 < lround ((q - p) / h)) :
    (q - p) / (lround ((q - p) / h) : K) ≤ 3 / 2 * h := by
  have hx : 0 ≤ (q - p) / h := le_of_lt (div_pos (by linarith) hh)
  have h1 := (abs_le.1 (hl _ hx)).1
  have hn1 : (1 : K) ≤ (lround ((q - p) / h) : K) := by exact_mod_cast hn
  rw [div_le_iff₀ (by linarith)]
  have : (q - p) = (q - p) / h * h := by field_simp
  have h2 : (q - p) / h ≤ 3 / 2 * (lround ((q - p) / h) : K) := by linarith
  calc q - p = (q - p) / h * h := this
    _ ≤ (3 / 2 * (lround ((q - p) / h) : K)) * h := mul_le_mul_of_nonneg_right h2 (le_of_lt hh)
    _ = _ := by ring

end coords

theorem initRegions_getElem {K : Type} [Field K] (lround : K → Nat) (h : K) :
    ∀ (points : List K) (acc : Nat), points ≠ [] →
    (initRegions lround h acc points).length = points.length ∧
    (initRegions lround h acc points)[0]? = some acc ∧
    ∀ k, (hk : k + 1 < points.length) → ∃ r0 r1, (initRegions lround h acc points)[k]? = some r0 ∧
      (initRegions lround h acc points)[k + 1]? = some r1 ∧
      r1 = r0 + lround ((points[k + 1] - points[k]) / h) := by
  intro points
  induction points with
  | nil => intro _ h; exact absurd rfl h
  | cons p ps ih =>
    intro acc _
    cases ps with
    | nil => exact ⟨rfl, rfl, by intro k hk; simp at hk⟩
    | cons q ps =>
      obtain ⟨h1, h2, h3⟩ := ih (acc + lround ((q - p) / h)) (by simp)
      rw [initRegions]
      refine ⟨by simp [h1], rfl, ?_⟩
      intro k hk
      cases k with
      | zero => exact ⟨acc, _, rfl, h2, rfl⟩
      | succ k =>
        obtain ⟨r0, r1, e0, e1, e2⟩ := h3 k (by simpa using hk)
        exact ⟨r0, r1, by simpa using e0, by simpa using e1, by simpa using e2⟩

/-- C28: the region boundaries computed from the corner points: as many as corner points, the first is
zero, and every region gets `lround(extent / h)` cells. -/
theorem C28_cells_per_region {K : Type} [Field K] (lround : K → Nat) (h : K) (points : List K)
    (hp : points ≠ []) :
    (initRegions lround h 0 points).length = points.length ∧
    (initRegions lround h 0 points)[0]? = some 0 ∧
    ∀ k, (hk : k + 1 < points.length) → ∃ r0 r1, (initRegions lround h 0 points)[k]? = some r0 ∧
      (initRegions lround h 0 points)[k + 1]? = some r1 ∧
      r1 - r0 = lround ((points[k + 1] - points[k]) / h) ∧ r0 ≤ r1 := by
  obtain ⟨h1, h2, h3⟩ := initRegions_getElem lround h points 0 hp
  refine ⟨h1, h2, fun k hk => ?_⟩
  obtain ⟨r0, r1, e0, e1, e2⟩ := h3 k hk
  exact ⟨r0, r1, e0, e1, by omega, by omega⟩

/-- Round half up, on the rationals: an instance of `std::lround` for non-negative numbers. -/
def roundQ (x : ℚ) : Nat := (round x).toNat

theorem roundQ_near (x : ℚ) (h : 0 ≤ x) : |(roundQ x : ℚ) - x| ≤ 1 / 2 := by
  have h0 : 0 ≤ round x := by
    rw [round_eq]; exact Int.floor_nonneg.2 (by linarith)
  have : ((roundQ x : Nat) : ℚ) = ((round x : Int) : ℚ) := by
    rw [roundQ]
    have := Int.toNat_of_nonneg h0
    exact_mod_cast congrArg (fun z : Int => (z : ℚ)) this
  rw [this, abs_sub_comm]
  exact abs_sub_round x

/-- C28: the documented guarantee `x[i+1] - x[i] <= h` does not hold: corner points `0, 1` with
`h = 7/10` give a single cell of width `1`. -/
theorem C28_documented_bound_fails :
    initRegions roundQ (7 / 10 : ℚ) 0 [0, 1] = [0, 1] ∧
    coordinate [(0 : ℚ), 1] [0, 1] 0 = some 0 ∧ coordinate [(0 : ℚ), 1] [0, 1] 1 = some 1 ∧
    ¬ ((1 : ℚ) - 0 ≤ 7 / 10) := by
  refine ⟨by decide +kernel, by decide +kernel, by decide +kernel, by decide +kernel⟩

/-- C28: a first region narrower than `h/2` gets no cell, and then its first vertex is not a number. -/
theorem C28_narrow_first_region :
    initRegions roundQ (1 : ℚ) 0 [0, 2 / 5, 3] = [0, 0, 3] ∧
    coordinate [(0 : ℚ), 2 / 5, 3] [0, 0, 3] 0 = none := by
  refine ⟨by decide +kernel, by decide +kernel⟩

end Tandem.GenMesh
