import Verif.Model.HDF5Writer
import Verif.Lemmas.Tiling
/-! # Properties C42 and C65: HDF5 output -/
namespace Tandem.HDF5Writer
open Tandem.Tiling

variable {α : Type}

theorem ranks_getD (ns : List Nat) (Q step : Nat) (bufs : Nat → List α) :
    ((List.range ns.length).map (fun r => (⟨[ns.getD r 0, step + 1, Q], bufs r⟩ : RankData α))).map
      (fun y => y.dims.getD 0 0) = ns := by
  apply List.ext_getElem?
  intro i
  rw [List.map_map, List.getElem?_map]
  rcases Nat.lt_or_ge i ns.length with h | h
  · rw [List.getElem?_range h]
    simp [List.getD, h]
  · rw [List.getElem?_eq_none (by simpa using h), List.getElem?_eq_none h]
    rfl

/-- The block of rank `r`, for a step that appends or overwrites the only layer. -/
theorem slab_eq (ns : List Nat) (Q step T total : Nat) (bufs : Nat → List α) (r : Nat)
    (h : T ≤ step ∨ step = 0) :
    slabOf ((List.range ns.length).map (fun r => (⟨[ns.getD r 0, step + 1, Q], bufs r⟩ : RankData α)))
      [total, T, Q] step 0 1 true r ⟨[ns.getD r 0, step + 1, Q], bufs r⟩ =
      ([(ns.take r).sum, step, 0], [ns.getD r 0, 1, Q]) := by
  rw [slabOf, ranks_getD]
  simp only [if_true, offsetOf, List.length_cons, List.length_nil, List.replicate, List.getD_cons_succ,
    List.getD_cons_zero, List.set_cons_zero]
  by_cases hT : T ≤ step
  · rw [if_pos hT]; rfl
  · rw [if_neg hT]
    obtain rfl : step = 0 := by omega
    rfl

theorem inSlab3 (a b c n m k i j l : Nat) : inSlab [a, b, c] [n, m, k] [i, j, l] = true ↔
    (a ≤ i ∧ i < a + n) ∧ (b ≤ j ∧ j < b + m) ∧ (c ≤ l ∧ l < c + k) := by
  simp [inSlab]

theorem slabPos3 (a b c n m k i j l : Nat) : slabPos [a, b, c] [n, m, k] [i, j, l] 0 =
    ((i - a) * m + (j - b)) * k + (l - c) := by
  simp [slabPos]

theorem ranks_fold (ns : List Nat) (Q step T total : Nat) (bufs : Nat → List α)
    (h : T ≤ step ∨ step = 0) (hlen : ∀ r, r < ns.length → (bufs r).length = ns.getD r 0 * Q)
    (T' : Nat) (hT' : step < T') (htot : total = ns.sum) :
    ∀ (L : List Nat), (∀ r ∈ L, r < ns.length) → ∀ d : Dataset α, d.dims = [total, T', Q] →
    ∃ d', L.foldlM (fun d' r =>
        match ((List.range ns.length).map
          (fun r => (⟨[ns.getD r 0, step + 1, Q], bufs r⟩ : RankData α)))[r]? with
        | none => .ok d'
        | some x =>
          let s := slabOf ((List.range ns.length).map
            (fun r => (⟨[ns.getD r 0, step + 1, Q], bufs r⟩ : RankData α))) [total, T, Q] step 0 1 true r x
          writeSlab d' s.1 s.2 x.buf) d = (.ok d' : Except Err (Dataset α)) ∧
      d'.dims = [total, T', Q] ∧
      (∀ i t q, t ≠ step → d'.data [i, t, q] = d.data [i, t, q]) ∧
      (∀ i q, (∀ r ∈ L, ¬ ((ns.take r).sum ≤ i ∧ i < (ns.take r).sum + ns.getD r 0)) →
        d'.data [i, step, q] = d.data [i, step, q]) ∧
      ∀ r ∈ L, ∀ p q, p < ns.getD r 0 → q < Q →
        some (d'.data [(ns.take r).sum + p, step, q]) = (bufs r)[p * Q + q]? := by
  intro L
  induction L with
  | nil => intro _ d hd; exact ⟨d, rfl, hd, fun _ _ _ _ => rfl, fun _ _ _ => rfl, by intro r hr; simp at hr⟩
  | cons r L ih =>
    intro hL d hd
    have hr := hL r (by simp)
    have hget : ((List.range ns.length).map
        (fun r => (⟨[ns.getD r 0, step + 1, Q], bufs r⟩ : RankData α)))[r]? =
        some ⟨[ns.getD r 0, step + 1, Q], bufs r⟩ := by
      rw [List.getElem?_map, List.getElem?_range hr]; rfl
    have hle := sum_take_le_sum ns (r + 1)
    rw [sum_take_succ ns r hr] at hle
    have hw : writeSlab d [(ns.take r).sum, step, 0] [ns.getD r 0, 1, Q] (bufs r) =
        .ok ⟨[total, T', Q], fun i => if inSlab [(ns.take r).sum, step, 0] [ns.getD r 0, 1, Q] i then
          (bufs r).getD (slabPos [(ns.take r).sum, step, 0] [ns.getD r 0, 1, Q] i 0) (d.data i)
          else d.data i⟩ := by
      rw [writeSlab, if_pos, if_pos, hd]
      · have := hlen r hr
        simp only [List.foldl_cons, List.foldl_nil, Nat.one_mul, Nat.mul_one]
        omega
      · rw [hd]
        simp only [List.zipWith_cons_cons, List.zipWith_nil_left, List.zip_cons_cons, List.zip_nil_left,
          List.all_cons, List.all_nil, Bool.and_true, Bool.and_eq_true, decide_eq_true_eq]
        omega
    obtain ⟨d', h1, h2, h3, h4, h5⟩ := ih (fun s hs => hL s (by simp [hs]))
      ⟨[total, T', Q], fun i => if inSlab [(ns.take r).sum, step, 0] [ns.getD r 0, 1, Q] i then
          (bufs r).getD (slabPos [(ns.take r).sum, step, 0] [ns.getD r 0, 1, Q] i 0) (d.data i)
          else d.data i⟩ rfl
    refine ⟨d', ?_, h2, ?_, ?_, ?_⟩
    · rw [List.foldlM_cons, hget]
      simp only [slab_eq ns Q step T total bufs r h, hw]
      exact h1
    · intro i t q ht
      rw [h3 i t q ht]
      simp only
      rw [if_neg]
      rw [inSlab3]
      omega
    · intro i q hi
      rw [h4 i q (fun s hs => hi s (by simp [hs]))]
      simp only
      rw [if_neg]
      rw [inSlab3]
      have := hi r (by simp)
      omega
    · intro s hs p q hp hq
      by_cases hsL : s ∈ L
      · exact h5 s hsL p q hp hq
      · obtain rfl : s = r := by
          rcases List.mem_cons.1 hs with h | h
          · exact h
          · exact absurd h hsL
        rw [h4]
        · simp only
          rw [if_pos (by rw [inSlab3]; omega), slabPos3]
          have hlt : p * Q + q < (bufs s).length := by
            rw [hlen s hr]
            calc p * Q + q < p * Q + Q := by omega
              _ = (p + 1) * Q := by rw [Nat.succ_mul]
              _ ≤ _ := Nat.mul_le_mul_right _ hp
          have e : (((ns.take s).sum + p - (ns.take s).sum) * 1 + (step - step)) * Q + (q - 0) =
              p * Q + q := by
            rw [Nat.add_sub_cancel_left, Nat.sub_self, Nat.mul_one, Nat.add_zero, Nat.sub_zero]
          rw [e, List.getD, List.getElem?_eq_getElem hlt]
          rfl
        · intro u hu ⟨hu1, hu2⟩
          have := part_unique ns hr (hL u (by simp [hu])) hp
            (q := (ns.take s).sum + p - (ns.take u).sum) (by omega) (by omega)
          exact hsL (this.1 ▸ hu)

/-- The entries of layer `step` are the data of the ranks: entry `offset of r + p` is entry `p` of rank
`r`'s buffer. -/
def LayerIs (d : Dataset α) (Q : Nat) (ns : List Nat) (step : Nat) (bufs : Nat → List α) : Prop :=
  ∀ r p q, r < ns.length → p < ns.getD r 0 → q < Q →
    some (d.data [(ns.take r).sum + p, step, q]) = (bufs r)[p * Q + q]?

/-- **C42**, one output.  Appending step `T` to a series with `T` layers (or writing the first layer of a
new one) succeeds for every order in which the ranks' blocks arrive; the new layer holds every rank's data
at its own rows, and all earlier layers are unchanged. -/
theorem C42_append (fill : α) (Q : Nat) (ns : List Nat) (order : List Nat)
    (horder : ∀ r, r ∈ order ↔ r < ns.length) (d : Dataset α) (T step : Nat)
    (hd : d.dims = [ns.sum, T, Q]) (hstep : step = T ∨ (step = 0 ∧ T = 1)) (bufs : Nat → List α)
    (hlen : ∀ r, r < ns.length → (bufs r).length = ns.getD r 0 * Q) :
    ∃ d', writeStep fill Q ns order d step bufs = .ok d' ∧ d'.dims = [ns.sum, max T (step + 1), Q] ∧
      LayerIs d' Q ns step bufs ∧
      ∀ i t q, i < ns.sum → t < T → t ≠ step → q < Q → d'.data [i, t, q] = d.data [i, t, q] := by
  have hg : ([ns.sum, T, Q] : List Nat).getD 1 0 = T := rfl
  rw [writeStep, writeToDataset]
  simp only [hd, hg]
  by_cases hT : T ≤ step
  · obtain rfl : step = T := by omega
    simp only [Nat.le_refl, if_true]
    obtain ⟨d', h1, h2, h3, _, h5⟩ := ranks_fold ns Q step step ns.sum bufs (Or.inl (Nat.le_refl _)) hlen
      (step + 1) (by omega) rfl order (fun r hr => (horder r).1 hr)
      (setExtent fill d ([ns.sum, step, Q].set 1 (step + 1))) rfl
    refine ⟨d', h1, by rw [h2]; congr 2; omega, ?_, ?_⟩
    · intro r p q hr hp hq
      exact h5 r ((horder r).2 hr) p q hp hq
    · intro i t q hi ht hne hq
      rw [h3 i t q hne]
      simp only [setExtent, hd]
      rw [if_pos]
      show inSlab [0, 0, 0] [ns.sum, step, Q] [i, t, q] = true
      rw [inSlab3]
      omega
  · obtain ⟨rfl, rfl⟩ : step = 0 ∧ T = 1 := by omega
    simp only [hT, if_false]
    obtain ⟨d', h1, h2, h3, _, h5⟩ := ranks_fold ns Q 0 1 ns.sum bufs (Or.inr rfl) hlen
      1 (by omega) rfl order (fun r hr => (horder r).1 hr) d hd
    refine ⟨d', h1, by rw [h2]; rfl, ?_, ?_⟩
    · intro r p q hr hp hq
      exact h5 r ((horder r).2 hr) p q hp hq
    · intro i t q hi ht hne hq
      omega

/-- **C42**, rows: the rows of the ranks are disjoint and cover the data set. -/
theorem C42_rows_partition (ns : List Nat) (i : Nat) (hi : i < ns.sum) :
    ∃ r p, (r < ns.length ∧ p < ns.getD r 0 ∧ i = offsetOf ns r + p) ∧
      ∀ s q, (s < ns.length ∧ q < ns.getD s 0 ∧ i = offsetOf ns s + q) → s = r ∧ q = p := by
  obtain ⟨r, p, h1, h2, h3⟩ := part_exists ns i hi
  refine ⟨r, p, ⟨h1, h2, h3⟩, ?_⟩
  rintro s q ⟨g1, g2, g3⟩
  exact part_unique ns g1 h1 g2 h2 (by unfold offsetOf at g3; omega)

/-- A layer changes only when its step is written. -/
theorem series_spec (fill : α) (Q : Nat) (ns : List Nat) : ∀ (outs : List (List Nat × (Nat → List α)))
    (T : Nat) (d : Dataset α), d.dims = [ns.sum, T, Q] →
    (∀ o ∈ outs, (∀ r, r ∈ o.1 ↔ r < ns.length) ∧
      ∀ r, r < ns.length → (o.2 r).length = ns.getD r 0 * Q) →
    ∃ d', writeSeries fill Q ns ((outs.zipIdx T).map (fun o => (o.2, o.1.1, o.1.2))) d = .ok d' ∧
      d'.dims = [ns.sum, T + outs.length, Q] ∧
      (∀ k o, outs[k]? = some o → LayerIs d' Q ns (T + k) o.2) ∧
      ∀ i t q, i < ns.sum → t < T → q < Q → d'.data [i, t, q] = d.data [i, t, q] := by
  intro outs
  induction outs with
  | nil =>
    intro T d hd _
    exact ⟨d, rfl, by simpa using hd, by intro k o h; simp at h, fun _ _ _ _ _ _ => rfl⟩
  | cons o outs ih =>
    intro T d hd ho
    obtain ⟨ho1, ho2⟩ := ho o (by simp)
    obtain ⟨d1, a1, a2, a3, a4⟩ := C42_append fill Q ns o.1 ho1 d T T hd (Or.inl rfl) o.2 ho2
    rw [show max T (T + 1) = T + 1 by omega] at a2
    obtain ⟨d2, b1, b2, b3, b4⟩ := ih (T + 1) d1 a2 (fun x hx => ho x (by simp [hx]))
    refine ⟨d2, ?_, by rw [b2]; simp only [List.length_cons]; congr 2; omega, ?_, ?_⟩
    · rw [List.zipIdx_cons, List.map_cons, writeSeries]
      simp only [a1]
      exact b1
    · intro k x hx
      cases k with
      | zero =>
        simp only [List.getElem?_cons_zero, Option.some.injEq] at hx
        subst hx
        intro r p q hr hp hq
        rw [b4 _ _ _ (part_lt ns hr hp) (by omega) hq]
        exact a3 r p q hr hp hq
      | succ k =>
        have := b3 k x (by simpa using hx)
        rwa [show T + 1 + k = T + (k + 1) by omega] at this
    · intro i t q hi ht hq
      rw [b4 i t q hi (by omega) hq, a4 i t q hi ht (by omega) hq]

theorem zipWith_range' : ∀ (outs : List (List Nat × (Nat → List α))) (T : Nat),
    List.zipWith (fun s o => (s, o.1, o.2)) (List.range' T outs.length) outs =
      (outs.zipIdx T).map (fun o => (o.2, o.1.1, o.1.2))
  | [], _ => rfl
  | o :: outs, T => by
    rw [List.length_cons, List.range'_succ, List.zipWith_cons_cons, zipWith_range' outs (T + 1),
      List.zipIdx_cons, List.map_cons]

theorem newSeries_dims (fill : α) (Q : Nat) (ns : List Nat) (hn : ns ≠ []) :
    (newSeries fill Q ns).dims = [ns.sum, 1, Q] := by
  cases ns with
  | nil => exact absurd rfl hn
  | cons a ns =>
    simp only [newSeries, createDims, if_true]
    have : (((List.range (a :: ns).length).map (fun r => [(a :: ns).getD r 0, 1, Q])).map
        (fun x => x.getD 0 0)) = a :: ns := by
      apply List.ext_getElem?
      intro i
      rw [List.map_map, List.getElem?_map]
      rcases Nat.lt_or_ge i (a :: ns).length with h | h
      · rw [List.getElem?_range h]
        simp only [Option.map_some, Function.comp_apply]
        rw [List.getElem?_eq_getElem h]
        simp only [List.getD, List.getElem?_eq_getElem h, Option.getD_some]
        rfl
      · rw [List.getElem?_eq_none (by simpa using h), List.getElem?_eq_none h]
        rfl
    rw [this, totalOf]
    simp [List.range_succ_eq_map]

/-- **C42**, histories.  Writing outputs number 0, 1, ..., n-1 of a `Writer` into a new data set gives a
data set with n layers (at least one), the k-th of which holds the k-th output. -/
theorem C42_history (fill : α) (Q : Nat) (ns : List Nat) (hn : ns ≠ [])
    (outs : List (List Nat × (Nat → List α))) (hne : outs ≠ [])
    (ho : ∀ o ∈ outs, (∀ r, r ∈ o.1 ↔ r < ns.length) ∧
      ∀ r, r < ns.length → (o.2 r).length = ns.getD r 0 * Q) :
    ∃ d, writeSeries fill Q ns
        (List.zipWith (fun s o => (s, o.1, o.2)) (writerSteps outs.length) outs)
        (newSeries fill Q ns) = .ok d ∧
      d.dims = [ns.sum, outs.length, Q] ∧ ∀ k o, outs[k]? = some o → LayerIs d Q ns k o.2 := by
  cases outs with
  | nil => exact absurd rfl hne
  | cons o outs =>
    obtain ⟨ho1, ho2⟩ := ho o (by simp)
    obtain ⟨d1, a1, a2, a3, _⟩ := C42_append fill Q ns o.1 ho1 (newSeries fill Q ns) 1 0
      (newSeries_dims fill Q ns hn) (Or.inr ⟨rfl, rfl⟩) o.2 ho2
    rw [show max 1 (0 + 1) = 1 by omega] at a2
    obtain ⟨d2, b1, b2, b3, b4⟩ := series_spec fill Q ns outs 1 d1 a2 (fun x hx => ho x (by simp [hx]))
    refine ⟨d2, ?_, by rw [b2]; simp only [List.length_cons]; congr 2; omega, ?_⟩
    · have e : List.zipWith (fun s (o : List Nat × (Nat → List α)) => (s, o.1, o.2))
          (writerSteps (o :: outs).length) (o :: outs) =
          (0, o.1, o.2) :: (outs.zipIdx 1).map (fun o => (o.2, o.1.1, o.1.2)) := by
        rw [writerSteps, List.range_eq_range', List.length_cons, List.range'_succ, List.zipWith_cons_cons,
          zipWith_range']
      rw [e, writeSeries]
      simp only [a1]
      exact b1
    · intro k x hx
      cases k with
      | zero =>
        simp only [List.getElem?_cons_zero, Option.some.injEq] at hx
        subst hx
        intro r p q hr hp hq
        rw [b4 _ _ _ (part_lt ns hr hp) (by omega) hq]
        exact a3 r p q hr hp hq
      | succ k =>
        have := b3 k x (by simpa using hx)
        rwa [show 1 + k = k + 1 by omega] at this

/-- **C42**, moment rates: the first two outputs have step number 0, so that the data set holds the second
output and all later ones, in order. -/
theorem C42_moment_rate (fill : α) (Q : Nat) (ns : List Nat) (hn : ns ≠ [])
    (first : List Nat × (Nat → List α)) (outs : List (List Nat × (Nat → List α))) (hne : outs ≠ [])
    (ho : ∀ o ∈ first :: outs, (∀ r, r ∈ o.1 ↔ r < ns.length) ∧
      ∀ r, r < ns.length → (o.2 r).length = ns.getD r 0 * Q) :
    ∃ d, writeSeries fill Q ns
        (List.zipWith (fun s o => (s, o.1, o.2)) (momentRateSteps (first :: outs).length) (first :: outs))
        (newSeries fill Q ns) = .ok d ∧
      d.dims = [ns.sum, outs.length, Q] ∧ ∀ k o, outs[k]? = some o → LayerIs d Q ns k o.2 := by
  obtain ⟨ho1, ho2⟩ := ho first (by simp)
  obtain ⟨d1, a1, a2, _, _⟩ := C42_append fill Q ns first.1 ho1 (newSeries fill Q ns) 1 0
    (newSeries_dims fill Q ns hn) (Or.inr ⟨rfl, rfl⟩) first.2 ho2
  cases outs with
  | nil => exact absurd rfl hne
  | cons o outs =>
    obtain ⟨ho1, ho2⟩ := ho o (by simp)
    obtain ⟨d2, c1, c2, c3, _⟩ := C42_append fill Q ns o.1 ho1 d1 1 0 a2 (Or.inr ⟨rfl, rfl⟩) o.2 ho2
    obtain ⟨d3, b1, b2, b3, b4⟩ := series_spec fill Q ns outs 1 d2 c2 (fun x hx => ho x (by simp [hx]))
    refine ⟨d3, ?_, by rw [b2]; simp only [List.length_cons]; congr 2; omega, ?_⟩
    · have e : List.zipWith (fun s (o : List Nat × (Nat → List α)) => (s, o.1, o.2))
          (momentRateSteps (first :: o :: outs).length) (first :: o :: outs) =
          (0, first.1, first.2) :: (0, o.1, o.2) :: (outs.zipIdx 1).map (fun o => (o.2, o.1.1, o.1.2)) := by
        rw [List.length_cons, momentRateSteps, List.range_eq_range', List.length_cons, List.range'_succ,
          List.zipWith_cons_cons, List.zipWith_cons_cons, zipWith_range']
      rw [e, writeSeries]
      simp only [a1, writeSeries]
      show (do let d ← writeStep fill Q ns o.1 d1 0 o.2; _) = _
      rw [c1]
      exact b1
    · intro k x hx
      cases k with
      | zero =>
        simp only [List.getElem?_cons_zero, Option.some.injEq] at hx
        subst hx
        intro r p q hr hp hq
        rw [b4 _ _ _ (part_lt ns hr hp) (by omega) hq]
        exact c3 r p q hr hp hq
      | succ k =>
        have := b3 k x (by simpa using hx)
        rwa [show 1 + k = k + 1 by omega] at this

/-- The hypotheses are met: two ranks with 1 and 2 rows of 2 quantities. -/
example : ∀ o ∈ [([1, 0], fun r => if r = 0 then [10, 11] else [20, 21, 22, 23])],
    (∀ r, r ∈ o.1 ↔ r < [1, 2].length) ∧ ∀ r, r < [1, 2].length →
      (o.2 r).length = ([1, 2] : List Nat).getD r 0 * 2 := by
  intro o ho
  simp only [List.mem_singleton] at ho
  subst ho
  refine ⟨fun r => by simp; omega, fun r hr => ?_⟩
  rcases (show r = 0 ∨ r = 1 by simp at hr; omega) with rfl | rfl <;> rfl

/-- Writing a step that is neither new nor the only one reads behind the user's data: with `step + 1` layers
or more present and `step > 0`, a rank's block has `step + 1` layers but its buffer only one. -/
theorem C42_rewrite_reads_out_of_bounds (fill : α) (Q n T step : Nat) (hQ : 0 < Q) (hn : 0 < n)
    (h0 : 0 < step) (hT : step < T) (d : Dataset α) (hd : d.dims = [n, T, Q]) (bufs : Nat → List α)
    (hlen : (bufs 0).length = n * Q) :
    writeStep fill Q [n] [0] d step bufs = .error .outOfBounds := by
  rw [writeStep, writeToDataset]
  have hg : ([n, T, Q] : List Nat).getD 1 0 = T := rfl
  simp only [hd, hg, Nat.not_le.2 hT, if_false]
  simp only [List.length_singleton, List.range_one, List.map_cons, List.map_nil, List.getD_cons_zero,
    List.foldlM_cons, List.foldlM_nil, List.getElem?_cons_zero]
  simp only [slabOf, if_true, hg, Nat.not_le.2 hT, if_false, writeSlab, hd, offsetOf, List.take_zero,
    List.sum_nil, List.length_cons, List.length_nil, List.replicate, List.set_cons_zero,
    List.getD_cons_zero, List.map_cons, List.map_nil]
  rw [if_pos, if_neg]
  · rfl
  · simp only [List.foldl_cons, List.foldl_nil, Nat.one_mul, hlen, Nat.not_le]
    have h1 : n * 1 < n * (step + 1) := Nat.mul_lt_mul_of_pos_left (by omega) hn
    rw [Nat.mul_one] at h1
    exact Nat.mul_lt_mul_of_pos_right h1 hQ
  · simp; omega

/-- A restart with checkpointing opens the old file, but then every data set that is created again throws:
a series cannot be continued. -/
theorem C42_restart_throws (fill : α) (old : List String) (name : String) (h : name ∈ old)
    (dims : List (List Nat)) (glue : Nat) (dist : Bool) :
    create fill (openNames true (some old)) name dims glue dist = .error .exception := by
  simp [create, openNames, h]

/-- Without checkpointing the file is started anew. -/
theorem C42_fresh_file (fill : α) (existing : Option (List String)) (name : String)
    (dims : List (List Nat)) (glue : Nat) (dist : Bool) :
    ∃ d : Dataset α, create fill (openNames false existing) name dims glue dist = .ok ([name], d) ∧
      d.dims = createDims dims glue dist ∧ ∀ i, d.data i = fill := by
  exact ⟨⟨createDims dims glue dist, fun _ => fill⟩, by simp [create, openNames], rfl, fun _ => rfl⟩

/-! ## C65: fault vertices -/

/-- **C65.**  The first `numElements × D × D` numbers of `getVertices` (the ones that are written to the
file) are, facet by facet, the coordinates of the first `D` nodes of the facet, although the facets' blocks
of `numBasisNodes ≥ D` nodes overlap in the vector; nothing is written outside. -/
theorem C65_vertices (zero : α) (D numElements nb : Nat) (hnb : D ≤ nb) (vals : Nat → List α)
    (hv : ∀ e, e < numElements → (vals e).length = D * nb) :
    ∃ m, getVertices zero D numElements nb vals = some m ∧ m.length = D * numElements * nb ∧
      ∀ e j, e < numElements → j < D * D → m[e * (D * D) + j]? = (vals e)[j]? := by
  have key : ∀ k, k ≤ numElements → ∃ m : List α, (List.range k).foldlM (fun m e =>
      if e * D * D + (vals e).length ≤ m.length then
        some (m.take (e * D * D) ++ vals e ++ m.drop (e * D * D + (vals e).length))
      else none) (List.replicate (D * numElements * nb) zero) = some m ∧
      m.length = D * numElements * nb ∧
      ∀ e j, e < k → j < D * D → m[e * (D * D) + j]? = (vals e)[j]? := by
    intro k
    induction k with
    | zero => intro _; exact ⟨_, rfl, by simp, by intro e j h; omega⟩
    | succ k ih =>
      intro hk
      obtain ⟨m, h1, h2, h3⟩ := ih (by omega)
      have hD : D * D ≤ D * nb := Nat.mul_le_mul_left _ hnb
      have hfit : k * D * D + D * nb ≤ m.length := by
        rw [h2]
        calc k * D * D + D * nb = k * (D * D) + D * nb := by rw [Nat.mul_assoc]
          _ ≤ k * (D * nb) + D * nb := Nat.add_le_add_right (Nat.mul_le_mul_left _ hD) _
          _ = (k + 1) * (D * nb) := by rw [Nat.succ_mul]
          _ ≤ numElements * (D * nb) := Nat.mul_le_mul_right _ hk
          _ = D * numElements * nb := by rw [← Nat.mul_assoc, Nat.mul_comm numElements]
      have hvk := hv k (by omega)
      refine ⟨m.take (k * D * D) ++ vals k ++ m.drop (k * D * D + (vals k).length), ?_, ?_, ?_⟩
      · rw [List.range_succ, List.foldlM_append, h1]
        simp only [Option.bind_eq_bind, Option.bind_some, List.foldlM_cons, List.foldlM_nil]
        rw [if_pos (by omega)]
        rfl
      · simp only [List.length_append, List.length_take, List.length_drop]
        omega
      · intro e j he hj
        have hlt : (m.take (k * D * D)).length = k * (D * D) := by
          rw [List.length_take, ← Nat.mul_assoc]; omega
        rw [List.append_assoc]
        rcases Nat.lt_or_ge e k with h | h
        · have hb : e * (D * D) + D * D ≤ k * (D * D) := by
            rw [← Nat.succ_mul]; exact Nat.mul_le_mul_right _ h
          rw [List.getElem?_append_left (by omega), List.getElem?_take_of_lt (by
            rw [Nat.mul_assoc]; omega), h3 e j h hj]
        · obtain rfl : e = k := by omega
          rw [List.getElem?_append_right (by omega), hlt, Nat.add_sub_cancel_left,
            List.getElem?_append_left (by omega)]
  exact key numElements (Nat.le_refl _)

example : (getVertices 0 2 2 3 (fun e => (List.range 6).map (fun j => 10 * e + j))) =
    some [0, 1, 2, 3, 10, 11, 12, 13, 14, 15, 0, 0] := by decide

/-- With fewer than `D` nodes per facet (degree zero) the vector is too short. -/
theorem C65_degree_zero_out_of_bounds (zero : α) (D : Nat) (hD : 2 ≤ D) (vals : Nat → List α)
    (hv : ∀ e, e < 2 → (vals e).length = D) : getVertices zero D 2 1 vals = none := by
  rw [getVertices, show List.range 2 = [0, 1] from rfl]
  have h0 := hv 0 (by omega)
  have h1 := hv 1 (by omega)
  simp only [List.foldlM_cons, List.foldlM_nil]
  rw [if_pos (by rw [h0]; simp; omega)]
  simp only [Option.bind_eq_bind, Option.bind_some]
  rw [if_neg]
  · rfl
  · simp only [h1, h0, List.length_append, List.length_take, List.length_drop, List.length_replicate,
      Nat.one_mul, Nat.zero_mul, Nat.mul_one]
    have : 2 * D ≤ D * D := Nat.mul_le_mul_right _ hD
    omega

/-! ## C67: probe names -/

theorem maxLength_ge (names : List (List Char)) : ∀ n ∈ names, n.length ≤ maxLength names := by
  have key : ∀ (l : List (List Char)) (m : Nat), m ≤ l.foldl (fun m n => max n.length m) m ∧
      ∀ n ∈ l, n.length ≤ l.foldl (fun m n => max n.length m) m := by
    intro l
    induction l with
    | nil => intro m; exact ⟨Nat.le_refl _, by intro n hn; simp at hn⟩
    | cons a l ih =>
      intro m
      obtain ⟨h1, h2⟩ := ih (max a.length m)
      refine ⟨Nat.le_trans (by omega) h1, fun n hn => ?_⟩
      rcases List.mem_cons.1 hn with rfl | hn
      · exact Nat.le_trans (by omega) h1
      · exact h2 n hn
  exact (key names 1).2

theorem resize_length (n : Nat) (name : List Char) : (resize n name).length = n := by
  simp [resize]; omega

theorem resize_eq (n : Nat) (name : List Char) (h : name.length ≤ n) :
    resize n name = name ++ List.replicate (n - name.length) ' ' := by
  rw [resize, List.take_of_length_le]
  simp; omega

theorem flatten_piece {β : Type} (L : Nat) : ∀ (ls : List (List β)), (∀ l ∈ ls, l.length = L) →
    ls.flatten.length = ls.length * L ∧
    ∀ k l, ls[k]? = some l → (ls.flatten.drop (k * L)).take L = l := by
  intro ls
  induction ls with
  | nil => intro _; exact ⟨by simp, by intro k l h; simp at h⟩
  | cons a ls ih =>
    intro h
    obtain ⟨h1, h2⟩ := ih (fun l hl => h l (by simp [hl]))
    have ha := h a (by simp)
    refine ⟨by simp only [List.flatten_cons, List.length_append, h1, ha, List.length_cons, Nat.succ_mul]; omega, ?_⟩
    intro k l hl
    cases k with
    | zero =>
      simp only [List.getElem?_cons_zero, Option.some.injEq] at hl
      subst hl
      simp [List.flatten_cons, ← ha]
    | succ k =>
      rw [List.flatten_cons, List.drop_append, List.drop_of_length_le (by rw [ha, Nat.succ_mul]; omega),
        List.nil_append, ha, Nat.succ_mul, Nat.add_sub_cancel]
      exact h2 k l (by simpa using hl)

theorem probeNames_length (names : List (List Char)) :
    (probeNames names).length = names.length * maxLength names := by
  have := (flatten_piece (maxLength names) (names.map (resize (maxLength names))) (by
    intro l hl
    obtain ⟨n, _, rfl⟩ := List.mem_map.1 hl
    exact resize_length _ _)).1
  rw [probeNames, this, List.length_map]

/-- **C67**, partial.  On a rank whose longest probe name is the longest of all ranks the names in the file
are the probes' names padded with blanks.  Missing: on the other ranks this is false, see
`C67_short_names_out_of_bounds`. -/
theorem C67_probe_names_partial (perRank : List (List (List Char))) (rank k : Nat) (name : List Char)
    (hk : (perRank.getD rank [])[k]? = some name)
    (hmax : maxLength (perRank.getD rank []) = maxLengthGlobal perRank) :
    writtenName perRank rank k =
      some (name ++ List.replicate (maxLengthGlobal perRank - name.length) ' ') := by
  rw [writtenName]
  generalize perRank.getD rank [] = names at hk hmax ⊢
  have hfp := flatten_piece (maxLength names) (names.map (resize (maxLength names))) (by
    intro l hl
    obtain ⟨n, _, rfl⟩ := List.mem_map.1 hl
    exact resize_length _ _)
  have hklt : k < names.length := (List.getElem?_eq_some_iff.1 hk).1
  have hmem : name ∈ names := List.mem_of_getElem? hk
  simp only [← hmax]
  rw [if_pos]
  · rw [probeNames, hfp.2 k (resize (maxLength names) name) (by rw [List.getElem?_map, hk]; rfl),
      resize_eq _ _ (maxLength_ge names name hmem)]
  · rw [probeNames_length, ← Nat.succ_mul]
    exact Nat.mul_le_mul_right _ hklt

/-- On a rank whose names are all shorter than the longest name of another rank, the last name is read
behind the end of the rank's buffer. -/
theorem C67_short_names_out_of_bounds (perRank : List (List (List Char))) (rank k : Nat)
    (hk : k + 1 = (perRank.getD rank []).length)
    (hlt : maxLength (perRank.getD rank []) < maxLengthGlobal perRank) :
    writtenName perRank rank k = none := by
  rw [writtenName]
  generalize perRank.getD rank [] = names at hk hlt ⊢
  rw [if_neg]
  rw [probeNames_length, ← hk, ← Nat.succ_mul, Nat.not_le]
  exact Nat.mul_lt_mul_of_pos_left hlt (by omega)

example : maxLength [['a', 'b'], ['c']] = maxLengthGlobal [[['a', 'b'], ['c']], [['d']]] ∧
    maxLength [['d']] < maxLengthGlobal [[['a', 'b'], ['c']], [['d']]] := by decide

end Tandem.HDF5Writer
