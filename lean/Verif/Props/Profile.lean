import Verif.Spec.Profile
import Mathlib.Tactic.Linarith
import Mathlib.Tactic.Ring
import Mathlib.Tactic.NormNum
import Mathlib.Tactic.FieldSimp
import Mathlib.Algebra.BigOperators.Group.List.Basic
import Mathlib.Algebra.Order.BigOperators.Group.List
import Mathlib.Data.List.Sort
/-! # Property C105: the table of the profile -/
namespace Tandem.Profile
open Spec

/-! ## Statistics -/

theorem getD_get (v : List ℚ) {i : ℕ} (h : i < v.length) : v.getD i 0 = v[i] := by
  rw [List.getD_eq_getElem?_getD, List.getElem?_eq_getElem h]; rfl

theorem sorted_getD {v : List ℚ} (h : v.Pairwise (· ≤ ·)) {i j : ℕ} (hij : i ≤ j) (hj : j < v.length) : v.getD i 0 ≤ v.getD j 0 := by
  have hi : i < v.length := by omega
  rw [getD_get _ hi, getD_get _ hj]
  rcases hij.eq_or_lt with rfl | hlt
  · exact le_rfl
  · exact List.pairwise_iff_getElem.1 h i j hi hj hlt

theorem filter_lt_length {v : List ℚ} (h : v.Pairwise (· ≤ ·)) {m : ℚ} {i : ℕ} (hi : i ≤ v.length) (hm : ∀ j, i ≤ j → j < v.length → m ≤ v.getD j 0) :
    (v.filter (· < m)).length ≤ i := by
  conv_lhs => rw [← List.take_append_drop i v]
  rw [List.filter_append, List.length_append]
  have h1 : (v.drop i).filter (· < m) = [] := by
    rw [List.filter_eq_nil_iff]
    intro x hx
    obtain ⟨j, hj, rfl⟩ := List.mem_iff_getElem.1 hx
    rw [List.length_drop] at hj
    have := hm (i + j) (by omega) (by omega)
    rw [getD_get _ (by omega : i + j < v.length)] at this
    rw [List.getElem_drop]
    simpa using this
  rw [h1]
  have := List.length_filter_le (fun x => decide (x < m)) (v.take i)
  rw [List.length_take] at this
  simp only [List.length_nil, add_zero]
  omega

theorem filter_gt_length {v : List ℚ} {m : ℚ} {i : ℕ} (hi : i ≤ v.length) (hm : ∀ j, j < i → v.getD j 0 ≤ m) :
    (v.filter (m < ·)).length ≤ v.length - i := by
  conv_lhs => rw [← List.take_append_drop i v]
  rw [List.filter_append, List.length_append]
  have h1 : (v.take i).filter (m < ·) = [] := by
    rw [List.filter_eq_nil_iff]
    intro x hx
    obtain ⟨j, hj, rfl⟩ := List.mem_iff_getElem.1 hx
    rw [List.length_take] at hj
    have := hm j (by omega)
    rw [getD_get _ (by omega : j < v.length)] at this
    rw [List.getElem_take]
    simpa using this
  rw [h1]
  have := List.length_filter_le (fun x => decide (m < x)) (v.drop i)
  rw [List.length_drop] at this
  simpa using this

theorem foldl_sum (v : List ℚ) (a : ℚ) : v.foldl (· + ·) a = a + v.sum := by
  induction v generalizing a with
  | nil => simp
  | cons x v ih => rw [List.foldl_cons, ih, List.sum_cons]; ring

/-- **C105 (statistics)**: for every number of ranks and all values, the summary has the least, the greatest, the mean and a median of the
values. -/
theorem C105_summary (values : List ℚ) (h : values ≠ []) : IsSummary values (summary values) := by
  have hs : (values.insertionSort (· ≤ ·)).Pairwise (· ≤ ·) := List.pairwise_insertionSort _ _
  have hp : (values.insertionSort (· ≤ ·)).Perm values := List.perm_insertionSort _ _
  have hN : 0 < values.length := List.length_pos_iff.2 h
  have hlen := hp.length_eq
  unfold summary
  simp only
  generalize values.insertionSort (· ≤ ·) = v at hs hp hlen
  have hmem : ∀ i, i < v.length → v.getD i 0 ∈ values := fun i hi => by
    rw [getD_get _ hi]; exact hp.subset (List.getElem_mem hi)
  have hget : ∀ x ∈ values, ∃ i, i < v.length ∧ v.getD i 0 = x := fun x hx => by
    obtain ⟨i, hi, rfl⟩ := List.mem_iff_getElem.1 (hp.symm.subset hx)
    exact ⟨i, hi, getD_get _ hi⟩
  refine ⟨⟨hmem 0 (by omega), ?_⟩, ⟨hmem _ (by omega), ?_⟩, ?_, ?_, ?_⟩
  · intro x hx
    obtain ⟨i, hi, rfl⟩ := hget x hx
    exact sorted_getD hs (Nat.zero_le i) hi
  · intro x hx
    obtain ⟨i, hi, rfl⟩ := hget x hx
    exact sorted_getD hs (by omega) (by omega)
  · rw [foldl_sum, zero_add, hp.sum_eq]
    have : (values.length : ℚ) ≠ 0 := by exact_mod_cast hN.ne'
    field_simp
  · rw [← (hp.filter _).length_eq]
    dsimp only
    split
    · have := filter_lt_length hs (m := v.getD (values.length / 2) 0) (i := values.length / 2) (by omega) (fun j h1 h2 => sorted_getD hs h1 h2)
      omega
    · have := filter_lt_length hs (m := 0.5 * (v.getD (values.length / 2 - 1) 0 + v.getD (values.length / 2) 0)) (i := values.length / 2) (by omega)
        (fun j h1 h2 => by
          have a := sorted_getD hs h1 h2
          have b := sorted_getD hs (show values.length / 2 - 1 ≤ values.length / 2 by omega) (show values.length / 2 < v.length by omega)
          rw [show (0.5 : ℚ) = 1 / 2 by norm_num]; linarith)
      omega
  · rw [← (hp.filter _).length_eq]
    dsimp only
    split
    · have := filter_gt_length (v := v) (m := v.getD (values.length / 2) 0) (i := values.length / 2 + 1) (by omega)
        (fun j h1 => sorted_getD hs (by omega) (by omega))
      omega
    · have := filter_gt_length (v := v) (m := 0.5 * (v.getD (values.length / 2 - 1) 0 + v.getD (values.length / 2) 0)) (i := values.length / 2) (by omega)
        (fun j h1 => by
          have a := sorted_getD hs (show j ≤ values.length / 2 - 1 by omega) (show values.length / 2 - 1 < v.length by omega)
          have b := sorted_getD hs (show values.length / 2 - 1 ≤ values.length / 2 by omega) (show values.length / 2 < v.length by omega)
          rw [show (0.5 : ℚ) = 1 / 2 by norm_num]; linarith)
      omega

/-- **C105 (order of the ranks)**: the summary does not depend on which rank has which value. -/
theorem C105_rank_order {values values' : List ℚ} (h : values.Perm values') : summary values = summary values' := by
  have hs : values.insertionSort (· ≤ ·) = values'.insertionSort (· ≤ ·) :=
    List.Perm.eq_of_pairwise (le := (· ≤ ·)) (fun a b _ _ h1 h2 => le_antisymm h1 h2) (List.pairwise_insertionSort _ _) (List.pairwise_insertionSort _ _)
      ((List.perm_insertionSort _ _).trans (h.trans (List.perm_insertionSort _ _).symm))
  unfold summary
  rw [hs, h.length_eq]

/-! ## Time and operations of a region -/

theorem step_get {p q : List Region} {e : Event} (h : step p e = some q) (i : ℕ) :
    q[i]? = (p[i]?).map fun x => if e.region = i then x.step e else x := by
  unfold step at h
  split at h
  · rename_i he
    obtain rfl := Option.some.inj h
    rw [List.getElem?_set]
    by_cases hi : e.region = i
    · subst hi; simp [he]
    · simp [hi]
  · cases h

theorem run_get {p q : List Region} (es : List Event) (h : run p es = some q) (i : ℕ) :
    q[i]? = (p[i]?).map fun x => (es.filter (fun e => e.region = i)).foldl Region.step x := by
  induction es generalizing p with
  | nil => cases h; simp
  | cons e es ih =>
    unfold run at h
    cases hs : step p e with
    | none => rw [hs] at h; cases h
    | some p' =>
      rw [hs] at h
      rw [ih h, step_get hs]
      rw [Option.map_map]
      congr 1
      funext x
      by_cases hi : e.region = i <;> simp [hi]

/-- A sequence of calls fails only if a region does not exist. -/
theorem run_some (p : List Region) (es : List Event) (h : ∀ e ∈ es, e.region < p.length) : ∃ q, run p es = some q := by
  induction es generalizing p with
  | nil => exact ⟨p, rfl⟩
  | cons e es ih =>
    have he := h e (by simp)
    obtain ⟨q, hq⟩ := ih (p.set e.region (p[e.region].step e)) (fun e' h' => by rw [List.length_set]; exact h e' (by simp [h']))
    refine ⟨q, ?_⟩
    unfold run step
    rw [dif_pos he]
    exact hq

theorem intervals_fold (i : ℕ) (I : List (ℤ × ℤ × ℕ)) (x : Region) (hx : x.watch.time = 0) :
    let y := (I.flatMap fun x => [Event.begin i x.1, .stop i x.2.1 x.2.2]).foldl Region.step x
    y.name = x.name ∧ y.watch.time = 0 ∧ y.time = x.time + 1 / 1000000000 * ((I.map fun z => z.2.1 - z.1).sum : ℤ) ∧
      y.flops % 2 ^ 64 = (x.flops + (I.map fun z => z.2.2).sum) % 2 ^ 64 := by
  induction I generalizing x with
  | nil => simp [hx]
  | cons z I ih =>
    simp only [List.flatMap_cons, List.foldl_append, List.foldl_cons, List.foldl_nil, List.map_cons, List.sum_cons]
    obtain ⟨h1, h2, h3, h4⟩ := ih ((x.step (.begin i z.1)).step (.stop i z.2.1 z.2.2)) rfl
    refine ⟨h1, h2, ?_, ?_⟩
    · rw [h3]
      simp only [Region.step, Watch.begin, Watch.stop, Watch.pause, hx]
      push_cast; ring
    · rw [h4]
      simp only [Region.step]
      omega

/-- **C105 (time and operations)**: after any sequence of calls in which the calls for region `i` are a sequence of intervals, at any
places between the calls for the others, the time of the region is the sum of the lengths of these intervals, and its operations are the sum of those of the
intervals, modulo `2^64`. -/
theorem C105_times (p : List Region) (es : List Event) (hes : ∀ e ∈ es, e.region < p.length) (i : ℕ) (x : Region) (hx : p[i]? = some x)
    (h0 : x.watch.time = 0) (I : List (ℤ × ℤ × ℕ)) (hI : Intervals i es I) :
    ∃ q y, run p es = some q ∧ q[i]? = some y ∧ y.name = x.name ∧
      y.time = x.time + 1 / 1000000000 * ((I.map fun z => z.2.1 - z.1).sum : ℤ) ∧
      y.flops % 2 ^ 64 = (x.flops + (I.map fun z => z.2.2).sum) % 2 ^ 64 := by
  obtain ⟨q, hq⟩ := run_some p es hes
  obtain ⟨h1, -, h3, h4⟩ := intervals_fold i I x h0
  refine ⟨q, _, hq, ?_, h1, h3, h4⟩
  rw [run_get es hq i, hx, hI]
  rfl

/-- **C105 (regions)**: a new region gets the number of regions so far, its time and operations are zero, the others are as before; and
a name is found under the number of the first region of that name. -/
theorem C105_add (p : List Region) (name : String) :
    (add p name).2 = p.length ∧ (add p name).1[p.length]? = some { name := name } ∧
      (∀ i, i < p.length → (add p name).1[i]? = p[i]?) ∧
      ((∀ x ∈ p, x.name ≠ name) → get (add p name).1 name = p.length) ∧
      ∀ n, (∃ x ∈ p, x.name = n) → get (add p name).1 n = get p n := by
  refine ⟨by simp [add], by simp [add], fun i hi => by simp [add, List.getElem?_append_left hi], fun h => ?_, fun n h => ?_⟩
  · unfold get add
    rw [List.findIdx_append]
    have : p.findIdx (fun r => r.name == name) = p.length := List.findIdx_eq_length.2 (fun x hx => by simpa using h x hx)
    simp [this, List.findIdx_cons]
  · unfold get add
    rw [List.findIdx_append]
    obtain ⟨x, hx, rfl⟩ := h
    have : p.findIdx (fun r => r.name == x.name) < p.length := List.findIdx_lt_length_of_exists ⟨x, hx, by simp⟩
    simp [this]

/-! ## The table -/

theorem foldl_mod (l : List ℕ) (a : ℕ) : l.foldl (fun a b => (a + b) % 2 ^ 64) a % 2 ^ 64 = (a + l.sum) % 2 ^ 64 := by
  induction l generalizing a with
  | nil => simp
  | cons x l ih => rw [List.foldl_cons, ih, List.sum_cons]; omega

theorem foldl_lt (l : List ℕ) {a : ℕ} (h : a < 2 ^ 64) : l.foldl (fun a b => (a + b) % 2 ^ 64) a < 2 ^ 64 := by
  induction l generalizing a with
  | nil => exact h
  | cons x l ih => exact ih (Nat.mod_lt _ (by norm_num))

theorem foldl_flops (l : List ℕ) : l.foldl (fun a b => (a + b) % 2 ^ 64) 0 = l.sum % 2 ^ 64 := by
  rw [← Nat.mod_eq_of_lt (foldl_lt l (a := 0) (by norm_num)), foldl_mod, zero_add]

theorem foldl_time (p : List Region) (a : ℚ) : p.foldl (fun a x => a + x.time) a = a + (p.map (·.time)).sum := by
  induction p generalizing a with
  | nil => simp
  | cons x v ih => rw [List.foldl_cons, ih, List.map_cons, List.sum_cons]; ring

theorem foldl_region_flops (p : List Region) : p.foldl (fun a x => (a + x.flops) % 2 ^ 64) 0 = (p.map (·.flops)).sum % 2 ^ 64 := by
  rw [← foldl_flops, List.foldl_map]

/-- The statistics and the numbers of operations of a row. -/
theorem printSummary_spec (name : String) (times : List ℚ) (flops : List ℕ) (h : times ≠ []) :
    (printSummary name times flops).name = name ∧ IsSummary times (printSummary name times flops).times ∧
      (printSummary name times flops).tflop * 10 ^ 12 = ((flops.sum % 2 ^ 64 : ℕ) : ℚ) ∧
      ((printSummary name times flops).times.max ≠ 0 →
        (printSummary name times flops).gflops * 10 ^ 9 * (printSummary name times flops).times.max = ((flops.sum % 2 ^ 64 : ℕ) : ℚ)) := by
  unfold printSummary
  rw [foldl_flops]
  refine ⟨rfl, C105_summary times h, ?_, fun h => ?_⟩
  · dsimp only; generalize ((flops.sum % 2 ^ 64 : ℕ) : ℚ) = g; ring
  · dsimp only at h ⊢
    generalize ((flops.sum % 2 ^ 64 : ℕ) : ℚ) = g
    field_simp
    norm_num

/-- **C105 (table)**: with the same regions on all ranks, the table has a row for each region, in the order in which they were added, with the
statistics of the times of all ranks for that region and the sum of their operations; and a last row with those of the total of each rank. -/
theorem C105_table (ranks : List (List Region)) (names : List String) (hn : names ≠ []) (hr : ranks ≠ [])
    (h : ∀ p ∈ ranks, p.map (·.name) = names) :
    (print ranks).length = names.length + 1 ∧
      (∀ i (hi : i < names.length), ∃ (row : Row) (times : List ℚ) (flops : List ℕ), (print ranks)[i]? = some row ∧ row.name = names[i] ∧
        ranks.map (fun p => (p[i]?).map (·.time)) = times.map some ∧ ranks.map (fun p => (p[i]?).map (·.flops)) = flops.map some ∧
        IsSummary times row.times ∧ row.tflop * 10 ^ 12 = ((flops.sum % 2 ^ 64 : ℕ) : ℚ) ∧
        (row.times.max ≠ 0 → row.gflops * 10 ^ 9 * row.times.max = ((flops.sum % 2 ^ 64 : ℕ) : ℚ))) ∧
      ∃ row, (print ranks)[names.length]? = some row ∧ row.name = "Total" ∧ IsSummary (ranks.map fun p => (p.map (·.time)).sum) row.times ∧
        row.tflop * 10 ^ 12 = (((ranks.map fun p => (p.map (·.flops)).sum).sum % 2 ^ 64 : ℕ) : ℚ) ∧
        (row.times.max ≠ 0 → row.gflops * 10 ^ 9 * row.times.max = (((ranks.map fun p => (p.map (·.flops)).sum).sum % 2 ^ 64 : ℕ) : ℚ)) := by
  have hhead : (ranks.headD []).map (·.name) = names := by
    cases ranks with
    | nil => exact absurd rfl hr
    | cons p ps => exact h p (by simp)
  have hlen : ∀ p ∈ ranks, p.length = names.length := fun p hp => by rw [← h p hp, List.length_map]
  have hmod : ∀ l : List (List Region), (l.map fun p => (p.map (·.flops)).sum % 2 ^ 64).sum % 2 ^ 64 = (l.map fun p => (p.map (·.flops)).sum).sum % 2 ^ 64 := by
    intro l
    induction l with
    | nil => rfl
    | cons p l ih => simp only [List.map_cons, List.sum_cons]; omega
  unfold print
  simp only [hhead, hn, if_false]
  refine ⟨by simp, fun i hi => ?_, ?_⟩
  · refine ⟨printSummary (names.getD i "") (ranks.map fun p => (p[i]?).elim 0 (·.time)) (ranks.map fun p => (p[i]?).elim 0 (·.flops)),
      ranks.map fun p => (p[i]?).elim 0 (·.time), ranks.map fun p => (p[i]?).elim 0 (·.flops), ?_⟩
    have hs := printSummary_spec (names.getD i "") (ranks.map fun p => (p[i]?).elim 0 (·.time)) (ranks.map fun p => (p[i]?).elim 0 (·.flops)) (by simpa using hr)
    refine ⟨?_, hs.1.trans ?_, ?_, ?_, hs.2.1, hs.2.2.1, hs.2.2.2⟩
    · rw [List.getElem?_append_left (by simpa using hi), List.getElem?_map, List.getElem?_range hi]; rfl
    · rw [List.getD_eq_getElem?_getD, List.getElem?_eq_getElem hi]; rfl
    · rw [List.map_map]
      refine List.map_congr_left fun p hp => ?_
      have : i < p.length := by rw [hlen p hp]; exact hi
      simp [this]
    · rw [List.map_map]
      refine List.map_congr_left fun p hp => ?_
      have : i < p.length := by rw [hlen p hp]; exact hi
      simp [this]
  · have hs := printSummary_spec "Total" (ranks.map fun p => (p.map (·.time)).sum) (ranks.map fun p => (p.map (·.flops)).sum % 2 ^ 64) (by simpa using hr)
    rw [hmod] at hs
    refine ⟨_, ?_, hs⟩
    rw [List.getElem?_append_right (by simp)]
    simp only [List.length_map, List.length_range, Nat.sub_self, List.getElem?_cons_zero, foldl_time, zero_add, foldl_region_flops]

/-- **C105 (fully dynamic mode)** (the region named `du` measures the evaluation of the elastic operator, hence of `dv`, and vice versa): after any number of evaluations of the right-hand side the profile has the three regions with the times
spent in them, and the operations of `du` are those of one application of the operator times the number of evaluations, modulo `2^64`. -/
theorem C105_fd (F : ℕ) (cs : List (Fin 6 → ℤ)) :
    ∃ q dv du ds, run fdProfile (cs.flatMap (fdRhs F)) = some q ∧ q[0]? = some dv ∧ q[1]? = some du ∧ q[2]? = some ds ∧
      dv.name = "dv" ∧ du.name = "du" ∧ ds.name = "ds" ∧
      dv.time = 1 / 1000000000 * (((cs.map fun c => c 1 - c 0).sum : ℤ) : ℚ) ∧ du.time = 1 / 1000000000 * (((cs.map fun c => c 3 - c 2).sum : ℤ) : ℚ) ∧
      ds.time = 1 / 1000000000 * (((cs.map fun c => c 5 - c 4).sum : ℤ) : ℚ) ∧
      dv.flops % 2 ^ 64 = 0 ∧ du.flops % 2 ^ 64 = cs.length * F % 2 ^ 64 ∧ ds.flops % 2 ^ 64 = 0 := by
  have hes : ∀ e ∈ cs.flatMap (fdRhs F), e.region < fdProfile.length := by
    intro e he
    obtain ⟨c, -, hc⟩ := List.mem_flatMap.1 he
    simp only [fdRhs, List.mem_cons, List.not_mem_nil, or_false] at hc
    rcases hc with rfl | rfl | rfl | rfl | rfl | rfl <;> simp [Event.region, fdProfile, add]
  have hI0 : Intervals 0 (cs.flatMap (fdRhs F)) (cs.map fun c => (c 0, c 1, 0)) := by
    unfold Intervals
    induction cs with
    | nil => rfl
    | cons c cs ih => rw [List.flatMap_cons, List.filter_append, ih fun e he => hes e (by rw [List.flatMap_cons]; exact List.mem_append_right _ he)]; rfl
  have hI1 : Intervals 1 (cs.flatMap (fdRhs F)) (cs.map fun c => (c 2, c 3, F)) := by
    unfold Intervals
    clear hI0
    induction cs with
    | nil => rfl
    | cons c cs ih => rw [List.flatMap_cons, List.filter_append, ih fun e he => hes e (by rw [List.flatMap_cons]; exact List.mem_append_right _ he)]; rfl
  have hI2 : Intervals 2 (cs.flatMap (fdRhs F)) (cs.map fun c => (c 4, c 5, 0)) := by
    unfold Intervals
    clear hI0 hI1
    induction cs with
    | nil => rfl
    | cons c cs ih => rw [List.flatMap_cons, List.filter_append, ih fun e he => hes e (by rw [List.flatMap_cons]; exact List.mem_append_right _ he)]; rfl
  obtain ⟨q, dv, h1, h2, h3, h4, h5⟩ := C105_times fdProfile _ hes 0 _ rfl rfl _ hI0
  obtain ⟨q1, du, g1, g2, g3, g4, g5⟩ := C105_times fdProfile _ hes 1 _ rfl rfl _ hI1
  obtain ⟨q2, ds, k1, k2, k3, k4, k5⟩ := C105_times fdProfile _ hes 2 _ rfl rfl _ hI2
  obtain rfl : q = q1 := Option.some.inj (h1.symm.trans g1)
  obtain rfl : q = q2 := Option.some.inj (h1.symm.trans k1)
  have hz : (cs.map fun _ => (0 : ℕ)).sum = 0 := by simp
  have hF : (cs.map fun _ => F).sum = cs.length * F := by simp
  simp only [List.map_map, Function.comp_def] at h4 h5 g4 g5 k4 k5
  rw [hz] at h5 k5
  rw [hF] at g5
  refine ⟨q, dv, du, ds, h1, h2, g2, k2, h3, g3, k3, ?_, ?_, ?_, by simpa using h5, by simpa using g5, by simpa using k5⟩
  · rw [h4, zero_add]
  · rw [g4, zero_add]
  · rw [k4, zero_add]

/-! ## Examples -/

/-- Two regions whose intervals overlap, and one of them measured twice: from the first call to the table on three ranks. -/
example : run (add (add [] "a").1 "b").1 [.begin 0 5, .begin 1 6, .stop 0 10 3, .begin 0 11, .stop 1 20 7, .stop 0 13 4] =
    some [⟨"a", ⟨11, 0⟩, 7 / 1000000000, 7⟩, ⟨"b", ⟨6, 0⟩, 14 / 1000000000, 7⟩] := by
  decide +kernel

example : Intervals 0 [.begin 0 5, .begin 1 6, .stop 0 10 3, .begin 0 11, .stop 1 20 7, .stop 0 13 4] [(5, 10, 3), (11, 13, 4)] := by
  unfold Intervals; decide +kernel

example : summary [3, 1, 7, 2] = ⟨1, 5 / 2, 13 / 4, 7⟩ := by decide +kernel

/-- A `stop` without a `begin` of its own counts from the last `begin`: the time between is counted twice. -/
theorem C105_stop_twice : (run (add [] "a").1 [.begin 0 0, .stop 0 10 0, .stop 0 20 0]).map (·.map (·.time)) = some [30 / 1000000000] := by
  decide +kernel

end Tandem.Profile
