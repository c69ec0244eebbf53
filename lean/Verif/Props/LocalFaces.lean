import Verif.Model.LocalFaces
import Verif.Props.Algorithm
/-! # Property C24: permuting local faces -/
namespace Tandem.LocalFaces
open Tandem.Algorithm Tandem.Spec Tandem.CommPattern

/-- All arrays describe the same `n` faces. -/
structure Coherent {σ δ} (lf : LocalFaces σ δ) (n : Nat) : Prop where
  faces : lf.faces.length = n
  owner : lf.owner.length = n
  gids : lf.gids.length = n
  counts : lf.sharedCounts.length = n
  shared : lf.sharedRanks.length = lf.sharedCounts.sum
  data : ∀ d, lf.data = some d → d.length = n

theorem g2l_fold {σ} [DecidableEq σ] (f : σ) : ∀ (l : List σ) (k : Nat) (acc : Option Nat),
    ((l.zipIdx k).foldl (fun acc p => if p.1 = f then some p.2 else acc) acc = acc ∧ f ∉ l) ∨
    (∃ i, l[i]? = some f ∧ (∀ j, i < j → l[j]? ≠ some f) ∧
      (l.zipIdx k).foldl (fun acc p => if p.1 = f then some p.2 else acc) acc = some (k + i)) := by
  intro l
  induction l with
  | nil => intro k acc; left; simp
  | cons a l ih =>
    intro k acc
    rw [List.zipIdx_cons, List.foldl_cons]
    rcases ih (k + 1) (if a = f then some k else acc) with ⟨h1, h2⟩ | ⟨i, h1, h2, h3⟩
    · by_cases ha : a = f
      · right
        refine ⟨0, by simp [ha], ?_, ?_⟩
        · intro j hj he
          obtain ⟨j', rfl⟩ : ∃ j', j = j' + 1 := ⟨j - 1, by omega⟩
          simp at he
          exact h2 (List.mem_of_getElem? he)
        · simp only; rw [h1, if_pos ha, Nat.add_zero]
      · left
        simp only
        rw [h1, if_neg ha]
        refine ⟨rfl, ?_⟩
        intro hm
        rcases List.mem_cons.1 hm with rfl | hm
        · exact ha rfl
        · exact h2 hm
    · right
      refine ⟨i + 1, by simpa using h1, ?_, ?_⟩
      · intro j hj
        obtain ⟨j', rfl⟩ : ∃ j', j = j' + 1 := ⟨j - 1, by omega⟩
        simpa using h2 j' (by omega)
      · simp only; rw [h3]; congr 1; omega

/-- Lookup in the global-to-local map of pairwise different faces. -/
theorem g2l_iff {σ} [DecidableEq σ] (faces : List σ) (hn : faces.Nodup) (f : σ) (i : Nat) :
    g2l faces f = some i ↔ faces[i]? = some f := by
  unfold g2l
  have huniq : ∀ i j : Nat, faces[i]? = some f → faces[j]? = some f → i = j := by
    intro i j hi hj
    have h1 : i < faces.length := by
      apply Classical.byContradiction; intro h
      rw [List.getElem?_eq_none (by omega)] at hi; simp at hi
    have h2 : j < faces.length := by
      apply Classical.byContradiction; intro h
      rw [List.getElem?_eq_none (by omega)] at hj; simp at hj
    rw [List.getElem?_eq_getElem h1] at hi
    rw [List.getElem?_eq_getElem h2] at hj
    exact (List.getElem_inj hn).1 ((Option.some.inj hi).trans (Option.some.inj hj).symm)
  rcases g2l_fold f faces 0 none with ⟨h1, h2⟩ | ⟨j, h1, h2, h3⟩
  · rw [h1]
    constructor
    · intro h; simp at h
    · intro h; exact absurd (List.mem_of_getElem? h) h2
  · rw [h3]
    constructor
    · intro h
      have : j = i := by simpa using h
      exact this ▸ h1
    · intro h; rw [huniq i j h h1]; simp

theorem g2l_none {σ} [DecidableEq σ] (faces : List σ) (f : σ) : g2l faces f = none ↔ f ∉ faces := by
  unfold g2l
  rcases g2l_fold f faces 0 none with ⟨h1, h2⟩ | ⟨j, h1, h2, h3⟩
  · rw [h1]; simp [h2]
  · rw [h3]; simp [List.mem_of_getElem? h1]

theorem permuteSharedRanks_spec (shared counts : List Nat) (hsum : shared.length = counts.sum) :
    ∀ (perm : List Nat), (∀ p ∈ perm, p < counts.length) →
    (permuteSharedRanks shared counts perm).2 = perm.map (fun p => counts.getD p 0) ∧
    (permuteSharedRanks shared counts perm).1 =
      perm.flatMap (fun p => slice shared (counts.take p).sum (counts.getD p 0)) := by
  intro perm
  induction perm with
  | nil => intro _; exact ⟨rfl, rfl⟩
  | cons p ps ih =>
    intro h
    obtain ⟨h1, h2⟩ := ih (fun q hq => h q (by simp [hq]))
    simp [permuteSharedRanks, h1, h2]

theorem take_sum_le (l : List Nat) (k : Nat) (hk : k < l.length) :
    (l.take k).sum + l.getD k 0 ≤ l.sum := by
  have h1 : l = l.take k ++ (l[k] :: l.drop (k + 1)) := by
    rw [List.getElem_cons_drop, List.take_append_drop]
  have h2 : l.getD k 0 = l[k] := by
    rw [List.getD_eq_getElem?_getD, List.getElem?_eq_getElem hk]; rfl
  have h3 : l.sum = (l.take k).sum + (l[k] + (l.drop (k + 1)).sum) := by
    conv => lhs; rw [h1]
    rw [List.sum_append, List.sum_cons]
  omega

theorem flatMap_slice {α} (g : Nat → List α) (L : List Nat) (i : Nat) (hi : i < L.length)
    (cnt : List Nat) (hc : cnt = L.map (fun p => (g p).length)) :
    slice (L.flatMap g) (cnt.take i).sum (cnt.getD i 0) = g (L.getD i 0) := by
  subst hc
  induction L generalizing i with
  | nil => simp at hi
  | cons a L ih =>
    cases i with
    | zero => simp [slice]
    | succ i =>
      have := ih i (by simpa using hi)
      simp only [List.map_cons, List.take_succ_cons, List.sum_cons, List.flatMap_cons,
        List.getD_cons_succ] at *
      rw [← this]
      unfold slice
      rw [← List.drop_drop, List.drop_left]

/-- C24: permuting by a permutation of the faces succeeds and moves face, owner, global id, shared
ranks and attached data together: entry `i` of the result is entry `perm[i]` of the input; the number
of interior faces is unchanged, the object stays coherent, and the face-to-number map is rebuilt. -/
theorem C24_permute {σ δ} [DecidableEq σ] (lf : LocalFaces σ δ) (n : Nat) (hc : Coherent lf n)
    (perm : List Nat) (hp : IsPermutation perm n) (fuel : Nat) (hf : n ≤ fuel) :
    ∃ lf', permute fuel lf perm = some lf' ∧ Coherent lf' n ∧ lf'.localSize = lf.localSize ∧
      (∀ i (hi : i < perm.length),
        lf'.faces[i]? = lf.faces[perm[i]]? ∧ lf'.owner[i]? = lf.owner[perm[i]]? ∧
        lf'.gids[i]? = lf.gids[perm[i]]? ∧ getSharedRanks lf' i = getSharedRanks lf perm[i] ∧
        (∀ d, lf.data = some d → ∃ d', lf'.data = some d' ∧ d'[i]? = d[perm[i]]?)) ∧
      (lf.data = none → lf'.data = none) ∧
      (lf.faces.Nodup → ∀ (f : σ) (i : Nat), g2l lf'.faces f = some i ↔ lf'.faces[i]? = some f) := by
  obtain ⟨f', f1, f2, f3⟩ := C03_apply_permutation lf.faces perm (by rw [hc.faces]; exact hp) fuel
    (by rw [hc.faces]; exact hf)
  obtain ⟨o', o1, o2, o3⟩ := C03_apply_permutation lf.owner perm (by rw [hc.owner]; exact hp) fuel
    (by rw [hc.owner]; exact hf)
  obtain ⟨g', g1, g2, g3⟩ := C03_apply_permutation lf.gids perm (by rw [hc.gids]; exact hp) fuel
    (by rw [hc.gids]; exact hf)
  have hd : ∃ d', permuteData fuel lf.data perm = some d' ∧
      (∀ e, d' = some e → e.length = n) ∧ (lf.data = none → d' = none) ∧
      (∀ i (hi : i < perm.length), ∀ d, lf.data = some d → ∃ e, d' = some e ∧ e[i]? = d[perm[i]]?) := by
    cases hdat : lf.data with
    | none => exact ⟨none, rfl, by simp, by simp, by simp⟩
    | some d =>
      have hl := hc.data d hdat
      obtain ⟨d', d1, d2, d3⟩ := C03_apply_permutation d perm (by rw [hl]; exact hp) fuel (by omega)
      refine ⟨some d', by simp [permuteData, d1, toOption], ?_, by simp, ?_⟩
      · intro e he; rw [← Option.some.inj he]; omega
      · intro i hi e he; exact ⟨d', rfl, by rw [← Option.some.inj he]; exact d3 i hi⟩
  obtain ⟨d', d1, d2, d4, d3⟩ := hd
  have hpl : ∀ p ∈ perm, p < lf.sharedCounts.length := fun p h => by
    have := hp.2.1 p h; have := hc.counts; omega
  obtain ⟨s1, s2⟩ := permuteSharedRanks_spec lf.sharedRanks lf.sharedCounts hc.shared perm hpl
  have hlen : ∀ p ∈ perm, (slice lf.sharedRanks (lf.sharedCounts.take p).sum
      (lf.sharedCounts.getD p 0)).length = lf.sharedCounts.getD p 0 := by
    intro p h
    have := take_sum_le lf.sharedCounts p (hpl p h)
    have := hc.shared
    simp only [slice, List.length_take, List.length_drop]
    omega
  have hcnt : (permuteSharedRanks lf.sharedRanks lf.sharedCounts perm).2 =
      perm.map (fun p => (slice lf.sharedRanks (lf.sharedCounts.take p).sum
        (lf.sharedCounts.getD p 0)).length) := by
    rw [s1]; exact List.map_congr_left (fun p h => (hlen p h).symm)
  refine ⟨⟨f', o', g', lf.localSize,
    (permuteSharedRanks lf.sharedRanks lf.sharedCounts perm).1,
    (permuteSharedRanks lf.sharedRanks lf.sharedCounts perm).2, d', lf.volumeTags⟩, ?_, ?_, rfl, ?_, d4, ?_⟩
  · simp only [permute, f1, o1, g1, d1, toOption, Option.bind_eq_bind, Option.bind_some]
    rfl
  · refine ⟨by simpa using f2.trans hc.faces, o2.trans hc.owner, g2.trans hc.gids, ?_, ?_, d2⟩
    · simp only [s1, List.length_map]; exact hp.1
    · simp only [s2, hcnt, List.length_flatMap]
  · intro i hi
    refine ⟨f3 i hi, o3 i hi, g3 i hi, ?_, d3 i hi⟩
    unfold getSharedRanks
    simp only
    rw [s2, flatMap_slice _ perm i hi _ hcnt]
    simp [List.getElem?_eq_getElem hi]
  · intro hn f i
    apply g2l_iff
    have hperm := C03_apply_permutation_perm lf.faces perm (by rw [hc.faces]; exact hp) fuel
      (by rw [hc.faces]; exact hf)
    obtain ⟨f'', h1, h2⟩ := hperm
    rw [f1] at h1
    have : f' = f'' := by simpa using h1
    exact this ▸ h2.nodup_iff.2 hn

/-- C24 (defect): volume tags attached to the faces are not moved, so that after a permutation a face
can carry another face's tag. -/
theorem C24_volume_tags_not_permuted :
    ∃ (lf lf' : LocalFaces Nat Unit), permute 2 lf [1, 0] = some lf' ∧
      lf.faces = [10, 20] ∧ lf.volumeTags = some [1, 2] ∧
      lf'.faces = [20, 10] ∧ lf'.volumeTags = some [1, 2] :=
  ⟨⟨[10, 20], [0, 0], [0, 1], 2, [], [0, 0], none, some [1, 2]⟩,
   ⟨[20, 10], [0, 0], [1, 0], 2, [], [0, 0], none, some [1, 2]⟩, by decide, rfl, rfl, rfl, rfl⟩

/-- Non-vacuity: a coherent object with shared ranks and data, and its permutation. -/
example : let lf : LocalFaces Nat Nat := ⟨[10, 20, 30], [0, 1, 0], [7, 8, 9], 2, [1, 2, 3], [1, 0, 2],
      some [100, 200, 300], none⟩
    Coherent lf 3 ∧ IsPermutation [2, 0, 1] 3 ∧
    permute 3 lf [2, 0, 1] = some ⟨[30, 10, 20], [0, 0, 1], [9, 7, 8], 2, [2, 3, 1], [2, 1, 0],
      some [300, 100, 200], none⟩ := by
  refine ⟨⟨rfl, rfl, rfl, rfl, rfl, ?_⟩, by unfold IsPermutation; decide, by decide⟩
  intro d hd; rw [← Option.some.inj hd]; rfl

end Tandem.LocalFaces
