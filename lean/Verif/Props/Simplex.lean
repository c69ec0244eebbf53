import Verif.Model.Simplex
import Verif.Props.Combinatorics
import Mathlib.Data.List.Perm.Subperm
import Mathlib.Data.List.Nodup
/-! # Property C20: identity of simplices and their faces -/
namespace Tandem.Simplex
open Tandem.Combinatorics Tandem.Spec

theorem insertSorted_perm (x : Nat) (l : List Nat) : (insertSorted x l).Perm (x :: l) := by
  induction l with
  | nil => exact List.Perm.refl _
  | cons y ys ih =>
    unfold insertSorted
    split
    · exact List.Perm.refl _
    · exact (ih.cons y).trans (List.Perm.swap x y ys)

theorem insertSorted_sorted (x : Nat) (l : List Nat) (h : l.Pairwise (· ≤ ·)) :
    (insertSorted x l).Pairwise (· ≤ ·) := by
  induction l with
  | nil => simp [insertSorted]
  | cons y ys ih =>
    rw [List.pairwise_cons] at h
    unfold insertSorted
    split
    · rename_i hxy
      refine List.pairwise_cons.2 ⟨?_, List.pairwise_cons.2 h⟩
      intro a ha
      rcases List.mem_cons.1 ha with rfl | ha
      · exact hxy
      · exact Nat.le_trans hxy (h.1 a ha)
    · rename_i hxy
      refine List.pairwise_cons.2 ⟨?_, ih h.2⟩
      intro a ha
      rcases List.mem_cons.1 ((insertSorted_perm x ys).mem_iff.1 ha) with rfl | ha
      · omega
      · exact h.1 a ha

theorem sort_perm (l : List Nat) : (sort l).Perm l := by
  induction l with
  | nil => exact List.Perm.refl _
  | cons x xs ih => exact (insertSorted_perm x _).trans (ih.cons x)

theorem sort_sorted (l : List Nat) : (sort l).Pairwise (· ≤ ·) := by
  induction l with
  | nil => simp [sort]
  | cons x xs ih => exact insertSorted_sorted x _ ih

/-- C20 (construction): the vertices are kept and stored in ascending order. -/
theorem C20_mk_sorted (vs : List Nat) : (mk vs).Perm vs ∧ (mk vs).Pairwise (· ≤ ·) :=
  ⟨sort_perm vs, sort_sorted vs⟩

theorem sorted_unique : ∀ (a b : List Nat), a.Pairwise (· ≤ ·) → b.Pairwise (· ≤ ·) → a.Perm b → a = b := by
  intro a
  induction a with
  | nil => intro b _ _ h; exact (List.Perm.nil_eq h)
  | cons x a ih =>
    intro b ha hb h
    cases b with
    | nil => exact absurd h.length_eq (by simp)
    | cons y b =>
      rw [List.pairwise_cons] at ha hb
      have hxy : x = y := by
        have h1 := h.mem_iff.1 (List.mem_cons_self (a := x) (l := a))
        have h2 := h.mem_iff.2 (List.mem_cons_self (a := y) (l := b))
        rcases List.mem_cons.1 h1 with h1 | h1
        · exact h1
        · rcases List.mem_cons.1 h2 with h2 | h2
          · exact h2.symm
          · have := hb.1 x h1
            have := ha.1 y h2
            omega
      subst hxy
      congr 1
      exact ih b ha.2 hb.2 (List.Perm.cons_inv h)

/-- C20 (identity): two simplices built from vertex tuples are equal exactly if the tuples are
rearrangements of each other. -/
theorem C20_eq_iff_perm (a b : List Nat) : mk a = mk b ↔ a.Perm b := by
  constructor
  · intro h
    exact (sort_perm a).symm.trans ((show sort a = sort b from h) ▸ sort_perm b)
  · intro h
    exact sorted_unique _ _ (sort_sorted a) (sort_sorted b)
      ((sort_perm a).trans (h.trans (sort_perm b).symm))

/-- C20 (identity): for tuples of pairwise different vertices this is equality of vertex sets. -/
theorem C20_eq_iff_same_vertices (a b : List Nat) (ha : a.Nodup) (hb : b.Nodup) :
    mk a = mk b ↔ ∀ v, v ∈ a ↔ v ∈ b := by
  rw [C20_eq_iff_perm]
  constructor
  · intro h v; exact h.mem_iff
  · intro h; exact (List.perm_ext_iff_of_nodup ha hb).2 h

/-- What `pick` returns. -/
theorem pick_ok (plex : List Nat) : ∀ (c : List Nat), (∀ i ∈ c, i < plex.length) →
    pick plex c = some (c.map (fun i => plex.getD i 0)) := by
  intro c
  induction c with
  | nil => intro _; rfl
  | cons i c ih =>
    intro h
    have hi := h i (by simp)
    simp [pick, ih (fun j hj => h j (by simp [hj])), List.getElem?_eq_getElem hi]

theorem pickAll_ok (plex : List Nat) : ∀ (L : List (List Nat)), (∀ c ∈ L, ∀ i ∈ c, i < plex.length) →
    pickAll plex L = some (L.map (fun c => c.map (fun i => plex.getD i 0))) := by
  intro L
  induction L with
  | nil => intro _; rfl
  | cons c L ih =>
    intro h
    simp only [pickAll, pick_ok plex c (h c (by simp)), ih (fun d hd => h d (by simp [hd]))]
    rfl

theorem getD_lt_iff (plex : List Nat) (hs : plex.Pairwise (· < ·)) (i j : Nat) (hi : i < plex.length)
    (hj : j < plex.length) : plex.getD i 0 < plex.getD j 0 ↔ i < j := by
  have h := List.pairwise_iff_getElem.1 hs
  simp only [List.getD_eq_getElem?_getD, List.getElem?_eq_getElem hi, List.getElem?_eq_getElem hj,
    Option.getD_some]
  constructor
  · intro hlt
    apply Classical.byContradiction
    intro hn
    rcases Nat.lt_or_ge j i with h' | h'
    · have := h j i hj hi h'; omega
    · have : i = j := by omega
      subst this; omega
  · intro hlt; exact h i j hi hj hlt

theorem getD_inj (plex : List Nat) (hs : plex.Pairwise (· < ·)) (i j : Nat) (hi : i < plex.length)
    (hj : j < plex.length) (h : plex.getD i 0 = plex.getD j 0) : i = j := by
  have h1 := getD_lt_iff plex hs i j hi hj
  have h2 := getD_lt_iff plex hs j i hj hi
  omega

/-- The `k+1`-vertex faces as sorted vertex lists. -/
def IsFace (plex : List Nat) (k : Nat) (f : List Nat) : Prop :=
  f.length = k + 1 ∧ f.Pairwise (· < ·) ∧ ∀ v ∈ f, v ∈ plex

theorem indices_of (plex : List Nat) (hs : plex.Pairwise (· < ·)) : ∀ f : List Nat,
    f.Pairwise (· < ·) → (∀ v ∈ f, v ∈ plex) →
    ∃ c : List Nat, c.Pairwise (· < ·) ∧ (∀ i ∈ c, i < plex.length) ∧
      f = c.map (fun i => plex.getD i 0) := by
  intro f
  induction f with
  | nil => intro _ _; exact ⟨[], by simp, by simp, rfl⟩
  | cons v f ih =>
    intro h hv
    rw [List.pairwise_cons] at h
    obtain ⟨c, h1, h2, h3⟩ := ih h.2 (fun w hw => hv w (by simp [hw]))
    obtain ⟨i, hi, he⟩ := List.getElem_of_mem (hv v (by simp))
    have hgi : plex.getD i 0 = v := by
      rw [List.getD_eq_getElem?_getD, List.getElem?_eq_getElem hi]; exact he
    refine ⟨i :: c, List.pairwise_cons.2 ⟨?_, h1⟩, ?_, by rw [List.map_cons, hgi, h3]⟩
    · intro j hj
      have : plex.getD j 0 ∈ f := by rw [h3]; exact List.mem_map_of_mem hj
      have := h.1 _ this
      rw [← hgi, getD_lt_iff plex hs i j hi (h2 j hj)] at this
      exact this
    · intro j hj
      rcases List.mem_cons.1 hj with rfl | hj
      · exact hi
      · exact h2 j hj

/-- C20 (faces): for a simplex with `D+1` different vertices and every `DD < D`, `downward<DD>()` ends,
stays in bounds and lists every face with `DD+1` vertices exactly once; every listed face is again
sorted, and there are `binom(D+1, DD+1)` of them. -/
theorem C20_downward (D DD : Nat) (hDD : DD < D) (plex : List Nat) (hlen : plex.length = D + 1)
    (hs : plex.Pairwise (· < ·)) (fuel : Nat) (hf : (D + 1).choose (DD + 1) ≤ fuel + 1) :
    ∃ faces, downward fuel D DD plex = some faces ∧ ListsExactly faces (IsFace plex DD) ∧
      faces.length = (D + 1).choose (DD + 1) := by
  have key : ∀ L : List (List Nat), ListsExactly L (IsSubset (D + 1) (DD + 1)) →
      pickAll plex L = some (L.map (fun c => c.map (fun i => plex.getD i 0))) ∧
      ListsExactly (L.map (fun c => c.map (fun i => plex.getD i 0))) (IsFace plex DD) := by
    intro L hL
    have hb : ∀ c ∈ L, ∀ i ∈ c, i < plex.length := fun c hc i hi => by
      have := ((hL.2 c).1 hc).2.2 i hi; omega
    refine ⟨pickAll_ok plex L hb, ?_, ?_⟩
    · rw [List.nodup_map_iff_inj_on hL.1]
      intro c hc d hd he
      have hl : c.length = d.length := by rw [((hL.2 c).1 hc).1, ((hL.2 d).1 hd).1]
      apply List.ext_getElem hl
      intro i h1 h2
      have := congrArg (fun l => l[i]?) he
      simp only [List.getElem?_map, List.getElem?_eq_getElem h1, List.getElem?_eq_getElem h2,
        Option.map_some, Option.some.injEq] at this
      exact getD_inj plex hs _ _ (hb c hc _ (List.getElem_mem h1)) (hb d hd _ (List.getElem_mem h2)) this
    · intro f
      constructor
      · intro hm
        obtain ⟨c, hc, rfl⟩ := List.mem_map.1 hm
        obtain ⟨g1, g2, g3⟩ := (hL.2 c).1 hc
        refine ⟨by simpa using g1, ?_, ?_⟩
        · rw [List.pairwise_map]
          refine List.Pairwise.imp_of_mem ?_ g2
          intro a b ha hb' hab
          exact (getD_lt_iff plex hs a b (by have := g3 a ha; omega) (by have := g3 b hb'; omega)).2 hab
        · intro v hv
          obtain ⟨i, hi, rfl⟩ := List.mem_map.1 hv
          have : i < plex.length := by have := g3 i hi; omega
          rw [List.getD_eq_getElem?_getD, List.getElem?_eq_getElem this]
          exact List.getElem_mem this
      · rintro ⟨g1, g2, g3⟩
        obtain ⟨c, h1, h2, h3⟩ := indices_of plex hs f g2 g3
        refine List.mem_map.2 ⟨c, (hL.2 c).2 ⟨?_, h1, ?_⟩, h3.symm⟩
        · rw [h3] at g1; simpa using g1
        · intro i hi; have := h2 i hi; omega
  unfold downward
  by_cases h0 : DD = 0
  · subst h0
    rw [if_pos rfl]
    have hL : ListsExactly ((List.range (D + 1)).map (fun d => [d])) (IsSubset (D + 1) 1) := by
      refine ⟨?_, ?_⟩
      · rw [List.nodup_map_iff_inj_on List.nodup_range]
        intro a _ b _ h; simpa using h
      · intro c
        constructor
        · intro h
          obtain ⟨d, hd, rfl⟩ := List.mem_map.1 h
          exact ⟨rfl, by simp, by simpa using hd⟩
        · rintro ⟨h1, h2, h3⟩
          match c, h1 with
          | [x], _ => exact List.mem_map.2 ⟨x, by simpa using h3 x (by simp), rfl⟩
    obtain ⟨k1, k2⟩ := key _ hL
    exact ⟨_, k1, k2, by simp⟩
  · rw [if_neg h0]
    obtain ⟨L, h1, h2, _, h4⟩ := C05_choose_enumerates (D + 1) (DD + 1) (by omega) fuel hf
    obtain ⟨k1, k2⟩ := key L h2
    refine ⟨_, ?_, k2, ?_⟩
    · rw [h1, h4]; simp only [Nat.le_refl, if_true]; exact k1
    · rw [C05_binom _ _ (by omega)] at h4
      have := Option.some.inj h4
      simp [this]

/-- The index tuples of size `D` below `D+1` in lexicographic order: number `i` omits `D - i`. -/
theorem combos_facets : ∀ (D lo : Nat), combos D lo (D + 1) =
    (List.range (D + 1)).map (fun i => (iota lo (D + 1)).eraseIdx (D - i)) := by
  intro D
  induction D with
  | zero => intro lo; rfl
  | succ D ih =>
    intro lo
    have e : combos (D + 1) lo (D + 1 + 1) =
        (combos D (lo + 1) (D + 1)).map (fun c => lo :: c) ++ combos (D + 1) (lo + 1) (D + 1) := rfl
    rw [e, ih (lo + 1)]
    have full : ∀ (k l : Nat), combos k l k = [iota l k] := by
      intro k
      induction k with
      | zero => intro l; rfl
      | succ k ihk =>
        intro l
        have e' : combos (k + 1) l (k + 1) =
          (combos k (l + 1) k).map (fun c => l :: c) ++ combos (k + 1) (l + 1) k := rfl
        have e2 : combos (k + 1) (l + 1) k = [] := by
          apply List.eq_nil_of_length_eq_zero
          rw [combos_length, Nat.choose_eq_zero_of_lt (by omega)]
        rw [e', ihk, e2]; rfl
    rw [full, List.range_succ (n := D + 1), List.map_append, List.map_map]
    congr 1
    · apply List.map_congr_left
      intro i hi
      have hi' : i < D + 1 := by simpa using hi
      simp only [Function.comp]
      rw [show D + 1 - i = (D - i) + 1 by omega]
      rfl
    · simp [iota]

/-- C20 (numbering of facets): facet number `i` of a `D`-simplex is the one opposite to vertex number
`D - i`. -/
theorem C20_facet_opposite (D : Nat) (hD : 0 < D) (plex : List Nat) (hlen : plex.length = D + 1)
    (fuel : Nat) (hf : D ≤ fuel) :
    ∃ faces, downward fuel D (D - 1) plex = some faces ∧ faces.length = D + 1 ∧
      ∀ i, i < D + 1 → faces[i]? = some (plex.eraseIdx (D - i)) := by
  have hvis : chooseVisit (D + 1) D fuel = some (combos D 0 (D + 1)) := by
    obtain ⟨L, hL⟩ := combos_head D 0 (D + 1) (by omega)
    have hchain := combos_chain (D + 1) D 0 (D + 1) (by omega) (by omega)
    have hl := combos_length D 0 (D + 1)
    rw [hL] at hchain hl ⊢
    exact chooseLoop_chain (D + 1) D L _ fuel hchain (by simp at hl; omega)
  have hio : ∀ (lo n : Nat), iota lo n = (List.range n).map (fun i => lo + i) := by
    intro lo n
    induction n generalizing lo with
    | zero => rfl
    | succ n ih =>
      rw [List.range_succ_eq_map, iota, ih (lo + 1)]
      simp only [List.map_cons, List.map_map, Nat.add_zero]
      congr 1
      apply List.map_congr_left
      intro i _
      simp only [Function.comp]; omega
  have herase : ∀ k, k < D + 1 → ((iota 0 (D + 1)).eraseIdx k).map (fun i => plex.getD i 0) = plex.eraseIdx k := by
    intro k hk
    rw [← List.eraseIdx_map]
    congr 1
    rw [hio]
    apply List.ext_getElem
    · simp [hlen]
    · intro i h1 h2; simp [List.getElem?_eq_getElem h2]
  have hpick : pickAll plex (combos D 0 (D + 1)) =
      some ((List.range (D + 1)).map (fun i => plex.eraseIdx (D - i))) := by
    rw [pickAll_ok, combos_facets, List.map_map]
    · congr 1
      apply List.map_congr_left
      intro i hi
      exact herase (D - i) (by omega)
    · intro c hc i hi
      have := (mem_combos D 0 (D + 1) c).1 hc
      have h2 := ((incFrom_iff _ _ _).1 this.2).2.1 i hi
      omega
  by_cases h1 : D = 1
  · subst h1
    refine ⟨[plex.eraseIdx 1, plex.eraseIdx 0], ?_, rfl, ?_⟩
    · have : downward fuel 1 0 plex = pickAll plex (combos 1 0 2) := rfl
      rw [show 1 - 1 = 0 from rfl, this, hpick]; rfl
    · intro i hi
      match i, hi with
      | 0, _ => rfl
      | 1, _ => rfl
  · refine ⟨(List.range (D + 1)).map (fun i => plex.eraseIdx (D - i)), ?_, by simp, ?_⟩
    · unfold downward
      rw [if_neg (by omega), show D - 1 + 1 = D by omega, hvis, C05_binom _ _ (by omega)]
      simp only
      rw [combos_length, if_pos (Nat.le_refl _), hpick]
    · intro i hi
      simp [hi]

example : mk [7, 2, 5] = [2, 5, 7] ∧ mk [7, 2, 5] = mk [5, 7, 2] ∧
    downward 10 3 2 [2, 5, 7, 9] = some [[2, 5, 7], [2, 5, 9], [2, 7, 9], [5, 7, 9]] ∧
    downward 10 3 1 [2, 5, 7, 9] = some [[2, 5], [2, 7], [2, 9], [5, 7], [5, 9], [7, 9]] := by decide

end Tandem.Simplex
