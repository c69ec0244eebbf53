import Verif.Lemmas.Ghosts4
import Mathlib.Data.List.Sort
/-! # Property C23: ghost elements -/
namespace Tandem.Ghosts
open Tandem.Spec

theorem split_sorted {α : Type} (p : α → Bool) : ∀ l : List α,
    l.Pairwise (fun a b => p b = true → p a = true) → l = l.filter p ++ l.filter (fun x => !p x)
  | [], _ => rfl
  | a :: l, h => by
    rw [List.pairwise_cons] at h
    have ih := split_sorted p l h.2
    by_cases hp : p a = true
    · rw [List.filter_cons_of_pos hp, List.filter_cons_of_neg (by simp [hp]), List.cons_append, ← ih]
    · have : l.filter p = [] := by
        rw [List.filter_eq_nil_iff]
        intro x hx hpx
        exact hp (h.1 x hx hpx)
      rw [this] at ih
      rw [List.filter_cons_of_neg hp, this, List.filter_cons_of_pos (by simp [hp])]
      simp only [List.nil_append] at ih ⊢
      rw [← ih]

theorem eq_of_sorted_map {α : Type} (g : α → Nat) : ∀ (l m : List α), l.Perm m →
    l.Pairwise (fun a b => g a < g b) → m.Pairwise (fun a b => g a < g b) → l = m
  | [], m, h, _, _ => by rw [List.nil_perm.1 h]
  | a :: l, [], h, _, _ => by simp at h
  | a :: l, b :: m, h, h1, h2 => by
    rw [List.pairwise_cons] at h1 h2
    have hab : a = b := by
      have ha : a ∈ b :: m := h.mem_iff.1 (by simp)
      have hb : b ∈ a :: l := h.mem_iff.2 (by simp)
      rcases List.mem_cons.1 ha with e | e
      · exact e
      · rcases List.mem_cons.1 hb with e' | e'
        · exact e'.symm
        · have := h1.1 b e'; have := h2.1 a e; omega
    subst hab
    rw [eq_of_sorted_map g l m (List.perm_cons a |>.1 h) h1.2 h2.2]

section
variable (env : Env) (elems : Nat → List Elem) (hm : Mesh env.P env.D elems) (he : EnvOk env elems)
  (htot : offset elems env.P < 2 ^ 64)

include hm he htot in
theorem final_spec (o r : Nat) (ho : 0 < o) (hr : r < env.P) :
    let R := ghostElements env elems o r
    R.1.Nodup ∧ (∀ e, e ∈ R.1 ↔ Near env.P elems (elems r) o e) ∧
    R.1.take (elems r).length = S env elems o r ∧
    R.2.1 = R.1.map (G env elems o) ∧
    R.2.2 = R.2.1.map (gidOwner env elems) ∧
    (R.1.drop (elems r).length).Pairwise (fun a b => ∀ p q, p < env.P → q < env.P →
      a ∈ elems p → b ∈ elems q → p < q ∨ p = q ∧ G env elems o a < G env elems o b) := by
  obtain ⟨hinv, hpre⟩ := grown_inv env elems hm he o r hr
  have hkeys := he.keys ((grown env elems o r).2.map (orderKey env elems r))
  obtain ⟨perm, hperm⟩ : ∃ p, p = env.sortKeys ((grown env elems o r).2.map (orderKey env elems r)) := ⟨_, rfl⟩
  rw [← hperm] at hkeys
  have hpl : Spec.IsPermutation perm (grown env elems o r).1.length := by
    have := hkeys.1
    rw [hinv.gid] at this; simpa using this
  have hR : ghostElements env elems o r = (permuted (grown env elems o r).1 perm,
      permuted (grown env elems o r).2 perm, (permuted (grown env elems o r).2 perm).map (gidOwner env elems)) := by
    unfold ghostElements; rw [if_neg (by omega)]; simp only [← hperm]
  rw [hR]
  simp only
  obtain ⟨E, hE⟩ : ∃ E, E = permuted (grown env elems o r).1 perm := ⟨_, rfl⟩
  have hEp : E.Perm (grown env elems o r).1 := by rw [hE]; exact permuted_perm _ _ hpl
  have hg : permuted (grown env elems o r).2 perm = E.map (G env elems o) := by
    rw [hinv.gid, permuted_map _ _ _ hpl, hE]
  have hnd : E.Nodup := hEp.nodup_iff.2 hinv.nodup
  have hmem : ∀ e, e ∈ E ↔ Near env.P elems (elems r) o e := fun e => by rw [hEp.mem_iff, hinv.mem]
  have hin : ∀ e ∈ E, InElems env.P elems e := fun e h => near_in env elems r hr o e ((hmem e).1 h)
  have hown : ∀ e ∈ E, ∃ q, q < env.P ∧ e ∈ elems q ∧ gidOwner env elems (G env elems o e) = q := by
    intro e h
    obtain ⟨q, hq, h'⟩ := hin e h
    exact ⟨q, hq, h', gidOwner_eq env elems hm o htot q hq e h'⟩
  have hgi : ∀ e ∈ E, (gidOwner env elems (G env elems o e) = r ↔ e ∈ elems r) := by
    intro e h
    obtain ⟨q, hq, h1, h2⟩ := hown e h
    rw [h2]
    constructor
    · rintro rfl; exact h1
    · intro h3
      apply Classical.byContradiction
      intro hne
      exact hm.disjoint q r hq hr hne e h1 h3
  have hsort : E.Pairwise (fun a b => pairLe (orderKey env elems r (G env elems o a))
      (orderKey env elems r (G env elems o b))) := by
    have := permuted_sorted pairLe _ _ hkeys
    rw [permuted_map _ _ _ (by rw [hinv.gid]; simpa using hpl), hg, List.map_map, List.pairwise_map] at this
    exact this
  have hsort' : E.Pairwise (fun a b => (a ∈ elems r ∧ b ∉ elems r) ∨
      (a ∈ elems r ∧ b ∈ elems r ∧ G env elems o a < G env elems o b) ∨
      (a ∉ elems r ∧ b ∉ elems r ∧ ∀ p q, p < env.P → q < env.P → a ∈ elems p → b ∈ elems q →
        p < q ∨ p = q ∧ G env elems o a < G env elems o b)) := by
    refine (hsort.and hnd).imp_of_mem ?_
    intro a b ha hb ⟨h, hne⟩
    have hGne : G env elems o a ≠ G env elems o b := fun h => hne (G_inj env elems hm o a b (hin a ha) (hin b hb) h)
    unfold pairLe orderKey at h
    by_cases h1 : a ∈ elems r
    · by_cases h2 : b ∈ elems r
      · rw [if_pos ((hgi a ha).2 h1), if_pos ((hgi b hb).2 h2)] at h
        refine Or.inr (Or.inl ⟨h1, h2, ?_⟩)
        simp at h; omega
      · exact Or.inl ⟨h1, h2⟩
    · have h1' : gidOwner env elems (G env elems o a) ≠ r := fun h => h1 ((hgi a ha).1 h)
      rw [if_neg h1'] at h
      by_cases h2 : b ∈ elems r
      · rw [if_pos ((hgi b hb).2 h2)] at h
        simp at h; omega
      · have h2' : gidOwner env elems (G env elems o b) ≠ r := fun h => h2 ((hgi b hb).1 h)
        rw [if_neg h2'] at h
        refine Or.inr (Or.inr ⟨h1, h2, fun p q hp hq hap hbq => ?_⟩)
        rw [gidOwner_eq env elems hm o htot p hp a hap, gidOwner_eq env elems hm o htot q hq b hbq] at h
        simp at h; omega
  have hsplit : E = E.filter (fun e => decide (e ∈ elems r)) ++ E.filter (fun e => !decide (e ∈ elems r)) := by
    apply split_sorted
    refine hsort'.imp ?_
    intro a b h hb
    simp only [decide_eq_true_eq] at hb ⊢
    rcases h with h | h | h
    · exact h.1
    · exact h.1
    · exact absurd hb h.2.1
  have hSn : (S env elems o r).Nodup := (sorted_perm env elems o r).nodup_iff.2 (hm.nodup r hr)
  have hfp : (E.filter (fun e => decide (e ∈ elems r))).Perm (S env elems o r) := by
    rw [List.perm_ext_iff_of_nodup (hnd.filter _) hSn]
    intro e
    rw [List.mem_filter, decide_eq_true_eq, (sorted_perm env elems o r).mem_iff, hmem]
    constructor
    · exact fun h => h.2
    · intro h; exact ⟨near_mono env elems _ e 0 o (by omega) h, h⟩
  have hSs : (S env elems o r).Pairwise (fun a b => G env elems o a < G env elems o b) := by
    rw [List.pairwise_iff_getElem]
    intro i j hi hj hij
    rw [G_of_get env elems hm o r hr i _ (List.getElem?_eq_getElem hi),
      G_of_get env elems hm o r hr j _ (List.getElem?_eq_getElem hj)]
    omega
  have hfs : (E.filter (fun e => decide (e ∈ elems r))).Pairwise (fun a b => G env elems o a < G env elems o b) := by
    refine (hsort'.sublist List.filter_sublist).imp_of_mem ?_
    intro a b ha hb h
    have hb' : b ∈ elems r := by simpa using (List.mem_filter.1 hb).2
    rcases h with h | h | h
    · exact absurd hb' h.2
    · exact h.2.2
    · exact absurd hb' h.2.1
  have hEq := eq_of_sorted_map (G env elems o) _ _ hfp hfs hSs
  have hlen : (E.filter (fun e => decide (e ∈ elems r))).length = (elems r).length := by
    rw [hEq, S_length]
  have htake : E.take (elems r).length = S env elems o r := by
    rw [hsplit, ← hlen, List.take_left, hEq]
  have hdrop : E.drop (elems r).length = E.filter (fun e => !decide (e ∈ elems r)) := by
    conv_lhs => rw [hsplit]
    rw [← hlen, List.drop_left]
  rw [← hE, hg]
  refine ⟨hnd, hmem, htake, rfl, trivial, ?_⟩
  rw [hdrop]
  refine (hsort'.sublist List.filter_sublist).imp_of_mem ?_
  intro a b ha hb h
  have ha' : a ∉ elems r := by simpa using (List.mem_filter.1 ha).2
  rcases h with h | h | h
  · exact absurd h.1 ha'
  · exact absurd h.1 ha'
  · exact h.2.2

/-- C23.  For every conforming mesh distributed over `P` ranks and every `overlap`: there is one global
numbering of the elements such that on every rank the element list
* has no element twice and contains exactly the elements reachable from an own element by crossing at
  most `overlap` facets,
* begins with the own elements, whose numbers are consecutive, beginning with the number of elements on
  lower ranks,
* continues with the ghosts ordered by owner and then by number,
* and the recorded numbers and owners are right. -/
theorem C23_ghost_elements (hm : Mesh env.P env.D elems) (he : EnvOk env elems)
    (htot : offset elems env.P < 2 ^ 64) (overlap : Nat) :
    ∃ num : Elem → Nat,
      (∀ e e', InElems env.P elems e → InElems env.P elems e' → num e = num e' → e = e') ∧
      ∀ r, r < env.P →
        (ghostElements env elems overlap r).1.Nodup ∧
        (∀ e, e ∈ (ghostElements env elems overlap r).1 ↔ Near env.P elems (elems r) overlap e) ∧
        ((ghostElements env elems overlap r).1.take (elems r).length).Perm (elems r) ∧
        (ghostElements env elems overlap r).2.1 = (ghostElements env elems overlap r).1.map num ∧
        (ghostElements env elems overlap r).2.1.take (elems r).length =
          (List.range (elems r).length).map (fun i => offset elems r + i) ∧
        (ghostElements env elems overlap r).2.2.length = (ghostElements env elems overlap r).1.length ∧
        (∀ (i : Nat) (e : Elem) (q : Nat), (ghostElements env elems overlap r).1[i]? = some e →
          (ghostElements env elems overlap r).2.2[i]? = some q → q < env.P ∧ e ∈ elems q) ∧
        ((ghostElements env elems overlap r).1.drop (elems r).length).Pairwise (fun a b =>
          ∀ p q, p < env.P → q < env.P → a ∈ elems p → b ∈ elems q → p < q ∨ p = q ∧ num a < num b) := by
  by_cases ho : overlap = 0
  · subst ho
    refine ⟨Gn env elems elems, Gn_inj env elems elems (fun _ => List.Perm.refl _) hm, fun r hr => ?_⟩
    have hg : (List.range (elems r).length).map (fun i => offset elems r + i) =
        (elems r).map (Gn env elems elems) := by
      apply List.ext_getElem?
      intro i
      simp only [List.getElem?_map]
      by_cases h : i < (elems r).length
      · rw [List.getElem?_eq_getElem h, Option.map_some, Gn_of_get env elems elems
          (fun _ => List.Perm.refl _) hm r hr i _ (List.getElem?_eq_getElem h)]
        simp [h, off, offset]
      · rw [List.getElem?_eq_none (l := elems r) (by omega)]
        simp [h]
    refine ⟨hm.nodup r hr, fun e => Iff.rfl, ?_, hg, ?_, ?_, ?_, ?_⟩
    · show ((elems r).take _).Perm _
      rw [List.take_length]
    · show (List.take _ (List.map (fun i => offset elems r + i) _)) = _
      rw [← List.map_take, List.take_range, Nat.min_self]
    · show (List.replicate (elems r).length r).length = _
      rw [List.length_replicate]; rfl
    · intro i e q hi hq
      have h1 : q = r := (List.mem_replicate.1 (List.mem_of_getElem? hq)).2
      rw [h1]; exact ⟨hr, List.mem_of_getElem? hi⟩
    · show ((elems r).drop _).Pairwise _
      rw [List.drop_length]; exact List.Pairwise.nil
  · refine ⟨G env elems overlap, G_inj env elems hm overlap, fun r hr => ?_⟩
    obtain ⟨h1, h2, h3, h4, h5, h6⟩ := final_spec env elems hm he htot overlap r (by omega) hr
    refine ⟨h1, h2, h3 ▸ sorted_perm env elems overlap r, h4, ?_, ?_, ?_, h6⟩
    · rw [h4, ← List.map_take, h3]
      exact (start_gids env elems hm overlap r hr).symm
    · rw [h5, h4]; simp
    · intro i e q hi hq
      rw [h5, h4, List.getElem?_map, List.getElem?_map, hi] at hq
      obtain ⟨q', hq', h7⟩ := near_in env elems r hr overlap e ((h2 e).1 (List.mem_of_getElem? hi))
      have := Option.some.inj hq
      rw [gidOwner_eq env elems hm overlap htot q' hq' e h7] at this
      rw [← this]; exact ⟨hq', h7⟩

/-! ## shared ranks and element data -/

theorem rankPerm_perm (P r : Nat) (hr : r < P) : (rankPerm P r).Perm (List.range P) := by
  unfold rankPerm
  refine List.perm_middle.symm.trans ?_
  rw [show P = r + (1 + (P - r - 1)) by omega, List.range_add, List.range_add]
  apply List.Perm.append_left
  simp [List.range'_eq_map_range, Function.comp_def, Nat.add_assoc]

theorem blocks_of_sorted {α : Type} (key : α → Nat) : ∀ (L : List Nat) (l : List α), L.Nodup →
    (∀ a ∈ l, key a ∈ L) → l.Pairwise (fun a b => L.idxOf (key a) ≤ L.idxOf (key b)) →
    l = L.flatMap (fun d => l.filter (fun a => key a = d))
  | [], l, _, h, _ => by
    cases l with
    | nil => rfl
    | cons a l => exact absurd (h a (by simp)) (by simp)
  | d :: L, l, hn, h, hs => by
    rw [List.nodup_cons] at hn
    have h1 := split_sorted (fun a => decide (key a = d)) l (by
      refine hs.imp ?_
      intro a b hab hb
      simp only [decide_eq_true_eq] at hb ⊢
      rw [hb, List.idxOf_cons_self] at hab
      apply Classical.byContradiction
      intro hne
      have : (d == key a) = false := by simpa using fun h : d = key a => hne h.symm
      rw [List.idxOf_cons, this] at hab
      simp at hab)
    have ih := blocks_of_sorted key L (l.filter (fun a => !decide (key a = d))) hn.2
      (by
        intro a ha
        rw [List.mem_filter] at ha
        have hne : key a ≠ d := by simpa using ha.2
        exact (List.mem_cons.1 (h a ha.1)).resolve_left hne)
      (by
        refine (hs.sublist List.filter_sublist).imp_of_mem ?_
        intro a b ha hb hab
        have e1 : (d == key a) = false := by
          have : key a ≠ d := by simpa using (List.mem_filter.1 ha).2
          simpa using fun h : d = key a => this h.symm
        have e2 : (d == key b) = false := by
          have : key b ≠ d := by simpa using (List.mem_filter.1 hb).2
          simpa using fun h : d = key b => this h.symm
        rw [List.idxOf_cons, e1, List.idxOf_cons, e2] at hab
        simpa using hab)
    rw [List.flatMap_cons]
    conv_lhs => rw [h1]
    congr 1
    rw [ih]
    apply List.flatMap_congr
    intro x hx
    rw [List.filter_filter]
    apply List.filter_congr
    intro a _
    by_cases hax : key a = x
    · have : key a ≠ d := fun h => hn.1 (by rw [← h, hax]; exact hx)
      have hxd : ¬ x = d := fun h => this (hax.trans h)
      simp [hax, hxd]
    · simp [hax]

theorem idxOf_rankPerm_self (P r : Nat) : (rankPerm P r).idxOf r = 0 := by
  unfold rankPerm; rw [List.idxOf_cons_self]

theorem idxOf_rankPerm_mono (P r p q : Nat) (hr : r < P) (hp : p < P) (hq : q < P) (hpr : p ≠ r) (hqr : q ≠ r)
    (hpq : p ≤ q) : (rankPerm P r).idxOf p ≤ (rankPerm P r).idxOf q := by
  have hs : (List.range r ++ List.range' (r + 1) (P - r - 1)).Pairwise (· < ·) := by
    rw [List.pairwise_append]
    refine ⟨List.pairwise_lt_range, List.pairwise_lt_range', ?_⟩
    intro a ha b hb
    simp at ha hb; omega
  have hmem : ∀ x, x < P → x ≠ r → x ∈ List.range r ++ List.range' (r + 1) (P - r - 1) := by
    intro x hx hxr; simp; omega
  unfold rankPerm
  have e1 : (r == p) = false := by simpa using fun h : r = p => hpr h.symm
  have e2 : (r == q) = false := by simpa using fun h : r = q => hqr h.symm
  rw [List.idxOf_cons, e1, List.idxOf_cons, e2]
  simp only [cond_false]
  generalize List.range r ++ List.range' (r + 1) (P - r - 1) = L at hs hmem
  obtain ⟨i, hi, hi'⟩ := List.mem_iff_getElem.1 (hmem p hp hpr)
  obtain ⟨j, hj, hj'⟩ := List.mem_iff_getElem.1 (hmem q hq hqr)
  have hn : L.Nodup := hs.imp (fun h => Nat.ne_of_lt h)
  rw [← hi', ← hj', hn.idxOf_getElem, hn.idxOf_getElem]
  rw [← hi', ← hj'] at hpq
  apply Classical.byContradiction
  intro hlt
  have := List.pairwise_iff_getElem.1 hs j i hj hi (by omega)
  omega

/-- the rank of an element -/
def ownerOf (env : Env) (elems : Nat → List Elem) (e : Elem) : Nat :=
  ((List.range env.P).find? (fun q => e ∈ elems q)).getD 0

include hm in
theorem ownerOf_eq (q : Nat) (hq : q < env.P) (e : Elem) (h : e ∈ elems q) : ownerOf env elems e = q := by
  unfold ownerOf; rw [find_owner env elems hm q hq e h]; rfl

include hm he htot in
/-- The buffer of each rank consists of one block for each owner, in the order of `rankPerm`. -/
theorem buf_blocks (o s : Nat) (hs : s < env.P) : (ghostElements env elems o s).1 = (rankPerm env.P s).flatMap
    (fun d => (ghostElements env elems o s).1.filter (fun e => ownerOf env elems e = d)) := by
  obtain ⟨num, _, h⟩ := C23_ghost_elements env elems hm he htot o
  obtain ⟨h1, h2, h3, _, _, _, _, h8⟩ := h s hs
  have hin : ∀ e ∈ (ghostElements env elems o s).1, InElems env.P elems e :=
    fun e h => near_in env elems s hs o e ((h2 e).1 h)
  apply blocks_of_sorted _ _ _ ((rankPerm_perm _ s hs).nodup_iff.2 List.nodup_range)
  · intro e he
    obtain ⟨q, hq, h'⟩ := hin e he
    rw [ownerOf_eq env elems hm q hq e h', (rankPerm_perm _ s hs).mem_iff]
    simpa using hq
  · rw [← List.take_append_drop (elems s).length (ghostElements env elems o s).1, List.pairwise_append]
    have hown : ∀ e ∈ (ghostElements env elems o s).1.take (elems s).length, ownerOf env elems e = s :=
      fun e he => ownerOf_eq env elems hm s hs e (h3.mem_iff.1 he)
    have hnd := List.take_append_drop (elems s).length (ghostElements env elems o s).1
    have hgh : ∀ e ∈ (ghostElements env elems o s).1.drop (elems s).length, e ∉ elems s := by
      intro e he he'
      have hn : ((ghostElements env elems o s).1.take (elems s).length ++
        (ghostElements env elems o s).1.drop (elems s).length).Nodup := by rw [hnd]; exact h1
      exact (List.nodup_append.1 hn).2.2 e (h3.mem_iff.2 he') e he rfl
    refine ⟨?_, ?_, ?_⟩
    · apply List.Pairwise.imp_of_mem (R := fun _ _ => True)
      · intro a b ha hb _
        rw [hown a ha, hown b hb]
      · exact List.pairwise_of_forall (fun _ _ => trivial)
    · refine h8.imp_of_mem ?_
      intro a b ha hb hab
      obtain ⟨p, hp, hap⟩ := hin a (List.mem_of_mem_drop ha)
      obtain ⟨q, hq, hbq⟩ := hin b (List.mem_of_mem_drop hb)
      rw [ownerOf_eq env elems hm p hp a hap, ownerOf_eq env elems hm q hq b hbq]
      apply idxOf_rankPerm_mono env.P s p q hs hp hq
      · rintro rfl; exact hgh a ha hap
      · rintro rfl; exact hgh b hb hbq
      · rcases hab p q hp hq hap hbq with h | h <;> omega
    · intro a ha b hb
      rw [hown a ha, idxOf_rankPerm_self]; omega

include hm he htot in
theorem elemCounts_eq (o s d : Nat) (hs : s < env.P) : elemCounts env elems o s d =
    ((ghostElements env elems o s).1.filter (fun e => ownerOf env elems e = d)).length := by
  unfold elemCounts
  have key : ∃ g : Elem → Nat, (ghostElements env elems o s).2.1 = (ghostElements env elems o s).1.map g ∧
      ∀ e ∈ (ghostElements env elems o s).1, gidOwner env elems (g e) = ownerOf env elems e := by
    by_cases ho : o = 0
    · subst ho
      obtain ⟨num, hnum, h⟩ := C23_ghost_elements env elems hm he htot 0
      obtain ⟨h1, h2, h3, h4, h5, _, _, h8⟩ := h s hs
      refine ⟨num, h4, ?_⟩
      intro e hemem
      have hes : e ∈ elems s := hemem
      rw [ownerOf_eq env elems hm s hs e hes]
      obtain ⟨i, hi⟩ := List.mem_iff_getElem?.1 hes
      have hil := (List.getElem?_eq_some_iff.1 hi).1
      have hg : num e = off elems s + i := by
        have h6 : (ghostElements env elems 0 s).2.1[i]? = some (num e) := by
          rw [h4, List.getElem?_map]
          show Option.map num (elems s)[i]? = _
          rw [hi]; rfl
        have h7 : (ghostElements env elems 0 s).2.1[i]? = some (off elems s + i) := by
          show ((List.range (elems s).length).map (fun i => off elems s + i))[i]? = _
          simp [hil]
        rw [h6] at h7; exact Option.some.inj h7
      have hmono := off_mono elems (s + 1) env.P hs
      have hsu := off_succ elems s
      obtain ⟨r, h1, h2, h3, h4⟩ := Distribute.C16_owner ((List.range env.P).map (fun s => (elems s).length))
        (by exact htot) (num e) (by show num e < off elems env.P; omega)
      unfold gidOwner elemDist
      rw [h1]
      have hrP : r < env.P := by simpa using h2
      rw [off_eq_take env elems r (by omega)] at h3 h4
      have : ((List.range env.P).map (fun s => (elems s).length))[r] = (elems r).length := by simp
      rw [this, ← off_succ] at h4
      show r = s
      rcases Nat.lt_trichotomy r s with h' | h' | h'
      · have := off_mono elems (r + 1) s h'; omega
      · exact h'
      · have := off_mono elems (s + 1) r h'; omega
    · obtain ⟨h1, h2, h3, h4, h5, h6⟩ := final_spec env elems hm he htot o s (by omega) hs
      refine ⟨G env elems o, h4, fun e hemem => ?_⟩
      obtain ⟨q, hq, h7⟩ := near_in env elems s hs o e ((h2 e).1 hemem)
      rw [gidOwner_eq env elems hm o htot q hq e h7, ownerOf_eq env elems hm q hq e h7]
  obtain ⟨g, hg1, hg2⟩ := key
  rw [hg1, List.filter_map, List.length_map]
  congr 1
  apply List.filter_congr
  intro e hemem
  simp only [Function.comp, hg2 e hemem]

include hm he htot in
theorem requestedElems_eq (o r : Nat) (hr : r < env.P) : requestedElems env elems o r =
    (rankPerm env.P r).flatMap (fun s => (ghostElements env elems o s).1.filter (fun e => ownerOf env elems e = r)) := by
  unfold requestedElems
  exact CommPattern.exch_blocks env.P (rankPerm env.P) (fun r hr => rankPerm_perm env.P r hr)
    (fun s d => (ghostElements env elems o s).1.filter (fun e => ownerOf env elems e = d)) _
    (fun s hs d _ => elemCounts_eq env elems hm he htot o s d hs) _
    (fun s hs => buf_blocks env elems hm he htot o s hs) r hr

include hm he in
/-- C23: the shared ranks recorded for an element are exactly the other ranks that hold it (as own
element or ghost), ascending. -/
theorem C23_shared_ranks (htot : offset elems env.P < 2 ^ 64) (overlap r : Nat) (hr : r < env.P) :
    ∃ sh : Elem → List Nat,
      (∀ e ∈ (ghostElements env elems overlap r).1, (sh e).Pairwise (· < ·) ∧
        ∀ s, s ∈ sh e ↔ s < env.P ∧ s ≠ r ∧ e ∈ (ghostElements env elems overlap s).1) ∧
      (elemSharedRanks env elems overlap r).1 = (ghostElements env elems overlap r).1.flatMap sh ∧
      (elemSharedRanks env elems overlap r).2 =
        (ghostElements env elems overlap r).1.map (fun e => (sh e).length) := by
  obtain ⟨num, hnum, h⟩ := C23_ghost_elements env elems hm he htot overlap
  let B := fun s d => (ghostElements env elems overlap s).1.filter (fun e => decide (ownerOf env elems e = d))
  have hπ := fun r hr => rankPerm_perm env.P r hr
  have hB : ∀ s, s < env.P → ∀ d, d < env.P → (B s d).Nodup := fun s hs d _ => (h s hs).1.filter _
  have hcnt : ∀ s, s < env.P → ∀ d, d < env.P → elemCounts env elems overlap s d = (B s d).length :=
    fun s hs d _ => elemCounts_eq env elems hm he htot overlap s d hs
  have hreq := fun r hr => requestedElems_eq env elems hm he htot overlap r hr
  have hbuf := buf_blocks env elems hm he htot overlap r hr
  refine ⟨fun e => (Faces.reqHolders env.P B (ownerOf env elems e) e).filter (fun s => s ≠ r), ?_, ?_, ?_⟩
  · intro e _
    refine ⟨(List.pairwise_lt_range.filter _).filter _, fun s => ?_⟩
    unfold Faces.reqHolders Faces.holders
    simp only [List.mem_filter, List.mem_range, decide_eq_true_eq, B]
    constructor
    · rintro ⟨⟨a, b, _⟩, d⟩; exact ⟨a, by simpa using d, b⟩
    · rintro ⟨a, b, c⟩; exact ⟨⟨a, c, trivial⟩, by simpa using b⟩
  · unfold elemSharedRanks
    simp only
    rw [Faces.sharedRanks_eq env.P (rankPerm env.P) hπ B hB _ hcnt _ hreq r hr]
    conv_rhs => rw [hbuf]
    rw [List.flatMap_assoc]
    apply List.flatMap_congr
    intro d _
    apply List.flatMap_congr
    intro e hme
    have : ownerOf env elems e = d := by simpa using (List.mem_filter.1 hme).2
    rw [this]
  · unfold elemSharedRanks
    simp only
    rw [Faces.sharedRecvCount_eq env.P (rankPerm env.P) hπ B hB _ hcnt _ hreq r hr]
    conv_rhs => rw [hbuf]
    rw [List.map_flatMap]
    apply List.flatMap_congr
    intro d hd
    have hdP : d < env.P := by simpa using (hπ r hr).mem_iff.1 hd
    apply List.map_congr_left
    intro e hme
    have hod : ownerOf env elems e = d := by simpa using (List.mem_filter.1 hme).2
    rw [hod]
    have := Faces.holders_erase env.P (fun p => B p d) r hr e hme
    unfold Faces.reqHolders
    rw [← this]

include hm he in
/-- C23: every element of a rank's list, own or ghost, gets the data item (high-order nodes, volume tag)
that belongs to it on the rank that owns it. -/
theorem C23_element_data {δ : Type} (htot : offset elems env.P < 2 ^ 64) (overlap r : Nat) (hr : r < env.P)
    (dflt : δ) (data : Nat → List δ) (hdata : ∀ s, s < env.P → (data s).length = (elems s).length) :
    (elemData env elems overlap dflt data r).length = (ghostElements env elems overlap r).1.length ∧
    ∀ (i : Nat) (e : Elem) (q j : Nat), (ghostElements env elems overlap r).1[i]? = some e → q < env.P →
      (elems q)[j]? = some e → (elemData env elems overlap dflt data r)[i]? = (data q)[j]? := by
  have hmain : elemData env elems overlap dflt data r = (ghostElements env elems overlap r).1.map (fun e =>
      (data (ownerOf env elems e)).getD ((elems (ownerOf env elems e)).idxOf e) dflt) := by
    unfold elemData
    rw [CommPattern.exch_blocks env.P (rankPerm env.P) (fun r hr => rankPerm_perm env.P r hr)
      (fun s d => ((ghostElements env elems overlap d).1.filter (fun e => decide (ownerOf env elems e = s))).map
        (fun e => (data s).getD ((elems s).idxOf e) dflt)) _
      (fun s _ d hd => by rw [elemCounts_eq env elems hm he htot overlap d s hd, List.length_map]) _
      (fun s hs => by rw [requestedElems_eq env elems hm he htot overlap s hs, List.map_flatMap]) r hr]
    conv_rhs => rw [buf_blocks env elems hm he htot overlap r hr]
    rw [List.map_flatMap]
    apply List.flatMap_congr
    intro d _
    apply List.map_congr_left
    intro e hme
    have : ownerOf env elems e = d := by simpa using (List.mem_filter.1 hme).2
    rw [this]
  rw [hmain]
  refine ⟨by simp, ?_⟩
  intro i e q j hi hq hj
  rw [List.getElem?_map, hi]
  have ho := ownerOf_eq env elems hm q hq e (List.mem_of_getElem? hj)
  obtain ⟨hl, hje⟩ := List.getElem?_eq_some_iff.1 hj
  rw [Option.map_some, ho, ← hje, (hm.nodup q hq).idxOf_getElem j hl, List.getD_eq_getElem?_getD,
    List.getElem?_eq_getElem (by rw [hdata q hq]; exact hl)]
  rfl

/-- C23, overlap one: own elements and the elements that share a facet with an own element. -/
theorem C23_overlap_one (hm : Mesh env.P env.D elems) (he : EnvOk env elems)
    (htot : offset elems env.P < 2 ^ 64) (r : Nat) (hr : r < env.P) (e : Elem) :
    e ∈ (ghostElements env elems 1 r).1 ↔ e ∈ elems r ∨
      ((∃ s, s < env.P ∧ e ∈ elems s) ∧ ∃ e' ∈ elems r, ∃ f, IsFacet e f ∧ IsFacet e' f) := by
  obtain ⟨_, _, h⟩ := C23_ghost_elements env elems hm he htot 1
  exact (h r hr).2.1 e

end

/-! ## the hypotheses can be met -/

/-- One way of sorting positions. -/
def sortIdx {α : Type} (le : α → α → Prop) [DecidableRel le] (d : α) (l : List α) : List Nat :=
  (List.range l.length).insertionSort (fun a b => le (l.getD a d) (l.getD b d))

theorem sortIdx_spec {α : Type} (le : α → α → Prop) [DecidableRel le] (htotal : ∀ a b, le a b ∨ le b a)
    (htrans : ∀ a b c, le a b → le b c → le a c) (d : α) (l : List α) : SortPerm le l (sortIdx le d l) := by
  have hp : (sortIdx le d l).Perm (List.range l.length) := List.perm_insertionSort _ _
  refine ⟨⟨by rw [hp.length_eq]; simp, fun x hx => by simpa using hp.mem_iff.1 hx,
    hp.nodup_iff.2 List.nodup_range⟩, ?_⟩
  haveI : Std.Total (fun a b : Nat => le (l.getD a d) (l.getD b d)) := ⟨fun a b => htotal _ _⟩
  haveI : IsTrans Nat (fun a b : Nat => le (l.getD a d) (l.getD b d)) := ⟨fun a b c => htrans _ _ _⟩
  have := List.pairwise_insertionSort (fun a b : Nat => le (l.getD a d) (l.getD b d)) (List.range l.length)
  refine this.imp ?_
  intro a b h x y hx hy
  rw [List.getD_eq_getElem?_getD, List.getD_eq_getElem?_getD, hx, hy] at h
  exact h

instance : DecidableRel pairLe := fun a b => by unfold pairLe; infer_instance
instance (e f : List Nat) : Decidable (IsFacet e f) := by unfold IsFacet; infer_instance

/-- Three ranks, a strip of five triangles. -/
def exElems (r : Nat) : List Elem :=
  if r = 0 then [[0, 1, 2], [1, 2, 3]] else if r = 1 then [[2, 3, 4]] else if r = 2 then [[4, 5, 6], [3, 4, 5]] else []

def exAll : List Elem := [[0, 1, 2], [1, 2, 3], [2, 3, 4], [4, 5, 6], [3, 4, 5]]

def exEnv : Env := ⟨3, 2, fun f => f.sum % 3, fun _ l => l.reverse, fun _ l => l.reverse,
  sortIdx (· ≤ ·) [], sortIdx pairLe (0, 0)⟩

theorem exOk : EnvOk exEnv exElems where
  rank := fun _ _ _ _ f _ => Nat.mod_lt _ (by decide)
  set := fun _ l => l.reverse_perm
  map := fun _ l => l.reverse_perm
  elem := sortIdx_spec _ le_total (fun _ _ _ => le_trans) []
  keys := sortIdx_spec pairLe (by intro a b; unfold pairLe; omega)
    (by intro a b c; unfold pairLe; omega) (0, 0)

theorem exMesh : Mesh exEnv.P exEnv.D exElems where
  dim := by decide
  size := by decide
  sorted := by decide
  small := by decide
  nodup := by decide
  disjoint := by
    have : ∀ s ∈ List.range 3, ∀ t ∈ List.range 3, s = t ∨ ∀ e ∈ exElems s, ¬ e ∈ exElems t := by decide
    exact fun s t hs ht hne e => (this s (List.mem_range.2 hs) t (List.mem_range.2 ht)).resolve_left hne e
  conforming := by
    have h0 : ∀ a ∈ exAll, ∀ b ∈ exAll, ∀ c ∈ exAll,
        ∀ f ∈ facets 2 a, IsFacet b f → IsFacet c f → a = b ∨ b = c ∨ a = c := by decide +kernel
    have hall : ∀ s, s < 3 → ∀ a ∈ exElems s, a ∈ exAll := by decide
    have hv : ∀ s, s < 3 → ∀ a ∈ exElems s, a.length = 3 ∧ a.Pairwise (· < ·) := by decide
    intro s t u hs ht hu a ha b hb c hc f h1 h2 h3
    exact h0 a (hall s hs a ha) b (hall t ht b hb) c (hall u hu c hc) f
      ((facets_spec 2 (by decide) a (hv s hs a ha).1 (hv s hs a ha).2).2 f |>.2 h1) h2 h3

example : offset exElems exEnv.P < 2 ^ 64 := by decide
-- rank 0 with overlap one and two: own elements, then ghosts
example : ghostElements exEnv exElems 1 0 =
    ([[0, 1, 2], [1, 2, 3], [2, 3, 4]], [0, 1, 2], [0, 0, 1]) := by decide +kernel
example : ghostElements exEnv exElems 2 0 =
    ([[0, 1, 2], [1, 2, 3], [2, 3, 4], [3, 4, 5]], [0, 1, 2, 4], [0, 0, 1, 2]) := by decide +kernel
example : elemSharedRanks exEnv exElems 1 1 = ([0, 0, 2, 2], [1, 2, 1]) ∨
    elemSharedRanks exEnv exElems 1 1 = ([0, 2, 0, 2], [2, 1, 1]) := by decide +kernel

end Tandem.Ghosts
