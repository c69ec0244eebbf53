import Verif.Lemmas.Ghosts3
namespace Tandem.Ghosts
open Tandem.CommPattern Tandem.Spec Tandem.LocalFaces Tandem.Algorithm

/-! ## unique, invalid -/

theorem mem_unique {α : Type} [DecidableEq α] (x : α) : ∀ l : List α, x ∈ unique l ↔ x ∈ l
  | [] => by simp [unique]
  | [a] => by simp [unique]
  | a :: b :: l => by
    unfold unique
    by_cases h : a = b
    · rw [if_pos h, mem_unique x (b :: l)]; subst h; simp
    · rw [if_neg h, List.mem_cons, mem_unique x (b :: l), ← List.mem_cons]

theorem unique_map {α β : Type} [DecidableEq α] [DecidableEq β] (g : α → β) : ∀ l : List α,
    (∀ x ∈ l, ∀ y ∈ l, g x = g y → x = y) → unique (l.map g) = (unique l).map g
  | [], _ => rfl
  | [a], _ => rfl
  | a :: b :: l, h => by
    have ih := unique_map g (b :: l) (fun x hx y hy => h x (by simp [hx]) y (by simp [hy]))
    simp only [List.map_cons] at ih ⊢
    unfold unique
    by_cases e : a = b
    · subst e; rw [if_pos rfl, if_pos rfl, ih]
    · rw [if_neg e, if_neg (fun he => e (h a (by simp) b (by simp) he)), List.map_cons, ih]

theorem unique_nodup (l : List (List Nat)) (h : l.Pairwise (· ≤ ·)) : (unique l).Nodup := by
  suffices hs : (unique l).Pairwise (· < ·) from hs.imp (fun h => ne_of_lt h)
  induction l using unique.induct with
  | case1 => simp [unique]
  | case2 a => simp [unique]
  | case3 b l ih =>
    unfold unique; rw [if_pos rfl]; exact ih (List.pairwise_cons.1 h).2
  | case4 a b l hne ih =>
    unfold unique
    rw [if_neg hne, List.pairwise_cons]
    rw [List.pairwise_cons] at h
    refine ⟨?_, ih h.2⟩
    intro x hx
    rw [mem_unique] at hx
    have hab : a < b := lt_of_le_of_ne (h.1 b (by simp)) hne
    rcases List.mem_cons.1 hx with rfl | hx
    · exact hab
    · exact lt_of_lt_of_le hab ((List.pairwise_cons.1 h.2).1 x hx)

theorem lt_replicate (n m : Nat) : ∀ (e : List Nat) (k : Nat), e.length = k + 1 → (∀ v ∈ e, v < m) →
    e < List.replicate (k + 1) m
  | a :: e, k, _, h => by
    rw [List.replicate_succ]
    exact List.Lex.rel (h a (by simp))

/-- the elements before the first invalid one are the valid ones -/
theorem mem_take_idxOf (inv : List Nat) (l : List (List Nat)) (hs : l.Pairwise (· ≤ ·))
    (hv : ∀ x ∈ l, x = inv ∨ x < inv) (x : List Nat) : x ∈ l.take (l.idxOf inv) ↔ x ∈ l ∧ x ≠ inv := by
  induction l with
  | nil => simp
  | cons a l ih =>
    rw [List.pairwise_cons] at hs
    by_cases h : a = inv
    · subst h
      rw [List.idxOf_cons_self]
      simp only [List.take_zero, List.not_mem_nil, false_iff, not_and, not_not]
      intro hx
      rcases List.mem_cons.1 hx with rfl | hx
      · rfl
      · rcases hv x (by simp [hx]) with e | e
        · exact e
        · exact absurd (lt_of_le_of_lt (hs.1 x hx) e) (lt_irrefl _)
    · have hne : (a == inv) = false := by simpa using h
      rw [List.idxOf_cons, hne]
      simp only [cond_false, List.take_succ_cons, List.mem_cons]
      rw [ih hs.2 (fun x hx => hv x (by simp [hx]))]
      constructor
      · rintro (rfl | ⟨h1, h2⟩)
        · exact ⟨Or.inl rfl, h⟩
        · exact ⟨Or.inr h1, h2⟩
      · rintro ⟨h1 | h1, h2⟩
        · exact Or.inl h1
        · exact Or.inr ⟨h1, h2⟩

section
variable (env : Env) (elems : Nat → List Elem) (hm : Mesh env.P env.D elems) (he : EnvOk env elems)

include hm he in
theorem level_inv (o k r : Nat) (hk : k < o) (hr : r < env.P) (st : Nat → List Elem × List Nat)
    (h : ∀ s, s < env.P → Inv env elems o k s (st s)) :
    Inv env elems o (k + 1) r (level env (D0 env elems o) st r) ∧
      (st r).1 <+: (level env (D0 env elems o) st r).1 := by
  obtain ⟨bE, h1, h2⟩ := boundary_spec env elems hm he o k r hk hr st h
  have hb1 : (boundary env (D0 env elems o) st r).map (·.1) = bE := by
    rw [h1, List.map_map]; simp [Function.comp_def]
  have hb2 : (boundary env (D0 env elems o) st r).map (·.2) = bE.map (G' env elems o) := by
    rw [h1, List.map_map]; simp [Function.comp_def]
  have hsort := he.elem bE
  have hin : ∀ e ∈ (st r).1, InElems env.P elems e :=
    fun e he => near_in env elems r hr k e (((h r hr).mem e).1 he)
  obtain ⟨pE, hpE⟩ : ∃ pE, pE = permuted bE (env.sortElems bE) := ⟨_, rfl⟩
  obtain ⟨tE, htE⟩ : ∃ tE, tE = pE.take (pE.idxOf (invalid env.D)) := ⟨_, rfl⟩
  have hlev : level env (D0 env elems o) st r = ((st r).1 ++ unique tE, (st r).2 ++ unique (tE.map (G' env elems o))) := by
    unfold level
    simp only [hb1, hb2]
    rw [permuted_map _ bE _ hsort.1, ← hpE, ← List.map_take, ← htE]
  have hsorted : pE.Pairwise (· ≤ ·) := by rw [hpE]; exact permuted_sorted _ _ _ hsort
  have hmemp : ∀ a, a ∈ pE ↔ a ∈ bE := fun a => by rw [hpE]; exact (permuted_perm _ _ hsort.1).mem_iff
  have hnew : ∀ a, a ∈ tE ↔ New env elems (st r).1 a := by
    intro a
    rw [htE, mem_take_idxOf _ pE hsorted]
    · rw [hmemp]
      constructor
      · rintro ⟨h3, h4⟩
        rcases (h2 a).1 h3 with h5 | h5
        · exact absurd h5 h4
        · exact h5
      · intro h3
        exact ⟨(h2 a).2 h3, ne_invalid env elems hm a h3.2.1⟩
    · intro x hx
      rcases (h2 x).1 ((hmemp x).1 hx) with h5 | h5
      · exact Or.inl h5
      · obtain ⟨s, hs, h6⟩ := h5.2.1
        exact Or.inr (lt_replicate 0 _ x env.D (hm.size s hs x h6) (hm.small s hs x h6))
  have hG : tE.map (G' env elems o) = tE.map (G env elems o) := by
    apply List.map_congr_left
    intro a ha
    unfold G'
    rw [if_neg (ne_invalid env elems hm a ((hnew a).1 ha).2.1)]
  rw [hlev]
  refine ⟨⟨?_, ?_, ?_⟩, List.prefix_append _ _⟩
  · rw [List.nodup_append']
    refine ⟨(h r hr).nodup, unique_nodup _ ?_, ?_⟩
    · rw [htE]; exact hsorted.sublist (List.take_sublist _ _)
    · intro a ha hb
      rw [mem_unique, hnew] at hb
      exact hb.1 ha
  · intro e
    rw [List.mem_append, mem_unique, hnew, (h r hr).mem]
    constructor
    · rintro (h3 | ⟨_, h4, e', h5, f, h6, h7⟩)
      · exact Or.inl h3
      · exact Or.inr ⟨h4, e', ((h r hr).mem e').1 h5, f, h7, h6⟩
    · rintro (h3 | ⟨h4, e', h5, f, h6, h7⟩)
      · exact Or.inl h3
      · by_cases hc : e ∈ (st r).1
        · exact Or.inl (((h r hr).mem e).1 hc)
        · exact Or.inr ⟨hc, h4, e', ((h r hr).mem e').2 h5, f, h7, h6⟩
  · rw [hG, unique_map _ _ (fun x hx y hy hxy => G_inj env elems hm o x y ((hnew x).1 hx).2.1
      ((hnew y).1 hy).2.1 hxy), (h r hr).gid, ← List.map_append]

include hm in
theorem start_inv (o r : Nat) (hr : r < env.P) : Inv env elems o 0 r (start env elems o r) :=
  ⟨(sorted_perm env elems o r).nodup_iff.2 (hm.nodup r hr), fun _ => (sorted_perm env elems o r).mem_iff,
    start_gids env elems hm o r hr⟩

include hm he in
theorem levels_inv (o : Nat) : ∀ (k : Nat), k ≤ o → ∀ r, r < env.P →
    Inv env elems o k r (levels env (D0 env elems o) (start env elems o) k r) ∧
      S env elems o r <+: (levels env (D0 env elems o) (start env elems o) k r).1
  | 0, _, r, hr => ⟨start_inv env elems hm o r hr, List.prefix_refl _⟩
  | k + 1, hk, r, hr => by
    have ih := levels_inv o k (by omega)
    have := level_inv env elems hm he o k r (by omega) hr _ (fun s hs => (ih s hs).1)
    exact ⟨this.1, (ih r hr).2.trans this.2⟩

include hm he in
theorem grown_inv (o r : Nat) (hr : r < env.P) : Inv env elems o o r (grown env elems o r) ∧
    S env elems o r <+: (grown env elems o r).1 :=
  levels_inv env elems hm he o o (Nat.le_refl _) r hr

/-! ## final order -/

theorem off_eq_take (q : Nat) (hq : q ≤ env.P) :
    (((List.range env.P).map (fun s => (elems s).length)).take q).sum = off elems q := by
  unfold off
  rw [← List.map_take, List.take_range, Nat.min_eq_left hq]

include hm in
theorem gidOwner_eq (o : Nat) (htot : off elems env.P < 2 ^ 64) (q : Nat) (hq : q < env.P) (e : Elem)
    (h : e ∈ elems q) : gidOwner env elems (G env elems o e) = q := by
  have hr := G_range env elems hm o q hq e h
  have hs : ((List.range env.P).map (fun s => (elems s).length)).sum = off elems env.P := rfl
  have hmono := off_mono elems (q + 1) env.P hq
  obtain ⟨r, h1, h2, h3, h4⟩ := Distribute.C16_owner ((List.range env.P).map (fun s => (elems s).length))
    (by rw [hs]; exact htot) (G env elems o e) (by rw [hs]; omega)
  unfold gidOwner elemDist
  rw [h1]
  have hrP : r < env.P := by simpa using h2
  rw [off_eq_take env elems r (by omega)] at h3 h4
  have : ((List.range env.P).map (fun s => (elems s).length))[r] = (elems r).length := by simp
  rw [this, ← off_succ] at h4
  exact owner_unique env elems hm o q r hq e h h3 h4

end
end Tandem.Ghosts
