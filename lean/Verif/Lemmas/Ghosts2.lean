import Verif.Lemmas.Ghosts
import Verif.Spec.GhostsEnv
namespace Tandem.Ghosts
open Tandem.CommPattern Tandem.Spec Tandem.LocalFaces Tandem.Algorithm

section
variable (env : Env) (elems : Nat → List Elem) (hm : Mesh env.P env.D elems) (he : EnvOk env elems)

include hm in
theorem valid (s : Nat) (hs : s < env.P) : Valid env.D (elems s) :=
  fun e h => ⟨hm.size s hs e h, hm.sorted s hs e h⟩

include hm in
theorem mem_facets (e : Elem) (h : InElems env.P elems e) (f : Facet) : f ∈ facets env.D e ↔ IsFacet e f := by
  obtain ⟨s, hs, h⟩ := h
  exact (facets_spec env.D hm.dim e (hm.size s hs e h) (hm.sorted s hs e h)).2 f

theorem near_in (own : Nat) (ho : own < env.P) : ∀ (k : Nat) (e : Elem),
    Near env.P elems (elems own) k e → InElems env.P elems e
  | 0, _, h => ⟨own, ho, h⟩
  | k + 1, e, h => by
    rcases h with h | h
    · exact near_in own ho k e h
    · exact h.1

theorem near_mono (own : List Elem) (e : Elem) (k l : Nat) (hkl : k ≤ l) (h : Near env.P elems own k e) :
    Near env.P elems own l e := by
  induction l with
  | zero => have : k = 0 := by omega
            subst this; exact h
  | succ l ih =>
    by_cases e : k = l + 1
    · subst e; exact h
    · exact Or.inl (ih (by omega))

include hm in
theorem mem_bf (s : Nat) (hs : s < env.P) (f : Facet) :
    f ∈ boundaryFaces (upward env.D (elems s)) ↔
      ∃ e ∈ elems s, IsFacet e f ∧ ∀ e' ∈ elems s, IsFacet e' f → e' = e := by
  rw [mem_boundaryFaces env.D hm.dim _ (valid env elems hm s hs),
    filter_length_one _ (hm.nodup s hs)]
  constructor
  · rintro ⟨e, h1, h2, h3⟩
    refine ⟨e, h1, (mem_facets env elems hm e ⟨s, hs, h1⟩ f).1 (by simpa using h2), fun e' a b => h3 e' a ?_⟩
    simpa using (mem_facets env elems hm e' ⟨s, hs, a⟩ f).2 b
  · rintro ⟨e, h1, h2, h3⟩
    refine ⟨e, h1, by simpa using (mem_facets env elems hm e ⟨s, hs, h1⟩ f).2 h2, fun e' a b => h3 e' a ?_⟩
    exact (mem_facets env elems hm e' ⟨s, hs, a⟩ f).1 (by simpa using b)

/-- partition boundary faces -/
def pbf (env : Env) (elems : Nat → List Elem) (r : Nat) : List Facet :=
  deleteDomain env (fun s => boundaryFaces (upward env.D (elems s))) r

include hm he in
theorem mem_pbf (r : Nat) (hr : r < env.P) (f : Facet) : f ∈ pbf env elems r ↔
    f ∈ boundaryFaces (upward env.D (elems r)) ∧
      (holdersN env.P (fun s => boundaryFaces (upward env.D (elems s))) f).length ≠ 1 := by
  apply mem_deleteDomain env he.set _ (fun s _ => boundaryFaces_nodup _) _ r hr
  intro s hs f hf
  obtain ⟨e, h1, h2, _⟩ := (mem_bf env elems hm s hs f).1 hf
  exact he.rank s hs e h1 f h2

theorem length_ne_one {l : List Nat} (hn : l.Nodup) (q : Nat) (hq : q ∈ l) :
    l.length ≠ 1 ↔ ∃ r ∈ l, r ≠ q := by
  constructor
  · intro h
    apply Classical.byContradiction
    intro hc
    apply h
    have : l.Perm [q] := by
      rw [List.perm_ext_iff_of_nodup hn (by simp)]
      intro x
      rw [List.mem_singleton]
      constructor
      · intro hx
        apply Classical.byContradiction
        intro hne; exact hc ⟨x, hx, hne⟩
      · rintro rfl; exact hq
    rw [this.length_eq]; rfl
  · rintro ⟨r, hr, hne⟩ h
    obtain ⟨x, rfl⟩ := List.length_eq_one_iff.1 h
    simp at hr hq
    exact hne (hr.trans hq.symm)

theorem holdersN_nodup (P : Nat) (items : Nat → List Facet) (g : Facet) : (holdersN P items g).Nodup :=
  List.nodup_range.filter _

include hm he in
/-- A facet of an own element is kept exactly if an element on another rank has it too. -/
theorem pbf_iff (q : Nat) (hq : q < env.P) (e : Elem) (hin : e ∈ elems q) (f : Facet) (hf : IsFacet e f) :
    f ∈ pbf env elems q ↔ ∃ r, r < env.P ∧ r ≠ q ∧ ∃ e' ∈ elems r, IsFacet e' f := by
  rw [mem_pbf env elems hm he q hq]
  constructor
  · rintro ⟨h1, h2⟩
    rw [length_ne_one (holdersN_nodup _ _ _) q (by simp [holdersN, hq, h1])] at h2
    obtain ⟨r, hr, hne⟩ := h2
    unfold holdersN at hr
    rw [List.mem_filter, List.mem_range, decide_eq_true_eq] at hr
    obtain ⟨e', h3, h4, _⟩ := (mem_bf env elems hm r hr.1 f).1 hr.2
    exact ⟨r, hr.1, hne, e', h3, h4⟩
  · rintro ⟨r, hr, hne, e', he', hf'⟩
    have hee : e' ≠ e := fun h => hm.disjoint q r hq hr (fun h => hne h.symm) e hin (h ▸ he')
    have hbq : f ∈ boundaryFaces (upward env.D (elems q)) := by
      refine (mem_bf env elems hm q hq f).2 ⟨e, hin, hf, fun x hx hxf => ?_⟩
      rcases hm.conforming q q r hq hq hr x hx e hin e' he' f hxf hf hf' with h | h | h
      · exact h
      · exact absurd h.symm hee
      · exact absurd (h ▸ hx) (fun hx' => hm.disjoint q r hq hr (fun h => hne h.symm) e' hx' he')
    have hbr : f ∈ boundaryFaces (upward env.D (elems r)) := by
      refine (mem_bf env elems hm r hr f).2 ⟨e', he', hf', fun x hx hxf => ?_⟩
      rcases hm.conforming r r q hr hr hq x hx e' he' e hin f hxf hf' hf with h | h | h
      · exact h
      · exact absurd h hee
      · exact absurd (h ▸ hx) (fun hx' => hm.disjoint q r hq hr (fun h => hne h.symm) e hin hx')
    refine ⟨hbq, ?_⟩
    rw [length_ne_one (holdersN_nodup _ _ _) q (by simp [holdersN, hq, hbq])]
    exact ⟨r, by simp [holdersN, hr, hbr], hne⟩

theorem mem_copyFirst (D : Nat) (E : List Elem) (bf : List Facet) (i : Nat) : i ∈ copyFirst D E bf ↔
    ∃ e, E[i]? = some e ∧ ∃ f ∈ bf, f ∈ facets D e := by
  unfold copyFirst
  simp only [List.mem_filter, List.mem_range, List.any_eq_true, decide_eq_true_eq, mem_equalRange]
  constructor
  · rintro ⟨_, f, h1, e, h2, h3⟩; exact ⟨e, h2, f, h1, h3⟩
  · rintro ⟨e, h2, f, h1, h3⟩
    exact ⟨(List.getElem?_eq_some_iff.1 h2).1, f, h1, e, h2, h3⟩

theorem mem_copyNext (D : Nat) (E : List Elem) (c : List Nat) (hc : ∀ i ∈ c, i < E.length) (j : Nat) :
    j ∈ copyNext D E c ↔ j ∈ c ∨ ∃ e, E[j]? = some e ∧ ∃ i ∈ c, ∃ e', E[i]? = some e' ∧
      ∃ f, f ∈ facets D e' ∧ f ∈ facets D e := by
  unfold copyNext
  simp only [List.mem_filter, List.mem_range, List.any_eq_true, Bool.or_eq_true, decide_eq_true_eq,
    mem_equalRange]
  constructor
  · rintro ⟨_, h | ⟨i, hi, f, hf, e, h1, h2⟩⟩
    · exact Or.inl h
    · have hl := hc i hi
      refine Or.inr ⟨e, h1, i, hi, E[i], List.getElem?_eq_getElem hl, f, ?_, h2⟩
      rwa [List.getD_eq_getElem?_getD, List.getElem?_eq_getElem hl] at hf
  · rintro (h | ⟨e, h1, i, hi, e', h2, f, h3, h4⟩)
    · exact ⟨hc j h, Or.inl h⟩
    · refine ⟨(List.getElem?_eq_some_iff.1 h1).1, Or.inr ⟨i, hi, f, ?_, e, h1, h4⟩⟩
      rw [List.getD_eq_getElem?_getD, h2]; exact h3

theorem copySet_lt (r k i : Nat) (h : i ∈ copySet env elems r k) : i < (elems r).length := by
  cases k with
  | zero => simp only [copySet, copyFirst, List.mem_filter, List.mem_range] at h; exact h.1
  | succ k => simp only [copySet, copyNext, List.mem_filter, List.mem_range] at h; exact h.1

include hm he in
/-- The copy layer consists of the elements within distance `k + 1` of another rank's elements. -/
theorem mem_copySet (q : Nat) (hq : q < env.P) : ∀ (k i : Nat), i ∈ copySet env elems q k ↔
    ∃ e, (elems q)[i]? = some e ∧ ∃ r, r < env.P ∧ r ≠ q ∧ Near env.P elems (elems r) (k + 1) e
  | 0, i => by
    show i ∈ copyFirst env.D (elems q) (pbf env elems q) ↔ _
    rw [mem_copyFirst]
    constructor
    · rintro ⟨e, h1, f, h2, h3⟩
      have hin := List.mem_of_getElem? h1
      have hf := (mem_facets env elems hm e ⟨q, hq, hin⟩ f).1 h3
      obtain ⟨r, hr, hne, e', h4, h5⟩ := (pbf_iff env elems hm he q hq e hin f hf).1 h2
      exact ⟨e, h1, r, hr, hne, Or.inr ⟨⟨q, hq, hin⟩, e', h4, f, hf, h5⟩⟩
    · rintro ⟨e, h1, r, hr, hne, h2⟩
      have hin := List.mem_of_getElem? h1
      rcases h2 with h2 | ⟨_, e', h4, f, h5, h6⟩
      · exact absurd hin (hm.disjoint r q hr hq hne e h2)
      · exact ⟨e, h1, f, (pbf_iff env elems hm he q hq e hin f h5).2 ⟨r, hr, hne, e', h4, h6⟩,
          (mem_facets env elems hm e ⟨q, hq, hin⟩ f).2 h5⟩
  | k + 1, i => by
    show i ∈ copyNext env.D (elems q) (copySet env elems q k) ↔ _
    rw [mem_copyNext _ _ _ (fun i hi => copySet_lt env elems q k i hi)]
    constructor
    · rintro (h | ⟨e, h1, j, hj, e', h2, f, h3, h4⟩)
      · obtain ⟨e, h1, r, hr, hne, h2⟩ := (mem_copySet q hq k i).1 h
        exact ⟨e, h1, r, hr, hne, Or.inl h2⟩
      · obtain ⟨e'', h5, r, hr, hne, h6⟩ := (mem_copySet q hq k j).1 hj
        rw [h5] at h2; cases h2
        have i1 : InElems env.P elems e := ⟨q, hq, List.mem_of_getElem? h1⟩
        have i2 : InElems env.P elems e' := ⟨q, hq, List.mem_of_getElem? h5⟩
        exact ⟨e, h1, r, hr, hne, Or.inr ⟨i1, e', h6, f, (mem_facets env elems hm e i1 f).1 h4,
          (mem_facets env elems hm e' i2 f).1 h3⟩⟩
    · rintro ⟨e, h1, r, hr, hne, h2⟩
      rcases h2 with h2 | ⟨hin, e', h3, f, h4, h5⟩
      · exact Or.inl ((mem_copySet q hq k i).2 ⟨e, h1, r, hr, hne, h2⟩)
      · obtain ⟨s, hs, hs'⟩ := near_in env elems r hr _ _ h3
        by_cases hsq : s = q
        · subst hsq
          obtain ⟨j, hj⟩ := List.mem_iff_getElem?.1 hs'
          exact Or.inr ⟨e, h1, j, (mem_copySet s hs k j).2 ⟨e', hj, r, hr, hne, h3⟩, e', hj, f,
            (mem_facets env elems hm e' ⟨s, hs, hs'⟩ f).2 h5, (mem_facets env elems hm e hin f).2 h4⟩
        · refine Or.inl ((mem_copySet q hq k i).2 ⟨e, h1, s, hs, hsq, ?_⟩)
          exact near_mono env elems _ e 1 (k + 1) (by omega) (Or.inr ⟨hin, e', hs', f, h4, h5⟩)

end
end Tandem.Ghosts

namespace Tandem.Ghosts
open Tandem.CommPattern Tandem.Spec Tandem.LocalFaces Tandem.Algorithm

/-! ## sorting interior and copy elements -/

theorem permuted_eq {α : Type} (l : List α) (p : List Nat) (hp : IsPermutation p l.length) :
    permuted l p = p.filterMap (fun k => l[k]?) := by
  obtain ⟨v', h1, h2, h3⟩ := C03_apply_permutation l p hp l.length (Nat.le_refl _)
  unfold permuted
  rw [h1]
  show v' = _
  apply List.ext_getElem?
  intro i
  rw [filterMap_getElem? _ _ (fun x hx => by simpa using hp.2.1 x hx)]
  by_cases hi : i < p.length
  · rw [h3 i hi, List.getElem?_eq_getElem hi]; rfl
  · rw [List.getElem?_eq_none (by have := hp.1; omega), List.getElem?_eq_none (by omega)]; rfl

theorem permuted_perm {α : Type} (l : List α) (p : List Nat) (hp : IsPermutation p l.length) :
    (permuted l p).Perm l := by
  rw [permuted_eq l p hp]
  have e2 := (perm_range_of_isPermutation p _ hp).filterMap (fun k => l[k]?)
  rwa [filterMap_range_getElem?] at e2

theorem permuted_map {α β : Type} (g : α → β) (l : List α) (p : List Nat) (hp : IsPermutation p l.length) :
    permuted (l.map g) p = (permuted l p).map g := by
  rw [permuted_eq l p hp, permuted_eq (l.map g) p (by simpa using hp), List.map_filterMap]
  congr 1
  funext k
  rw [List.getElem?_map]

theorem permuted_sorted {α : Type} (le : α → α → Prop) (l : List α) (p : List Nat) (hp : SortPerm le l p) :
    (permuted l p).Pairwise le := by
  rw [permuted_eq l p hp.1, List.pairwise_filterMap]
  exact hp.2.imp (fun h x hx y hy => h x y hx hy)

theorem elNos_perm (n : Nat) (c : List Nat) : (elNos n c).Perm (List.range n) := by
  unfold elNos
  refine List.perm_append_comm.trans ?_
  have := List.filter_append_perm (fun i => decide (i ∈ c)) (List.range n)
  simpa using this

theorem elNos_isPerm (n : Nat) (c : List Nat) : IsPermutation (elNos n c) n := by
  have h := elNos_perm n c
  refine ⟨by rw [h.length_eq]; simp, fun x hx => ?_, h.nodup_iff.2 List.nodup_range⟩
  simpa using h.mem_iff.1 hx

theorem filterMap_len {α : Type} (E : List α) : ∀ (p : List Nat), (∀ i ∈ p, i < E.length) →
    (p.filterMap (fun k => E[k]?)).length = p.length
  | [], _ => rfl
  | i :: p, h => by
    rw [List.filterMap_cons, List.getElem?_eq_getElem (h i (by simp)), List.length_cons, List.length_cons,
      filterMap_len E p (fun j hj => h j (by simp [hj]))]

section
variable (env : Env) (elems : Nat → List Elem) (hm : Mesh env.P env.D elems) (he : EnvOk env elems)

theorem copySet_filter (r k : Nat) : (List.range (elems r).length).filter
    (fun i => i ∈ copySet env elems r k) = copySet env elems r k := by
  have key : ∀ (p : Nat → Bool) (n : Nat), (List.range n).filter (fun i => i ∈ (List.range n).filter p) =
      (List.range n).filter p := by
    intro p n
    apply List.filter_congr
    intro x hx
    rw [Bool.eq_iff_iff]
    simp only [List.mem_filter, hx, true_and, decide_eq_true_eq]
  cases k with
  | zero => exact key _ _
  | succ k => exact key _ _

theorem sorted_perm (o r : Nat) : (sortInteriorCopy env elems o r).Perm (elems r) :=
  permuted_perm _ _ (elNos_isPerm _ _)

/-- The elements from `copyBegin` on are those in the copy layer. -/
theorem drop_copyBegin (o r : Nat) : (sortInteriorCopy env elems o r).drop (copyBegin env elems o r) =
    (copySet env elems r (o - 1)).filterMap (fun k => (elems r)[k]?) := by
  unfold sortInteriorCopy copyBegin
  rw [permuted_eq _ _ (elNos_isPerm _ _)]
  unfold elNos
  rw [copySet_filter, List.filterMap_append]
  have h1 : ((elNos (elems r).length (copySet env elems r (o - 1)))).length = (elems r).length := by
    rw [(elNos_perm _ _).length_eq]; simp
  unfold elNos at h1
  rw [copySet_filter, List.length_append] at h1
  have h2 := filterMap_len (elems r) ((List.range (elems r).length).filter
    (fun i => i ∉ copySet env elems r (o - 1))) (fun i hi => by simpa using (List.mem_filter.1 hi).1)
  rw [List.drop_append_of_le_length (by omega), List.drop_of_length_le (by omega), List.nil_append]

/-- elements of rank `r` in the order of their numbers -/
abbrev S (env : Env) (elems : Nat → List Elem) (o r : Nat) : List Elem := sortInteriorCopy env elems o r

/-- first number of rank `r` -/
def off (elems : Nat → List Elem) (r : Nat) : Nat := ((List.range r).map (fun s => (elems s).length)).sum

theorem off_succ (r : Nat) : off elems (r + 1) = off elems r + (elems r).length := by
  unfold off; rw [List.range_succ]; simp

theorem off_mono (r s : Nat) (h : r ≤ s) : off elems r ≤ off elems s := by
  induction s with
  | zero => have : r = 0 := by omega
            subst this; exact Nat.le_refl _
  | succ s ih =>
    by_cases e : r = s + 1
    · subst e; exact Nat.le_refl _
    · rw [off_succ]; have := ih (by omega); omega

/-- the number of an element when rank `q` numbers its elements in the order `SS q` -/
def Gn (env : Env) (elems SS : Nat → List Elem) (e : Elem) : Nat :=
  match (List.range env.P).find? (fun q => e ∈ elems q) with
  | some q => off elems q + (SS q).idxOf e
  | none => 0

/-- the number of an element -/
abbrev G (env : Env) (elems : Nat → List Elem) (o : Nat) (e : Elem) : Nat := Gn env elems (S env elems o) e

include hm in
theorem find_owner (q : Nat) (hq : q < env.P) (e : Elem) (h : e ∈ elems q) :
    (List.range env.P).find? (fun q => decide (e ∈ elems q)) = some q := by
  cases hf : (List.range env.P).find? (fun q => decide (e ∈ elems q)) with
  | none =>
    rw [List.find?_eq_none] at hf
    have := hf q (by simpa using hq)
    simp [h] at this
  | some q' =>
    have h1 := List.find?_some hf
    have h2 := List.mem_of_find?_eq_some hf
    simp at h1 h2
    by_cases e' : q' = q
    · rw [e']
    · exact absurd h (hm.disjoint q' q h2 hq e' e h1)

end
section
variable (env : Env) (elems SS : Nat → List Elem) (hS : ∀ q, (SS q).Perm (elems q))
  (hm : Mesh env.P env.D elems)

include hm in
theorem Gn_of_mem (q : Nat) (hq : q < env.P) (e : Elem) (h : e ∈ elems q) :
    Gn env elems SS e = off elems q + (SS q).idxOf e := by
  unfold Gn
  rw [find_owner env elems hm q hq e h]

include hS hm in
theorem Gn_of_get (q : Nat) (hq : q < env.P) (i : Nat) (e : Elem) (h : (SS q)[i]? = some e) :
    Gn env elems SS e = off elems q + i := by
  have hmem : e ∈ elems q := (hS q).mem_iff.1 (List.mem_of_getElem? h)
  rw [Gn_of_mem env elems SS hm q hq e hmem]
  have hn : (SS q).Nodup := (hS q).nodup_iff.2 (hm.nodup q hq)
  obtain ⟨hl, he⟩ := List.getElem?_eq_some_iff.1 h
  rw [← he, hn.idxOf_getElem i hl]

include hS hm in
theorem Gn_range (q : Nat) (hq : q < env.P) (e : Elem) (h : e ∈ elems q) :
    off elems q ≤ Gn env elems SS e ∧ Gn env elems SS e < off elems (q + 1) := by
  rw [Gn_of_mem env elems SS hm q hq e h, off_succ]
  have : (SS q).idxOf e < (SS q).length :=
    List.idxOf_lt_length_of_mem ((hS q).mem_iff.2 h)
  rw [(hS q).length_eq] at this
  omega

include hS hm in
theorem Gn_owner_unique (q q' : Nat) (hq : q < env.P) (e : Elem) (h : e ∈ elems q)
    (h1 : off elems q' ≤ Gn env elems SS e) (h2 : Gn env elems SS e < off elems (q' + 1)) : q' = q := by
  have := Gn_range env elems SS hS hm q hq e h
  rcases Nat.lt_trichotomy q' q with h' | h' | h'
  · have := off_mono elems (q' + 1) q h'; omega
  · exact h'
  · have := off_mono elems (q + 1) q' h'; omega

include hS hm in
theorem Gn_inj (e e' : Elem) (h : InElems env.P elems e) (h' : InElems env.P elems e')
    (hg : Gn env elems SS e = Gn env elems SS e') : e = e' := by
  obtain ⟨q, hq, h⟩ := h
  obtain ⟨q', hq', h'⟩ := h'
  have r1 := Gn_range env elems SS hS hm q hq e h
  have : q = q' := Gn_owner_unique env elems SS hS hm q' q hq' e' h' (hg ▸ r1.1) (hg ▸ r1.2)
  subst this
  rw [Gn_of_mem env elems SS hm q hq e h, Gn_of_mem env elems SS hm q hq e' h'] at hg
  have hi : (SS q).idxOf e = (SS q).idxOf e' := by omega
  have m := (hS q).mem_iff.2 h
  exact (List.idxOf_inj m).1 hi

end
section
variable (env : Env) (elems : Nat → List Elem) (hm : Mesh env.P env.D elems) (he : EnvOk env elems)

theorem S_length (o q : Nat) : (S env elems o q).length = (elems q).length := (sorted_perm env elems o q).length_eq

include hm in
theorem G_of_mem (o q : Nat) (hq : q < env.P) (e : Elem) (h : e ∈ elems q) :
    G env elems o e = off elems q + (S env elems o q).idxOf e := Gn_of_mem env elems _ hm q hq e h

include hm in
theorem G_of_get (o q : Nat) (hq : q < env.P) (i : Nat) (e : Elem) (h : (S env elems o q)[i]? = some e) :
    G env elems o e = off elems q + i := Gn_of_get env elems _ (sorted_perm env elems o) hm q hq i e h

include hm in
theorem G_range (o q : Nat) (hq : q < env.P) (e : Elem) (h : e ∈ elems q) :
    off elems q ≤ G env elems o e ∧ G env elems o e < off elems (q + 1) :=
  Gn_range env elems _ (sorted_perm env elems o) hm q hq e h

include hm in
theorem owner_unique (o q q' : Nat) (hq : q < env.P) (e : Elem) (h : e ∈ elems q)
    (h1 : off elems q' ≤ G env elems o e) (h2 : G env elems o e < off elems (q' + 1)) : q' = q :=
  Gn_owner_unique env elems _ (sorted_perm env elems o) hm q q' hq e h h1 h2

include hm in
theorem G_inj (o : Nat) (e e' : Elem) (h : InElems env.P elems e) (h' : InElems env.P elems e')
    (hg : G env elems o e = G env elems o e') : e = e' :=
  Gn_inj env elems _ (sorted_perm env elems o) hm e e' h h' hg

include hm in
theorem start_gids (o r : Nat) (hr : r < env.P) :
    (start env elems o r).2 = (start env elems o r).1.map (G env elems o) := by
  unfold start
  apply List.ext_getElem?
  intro i
  simp only [List.getElem?_map]
  by_cases h : i < (elems r).length
  · have h' : i < (S env elems o r).length := by rw [S_length]; exact h
    rw [List.getElem?_eq_getElem h', Option.map_some,
      G_of_get env elems hm o r hr i _ (List.getElem?_eq_getElem h')]
    simp [h, off]
  · have h' : (S env elems o r).length ≤ i := by rw [S_length]; omega
    rw [List.getElem?_eq_none h']
    simp [h]

end
end Tandem.Ghosts
