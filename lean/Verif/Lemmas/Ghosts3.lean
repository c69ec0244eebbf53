import Verif.Lemmas.Ghosts2
import Mathlib.Data.List.Dedup
namespace Tandem.Ghosts
open Tandem.CommPattern Tandem.Spec Tandem.LocalFaces Tandem.Algorithm

section
variable (env : Env) (elems : Nat → List Elem) (hm : Mesh env.P env.D elems) (he : EnvOk env elems)

/-- the distributed upward map of the run -/
def D0 (env : Env) (elems : Nat → List Elem) (o : Nat) : Nat → List Entry :=
  distUp env (fun s => entries env s (start env elems o s).1 (start env elems o s).2 (copyBegin env elems o s))

include hm he in
theorem mem_entries (o : Nat) (ho : 0 < o) (s : Nat) (hs : s < env.P) (x : Entry) :
    x ∈ entries env s (start env elems o s).1 (start env elems o s).2 (copyBegin env elems o s) ↔
      x.2.1 ∈ elems s ∧ IsFacet x.2.1 x.1 ∧ x.2.2 = G env elems o x.2.1 ∧
      ∃ c ∈ elems s, IsFacet c x.1 ∧ ∃ r, r < env.P ∧ r ≠ s ∧ Near env.P elems (elems r) o c := by
  unfold entries
  rw [start_gids env elems hm o s hs]
  have hc : ∀ f, f ∈ ((start env elems o s).1.drop (copyBegin env elems o s)).flatMap (facets env.D) ↔
      ∃ c ∈ elems s, IsFacet c f ∧ ∃ r, r < env.P ∧ r ≠ s ∧ Near env.P elems (elems r) o c := by
    intro f
    show f ∈ ((sortInteriorCopy env elems o s).drop _).flatMap _ ↔ _
    rw [drop_copyBegin, List.mem_flatMap]
    constructor
    · rintro ⟨c, h1, h2⟩
      rw [List.mem_filterMap] at h1
      obtain ⟨i, hi, hic⟩ := h1
      obtain ⟨c', h3, r, hr, hne, h4⟩ := (mem_copySet env elems hm he s hs (o - 1) i).1 hi
      rw [h3] at hic; cases hic
      rw [show o - 1 + 1 = o by omega] at h4
      have hin := List.mem_of_getElem? h3
      exact ⟨c, hin, (mem_facets env elems hm c ⟨s, hs, hin⟩ f).1 h2, r, hr, hne, h4⟩
    · rintro ⟨c, hin, h2, r, hr, hne, h4⟩
      obtain ⟨i, hi⟩ := List.mem_iff_getElem?.1 hin
      refine ⟨c, List.mem_filterMap.2 ⟨i, ?_, hi⟩, (mem_facets env elems hm c ⟨s, hs, hin⟩ f).2 h2⟩
      exact (mem_copySet env elems hm he s hs (o - 1) i).2 ⟨c, hi, r, hr, hne, by
        rwa [show o - 1 + 1 = o by omega]⟩
  have hst : ∀ e, e ∈ (start env elems o s).1 ↔ e ∈ elems s := fun e => (sorted_perm env elems o s).mem_iff
  constructor
  · intro h
    rw [List.mem_flatMap] at h
    obtain ⟨f, h1, h2⟩ := h
    rw [(he.set s _).mem_iff, List.mem_dedup, hc] at h1
    rw [List.mem_map] at h2
    obtain ⟨i, hi, rfl⟩ := h2
    rw [mem_equalRange] at hi
    obtain ⟨e, h3, h4⟩ := hi
    have hin : e ∈ elems s := (hst e).1 (List.mem_of_getElem? h3)
    have e1 : (start env elems o s).1.getD i [] = e := by rw [List.getD_eq_getElem?_getD, h3]; rfl
    have e2 : ((start env elems o s).1.map (G env elems o)).getD i 0 = G env elems o e := by
      rw [List.getD_eq_getElem?_getD, List.getElem?_map, h3]; rfl
    simp only [e1, e2]
    exact ⟨hin, (mem_facets env elems hm e ⟨s, hs, hin⟩ f).1 h4, trivial, h1⟩
  · rintro ⟨h1, h2, h3, h4⟩
    obtain ⟨f, e, g⟩ := x
    simp only at h1 h2 h3 h4
    rw [List.mem_flatMap]
    refine ⟨f, by rw [(he.set s _).mem_iff, List.mem_dedup, hc]; exact h4, ?_⟩
    rw [List.mem_map]
    obtain ⟨i, hi⟩ := List.mem_iff_getElem?.1 ((hst e).2 h1)
    refine ⟨i, (mem_equalRange _ _ _ _).2 ⟨e, hi, (mem_facets env elems hm e ⟨s, hs, h1⟩ f).2 h2⟩, ?_⟩
    rw [List.getD_eq_getElem?_getD, List.getD_eq_getElem?_getD, List.getElem?_map, hi, h3]; rfl

include hm he in
theorem mem_D0 (o : Nat) (ho : 0 < o) (p : Nat) (hp : p < env.P) (x : Entry) :
    x ∈ D0 env elems o p ↔ env.plex2rank x.1 = p ∧ ∃ s, s < env.P ∧
      x.2.1 ∈ elems s ∧ IsFacet x.2.1 x.1 ∧ x.2.2 = G env elems o x.2.1 ∧
      ∃ c ∈ elems s, IsFacet c x.1 ∧ ∃ r, r < env.P ∧ r ≠ s ∧ Near env.P elems (elems r) o c := by
  unfold D0 distUp
  rw [mem_received _ _ _ _ _ p hp]
  · constructor
    · rintro ⟨h1, s, hs, h2⟩; exact ⟨h1, s, hs, (mem_entries env elems hm he o ho s hs x).1 h2⟩
    · rintro ⟨h1, s, hs, h2⟩; exact ⟨h1, s, hs, (mem_entries env elems hm he o ho s hs x).2 h2⟩
  · intro s hs u hu
    obtain ⟨h1, h2, _⟩ := (mem_entries env elems hm he o ho s hs u).1 hu
    exact he.rank s hs _ h1 _ h2

/-- the number an answer carries -/
def G' (env : Env) (elems : Nat → List Elem) (o : Nat) (e : Elem) : Nat :=
  if e = invalid env.D then 2 ^ 64 - 1 else G env elems o e

include hm in
theorem ne_invalid (e : Elem) (h : InElems env.P elems e) : e ≠ invalid env.D := by
  obtain ⟨s, hs, h⟩ := h
  intro he
  have h1 := hm.small s hs e h (2 ^ 64 - 1) (by rw [he]; simp [invalid])
  omega

/-- `e'` is the other element at facet `f` of `e` -/
def Other (env : Env) (elems : Nat → List Elem) (e : Elem) (f : Facet) (e' : Elem) : Prop :=
  InElems env.P elems e' ∧ IsFacet e' f ∧ e' ≠ e

include hm he in
/-- Answers are correct provided the neighbour was announced. -/
theorem answer_spec (o : Nat) (ho : 0 < o) (e : Elem) (hin : InElems env.P elems e) (f : Facet) (hf : IsFacet e f)
    (hann : ∀ e', Other env elems e f e' → (f, e', G env elems o e') ∈ D0 env elems o (env.plex2rank f)) :
    ∃ a, answer env (D0 env elems o) (env.plex2rank f) (f, missingVertex e f) = (a, G' env elems o a) ∧
      ((a = invalid env.D ∧ ∀ e', ¬ Other env elems e f e') ∨ Other env elems e f a) := by
  have hP : env.plex2rank f < env.P := by
    obtain ⟨s, hs, h⟩ := hin; exact he.rank s hs e h f hf
  obtain ⟨se, hse, hine⟩ := hin
  have hes := hm.sorted se hse e hine
  unfold answer
  simp only
  cases hfi : (env.mapOrder (env.plex2rank f) ((D0 env elems o (env.plex2rank f)).filter
      (fun x => decide (x.1 = f)))).find? (fun x => decide (missingVertex e f ∉ x.2.1)) with
  | some x =>
    have h1 := List.find?_some hfi
    have h2 := List.mem_of_find?_eq_some hfi
    rw [(he.map _ _).mem_iff, List.mem_filter] at h2
    obtain ⟨h2, h3⟩ := h2
    simp only [decide_eq_true_eq] at h1 h3
    obtain ⟨_, s, hs, h4, h5, h6, _⟩ := (mem_D0 env elems hm he o ho _ hP x).1 h2
    have hin' : InElems env.P elems x.2.1 := ⟨s, hs, h4⟩
    refine ⟨x.2.1, ?_, Or.inr ⟨hin', h3 ▸ h5, ?_⟩⟩
    · simp only
      rw [h6]; unfold G'; rw [if_neg (ne_invalid env elems hm _ hin')]
    · intro h
      exact h1 (h ▸ (missing_spec e f hes hf).1)
  | none =>
    refine ⟨invalid env.D, by simp [G'], Or.inl ⟨rfl, ?_⟩⟩
    intro e' hoth
    have h1 := hann e' hoth
    rw [List.find?_eq_none] at hfi
    have h2 := hfi (f, e', G env elems o e') (by
      rw [(he.map _ _).mem_iff, List.mem_filter]; exact ⟨h1, by simp⟩)
    simp only [decide_eq_true_eq, not_not] at h2
    obtain ⟨⟨s, hs, h3⟩, h4, h5⟩ := hoth
    exact h5 (eq_of_missing e e' f hes (hm.sorted s hs e' h3) hf h4 h2).symm

/-- state after `k` levels: what the loop maintains -/
structure Inv (env : Env) (elems : Nat → List Elem) (o k r : Nat) (st : List Elem × List Nat) : Prop where
  nodup : st.1.Nodup
  mem : ∀ e, e ∈ st.1 ↔ Near env.P elems (elems r) k e
  gid : st.2 = st.1.map (G env elems o)

theorem inv_valid (o k r : Nat) (hr : r < env.P) (st : List Elem × List Nat) (h : Inv env elems o k r st)
    (hm : Mesh env.P env.D elems) : Valid env.D st.1 := by
  intro e he
  obtain ⟨s, hs, h'⟩ := near_in env elems r hr k e ((h.mem e).1 he)
  exact ⟨hm.size s hs e h', hm.sorted s hs e h'⟩

include hm in
theorem mem_bf_st (o k r : Nat) (hr : r < env.P) (st : List Elem × List Nat) (h : Inv env elems o k r st)
    (f : Facet) : f ∈ boundaryFaces (upward env.D st.1) ↔
      ∃ e ∈ st.1, IsFacet e f ∧ ∀ e' ∈ st.1, IsFacet e' f → e' = e := by
  have hin : ∀ e ∈ st.1, InElems env.P elems e := fun e he => near_in env elems r hr k e ((h.mem e).1 he)
  rw [mem_boundaryFaces env.D hm.dim _ (inv_valid env elems o k r hr st h hm), filter_length_one _ h.nodup]
  constructor
  · rintro ⟨e, h1, h2, h3⟩
    refine ⟨e, h1, (mem_facets env elems hm e (hin e h1) f).1 (by simpa using h2), fun e' a b => h3 e' a ?_⟩
    simpa using (mem_facets env elems hm e' (hin e' a) f).2 b
  · rintro ⟨e, h1, h2, h3⟩
    refine ⟨e, h1, by simpa using (mem_facets env elems hm e (hin e h1) f).2 h2, fun e' a b => h3 e' a ?_⟩
    exact (mem_facets env elems hm e' (hin e' a) f).1 (by simpa using b)

include hm he in
theorem mem_queries (o k r : Nat) (hr : r < env.P) (st : List Elem × List Nat) (h : Inv env elems o k r st)
    (q : Facet × Nat) : q ∈ queries env r st.1 ↔
      ∃ e ∈ st.1, IsFacet e q.1 ∧ (∀ e' ∈ st.1, IsFacet e' q.1 → e' = e) ∧ q.2 = missingVertex e q.1 := by
  have hin : ∀ e ∈ st.1, InElems env.P elems e := fun e he => near_in env elems r hr k e ((h.mem e).1 he)
  have hhead : ∀ f e, e ∈ st.1 → IsFacet e f → (∀ e' ∈ st.1, IsFacet e' f → e' = e) →
      st.1.getD ((equalRange (upward env.D st.1) f).headD 0) [] = e := by
    intro f e he hf hu
    have hne : (equalRange (upward env.D st.1) f) ≠ [] := by
      obtain ⟨i, hi⟩ := List.mem_iff_getElem?.1 he
      have := (mem_equalRange env.D st.1 f i).2 ⟨e, hi, (mem_facets env elems hm e (hin e he) f).2 hf⟩
      intro hn; rw [hn] at this; simp at this
    obtain ⟨a, as, hl⟩ := List.exists_cons_of_ne_nil hne
    rw [hl]
    obtain ⟨e', h1, h2⟩ := (mem_equalRange env.D st.1 f a).1 (by rw [hl]; simp)
    have hme := List.mem_of_getElem? h1
    have := hu e' hme ((mem_facets env elems hm e' (hin e' hme) f).1 h2)
    rw [List.headD_cons, List.getD_eq_getElem?_getD, h1, this]; rfl
  unfold queries
  rw [List.mem_map]
  constructor
  · rintro ⟨f, h1, rfl⟩
    rw [(he.set r _).mem_iff, mem_bf_st env elems hm o k r hr st h] at h1
    obtain ⟨e, h2, h3, h4⟩ := h1
    exact ⟨e, h2, h3, h4, by rw [hhead f e h2 h3 h4]⟩
  · rintro ⟨e, h2, h3, h4, h5⟩
    refine ⟨q.1, ?_, ?_⟩
    · rw [(he.set r _).mem_iff, mem_bf_st env elems hm o k r hr st h]; exact ⟨e, h2, h3, h4⟩
    · rw [hhead q.1 e h2 h3 h4, ← h5]

include hm he in
theorem announced (o k r : Nat) (hk : k < o) (hr : r < env.P) (st : List Elem × List Nat)
    (h : Inv env elems o k r st) (e : Elem) (hin : e ∈ st.1) (f : Facet) (hf : IsFacet e f)
    (hu : ∀ e' ∈ st.1, IsFacet e' f → e' = e) (e' : Elem) (ho : Other env elems e f e') :
    (f, e', G env elems o e') ∈ D0 env elems o (env.plex2rank f) := by
  obtain ⟨⟨s, hs, h1⟩, h2, h3⟩ := ho
  have hP : env.plex2rank f < env.P := he.rank s hs e' h1 f h2
  rw [mem_D0 env elems hm he o (by omega) _ hP]
  refine ⟨rfl, s, hs, h1, h2, rfl, e', h1, h2, r, hr, ?_, ?_⟩
  · rintro rfl
    exact h3 (hu e' ((h.mem e').2 (near_mono env elems _ e' 0 k (by omega) h1)) h2)
  · exact near_mono env elems _ e' (k + 1) o (by omega)
      (Or.inr ⟨⟨s, hs, h1⟩, e, (h.mem e).1 hin, f, h2, hf⟩)

/-- new neighbours of a rank -/
def New (env : Env) (elems : Nat → List Elem) (st : List Elem) (e' : Elem) : Prop :=
  e' ∉ st ∧ InElems env.P elems e' ∧ ∃ e ∈ st, ∃ f, IsFacet e f ∧ IsFacet e' f

include hm he in
/-- What a rank receives: its new neighbours, with their numbers, and invalid entries. -/
theorem boundary_spec (o k r : Nat) (hk : k < o) (hr : r < env.P) (st : Nat → List Elem × List Nat)
    (h : ∀ s, s < env.P → Inv env elems o k s (st s)) :
    ∃ bE : List Elem, boundary env (D0 env elems o) st r = bE.map (fun a => (a, G' env elems o a)) ∧
      ∀ a, (a ∈ bE → a = invalid env.D ∨ New env elems (st r).1 a) ∧ (New env elems (st r).1 a → a ∈ bE) := by
  have hin : ∀ e ∈ (st r).1, InElems env.P elems e :=
    fun e he => near_in env elems r hr k e (((h r hr).mem e).1 he)
  have hkey : ∀ s, s < env.P → ∀ u ∈ queries env s (st s).1, env.plex2rank u.1 < env.P := by
    intro s hs u hu
    obtain ⟨e, h1, h2, _⟩ := (mem_queries env elems hm he o k s hs (st s) (h s hs) u).1 hu
    obtain ⟨s', hs', h3⟩ := near_in env elems s hs k e (((h s hs).mem e).1 h1)
    exact he.rank s' hs' e h3 _ h2
  unfold boundary
  simp only
  rw [answered_eq env.P (fun q : Facet × Nat => env.plex2rank q.1) ([], 0) (fun s => queries env s (st s).1) hkey
    (fun p => answer env (D0 env elems o) p) r hr]
  have hA : ∀ q ∈ queries env r (st r).1, ∃ e ∈ (st r).1, IsFacet e q.1 ∧
      (∀ e' ∈ (st r).1, IsFacet e' q.1 → e' = e) ∧
      ∃ a, answer env (D0 env elems o) (env.plex2rank q.1) q = (a, G' env elems o a) ∧
      ((a = invalid env.D ∧ ∀ e', ¬ Other env elems e q.1 e') ∨ Other env elems e q.1 a) := by
    intro q hq
    obtain ⟨e, h1, h2, h3, h4⟩ := (mem_queries env elems hm he o k r hr (st r) (h r hr) q).1 hq
    obtain ⟨a, h5, h6⟩ := answer_spec env elems hm he o (by omega) e (hin e h1) q.1 h2
      (fun e' ho => announced env elems hm he o k r hk hr (st r) (h r hr) e h1 q.1 h2 h3 e' ho)
    exact ⟨e, h1, h2, h3, a, by rw [← h5]; rw [← h4], h6⟩
  have hpl := place_perm env.P (fun q : Facet × Nat => env.plex2rank q.1) ([], 0) (queries env r (st r).1)
    (hkey r hr)
  refine ⟨(place env.P (fun q : Facet × Nat => env.plex2rank q.1) ([], 0) (queries env r (st r).1)).map
    (fun q => (answer env (D0 env elems o) (env.plex2rank q.1) q).1), ?_, ?_⟩
  · rw [List.map_map]
    apply List.map_congr_left
    intro q hq
    obtain ⟨e, _, _, _, a, h5, _⟩ := hA q ((hpl q).1 hq)
    simp only [Function.comp, h5]
  · intro a
    constructor
    · intro ha
      rw [List.mem_map] at ha
      obtain ⟨q, hq, rfl⟩ := ha
      obtain ⟨e, h1, h2, h3, a, h5, h6⟩ := hA q ((hpl q).1 hq)
      rw [h5]
      rcases h6 with ⟨h6, _⟩ | h6
      · exact Or.inl h6
      · refine Or.inr ⟨fun hc => h6.2.2 (h3 a hc h6.2.1), h6.1, e, h1, q.1, h2, h6.2.1⟩
    · rintro ⟨h1, h2, e, h3, f, h4, h5⟩
      have hu : ∀ e' ∈ (st r).1, IsFacet e' f → e' = e := by
        intro e' he' hf'
        obtain ⟨s1, hs1, h1'⟩ := hin e' he'
        obtain ⟨s2, hs2, h2'⟩ := hin e h3
        obtain ⟨s3, hs3, h3'⟩ := h2
        rcases hm.conforming s1 s2 s3 hs1 hs2 hs3 e' h1' e h2' a h3' f hf' h4 h5 with h | h | h
        · exact h
        · exact absurd (h ▸ h3) h1
        · exact absurd (h ▸ he') h1
      have hq : (f, missingVertex e f) ∈ queries env r (st r).1 :=
        (mem_queries env elems hm he o k r hr (st r) (h r hr) _).2 ⟨e, h3, h4, hu, rfl⟩
      rw [List.mem_map]
      refine ⟨(f, missingVertex e f), (hpl _).2 hq, ?_⟩
      have hoth : Other env elems e f a := ⟨h2, h5, fun h => h1 (h ▸ h3)⟩
      obtain ⟨x, h6, h7⟩ := answer_spec env elems hm he o (by omega) e (hin e h3) f h4
        (fun e' ho => announced env elems hm he o k r hk hr (st r) (h r hr) e h3 f h4 hu e' ho)
      simp only [h6]
      rcases h7 with ⟨_, h7⟩ | h7
      · exact absurd hoth (h7 a)
      · obtain ⟨s1, hs1, h1'⟩ := h7.1
        obtain ⟨s2, hs2, h2'⟩ := hin e h3
        obtain ⟨s3, hs3, h3'⟩ := h2
        rcases hm.conforming s1 s2 s3 hs1 hs2 hs3 x h1' e h2' a h3' f h7.2.1 h4 h5 with h | h | h
        · exact absurd h h7.2.2
        · exact absurd h.symm hoth.2.2
        · exact h

end
end Tandem.Ghosts
