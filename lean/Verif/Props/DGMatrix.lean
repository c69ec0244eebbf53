import Verif.Spec.DGMatrix
import Verif.Props.DGTopo
import Mathlib.Data.List.Dedup
import Mathlib.Data.List.Sort
/-! # Property C32: matrix preallocation -/
namespace Tandem.DGTopo
open Tandem.Spec

theorem _root_.Tandem.Spec.IsCount.atMost {n : Nat} {p q : Nat → Prop} (h : IsCount n p) (hpq : ∀ c, q c → p c) : AtMost n q := by
  obtain ⟨l, h1, h2, h3⟩ := h
  intro l' hn hl'
  rw [← h3]
  exact (hn.subperm (fun c hc => (h2 c).2 (hpq c (hl' c hc)))).length_le

theorem _root_.Tandem.Spec.IsCount.congr {n : Nat} {p q : Nat → Prop} (h : IsCount n p) (hpq : ∀ c, p c ↔ q c) : IsCount n q := by
  obtain ⟨l, h1, h2, h3⟩ := h
  exact ⟨l, h1, fun c => (h2 c).trans (hpq c), h3⟩

/-- Two different simplices share at most one facet. -/
theorem share_one {D : Nat} {e e' f f' : List Nat} (he : e.length = D + 1) (he' : e'.length = D + 1)
    (hs : e.Pairwise (· < ·)) (hs' : e'.Pairwise (· < ·)) (hne : e ≠ e')
    (h1 : IsFacet e f) (h2 : IsFacet e' f) (h3 : IsFacet e f') (h4 : IsFacet e' f') : f = f' := by
  have nd : ∀ {l : List Nat}, l.Pairwise (· < ·) → l.Nodup := fun h => h.imp (fun h => Nat.ne_of_lt h)
  apply ScatterPlan.strictSorted_ext _ _ h1.2.1 h3.2.1
  -- both have the vertices common to the elements
  have card : ∀ {l : List Nat}, l.Pairwise (· < ·) → l.toFinset.card = l.length := fun h =>
    List.toFinset_card_of_nodup (nd h)
  have hint : (e.toFinset ∩ e'.toFinset).card ≤ D := by
    apply Classical.byContradiction
    intro hc
    apply hne
    have c1 : (e.toFinset ∩ e'.toFinset) = e.toFinset :=
      Finset.eq_of_subset_of_card_le Finset.inter_subset_left (by rw [card hs]; omega)
    have c2 : (e.toFinset ∩ e'.toFinset) = e'.toFinset :=
      Finset.eq_of_subset_of_card_le Finset.inter_subset_right (by rw [card hs']; omega)
    apply ScatterPlan.strictSorted_ext _ _ hs hs'
    intro x
    have := c1.symm.trans c2
    rw [← List.mem_toFinset, ← List.mem_toFinset (l := e'), this]
  have hsub : ∀ {g : List Nat}, IsFacet e g → IsFacet e' g → g.toFinset = e.toFinset ∩ e'.toFinset := by
    intro g a b
    apply Finset.eq_of_subset_of_card_le
    · intro x hx
      rw [List.mem_toFinset] at hx
      rw [Finset.mem_inter, List.mem_toFinset, List.mem_toFinset]
      exact ⟨a.2.2 x hx, b.2.2 x hx⟩
    · rw [card a.2.1]
      have := a.1
      omega
  intro x
  rw [← List.mem_toFinset, ← List.mem_toFinset (l := f'), hsub h1 h2, hsub h3 h4]

section
variable {P D : Nat} {elems : Nat → List (List Nat)} {num fnum tag : List Nat → Nat} {views : Nat → View}

theorem inElems_valid (hm : Mesh P D elems) {e : List Nat} (h : InElems P elems e) :
    e.length = D + 1 ∧ e.Pairwise (· < ·) := by
  obtain ⟨s, hs, he⟩ := h
  exact ⟨hm.size s hs e he, hm.sorted s hs e he⟩

/-- The elements behind the facets of an element: its neighbours, each once. -/
theorem otherUps_spec (hd : IsDistributed P D elems num fnum tag views) (r : Nat) (hr : r < P) (u : Nat)
    (hu : u < (views r).elems.length) :
    (otherUps (views r) u).Nodup ∧ ∀ c, c ∈ otherUps (views r) u ↔ Adjacent (views r) u c := by
  have hv := hd.view r hr
  set v := views r
  have he := List.getElem?_eq_getElem hu
  obtain ⟨ds, h1, h2, h3, h4⟩ := hv.down u _ he
  have hmem : ∀ dw, dw ∈ ds → ∀ c, c ∈ (v.up.getD dw []).filter (fun c => c ≠ u) ↔
      c ≠ u ∧ ∃ e' f, v.facets[dw]? = some f ∧ v.elems[c]? = some e' ∧ IsFacet v.elems[u] f ∧ IsFacet e' f := by
    intro dw hdw c
    obtain ⟨f, hf, hfe⟩ := (h4 dw).1 hdw
    obtain ⟨us, k1, k2, k3⟩ := hv.up dw f hf
    rw [getD_of k1, List.mem_filter, k3 c]
    constructor
    · rintro ⟨⟨e', a, b⟩, hc⟩
      exact ⟨by simpa using hc, e', f, hf, a, hfe, b⟩
    · rintro ⟨hc, e', f', hf', a, _, b⟩
      obtain rfl := Option.some.inj (hf.symm.trans hf')
      exact ⟨⟨e', a, b⟩, by simpa using hc⟩
  unfold otherUps
  rw [getD_of h1]
  constructor
  · rw [List.nodup_flatMap]
    constructor
    · intro dw hdw
      obtain ⟨f, hf, hfe⟩ := (h4 dw).1 hdw
      obtain ⟨us, k1, k2, k3⟩ := hv.up dw f hf
      rw [getD_of k1]
      exact (k2.imp (fun h => Nat.ne_of_lt h)).filter _
    · refine List.Nodup.pairwise_of_forall_ne h3 ?_
      intro dw hdw dw' hdw' hne c hc hc'
      obtain ⟨c1, e', f, c2, c3, c4, c5⟩ := (hmem dw hdw c).1 hc
      obtain ⟨d1, e'', f', d2, d3, d4, d5⟩ := (hmem dw' hdw' c).1 hc'
      obtain rfl := Option.some.inj (c3.symm.trans d3)
      have hv1 := inElems_valid hd.mesh (mem_inElems hv he)
      have hv2 := inElems_valid hd.mesh (mem_inElems hv c3)
      have : f = f' := share_one hv1.1 hv2.1 hv1.2 hv2.2 (by
        intro hc'
        exact c1 (get_inj hv.once c3 (hc' ▸ he))) c4 c5 d4 d5
      subst this
      exact hne (get_inj hv.facetsOnce c2 d2)
  · intro c
    rw [List.mem_flatMap]
    constructor
    · rintro ⟨dw, hdw, hc⟩
      obtain ⟨c1, e', f, c2, c3, c4, c5⟩ := (hmem dw hdw c).1 hc
      exact ⟨Ne.symm c1, _, e', f, he, c3, c4, c5⟩
    · rintro ⟨c1, e, e', f, a1, a2, a3, a4⟩
      obtain rfl := Option.some.inj (he.symm.trans a1)
      have hin : f ∈ v.facets := (hv.facetsExactly f).2 ⟨_, List.mem_of_getElem? he, a3⟩
      obtain ⟨dw, hdw⟩ := List.mem_iff_getElem?.1 hin
      have hds : dw ∈ ds := (h4 dw).2 ⟨f, hdw, a3⟩
      exact ⟨dw, hds, (hmem dw hds c).2 ⟨Ne.symm c1, e', f, hdw, a2, a3, a4⟩⟩

theorem foldl_count (p : Nat → Prop) [DecidablePred p] (l : List Nat) : ∀ n,
    l.foldl (fun n u => if p u then n + 1 else n) n = n + (l.filter p).length := by
  induction l with
  | nil => intro n; rfl
  | cons a l ih =>
    intro n
    rw [List.foldl_cons, ih]
    by_cases h : p a
    · simp [h]; omega
    · simp [h]

theorem foldl_count' (p : Nat → Prop) [DecidablePred p] (l : List Nat) : ∀ n,
    l.foldl (fun n u => if p u then n else n + 1) n = n + (l.filter (fun u => ¬ p u)).length := by
  induction l with
  | nil => intro n; rfl
  | cons a l ih =>
    intro n
    rw [List.foldl_cons, ih]
    by_cases h : p a
    · simp [h]
    · simp [h]; omega

/-- The neighbour counters count, for an own element, the owned elements among itself and its neighbours,
and the neighbours owned by other ranks. -/
theorem neighbour_counts (hd : IsDistributed P D elems num fnum tag views) (r : Nat) (hr : r < P) (u : Nat)
    (hu : u < (views r).numLocal) :
    IsCount (numLocalNb (views r) u) (fun c => (c = u ∨ Adjacent (views r) u c) ∧ c < (views r).numLocal) ∧
    IsCount (numGhostNb (views r) u) (fun c => (c = u ∨ Adjacent (views r) u c) ∧ (views r).numLocal ≤ c) := by
  have hv := hd.view r hr
  have hle := numLocal_le hv
  obtain ⟨h1, h2⟩ := otherUps_spec hd r hr u (by omega)
  have hown : ∀ c, c ∈ otherUps (views r) u → (ownerOf (views r) c = (views r).rank ↔ c < (views r).numLocal) := by
    intro c hc
    obtain ⟨_, _, e', _, _, he', _⟩ := (h2 c).1 hc
    rw [hv.rank, (own_iff hr hd.mesh hv he').1, (own_iff hr hd.mesh hv he').2]
  constructor
  · refine ⟨u :: (otherUps (views r) u).filter (fun c => ownerOf (views r) c = (views r).rank), ?_, ?_, ?_⟩
    · rw [List.nodup_cons]
      refine ⟨?_, h1.filter _⟩
      intro hc
      exact ((h2 u).1 (List.mem_filter.1 hc).1).1 rfl
    · intro c
      rw [List.mem_cons, List.mem_filter]
      constructor
      · rintro (rfl | ⟨hc, ho⟩)
        · exact ⟨Or.inl rfl, hu⟩
        · exact ⟨Or.inr ((h2 c).1 hc), (hown c hc).1 (by simpa using ho)⟩
      · rintro ⟨rfl | hc, hl⟩
        · exact Or.inl rfl
        · exact Or.inr ⟨(h2 c).2 hc, by simpa using (hown c ((h2 c).2 hc)).2 hl⟩
    · unfold numLocalNb
      rw [foldl_count, List.length_cons]
      omega
  · refine ⟨(otherUps (views r) u).filter (fun c => ¬ ownerOf (views r) c = (views r).rank), h1.filter _, ?_, ?_⟩
    · intro c
      rw [List.mem_filter]
      constructor
      · rintro ⟨hc, ho⟩
        refine ⟨Or.inr ((h2 c).1 hc), ?_⟩
        have := mt (hown c hc).2 (by simpa using ho)
        omega
      · rintro ⟨rfl | hc, hl⟩
        · omega
        · refine ⟨(h2 c).2 hc, ?_⟩
          have := mt (hown c ((h2 c).2 hc)).1 (by omega)
          simpa using this
    · unfold numGhostNb
      rw [foldl_count', Nat.zero_add]

/-- C32: the blocks written.  Whatever contributions the local operator makes, the assembly writes only
rows of own elements and only the columns of the element itself and its neighbours; if it contributes at every
element and interior facet, all of these are written. -/
theorem C32_sparsity (hd : IsDistributed P D elems num fnum tag views) (r : Nat) (hr : r < P) (k : Kernels) :
    ∃ blocks, assemble (views r) k = some blocks ∧
      (∀ b ∈ blocks, b.1 < (elems r).length ∧ (b.2 = b.1 ∨ Adjacent (views r) b.1 b.2)) ∧
      ((∀ e, k.volume e = true) → (∀ f, k.skeleton f = true) →
        ∀ u c, u < (elems r).length → (c = u ∨ Adjacent (views r) u c) → (u, c) ∈ blocks) := by
  have hv := hd.view r hr
  have hle := numLocal_le hv
  have hinfo : ∀ f, f ∈ List.range (views r).numLocalFacets → (facetInfo (views r) f).map (fun i => (f, i)) =
      some (f, (facetInfo (views r) f).getD ⟨0, 0, 0, 0, 0, 0, false, false, 0⟩) := by
    intro f hf
    obtain ⟨info, _, _, _, h, _⟩ := C33_facet_info hd r hr f (by simpa using hf)
    rw [h]; rfl
  refine ⟨_, by unfold assemble; rw [Probes.mapM_all _ _ _ hinfo]; rfl, ?_, ?_⟩
  · intro b hb
    rw [List.mem_append, List.mem_append] at hb
    rw [← hv.numLocal]
    rcases hb with (hb | hb) | hb
    · obtain ⟨e, he, rfl⟩ := List.mem_map.1 hb
      exact ⟨by simpa using (List.mem_filter.1 he).1, Or.inl rfl⟩
    · rw [List.mem_flatMap] at hb
      obtain ⟨p, hp, hb⟩ := hb
      obtain ⟨i, hi, rfl⟩ := List.mem_map.1 hp
      rw [List.mem_range] at hi
      obtain ⟨info, f, e0, e1, g1, g2, g3, g4, g5, g6, g7, g8, g9, _, _, g12, g13, g14, g15⟩ := C33_facet_info hd r hr i hi
      rw [g1] at hb
      simp only [Option.getD_some] at hb
      have i0 : info.inside0 = true ↔ info.up0 < (views r).numLocal := g12.trans (own_iff hr hd.mesh hv g3).2.symm
      have i1 : info.inside1 = true ↔ info.up1 < (views r).numLocal := g13.trans (own_iff hr hd.mesh hv g4).2.symm
      unfold facetBlocks at hb
      split at hb
      · next hne =>
        have adj : Adjacent (views r) info.up0 info.up1 := ⟨hne, e0, e1, f, g3, g4, g5, g6⟩
        have adj' : Adjacent (views r) info.up1 info.up0 := ⟨Ne.symm hne, e1, e0, f, g4, g3, g6, g5⟩
        split at hb
        · rw [List.mem_append] at hb
          rcases hb with hb | hb
          · split at hb
            · next h0 =>
              rcases List.mem_cons.1 hb with rfl | hb
              · exact ⟨i0.1 h0, Or.inl rfl⟩
              · rw [List.mem_singleton] at hb; subst hb
                exact ⟨i0.1 h0, Or.inr adj⟩
            · simp at hb
          · split at hb
            · next h1 =>
              rcases List.mem_cons.1 hb with rfl | hb
              · exact ⟨i1.1 h1, Or.inr adj'⟩
              · rw [List.mem_singleton] at hb; subst hb
                exact ⟨i1.1 h1, Or.inl rfl⟩
            · simp at hb
        · simp at hb
      · split at hb
        · next h0 =>
          rw [List.mem_singleton] at hb; subst hb
          exact ⟨i0.1 h0.1, Or.inl rfl⟩
        · simp at hb
    · obtain ⟨e, he, rfl⟩ := List.mem_map.1 hb
      exact ⟨by simpa using (List.mem_filter.1 he).1, Or.inl rfl⟩
  · intro hvol hskel u c hu hc
    rw [List.mem_append, List.mem_append]
    rcases hc with rfl | ⟨hne, e, e', f, a1, a2, a3, a4⟩
    · left; left
      rw [List.mem_map]
      refine ⟨c, List.mem_filter.2 ⟨?_, hvol c⟩, rfl⟩
      rw [List.mem_range, hv.numLocal]; exact hu
    · left; right
      have hown : e ∈ elems r := (own_iff hr hd.mesh hv a1).2.1 (by rw [hv.numLocal]; exact hu)
      obtain ⟨i, hi⟩ := List.mem_iff_getElem?.1 ((hv.facetsExactly f).2 ⟨e, List.mem_of_getElem? a1, a3⟩)
      have hil := (hv.localFacets i f hi).2 ⟨e, hown, a3⟩
      obtain ⟨info, f', e0, e1, g1, g2, g3, g4, g5, g6, g7, g8, g9, _, _, g12, g13, g14, g15⟩ := C33_facet_info hd r hr i hil
      obtain rfl := Option.some.inj (hi.symm.trans g2)
      rw [List.mem_flatMap]
      refine ⟨_, List.mem_map.2 ⟨i, by simpa using hil, rfl⟩, ?_⟩
      rw [g1]
      simp only [Option.getD_some]
      have hee : e ≠ e' := fun h => hne (get_inj hv.once a1 (h ▸ a2))
      have idx : ∀ {a b : Nat} {x : List Nat}, (views r).elems[a]? = some x → (views r).elems[b]? = some x → a = b :=
        fun ha hb => get_inj hv.once ha hb
      unfold facetBlocks
      rcases g7 e (mem_inElems hv a1) a3 with h | h <;> rcases g7 e' (mem_inElems hv a2) a4 with h' | h'
      · exact absurd (h.trans h'.symm) hee
      · subst h h'
        obtain rfl := idx a1 g3
        obtain rfl := idx a2 g4
        rw [if_pos hne, if_pos (hskel i), if_pos (g12.2 hown)]
        simp
      · subst h h'
        obtain rfl := idx a1 g4
        obtain rfl := idx a2 g3
        rw [if_pos (Ne.symm hne), if_pos (hskel i), if_pos (g13.2 hown)]
        simp
      · exact absurd (h.trans h'.symm) hee

/-- C32: preallocation in blocks.  The numbers of blocks preallocated for the row of element `u` (BAIJ) are
exactly the numbers of different block columns the assembly writes in that row, in columns of own elements and
in columns of ghost elements; if the local operator omits contributions, they are upper bounds. -/
theorem C32_blocks (hd : IsDistributed P D elems num fnum tag views) (r : Nat) (hr : r < P) (k : Kernels) :
    ∃ blocks, assemble (views r) k = some blocks ∧ ∀ u, u < (elems r).length →
      AtMost (numLocalNb (views r) u) (fun c => (u, c) ∈ blocks ∧ c < (elems r).length) ∧
      AtMost (numGhostNb (views r) u) (fun c => (u, c) ∈ blocks ∧ (elems r).length ≤ c) ∧
      ((∀ e, k.volume e = true) → (∀ f, k.skeleton f = true) →
        IsCount (numLocalNb (views r) u) (fun c => (u, c) ∈ blocks ∧ c < (elems r).length) ∧
        IsCount (numGhostNb (views r) u) (fun c => (u, c) ∈ blocks ∧ (elems r).length ≤ c)) := by
  have hv := hd.view r hr
  obtain ⟨blocks, h1, h2, h3⟩ := C32_sparsity hd r hr k
  refine ⟨blocks, h1, fun u hu => ?_⟩
  obtain ⟨c1, c2⟩ := neighbour_counts hd r hr u (by rw [hv.numLocal]; exact hu)
  rw [hv.numLocal] at c1 c2
  refine ⟨c1.atMost (fun c hc => ⟨(h2 _ hc.1).2, hc.2⟩), c2.atMost (fun c hc => ⟨(h2 _ hc.1).2, hc.2⟩), ?_⟩
  intro hvol hsk
  refine ⟨c1.congr (fun c => ⟨fun hc => ⟨h3 hvol hsk u c hu hc.1, hc.2⟩, fun hc => ⟨(h2 _ hc.1).2, hc.2⟩⟩),
    c2.congr (fun c => ⟨fun hc => ⟨h3 hvol hsk u c hu hc.1, hc.2⟩, fun hc => ⟨(h2 _ hc.1).2, hc.2⟩⟩)⟩

/-- C32: which columns PETSc counts to the diagonal part: a local column belongs to an own element exactly if
its global number is in the range of rows of this rank; local row `u` is row `elemOffset + u`. -/
theorem C32_diagonal_part (hd : IsDistributed P D elems num fnum tag views) (r : Nat) (hr : r < P) (c g : Nat)
    (hc : (views r).gid[c]? = some g) :
    (c < (elems r).length → g = elemOffset elems r + c) ∧
    (c < (elems r).length ↔ elemOffset elems r ≤ g ∧ g < elemOffset elems r + (elems r).length) := by
  have hv := hd.view r hr
  have h1 : ∀ i, i < (elems r).length → (views r).gid[i]? = some (elemOffset elems r + i) := by
    intro i hi
    have := congrArg (fun l => l[i]?) hv.ownGids
    simp only [List.getElem?_take_of_lt hi, List.getElem?_map, List.getElem?_range hi, Option.map_some] at this
    exact this
  have key : c < (elems r).length → g = elemOffset elems r + c := fun h =>
    Option.some.inj (hc.symm.trans (h1 c h))
  refine ⟨key, ⟨fun h => by have := key h; omega, fun ⟨h, h'⟩ => ?_⟩⟩
  have hx := h1 (g - elemOffset elems r) (by omega)
  rw [show elemOffset elems r + (g - elemOffset elems r) = g by omega] at hx
  have hnd : (views r).gid.Nodup := by
    rw [hv.gid]
    apply List.Nodup.map_on _ hv.once
    intro a ha b hb hab
    exact hd.numInj a b ((hv.exactly a).1 ha).1 ((hv.exactly b).1 hb).1 hab
  have := get_inj hnd hc hx
  omega

end

/-! ## scalar rows -/

theorem mem_scalarEntries (bs : Nat) (blocks : List (Nat × Nat)) (i j : Nat) :
    (i, j) ∈ scalarEntries bs blocks ↔ 0 < bs ∧ (i / bs, j / bs) ∈ blocks := by
  unfold scalarEntries
  simp only [List.mem_flatMap, List.mem_map, List.mem_range, Prod.mk.injEq]
  have key : ∀ x b, b < bs → (x * bs + b) / bs = x := by
    intro x b hb
    rw [Nat.mul_comm, Nat.mul_add_div (by omega), Nat.div_eq_of_lt hb, Nat.add_zero]
  constructor
  · rintro ⟨b, hb, i', hi', j', hj', rfl, rfl⟩
    rw [key _ _ hi', key _ _ hj']
    exact ⟨by omega, hb⟩
  · rintro ⟨hbs, hb⟩
    refine ⟨_, hb, i % bs, Nat.mod_lt _ hbs, j % bs, Nat.mod_lt _ hbs, ?_, ?_⟩
    · rw [Nat.mul_comm]; exact Nat.div_add_mod _ _
    · rw [Nat.mul_comm]; exact Nat.div_add_mod _ _

theorem IsCount_expand {n : Nat} {p : Nat → Prop} (bs : Nat) (hbs : 0 < bs) (h : IsCount n p) :
    IsCount (n * bs) (fun j => p (j / bs)) := by
  obtain ⟨l, h1, h2, h3⟩ := h
  have key : ∀ x b, b < bs → (x * bs + b) / bs = x := by
    intro x b hb
    rw [Nat.mul_comm, Nat.mul_add_div (by omega), Nat.div_eq_of_lt hb, Nat.add_zero]
  refine ⟨l.flatMap (fun c => (List.range bs).map (fun b => c * bs + b)), ?_, ?_, ?_⟩
  · rw [List.nodup_flatMap]
    refine ⟨fun c _ => List.nodup_range.map (fun a b hab => by simpa using hab), ?_⟩
    refine List.Nodup.pairwise_of_forall_ne h1 ?_
    intro a _ b _ hne x hx hx'
    obtain ⟨i, hi, rfl⟩ := List.mem_map.1 hx
    obtain ⟨j, hj, he⟩ := List.mem_map.1 hx'
    rw [List.mem_range] at hi hj
    apply hne
    rw [← key a i hi, ← he, key b j hj]
  · intro j
    rw [List.mem_flatMap]
    constructor
    · rintro ⟨c, hc, hj⟩
      obtain ⟨b, hb, rfl⟩ := List.mem_map.1 hj
      rw [List.mem_range] at hb
      show p ((c * bs + b) / bs)
      rw [key c b hb]
      exact (h2 c).1 hc
    · intro hj
      refine ⟨j / bs, (h2 _).2 hj, List.mem_map.2 ⟨j % bs, by simpa using Nat.mod_lt _ hbs, ?_⟩⟩
      rw [Nat.mul_comm]; exact Nat.div_add_mod _ _
  · rw [← h3]
    clear h1 h2 h3
    induction l with
    | nil => simp
    | cons a l ih => rw [List.flatMap_cons, List.length_append, ih]; simp [Nat.add_mul]; omega

theorem foldl_set_block (bs elNo val : Nat) (l : List Nat) (m : Nat) (hm : m ≤ bs) :
    ((List.range m).foldl (fun l b => l.set (b + elNo * bs) val) l).length = l.length ∧
    ∀ i, ((List.range m).foldl (fun l b => l.set (b + elNo * bs) val) l)[i]? =
      if elNo * bs ≤ i ∧ i < elNo * bs + m ∧ i < l.length then some val else l[i]? := by
  induction m with
  | zero =>
    refine ⟨rfl, fun i => ?_⟩
    rw [if_neg (by omega)]; rfl
  | succ m ih =>
    obtain ⟨h1, h2⟩ := ih (by omega)
    rw [List.range_succ, List.foldl_append]
    simp only [List.foldl_cons, List.foldl_nil]
    refine ⟨by rw [List.length_set, h1], fun i => ?_⟩
    rw [List.getElem?_set, h1, h2 i]
    by_cases hi : m + elNo * bs = i
    · rw [if_pos hi]
      by_cases hl : i < l.length
      · rw [if_pos (by omega), if_pos (by omega)]
      · rw [if_neg (by omega), if_neg (by omega), List.getElem?_eq_none (by omega)]
    · rw [if_neg hi]
      by_cases hc : elNo * bs ≤ i ∧ i < elNo * bs + m ∧ i < l.length
      · rw [if_pos hc, if_pos (by omega)]
      · rw [if_neg hc, if_neg (by omega)]

theorem foldl_set_blocks (bs n : Nat) (val : Nat → Nat) (l : List Nat) (hl : n * bs ≤ l.length) :
    ((List.range n).foldl (fun l elNo => (List.range bs).foldl (fun l b => l.set (b + elNo * bs) (val elNo)) l) l).length =
      l.length ∧
    ∀ i, ((List.range n).foldl (fun l elNo => (List.range bs).foldl (fun l b => l.set (b + elNo * bs) (val elNo)) l) l)[i]? =
      if i < n * bs then some (val (i / bs)) else l[i]? := by
  induction n with
  | zero =>
    refine ⟨rfl, fun i => ?_⟩
    rw [if_neg (by omega)]; rfl
  | succ n ih =>
    have hmul : (n + 1) * bs = n * bs + bs := by rw [Nat.add_mul, Nat.one_mul]
    obtain ⟨h1, h2⟩ := ih (by omega)
    rw [List.range_succ, List.foldl_append]
    simp only [List.foldl_cons, List.foldl_nil]
    obtain ⟨g1, g2⟩ := foldl_set_block bs n (val n) ((List.range n).foldl (fun l elNo =>
      (List.range bs).foldl (fun l b => l.set (b + elNo * bs) (val elNo)) l) l) bs (Nat.le_refl _)
    refine ⟨by rw [g1, h1], fun i => ?_⟩
    rw [g2 i, h2 i, h1]
    by_cases hc : n * bs ≤ i ∧ i < n * bs + bs ∧ i < l.length
    · have hbs : 0 < bs := by omega
      have : i / bs = n := by
        obtain ⟨k, rfl⟩ := Nat.exists_eq_add_of_le hc.1
        rw [Nat.mul_comm, Nat.mul_add_div hbs, Nat.div_eq_of_lt (by omega), Nat.add_zero]
      rw [if_pos hc, if_pos (by omega), this]
    · rw [if_neg hc]
      by_cases hi : i < n * bs
      · rw [if_pos hi, if_pos (by omega)]
      · rw [if_neg hi, if_neg (by omega)]

theorem nnzAij_spec (bs n : Nat) (nnz : Nat → Nat) :
    (nnzAij bs n nnz).length = n * bs ∧
    ∀ i, i < n * bs → (nnzAij bs n nnz)[i]? = some (nnz (i / bs) * bs) := by
  obtain ⟨h1, h2⟩ := foldl_set_blocks bs n (fun e => nnz e * bs) (List.replicate (bs * n) 0)
    (by rw [List.length_replicate, Nat.mul_comm])
  unfold nnzAij
  refine ⟨by rw [h1, List.length_replicate, Nat.mul_comm], fun i hi => ?_⟩
  rw [h2 i, if_pos hi]

theorem nnzBaij_spec (n : Nat) (nnz : Nat → Nat) : nnzBaij n nnz = (List.range n).map nnz := by
  have key : ∀ m, m ≤ n → ((List.range m).foldl (fun l e => l.set e (nnz e)) (List.replicate n 0)).length = n ∧
      ∀ i, ((List.range m).foldl (fun l e => l.set e (nnz e)) (List.replicate n 0))[i]? =
        if i < m then some (nnz i) else (List.replicate n 0)[i]? := by
    intro m
    induction m with
    | zero =>
      intro _
      refine ⟨by simp, fun i => ?_⟩
      rw [if_neg (by omega)]; rfl
    | succ m ih =>
      intro hm
      obtain ⟨h1, h2⟩ := ih (by omega)
      rw [List.range_succ, List.foldl_append]
      simp only [List.foldl_cons, List.foldl_nil]
      refine ⟨by rw [List.length_set, h1], fun i => ?_⟩
      rw [List.getElem?_set, h1, h2 i]
      by_cases hi : m = i
      · subst hi
        rw [if_pos rfl, if_pos (by omega), if_pos (by omega)]
      · rw [if_neg hi]
        by_cases hc : i < m
        · rw [if_pos hc, if_pos (by omega)]
        · rw [if_neg hc, if_neg (by omega)]
  obtain ⟨h1, h2⟩ := key n (Nat.le_refl _)
  unfold nnzBaij
  apply List.ext_getElem?
  intro i
  rw [h2 i, List.getElem?_map]
  by_cases hi : i < n
  · rw [if_pos hi, List.getElem?_range hi]; rfl
  · rw [if_neg hi, List.getElem?_eq_none (by simpa using hi), List.getElem?_eq_none (by simpa using hi)]; rfl

theorem nnzIS_spec (bs n N : Nat) (hn : n ≤ N) (nl ng : Nat → Nat) :
    (nnzIS bs n N nl ng).length = N * bs ∧
    (∀ i, i < n * bs → (nnzIS bs n N nl ng)[i]? = some ((nl (i / bs) + ng (i / bs)) * bs)) ∧
    ∀ i, n * bs ≤ i → i < N * bs → (nnzIS bs n N nl ng)[i]? = some 1 := by
  have hle : n * bs ≤ N * bs := Nat.mul_le_mul_right _ hn
  obtain ⟨h1, h2⟩ := foldl_set_blocks bs n (fun e => (nl e + ng e) * bs) (List.replicate (bs * N) 0)
    (by rw [List.length_replicate, Nat.mul_comm bs]; exact hle)
  replace h1 := h1.trans ((List.length_replicate ..).trans (Nat.mul_comm bs N))
  have key : ∀ (m s : Nat) (l : List Nat), s + m ≤ l.length →
      ((List.range' s m).foldl (fun l i => l.set i (l.getD i 0 + 1)) l).length = l.length ∧
      ∀ i, ((List.range' s m).foldl (fun l i => l.set i (l.getD i 0 + 1)) l)[i]? =
        if s ≤ i ∧ i < s + m then some (l.getD i 0 + 1) else l[i]? := by
    intro m
    induction m with
    | zero => intro s l _; exact ⟨rfl, fun i => by rw [if_neg (by omega)]; rfl⟩
    | succ m ih =>
      intro s l hl
      rw [List.range'_succ, List.foldl_cons]
      obtain ⟨a1, a2⟩ := ih (s + 1) (l.set s (l.getD s 0 + 1)) (by rw [List.length_set]; omega)
      refine ⟨by rw [a1, List.length_set], fun i => ?_⟩
      rw [a2 i]
      by_cases hi : s = i
      · subst hi
        rw [if_neg (by omega), if_pos (by omega), List.getElem?_set, if_pos rfl, if_pos (by omega)]
      · have : (l.set s (l.getD s 0 + 1)).getD i 0 = l.getD i 0 := by
          rw [List.getD_eq_getElem?_getD, List.getElem?_set, if_neg hi, List.getD_eq_getElem?_getD]
        rw [this, List.getElem?_set, if_neg hi]
        by_cases hc : s + 1 ≤ i ∧ i < s + 1 + m
        · rw [if_pos hc, if_pos (by omega)]
        · rw [if_neg hc, if_neg (by omega)]
  obtain ⟨k1, k2⟩ := key (N * bs - n * bs) (n * bs) ((List.range n).foldl (fun l elNo =>
      (List.range bs).foldl (fun l b => l.set (b + elNo * bs) ((nl elNo + ng elNo) * bs)) l)
      (List.replicate (bs * N) 0)) (by rw [h1]; omega)
  unfold nnzIS
  refine ⟨by rw [k1, h1], fun i hi => ?_, fun i hi hi' => ?_⟩
  · rw [k2 i, if_neg (by omega), h2 i, if_pos hi]
  · rw [k2 i, if_pos (by omega), List.getD_eq_getElem?_getD, h2 i, if_neg (by omega), List.getElem?_replicate,
      if_pos (by rw [Nat.mul_comm]; exact hi')]
    rfl

section
variable {P D : Nat} {elems : Nat → List (List Nat)} {num fnum tag : List Nat → Nat} {views : Nat → View}

theorem count_sum {m n N : Nat} {p : Nat → Prop} (h1 : IsCount m (fun c => p c ∧ c < N))
    (h2 : IsCount n (fun c => p c ∧ N ≤ c)) : IsCount (m + n) p := by
  obtain ⟨l, a1, a2, a3⟩ := h1
  obtain ⟨l', b1, b2, b3⟩ := h2
  refine ⟨l ++ l', ?_, ?_, by rw [List.length_append, a3, b3]⟩
  · rw [List.nodup_append]
    refine ⟨a1, b1, ?_⟩
    intro x hx y hy hxy
    subst hxy
    have h1 := ((a2 x).1 hx).2
    have h2 := ((b2 x).1 hy).2
    omega
  · intro c
    rw [List.mem_append, a2, b2]
    constructor
    · rintro (h | h)
      · exact h.1
      · exact h.1
    · intro h
      by_cases hc : c < N
      · exact Or.inl ⟨h, hc⟩
      · exact Or.inr ⟨h, by omega⟩

/-- C32: scalar preallocation.  For a local operator that contributes at every element and interior facet the
arrays handed to PETSc hold, for every scalar row, exactly the number of different scalar columns the
assembly writes:
* AIJ: columns of own elements (diagonal part) and columns of ghost elements (off-diagonal part);
* BAIJ: the same in blocks;
* IS: all columns of the local matrix; the rows of ghost elements get one entry and none is written. -/
theorem C32_prealloc (hd : IsDistributed P D elems num fnum tag views) (r : Nat) (hr : r < P) (k : Kernels)
    (hvol : ∀ e, k.volume e = true) (hsk : ∀ f, k.skeleton f = true) (bs : Nat) (hbs : 0 < bs) :
    ∃ blocks, assemble (views r) k = some blocks ∧
      ((nnzAij bs (views r).numLocal (numLocalNb (views r))).length = (elems r).length * bs ∧
       (nnzAij bs (views r).numLocal (numGhostNb (views r))).length = (elems r).length * bs ∧
       ∀ i, i < (elems r).length * bs → ∃ d o,
        (nnzAij bs (views r).numLocal (numLocalNb (views r)))[i]? = some d ∧
        (nnzAij bs (views r).numLocal (numGhostNb (views r)))[i]? = some o ∧
        IsCount d (fun j => (i, j) ∈ scalarEntries bs blocks ∧ j < (elems r).length * bs) ∧
        IsCount o (fun j => (i, j) ∈ scalarEntries bs blocks ∧ (elems r).length * bs ≤ j)) ∧
      ((nnzBaij (views r).numLocal (numLocalNb (views r))).length = (elems r).length ∧
       (nnzBaij (views r).numLocal (numGhostNb (views r))).length = (elems r).length ∧
       ∀ u, u < (elems r).length → ∃ d o,
        (nnzBaij (views r).numLocal (numLocalNb (views r)))[u]? = some d ∧
        (nnzBaij (views r).numLocal (numGhostNb (views r)))[u]? = some o ∧
        IsCount d (fun c => (u, c) ∈ blocks ∧ c < (elems r).length) ∧
        IsCount o (fun c => (u, c) ∈ blocks ∧ (elems r).length ≤ c)) ∧
      ((nnzIS bs (views r).numLocal (views r).elems.length (numLocalNb (views r)) (numGhostNb (views r))).length =
        (views r).elems.length * bs ∧
       ∀ i, i < (views r).elems.length * bs → ∃ n,
        (nnzIS bs (views r).numLocal (views r).elems.length (numLocalNb (views r)) (numGhostNb (views r)))[i]? = some n ∧
        (i < (elems r).length * bs → IsCount n (fun j => (i, j) ∈ scalarEntries bs blocks)) ∧
        ((elems r).length * bs ≤ i → n = 1 ∧ ∀ j, (i, j) ∉ scalarEntries bs blocks)) := by
  have hv := hd.view r hr
  obtain ⟨blocks, h1, h2⟩ := C32_blocks hd r hr k
  obtain ⟨blocks', h1', hrow, _⟩ := C32_sparsity hd r hr k
  obtain rfl := Option.some.inj (h1.symm.trans h1')
  have hdiv : ∀ i n, i < n * bs ↔ i / bs < n := fun i n => (Nat.div_lt_iff_lt_mul hbs).symm
  have hcount : ∀ i, i < (elems r).length * bs →
      IsCount (numLocalNb (views r) (i / bs) * bs) (fun j => (i, j) ∈ scalarEntries bs blocks ∧ j < (elems r).length * bs) ∧
      IsCount (numGhostNb (views r) (i / bs) * bs) (fun j => (i, j) ∈ scalarEntries bs blocks ∧ (elems r).length * bs ≤ j) := by
    intro i hi
    obtain ⟨_, _, h3⟩ := h2 (i / bs) ((hdiv _ _).1 hi)
    obtain ⟨c1, c2⟩ := h3 hvol hsk
    refine ⟨(IsCount_expand bs hbs c1).congr (fun j => ?_), (IsCount_expand bs hbs c2).congr (fun j => ?_)⟩
    · rw [mem_scalarEntries, hdiv]
      exact ⟨fun h => ⟨⟨hbs, h.1⟩, h.2⟩, fun h => ⟨h.1.2, h.2⟩⟩
    · rw [mem_scalarEntries, ← Nat.not_lt, ← Nat.not_lt, hdiv]
      exact ⟨fun h => ⟨⟨hbs, h.1⟩, h.2⟩, fun h => ⟨h.1.2, h.2⟩⟩
  refine ⟨blocks, h1, ⟨?_, ?_, ?_⟩, ⟨?_, ?_, ?_⟩, ?_, ?_⟩
  · rw [(nnzAij_spec _ _ _).1, hv.numLocal]
  · rw [(nnzAij_spec _ _ _).1, hv.numLocal]
  · intro i hi
    obtain ⟨c1, c2⟩ := hcount i hi
    rw [← hv.numLocal] at hi
    exact ⟨_, _, (nnzAij_spec _ _ _).2 i hi, (nnzAij_spec _ _ _).2 i hi, c1, c2⟩
  · rw [nnzBaij_spec, List.length_map, List.length_range, hv.numLocal]
  · rw [nnzBaij_spec, List.length_map, List.length_range, hv.numLocal]
  · intro u hu
    obtain ⟨_, _, h3⟩ := h2 u hu
    obtain ⟨c1, c2⟩ := h3 hvol hsk
    refine ⟨_, _, ?_, ?_, c1, c2⟩
    · rw [nnzBaij_spec, List.getElem?_map, List.getElem?_range (by rw [hv.numLocal]; exact hu)]; rfl
    · rw [nnzBaij_spec, List.getElem?_map, List.getElem?_range (by rw [hv.numLocal]; exact hu)]; rfl
  · exact (nnzIS_spec _ _ _ (numLocal_le hv) _ _).1
  · intro i hi
    obtain ⟨_, s2, s3⟩ := nnzIS_spec bs (views r).numLocal (views r).elems.length (numLocal_le hv)
      (numLocalNb (views r)) (numGhostNb (views r))
    rw [hv.numLocal] at s2 s3
    by_cases hc : i < (elems r).length * bs
    · refine ⟨_, by rw [hv.numLocal]; exact s2 i hc, fun _ => ?_, fun h => by omega⟩
      obtain ⟨c1, c2⟩ := hcount i hc
      rw [Nat.add_mul]
      exact count_sum c1 c2
    · refine ⟨1, by rw [hv.numLocal]; exact s3 i (by omega) hi, fun h => by omega, fun _ => ⟨rfl, ?_⟩⟩
      intro j hj
      rw [mem_scalarEntries] at hj
      have := (hrow _ hj.2).1
      simp only at this
      rw [← hdiv] at this
      omega

end
example : assemble exView ⟨fun _ => true, fun _ => true, fun _ => false, fun _ => false⟩ =
    some [(0, 0), (1, 1), (0, 0), (0, 1), (1, 0), (1, 1), (1, 1), (1, 2)] := by decide
example : numLocalNb exView 1 = 2 ∧ numGhostNb exView 1 = 1 ∧ numGhostNb exView 0 = 0 := by decide
example : nnzAij 2 2 (numLocalNb exView) = [4, 4, 4, 4] ∧ nnzAij 2 2 (numGhostNb exView) = [0, 0, 2, 2] := by decide
example : nnzIS 2 2 3 (numLocalNb exView) (numGhostNb exView) = [4, 4, 6, 6, 1, 1] := by decide

end Tandem.DGTopo
