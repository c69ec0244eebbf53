import Verif.Spec.DGTopo
import Verif.Lemmas.Ghosts2
/-! Basic facts about local views (C31-C33). -/
namespace Tandem.DGTopo
open Tandem.Spec

theorem lt_of_get {α : Type} {l : List α} {i : Nat} {a : α} (h : l[i]? = some a) : i < l.length :=
  (List.getElem?_eq_some_iff.1 h).1

theorem get_inj {α : Type} {l : List α} (hn : l.Nodup) {i j : Nat} {a : α} (hi : l[i]? = some a)
    (hj : l[j]? = some a) : i = j := by
  obtain ⟨x1, x2⟩ := List.getElem?_eq_some_iff.1 hi
  obtain ⟨y1, y2⟩ := List.getElem?_eq_some_iff.1 hj
  exact (List.Nodup.getElem_inj_iff hn).1 (x2.trans y2.symm)

section
variable {P D : Nat} {elems : Nat → List (List Nat)} {num fnum tag : List Nat → Nat} {views : Nat → View}

theorem own_unique (hm : Mesh P D elems) {s t : Nat} (hs : s < P) (ht : t < P) {e : List Nat}
    (h1 : e ∈ elems s) (h2 : e ∈ elems t) : s = t := by
  apply Classical.byContradiction
  intro h
  exact hm.disjoint s t hs ht h e h1 h2

theorem ownerOf_spec {r : Nat} {v : View} (hv : IsLocalMesh P D elems num fnum tag r v) {i : Nat} {e : List Nat}
    (hi : v.elems[i]? = some e) : ownerOf v i < P ∧ e ∈ elems (ownerOf v i) := by
  obtain ⟨q, h1, h2, h3⟩ := hv.owner i e hi
  have : ownerOf v i = q := by unfold ownerOf; rw [List.getD_eq_getElem?_getD, h1]; rfl
  rw [this]; exact ⟨h2, h3⟩

theorem own_iff {r : Nat} (hr : r < P) (hm : Mesh P D elems) {v : View}
    (hv : IsLocalMesh P D elems num fnum tag r v) {i : Nat} {e : List Nat}
    (hi : v.elems[i]? = some e) : (ownerOf v i = r ↔ e ∈ elems r) ∧ (i < v.numLocal ↔ e ∈ elems r) := by
  obtain ⟨h1, h2⟩ := ownerOf_spec hv hi
  refine ⟨⟨fun h => h ▸ h2, fun h => own_unique hm h1 hr h2 h⟩, ?_⟩
  rw [hv.numLocal]
  constructor
  · intro h
    apply hv.ownFirst.mem_iff.1
    apply List.mem_iff_getElem?.2
    exact ⟨i, by rw [List.getElem?_take_of_lt h, hi]⟩
  · intro h
    obtain ⟨j, hj⟩ := List.mem_iff_getElem?.1 (hv.ownFirst.mem_iff.2 h)
    have hjl := lt_of_get hj
    rw [List.length_take] at hjl
    rw [List.getElem?_take_of_lt (by omega)] at hj
    have := get_inj hv.once hi hj
    omega

theorem mem_inElems {r : Nat} {v : View} (hv : IsLocalMesh P D elems num fnum tag r v) {i : Nat} {e : List Nat}
    (hi : v.elems[i]? = some e) : InElems P elems e :=
  ⟨_, (ownerOf_spec hv hi).1, (ownerOf_spec hv hi).2⟩

theorem conforming (hm : Mesh P D elems) {a b c f : List Nat} (ha : InElems P elems a) (hb : InElems P elems b)
    (hc : InElems P elems c) (fa : IsFacet a f) (fb : IsFacet b f) (fc : IsFacet c f) :
    a = b ∨ b = c ∨ a = c := by
  obtain ⟨s, hs, ha⟩ := ha
  obtain ⟨t, ht, hb⟩ := hb
  obtain ⟨u, hu, hc⟩ := hc
  exact hm.conforming s t u hs ht hu a ha b hb c hc f fa fb fc

/-- The elements above a local facet: own element among them; all elements of the mesh with that facet. -/
theorem up_local {r : Nat} (hr : r < P) (hm : Mesh P D elems) {v : View}
    (hv : IsLocalMesh P D elems num fnum tag r v) {i : Nat} (hi : i < v.numLocalFacets) :
    ∃ f us, v.facets[i]? = some f ∧ v.up[i]? = some us ∧ (us.length = 1 ∨ us.length = 2) ∧
      us.Pairwise (· < ·) ∧
      (∀ u ∈ us, ∃ e, v.elems[u]? = some e ∧ IsFacet e f) ∧
      (∃ u ∈ us, ∃ e, v.elems[u]? = some e ∧ IsFacet e f ∧ e ∈ elems r) ∧
      (∀ e, InElems P elems e → IsFacet e f → ∃ u ∈ us, v.elems[u]? = some e) := by
  have hl : i < v.facets.length := Nat.lt_of_lt_of_le hi hv.numLocalFacets
  have hf := List.getElem?_eq_getElem hl
  obtain ⟨us, h1, h2, h3⟩ := hv.up i _ hf
  obtain ⟨e0, he0, hf0⟩ := (hv.localFacets i _ hf).1 hi
  have hall : ∀ e, InElems P elems e → IsFacet e v.facets[i] → ∃ u ∈ us, v.elems[u]? = some e := by
    intro e he hfe
    have : e ∈ v.elems := (hv.exactly e).2 ⟨he, Or.inr ⟨e0, he0, _, hfe, hf0⟩⟩
    obtain ⟨u, hu⟩ := List.mem_iff_getElem?.1 this
    exact ⟨u, (h3 u).2 ⟨e, hu, hfe⟩, hu⟩
  obtain ⟨u0, hu0, hu0'⟩ := hall e0 ⟨r, hr, he0⟩ hf0
  refine ⟨_, us, hf, h1, ?_, h2, fun u hu => (h3 u).1 hu, ⟨u0, hu0, e0, hu0', hf0, he0⟩, hall⟩
  match us, h2, h3, hu0 with
  | [a], _, _, _ => exact Or.inl rfl
  | [a, b], _, _, _ => exact Or.inr rfl
  | a :: b :: c :: rest, hs, h3, _ =>
    exfalso
    obtain ⟨ea, ha, ha'⟩ := (h3 a).1 (by simp)
    obtain ⟨eb, hb, hb'⟩ := (h3 b).1 (by simp)
    obtain ⟨ec, hc, hc'⟩ := (h3 c).1 (by simp)
    have hab : a < b := by rw [List.pairwise_cons] at hs; exact hs.1 b (by simp)
    have hbc : b < c := by
      rw [List.pairwise_cons, List.pairwise_cons] at hs; exact hs.2.1 c (by simp)
    rcases conforming hm (mem_inElems hv ha) (mem_inElems hv hb) (mem_inElems hv hc) ha' hb' hc' with e | e | e
    · have := get_inj hv.once ha (e ▸ hb); omega
    · have := get_inj hv.once hb (e ▸ hc); omega
    · have := get_inj hv.once ha (e ▸ hc); omega

end

theorem otherRank_one (v : View) (a : Nat) : otherRank v [a] =
    if ownerOf v a = v.rank then some (ownerOf v a) else none := by
  simp [otherRank, List.range_succ]

theorem otherRank_two (v : View) (a b : Nat) : otherRank v [a, b] =
    if ownerOf v b = v.rank then some (ownerOf v a) else if ownerOf v a = v.rank then some (ownerOf v b) else none := by
  simp [otherRank, List.range_succ]

section
variable {P D : Nat} {elems : Nat → List (List Nat)} {num fnum tag : List Nat → Nat} {views : Nat → View}

/-- The other rank at a local facet: the ranks with an element at the facet are `r` and it. -/
theorem otherRank_spec {r : Nat} (hr : r < P) (hm : Mesh P D elems) {v : View}
    (hv : IsLocalMesh P D elems num fnum tag r v) {i : Nat} (hi : i < v.numLocalFacets) {f : List Nat}
    (hf : v.facets[i]? = some f) :
    ∃ o, otherRank v (v.up.getD i []) = some o ∧ o < P ∧
      ∀ s, s < P → ((∃ e ∈ elems s, IsFacet e f) ↔ s = r ∨ s = o) := by
  obtain ⟨f', us, h1, h2, h3, h4, h5, h6, h7⟩ := up_local hr hm hv hi
  obtain rfl : f = f' := Option.some.inj (hf.symm.trans h1)
  have hup : v.up.getD i [] = us := by rw [List.getD_eq_getElem?_getD, h2]; rfl
  rw [hup]
  obtain ⟨u, hu, e, heu, hfe, her⟩ := h6
  have hall : ∀ s, s < P → ((∃ e ∈ elems s, IsFacet e f) ↔ ∃ u ∈ us, ownerOf v u = s) := by
    intro s hs
    constructor
    · rintro ⟨e, he, hfe⟩
      obtain ⟨u, hu, hue⟩ := h7 e ⟨s, hs, he⟩ hfe
      obtain ⟨a, b⟩ := ownerOf_spec hv hue
      exact ⟨u, hu, own_unique hm a hs b he⟩
    · rintro ⟨u, hu, rfl⟩
      obtain ⟨e, hue, hfe⟩ := h5 u hu
      exact ⟨e, (ownerOf_spec hv hue).2, hfe⟩
  have hlt : ∀ u ∈ us, ownerOf v u < P := by
    intro u hu
    obtain ⟨e, hue, _⟩ := h5 u hu
    exact (ownerOf_spec hv hue).1
  have hou : ownerOf v u = r := ((own_iff hr hm hv heu).1).2 her
  match us, h3 with
  | [a], _ =>
    simp only [List.mem_singleton] at hu
    subst hu
    refine ⟨r, by rw [otherRank_one, hv.rank, if_pos hou, hou], hr, fun s hs => ?_⟩
    rw [hall s hs]
    simp [hou, eq_comm]
  | [a, b], _ =>
    rw [otherRank_two, hv.rank]
    by_cases hb : ownerOf v b = r
    · rw [if_pos hb]
      refine ⟨_, rfl, hlt a (by simp), fun s hs => ?_⟩
      rw [hall s hs]
      simp only [List.mem_cons, List.not_mem_nil, or_false, exists_eq_or_imp, exists_eq_left, hb]
      constructor
      · rintro (h | h)
        · exact Or.inr h.symm
        · exact Or.inl h.symm
      · rintro (h | h)
        · exact Or.inr h.symm
        · exact Or.inl h.symm
    · have ha : ownerOf v a = r := by
        simp only [List.mem_cons, List.not_mem_nil, or_false] at hu
        rcases hu with rfl | rfl
        · exact hou
        · exact absurd hou hb
      rw [if_neg hb, if_pos ha]
      refine ⟨_, rfl, hlt b (by simp), fun s hs => ?_⟩
      rw [hall s hs]
      simp only [List.mem_cons, List.not_mem_nil, or_false, exists_eq_or_imp, exists_eq_left, ha]
      constructor
      · rintro (h | h)
        · exact Or.inl h.symm
        · exact Or.inr h.symm
      · rintro (h | h)
        · exact Or.inl h.symm
        · exact Or.inr h.symm

end
end Tandem.DGTopo
