import Verif.Model.LocalMesh
import Verif.Props.Faces
import Verif.Props.Simplex
/-! # Property C25: upward and downward incidence -/
namespace Tandem.LocalMesh
open Tandem.LocalFaces Tandem.Spec

variable {σ τ : Type} [DecidableEq σ] [DecidableEq τ]

theorem lookupAll_ok (faces : List σ) (hn : faces.Nodup) : ∀ (ds : List σ), (∀ d ∈ ds, d ∈ faces) →
    lookupAll faces ds = some (ds.map faces.idxOf)
  | [], _ => rfl
  | d :: ds, h => by
    have hd := h d (by simp)
    have : g2l faces d = some (faces.idxOf d) := by
      rw [g2l_iff faces hn]
      rw [List.getElem?_eq_getElem (List.idxOf_lt_length_of_mem hd), List.getElem_idxOf]
    simp [lookupAll, this, lookupAll_ok faces hn ds (fun x hx => h x (by simp [hx]))]

theorem g2l_mem (faces : List σ) (hn : faces.Nodup) (d : σ) (hd : d ∈ faces) :
    g2l faces d = some (faces.idxOf d) := by
  rw [g2l_iff faces hn]
  rw [List.getElem?_eq_getElem (List.idxOf_lt_length_of_mem hd), List.getElem_idxOf]

theorem pushBack_get (map : List (List Nat)) (i u j : Nat) :
    (pushBack map i u)[j]? = if j = i then map[j]?.map (· ++ [u]) else map[j]? := by
  unfold pushBack
  split
  · rename_i h
    split
    · rename_i e; subst e; simp [h]
    · rfl
  · rename_i l h
    rw [List.getElem?_set]
    by_cases e : i = j
    · subst e
      have hl := (List.getElem?_eq_some_iff.1 h).1
      have he := (List.getElem?_eq_some_iff.1 h).2
      simp [hl, he]
    · have e' : j ≠ i := fun x => e x.symm
      simp [e, e']

/-- `count` copies of `u` are appended to the entry of each face `d`, one per occurrence in `ds`. -/
theorem addDown_ok (faces : List σ) (hn : faces.Nodup) (u : Nat) : ∀ (ds : List σ)
    (map : List (List Nat)), (∀ d ∈ ds, d ∈ faces) →
    ∃ m, addDown faces u ds map = some m ∧ ∀ j : Nat,
      m[j]? = map[j]?.map (· ++ List.replicate ((ds.map faces.idxOf).count j) u)
  | [], map, _ => ⟨map, rfl, fun j => by simp⟩
  | d :: ds, map, h => by
    obtain ⟨m, h1, h2⟩ := addDown_ok faces hn u ds (pushBack map (faces.idxOf d) u)
      (fun x hx => h x (by simp [hx]))
    refine ⟨m, by simp [addDown, g2l_mem faces hn d (h d (by simp)), h1], fun j => ?_⟩
    rw [h2 j, pushBack_get]
    rw [List.map_cons, List.count_cons]
    by_cases e : j = faces.idxOf d
    · rw [if_pos e]
      have : (faces.idxOf d == j) = true := by simp [e]
      rw [this, if_pos rfl]
      cases map[j]? with
      | none => rfl
      | some l => simp [List.replicate_succ]
    · rw [if_neg e]
      have : (faces.idxOf d == j) = false := by simp; exact fun x => e x.symm
      rw [this]
      simp

theorem addAll_ok (upFaces : List τ) (hu : upFaces.Nodup) (faces : List σ) (hn : faces.Nodup)
    (down : τ → List σ) : ∀ (fs : List τ) (map : List (List Nat)), (∀ f ∈ fs, f ∈ upFaces) →
    (∀ f ∈ fs, ∀ d ∈ down f, d ∈ faces) →
    ∃ m, addAll upFaces faces down fs map = some m ∧ ∀ j : Nat,
      m[j]? = map[j]?.map (· ++ fs.flatMap (fun f =>
        List.replicate (((down f).map faces.idxOf).count j) (upFaces.idxOf f)))
  | [], map, _, _ => ⟨map, rfl, fun j => by simp⟩
  | f :: fs, map, h, hd => by
    obtain ⟨m1, a1, a2⟩ := addDown_ok faces hn (upFaces.idxOf f) (down f) map (hd f (by simp))
    obtain ⟨m, b1, b2⟩ := addAll_ok upFaces hu faces hn down fs m1 (fun x hx => h x (by simp [hx]))
      (fun x hx => hd x (by simp [hx]))
    refine ⟨m, by simp [addAll, g2l_mem upFaces hu f (h f (by simp)), a1, b1], fun j => ?_⟩
    rw [b2 j, a2 j]
    cases map[j]? with
    | none => rfl
    | some l => simp

/-- C25: for a local mesh whose face table contains all faces of all (DD+1)-faces, building the upward
map succeeds, `downward` succeeds for every local number, and `u` is listed above `i` exactly if `i` is
listed below `u`; the upward lists are ascending without repetition. -/
theorem C25_incidence (upFaces : List τ) (hu : upFaces.Nodup) (downFaces : List σ) (hn : downFaces.Nodup)
    (down : τ → List σ) (hdn : ∀ f ∈ upFaces, (down f).Nodup)
    (hclosed : ∀ f ∈ upFaces, ∀ d ∈ down f, d ∈ downFaces) :
    ∃ up : List (List Nat), makeUpwardMap upFaces downFaces down = some up ∧
      up.length = downFaces.length ∧
      (∀ u, u < upFaces.length → ∃ ds, downward upFaces downFaces down u = some ds) ∧
      (∀ (i : Nat) (us : List Nat), up[i]? = some us → us.Pairwise (· < ·) ∧
        ∀ u, u ∈ us ↔ ∃ ds, downward upFaces downFaces down u = some ds ∧ i ∈ ds) ∧
      (∀ (u : Nat) (f : τ) (ds : List Nat), upFaces[u]? = some f →
        downward upFaces downFaces down u = some ds →
        ds.map (fun i => downFaces[i]?) = (down f).map some) := by
  obtain ⟨m, h1, h2⟩ := addAll_ok upFaces hu downFaces hn down upFaces
    (List.replicate downFaces.length []) (fun _ h => h) hclosed
  have hdown : ∀ u f, upFaces[u]? = some f →
      downward upFaces downFaces down u = some ((down f).map downFaces.idxOf) := by
    intro u f hf
    unfold downward
    rw [hf]
    exact lookupAll_ok downFaces hn (down f) (hclosed f (List.mem_iff_getElem?.2 ⟨u, hf⟩))
  have hcount : ∀ f ∈ upFaces, ∀ i, ((down f).map downFaces.idxOf).count i =
      if i ∈ (down f).map downFaces.idxOf then 1 else 0 := by
    intro f hf i
    apply List.Nodup.count
    refine List.Nodup.map_on ?_ (hdn f hf)
    intro a ha b hb e
    have h1 := List.getElem_idxOf (List.idxOf_lt_length_of_mem (hclosed f hf a ha))
    have h2 := List.getElem_idxOf (List.idxOf_lt_length_of_mem (hclosed f hf b hb))
    rw [← h1, ← h2]; congr 1
  refine ⟨m, h1, ?_, ?_, ?_, ?_⟩
  · have key : ∀ j : Nat, j < m.length ↔ j < downFaces.length := by
      intro j
      have h3 : m[j]?.isSome ↔ j < m.length := by simp
      rw [← h3, h2 j]
      by_cases hj : j < downFaces.length <;> simp [List.getElem?_replicate, hj]
    have a := key m.length
    have b := key downFaces.length
    omega
  · intro u hlt
    exact ⟨_, hdown u _ (List.getElem?_eq_getElem hlt)⟩
  · intro i us hi
    rw [h2 i] at hi
    have hil : i < downFaces.length := by
      apply Classical.byContradiction; intro hc
      rw [List.getElem?_eq_none (by simpa using hc)] at hi
      simp at hi
    have hi' : us = upFaces.flatMap (fun f =>
        List.replicate (((down f).map downFaces.idxOf).count i) (upFaces.idxOf f)) := by
      rw [List.getElem?_replicate, if_pos hil] at hi
      simpa using hi.symm
    have hi2 : us = (upFaces.filter (fun f => i ∈ (down f).map downFaces.idxOf)).map upFaces.idxOf := by
      rw [hi', ← Faces.flatMap_ite, List.map_flatMap]
      apply List.flatMap_congr
      intro f hf
      rw [hcount f hf i]
      split <;> simp
    constructor
    · rw [hi2, List.pairwise_map]
      have : upFaces.Pairwise (fun a b => upFaces.idxOf a < upFaces.idxOf b) := by
        rw [List.pairwise_iff_getElem]
        intro a b ha hb hab
        rw [List.Nodup.idxOf_getElem hu, List.Nodup.idxOf_getElem hu]; exact hab
      exact this.filter _
    · intro u
      rw [hi2, List.mem_map]
      constructor
      · rintro ⟨f, hf, rfl⟩
        rw [List.mem_filter] at hf
        refine ⟨_, hdown _ f ?_, by simpa using hf.2⟩
        rw [List.getElem?_eq_getElem (List.idxOf_lt_length_of_mem hf.1), List.getElem_idxOf]
      · rintro ⟨ds, hds, hm⟩
        cases hf : upFaces[u]? with
        | none => simp [downward, hf] at hds
        | some f =>
          rw [hdown u f hf] at hds
          have hds' := Option.some.inj hds
          obtain ⟨hlt, he⟩ := List.getElem?_eq_some_iff.1 hf
          refine ⟨f, List.mem_filter.2 ⟨List.mem_iff_getElem?.2 ⟨u, hf⟩, by rw [hds']; simpa using hm⟩, ?_⟩
          rw [← he, List.Nodup.idxOf_getElem hu]
  · intro u f ds hf hds
    rw [hdown u f hf] at hds
    rw [← Option.some.inj hds, List.map_map]
    apply List.map_congr_left
    intro d hd
    have hm := hclosed f (List.mem_iff_getElem?.2 ⟨u, hf⟩) d hd
    show downFaces[downFaces.idxOf d]? = some d
    rw [List.getElem?_eq_getElem (List.idxOf_lt_length_of_mem hm), List.getElem_idxOf]

/-- If every facet belongs to at most two elements, no upward list is longer than two; it is never
empty for a facet of some element. -/
theorem C25_one_or_two (upFaces : List τ) (hu : upFaces.Nodup) (downFaces : List σ) (hn : downFaces.Nodup)
    (down : τ → List σ) (hdn : ∀ f ∈ upFaces, (down f).Nodup)
    (hclosed : ∀ f ∈ upFaces, ∀ d ∈ down f, d ∈ downFaces)
    (hused : ∀ d ∈ downFaces, ∃ f ∈ upFaces, d ∈ down f)
    (hconf : ∀ a b c d, a ∈ upFaces → b ∈ upFaces → c ∈ upFaces → d ∈ down a → d ∈ down b → d ∈ down c →
      a = b ∨ b = c ∨ a = c)
    (up : List (List Nat)) (h : makeUpwardMap upFaces downFaces down = some up) (us : List Nat)
    (hus : us ∈ up) : us.length = 1 ∨ us.length = 2 := by
  obtain ⟨up', h1, h2, h3, h4, h5⟩ := C25_incidence upFaces hu downFaces hn down hdn hclosed
  have e : up = up' := Option.some.inj (h.symm.trans h1)
  subst e
  obtain ⟨i, hi⟩ := List.mem_iff_getElem?.1 hus
  have hil : i < downFaces.length := h2 ▸ (List.getElem?_eq_some_iff.1 hi).1
  obtain ⟨hsorted, hmem⟩ := h4 i us hi
  have hface : ∀ u ∈ us, ∃ f, upFaces[u]? = some f ∧ downFaces[i] ∈ down f := by
    intro u hu'
    obtain ⟨ds, hds, him⟩ := (hmem u).1 hu'
    cases hf : upFaces[u]? with
    | none => simp [downward, hf] at hds
    | some f =>
      have := h5 u f ds hf hds
      have hm : downFaces[i]? ∈ (down f).map some := by
        rw [← this]; exact List.mem_map.2 ⟨i, him, rfl⟩
      rw [List.getElem?_eq_getElem hil] at hm
      exact ⟨f, rfl, by simpa using hm⟩
  have hpos : us ≠ [] := by
    obtain ⟨f, hf, hd⟩ := hused downFaces[i] (List.getElem_mem hil)
    obtain ⟨u, hu'⟩ := List.mem_iff_getElem?.1 hf
    obtain ⟨ds, hds⟩ := h3 u (List.getElem?_eq_some_iff.1 hu').1
    have hmap := h5 u f ds hu' hds
    have : some downFaces[i] ∈ ds.map (fun i => downFaces[i]?) := by
      rw [hmap]; exact List.mem_map.2 ⟨_, hd, rfl⟩
    obtain ⟨j, hj, hje⟩ := List.mem_map.1 this
    obtain ⟨hjl, hje'⟩ := List.getElem?_eq_some_iff.1 hje
    have hij : j = i := (List.Nodup.getElem_inj_iff hn).1 hje'
    subst hij
    exact List.ne_nil_of_mem ((hmem u).2 ⟨ds, hds, hj⟩)
  match us, hpos, hsorted, hface with
  | [a], _, _, _ => exact Or.inl rfl
  | [a, b], _, _, _ => exact Or.inr rfl
  | a :: b :: c :: rest, _, hs, hface =>
    exfalso
    obtain ⟨fa, ha, ha'⟩ := hface a (by simp)
    obtain ⟨fb, hb, hb'⟩ := hface b (by simp)
    obtain ⟨fc, hc, hc'⟩ := hface c (by simp)
    have hab : a < b := by rw [List.pairwise_cons] at hs; exact hs.1 b (by simp)
    have hbc : b < c := by
      rw [List.pairwise_cons, List.pairwise_cons] at hs; exact hs.2.1 c (by simp)
    have inj : ∀ (x y : Nat) (f : τ), upFaces[x]? = some f → upFaces[y]? = some f → x = y := by
      intro x y f hx hy
      obtain ⟨x1, x2⟩ := List.getElem?_eq_some_iff.1 hx
      obtain ⟨y1, y2⟩ := List.getElem?_eq_some_iff.1 hy
      exact (List.Nodup.getElem_inj_iff hu).1 (x2.trans y2.symm)
    have mem : ∀ (x : Nat) (f : τ), upFaces[x]? = some f → f ∈ upFaces := fun x f hx =>
      List.mem_iff_getElem?.2 ⟨x, hx⟩
    rcases hconf fa fb fc _ (mem a fa ha) (mem b fb hb) (mem c fc hc) ha' hb' hc' with e | e | e
    · have := inj a b fa ha (e ▸ hb); omega
    · have := inj b c fb hb (e ▸ hc); omega
    · have := inj a c fa ha (e ▸ hc); omega

/-- The closure hypothesis of `C25_incidence` holds in every local mesh: the faces of dimension `k` and
`k+1` are exactly those of the elements, and a face of a face is a face. -/
theorem C25_closed (elems : List (List Nat)) (k : Nat) (upFaces downFaces : List (List Nat))
    (hup : ∀ f, f ∈ upFaces ↔ ∃ e ∈ elems, Simplex.IsFace e (k + 1) f)
    (hdown : ∀ f, f ∈ downFaces ↔ ∃ e ∈ elems, Simplex.IsFace e k f) :
    (∀ f ∈ upFaces, ∀ d, Simplex.IsFace f k d → d ∈ downFaces) ∧
    ((∀ e ∈ elems, e.Pairwise (· < ·) ∧ k + 1 < e.length) →
      ∀ d ∈ downFaces, ∃ f ∈ upFaces, Simplex.IsFace f k d) := by
  constructor
  · intro f hf d hd
    obtain ⟨e, he, h1, h2, h3⟩ := (hup f).1 hf
    exact (hdown d).2 ⟨e, he, hd.1, hd.2.1, fun v hv => h3 v (hd.2.2 v hv)⟩
  · intro hel d hd
    obtain ⟨e, he, h1, h2, h3⟩ := (hdown d).1 hd
    obtain ⟨hs, hlen⟩ := hel e he
    -- a vertex of `e` outside `d`
    have hex : ∃ v ∈ e, v ∉ d := by
      apply Classical.byContradiction
      intro hc
      have hsub : e ⊆ d := fun v hv => by
        apply Classical.byContradiction; intro h; exact hc ⟨v, hv, h⟩
      have := (List.Nodup.subperm (List.Pairwise.imp (fun h => Nat.ne_of_lt h) hs) hsub).length_le
      omega
    obtain ⟨v, hv, hvd⟩ := hex
    have hmem : ∀ w, w ∈ Simplex.mk (v :: d) ↔ w = v ∨ w ∈ d := by
      intro w; rw [(Simplex.C20_mk_sorted (v :: d)).1.mem_iff]; simp
    have hnd : (v :: d).Nodup := by
      rw [List.nodup_cons]; exact ⟨hvd, List.Pairwise.imp (fun h => Nat.ne_of_lt h) h2⟩
    have hndm : (Simplex.mk (v :: d)).Nodup := (Simplex.C20_mk_sorted (v :: d)).1.nodup_iff.2 hnd
    refine ⟨Simplex.mk (v :: d), (hup _).2 ⟨e, he, ?_, ?_, ?_⟩, h1, h2, fun w hw => (hmem w).2 (Or.inr hw)⟩
    · rw [(Simplex.C20_mk_sorted (v :: d)).1.length_eq]; simp [h1]
    · exact List.Pairwise.imp₂ (fun a b h1 h2 => Nat.lt_of_le_of_ne h1 h2)
        (Simplex.C20_mk_sorted (v :: d)).2 hndm
    · intro w hw
      rcases (hmem w).1 hw with rfl | h
      · exact hv
      · exact h3 w h

/-- Two triangles sharing an edge. -/
example : makeUpwardMap [[0, 1, 2], [1, 2, 3]] [[0, 1], [0, 2], [1, 2], [1, 3], [2, 3]]
    (fun f => (Simplex.downward 10 2 1 f).getD []) = some [[0], [0], [0, 1], [1], [1]] := by
  decide +kernel

end Tandem.LocalMesh
