import Verif.Lemmas.DGTopo
import Verif.Props.Ghosts
import Verif.Props.Faces
import Verif.Props.LocalMesh
import Verif.Props.Probes
/-! # The local meshes computed by the library are views of the distributed mesh (used by C31-C33) -/
namespace Tandem.DGTopo
open Tandem.Spec
open Tandem.Ghosts (Env Elem Facet ghostElements elemSharedRanks)
open Tandem.Faces (getFaces SortedBy)

theorem near_one {P : Nat} {elems : Nat → List (List Nat)} {r : Nat} (hr : r < P) (e : List Nat) :
    Near P elems (elems r) 1 e ↔ InElems P elems e ∧ Holds elems r e := by
  constructor
  · rintro (h | ⟨h1, e', h2, h3⟩)
    · exact ⟨⟨r, hr, h⟩, Or.inl h⟩
    · exact ⟨h1, Or.inr ⟨e', h2, h3⟩⟩
  · rintro ⟨h1, h2 | ⟨e', h2, h3⟩⟩
    · exact Or.inl h2
    · exact Or.inr ⟨h1, e', h2, h3⟩

/-- An own element is in the copy layer exactly if another rank holds it; interior elements come first. -/
theorem interior_first (env : Env) (elems : Nat → List Elem) (hm : Mesh env.P env.D elems)
    (he : EnvOk env elems) (r : Nat) (hr : r < env.P) (i j : Nat) (ei ej : Elem) (hij : i < j)
    (hi : (Ghosts.S env elems 1 r)[i]? = some ei) (hj : (Ghosts.S env elems 1 r)[j]? = some ej)
    (h : ∀ s, s < env.P → s ≠ r → ¬ Holds elems s ej) : ∀ s, s < env.P → s ≠ r → ¬ Holds elems s ei := by
  have hS : Ghosts.S env elems 1 r =
      ((List.range (elems r).length).filter (fun i => i ∉ Ghosts.copySet env elems r 0)).filterMap
        (fun k => (elems r)[k]?) ++
      ((List.range (elems r).length).filter (fun i => i ∈ Ghosts.copySet env elems r 0)).filterMap
        (fun k => (elems r)[k]?) := by
    show Ghosts.sortInteriorCopy env elems 1 r = _
    unfold Ghosts.sortInteriorCopy
    rw [Ghosts.permuted_eq _ _ (Ghosts.elNos_isPerm _ _)]
    unfold Ghosts.elNos
    rw [List.filterMap_append]
  rw [hS] at hi hj
  set A := ((List.range (elems r).length).filter (fun i => i ∉ Ghosts.copySet env elems r 0)).filterMap
        (fun k => (elems r)[k]?) with hA
  set B := ((List.range (elems r).length).filter (fun i => i ∈ Ghosts.copySet env elems r 0)).filterMap
        (fun k => (elems r)[k]?) with hB
  have hjA : j < A.length := by
    apply Classical.byContradiction
    intro hc
    rw [List.getElem?_append_right (by omega)] at hj
    have := List.mem_of_getElem? hj
    rw [hB, List.mem_filterMap] at this
    obtain ⟨k, hk, hke⟩ := this
    have hk' : k ∈ Ghosts.copySet env elems r 0 := by simpa using (List.mem_filter.1 hk).2
    obtain ⟨e, he1, s, hs, hne, hnear⟩ := (Ghosts.mem_copySet env elems hm he r hr 0 k).1 hk'
    rw [he1] at hke
    have := Option.some.inj hke
    subst this
    exact h s hs hne ((near_one hs e).1 hnear).2
  rw [List.getElem?_append_left (by omega)] at hi
  have := List.mem_of_getElem? hi
  rw [hA, List.mem_filterMap] at this
  obtain ⟨k, hk, hke⟩ := this
  have hk' : k ∉ Ghosts.copySet env elems r 0 := by simpa using (List.mem_filter.1 hk).2
  intro s hs hne hh
  apply hk'
  refine (Ghosts.mem_copySet env elems hm he r hr 0 k).2 ⟨ei, hke, s, hs, hne, ?_⟩
  exact (near_one hs ei).2 ⟨⟨r, hr, List.mem_of_getElem? hke⟩, hh⟩

/-- For every conforming mesh of dimension at least two, distributed over `P` ranks, `getLocalMesh(1)`
succeeds on every rank and yields views of one distributed mesh; `val p f` is the boundary condition the
rendezvous rank `p` has for facet `f` (see C30). -/
theorem C33_local_meshes (env : Env) (elems : Nat → List Elem) (hm : Mesh env.P env.D elems)
    (he : EnvOk env elems) (htot : offset elems env.P < 2 ^ 64) (val : Nat → Facet → Nat)
    (perm : Nat → List Nat)
    (hp : ∀ r, r < env.P → SortedBy env.P env.plex2rank (facetLists env elems) (fun s => (elems s).length) none
      (some val) r (perm r)) :
    ∃ (num fnum : List Nat → Nat) (views : Nat → View),
      IsDistributed env.P env.D elems num fnum (fun f => val (env.plex2rank f) f) views ∧
      ∀ r, r < env.P → ∃ lf, getFaces env.P env.plex2rank (facetLists env elems) (fun s => (elems s).length) none
        (some val) (perm r) r = some lf ∧ localView env elems r lf = some (views r) := by
  have hmemf : ∀ s, s < env.P → ∀ e ∈ (ghostElements env elems 1 s).1, InElems env.P elems e := by
    intro s hs e hin
    obtain ⟨_, _, h⟩ := Ghosts.C23_ghost_elements env elems hm he htot 1
    exact ((near_one hs e).1 (((h s hs).2.1 e).1 hin)).1
  have hdw : ∀ s, s < env.P → ∀ f, (∃ el ∈ facetLists env elems s, f ∈ el) ↔
      ∃ e ∈ (ghostElements env elems 1 s).1, IsFacet e f := by
    intro s hs f
    unfold facetLists
    constructor
    · rintro ⟨el, hel, hf⟩
      obtain ⟨e, hin, rfl⟩ := List.mem_map.1 hel
      exact ⟨e, hin, (Ghosts.mem_facets env elems hm e (hmemf s hs e hin) f).1 hf⟩
    · rintro ⟨e, hin, hf⟩
      exact ⟨_, List.mem_map.2 ⟨e, hin, rfl⟩, (Ghosts.mem_facets env elems hm e (hmemf s hs e hin) f).2 hf⟩
  have hh : ∀ f, InMesh env.P (facetLists env elems) f → env.plex2rank f < env.P := by
    rintro f ⟨s, hs, hx⟩
    obtain ⟨e, hin, hf⟩ := (hdw s hs f).1 hx
    obtain ⟨t, ht, het⟩ := hmemf s hs e hin
    exact he.rank t ht e het f hf
  obtain ⟨fnum, F, hinj, _, hfaces⟩ := Faces.C22_faces (δ := Nat) env.P env.plex2rank (facetLists env elems)
    (fun s => (elems s).length) hh (some val)
  have hone : ∀ s, s < env.P → ∀ e, e ∈ elems s → e ∈ (ghostElements env elems 1 s).1 := by
    intro s hs e hin
    exact (Ghosts.C23_overlap_one env elems hm he htot s hs e).2 (Or.inl hin)
  have hfacts : ∀ r, r < env.P → ∃ v, (∃ lf, getFaces env.P env.plex2rank (facetLists env elems)
      (fun s => (elems s).length) none (some val) (perm r) r = some lf ∧ localView env elems r lf = some v) ∧
      IsLocalMesh env.P env.D elems (Ghosts.G env elems 1) fnum (fun f => val (env.plex2rank f) f) r v := by
    intro r hr
    obtain ⟨lf, hlf, t_once, t_exactly, _, t_interior, _, t_gidOf, _, _, t_dataOf, t_localSize⟩ := hfaces r hr (perm r) (hp r hr)
    obtain ⟨g1, g2, g3, g4, g5, g6⟩ := Ghosts.final_spec env elems hm he htot 1 r (by omega) hr
    obtain ⟨num', _, hg⟩ := Ghosts.C23_ghost_elements env elems hm he htot 1
    obtain ⟨_, _, hperm, _, hgids, hlen, howner, _⟩ := hg r hr
    obtain ⟨sh, hsh, hs1, hs2⟩ := Ghosts.C23_shared_ranks env elems hm he htot 1 r hr
    obtain ⟨d, hd, hdv⟩ := t_dataOf val rfl
    set E := (ghostElements env elems 1 r).1 with hE
    have hvalid : ∀ e ∈ E, (Ghosts.facets env.D e).Nodup ∧ (Ghosts.facets env.D e).length = env.D + 1 ∧
        ∀ f, f ∈ Ghosts.facets env.D e ↔ IsFacet e f := by
      intro e hin
      obtain ⟨s, hs, hes⟩ := hmemf r hr e hin
      have h1 := hm.size s hs e hes
      have h2 := hm.sorted s hs e hes
      have h3 := Ghosts.facets_spec env.D hm.dim e h1 h2
      refine ⟨h3.1, ?_, h3.2⟩
      have hD := hm.dim
      unfold Ghosts.facets
      obtain ⟨out, ho, hol, _⟩ := Simplex.C20_facet_opposite env.D (by omega) e h1 (env.D + 1) (by omega)
      rw [ho, Option.getD_some, hol]
    have hclosed : ∀ e ∈ E, ∀ f ∈ Ghosts.facets env.D e, f ∈ lf.faces := by
      intro e hin f hf
      exact (t_exactly f).2 ⟨_, List.mem_map.2 ⟨e, hin, rfl⟩, hf⟩
    obtain ⟨up, hup, huplen, hdown, hups, hdowns⟩ := LocalMesh.C25_incidence E g1 lf.faces t_once
      (Ghosts.facets env.D) (fun e hin => (hvalid e hin).1) hclosed
    have hdownAll : (List.range E.length).mapM (LocalMesh.downward E lf.faces (Ghosts.facets env.D)) =
        some ((List.range E.length).map (fun u => (LocalMesh.downward E lf.faces (Ghosts.facets env.D) u).getD [])) := by
      apply Probes.mapM_all
      intro u hu
      obtain ⟨ds, hds⟩ := hdown u (by simpa using hu)
      rw [hds]; rfl
    have hshared : ∀ (i : Nat) (e : Elem), E[i]? = some e →
        LocalFaces.getSharedRanks (⟨E, (ghostElements env elems 1 r).2.2, (ghostElements env elems 1 r).2.1,
          (elems r).length, (elemSharedRanks env elems 1 r).1, (elemSharedRanks env elems 1 r).2, none, none⟩ :
          LocalFaces.LocalFaces Elem Nat) i = sh e := by
      intro i e hi
      unfold LocalFaces.getSharedRanks
      simp only
      rw [hs1, hs2]
      exact Faces.flatMap_slice' sh E i e hi _ rfl
    have hdownMem : ∀ (u : Nat) (e : Elem), E[u]? = some e → ∃ ds,
        LocalMesh.downward E lf.faces (Ghosts.facets env.D) u = some ds ∧
        ds.length = env.D + 1 ∧ ds.Nodup ∧ ∀ i, i ∈ ds ↔ ∃ f, lf.faces[i]? = some f ∧ IsFacet e f := by
      intro u e hu
      obtain ⟨ds, hds⟩ := hdown u (lt_of_get hu)
      have hmap := hdowns u e ds hu hds
      obtain ⟨v1, v2, v3⟩ := hvalid e (List.mem_of_getElem? hu)
      refine ⟨ds, hds, ?_, ?_, ?_⟩
      · have := congrArg List.length hmap
        simpa [v2] using this
      · have : (ds.map (fun i => lf.faces[i]?)).Nodup := by
          rw [hmap]
          exact v1.map (fun a b h => Option.some.inj h)
        exact List.Nodup.of_map _ this
      · intro i
        constructor
        · intro hi
          have : lf.faces[i]? ∈ (Ghosts.facets env.D e).map some := by
            rw [← hmap]; exact List.mem_map.2 ⟨i, hi, rfl⟩
          obtain ⟨f, hf, hfe⟩ := List.mem_map.1 this
          exact ⟨f, hfe.symm, (v3 f).1 hf⟩
        · rintro ⟨f, hf, hfe⟩
          have : some f ∈ ds.map (fun i => lf.faces[i]?) := by
            rw [hmap]; exact List.mem_map.2 ⟨f, (v3 f).2 hfe, rfl⟩
          obtain ⟨j, hj, hje⟩ := List.mem_map.1 this
          have := get_inj t_once hf hje
          exact this ▸ hj
    refine ⟨⟨r, E, (elems r).length, (ghostElements env elems 1 r).2.2, (ghostElements env elems 1 r).2.1,
      (List.range E.length).map (LocalFaces.getSharedRanks (⟨E, (ghostElements env elems 1 r).2.2,
          (ghostElements env elems 1 r).2.1,
          (elems r).length, (elemSharedRanks env elems 1 r).1, (elemSharedRanks env elems 1 r).2, none, none⟩ :
          LocalFaces.LocalFaces Elem Nat)),
      lf.faces, lf.localSize, lf.gids, d, up,
      (List.range E.length).map (fun u => (LocalMesh.downward E lf.faces (Ghosts.facets env.D) u).getD [])⟩,
      ⟨lf, hlf, ?_⟩, ?_⟩
    · unfold localView
      simp only [hd, hup, hdownAll, Option.bind_eq_bind, Option.bind_some, ← hE]
      rfl
    · have hshared' : ∀ (i : Nat) (e : Elem), E[i]? = some e →
          ((List.range E.length).map (LocalFaces.getSharedRanks (⟨E, (ghostElements env elems 1 r).2.2,
          (ghostElements env elems 1 r).2.1,
          (elems r).length, (elemSharedRanks env elems 1 r).1, (elemSharedRanks env elems 1 r).2, none, none⟩ :
          LocalFaces.LocalFaces Elem Nat)))[i]? = some (sh e) := by
        intro i e hi
        rw [List.getElem?_map, List.getElem?_range (lt_of_get hi), Option.map_some, hshared i e hi]
      have hshmem : ∀ e ∈ E, ∀ s, s ∈ sh e ↔ s < env.P ∧ s ≠ r ∧ Holds elems s e := by
        intro e hin s
        rw [(hsh e hin).2 s]
        constructor
        · rintro ⟨a, b, c⟩
          obtain ⟨_, _, h⟩ := Ghosts.C23_ghost_elements env elems hm he htot 1
          exact ⟨a, b, ((near_one a e).1 (((h s a).2.1 e).1 c)).2⟩
        · rintro ⟨a, b, c⟩
          obtain ⟨_, _, h⟩ := Ghosts.C23_ghost_elements env elems hm he htot 1
          exact ⟨a, b, ((h s a).2.1 e).2 ((near_one a e).2 ⟨hmemf r hr e hin, c⟩)⟩
      refine ⟨rfl, rfl, hperm, g1, ?_, ?_, g4, hgids, g6, ?_, ?_, t_once, ?_, ?_, t_localSize,
        t_gidOf, ?_, ?_, ?_⟩
      · intro e
        rw [← near_one hr e]; exact g2 e
      · intro i e hi
        have hl : i < (ghostElements env elems 1 r).2.2.length := by rw [hlen]; exact lt_of_get hi
        have := howner i e _ hi (List.getElem?_eq_getElem hl)
        exact ⟨_, List.getElem?_eq_getElem hl, this.1, this.2⟩
      · intro i e hi
        exact ⟨sh e, hshared' i e hi, (hsh e (List.mem_of_getElem? hi)).1, hshmem e (List.mem_of_getElem? hi)⟩
      · intro i j hij hj hempty
        have hlenE : (elems r).length ≤ E.length := by
          have h1 := hperm.length_eq
          rw [List.length_take] at h1
          omega
        have hj' := List.getElem?_eq_getElem (l := E) (i := j) (by omega)
        have hi' := List.getElem?_eq_getElem (l := E) (i := i) (by omega)
        have e1 := hshared' i _ hi'
        have e2 := hshared' j _ hj'
        have hshj : sh E[j] = [] := Option.some.inj (e2.symm.trans hempty)
        have hSi : (Ghosts.S env elems 1 r)[i]? = some (E[i]'(by omega)) := by
          rw [← g3, List.getElem?_take_of_lt (by omega)]; exact hi'
        have hSj : (Ghosts.S env elems 1 r)[j]? = some (E[j]'(by omega)) := by
          rw [← g3, List.getElem?_take_of_lt (by omega)]; exact hj'
        have := interior_first env elems hm he r hr i j _ _ hij hSi hSj (by
          intro s hs hne hh
          have : s ∈ sh E[j] := (hshmem _ (List.getElem_mem _) s).2 ⟨hs, hne, hh⟩
          rw [hshj] at this
          simp at this)
        refine e1.trans ?_
        congr 1
        rw [List.eq_nil_iff_forall_not_mem]
        intro s hs
        obtain ⟨a, b, c⟩ := (hshmem _ (List.getElem_mem _) s).1 hs
        exact this s a b c
      · intro f
        show f ∈ lf.faces ↔ _
        rw [t_exactly f, hdw r hr f]
      · intro i f hi
        show i < lf.localSize ↔ _
        rw [t_interior i f hi]
        have htake : (facetLists env elems r).take (elems r).length =
            (E.take (elems r).length).map (Ghosts.facets env.D) := by
          unfold facetLists
          rw [List.map_take]
        rw [htake]
        constructor
        · rintro ⟨el, hel, hf⟩
          obtain ⟨e, hin, rfl⟩ := List.mem_map.1 hel
          have hin' := hperm.mem_iff.1 hin
          exact ⟨e, hin', ((hvalid e (hone r hr e hin')).2.2 f).1 hf⟩
        · rintro ⟨e, hin, hf⟩
          exact ⟨_, List.mem_map.2 ⟨e, hperm.mem_iff.2 hin, rfl⟩, ((hvalid e (hone r hr e hin)).2.2 f).2 hf⟩
      · intro i f hi
        exact hdv i f hi
      · intro i f hi
        have hl : i < up.length := by rw [huplen]; exact lt_of_get hi
        obtain ⟨h1, h2⟩ := hups i _ (List.getElem?_eq_getElem hl)
        refine ⟨_, List.getElem?_eq_getElem hl, h1, ?_⟩
        intro u
        rw [h2 u]
        constructor
        · rintro ⟨ds, hds, him⟩
          cases hu : E[u]? with
          | none => simp [LocalMesh.downward, hu] at hds
          | some e =>
            obtain ⟨ds', hds', _, _, hm'⟩ := hdownMem u e hu
            have : ds = ds' := Option.some.inj (hds.symm.trans hds')
            subst this
            obtain ⟨f', hf', hfe⟩ := (hm' i).1 him
            have : f' = f := Option.some.inj (hf'.symm.trans hi)
            subst this
            exact ⟨e, rfl, hfe⟩
        · rintro ⟨e, hu, hfe⟩
          obtain ⟨ds, hds, _, _, hm'⟩ := hdownMem u e hu
          exact ⟨ds, hds, (hm' i).2 ⟨f, hi, hfe⟩⟩
      · intro u e hu
        obtain ⟨ds, hds, h1, h2, h3⟩ := hdownMem u e hu
        refine ⟨ds, ?_, h1, h2, h3⟩
        show ((List.range E.length).map _)[u]? = _
        rw [List.getElem?_map, List.getElem?_range (lt_of_get hu), Option.map_some, hds]; rfl
  classical
  refine ⟨Ghosts.G env elems 1, fnum, fun r => if h : r < env.P then (hfacts r h).choose else ⟨0, [], 0, [], [], [], [], 0, [], [], [], []⟩,
    ⟨hm, Ghosts.G_inj env elems hm 1, ?_, ?_⟩, ?_⟩
  · intro e e' f f' hein hein' hf hf' heq
    obtain ⟨s, hs, h1⟩ := hein
    obtain ⟨s', hs', h1'⟩ := hein'
    exact hinj f f' ⟨s, hs, (hdw s hs f).2 ⟨e, hone s hs e h1, hf⟩⟩ ⟨s', hs', (hdw s' hs' f').2 ⟨e', hone s' hs' e' h1', hf'⟩⟩ heq
  · intro r hr
    simp only [hr, dif_pos]
    exact (hfacts r hr).choose_spec.2
  · intro r hr
    simp only [hr, dif_pos]
    exact (hfacts r hr).choose_spec.1

/-- A permutation as `std::sort` computes it always exists. -/
theorem sortedBy_exists {σ δ : Type} [LinearOrder σ] (P : Nat) (h : σ → Nat) (dw : Nat → List (List σ))
    (own : Nat → Nat) (vno : Option (σ → Nat)) (val : Option (Nat → σ → δ)) (r : Nat) :
    ∃ perm, SortedBy P h dw own vno val r perm := by
  have h1 := Ghosts.sortIdx_spec (α := Nat) (· ≤ ·) Nat.le_total (fun _ _ _ => Nat.le_trans) 0
    ((List.range (Faces.unsorted P h dw own vno val r).faces.length).map
      (Faces.sortKey (dw r) (Faces.unsorted P h dw own vno val r)))
  obtain ⟨h1, h2⟩ := h1
  rw [List.length_map, List.length_range] at h1
  refine ⟨_, h1, ?_⟩
  rw [List.pairwise_map]
  refine List.Pairwise.imp_of_mem ?_ h2
  intro a b ha hb hab
  have ha' := h1.2.1 a ha
  have hb' := h1.2.1 b hb
  apply hab
  · rw [List.getElem?_map, List.getElem?_range ha']; rfl
  · rw [List.getElem?_map, List.getElem?_range hb']; rfl

theorem mapM_get {α β : Type} (f : α → Option β) : ∀ (l : List α) (ys : List β), l.mapM f = some ys →
    ∀ (i : Nat) (a : α), l[i]? = some a → ∃ y, ys[i]? = some y ∧ f a = some y
  | [], ys, h, i, a, hi => by simp at hi
  | b :: l, ys, h, i, a, hi => by
    rw [List.mapM_cons] at h
    cases hb : f b with
    | none => rw [hb] at h; simp at h
    | some y =>
      cases hl : l.mapM f with
      | none => rw [hb, hl] at h; simp at h
      | some ys' =>
        rw [hb, hl] at h
        simp only [Option.bind_eq_bind, Option.bind_some, Option.pure_def, Option.some.injEq] at h
        subst h
        cases i with
        | zero => simp at hi; subst hi; exact ⟨y, by simp, hb⟩
        | succ i => simp at hi; obtain ⟨y', h1, h2⟩ := mapM_get f l ys' hl i a hi; exact ⟨y', by simpa using h1, h2⟩

theorem lookupAll_get {σ : Type} [DecidableEq σ] (faces : List σ) : ∀ (ds : List σ) (is : List Nat),
    LocalMesh.lookupAll faces ds = some is → is.map (fun i => faces[i]?) = ds.map some
  | [], is, h => by simp [LocalMesh.lookupAll] at h; subst h; rfl
  | d :: ds, is, h => by
    unfold LocalMesh.lookupAll at h
    cases hg : LocalFaces.g2l faces d with
    | none => rw [hg] at h; simp at h
    | some i =>
      cases hl : LocalMesh.lookupAll faces ds with
      | none => rw [hg, hl] at h; simp at h
      | some js =>
        rw [hg, hl] at h
        simp only [Option.some.injEq] at h
        subst h
        have hi : faces[i]? = some d := by
          unfold LocalFaces.g2l at hg
          rcases LocalFaces.g2l_fold d faces 0 none with ⟨h1, _⟩ | ⟨j, h1, _, h2⟩
          · rw [h1] at hg; simp at hg
          · rw [h2] at hg; simp at hg; rw [← hg]; exact h1
        rw [List.map_cons, List.map_cons, lookupAll_get faces ds js hl, hi]

/-- The facets of an element are numbered in the order of `downward`, on every rank. -/
theorem C33_facet_order (env : Env) (elems : Nat → List Elem) (r : Nat) (lf : LocalFaces.LocalFaces Facet Nat) (v : View)
    (h : localView env elems r lf = some v) (u : Nat) (e : Elem) (ds : List Nat) (he : v.elems[u]? = some e)
    (hds : v.down[u]? = some ds) : ds.map (fun i => v.facets[i]?) = (Ghosts.facets env.D e).map some := by
  unfold localView at h
  simp only [Option.bind_eq_bind, Option.bind_eq_some_iff, Option.pure_def, Option.some.injEq] at h
  obtain ⟨bc, h1, up, h2, down, h3, rfl⟩ := h
  simp only at he hds ⊢
  obtain ⟨y, h4, h5⟩ := mapM_get _ _ _ h3 u u (List.getElem?_range (lt_of_get he))
  obtain rfl := Option.some.inj (hds.symm.trans h4)
  unfold LocalMesh.downward at h5
  rw [he] at h5
  exact lookupAll_get _ _ _ h5

/-- A strip of five triangles on three ranks is a distributed mesh in the sense of C31-C33. -/
theorem example_distributed : ∃ num fnum views,
    IsDistributed 3 2 Ghosts.exElems num fnum (fun f => if f.sum = 5 then 1 else 3) views := by
  obtain ⟨num, fnum, views, h, _⟩ := C33_local_meshes Ghosts.exEnv Ghosts.exElems Ghosts.exMesh Ghosts.exOk (by decide)
    (fun _ f => if f.sum = 5 then 1 else 3)
    (fun r => (sortedBy_exists Ghosts.exEnv.P Ghosts.exEnv.plex2rank (facetLists Ghosts.exEnv Ghosts.exElems)
      (fun s => (Ghosts.exElems s).length) none (some (fun _ f => if f.sum = 5 then 1 else 3)) r).choose)
    (fun r _ => (sortedBy_exists Ghosts.exEnv.P Ghosts.exEnv.plex2rank (facetLists Ghosts.exEnv Ghosts.exElems)
      (fun s => (Ghosts.exElems s).length) none (some (fun _ f => if f.sum = 5 then 1 else 3)) r).choose_spec)
  exact ⟨num, fnum, views, h⟩

end Tandem.DGTopo
