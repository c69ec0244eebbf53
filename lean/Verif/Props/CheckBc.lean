import Verif.Model.CheckBc
import Verif.Props.DGTopoMesh
import Verif.Props.FacetData
/-! # The program `check-bc` shows every facet with a boundary condition (C106) -/
namespace Tandem.CheckBc
open Tandem.Spec
open Tandem.Ghosts (Env Elem Facet)
open Tandem.Faces (getFaces SortedBy)
open Tandem.DGTopo (lt_of_get get_inj)
open Tandem.FacetData Tandem.Partition

theorem findFacets_eq (n : Nat) (bc : List Nat) : findFacets n bc =
    ((List.range n).filter (fun f => bc.getD f 0 ≠ 0), ((List.range n).filter (fun f => bc.getD f 0 ≠ 0)).map fun f => bc.getD f 0) := by
  unfold findFacets
  induction n with
  | zero => rfl
  | succ n ih =>
    rw [List.range_succ, List.foldl_append, ih, List.filter_append, List.foldl_cons, List.foldl_nil]
    by_cases h : bc.getD n 0 ≠ 0
    · simp only [if_pos h, List.filter_cons, List.filter_nil, decide_eq_true h, if_true, List.map_append, List.map_cons, List.map_nil]
    · simp only [if_neg h, List.filter_cons, List.filter_nil, decide_eq_false h, Bool.false_eq_true, if_false, List.append_nil]

/-- The facets of a rank are those of its elements. -/
theorem mem_facetLists (env : Env) (elems : Nat → List Elem) (hm : Mesh env.P env.D elems) (s : Nat) (hs : s < env.P) (f : Facet) :
    (∃ el ∈ facetLists env elems s, f ∈ el) ↔ ∃ e ∈ elems s, IsFacet e f := by
  have hE : (Ghosts.ghostElements env elems 0 s).1 = elems s := rfl
  have hv : ∀ e ∈ elems s, ∀ f, f ∈ Ghosts.facets env.D e ↔ IsFacet e f := fun e hes =>
    (Ghosts.facets_spec env.D hm.dim e (hm.size s hs e hes) (hm.sorted s hs e hes)).2
  unfold facetLists
  rw [hE]
  constructor
  · rintro ⟨el, hel, hf⟩
    obtain ⟨e, hin, rfl⟩ := List.mem_map.1 hel
    exact ⟨e, hin, (hv e hin f).1 hf⟩
  · rintro ⟨e, hin, hf⟩
    exact ⟨_, List.mem_map.2 ⟨e, hin, rfl⟩, (hv e hin f).2 hf⟩

theorem inMesh_rank (env : Env) (elems : Nat → List Elem) (hm : Mesh env.P env.D elems) (he : EnvOk env elems) (f : Facet)
    (h : Spec.InMesh env.P (facetLists env elems) f) : env.plex2rank f < env.P := by
  obtain ⟨s, hs, hx⟩ := h
  obtain ⟨e, hin, hf⟩ := (mem_facetLists env elems hm s hs f).1 hx
  exact he.rank s hs e hin f hf

/-- **C106**: for every conforming mesh that is distributed over any number of ranks, the program succeeds on every rank. The piece
of a rank has one cell for each facet of its elements with a boundary condition, none twice and no other; the cell is on
the facet of an element of the rank opposite to corner `D - j`, and its data is the boundary condition of the facet. So every facet with
a boundary condition is shown: once, or twice if its two elements are on different ranks. -/
theorem C106_check_bc (env : Env) (elems : Nat → List Elem) (hm : Mesh env.P env.D elems) (he : EnvOk env elems)
    (val : Nat → Facet → Nat) (perm : Nat → List Nat)
    (hp : ∀ r, r < env.P → SortedBy env.P env.plex2rank (facetLists env elems) (fun s => (elems s).length) none (some val) r (perm r)) :
    ∀ r, r < env.P → ∃ lf cells bcs, getFaces env.P env.plex2rank (facetLists env elems) (fun s => (elems s).length) none
        (some val) (perm r) r = some lf ∧ checkBc env elems r lf = some (cells, bcs) ∧
      ∃ shown : List Facet, shown.Nodup ∧ shown.length = cells.length ∧ shown.length = bcs.length ∧
        (∀ f, f ∈ shown ↔ (∃ e ∈ elems r, IsFacet e f) ∧ val (env.plex2rank f) f ≠ 0) ∧
        ∀ (k : Nat) (f : List Nat), shown[k]? = some f → ∃ (u j : Nat) (e : List Nat), cells[k]? = some (u, j) ∧ (elems r)[u]? = some e ∧ j ≤ env.D ∧ f = e.eraseIdx (env.D - j) ∧
          bcs[k]? = some (val (env.plex2rank f) f) := by
  intro r hr
  have hE : ∀ s, (Ghosts.ghostElements env elems 0 s).1 = elems s := fun s => rfl
  have hval : ∀ s, s < env.P → ∀ e ∈ elems s, (Ghosts.facets env.D e).Nodup ∧ (∀ f, f ∈ Ghosts.facets env.D e ↔ IsFacet e f) ∧
      (Ghosts.facets env.D e).length = env.D + 1 ∧ ∀ i, i < env.D + 1 → (Ghosts.facets env.D e)[i]? = some (e.eraseIdx (env.D - i)) := by
    intro s hs e hes
    have h1 := hm.size s hs e hes
    have h3 := Ghosts.facets_spec env.D hm.dim e h1 (hm.sorted s hs e hes)
    obtain ⟨out, ho, hol, hoi⟩ := Simplex.C20_facet_opposite env.D hm.dim e h1 (env.D + 1) (by omega)
    refine ⟨h3.1, h3.2, ?_, ?_⟩ <;> unfold Ghosts.facets <;> rw [ho, Option.getD_some]
    · exact hol
    · exact hoi
  have hdw := mem_facetLists env elems hm
  have hh := inMesh_rank env elems hm he
  obtain ⟨fnum, F, -, -, hfaces⟩ := Faces.C22_faces (δ := Nat) env.P env.plex2rank (facetLists env elems)
    (fun s => (elems s).length) hh (some val)
  obtain ⟨lf, hlf, t_once, t_exactly, _, t_interior, _, t_gidOf, _, _, t_dataOf, t_localSize⟩ := hfaces r hr (perm r) (hp r hr)
  obtain ⟨d, hd, hdv⟩ := t_dataOf val rfl
  have hloc : lf.localSize = lf.faces.length := by
    refine Nat.le_antisymm t_localSize (Nat.le_of_not_lt fun hlt => ?_)
    have hf := List.getElem?_eq_getElem hlt
    refine absurd ((t_interior _ _ hf).2 ?_) (lt_irrefl _)
    obtain ⟨el, h1, h2⟩ := (t_exactly _).1 (List.mem_of_getElem? hf)
    exact ⟨el, by rw [List.take_of_length_le (by simp [facetLists, hE])]; exact h1, h2⟩
  have hclosed : ∀ e ∈ elems r, ∀ f ∈ Ghosts.facets env.D e, f ∈ lf.faces := fun e hin f hf =>
    (t_exactly f).2 ((hdw r hr f).2 ⟨e, hin, ((hval r hr e hin).2.1 f).1 hf⟩)
  obtain ⟨up, hup, huplen, hdown, hups, hdowns⟩ := LocalMesh.C25_incidence (elems r) (hm.nodup r hr) lf.faces t_once
    (Ghosts.facets env.D) (fun e hin => (hval r hr e hin).1) hclosed
  -- the cell of a facet
  have hcell : ∀ i, i < lf.faces.length → ∃ u j e f, ((do
      let elNos ← up[i]?
      let elNo ← elNos[0]?
      let dws ← LocalMesh.downward (elems r) lf.faces (Ghosts.facets env.D) elNo
      some (elNo, dws.idxOf i)) : Option (Nat × Nat)) = some (u, j) ∧ (elems r)[u]? = some e ∧ lf.faces[i]? = some f ∧ j ≤ env.D ∧
        f = e.eraseIdx (env.D - j) := by
    intro i hi
    have hf := List.getElem?_eq_getElem hi
    obtain ⟨hs, hu⟩ := hups i _ (List.getElem?_eq_getElem (huplen ▸ hi))
    obtain ⟨e0, he0, hfe0⟩ := (hdw r hr _).1 ((t_exactly _).1 (List.mem_of_getElem? hf))
    obtain ⟨u0, hu0⟩ := List.mem_iff_getElem?.1 he0
    obtain ⟨ds0, hds0⟩ := hdown u0 (lt_of_get hu0)
    have hm0 : i ∈ ds0 := by
      have : some lf.faces[i] ∈ ds0.map (fun i => lf.faces[i]?) := by
        rw [hdowns u0 e0 ds0 hu0 hds0]
        exact List.mem_map.2 ⟨_, ((hval r hr e0 he0).2.1 _).2 hfe0, rfl⟩
      obtain ⟨j, hj, hje⟩ := List.mem_map.1 this
      exact get_inj t_once hf hje ▸ hj
    have hne : 0 < up[i].length := List.length_pos_of_mem ((hu u0).2 ⟨ds0, hds0, hm0⟩)
    obtain ⟨ds, hds, him⟩ := (hu up[i][0]).1 (List.getElem_mem hne)
    cases hue : (elems r)[up[i][0]]? with
    | none => simp [LocalMesh.downward, hue] at hds
    | some e =>
      have hmap := hdowns _ e ds hue hds
      have hv := hval r hr e (List.mem_of_getElem? hue)
      have hj := List.idxOf_lt_length_of_mem him
      have hlen : ds.length = env.D + 1 := by
        have := congrArg List.length hmap
        simpa [hv.2.2.1] using this
      refine ⟨up[i][0], ds.idxOf i, e, lf.faces[i], ?_, hue, hf, by omega, ?_⟩
      · rw [List.getElem?_eq_getElem (huplen ▸ hi), Option.bind_eq_bind, Option.bind_some, List.getElem?_eq_getElem hne, Option.bind_eq_bind,
          Option.bind_some, hds]; rfl
      · have h1 : (ds.map (fun i => lf.faces[i]?))[ds.idxOf i]? = some (some lf.faces[i]) := by
          rw [List.getElem?_map, List.getElem?_eq_getElem hj, Option.map_some, List.getElem_idxOf, hf]
        rw [hmap, List.getElem?_map, hv.2.2.2 _ (by omega), Option.map_some] at h1
        exact (Option.some.inj (Option.some.inj h1)).symm
  choose! u j e f hdo hue hfi hj hfe using hcell
  have hsome : ∀ L : List Nat, (∀ i ∈ L, i < lf.faces.length) → (L.mapM fun i => ((do
      let elNos ← up[i]?
      let elNo ← elNos[0]?
      let dws ← LocalMesh.downward (elems r) lf.faces (Ghosts.facets env.D) elNo
      some (elNo, dws.idxOf i)) : Option (Nat × Nat))) = some (L.map fun i => (u i, j i)) := by
    intro L hL
    exact Probes.mapM_all _ _ _ fun i hi => hdo i (hL i hi)
  set L := (List.range lf.localSize).filter (fun f => d.getD f 0 ≠ 0) with hL
  have hLm : ∀ i, i ∈ L ↔ i < lf.faces.length ∧ d.getD i 0 ≠ 0 := by
    intro i
    rw [hL, List.mem_filter, List.mem_range, hloc]
    simp
  have hdi : ∀ i, i < lf.faces.length → d.getD i 0 = val (env.plex2rank (f i)) (f i) := by
    intro i hi
    rw [List.getD_eq_getElem?_getD, hdv i _ (hfi i hi)]; rfl
  refine ⟨lf, L.map fun i => (u i, j i), L.map fun i => d.getD i 0, hlf, ?_, L.map f, ?_, by simp, by simp, ?_, ?_⟩
  · unfold checkBc
    simp only [hE, hd, hup, findFacets_eq, Option.bind_eq_bind, Option.bind_some]
    have := hsome L fun i hi => ((hLm i).1 hi).1
    simp only [Option.bind_eq_bind] at this
    rw [← hL, this]
    rfl
  · refine List.Nodup.map_on (fun a ha b hb hab => ?_) (hL ▸ List.nodup_range.filter _)
    have h1 := hfi a ((hLm a).1 ha).1
    have h2 := hfi b ((hLm b).1 hb).1
    rw [hab] at h1
    exact get_inj t_once h1 h2
  · intro x
    rw [List.mem_map]
    constructor
    · rintro ⟨i, hi, rfl⟩
      obtain ⟨h1, h2⟩ := (hLm i).1 hi
      rw [hdi i h1] at h2
      exact ⟨(hdw r hr _).1 ((t_exactly _).1 (List.mem_of_getElem? (hfi i h1))), h2⟩
    · rintro ⟨h1, h2⟩
      obtain ⟨i, hi⟩ := List.mem_iff_getElem?.1 ((t_exactly x).2 ((hdw r hr x).2 h1))
      have hil := lt_of_get hi
      have hx : f i = x := Option.some.inj ((hfi i hil).symm.trans hi)
      refine ⟨i, (hLm i).2 ⟨hil, ?_⟩, hx⟩
      rw [hdi i hil, hx]; exact h2
  · intro k x hk
    replace hk : (L[k]?).map f = some x := (List.getElem?_map ..).symm.trans hk
    cases hi : L[k]? with
    | none => rw [hi] at hk; simp at hk
    | some i =>
      rw [hi] at hk
      obtain rfl : f i = x := Option.some.inj hk
      have hil := ((hLm i).1 (List.mem_of_getElem? hi)).1
      refine ⟨u i, j i, e i, ?_, hue i hil, hj i hil, hfe i hil, ?_⟩
      · rw [List.getElem?_map, hi]; rfl
      · rw [List.getElem?_map, hi, Option.map_some, hdi i hil]

/-- **C106 (from the tags)**: the same with the boundary mesh as it was read (`bE s` the tagged facets that rank `s` has read, each once, and `bD s`
their boundary conditions): the cells of a rank are the facets of its elements that are tagged with a boundary condition other than `None`, with this
boundary condition. -/
theorem C106_file (env : Env) (elems : Nat → List Elem) (hm : Mesh env.P env.D elems) (he : EnvOk env elems)
    (bE : Nat → List Facet) (bD : Nat → List Nat) (enum : Nat → List Nat) (hlen : ∀ s, s < env.P → (bD s).length = (bE s).length)
    (hb : ∀ s, s < env.P → ∀ f ∈ bE s, env.plex2rank f < env.P)
    (huniq : ∀ (s s' e e' : Nat) (f : Facet), s < env.P → s' < env.P → (bE s)[e]? = some f → (bE s')[e']? = some f → s = s' ∧ e = e')
    (henum : ∀ s, s < env.P → IsEnumeration (hashPartition env.plex2rank (bE s)) (enum s))
    (hsmall : ((List.range env.P).map (fun s => (bE s).length)).sum < 2 ^ 64 - 1) :
    ∃ (sides : Nat → List Nat × List Facet) (gd : Nat → List Nat) (val : Nat → Facet → Nat),
      (∀ s, s < env.P → sendSide env.P (hashPartition env.plex2rank (bE s)) (enum s) (bE s) = some (sides s) ∧ gather (bD s) (enum s) = some (gd s)) ∧
      (∀ p, p < env.P → ∀ req, answers 0 (newElems env.P sides p) (newData env.P (fun s => (sides s).1) gd p) req = some (req.map (val p))) ∧
      ∀ perm : Nat → List Nat, (∀ r, r < env.P → SortedBy env.P env.plex2rank (facetLists env elems) (fun s => (elems s).length) none (some val) r (perm r)) →
        ∀ r, r < env.P → ∃ lf cells bcs, getFaces env.P env.plex2rank (facetLists env elems) (fun s => (elems s).length) none
            (some val) (perm r) r = some lf ∧ checkBc env elems r lf = some (cells, bcs) ∧
          ∃ shown : List Facet, shown.Nodup ∧ shown.length = cells.length ∧ shown.length = bcs.length ∧
            (∀ f, f ∈ shown ↔ (∃ e ∈ elems r, IsFacet e f) ∧
              ∃ (s i bc : Nat), s < env.P ∧ (bE s)[i]? = some f ∧ (bD s)[i]? = some bc ∧ bc ≠ 0) ∧
            ∀ (k : Nat) (f : List Nat), shown[k]? = some f → ∃ (u j : Nat) (e : List Nat), cells[k]? = some (u, j) ∧ (elems r)[u]? = some e ∧
              j ≤ env.D ∧ f = e.eraseIdx (env.D - j) ∧
              ∀ (s i bc : Nat), s < env.P → (bE s)[i]? = some f → (bD s)[i]? = some bc → bcs[k]? = some bc := by
  have hh := inMesh_rank env elems hm he
  obtain ⟨sides, gd, hs, val, hans, htags⟩ := C30_facet_tags 0 env.P env.plex2rank (facetLists env elems) (fun s => (elems s).length) hh bE bD enum
    hlen hb huniq henum hsmall
  refine ⟨sides, gd, val, hs, fun p hp req => by convert hans p hp req, fun perm hp r hr => ?_⟩
  obtain ⟨lf, cells, bcs, h1, h2, shown, h3, h4, h5, h6, h7⟩ := C106_check_bc env elems hm he val perm hp r hr
  -- the value of a facet of the rank is its tag
  obtain ⟨lf', k1, d, k2, k3⟩ := htags r hr (perm r) (hp r hr)
  obtain rfl : lf = lf' := Option.some.inj (h1.symm.trans k1)
  obtain ⟨fnum, F, -, -, hfaces⟩ := Faces.C22_faces (δ := Nat) env.P env.plex2rank (facetLists env elems)
    (fun s => (elems s).length) hh (some val)
  obtain ⟨lf', l1, t_once, t_exactly, _, _, _, _, _, _, t_dataOf, _⟩ := hfaces r hr (perm r) (hp r hr)
  obtain rfl : lf = lf' := Option.some.inj (h1.symm.trans l1)
  obtain ⟨d', hd', hdv⟩ := t_dataOf val rfl
  obtain rfl : d = d' := Option.some.inj (k2.symm.trans hd')
  have hv : ∀ f, (∃ e ∈ elems r, IsFacet e f) → (∀ (s i bc : Nat), s < env.P → (bE s)[i]? = some f → (bD s)[i]? = some bc → val (env.plex2rank f) f = bc) ∧
      ((∀ s, s < env.P → f ∉ bE s) → val (env.plex2rank f) f = 0) := by
    intro f hf
    obtain ⟨i, hi⟩ := List.mem_iff_getElem?.1 ((t_exactly f).2 ((mem_facetLists env elems hm r hr f).2 hf))
    have hdi := hdv i f hi
    exact ⟨fun s j bc hsP a b => Option.some.inj (hdi.symm.trans ((k3 i f hi).1 s j bc hsP a b)),
      fun h => Option.some.inj (hdi.symm.trans ((k3 i f hi).2 h))⟩
  refine ⟨lf, cells, bcs, h1, h2, shown, h3, h4, h5, fun f => ?_, fun k f hk => ?_⟩
  · rw [h6 f]
    refine and_congr_right fun hf => ?_
    constructor
    · intro hne
      by_contra hc
      refine hne ((hv f hf).2 fun s hsP hmem => hc ?_)
      obtain ⟨i, hi⟩ := List.mem_iff_getElem?.1 hmem
      have hil : i < (bD s).length := by rw [hlen s hsP]; exact lt_of_get hi
      have hbc := List.getElem?_eq_getElem hil
      refine ⟨s, i, _, hsP, hi, hbc, ?_⟩
      rw [← (hv f hf).1 s i _ hsP hi hbc]; exact hne
    · rintro ⟨s, i, bc, hsP, hi, hbc, hne⟩
      rw [(hv f hf).1 s i bc hsP hi hbc]; exact hne
  · obtain ⟨u, j, e, a1, a2, a3, a4, a5⟩ := h7 k f hk
    refine ⟨u, j, e, a1, a2, a3, a4, fun s i bc hsP hi hbc => ?_⟩
    rw [a5, (hv f ((h6 f).1 (List.mem_of_getElem? hk)).1).1 s i bc hsP hi hbc]

/-- The example mesh of three ranks with one facet with a boundary condition: rank 0 shows it, with its number. -/
example : ∃ perm lf cells, getFaces Ghosts.exEnv.P Ghosts.exEnv.plex2rank (facetLists Ghosts.exEnv Ghosts.exElems)
      (fun s => (Ghosts.exElems s).length) none (some fun _ f => if f = [0, 1] then 5 else 0) perm 0 = some lf ∧
    checkBc Ghosts.exEnv Ghosts.exElems 0 lf = some (cells, [5]) := by
  obtain ⟨lf, cells, bcs, h1, h2, shown, h3, h4, h5, h6, h7⟩ := C106_check_bc Ghosts.exEnv Ghosts.exElems Ghosts.exMesh Ghosts.exOk
    (fun _ f => if f = [0, 1] then 5 else 0) _ (fun r _ => (DGTopo.sortedBy_exists Ghosts.exEnv.P Ghosts.exEnv.plex2rank
      (facetLists Ghosts.exEnv Ghosts.exElems) (fun s => (Ghosts.exElems s).length) none _ r).choose_spec) 0 (by decide)
  have hs : shown = [[0, 1]] := by
    refine List.perm_singleton.1 ((List.perm_ext_iff_of_nodup h3 (by simp)).2 fun f => ?_)
    rw [h6, List.mem_singleton]
    constructor
    · rintro ⟨-, h⟩
      by_contra hf
      exact h (if_neg hf)
    · rintro rfl
      exact ⟨⟨[0, 1, 2], by decide, by decide, by decide, by decide⟩, by decide⟩
  subst hs
  obtain ⟨_, _, _, _, _, _, _, h8⟩ := h7 0 [0, 1] rfl
  have hb : bcs = [5] := by
    match bcs, h5, h8 with
    | [b], _, h8 => exact congrArg (fun x => [x]) (Option.some.inj h8)
  exact ⟨_, lf, cells, h1, hb ▸ h2⟩

/-- The hypotheses of `C106_file`: the facet is read by rank 1, which owns none of its elements. -/
example : ∃ (bE : Nat → List Facet) (bD : Nat → List Nat) (enum : Nat → List Nat), bE 1 = [[0, 1]] ∧ bD 1 = [5] ∧
    (∀ s, s < Ghosts.exEnv.P → (bD s).length = (bE s).length) ∧
    (∀ s, s < Ghosts.exEnv.P → ∀ f ∈ bE s, Ghosts.exEnv.plex2rank f < Ghosts.exEnv.P) ∧
    (∀ (s s' e e' : Nat) (f : Facet), s < Ghosts.exEnv.P → s' < Ghosts.exEnv.P → (bE s)[e]? = some f → (bE s')[e']? = some f → s = s' ∧ e = e') ∧
    (∀ s, s < Ghosts.exEnv.P → IsEnumeration (hashPartition Ghosts.exEnv.plex2rank (bE s)) (enum s)) ∧
    ((List.range Ghosts.exEnv.P).map (fun s => (bE s).length)).sum < 2 ^ 64 - 1 := by
  refine ⟨fun s => if s = 1 then [[0, 1]] else [], fun s => if s = 1 then [5] else [],
    fun s => if s = 1 then [0] else [], rfl, rfl, ?_, ?_, ?_, ?_, by decide⟩
  · intro s _; dsimp only; split <;> rfl
  · intro s _ f _; exact Nat.mod_lt _ (by decide)
  · intro s s' e e' f hs hs' h1 h2
    have a : s = 1 := by
      apply Classical.byContradiction; intro hc; simp [hc] at h1
    have b : s' = 1 := by
      apply Classical.byContradiction; intro hc; simp [hc] at h2
    subst a b
    have c := (List.getElem?_eq_some_iff.1 h1).1
    have d := (List.getElem?_eq_some_iff.1 h2).1
    simp at c d
    omega
  · intro s hs
    have hs : s < 3 := hs
    have : s = 0 ∨ s = 1 ∨ s = 2 := by omega
    rcases this with rfl | rfl | rfl
    · exact ⟨by decide, by decide⟩
    · exact ⟨by decide, by decide⟩
    · exact ⟨by decide, by decide⟩

end Tandem.CheckBc
