import Verif.Spec.Construct
import Verif.Props.Material
import Verif.Props.CflStraight
import Verif.Props.ScatterPlan
import Verif.Props.DGTopoMesh
/-! # Property C99: what the constructors of the operators compute does not depend on the distribution -/
namespace Tandem.Construct
open RefElement Error CurvilinearBuild Finset Spec
open Tandem.DGTopo (View FacetInfo facetInfo)
open Tandem.Poisson (Measures)

variable {D P : ℕ} {elems : ℕ → List (List ℕ)} {num fnum tag : List ℕ → ℕ} {views : ℕ → View}

/-! ## An element alone -/

theorem alone_eq (d : Domain D) (es : List (List ℕ)) (b : Built D) (hb : d.built es = some b) (e : List ℕ) :
    d.built [e] = some (d.alone e) := by
  have : ∃ b', d.built [e] = some b' := by
    unfold Domain.built build Domain.mesh at hb ⊢
    cases hc : d.curved with
    | none => exact ⟨_, rfl⟩
    | some c =>
      simp only [hc, Option.map_some] at hb ⊢
      unfold evalBasis at hb ⊢
      simp only at hb ⊢
      split at hb
      · simp at hb
      · exact ⟨_, rfl⟩
  obtain ⟨b', h⟩ := this
  unfold Domain.alone
  rw [h]; rfl

theorem tags_eq (d : Domain D) (es : List (List ℕ)) (b : Built D) (hb : d.built es = some b) : b.volumeTags = es.map d.region := by
  unfold Domain.built build Domain.mesh at hb
  cases hc : d.curved with
  | none => simp only [hc, Option.map_none, Option.some.injEq] at hb; rw [← hb]; rfl
  | some c =>
    simp only [hc, Option.map_some] at hb
    split at hb
    · simp at hb
    · rw [← Option.some.inj hb]; rfl

theorem geo_alone (d : Domain D) (es : List (List ℕ)) (b : Built D) (hb : d.built es = some b) (u : ℕ) (e : List ℕ) (he : es[u]? = some e) :
    b.geo.degree = (d.alone e).geo.degree ∧ b.geo.nodes = (d.alone e).geo.nodes ∧ b.geo.verts u = (d.alone e).geo.verts 0 := by
  have hg : es.getD u [] = e := by rw [List.getD_eq_getElem?_getD, he]; rfl
  refine Material.geo_ghost (d.mesh es) (d.mesh [e]) d.transform d.degree d.refNodes b (d.alone e) hb (alone_eq d es b hb e) u 0 ?_ ?_
  · simp only [Domain.mesh, Option.map_some, hg]; rfl
  · simp only [Domain.mesh, Option.map_map]
    congr 1
    funext c
    simp only [Function.comp_apply, hg]; rfl

theorem tag_alone (d : Domain D) (es : List (List ℕ)) (b : Built D) (hb : d.built es = some b) (u : ℕ) (e : List ℕ) (he : es[u]? = some e) :
    getVolumeTag b u = some (d.region e) ∧ getVolumeTag (d.alone e) 0 = some (d.region e) := by
  unfold getVolumeTag
  rw [tags_eq d es b hb, tags_eq d [e] _ (alone_eq d es b hb e), List.getElem?_map, he]
  exact ⟨rfl, rfl⟩

theorem volume_congr {g g' : Geo D} (rule : Rule D) (u u' : ℕ) (h : g.degree = g'.degree ∧ g.nodes = g'.nodes ∧ g.verts u = g'.verts u') :
    prepareVolume g rule u = prepareVolume g' rule u' := by
  obtain ⟨g1, g2, g3⟩ := h
  unfold prepareVolume jacobian geoMap geoGrad geoBasis
  rw [g1, g2, g3]

theorem facet_congr {g g' : Geo (D + 1)} (rule : Rule D) (fc fc' : Facet D) (s : Fin 2)
    (h : g.degree = g'.degree ∧ g.nodes = g'.nodes ∧ g.verts (fc.up s) = g'.verts (fc'.up 0)) (hl : fc.localNo s = fc'.localNo 0) :
    (s = 0 → (prepareFacet g rule fc).normal = (prepareFacet g' rule fc').normal ∧
      (prepareFacet g rule fc).jInv0 = (prepareFacet g' rule fc').jInv0 ∧ (prepareFacet g rule fc).area = (prepareFacet g' rule fc').area) ∧
    (s = 1 → (prepareFacet g rule fc).jInv1 = (prepareFacet g' rule fc').jInv0) := by
  obtain ⟨g1, g2, g3⟩ := h
  unfold prepareFacet jacobian geoGrad
  refine ⟨?_, ?_⟩
  · rintro rfl
    simp only [g1, g2, g3, hl, and_self]
  · rintro rfl
    simp only [g1, g2, g3, hl]

/-- All ranks together: views of a distributed mesh with the facets in the order of the code, the geometries built from them, and the
element scatter plans. -/
structure Setup (P : ℕ) (elems : ℕ → List (List ℕ)) (num fnum tag : List ℕ → ℕ) (views : ℕ → View) (d : Domain (D + 1))
    (b : ℕ → Built (D + 1)) : Prop where
  mesh : IsDistributed P (D + 1) elems num fnum tag views
  order : ∀ r, r < P → FacetOrder (D + 1) (views r)
  built : ∀ r, r < P → d.built (views r).elems = some (b r)

variable {o : Options D} {d : Domain (D + 1)} {b : ℕ → Built (D + 1)}

/-- The number of a facet in an element is its place among the facets of the element. -/
theorem local_number (h : Setup P elems num fnum tag views d b) {r : ℕ} (hr : r < P) {u : ℕ} {e ds : List ℕ} {l i : ℕ} {f : List ℕ}
    (he : (views r).elems[u]? = some e) (hds : (views r).down[u]? = some ds) (hl : ds[l]? = some i) (hf : (views r).facets[i]? = some f) :
    (Ghosts.facets (D + 1) e).idxOf f = l ∧ l < D + 2 := by
  have hord := h.order r hr u e ds he hds
  have hl' : (Ghosts.facets (D + 1) e)[l]? = some f := by
    have := congrArg (fun L => L[l]?) hord
    simp only [List.getElem?_map, hl, Option.map_some, hf] at this
    cases hx : (Ghosts.facets (D + 1) e)[l]? with
    | none => rw [hx] at this; simp at this
    | some x => rw [hx] at this; simp at this; rw [← this]
  obtain ⟨s, hs, hes⟩ := ((h.mesh.view r hr).exactly e).1 (List.mem_of_getElem? he) |>.1
  have hnd := (Ghosts.facets_spec (D + 1) h.mesh.mesh.dim e (h.mesh.mesh.size s hs e hes) (h.mesh.mesh.sorted s hs e hes)).1
  obtain ⟨ds', hds', hlen, _⟩ := (h.mesh.view r hr).down u e he
  obtain rfl := Option.some.inj (hds.symm.trans hds')
  refine ⟨DGTopo.get_inj hnd ?_ hl', ?_⟩
  · rw [List.getElem?_eq_getElem (List.idxOf_lt_length_of_mem (List.mem_of_getElem? hl')), List.getElem_idxOf]
  · have := (List.getElem?_eq_some_iff.1 hl).1
    omega

theorem facetNo_eq {e f : List ℕ} {l : ℕ} (h : (Ghosts.facets (D + 1) e).idxOf f = l ∧ l < D + 2) : facetNo D e f = ⟨l, h.2⟩ := by
  unfold facetNo
  obtain ⟨rfl, h2⟩ := h
  rw [dif_pos h2]

theorem numbers (h : Setup P elems num fnum tag views d b) {r : ℕ} (hr : r < P) : (geometryOf o d).Numbers (views r) :=
  fun _ _ _ _ _ _ he hds hl hf => (local_number h hr he hds hl hf).1

/-- Only the facets of own elements have a `FacetInfo`. -/
theorem info_local (h : Setup P elems num fnum tag views d b) {r : ℕ} (hr : r < P) {i : ℕ} {info : FacetInfo} {f : List ℕ}
    (hi : facetInfo (views r) i = some info) (hf : (views r).facets[i]? = some f) : i < (views r).numLocalFacets := by
  have hv := h.mesh.view r hr
  unfold facetInfo at hi
  simp only [Option.bind_eq_bind, Option.bind_eq_some_iff] at hi
  obtain ⟨els, h1, bc, h2, e0, h3, g0, h4, g1, h5, ds0, h6, ds1, h7, h8⟩ := hi
  split at h8
  · rename_i hc
    obtain ⟨_, c1, c2, c3⟩ := hc
    have key : ∀ (a : ℕ) (ds : List ℕ), (views r).down[a]? = some ds → ds.idxOf i < ds.length → a < (views r).numLocal → i < (views r).numLocalFacets := by
      intro a ds hds hidx ha
      have hlen := DGTopo.numLocal_le hv
      have hae : (views r).elems[a]? = some (views r).elems[a] := List.getElem?_eq_getElem (by omega)
      obtain ⟨ds', hds', _, _, hmem⟩ := hv.down a _ hae
      obtain rfl := Option.some.inj (hds.symm.trans hds')
      obtain ⟨f', hf', hfe⟩ := (hmem i).1 (List.idxOf_lt_length_iff.1 hidx)
      obtain rfl := Option.some.inj (hf.symm.trans hf')
      exact (hv.localFacets i f hf).2 ⟨_, (DGTopo.own_iff hr h.mesh.mesh hv hae).2.1 ha, hfe⟩
    rcases c3 with c | c
    · exact key _ _ h6 c1 c
    · exact key _ _ h7 c2 c
  · simp at h8

/-! ## The loops -/

theorem volumes_get (h : Setup P elems num fnum tag views d b) {r : ℕ} (hr : r < P) {u : ℕ} {e : List ℕ} (he : (views r).elems[u]? = some e) :
    (prepareVolumes o (views r) (b r))[u]? = some (elementData o d e) := by
  have hu := (List.getElem?_eq_some_iff.1 he).1
  unfold prepareVolumes
  rw [List.getElem?_map, List.getElem?_range hu, Option.map_some]
  exact congrArg some (volume_congr _ _ _ (geo_alone d _ _ (h.built r hr) u e he))

/-- The facets: the entries seen from their sides. -/
theorem facets_get (h : Setup P elems num fnum tag views d b) {r : ℕ} (hr : r < P) :
    ∃ fct, prepareFacets o (views r) (b r) = some fct ∧ ∀ i info f, i < (views r).numLocalFacets → facetInfo (views r) i = some info →
      (views r).facets[i]? = some f → ∃ x, fct[i]? = some x ∧
      (∀ e, (views r).elems[info.up0]? = some e → x.normal = (facetData o d f e).normal ∧ x.jInv0 = (facetData o d f e).jInv0 ∧
        x.area = (facetData o d f e).area) ∧
      (∀ e, (views r).elems[info.up1]? = some e → x.jInv1 = (facetData o d f e).jInv0) := by
  have key : ∀ i, i < (views r).numLocalFacets → ∃ x, (do
      let info ← facetInfo (views r) i
      let fc ← facetOf (D := D) info
      return prepareFacet (b r).geo o.fctRule fc) = some x ∧ ∀ info f, facetInfo (views r) i = some info → (views r).facets[i]? = some f →
      (∀ e, (views r).elems[info.up0]? = some e → x.normal = (facetData o d f e).normal ∧ x.jInv0 = (facetData o d f e).jInv0 ∧
        x.area = (facetData o d f e).area) ∧
      (∀ e, (views r).elems[info.up1]? = some e → x.jInv1 = (facetData o d f e).jInv0) := by
    intro i hi
    obtain ⟨info, f, e0, e1, g1, g2, g3, g4, _, _, _, _, _, ⟨ds0, g5, g6⟩, ⟨ds1, g7, g8⟩, _⟩ := DGTopo.C33_facet_info h.mesh r hr i hi
    have n0 := local_number h hr g3 g5 g6 g2
    have n1 := local_number h hr g4 g7 g8 g2
    refine ⟨prepareFacet (b r).geo o.fctRule ⟨![info.up0, info.up1], ![⟨info.localNo0, n0.2⟩, ⟨info.localNo1, n1.2⟩]⟩, ?_, ?_⟩
    · simp only [g1, Option.bind_eq_bind, Option.bind_some, facetOf]
      rw [dif_pos ⟨n0.2, n1.2⟩]; rfl
    · intro info' f' h1 h2
      obtain rfl := Option.some.inj (g1.symm.trans h1)
      obtain rfl := Option.some.inj (g2.symm.trans h2)
      refine ⟨fun e he => ?_, fun e he => ?_⟩
      · obtain rfl := Option.some.inj (g3.symm.trans he)
        exact (facet_congr o.fctRule _ ⟨fun _ => 0, fun _ => facetNo D e0 f⟩ 0 (geo_alone d _ _ (h.built r hr) info.up0 e0 g3)
          (facetNo_eq n0).symm).1 rfl
      · obtain rfl := Option.some.inj (g4.symm.trans he)
        exact (facet_congr o.fctRule _ ⟨fun _ => 0, fun _ => facetNo D e1 f⟩ 1 (geo_alone d _ _ (h.built r hr) info.up1 e1 g4)
          (facetNo_eq n1).symm).2 rfl
  haveI : Nonempty (FctData (D + 1)) := ⟨facetData o d [] []⟩
  choose! x hx using key
  refine ⟨(List.range (views r).numLocalFacets).map x, ?_, ?_⟩
  · unfold prepareFacets
    exact Cfl.mapM_all _ _ _ fun i hi => (hx i (List.mem_range.1 hi)).1
  · intro i info f hi hinfo hf
    refine ⟨x i, ?_, (hx i hi).2 info f hinfo hf⟩
    rw [List.getElem?_map, List.getElem?_range hi]; rfl

/-- **C99 (volumes)**: after the exchange every rank has the volumes of all its elements, own and ghost, for every order in which the
messages arrive and whatever the receive buffer contained. -/
theorem C99_volumes (h : Setup P elems num fnum tag views d b) (ranks : List (View × Built (D + 1)))
    (hranks : ∀ r, r < P → ranks[r]? = some (views r, b r)) (plans : List ScatterPlan.Plan)
    (hplans : ∀ r, r < P → ∃ p, plans[r]? = some p ∧ ScatterPlan.IsPlan r (DGTopo.elemFaces (views r)) p)
    (r : ℕ) (hr : r < P) (plan : ScatterPlan.Plan) (hplan : plans[r]? = some plan) (buf : List ℝ) (hbuf : buf.length = plan.recvIdx.length)
    (arrival : List ScatterPlan.Block) (ha : arrival.Perm plan.recvBlocks) :
    ∃ vol, volumes o ranks plans r buf arrival = some vol ∧ vol.length = (views r).elems.length ∧
      ∀ (u : ℕ) (e : List ℕ), (views r).elems[u]? = some e → vol[u]? = some (volumeOf o d e) := by
  set xs : ℕ → List ℝ := fun r => (prepareVolumes o (views r) (b r)).map (·.volume) with hxs
  have hlenx : ∀ r, (xs r).length = (views r).elems.length := by
    intro r; rw [hxs]; unfold prepareVolumes; simp
  have hlenf : ∀ r, (DGTopo.elemFaces (views r)).length = (views r).elems.length := by
    intro r; unfold DGTopo.elemFaces; simp
  obtain ⟨data, h1, h2, h3, h4⟩ := ScatterPlan.C18_simple_scatter 1 P (fun r => DGTopo.elemFaces (views r)) (DGTopo.C33_plan_consistent h.mesh)
    plans hplans xs (fun r _ => by rw [hlenx, hlenf]; omega) (ranks.map fun p => (prepareVolumes o p.1 p.2).map (·.volume))
    (fun r hr => by rw [List.getElem?_map, hranks r hr]; rfl) r hr plan hplan buf (by omega) arrival ha
  have hget : ∀ s, s < P → ∀ (j : ℕ) (e : List ℕ), (views s).elems[j]? = some e → (xs s)[j]? = some (volumeOf o d e) := by
    intro s hs j e he
    rw [hxs]
    simp only [List.getElem?_map, volumes_get h hs he, Option.map_some]; rfl
  have hslice : ∀ (l : List ℝ) (i : ℕ), CommPattern.slice l (i * 1) 1 = (l[i]?).toList := by
    intro l i
    unfold CommPattern.slice
    rw [mul_one]
    cases hx : l[i]? with
    | none => rw [List.drop_eq_nil_of_le (by rw [List.getElem?_eq_none_iff] at hx; exact hx)]; rfl
    | some a =>
      obtain ⟨hi, rfl⟩ := List.getElem?_eq_some_iff.1 hx
      rw [List.drop_eq_getElem_cons hi]; rfl
  refine ⟨data, h1, by rw [h2, hlenx], fun u e he => ?_⟩
  have hv := h.mesh.view r hr
  obtain ⟨l, hl, _⟩ := hv.shared u e he
  obtain ⟨q, hq, hqP, heq⟩ := hv.owner u e he
  have hface := (DGTopo.elemFaces_get hv u _).2 ⟨e, l, he, hl, rfl⟩
  have hmain : CommPattern.slice data (u * 1) 1 = [volumeOf o d e] := by
    by_cases ho : DGTopo.ownerOf (views r) u = r
    · rw [h3 u _ hface ho, hslice, hget r hr u e he]; rfl
    · have hq' : DGTopo.ownerOf (views r) u = q := by unfold DGTopo.ownerOf; rw [List.getD_eq_getElem?_getD, hq]; rfl
      have hin : e ∈ (views q).elems := ((h.mesh.view q hqP).exactly e).2 ⟨⟨q, hqP, heq⟩, Or.inl heq⟩
      obtain ⟨j, hj, hje⟩ := List.getElem_of_mem hin
      have hje : (views q).elems[j]? = some e := by rw [List.getElem?_eq_getElem hj, hje]
      obtain ⟨l', hl', _⟩ := (h.mesh.view q hqP).shared j e hje
      have hface' := (DGTopo.elemFaces_get (h.mesh.view q hqP) j _).2 ⟨e, l', hje, hl', rfl⟩
      have h5 := h4 u _ hface ho j ⟨num e, DGTopo.ownerOf (views q) j, l'⟩ (by simp only [hq']; exact hface') rfl
      rw [h5, hslice]
      simp only [hq', hget q hqP j e hje]; rfl
  rw [hslice] at hmain
  cases hx : data[u]? with
  | none => rw [hx] at hmain; cases hmain
  | some a => rw [hx] at hmain; simpa using hmain

/-! ## Areas and penalties -/

/-- The elements of the mesh. -/
def allElems (P : ℕ) (elems : ℕ → List (List ℕ)) : Set (List ℕ) := {e | InElems P elems e}

/-- Both sides of a facet have the same area. -/
theorem area_eq (hop : (geometryOf o d).Opposite P elems) {e f : List ℕ} (he : InElems P elems e) (hf : IsFacet e f) :
    areaOf o d (allElems P elems) f = (facetData o d f e).area := by
  have hex : ∃ e, e ∈ allElems P elems ∧ IsFacet e f := ⟨e, he, hf⟩
  unfold areaOf
  rw [dif_pos hex]
  obtain ⟨h1, h2⟩ := hex.choose_spec
  by_cases hne : hex.choose = e
  · rw [hne]
  · have := hop f e hex.choose he h1 (Ne.symm hne) hf h2
    change ∑ q ∈ range o.fctRule.points.length, o.fctRule.weights.getD q 0 * Curvilinear.norm ((facetData o d f hex.choose).normal q) =
      ∑ q ∈ range o.fctRule.points.length, o.fctRule.weights.getD q 0 * Curvilinear.norm ((facetData o d f e).normal q)
    refine sum_congr rfl fun q hq => ?_
    have hn : (facetData o d f hex.choose).normal q = - (facetData o d f e).normal q := by
      funext i
      exact congrFun (congrFun this i) ⟨q, mem_range.1 hq⟩
    rw [hn]
    unfold Curvilinear.norm Curvilinear.dot
    simp

/-- A facet has one or two elements, and the penalty is that of `preparePenalty`. -/
theorem facetPenalty_eq (hm : Spec.Mesh P (D + 1) elems) (side : List ℕ → ℝ) (f : List ℕ) :
    (∀ e, InElems P elems e → IsFacet e f → (∀ a, InElems P elems a → IsFacet a f → a = e) → facetPenalty (allElems P elems) side f = side e) ∧
    (∀ e a, InElems P elems e → InElems P elems a → e ≠ a → IsFacet e f → IsFacet a f →
      facetPenalty (allElems P elems) side f = side e / 4 + side a / 4) := by
  constructor
  · intro e he hef hall
    have : {e | e ∈ allElems P elems ∧ IsFacet e f} = {e} := by
      ext a; constructor
      · rintro ⟨h1, h2⟩; exact hall a h1 h2
      · rintro rfl; exact ⟨he, hef⟩
    unfold facetPenalty
    rw [this, Set.ncard_singleton, if_pos rfl, finsum_mem_singleton, one_mul]
  · intro e a he ha hne hef haf
    have : {e | e ∈ allElems P elems ∧ IsFacet e f} = {e, a} := by
      ext c; constructor
      · rintro ⟨⟨s, hs, hc⟩, h2⟩
        obtain ⟨t, ht, he⟩ := he
        obtain ⟨u, hu, ha⟩ := ha
        rcases hm.conforming t u s ht hu hs e he a ha c hc f hef haf h2 with h | h | h
        · exact absurd h hne
        · exact Or.inr h.symm
        · exact Or.inl h.symm
      · rintro (rfl | rfl)
        · exact ⟨he, hef⟩
        · exact ⟨ha, haf⟩
    unfold facetPenalty
    rw [this, Set.ncard_pair hne, if_neg (by decide), finsum_mem_pair hne]
    ring

theorem mapM_get_range {α : Type} (n : ℕ) (F : ℕ → Option α) (L : List α) (h : (List.range n).mapM F = some L) (i : ℕ) (hi : i < n) :
    ∃ y, L[i]? = some y ∧ F i = some y := DGTopo.mapM_get F _ L h i i (List.getElem?_range hi)

/-- **C99 (Poisson)**: the constructor succeeds on every rank, and the operator of every rank holds the data of the mesh: every entry is
a function of the element or facet alone (its vertices, curved nodes and region), the same on all ranks that have it. -/
theorem C99_poisson (h : Setup P elems num fnum tag views d b) (hop : (geometryOf o d).Opposite P elems)
    (K : (Fin (D + 1) → ℝ) → ℤ → Fin 1 → ℝ) (r : ℕ) (hr : r < P) (vol : List ℝ)
    (hvol : ∀ (u : ℕ) (e : List ℕ), (views r).elems[u]? = some e → vol[u]? = some (volumeOf o d e)) :
    ∃ s, poisson o K (views r) (b r) vol = some s ∧
      Poisson.Samples (views r) s.op o.method (poissonRef o) (geometryOf o d) (poissonMaterial o d K)
        (poissonPenalty o d (allElems P elems) (poissonMaterial o d K)) ∧
      Measures (views r) s.area s.volume (areaOf o d (allElems P elems)) (volumeOf o d) ∧
      ∀ i info, i < (views r).numLocalFacets → facetInfo (views r) i = some info →
        s.op.penalty_ i = Poisson.preparePenalty (D + 1) (o.p - 1) s.area s.volume s.op.K i info := by
  have hv := h.mesh.view r hr
  obtain ⟨fct, hfct, hF⟩ := facets_get (o := o) h hr
  have htag : ∀ el, el < (views r).elems.length → (getVolumeTag (b r) el).isSome := by
    intro el hel
    rw [(tag_alone d _ _ (h.built r hr) el _ (List.getElem?_eq_getElem hel)).1]; rfl
  obtain ⟨mat, hmat, hml, hmg⟩ := Material.C98_all (views r).elems.length (b r) o.volRule o.p o.nodes K htag
  set area : ℕ → ℝ := fun f => (fct[f]?).elim 0 (·.area) with harea
  set volumeAt : ℕ → ℝ := fun u => vol.getD u 0 with hvolumeAt
  set KAt : ℕ → Fin (nbf (D + 1) o.p) → ℝ := fun u => mat.getD u 0 with hKAt
  have hK : ∀ (u : ℕ) (e : List ℕ), (views r).elems[u]? = some e → KAt u = poissonMaterial o d K e := by
    intro u e he
    have hu := (List.getElem?_eq_some_iff.1 he).1
    rw [hKAt]
    simp only [List.getD_eq_getElem?_getD, hmg u hu]
    unfold poissonMaterial
    congr 1
    have ht := tag_alone d _ _ (h.built r hr) u e he
    obtain ⟨g1, g2, g3⟩ := geo_alone d _ _ (h.built r hr) u e he
    unfold Material.poisson Material.coefficients volumeFunctionalRegion
    rw [volume_congr o.volRule u 0 ⟨g1, g2, g3⟩, ht.1, ht.2]
  have hmeas : Measures (views r) area volumeAt (areaOf o d (allElems P elems)) (volumeOf o d) := by
    constructor
    · intro i f hf hi
      obtain ⟨info, f', e0, e1, g1, g2, g3, g4, g5, _⟩ := DGTopo.C33_facet_info h.mesh r hr i hi
      obtain rfl := Option.some.inj (hf.symm.trans g2)
      obtain ⟨x, hx, hx0, _⟩ := hF i info f hi g1 hf
      rw [harea, area_eq hop (DGTopo.mem_inElems hv g3) g5]
      simp only [hx, Option.elim_some]
      exact (hx0 e0 g3).2.2
    · intro u e he
      rw [hvolumeAt]
      simp only [List.getD_eq_getElem?_getD, hvol u e he]; rfl
  have hpenM : ∃ pen, ((List.range (views r).numLocalFacets).mapM fun f => do
      let info ← facetInfo (views r) f
      return Poisson.preparePenalty (D + 1) (o.p - 1) area volumeAt KAt f info) = some pen ∧
      ∀ i info, i < (views r).numLocalFacets → facetInfo (views r) i = some info →
        pen[i]? = some (Poisson.preparePenalty (D + 1) (o.p - 1) area volumeAt KAt i info) := by
    have key : ∀ i, i < (views r).numLocalFacets → ∃ info, facetInfo (views r) i = some info := fun i hi => by
      obtain ⟨info, _, _, _, g1, _⟩ := DGTopo.C33_facet_info h.mesh r hr i hi
      exact ⟨info, g1⟩
    haveI : Nonempty FacetInfo := ⟨⟨0, 0, 0, 0, 0, 0, false, false, 0⟩⟩
    choose! info hinfo using key
    refine ⟨(List.range (views r).numLocalFacets).map fun i => Poisson.preparePenalty (D + 1) (o.p - 1) area volumeAt KAt i (info i), ?_, ?_⟩
    · refine Cfl.mapM_all _ _ _ fun i hi => ?_
      rw [hinfo i (List.mem_range.1 hi)]; rfl
    · intro i info' hi hi'
      obtain rfl := Option.some.inj ((hinfo i hi).symm.trans hi')
      rw [List.getElem?_map, List.getElem?_range hi]; rfl
  obtain ⟨pen, hpen, hpg⟩ := hpenM
  have hpenAt : ∀ i info, i < (views r).numLocalFacets → facetInfo (views r) i = some info →
      pen.getD i 0 = Poisson.preparePenalty (D + 1) (o.p - 1) area volumeAt KAt i info := by
    intro i info hi hinfo
    rw [List.getD_eq_getElem?_getD, hpg i info hi hinfo]; rfl
  have hs : poisson o K (views r) (b r) vol = some ⟨⟨poissonRef o, o.method, fun u q => ((prepareVolumes o (views r) (b r))[u]?).elim 0 (·.absDetJ q.val),
      fun u i j q => ((prepareVolumes o (views r) (b r))[u]?).elim 0 (·.jInv q.val i j), KAt,
      fun f s i j q => (fct[f]?).elim 0 fun d => if s = 0 then d.jInv0 q.val i j else d.jInv1 q.val i j,
      fun f i q => (fct[f]?).elim 0 (·.normal q.val i), fun f => pen.getD f 0⟩, area, volumeAt⟩ := by
    unfold poisson
    rw [hmat, hfct]
    exact congrArg (fun x : Option (List ℝ) => x.bind fun penalty => some (⟨⟨poissonRef o, o.method,
      fun u q => ((prepareVolumes o (views r) (b r))[u]?).elim 0 (·.absDetJ q.val),
      fun u i j q => ((prepareVolumes o (views r) (b r))[u]?).elim 0 (·.jInv q.val i j), KAt,
      fun f s i j q => (fct[f]?).elim 0 fun d => if s = 0 then d.jInv0 q.val i j else d.jInv1 q.val i j,
      fun f i q => (fct[f]?).elim 0 (·.normal q.val i), fun f => penalty.getD f 0⟩, area, volumeAt⟩ : PoissonState D o)) hpen
  refine ⟨_, hs, ⟨rfl, rfl, numbers h hr, ?_, ?_, hK, ?_, ?_, ?_⟩, hmeas, hpenAt⟩
  · intro u e he
    simp only [volumes_get h hr he]; rfl
  · intro u e he
    simp only [volumes_get h hr he]; rfl
  · intro i info f s e hi hf he
    obtain ⟨x, hx, hx0, hx1⟩ := hF i info f (info_local h hr hi hf) hi hf
    simp only [hx, Option.elim_some]
    fin_cases s
    · funext a c q
      simp only [Fin.zero_eta, if_pos, (hx0 e he).2.1]; rfl
    · funext a c q
      simp only [Fin.mk_one, if_neg (show ¬ (1 : Fin 2) = 0 by decide), hx1 e he]; rfl
  · intro i info f e hi hf he
    obtain ⟨x, hx, hx0, hx1⟩ := hF i info f (info_local h hr hi hf) hi hf
    simp only [hx, Option.elim_some, (hx0 e he).1]; rfl
  · intro i f hf hi
    obtain ⟨info, f', e0, e1, g1, g2, g3, g4, g5, g6, g7, _⟩ := DGTopo.C33_facet_info h.mesh r hr i hi
    obtain rfl := Option.some.inj (hf.symm.trans g2)
    obtain ⟨p1, p2⟩ := Poisson.penalty_eq h.mesh r hr (o.p - 1) area volumeAt _ _ hmeas KAt _ hK i info f hi g1 hf
    obtain ⟨q1, q2⟩ := facetPenalty_eq h.mesh.mesh (fun e => (((D + 1 : ℕ) : ℝ) + 1) * (Poisson.traceConstant (D + 1) (o.p - 1) *
      (areaOf o d (allElems P elems) f / volumeOf o d e) * ((⨆ m, poissonMaterial o d K e m) * (⨆ m, poissonMaterial o d K e m) / ⨅ m, poissonMaterial o d K e m))) f
    refine (hpenAt i info hi g1).trans ?_
    have he0 := DGTopo.mem_inElems hv g3
    have he1 := DGTopo.mem_inElems hv g4
    unfold poissonPenalty
    by_cases hne : e0 = e1
    · have honly : ∀ a, InElems P elems a → IsFacet a f → a = e0 := by
        intro a ha haf
        rcases g7 a ha haf with h' | h'
        · exact h'
        · rw [h', hne]
      rw [p1 e0 he0 g5 honly, q1 e0 he0 g5 honly]; rfl
    · rw [p2 e0 e1 he0 he1 hne g5 g6, q2 e0 e1 he0 he1 hne g5 g6]; rfl

/-- **C99 (elasticity)**: the same for elasticity, including the inverse density and the time steps of the own elements. -/
theorem C99_elasticity (h : Setup P elems num fnum tag views d b) (hop : (geometryOf o d).Opposite P elems)
    (lam mu : (Fin (D + 1) → ℝ) → ℤ → Fin 1 → ℝ) (rho : Option ((Fin (D + 1) → ℝ) → ℤ → Fin 1 → ℝ)) (C_N : ℝ)
    (hC : Cfl.gradConstant (D + 1) o.p = some C_N) (r : ℕ) (hr : r < P) (vol : List ℝ)
    (hvol : ∀ (u : ℕ) (e : List ℕ), (views r).elems[u]? = some e → vol[u]? = some (volumeOf o d e)) :
    ∃ s, elasticity o lam mu rho (views r) (b r) vol = some s ∧
      Elasticity.Samples (views r) s.op o.method (elasticityRef o) (geometryOf o d) (fun e => (elasticMaterial o d lam mu rho e).1)
        (fun e => (elasticMaterial o d lam mu rho e).2.1)
        (elasticPenalty o d (allElems P elems) (fun e => (elasticMaterial o d lam mu rho e).1) (fun e => (elasticMaterial o d lam mu rho e).2.1)) ∧
      Measures (views r) s.area s.volume (areaOf o d (allElems P elems)) (volumeOf o d) ∧
      (∀ i info, i < (views r).numLocalFacets → facetInfo (views r) i = some info →
        s.op.penalty_ i = Elasticity.preparePenalty (D + 1) (o.p - 1) s.area s.volume s.op.lam s.op.mu i info) ∧
      (∀ (u : ℕ) (e : List ℕ), (views r).elems[u]? = some e → s.op.rhoInv u = (elasticMaterial o d lam mu rho e).2.2) ∧
      Cfl.prepareCfl (views r) o.p C_N s.area s.volume s.op = some s.dts := by
  have hv := h.mesh.view r hr
  obtain ⟨fct, hfct, hF⟩ := facets_get (o := o) h hr
  have hmat1 : ∀ (u : ℕ) (e : List ℕ), (views r).elems[u]? = some e →
      Material.elasticity (b r) o.volRule o.p o.nodes lam mu rho u = some (elasticMaterial o d lam mu rho e) := by
    intro u e he
    have ht := tag_alone d _ _ (h.built r hr) u e he
    have hc : ∀ post fn, Material.coefficients (b r) o.volRule o.p o.nodes post fn u = Material.coefficients (d.alone e) o.volRule o.p o.nodes post fn 0 := by
      intro post fn
      unfold Material.coefficients volumeFunctionalRegion
      rw [volume_congr o.volRule u 0 (geo_alone d _ _ (h.built r hr) u e he), ht.1, ht.2]
    have hsome : ∃ x, Material.elasticity (d.alone e) o.volRule o.p o.nodes lam mu rho 0 = some x := by
      unfold Material.elasticity
      rw [Material.coefficients_eq _ _ _ _ _ _ _ _ ht.2, Material.coefficients_eq _ _ _ _ _ _ _ _ ht.2, Material.coefficients_eq _ _ _ _ _ _ _ _ ht.2]
      exact ⟨_, rfl⟩
    obtain ⟨x, hx⟩ := hsome
    have he : Material.elasticity (b r) o.volRule o.p o.nodes lam mu rho u = Material.elasticity (d.alone e) o.volRule o.p o.nodes lam mu rho 0 := by
      unfold Material.elasticity
      rw [hc, hc, hc]
    unfold elasticMaterial
    rw [he, hx]; rfl
  obtain ⟨mat, hmat, hmg⟩ : ∃ mat, Material.prepareAll (views r).elems.length (Material.elasticity (b r) o.volRule o.p o.nodes lam mu rho) = some mat ∧
      ∀ (u : ℕ) (e : List ℕ), (views r).elems[u]? = some e → mat[u]? = some (elasticMaterial o d lam mu rho e) := by
    refine ⟨(List.range (views r).elems.length).map fun u => elasticMaterial o d lam mu rho ((views r).elems.getD u []), ?_, ?_⟩
    · refine Cfl.mapM_all _ _ _ fun u hu => hmat1 u _ ?_
      rw [List.getD_eq_getElem?_getD, List.getElem?_eq_getElem (List.mem_range.1 hu)]; rfl
    · intro u e he
      have hu := (List.getElem?_eq_some_iff.1 he).1
      rw [List.getElem?_map, List.getElem?_range hu, Option.map_some, List.getD_eq_getElem?_getD, he]; rfl
  set area : ℕ → ℝ := fun f => (fct[f]?).elim 0 (·.area) with harea
  set volumeAt : ℕ → ℝ := fun u => vol.getD u 0 with hvolumeAt
  set lamAt : ℕ → Fin (nbf (D + 1) o.p) → ℝ := fun u => (mat.getD u 0).1 with hlamAt
  set muAt : ℕ → Fin (nbf (D + 1) o.p) → ℝ := fun u => (mat.getD u 0).2.1 with hmuAt
  set rhoAt : ℕ → Fin (nbf (D + 1) o.p) → ℝ := fun u => (mat.getD u 0).2.2 with hrhoAt
  have hlam : ∀ (u : ℕ) (e : List ℕ), (views r).elems[u]? = some e → lamAt u = (elasticMaterial o d lam mu rho e).1 := by
    intro u e he; rw [hlamAt]; simp only [List.getD_eq_getElem?_getD, hmg u e he]; rfl
  have hmu : ∀ (u : ℕ) (e : List ℕ), (views r).elems[u]? = some e → muAt u = (elasticMaterial o d lam mu rho e).2.1 := by
    intro u e he; rw [hmuAt]; simp only [List.getD_eq_getElem?_getD, hmg u e he]; rfl
  have hrho : ∀ (u : ℕ) (e : List ℕ), (views r).elems[u]? = some e → rhoAt u = (elasticMaterial o d lam mu rho e).2.2 := by
    intro u e he; rw [hrhoAt]; simp only [List.getD_eq_getElem?_getD, hmg u e he]; rfl
  have hmeas : Measures (views r) area volumeAt (areaOf o d (allElems P elems)) (volumeOf o d) := by
    constructor
    · intro i f hf hi
      obtain ⟨info, f', e0, e1, g1, g2, g3, g4, g5, _⟩ := DGTopo.C33_facet_info h.mesh r hr i hi
      obtain rfl := Option.some.inj (hf.symm.trans g2)
      obtain ⟨x, hx, hx0, _⟩ := hF i info f hi g1 hf
      rw [harea, area_eq hop (DGTopo.mem_inElems hv g3) g5]
      simp only [hx, Option.elim_some]
      exact (hx0 e0 g3).2.2
    · intro u e he
      rw [hvolumeAt]
      simp only [List.getD_eq_getElem?_getD, hvol u e he]; rfl
  have hpenM : ∃ pen, ((List.range (views r).numLocalFacets).mapM fun f => do
      let info ← facetInfo (views r) f
      return Elasticity.preparePenalty (D + 1) (o.p - 1) area volumeAt lamAt muAt f info) = some pen ∧
      ∀ i info, i < (views r).numLocalFacets → facetInfo (views r) i = some info →
        pen[i]? = some (Elasticity.preparePenalty (D + 1) (o.p - 1) area volumeAt lamAt muAt i info) := by
    have key : ∀ i, i < (views r).numLocalFacets → ∃ info, facetInfo (views r) i = some info := fun i hi => by
      obtain ⟨info, _, _, _, g1, _⟩ := DGTopo.C33_facet_info h.mesh r hr i hi
      exact ⟨info, g1⟩
    haveI : Nonempty FacetInfo := ⟨⟨0, 0, 0, 0, 0, 0, false, false, 0⟩⟩
    choose! info hinfo using key
    refine ⟨(List.range (views r).numLocalFacets).map fun i => Elasticity.preparePenalty (D + 1) (o.p - 1) area volumeAt lamAt muAt i (info i), ?_, ?_⟩
    · refine Cfl.mapM_all _ _ _ fun i hi => ?_
      rw [hinfo i (List.mem_range.1 hi)]; rfl
    · intro i info' hi hi'
      obtain rfl := Option.some.inj ((hinfo i hi).symm.trans hi')
      rw [List.getElem?_map, List.getElem?_range hi]; rfl
  obtain ⟨pen, hpen, hpg⟩ := hpenM
  have hpenAt : ∀ i info, i < (views r).numLocalFacets → facetInfo (views r) i = some info →
      pen.getD i 0 = Elasticity.preparePenalty (D + 1) (o.p - 1) area volumeAt lamAt muAt i info := by
    intro i info hi hinfo
    rw [List.getD_eq_getElem?_getD, hpg i info hi hinfo]; rfl
  set op : Elasticity.Op (D + 1) (nbf (D + 1) o.p) (nbf (D + 1) o.p) o.volRule.points.length o.fctRule.points.length :=
    ⟨elasticityRef o, o.method, fun u q => ((prepareVolumes o (views r) (b r))[u]?).elim 0 (·.absDetJ q.val),
      fun u i j q => ((prepareVolumes o (views r) (b r))[u]?).elim 0 (·.jInv q.val i j), lamAt, muAt, rhoAt,
      fun f s i j q => (fct[f]?).elim 0 fun d => if s = 0 then d.jInv0 q.val i j else d.jInv1 q.val i j,
      fun f i q => (fct[f]?).elim 0 (·.normal q.val i), fun f => pen.getD f 0⟩ with hopdef
  have hsam : ∀ m : Poisson.Method, Elasticity.Samples (views r) { op with method := m } m (elasticityRef o) (geometryOf o d)
      (fun e => (elasticMaterial o d lam mu rho e).1) (fun e => (elasticMaterial o d lam mu rho e).2.1)
      (elasticPenalty o d (allElems P elems) (fun e => (elasticMaterial o d lam mu rho e).1) (fun e => (elasticMaterial o d lam mu rho e).2.1)) := by
    intro m
    refine ⟨rfl, rfl, numbers h hr, ?_, ?_, hlam, hmu, ?_, ?_, ?_⟩
    · intro u e he
      simp only [hopdef, volumes_get h hr he]; rfl
    · intro u e he
      simp only [hopdef, volumes_get h hr he]; rfl
    · intro i info f s e hi hf he
      obtain ⟨x, hx, hx0, hx1⟩ := hF i info f (info_local h hr hi hf) hi hf
      simp only [hopdef, hx, Option.elim_some]
      fin_cases s
      · funext a c q
        simp only [Fin.zero_eta, if_pos, (hx0 e he).2.1]; rfl
      · funext a c q
        simp only [Fin.mk_one, if_neg (show ¬ (1 : Fin 2) = 0 by decide), hx1 e he]; rfl
    · intro i info f e hi hf he
      obtain ⟨x, hx, hx0, hx1⟩ := hF i info f (info_local h hr hi hf) hi hf
      simp only [hopdef, hx, Option.elim_some, (hx0 e he).1]; rfl
    · intro i f hf hi
      obtain ⟨info, f', e0, e1, g1, g2, g3, g4, g5, g6, g7, _⟩ := DGTopo.C33_facet_info h.mesh r hr i hi
      obtain rfl := Option.some.inj (hf.symm.trans g2)
      obtain ⟨p1, p2⟩ := Elasticity.penalty_eq h.mesh r hr (o.p - 1) area volumeAt _ _ hmeas lamAt muAt _ _ hlam hmu i info f hi g1 hf
      obtain ⟨q1, q2⟩ := facetPenalty_eq h.mesh.mesh (fun e => (((D + 1 : ℕ) : ℝ) + 1) * (Poisson.traceConstant (D + 1) (o.p - 1) *
        (areaOf o d (allElems P elems) f / volumeOf o d e) * ((Elasticity.stiffnessBounds (D + 1) (elasticMaterial o d lam mu rho e).1 (elasticMaterial o d lam mu rho e).2.1).2 * (Elasticity.stiffnessBounds (D + 1) (elasticMaterial o d lam mu rho e).1 (elasticMaterial o d lam mu rho e).2.1).2 / (Elasticity.stiffnessBounds (D + 1) (elasticMaterial o d lam mu rho e).1 (elasticMaterial o d lam mu rho e).2.1).1))) f
      refine (hpenAt i info hi g1).trans ?_
      have he0 := DGTopo.mem_inElems hv g3
      have he1 := DGTopo.mem_inElems hv g4
      unfold elasticPenalty
      by_cases hne : e0 = e1
      · have honly : ∀ a, InElems P elems a → IsFacet a f → a = e0 := by
          intro a ha haf
          rcases g7 a ha haf with h' | h'
          · exact h'
          · rw [h', hne]
        rw [p1 e0 he0 g5 honly, q1 e0 he0 g5 honly]; rfl
      · rw [p2 e0 e1 he0 he1 hne g5 g6, q2 e0 e1 he0 he1 hne g5 g6]; rfl
  have hcfl : ∃ dts, Cfl.prepareCfl (views r) o.p C_N area volumeAt op = some dts :=
    ⟨_, Cfl.C97_prepare h.mesh r hr (elasticityRef o) (geometryOf o d) _ _ _ _ (hsam .IP) o.p C_N area volumeAt _ _ hmeas
      (fun e => (elasticMaterial o d lam mu rho e).2.2) hrho⟩
  obtain ⟨dts, hdts⟩ := hcfl
  refine ⟨⟨op, area, volumeAt, dts⟩, ?_, hsam o.method, hmeas, hpenAt, hrho, hdts⟩
  unfold elasticity
  rw [hmat, hfct, hC]
  refine (congrArg (fun x : Option (List ℝ) => x.bind fun penalty => (do
    let op : Elasticity.Op (D + 1) (nbf (D + 1) o.p) (nbf (D + 1) o.p) o.volRule.points.length o.fctRule.points.length :=
      ⟨elasticityRef o, o.method, fun u q => ((prepareVolumes o (views r) (b r))[u]?).elim 0 (·.absDetJ q.val),
      fun u i j q => ((prepareVolumes o (views r) (b r))[u]?).elim 0 (·.jInv q.val i j), lamAt, muAt, rhoAt,
      fun f s i j q => (fct[f]?).elim 0 fun d => if s = 0 then d.jInv0 q.val i j else d.jInv1 q.val i j,
      fun f i q => (fct[f]?).elim 0 (·.normal q.val i), fun f => penalty.getD f 0⟩
    let dts ← Cfl.prepareCfl (views r) o.p C_N area volumeAt op
    return (⟨op, area, volumeAt, dts⟩ : ElasticityState D o))) hpen).trans ?_
  exact congrArg (fun x : Option (List ℝ) => x.bind fun dts => some (⟨op, area, volumeAt, dts⟩ : ElasticityState D o)) hdts

end Tandem.Construct
