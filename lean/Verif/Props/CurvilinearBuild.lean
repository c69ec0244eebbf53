import Verif.Model.CurvilinearBuild
import Verif.Spec.CurvilinearBuild
import Verif.Lemmas.Trace
/-! # C89: curved meshes have no gaps; geometric data of elements and facets -/
namespace Tandem.CurvilinearBuild
open RefElement Error Finset Curvilinear

variable {D : ℕ}

/-! ## Reference elements -/

/-- C89 (equidistant elements): equidistant nodes give conforming elements, in every degree. -/
theorem C89_equidistant (conv : Equidistant.Convention) (hD : D = 1 ∨ D = 2) (N : ℕ) (hN : 0 < N) :
    Spec.ConformingElement D N facetParam (Equidistant.nodes conv (D + 1) N) := by
  have hD1 : D = 1 ∨ D = 2 ∨ D = 3 := by omega
  have hD' : D + 1 = 1 ∨ D + 1 = 2 ∨ D + 1 = 3 := by omega
  have h1 := Equidistant.C61_lattice conv D N hD1 hN
  have h2 := Equidistant.C61_lattice conv (D + 1) N hD' hN
  refine ⟨hN, h2.2.1, (C78_unisolvent (D + 1) N hD' _ h2.2.1).1 (C78_equidistant conv (D + 1) N hD' hN),
    Equidistant.nodes conv D N, h1.1, h1.2.1, fun f χ hχ => ?_⟩
  rw [h2.2.2]
  obtain ⟨α, hα, hχα⟩ := (h1.2.2 χ).1 hχ
  have hN0 : (N : ℝ) ≠ 0 := by exact_mod_cast hN.ne'
  obtain ⟨b0, bk⟩ := Trace.bary_facet f χ
  set β : Fin (D + 2) → ℕ := (missing f).insertNth (α := fun _ => ℕ) 0 (Spec.baryIndex N α) with hβ
  have hβ0 : β (missing f) = 0 := by rw [hβ]; exact Fin.insertNth_apply_same _ _ _
  have hβk : ∀ k, β ((missing f).succAbove k) = Spec.baryIndex N α k := fun k => by
    rw [hβ]; exact Fin.insertNth_apply_succAbove _ _ _ k
  have hb : ∀ k, Spec.baryCoord (facetParam f χ) k = (β k : ℝ) / N := by
    intro k
    rcases Fin.eq_self_or_eq_succAbove (missing f) k with rfl | ⟨k, rfl⟩
    · rw [b0, hβ0]; simp
    · rw [show (missing f).succAbove k = f2v f k from rfl, bk k, show f2v f k = (missing f).succAbove k from rfl, hβk]
      refine Fin.cases ?_ (fun d => ?_) k
      · simp only [Spec.baryCoord, Spec.baryIndex, Fin.cons_zero]
        rw [Nat.cast_sub hα, sub_div, div_self hN0, Nat.cast_sum, sum_div]
        simp only [hχα]
      · simp only [Spec.baryCoord, Spec.baryIndex, Fin.cons_succ, hχα]
  have hsum : ∑ k, β k = N := by
    rw [Fin.sum_univ_succAbove _ (missing f), hβ0, zero_add]
    simp only [hβk]
    rw [Fin.sum_univ_succ]
    simp only [Spec.baryIndex, Fin.cons_zero, Fin.cons_succ]
    omega
  refine ⟨fun d => β d.succ, ?_, fun d => ?_⟩
  · show ∑ d : Fin (D + 1), β d.succ ≤ N
    rw [Fin.sum_univ_succ] at hsum; omega
  · have := hb d.succ
    simpa [Spec.baryCoord] using this

theorem getD_mem {α : Type*} (l : List α) (n : ℕ) (a : α) (h : n < l.length) : l.getD n a ∈ l := by
  rw [List.getD_eq_getElem _ _ h]; exact List.getElem_mem h

/-- Common part of the two cases of `C89_warp_blend`; facet node `m` belongs to the tuple `num m`. -/
theorem shared_of_numbering (hD : D = 1 ∨ D = 2) (N : ℕ) (nodes : List (Fin (D + 1) → ℝ))
    (hlen : nodes.length = nbf (D + 1) N) (hu : Spec.Unisolvent (D + 1) N nodes) (fnodes : List (Fin D → ℝ))
    (hfl : fnodes.length = nbf D N) (num : ℕ → Fin (D + 1) → ℕ)
    (hnum : ∀ i < nbf D N, ∀ j < nbf D N, num i = num j → i = j)
    (hsum : ∀ i < nbf D N, ∑ k, num i k = N)
    (h : ∀ f : Fin (D + 2), ∀ m < nbf D N, ∀ n < nbf (D + 1) N,
      Spec.baryIndex N (index (D + 1) N n) (missing f) = 0 →
      (∀ k, Spec.baryIndex N (index (D + 1) N n) (f2v f k) = num m k) →
      nodes.getD n 0 = facetParam f (fnodes.getD m 0)) :
    Spec.SharedFacetNodes D N facetParam nodes := by
  have hnd := Trace.nodup_of_unisolvent N (by omega) nodes hlen hu
  have hex : ∀ f : Fin (D + 2), ∀ m < nbf D N, ∃ n < nbf (D + 1) N,
      (∀ k, Spec.baryIndex N (index (D + 1) N n) (f2v f k) = num m k) ∧
      nodes.getD n 0 = facetParam f (fnodes.getD m 0) := by
    intro f m hm
    obtain ⟨n, hn, e⟩ := WarpAndBlend.baryIndex_surj (D + 1) N (by omega)
      ((missing f).insertNth (α := fun _ => ℕ) 0 (num m)) (by
        rw [Fin.sum_univ_succAbove _ (missing f), Fin.insertNth_apply_same, zero_add]
        simp only [Fin.insertNth_apply_succAbove]
        exact hsum m hm)
    have e0 : Spec.baryIndex N (index (D + 1) N n) (missing f) = 0 := by
      rw [e, Fin.insertNth_apply_same]
    have ek : ∀ k, Spec.baryIndex N (index (D + 1) N n) (f2v f k) = num m k := fun k => by
      rw [e]; exact Fin.insertNth_apply_succAbove _ _ _ k
    exact ⟨n, hn, ek, h f m hm n hn e0 ek⟩
  refine ⟨fnodes, ?_, hfl, fun f χ hχ => ?_⟩
  · rw [List.nodup_iff_injective_get]
    intro i j hij
    obtain ⟨n, hn, e1, e2⟩ := hex 0 i (by omega)
    obtain ⟨n', hn', e1', e2'⟩ := hex 0 j (by omega)
    have hij' : fnodes.getD i 0 = fnodes.getD j 0 := by
      rw [List.getD_eq_getElem _ _ i.2, List.getD_eq_getElem _ _ j.2]; exact hij
    rw [hij', ← e2'] at e2
    rw [List.getD_eq_getElem _ _ (by omega), List.getD_eq_getElem _ _ (by omega)] at e2
    have hnn : n = n' := (List.Nodup.getElem_inj_iff hnd).1 e2
    subst hnn
    exact Fin.ext (hnum i (by omega) j (by omega) (funext fun k => (e1 k).symm.trans (e1' k)))
  · obtain ⟨m, hm, rfl⟩ := List.getElem_of_mem hχ
    obtain ⟨n, hn, _, e⟩ := hex f m (by omega)
    rw [List.getD_eq_getElem _ _ hm] at e
    rw [← e]
    exact getD_mem _ _ _ (by omega)

theorem index_inj (D N : ℕ) (hD : 0 < D) (i j : ℕ) (hi : i < nbf D N) (hj : j < nbf D N)
    (h : index D N i = index D N j) : i = j := by
  have hni := nodup_indices D N hD
  have hli := length_indices D N hD
  unfold index at h
  rw [List.getD_eq_getElem _ _ (by omega), List.getD_eq_getElem _ _ (by omega)] at h
  exact (List.Nodup.getElem_inj_iff hni).1 h

/-- C89 (warp & blend elements, the default of the program): if the nodes determine the polynomials, as
the program needs in order to invert the Vandermonde matrix, then they give conforming elements, for
every degree up to `2 ^ 16` and every blending parameter. -/
theorem C89_warp_blend (N : ℕ) (hN : 0 < N) (hN' : N ≤ 2 ^ 16) (alpha : ℝ) :
    (Spec.Unisolvent 2 N (WarpAndBlend.nodes2 N alpha) →
      Spec.ConformingElement 1 N facetParam (WarpAndBlend.nodes2 N alpha)) ∧
    (Spec.Unisolvent 3 N (WarpAndBlend.nodes3 N alpha) →
      Spec.ConformingElement 2 N facetParam (WarpAndBlend.nodes3 N alpha)) := by
  obtain ⟨l1, l2, l3, _⟩ := WarpAndBlend.C86_count N alpha
  constructor
  · intro hu
    have h1 : nbf 1 N = N + 1 := by simp [nbf]
    refine ⟨hN, l2, hu, shared_of_numbering (D := 1) (by omega) N _ l2 hu (WarpAndBlend.nodes1 N) l1
      (fun m => ![N - m, m]) (fun i _ j _ e => ?_) (fun i hi => ?_) fun f m hm n hn e0 ek => ?_⟩
    · simpa using congrFun e 1
    · rw [Fin.sum_univ_two]; simp; omega
    · rw [WarpAndBlend.C86_edge N hN hN' alpha f n hn e0, ek 1]
      rfl
  · intro hu
    refine ⟨hN, l3, hu, shared_of_numbering (D := 2) (by omega) N _ l3 hu (WarpAndBlend.nodes2 N alpha) l2
      (fun m => Spec.baryIndex N (index 2 N m)) (fun i hi j hj e => ?_) (fun i hi => ?_) fun f m hm n hn e0 ek => ?_⟩
    · refine index_inj 2 N (by norm_num) i j hi hj (funext fun d => ?_)
      simpa [Spec.baryIndex] using congrFun e d.succ
    · exact WarpAndBlend.baryIndex_sum N _ (index_degree 2 N i (by norm_num) hi)
    · obtain ⟨m', hm', e1, e2⟩ := WarpAndBlend.C86_face N hN hN' alpha f n hn e0
      have : m' = m := by
        refine index_inj 2 N (by norm_num) m' m hm' hm (funext fun d => ?_)
        have := (e1 d.succ).trans (ek d.succ)
        simpa [Spec.baryIndex] using this
      rw [e2, this]

/-! ## Construction -/

theorem evalBasis_eq (hD : 0 < D) (refNodes : List (Fin D → ℝ)) (e : ElementNodes D) :
    (evalBasis refNodes e = none ∧ ∀ M, 1 ≤ M → e.perElement + D + 1 ≠ (M + D).choose D) ∨
    ∃ M, 1 ≤ M ∧ e.perElement + D + 1 = (M + D).choose D ∧
      evalBasis refNodes e = some (nodalBasis M (Equidistant.nodes e.conv D M) refNodes 1) := by
  obtain ⟨r, h1, h2⟩ := Functions.C56_degree D (e.perElement + D + 1) (e.perElement + D + 2) hD (by omega) (by omega)
  unfold evalBasis
  rw [h1]
  cases r with
  | none => exact .inl ⟨rfl, fun M hM h => by simpa using (h2 M).2 ⟨hM, h⟩⟩
  | some M => exact .inr ⟨M, ((h2 M).1 rfl).1, ((h2 M).1 rfl).2, rfl⟩

/-- C89 (when the construction fails): it fails exactly if the mesh has no vertex coordinates, or if it
has curved elements whose number of nodes is not that of a polynomial degree. -/
theorem C89_throws (hD : 0 < D) (m : MeshIn D) (transform : (Fin D → ℝ) → Fin D → ℝ) (degree : ℕ)
    (refNodes : List (Fin D → ℝ)) :
    build m transform degree refNodes = none ↔
      m.verts = none ∨ ∃ e, m.elementData = some e ∧ ∀ M, 1 ≤ M → e.perElement + D + 1 ≠ (M + D).choose D := by
  unfold build
  cases hv : m.verts with
  | none => simp
  | some verts =>
    cases he : m.elementData with
    | none => simp
    | some e =>
      rcases evalBasis_eq hD refNodes e with ⟨h1, h2⟩ | ⟨M, hM, h1, h2⟩
      · simp [h1]; exact h2
      · simp only [h2, reduceCtorEq, false_or, Option.some.injEq, exists_eq_left', false_iff]
        push Not
        exact ⟨M, hM, h1⟩

/-- The curved point is the value of the interpolating polynomial. -/
theorem curvedPoint_eq (hD : D = 2 ∨ D = 3) (M : ℕ) (hM : 1 ≤ M) (conv : Equidistant.Convention)
    (verts : Fin (D + 1) → Fin D → ℝ) (others : ℕ → Fin D → ℝ) (refNodes : List (Fin D → ℝ))
    (I : (Fin D → ℝ) → Fin D → ℝ)
    (hI : ∀ d, Spec.Interpolates D M (Equidistant.nodes conv D M)
      (fun k => Spec.elementNode verts others k d) (fun ξ => I ξ d)) (j : ℕ) (hj : j < refNodes.length) :
    curvedPoint verts others (nodalBasis M (Equidistant.nodes conv D M) refNodes 1) j = I refNodes[j] := by
  have hD' : D = 1 ∨ D = 2 ∨ D = 3 := by omega
  have hlat := Equidistant.C61_lattice conv D M hD' hM
  have hbig : D + 1 ≤ nbf D M := by
    have h1 : (1 + D).choose D ≤ (M + D).choose D := Nat.choose_le_choose D (by omega)
    have h2 : (1 + D).choose D = D + 1 := by rw [Nat.add_comm 1 D, Nat.choose_succ_self_right]
    unfold nbf; omega
  funext d
  have h := congrFun (interp_eq M hD' _ hlat.2.1 (C78_equidistant conv D M hD' hM) _ _ (hI d)) refNodes[j]
  rw [h]
  have hsh : (nodalBasis M (Equidistant.nodes conv D M) refNodes 1).shape 0 = nbf D M := by
    have := (C78_evaluation M (Equidistant.nodes conv D M) refNodes 1 ⟨0, by omega⟩ j hj).2.2
    rw [this]; rfl
  unfold curvedPoint
  rw [hsh]
  have hsplit : ∑ k : Fin (nbf D M), Spec.elementNode verts others k d
        * nodalFunction M (Equidistant.nodes conv D M) k refNodes[j]
      = ∑ k ∈ range (nbf D M), Spec.elementNode verts others k d
        * (nodalBasis M (Equidistant.nodes conv D M) refNodes 1).val ![k, j] := by
    rw [range_fin]
    exact sum_congr rfl fun k _ => by rw [basis_col _ _ _ _ _ hj]
  rw [hsplit, ← sum_range_add_sum_Ico _ hbig]
  congr 1
  · rw [range_fin]
    refine sum_congr rfl fun k _ => ?_
    unfold Spec.elementNode
    rw [dif_pos k.2]
  · refine sum_congr rfl fun k hk => ?_
    rw [mem_Ico] at hk
    unfold Spec.elementNode
    rw [dif_neg (by omega)]

/-- C89 (positions of the nodes): node `k` of an element is put where `transform` sends the image of the
reference node, under the affine map onto the simplex or, if the mesh has curved elements, under the
polynomial map of their degree `M` that takes the equidistant nodes to the nodes of the mesh file. -/
theorem C89_nodes (hD : D = 2 ∨ D = 3) (m : MeshIn D) (transform : (Fin D → ℝ) → Fin D → ℝ) (degree : ℕ)
    (refNodes : List (Fin D → ℝ)) (b : Built D) (hb : build m transform degree refNodes = some b)
    (verts : ℕ → Fin (D + 1) → Fin D → ℝ) (hv : m.verts = some verts) :
    b.geo.degree = degree ∧ b.geo.nodes = refNodes ∧
    (m.elementData = none → ∀ el k (hk : k < refNodes.length),
      b.geo.verts el k = transform (refToGeneral (verts el) refNodes[k])) ∧
    (∀ e, m.elementData = some e → ∃ M, 1 ≤ M ∧ e.perElement + D + 1 = (M + D).choose D ∧
      ∀ el (I : (Fin D → ℝ) → Fin D → ℝ), (∀ d, Spec.Interpolates D M (Equidistant.nodes e.conv D M)
        (fun k => Spec.elementNode (verts el) (e.nodes el) k d) (fun ξ => I ξ d)) →
      ∀ k (hk : k < refNodes.length), b.geo.verts el k = transform (I refNodes[k])) := by
  unfold build at hb
  rw [hv] at hb
  cases he : m.elementData with
  | none =>
    rw [he] at hb
    cases hb
    refine ⟨rfl, rfl, fun _ el k hk => ?_, (fun e h => by cases h)⟩
    simp only [position, List.getD_eq_getElem _ _ hk]
  | some e =>
    rw [he] at hb
    rcases evalBasis_eq (by omega) refNodes e with ⟨h1, h2⟩ | ⟨M, hM, h1, h2⟩
    · simp [h1] at hb
    · simp only [h2] at hb
      cases hb
      refine ⟨rfl, rfl, (fun h => by cases h), fun e' h => ?_⟩
      cases h
      refine ⟨M, hM, h1, fun el I hI k hk => ?_⟩
      simp only [position]
      rw [curvedPoint_eq hD M hM e.conv _ _ refNodes I hI k hk]

/-- Every element of a mesh file has a polynomial map. -/
theorem exists_interp (N : ℕ) (hD : D = 1 ∨ D = 2 ∨ D = 3) (nodes : List (Fin D → ℝ))
    (hlen : nodes.length = nbf D N) (hV : Spec.Unisolvent D N nodes) (pos : ℕ → Fin D → ℝ) :
    ∃ I : (Fin D → ℝ) → Fin D → ℝ, ∀ d, Spec.Interpolates D N nodes (fun k => pos k d) (fun ξ => I ξ d) := by
  have hU := (C78_unisolvent D N hD nodes hlen).2 hV
  refine ⟨fun ξ d => ∑ k : Fin (nbf D N), pos k d * nodalFunction N nodes k ξ, fun d => ⟨?_, fun k hk => ?_⟩⟩
  · exact isPoly_sum D _ univ _ fun k _ => isPoly_const_mul D _ _ _ (C78_lagrange D N (by omega) nodes hlen hU k).1
  · simp only
    rw [sum_eq_single ⟨k, by omega⟩]
    · rw [(C78_lagrange D N (by omega) nodes hlen hU ⟨k, by omega⟩).2 ⟨k, by omega⟩]
      simp
    · intro k' _ hne
      rw [(C78_lagrange D N (by omega) nodes hlen hU k').2 ⟨k, by omega⟩, if_neg hne, mul_zero]
    · simp

/-- Two elements of a mesh share a facet: local facets `f0` of element `e0` and `f1` of element `e1` have
the same vertices in the same order and, if the elements are curved, the nodes of the mesh file at the
same place of the facet coincide. -/
def Neighbours (m : MeshIn (D + 1)) (verts : ℕ → Fin (D + 2) → Fin (D + 1) → ℝ) (e0 e1 : ℕ) (f0 f1 : Fin (D + 2)) : Prop :=
  (∀ k, verts e0 (f2v f0 k) = verts e1 (f2v f1 k)) ∧
  ∀ e M, m.elementData = some e → e.perElement + (D + 1) + 1 = (M + (D + 1)).choose (D + 1) →
    ∀ (χ : Fin D → ℝ) (k l : ℕ),
      (Equidistant.nodes e.conv (D + 1) M)[k]? = some (facetParam f0 χ) →
      (Equidistant.nodes e.conv (D + 1) M)[l]? = some (facetParam f1 χ) →
      Spec.elementNode (verts e0) (e.nodes e0) k = Spec.elementNode (verts e1) (e.nodes e1) l

/-- Interpolants of the same data on a facet agree on the facet. -/
theorem interp_agree (hD : D = 1 ∨ D = 2) (N : ℕ) (nodes : List (Fin (D + 1) → ℝ))
    (hc : Spec.ConformingElement D N facetParam nodes) (f0 f1 : Fin (D + 2)) (pos0 pos1 : ℕ → Fin (D + 1) → ℝ)
    (hpos : ∀ (χ : Fin D → ℝ) k l, nodes[k]? = some (facetParam f0 χ) → nodes[l]? = some (facetParam f1 χ) → pos0 k = pos1 l)
    (F0 F1 : (Fin (D + 1) → ℝ) → Fin (D + 1) → ℝ)
    (h0 : ∀ i, Spec.Interpolates (D + 1) N nodes (fun k => pos0 k i) (fun ξ => F0 ξ i))
    (h1 : ∀ i, Spec.Interpolates (D + 1) N nodes (fun k => pos1 k i) (fun ξ => F1 ξ i)) (χ : Fin D → ℝ) :
    F0 (facetParam f0 χ) = F1 (facetParam f1 χ) := by
  obtain ⟨fnodes, hnd, hfl, hmem⟩ := hc.shared
  funext i
  refine Trace.trace_agree hD N hc.degree nodes hc.length hc.unisolvent fnodes hnd hfl hmem f0 f1 _ _
    (h0 i).1 (h1 i).1 (fun χ hχ => ?_) χ
  obtain ⟨k, hk, ek⟩ := List.getElem_of_mem (hmem f0 χ hχ)
  obtain ⟨l, hl, el⟩ := List.getElem_of_mem (hmem f1 χ hχ)
  have e0 := (h0 i).2 k hk
  have e1 := (h1 i).2 l hl
  simp only [ek] at e0
  simp only [el] at e1
  rw [e0, e1]
  exact congrFun (hpos χ k l (by rw [List.getElem?_eq_getElem hk, ek]) (by rw [List.getElem?_eq_getElem hl, el])) i

/-- C89 (no gaps): whatever the transformation of the domain, the maps of two elements that share a facet
agree at every point of the facet, so the curved mesh has neither gaps nor overlaps there. -/
theorem C89_no_gaps (hD : D = 1 ∨ D = 2) (m : MeshIn (D + 1)) (transform : (Fin (D + 1) → ℝ) → Fin (D + 1) → ℝ)
    (N : ℕ) (refNodes : List (Fin (D + 1) → ℝ)) (hc : Spec.ConformingElement D N facetParam refNodes)
    (b : Built (D + 1)) (hb : build m transform N refNodes = some b)
    (verts : ℕ → Fin (D + 2) → Fin (D + 1) → ℝ) (hv : m.verts = some verts)
    (e0 e1 : ℕ) (f0 f1 : Fin (D + 2)) (hn : Neighbours m verts e0 e1 f0 f1)
    (F0 F1 : (Fin (D + 1) → ℝ) → Fin (D + 1) → ℝ) (DF0 DF1 : (Fin (D + 1) → ℝ) → Matrix (Fin (D + 1)) (Fin (D + 1)) ℝ)
    (h0 : Spec.ElementMap (D + 1) b.geo.degree b.geo.nodes (b.geo.verts e0) F0 DF0)
    (h1 : Spec.ElementMap (D + 1) b.geo.degree b.geo.nodes (b.geo.verts e1) F1 DF1) (χ : Fin D → ℝ) :
    F0 (facetParam f0 χ) = F1 (facetParam f1 χ) := by
  obtain ⟨g1, g2, g3, g4⟩ := C89_nodes (by omega) m transform N refNodes b hb verts hv
  rw [g1, g2] at h0 h1
  refine interp_agree hD N refNodes hc f0 f1 (b.geo.verts e0) (b.geo.verts e1) (fun χ k l hk hl => ?_) F0 F1
    (fun i => (h0 i).1) (fun i => (h1 i).1) χ
  obtain ⟨hk, ek⟩ := List.getElem?_eq_some_iff.1 hk
  obtain ⟨hl, el⟩ := List.getElem?_eq_some_iff.1 hl
  cases he : m.elementData with
  | none =>
    rw [g3 he e0 k hk, g3 he e1 l hl, ek, el, C58_facet_agree D (verts e0) (verts e1) f0 f1 hn.1]
  | some e =>
    obtain ⟨M, hM, hMn, hI⟩ := g4 e he
    have hcM := C89_equidistant e.conv hD M hM
    obtain ⟨I0, hI0⟩ := exists_interp M (by omega) _ hcM.length hcM.unisolvent (Spec.elementNode (verts e0) (e.nodes e0))
    obtain ⟨I1, hI1⟩ := exists_interp M (by omega) _ hcM.length hcM.unisolvent (Spec.elementNode (verts e1) (e.nodes e1))
    rw [hI e0 I0 hI0 k hk, hI e1 I1 hI1 l hl, ek, el]
    congr 1
    exact interp_agree hD M _ hcM f0 f1 _ _ (fun χ k l hk hl => hn.2 e M he hMn χ k l hk hl) I0 I1 hI0 hI1 χ

/-- C89 (coordinates from both sides): `map` returns the same points of a facet from both elements. -/
theorem C89_points (hD : D = 1 ∨ D = 2) (m : MeshIn (D + 1)) (transform : (Fin (D + 1) → ℝ) → Fin (D + 1) → ℝ)
    (N : ℕ) (refNodes : List (Fin (D + 1) → ℝ)) (hc : Spec.ConformingElement D N facetParam refNodes)
    (b : Built (D + 1)) (hb : build m transform N refNodes = some b)
    (verts : ℕ → Fin (D + 2) → Fin (D + 1) → ℝ) (hv : m.verts = some verts)
    (e0 e1 : ℕ) (f0 f1 : Fin (D + 2)) (hn : Neighbours m verts e0 e1 f0 f1) (points : List (Fin D → ℝ)) (q : ℕ)
    (hq : q < points.length) :
    geoMap b.geo e0 (geoBasis b.geo (points.map (facetParam f0))) q
      = geoMap b.geo e1 (geoBasis b.geo (points.map (facetParam f1))) q := by
  obtain ⟨g1, g2, _⟩ := C89_nodes (by omega) m transform N refNodes b hb verts hv
  have hl : b.geo.nodes.length = nbf (D + 1) b.geo.degree := by rw [g1, g2]; exact hc.length
  have hu : Spec.Unisolvent (D + 1) b.geo.degree b.geo.nodes := by rw [g1, g2]; exact hc.unisolvent
  obtain ⟨F0, DF0, h0, r0⟩ := C62_geometry b.geo (by omega) hl hu e0
  obtain ⟨F1, DF1, h1, r1⟩ := C62_geometry b.geo (by omega) hl hu e1
  rw [(r0 _ q (by simpa using hq)).1, (r1 _ q (by simpa using hq)).1, List.getElem_map, List.getElem_map]
  exact C89_no_gaps hD m transform N refNodes hc b hb verts hv e0 e1 f0 f1 hn F0 F1 DF0 DF1 h0 h1 _

theorem facetParam_line (f : Fin (D + 2)) (χ : Fin D → ℝ) (k : Fin D) (t : ℝ) :
    facetParam f (fun d => χ d + t * (Pi.single k 1 : Fin D → ℝ) d)
      = fun d => facetParam f χ d + t * (Equidistant.refVertices (D + 1) (f2v f k.succ)
          - Equidistant.refVertices (D + 1) (f2v f 0)) d := by
  funext d
  have hs : ∑ x, (χ x + t * (Pi.single k 1 : Fin D → ℝ) x) = ∑ x, χ x + t := by
    rw [sum_add_distrib, ← mul_sum]; simp
  have hs2 : ∑ x, (χ x + t * (Pi.single k 1 : Fin D → ℝ) x) * Equidistant.refVertices (D + 1) (f2v f x.succ) d
      = ∑ x, χ x * Equidistant.refVertices (D + 1) (f2v f x.succ) d
        + t * Equidistant.refVertices (D + 1) (f2v f k.succ) d := by
    simp only [add_mul, sum_add_distrib]
    congr 1
    rw [sum_eq_single k]
    · simp
    · intro b _ hb; simp [Pi.single_apply, hb]
    · simp
  simp only [facetParam, hs, hs2, Pi.sub_apply]
  ring

theorem tangents_agree (f0 f1 : Fin (D + 2)) (F0 F1 : (Fin (D + 1) → ℝ) → Fin (D + 1) → ℝ)
    (DF0 DF1 : (Fin (D + 1) → ℝ) → Matrix (Fin (D + 1)) (Fin (D + 1)) ℝ)
    (h0 : ∀ i ξ, Spec.IsGradient (fun x => F0 x i) (DF0 ξ i) ξ)
    (h1 : ∀ i ξ, Spec.IsGradient (fun x => F1 x i) (DF1 ξ i) ξ)
    (h : ∀ χ, F0 (facetParam f0 χ) = F1 (facetParam f1 χ)) (χ : Fin D → ℝ) (k : Fin (D + 1)) :
    (DF0 (facetParam f0 χ)).mulVec (Equidistant.refVertices (D + 1) (f2v f0 k) - Equidistant.refVertices (D + 1) (f2v f0 0))
      = (DF1 (facetParam f1 χ)).mulVec
        (Equidistant.refVertices (D + 1) (f2v f1 k) - Equidistant.refVertices (D + 1) (f2v f1 0)) := by
  refine Fin.cases (by simp) (fun k => ?_) k
  funext i
  have d0 := h0 i (facetParam f0 χ) (Equidistant.refVertices (D + 1) (f2v f0 k.succ) - Equidistant.refVertices (D + 1) (f2v f0 0))
  have d1 := h1 i (facetParam f1 χ) (Equidistant.refVertices (D + 1) (f2v f1 k.succ) - Equidistant.refVertices (D + 1) (f2v f1 0))
  simp only [← facetParam_line] at d0 d1
  have e : (fun t : ℝ => F0 (facetParam f0 fun d => χ d + t * (Pi.single k 1 : Fin D → ℝ) d) i)
      = fun t : ℝ => F1 (facetParam f1 fun d => χ d + t * (Pi.single k 1 : Fin D → ℝ) d) i := by
    funext t; rw [h]
  rw [e] at d0
  exact d0.unique d1

/-- C89 (normals from both sides): at each point of a common facet where both maps are regular, the
normals computed from the two elements are opposite if the elements lie on different sides of the facet,
and equal otherwise (the mesh is folded there). -/
theorem C89_normals (hD : D = 1 ∨ D = 2) (m : MeshIn (D + 1)) (transform : (Fin (D + 1) → ℝ) → Fin (D + 1) → ℝ)
    (N : ℕ) (refNodes : List (Fin (D + 1) → ℝ)) (hc : Spec.ConformingElement D N facetParam refNodes)
    (b : Built (D + 1)) (hb : build m transform N refNodes = some b)
    (verts : ℕ → Fin (D + 2) → Fin (D + 1) → ℝ) (hv : m.verts = some verts)
    (e0 e1 : ℕ) (f0 f1 : Fin (D + 2)) (hn : Neighbours m verts e0 e1 f0 f1)
    (F0 F1 : (Fin (D + 1) → ℝ) → Fin (D + 1) → ℝ) (DF0 DF1 : (Fin (D + 1) → ℝ) → Matrix (Fin (D + 1)) (Fin (D + 1)) ℝ)
    (h0 : Spec.ElementMap (D + 1) b.geo.degree b.geo.nodes (b.geo.verts e0) F0 DF0)
    (h1 : Spec.ElementMap (D + 1) b.geo.degree b.geo.nodes (b.geo.verts e1) F1 DF1) (χ : Fin D → ℝ)
    (hd0 : (DF0 (facetParam f0 χ)).det ≠ 0) (hd1 : (DF1 (facetParam f1 χ)).det ≠ 0) :
    let n0 := normal f0 (DF0 (facetParam f0 χ))
    let n1 := normal f1 (DF1 (facetParam f1 χ))
    let inward1 := (DF1 (facetParam f1 χ)).mulVec
      (Equidistant.refVertices (D + 1) (missing f1) - Equidistant.refVertices (D + 1) (f2v f1 0))
    (0 < dot n0 inward1 ∧ n1 = -n0) ∨ (dot n0 inward1 < 0 ∧ n1 = n0) := by
  have hng := C89_no_gaps hD m transform N refNodes hc b hb verts hv e0 e1 f0 f1 hn F0 F1 DF0 DF1 h0 h1
  have ht := tangents_agree f0 f1 F0 F1 DF0 DF1 (fun i => (h0 i).2) (fun i => (h1 i).2) hng χ
  obtain ⟨a1, a2, a3⟩ := C58_normals_opposite D (by omega) f0 f1 _ _ hd0 hd1 ht
  intro n0 n1 inward1
  rcases lt_or_gt_of_ne a1 with h | h
  · exact .inr ⟨h, a3 h⟩
  · exact .inl ⟨h, a2 h⟩

/-! ## Exact geometries -/

theorem interp_unique (N : ℕ) (nodes : List (Fin D → ℝ)) (hu : Spec.Unisolvent D N nodes) (pos : ℕ → ℝ)
    (u w : (Fin D → ℝ) → ℝ) (hu' : Spec.Interpolates D N nodes pos u) (hw : Spec.IsPoly D N w)
    (h : ∀ k (hk : k < nodes.length), w nodes[k] = pos k) : u = w := by
  funext x
  refine sub_eq_zero.1 (hu (fun x => u x - w x) (Trace.isPoly_sub _ _ _ _ hu'.1 hw) (fun x hx => ?_) x)
  obtain ⟨k, hk, rfl⟩ := List.getElem_of_mem hx
  rw [hu'.2 k hk, h k hk, sub_self]

theorem isPoly_refToGeneral (verts : Fin (D + 1) → Fin D → ℝ) (i : Fin D) :
    Spec.IsPoly D 1 (fun ξ => refToGeneral verts ξ i) := by
  unfold refToGeneral
  refine isPoly_add D 1 _ _ ?_ (isPoly_sum D 1 univ _ fun d _ => ?_)
  · have := isPoly_const_mul D 1 (verts 0 i) _ (Trace.isPoly_bary (D := D) 0)
    simpa only [Spec.baryCoord, Fin.cons_zero, mul_comm] using this
  · have := isPoly_const_mul D 1 (verts d.succ i) _ (isPoly_coord D d)
    simpa only [mul_comm] using this

/-- C89 (nothing is lost): if the domain is not transformed, the element maps are exactly the affine maps
onto the simplices of the mesh or, for curved elements of degree at most `N`, the polynomial maps of the
mesh file. -/
theorem C89_reproduces (hD : D = 2 ∨ D = 3) (m : MeshIn D) (N : ℕ) (hN : 1 ≤ N) (refNodes : List (Fin D → ℝ))
    (hu : Spec.Unisolvent D N refNodes) (b : Built D) (hb : build m id N refNodes = some b)
    (verts : ℕ → Fin (D + 1) → Fin D → ℝ) (hv : m.verts = some verts) (el : ℕ)
    (F : (Fin D → ℝ) → Fin D → ℝ) (DF : (Fin D → ℝ) → Matrix (Fin D) (Fin D) ℝ)
    (hF : Spec.ElementMap D b.geo.degree b.geo.nodes (b.geo.verts el) F DF) :
    (m.elementData = none → ∀ ξ, F ξ = refToGeneral (verts el) ξ) ∧
    (∀ e M, m.elementData = some e → 1 ≤ M → M ≤ N → e.perElement + D + 1 = (M + D).choose D →
      ∀ I : (Fin D → ℝ) → Fin D → ℝ, (∀ d, Spec.Interpolates D M (Equidistant.nodes e.conv D M)
        (fun k => Spec.elementNode (verts el) (e.nodes el) k d) (fun ξ => I ξ d)) → ∀ ξ, F ξ = I ξ) := by
  obtain ⟨g1, g2, g3, g4⟩ := C89_nodes hD m id N refNodes b hb verts hv
  rw [g1, g2] at hF
  constructor
  · intro he ξ
    funext i
    exact congrFun (interp_unique N refNodes hu _ _ _ (hF i).1 (isPoly_mono D 1 N hN _ (isPoly_refToGeneral (verts el) i))
      fun k hk => by rw [g3 he el k hk]; rfl) ξ
  · intro e M he hM hMN hMn I hI ξ
    obtain ⟨M', hM', hMn', hI'⟩ := g4 e he
    have : M' = M := by
      rcases lt_trichotomy M' M with h | h | h
      · have := Functions.choose_strictMono D (by omega) h; omega
      · exact h
      · have := Functions.choose_strictMono D (by omega) h; omega
    subst this
    funext i
    exact congrFun (interp_unique N refNodes hu _ _ _ (hF i).1 (isPoly_mono D M' N hMN _ (hI i).1)
      fun k hk => by rw [hI' el I hI k hk]; rfl) ξ

/-! ## Mesh size and tags -/

theorem foldl_max_spec {α : Type*} (g : α → ℝ) : ∀ (l : List α) (h : ℝ),
    h ≤ l.foldl (fun h a => max h (g a)) h ∧ (∀ a ∈ l, g a ≤ l.foldl (fun h a => max h (g a)) h) ∧
      (l.foldl (fun h a => max h (g a)) h = h ∨ ∃ a ∈ l, l.foldl (fun h a => max h (g a)) h = g a) := by
  intro l
  induction l with
  | nil => intro h; simp
  | cons a l ih =>
    intro h
    obtain ⟨h1, h2, h3⟩ := ih (max h (g a))
    rw [List.foldl_cons]
    refine ⟨(le_max_left _ _).trans h1, ?_, ?_⟩
    · rw [List.forall_mem_cons]
      exact ⟨(le_max_right _ _).trans h1, h2⟩
    · rcases h3 with h3 | ⟨x, hx, h3⟩
      · rw [h3]
        rcases max_choice h (g a) with e | e
        · exact .inl e
        · exact .inr ⟨a, List.mem_cons_self, e⟩
      · exact .inr ⟨x, List.mem_cons_of_mem _ hx, h3⟩

theorem meshSize_eq (transform : (Fin D → ℝ) → Fin D → ℝ) (verts : ℕ → Fin (D + 1) → Fin D → ℝ) (n : ℕ) :
    meshSize transform verts n = ((List.range n).flatMap fun el => (List.finRange (D + 1)).flatMap fun i =>
      (List.finRange (D + 1)).map fun j => (el, i, j)).foldl (fun h a => max h
        (Curvilinear.norm (transform (verts a.1 a.2.1) - transform (verts a.1 a.2.2)))) 0 := by
  simp only [List.foldl_flatMap, List.foldl_map]
  rfl

/-- C89 (mesh size): the local mesh size is the greatest distance of two transformed vertices of an
element, and zero if there is no element. -/
theorem C89_mesh_size (m : MeshIn D) (transform : (Fin D → ℝ) → Fin D → ℝ) (N : ℕ) (refNodes : List (Fin D → ℝ))
    (b : Built D) (hb : build m transform N refNodes = some b) (verts : ℕ → Fin (D + 1) → Fin D → ℝ)
    (hv : m.verts = some verts) :
    (m.numElements = 0 → b.meshSize = 0) ∧
    (0 < m.numElements → IsGreatest {d | ∃ el < m.numElements, ∃ i j,
      d = Real.sqrt (∑ c, (transform (verts el i) c - transform (verts el j) c) ^ 2)} b.meshSize) := by
  have hs : b.meshSize = meshSize transform verts m.numElements := by
    unfold build at hb
    rw [hv] at hb
    cases he : m.elementData with
    | none => rw [he] at hb; cases hb; rfl
    | some e =>
      rw [he] at hb
      cases hE : evalBasis refNodes e with
      | none => simp [hE] at hb
      | some E => simp only [hE] at hb; cases hb; rfl
  have hn : ∀ x y : Fin D → ℝ, Curvilinear.norm (x - y) = Real.sqrt (∑ c, (x c - y c) ^ 2) := by
    intro x y
    unfold Curvilinear.norm Curvilinear.dot
    congr 1
    exact sum_congr rfl fun c _ => by rw [sq]; rfl
  rw [hs]
  constructor
  · intro h; rw [h]; rfl
  · intro h
    rw [meshSize_eq]
    obtain ⟨h1, h2, h3⟩ := foldl_max_spec (fun a : ℕ × Fin (D + 1) × Fin (D + 1) =>
      Curvilinear.norm (transform (verts a.1 a.2.1) - transform (verts a.1 a.2.2)))
      ((List.range m.numElements).flatMap fun el => (List.finRange (D + 1)).flatMap fun i =>
        (List.finRange (D + 1)).map fun j => (el, i, j)) 0
    constructor
    · rcases h3 with h3 | ⟨a, ha, h3⟩
      · rw [h3]
        exact ⟨0, h, 0, 0, by simp⟩
      · rw [h3]
        simp only [List.mem_flatMap, List.mem_map, List.mem_range] at ha
        obtain ⟨el, hel, i, _, j, _, rfl⟩ := ha
        exact ⟨el, hel, i, j, hn _ _⟩
    · rintro d ⟨el, hel, i, j, rfl⟩
      rw [← hn]
      refine h2 (el, i, j) ?_
      simp only [List.mem_flatMap, List.mem_map, List.mem_range]
      exact ⟨el, hel, i, List.mem_finRange i, j, List.mem_finRange j, rfl⟩

/-- C89 (tags): without tags in the mesh every element has tag -1; with tags each element has its own. -/
theorem C89_tags (m : MeshIn D) (transform : (Fin D → ℝ) → Fin D → ℝ) (N : ℕ) (refNodes : List (Fin D → ℝ))
    (b : Built D) (hb : build m transform N refNodes = some b) (el : ℕ) (hel : el < m.numElements) :
    (m.tags = none → getVolumeTag b el = some (-1)) ∧
    (∀ t, m.tags = some t → t.length = m.numElements → getVolumeTag b el = t[el]? ∧ t[el]?.isSome) := by
  have hs : b.volumeTags = volumeTags m.tags m.numElements := by
    unfold build at hb
    cases hv : m.verts with
    | none => simp [hv] at hb
    | some verts =>
      rw [hv] at hb
      cases he : m.elementData with
      | none => rw [he] at hb; cases hb; rfl
      | some e =>
        rw [he] at hb
        cases hE : evalBasis refNodes e with
        | none => simp [hE] at hb
        | some E => simp only [hE] at hb; cases hb; rfl
  unfold getVolumeTag
  rw [hs]
  constructor
  · intro h; rw [h]; simp [volumeTags, hel]
  · intro t h hl; rw [h]; simp [volumeTags, hl, hel]

end Tandem.CurvilinearBuild
