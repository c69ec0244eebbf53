import Verif.Lemmas.WarpBary
/-! # Property C86: interpolation nodes (warp & blend) -/
namespace Tandem.WarpAndBlend
open Functions RefElement Quadrature Curvilinear Equidistant Spec

/-! ### Helpers -/

theorem baryIndex_sum {D : ℕ} (N : ℕ) (i : Fin D → ℕ) (h : ∑ d, i d ≤ N) : ∑ k, baryIndex N i k = N := by
  unfold baryIndex
  rw [Fin.sum_univ_succ]
  simp only [Fin.cons_zero, Fin.cons_succ]
  omega

theorem baryIndex_surj (D N : ℕ) (hD : 0 < D) (b : Fin (D + 1) → ℕ) (h : ∑ k, b k = N) :
    ∃ n < nbf D N, baryIndex N (index D N n) = b := by
  rw [Fin.sum_univ_succ] at h
  obtain ⟨n, e⟩ := index_surj D N hD (fun d => b d.succ) (by omega)
  refine ⟨n, n.2, ?_⟩
  rw [e]
  funext k
  unfold baryIndex
  refine Fin.cases ?_ (fun k => ?_) k
  · simp only [Fin.cons_zero]; omega
  · simp

theorem baryCoord_inj {D : ℕ} (x y : Fin D → ℝ) (h : baryCoord x = baryCoord y) : x = y := by
  funext d
  have := congrFun h d.succ
  simpa [baryCoord] using this

theorem baryCoord_sum {D : ℕ} (x : Fin D → ℝ) : ∑ k, baryCoord x k = 1 := by
  unfold baryCoord
  rw [Fin.sum_univ_succ]
  simp

theorem ref_bary {D : ℕ} (v : Fin (D + 1) → Fin D → ℝ) (x : Fin D → ℝ) :
    refToGeneral v x = simplexPoint v (baryCoord x) := by
  funext i
  unfold refToGeneral simplexPoint baryCoord
  rw [Fin.sum_univ_succ]
  simp

theorem facet_bary {D : ℕ} (f : Fin (D + 2)) (chi : Fin D → ℝ) (lam : Fin (D + 2) → ℝ)
    (hm : lam (missing f) = 0) (hk : ∀ k, lam (f2v f k) = baryCoord chi k) :
    (fun d : Fin (D + 1) => lam d.succ) = facetParam f chi := by
  have hs : ∑ k, lam k = 1 := by
    rw [Fin.sum_univ_succAbove _ (missing f), hm, zero_add, ← baryCoord_sum chi]
    exact Finset.sum_congr rfl fun k _ => hk k
  have e : facetParam f chi = fun i => ∑ k, lam k * refVertices (D + 1) k i := by
    funext i
    rw [Fin.sum_univ_succAbove _ (missing f), hm, zero_mul, zero_add]
    have : ∀ k, lam ((missing f).succAbove k) = baryCoord chi k := hk
    simp only [this]
    unfold facetParam
    rw [Fin.sum_univ_succ]
    simp only [baryCoord, Fin.cons_zero, Fin.cons_succ]
    rfl
  rw [e]
  funext d
  rw [Finset.sum_eq_single d.succ]
  · simp [refVertices]
  · intro k _ hk'
    have : ¬ k.val = d.val + 1 := fun h => hk' (Fin.ext (by simpa using h))
    simp [refVertices, this]
  · intro h; exact absurd (Finset.mem_univ _) h

theorem shift_edge (N : ℕ) (hN : 0 < N) (hN' : N ≤ 2 ^ 16) (alpha : ℝ) (i : ℕ) (hi : i ≤ N)
    (L : Fin 2 → ℝ) (h0 : L 0 = ((N - i : ℕ) : ℝ) / N) (h1 : L 1 = (i : ℝ) / N) :
    L 1 + shift N alpha L 1 = ((gllPoints (N + 1) 0 0).getD i 0 + 1) / 2 := by
  have hNr : (N : ℝ) ≠ 0 := by positivity
  have h0' : L 0 = 1 - (i : ℝ) / N := by rw [h0, Nat.cast_sub hi]; field_simp
  have hw := warp_edge N hN hN' (L 1) (L 0) i hi h1 h0'
  unfold shift
  rw [Fin.sum_univ_two, Fin.sum_univ_two, pull_self N hN, add_zero]
  unfold pull
  have hz : L 0 + L 1 - L 1 - L 0 = 0 := by ring
  rw [hz]
  have e : L 1 + warpfactor N (L 1 - L 0) * (2 * (L 0 * L 1) * (1 + alpha * alpha * (0 * 0)))
      = L 1 + warpfactor N (L 1 - L 0) * (4 * (L 0 * L 1)) / 2 := by ring
  rw [e, hw]
  unfold diff eqPoint
  rw [h1]
  ring

theorem line_map (x : ℝ) : generalToRef (D := 1) ![![-1], ![1]] ![x] = ![(x + 1) / 2] := by
  have hdet : (edgeMatrix (D := 1) ![![-1], ![1]]).det ≠ 0 := by
    rw [Matrix.det_fin_one]; simp [edgeMatrix]
  have h := gen_bary (D := 1) ![![-1], ![1]] hdet ![1 - (x + 1) / 2, (x + 1) / 2] (by
    rw [Fin.sum_univ_two]; simp)
  have e : (∑ k : Fin 2, (![1 - (x + 1) / 2, (x + 1) / 2] : Fin 2 → ℝ) k • (![![-1], ![1]] : Fin 2 → Fin 1 → ℝ) k)
      = ![x] := by
    funext i
    fin_cases i
    rw [Fin.sum_univ_two]
    simp
    ring
  rw [e] at h
  rw [h]
  funext d
  fin_cases d
  simp

theorem line_get (N i : ℕ) (hN : 0 < N) (hi : i ≤ N) :
    (nodes1 N).getD i 0 = ![((gllPoints (N + 1) 0 0).getD i 0 + 1) / 2] := by
  unfold nodes1
  simp only [if_pos hN]
  have hl := gll_len N hN
  rw [List.getD_eq_getElem _ _ (by rw [List.length_map]; omega), List.getElem_map, line_map,
    List.getD_eq_getElem _ _ (by omega)]

/-! ### Properties -/

/-- C86 (number of nodes): one node per polynomial of the basis, numbered like the tuples. -/
theorem C86_count (N : ℕ) (alpha : ℝ) : (nodes1 N).length = nbf 1 N ∧ (nodes2 N alpha).length = nbf 2 N ∧
    (nodes3 N alpha).length = nbf 3 N ∧ (gaussLegendreNodes N).length = nbf 1 N := by
  have h2 : (indices 2 N).length = nbf 2 N := length_indices 2 N (by norm_num)
  have h3 : (indices 3 N).length = nbf 3 N := length_indices 3 N (by norm_num)
  refine ⟨?_, ?_, ?_, ?_⟩
  · unfold nodes1
    simp only [List.length_map]
    split
    · rename_i h; rw [gll_len N h]; simp [nbf]
    · rename_i h; obtain rfl : N = 0 := by omega
      simp [nbf]
  · unfold nodes2
    simp only [List.length_map]
    split
    · rw [List.length_map, h2]
    · rename_i h; obtain rfl : N = 0 := by omega
      simp [nbf]
  · unfold nodes3
    simp only [List.length_map]
    split
    · rw [List.length_map, h3]
    · rename_i h; obtain rfl : N = 0 := by omega
      simp [nbf]
  · unfold gaussLegendreNodes
    rw [List.length_map, points_len]; simp [nbf]

/-- C86 (line): on the line the nodes include the end points and are symmetric; the Gauss-Legendre
nodes are symmetric, too (in descending order). -/
theorem C86_line (N : ℕ) :
    (0 < N → (nodes1 N).getD 0 0 = ![0] ∧ (nodes1 N).getD N 0 = ![1]) ∧
    (∀ i ≤ N, (nodes1 N).getD (N - i) 0 0 = 1 - (nodes1 N).getD i 0 0) ∧
    (∀ i ≤ N, (gaussLegendreNodes N).getD (N - i) 0 0 = 1 - (gaussLegendreNodes N).getD i 0 0) := by
  refine ⟨fun hN => ⟨?_, ?_⟩, fun i hi => ?_, fun i hi => ?_⟩
  · rw [line_get N 0 hN (by omega), gll_first]; norm_num
  · rw [line_get N N hN le_rfl, gll_last N hN]; norm_num
  · rcases Nat.eq_zero_or_pos N with h | hN
    · subst h
      obtain rfl : i = 0 := by omega
      have : (nodes1 0).getD 0 0 = ![1 / 2] := by
        unfold nodes1
        simp only [lt_irrefl, if_false, List.map_cons, List.getD_cons_zero, line_map]
        norm_num
      rw [this]; norm_num
    · rw [line_get N i hN hi, line_get N (N - i) hN (by omega), gll_neg N i hN hi]
      simp only [Matrix.cons_val_fin_one]
      ring
  · have hl := points_len (N + 1) 0 0
    have hg : ∀ j ≤ N, (gaussLegendreNodes N).getD j 0 = ![((gaussJacobi (N + 1) 0 0).points.getD j 0 + 1) / 2] := by
      intro j hj
      unfold gaussLegendreNodes
      rw [List.getD_eq_getElem _ _ (by rw [List.length_map]; omega), List.getElem_map, line_map,
        List.getD_eq_getElem _ _ (by omega)]
    have := points_neg (N + 1) 0 i (by omega)
    rw [show N + 1 - 1 - i = N - i by omega] at this
    rw [hg i hi, hg (N - i) (by omega), this]
    simp only [Matrix.cons_val_fin_one]
    ring

/-- C86 (degree 0): the single node is the centroid. -/
theorem C86_degree_zero (alpha : ℝ) : nodes1 0 = [![1 / 2]] ∧ nodes2 0 alpha = [![1 / 3, 1 / 3]] ∧
    nodes3 0 alpha = [![1 / 4, 1 / 4, 1 / 4]] := by
  refine ⟨?_, ?_, ?_⟩
  · unfold nodes1
    simp only [lt_irrefl, if_false, List.map_cons, List.map_nil, line_map]
    norm_num
  · unfold nodes2
    simp only [lt_irrefl, if_false, List.map_cons, List.map_nil]
    have h := gen_bary equiTri det_tri (fun _ => 1 / 3) (by rw [Fin.sum_univ_three]; norm_num)
    have e : (∑ k : Fin 3, (1 / 3 : ℝ) • equiTri k) = 0 := by
      funext i
      rw [Fin.sum_univ_three]
      fin_cases i <;> simp [equiTri] <;> ring
    rw [e] at h
    rw [h]
    congr 1
    funext d
    fin_cases d <;> simp
  · unfold nodes3
    simp only [lt_irrefl, if_false, List.map_cons, List.map_nil]
    have h := gen_bary equiTet det_tet (fun _ => 1 / 4) (by rw [Fin.sum_univ_four]; norm_num)
    have e : (∑ k : Fin 4, (1 / 4 : ℝ) • equiTet k) = 0 := by
      funext i
      rw [Fin.sum_univ_four]
      fin_cases i <;> simp [equiTet] <;> ring
    rw [e] at h
    rw [h]
    congr 1
    funext d
    fin_cases d <;> simp

/-- C86 (symmetry, triangle): permuting the vertices permutes the nodes. -/
theorem C86_symmetric_triangle (N : ℕ) (hN : 0 < N) (alpha : ℝ) (s : Equiv.Perm (Fin 3)) (n : ℕ)
    (hn : n < nbf 2 N) : ∃ n' < nbf 2 N,
    baryIndex N (index 2 N n') = baryIndex N (index 2 N n) ∘ s ∧
    baryCoord ((nodes2 N alpha).getD n' 0) = baryCoord ((nodes2 N alpha).getD n 0) ∘ s := by
  have hi := index_degree 2 N n (by norm_num) hn
  obtain ⟨n', hn', e⟩ := baryIndex_surj 2 N (by norm_num) (baryIndex N (index 2 N n) ∘ s) 
    ((Equiv.sum_comp s _).trans (baryIndex_sum N _ hi))
  have hi' := index_degree 2 N n' (by norm_num) hn'
  refine ⟨n', hn', e, ?_⟩
  rw [node2 N hN alpha n hn, node2 N hN alpha n' hn']
  have hL : rowL N (index 2 N n') = rowL N (index 2 N n) ∘ s := by
    funext k
    rw [Function.comp, rowL_eq N hN _ hi, rowL_eq N hN _ hi', e]
    rfl
  funext k
  rw [hL, Function.comp]
  unfold lam2
  rw [shift_perm]
  rfl

/-- C86 (symmetry, tetrahedron): permuting the vertices permutes the nodes. -/
theorem C86_symmetric_tetrahedron (N : ℕ) (hN : 0 < N) (hN' : N ≤ 2 ^ 16) (alpha : ℝ)
    (s : Equiv.Perm (Fin 4)) (n : ℕ) (hn : n < nbf 3 N) : ∃ n' < nbf 3 N,
    baryIndex N (index 3 N n') = baryIndex N (index 3 N n) ∘ s ∧
    baryCoord ((nodes3 N alpha).getD n' 0) = baryCoord ((nodes3 N alpha).getD n 0) ∘ s := by
  have hi := index_degree 3 N n (by norm_num) hn
  obtain ⟨n', hn', e⟩ := baryIndex_surj 3 N (by norm_num) (baryIndex N (index 3 N n) ∘ s) 
    ((Equiv.sum_comp s _).trans (baryIndex_sum N _ hi))
  have hi' := index_degree 3 N n' (by norm_num) hn'
  refine ⟨n', hn', e, ?_⟩
  rw [node3 N hN hN' alpha n hn, node3 N hN hN' alpha n' hn']
  have hL : rowL N (index 3 N n') = rowL N (index 3 N n) ∘ s := by
    funext k
    rw [Function.comp, rowL_eq N hN _ hi, rowL_eq N hN _ hi', e]
    rfl
  funext k
  rw [hL, Function.comp]
  unfold lam3
  rw [tetFold_perm N hN alpha _ (rowL_lattice N hN hN' _ hi)]
  rfl

/-- C86 (edges of the triangle): a node of the triangle on an edge is the node of the line, with the
same number, seen through the parametrisation of the edge. -/
theorem C86_edge (N : ℕ) (hN : 0 < N) (hN' : N ≤ 2 ^ 16) (alpha : ℝ) (f : Fin 3) (n : ℕ)
    (hn : n < nbf 2 N) (hf : baryIndex N (index 2 N n) (missing (D := 1) f) = 0) :
    (nodes2 N alpha).getD n 0
      = facetParam (D := 1) f ((nodes1 N).getD (baryIndex N (index 2 N n) (f2v (D := 1) f 1)) 0) := by
  have hi := index_degree 2 N n (by norm_num) hn
  have hsum := baryIndex_sum N _ hi
  have hb := node2 N hN alpha n hn
  set L := rowL N (index 2 N n) with hLdef
  have hLm : L (missing (D := 1) f) = 0 := by rw [hLdef, rowL_eq N hN _ hi, hf]; simp
  rw [Fin.sum_univ_succAbove _ (missing (D := 1) f), hf, zero_add, Fin.sum_univ_two] at hsum
  set i := baryIndex N (index 2 N n) (f2v (D := 1) f 1) with hidef
  have hle : i ≤ N := by
    have : i = baryIndex N (index 2 N n) ((missing (D := 1) f).succAbove 1) := rfl
    omega
  have h0 : L (f2v (D := 1) f 0) = ((N - i : ℕ) : ℝ) / N := by
    rw [hLdef, rowL_eq N hN _ hi]
    congr 2
    have e1 : i = baryIndex N (index 2 N n) ((missing (D := 1) f).succAbove 1) := rfl
    have e2 : baryIndex N (index 2 N n) (f2v (D := 1) f 0)
      = baryIndex N (index 2 N n) ((missing (D := 1) f).succAbove 0) := rfl
    omega
  have h1 : L (f2v (D := 1) f 1) = (i : ℝ) / N := by rw [hLdef, rowL_eq N hN _ hi]
  have hedge := shift_edge N hN hN' alpha i hle (fun k => L (f2v (D := 1) f k)) h0 h1
  have hsh : shift N alpha (fun k => L (f2v (D := 1) f k)) 1 = shift N alpha L (f2v (D := 1) f 1) :=
    shift_succAbove N alpha L (missing (D := 1) f) hLm 1
  have hm0 : lam2 N alpha L (missing (D := 1) f) = 0 := by
    unfold lam2; rw [hLm, shift_zero _ _ _ _ hLm, add_zero]
  have hs := lam2_sum N hN alpha L (rowL_sum N _)
  rw [line_get N i hN hle, ← facet_bary (D := 1) f _ (lam2 N alpha L) hm0]
  · apply baryCoord_inj
    rw [hb, baryCoord_tail _ hs]
  · have hv1 : lam2 N alpha L (f2v (D := 1) f 1) = ((gllPoints (N + 1) 0 0).getD i 0 + 1) / 2 := by
      rw [← hedge, hsh]; rfl
    rw [Fin.sum_univ_succAbove _ (missing (D := 1) f), hm0, zero_add, Fin.sum_univ_two] at hs
    intro k
    refine Fin.cases ?_ (fun k => ?_) k
    · have e1 : lam2 N alpha L ((missing (D := 1) f).succAbove 1) = lam2 N alpha L (f2v (D := 1) f 1) := rfl
      have e0 : lam2 N alpha L ((missing (D := 1) f).succAbove 0) = lam2 N alpha L (f2v (D := 1) f 0) := rfl
      rw [e1, e0, hv1] at hs
      simp only [baryCoord, Fin.cons_zero, Finset.univ_unique, Fin.default_eq_zero, Finset.sum_singleton,
        Matrix.cons_val_fin_one]
      linarith
    · fin_cases k
      simp only [baryCoord, Fin.cons_succ]
      exact hv1

/-- C86 (faces of the tetrahedron): the nodes of the tetrahedron on a face are the nodes of the
triangle (for the same blending parameter), seen through the parametrisation of the face. -/
theorem C86_face (N : ℕ) (hN : 0 < N) (hN' : N ≤ 2 ^ 16) (alpha : ℝ) (f : Fin 4) (n : ℕ)
    (hn : n < nbf 3 N) (hf : baryIndex N (index 3 N n) (missing (D := 2) f) = 0) :
    ∃ m < nbf 2 N, (∀ k, baryIndex N (index 2 N m) k = baryIndex N (index 3 N n) (f2v (D := 2) f k)) ∧
      (nodes3 N alpha).getD n 0 = facetParam (D := 2) f ((nodes2 N alpha).getD m 0) := by
  have hi := index_degree 3 N n (by norm_num) hn
  have hsum := baryIndex_sum N _ hi
  rw [Fin.sum_univ_succAbove _ (missing (D := 2) f), hf, zero_add] at hsum
  obtain ⟨m, hm, e⟩ := baryIndex_surj 2 N (by norm_num)
    (fun k => baryIndex N (index 3 N n) (f2v (D := 2) f k)) hsum
  have hi2 := index_degree 2 N m (by norm_num) hm
  refine ⟨m, hm, fun k => congrFun e k, ?_⟩
  have hb := node3 N hN hN' alpha n hn
  have hL := rowL_lattice N hN hN' _ hi
  have hs := lam3_sum N hN alpha _ hL (rowL_sum N _)
  set L := rowL N (index 3 N n) with hLdef
  have hLm : L (missing (D := 2) f) = 0 := by rw [hLdef, rowL_eq N hN _ hi, hf]; simp
  have htf := tetFold_face N hN alpha L hL _ hLm
  have hm0 : lam3 N alpha L (missing (D := 2) f) = 0 := by
    unfold lam3; rw [htf, hLm, shift_zero _ _ _ _ hLm, add_zero]
  rw [← facet_bary (D := 2) f _ (lam3 N alpha L) hm0]
  · apply baryCoord_inj
    rw [hb, baryCoord_tail _ hs]
  · intro k
    rw [node2 N hN alpha m hm]
    unfold lam3 lam2
    have hrow : rowL N (index 2 N m) = fun k => L (f2v (D := 2) f k) := by
      funext k
      rw [hLdef, rowL_eq N hN _ hi, rowL_eq N hN _ hi2, e]
    rw [htf, hrow]
    congr 1
    exact (shift_succAbove N alpha L (missing (D := 2) f) hLm k).symm

/-- C86 (vertices): each vertex is a node. -/
theorem C86_vertex (N : ℕ) (hN : 0 < N) (hN' : N ≤ 2 ^ 16) (alpha : ℝ) :
    (∀ k n, n < nbf 2 N → baryIndex N (index 2 N n) k = N →
      (nodes2 N alpha).getD n 0 = refVertices 2 k) ∧
    ∀ k n, n < nbf 3 N → baryIndex N (index 3 N n) k = N →
      (nodes3 N alpha).getD n 0 = refVertices 3 k := by
  have gen : ∀ {D : ℕ} (L : Fin (D + 1) → ℝ) (k : Fin (D + 1)), (∀ q, q ≠ k → L q = 0) →
      ∀ j, shift N alpha L j = 0 := by
    intro D L k h j
    by_cases hj : j = k
    · unfold shift
      refine Finset.sum_eq_zero fun q _ => ?_
      by_cases hq : q = k
      · rw [hj, hq, pull_self N hN]
      · rw [h q hq, pull_zero_right]
    · exact shift_zero _ _ _ _ (h j hj)
  have row : ∀ {D : ℕ} (i : Fin D → ℕ) (k : Fin (D + 1)), ∑ d, i d ≤ N → baryIndex N i k = N →
      ∀ q, rowL N i q = if q = k then 1 else 0 := by
    intro D i k hi hk q
    have hNr : (N : ℝ) ≠ 0 := by positivity
    rw [rowL_eq N hN i hi]
    split
    · rename_i h; rw [h, hk, div_self hNr]
    · rename_i h
      have hs := baryIndex_sum N i hi
      rw [← Finset.add_sum_erase _ _ (Finset.mem_univ k), hk] at hs
      have h0 : ∑ x ∈ Finset.univ.erase k, baryIndex N i x = 0 := by omega
      rw [Finset.sum_eq_zero_iff] at h0
      rw [h0 q (Finset.mem_erase.2 ⟨h, Finset.mem_univ _⟩)]
      simp
  have vert : ∀ {D : ℕ} (k : Fin (D + 1)) (lam : Fin (D + 1) → ℝ), (∀ q, lam q = if q = k then 1 else 0) →
      baryCoord (refVertices D k) = lam := by
    intro D k lam h
    have hs : ∑ q, lam q = 1 := by simp [h]
    rw [← baryCoord_tail lam hs]
    congr 1
    funext d
    rw [h]
    simp only [refVertices]
    congr 1
    apply propext
    constructor
    · intro h; exact Fin.ext (by simpa using h.symm)
    · intro h; rw [← h]; simp
  constructor
  · intro k n hn hk
    have hi := index_degree 2 N n (by norm_num) hn
    apply baryCoord_inj
    rw [node2 N hN alpha n hn]
    refine (vert k _ fun q => ?_).symm
    unfold lam2
    rw [gen _ k (fun q hq => by rw [row _ k hi hk, if_neg hq]), add_zero, row _ k hi hk]
  · intro k n hn hk
    have hi := index_degree 3 N n (by norm_num) hn
    have hL := rowL_lattice N hN hN' _ hi
    apply baryCoord_inj
    rw [node3 N hN hN' alpha n hn]
    refine (vert k _ fun q => ?_).symm
    unfold lam3
    rw [tetFold_face N hN alpha _ hL (k + 1) (by
        rw [row _ k hi hk, if_neg (by fin_cases k <;> decide)]),
      gen _ k (fun q hq => by rw [row _ k hi hk, if_neg hq]), add_zero, row _ k hi hk]

theorem conform_aux {n D : ℕ} (N : ℕ) (alpha : ℝ) (v0 v1 : Fin (n + 1) → Fin D → ℝ) (m0 m1 : Fin (n + 1))
    (s : Equiv.Perm (Fin n)) (hv : ∀ k, v1 (m1.succAbove k) = v0 (m0.succAbove (s k)))
    (L0 L1 : Fin (n + 1) → ℝ) (h0 : L0 m0 = 0) (h1 : L1 m1 = 0)
    (hL : ∀ k, L1 (m1.succAbove k) = L0 (m0.succAbove (s k))) :
    simplexPoint v1 (fun k => L1 k + shift N alpha L1 k) = simplexPoint v0 (fun k => L0 k + shift N alpha L0 k) := by
  funext i
  unfold simplexPoint
  rw [Fin.sum_univ_succAbove _ m1, Fin.sum_univ_succAbove _ m0]
  beta_reduce
  rw [h0, h1, shift_zero _ _ _ _ h0,
    shift_zero _ _ _ _ h1]
  simp only [add_zero, zero_mul, zero_add]
  rw [← Equiv.sum_comp s fun k => (L0 (m0.succAbove k) + shift N alpha L0 (m0.succAbove k)) * v0 (m0.succAbove k) i]
  refine Finset.sum_congr rfl fun k _ => ?_
  rw [hL, hv, ← shift_succAbove N alpha L1 m1 h1, ← shift_succAbove N alpha L0 m0 h0]
  have : (fun j => L1 (m1.succAbove j)) = (fun j => L0 (m0.succAbove j)) ∘ s := funext hL
  rw [this, shift_perm]

/-- The tuple with a zero at `m` and `b` elsewhere. -/
theorem insert_tuple {n : ℕ} (b : Fin n → ℕ) (m : Fin (n + 1)) : ∃ c : Fin (n + 1) → ℕ, c m = 0 ∧
    (∀ k, c (m.succAbove k) = b k) ∧ ∑ k, c k = ∑ k, b k := by
  refine ⟨m.insertNth 0 b, by simp, fun k => by simp, ?_⟩
  rw [Fin.sum_univ_succAbove _ m]
  simp

/-- C86 (conformity): if two elements share a facet, in whatever order the vertices are numbered,
then the nodes of the two elements in that facet are at the same places. -/
theorem C86_conforming (N : ℕ) (hN : 0 < N) (hN' : N ≤ 2 ^ 16) (alpha : ℝ) :
    (∀ (v0 v1 : Fin 3 → Fin 2 → ℝ) (f0 f1 : Fin 3) (s : Equiv.Perm (Fin 2)),
      (∀ k, v1 (f2v (D := 1) f1 k) = v0 (f2v (D := 1) f0 (s k))) →
      ∀ n, n < nbf 2 N → baryIndex N (index 2 N n) (missing (D := 1) f0) = 0 →
        ∃ n' < nbf 2 N, baryIndex N (index 2 N n') (missing (D := 1) f1) = 0 ∧
          refToGeneral v1 ((nodes2 N alpha).getD n' 0) = refToGeneral v0 ((nodes2 N alpha).getD n 0)) ∧
    ∀ (v0 v1 : Fin 4 → Fin 3 → ℝ) (f0 f1 : Fin 4) (s : Equiv.Perm (Fin 3)),
      (∀ k, v1 (f2v (D := 2) f1 k) = v0 (f2v (D := 2) f0 (s k))) →
      ∀ n, n < nbf 3 N → baryIndex N (index 3 N n) (missing (D := 2) f0) = 0 →
        ∃ n' < nbf 3 N, baryIndex N (index 3 N n') (missing (D := 2) f1) = 0 ∧
          refToGeneral v1 ((nodes3 N alpha).getD n' 0) = refToGeneral v0 ((nodes3 N alpha).getD n 0) := by
  constructor
  · intro v0 v1 f0 f1 s hv n hn hf
    have hi := index_degree 2 N n (by norm_num) hn
    obtain ⟨c, hc0, hck, hcs⟩ := insert_tuple
      (fun k => baryIndex N (index 2 N n) (f2v (D := 1) f0 (s k))) (missing (D := 1) f1)
    have hsum := baryIndex_sum N _ hi
    rw [Fin.sum_univ_succAbove _ (missing (D := 1) f0), hf, zero_add] at hsum
    obtain ⟨n', hn', e⟩ := baryIndex_surj 2 N (by norm_num) c (hcs.trans
      ((Equiv.sum_comp s fun k => baryIndex N (index 2 N n) (f2v (D := 1) f0 k)).trans hsum))
    have hi' := index_degree 2 N n' (by norm_num) hn'
    refine ⟨n', hn', by rw [e, hc0], ?_⟩
    rw [ref_bary, ref_bary, node2 N hN alpha n hn, node2 N hN alpha n' hn']
    refine conform_aux N alpha v0 v1 (missing (D := 1) f0) (missing (D := 1) f1) s hv _ _ ?_ ?_ fun k => ?_
    · rw [rowL_eq N hN _ hi, hf]; simp
    · rw [rowL_eq N hN _ hi', e, hc0]; simp
    · rw [rowL_eq N hN _ hi, rowL_eq N hN _ hi', e, hck]; rfl
  · intro v0 v1 f0 f1 s hv n hn hf
    have hi := index_degree 3 N n (by norm_num) hn
    obtain ⟨c, hc0, hck, hcs⟩ := insert_tuple
      (fun k => baryIndex N (index 3 N n) (f2v (D := 2) f0 (s k))) (missing (D := 2) f1)
    have hsum := baryIndex_sum N _ hi
    rw [Fin.sum_univ_succAbove _ (missing (D := 2) f0), hf, zero_add] at hsum
    obtain ⟨n', hn', e⟩ := baryIndex_surj 3 N (by norm_num) c (hcs.trans
      ((Equiv.sum_comp s fun k => baryIndex N (index 3 N n) (f2v (D := 2) f0 k)).trans hsum))
    have hi' := index_degree 3 N n' (by norm_num) hn'
    refine ⟨n', hn', by rw [e, hc0], ?_⟩
    have h0 : rowL N (index 3 N n) (missing (D := 2) f0) = 0 := by rw [rowL_eq N hN _ hi, hf]; simp
    have h1 : rowL N (index 3 N n') (missing (D := 2) f1) = 0 := by rw [rowL_eq N hN _ hi', e, hc0]; simp
    rw [ref_bary, ref_bary, node3 N hN hN' alpha n hn, node3 N hN hN' alpha n' hn']
    unfold lam3
    rw [tetFold_face N hN alpha _ (rowL_lattice N hN hN' _ hi) _ h0,
      tetFold_face N hN alpha _ (rowL_lattice N hN hN' _ hi') _ h1]
    refine conform_aux N alpha v0 v1 (missing (D := 2) f0) (missing (D := 2) f1) s hv _ _ h0 h1 fun k => ?_
    rw [rowL_eq N hN _ hi, rowL_eq N hN _ hi', e, hck]; rfl

/-! ### The hypotheses can be met -/

/-- Degree 3 has a node inside the first face of the tetrahedron, and a node on an edge of the
triangle that is not a vertex. -/
example : (∃ n < nbf 3 3, baryIndex 3 (index 3 3 n) = ![1, 1, 1, 0]) ∧
    ∃ n < nbf 2 3, baryIndex 3 (index 2 3 n) = ![2, 1, 0] :=
  ⟨baryIndex_surj 3 3 (by norm_num) _ (by decide), baryIndex_surj 2 3 (by norm_num) _ (by decide)⟩

/-- Two triangles with a common edge whose end points are numbered in opposite order. -/
example : ∃ (v0 v1 : Fin 3 → Fin 2 → ℝ) (s : Equiv.Perm (Fin 2)), s ≠ 1 ∧ v0 2 ≠ v1 2 ∧
    ∀ k, v1 (f2v (D := 1) 0 k) = v0 (f2v (D := 1) 0 (s k)) := by
  refine ⟨![![0, 0], ![1, 0], ![0, 1]], ![![1, 0], ![0, 0], ![0, -1]], Equiv.swap 0 1, by decide, ?_, ?_⟩
  · intro h
    have := congrFun h 1
    simp only [Matrix.cons_val] at this
    norm_num at this
  · intro k
    have e : f2v (D := 1) 0 0 = 0 ∧ f2v (D := 1) 0 1 = 1 := by decide
    fin_cases k
    · simp [e.1, e.2]
    · simp [e.1, e.2]

end Tandem.WarpAndBlend
