import Verif.Lemmas.MeshBuilder
import Verif.Model.GMSHParser
import Mathlib.Tactic.IntervalCases
/-! # Property C36: the mesh builder -/
namespace Tandem.MeshBuilder
open Equidistant

/-- The `D`-simplices of the file. -/
def volumeElements (D : ℕ) (es : List FileElement) : List FileElement :=
  es.filter fun e => isSimplex D e.type

/-- The facets (simplices of dimension `D - 1`) of the file. -/
def facetElements (D : ℕ) (es : List FileElement) : List FileElement :=
  es.filter fun e => !isSimplex D e.type && isSimplex (D - 1) e.type

/-- The boundary condition a tag stands for. -/
def specBC (tag : ℤ) : BC :=
  if tag = 1 then .Natural else if tag = 3 then .Fault else if tag = 5 then .Dirichlet else .None

theorem bcOfTag_spec (tag : ℤ) :
    (bcOfTag tag).1 = specBC tag ∧
      ((bcOfTag tag).2 = true ↔ tag ≠ 0 ∧ tag ≠ 1 ∧ tag ≠ 3 ∧ tag ≠ 5) := by
  unfold bcOfTag specBC
  by_cases h0 : tag = 0 <;> by_cases h5 : tag = 5 <;> by_cases h3 : tag = 3 <;>
    by_cases h1 : tag = 1 <;> simp [h0, h1, h3, h5] <;> omega

/-- C36 (types): the tables of simplex types and of numbers of nodes agree: the `k`-th type of
dimension `D` has the number of nodes of a simplex of degree `k + 1` (the point has one node), and no
type is listed for two dimensions. -/
theorem C36_types :
    (∀ D, D = 1 ∨ D = 2 ∨ D = 3 → ∀ (k : ℕ) t, (simplexTypes D)[k]? = some t →
      0 < t ∧ GMSHParser.numNodes[t.toNat - 1]? = some ((k + 1 + D).choose D)) ∧
    (∀ D E t, isSimplex D t = true → isSimplex E t = true → D = E) ∧
  ∀ D t, isLower D t = true ↔ ∃ d < D, isSimplex d t = true := by
  refine ⟨?_, ?_, ?_⟩
  · intro D hD k t h
    rcases hD with rfl | rfl | rfl <;>
    · have hk : k < 10 := by
        have := (List.getElem?_eq_some_iff.1 h).1
        simpa [simplexTypes] using this
      interval_cases k <;> (simp [simplexTypes] at h; subst h; decide +kernel)
  · intro D E t h1 h2
    unfold isSimplex at h1 h2
    rw [List.contains_iff_mem] at h1 h2
    match D, E with
    | 0, 0 | 1, 1 | 2, 2 | 3, 3 => rfl
    | 0, 1 | 0, 2 | 0, 3 | 1, 0 | 1, 2 | 1, 3 | 2, 0 | 2, 1 | 2, 3 | 3, 0 | 3, 1 | 3, 2 =>
      simp [simplexTypes] at h1 h2; omega
    | (n + 4), _ => simp [simplexTypes] at h1
    | 0, (n + 4) | 1, (n + 4) | 2, (n + 4) | 3, (n + 4) => simp [simplexTypes] at h2
  · intro D t
    induction D with
    | zero => simp [isLower]
    | succ D ih =>
      rw [isLower, Bool.or_eq_true, ih]
      constructor
      · rintro (h | ⟨d, h1, h2⟩)
        · exact ⟨D, by omega, h⟩
        · exact ⟨d, by omega, h2⟩
      · rintro ⟨d, h1, h2⟩
        rcases Nat.lt_succ_iff_lt_or_eq.1 h1 with h | rfl
        · exact Or.inr ⟨d, h, h2⟩
        · exact Or.inl h2

/-- What `addHighOrder` leaves alone. -/
theorem addHighOrder_frame (D fuel : ℕ) (tol : ℝ) (b b' : Builder D) (node : List ℕ)
    (h : addHighOrder D fuel tol b node = .ok b') :
    b'.vertices = b.vertices ∧ b'.elements = b.elements ∧ b'.capacity = b.capacity ∧
      b'.facets = b.facets ∧ b'.volumeTags = b.volumeTags ∧ b'.bcs = b.bcs ∧
      b'.ignoredElems = b.ignoredElems ∧ b'.unknownBC = b.unknownBC ∧ b'.type_ = b.type_ := by
  unfold addHighOrder at h
  split at h
  · cases h; simp
  · split at h
    · cases h
    · rename_i b1 hb1
      unfold prepare at hb1
      have hb : b1.vertices = b.vertices ∧ b1.elements = b.elements ∧ b1.capacity = b.capacity ∧
          b1.facets = b.facets ∧ b1.volumeTags = b.volumeTags ∧ b1.bcs = b.bcs ∧
          b1.ignoredElems = b.ignoredElems ∧ b1.unknownBC = b.unknownBC ∧ b1.type_ = b.type_ := by
        split at hb1
        · split at hb1
          · cases hb1
          · cases hb1; simp
        · cases hb1; simp
      split at h
      · cases h
      · split at h
        · cases h
        · split at h
          · cases h
          · cases h; exact hb

/-- C36 (elements, tags, facets): whatever the file, if all its elements are accepted then the builder
holds exactly the `D`-simplices of the file, in file order, each with its vertices sorted and with its
tag, and exactly the facets, in file order, with sorted vertices and the boundary condition their tag
stands for; simplices of lower dimension are counted and dropped, facets with an unknown tag get no
condition and are counted. -/
theorem C36_elements (D fuel : ℕ) (tol : ℝ) (b b' : Builder D) (es : List FileElement)
    (h : addAll D fuel tol b es = .ok b') :
    b'.elements = b.elements
        ++ (volumeElements D es).map (fun e => Simplex.mk (e.nodes.take (D + 1))) ∧
    b'.volumeTags = b.volumeTags ++ (volumeElements D es).map (·.tag) ∧
    b'.facets = b.facets ++ (facetElements D es).map (fun e => Simplex.mk (e.nodes.take D)) ∧
    b'.bcs = b.bcs ++ (facetElements D es).map (fun e => specBC e.tag) ∧
    b'.vertices = b.vertices ∧ b'.capacity = b.capacity ∧
    b'.unknownBC = b.unknownBC + (facetElements D es).countP
      (fun e => decide (e.tag ≠ 0 ∧ e.tag ≠ 1 ∧ e.tag ≠ 3 ∧ e.tag ≠ 5)) ∧
    (∀ e ∈ es, isSimplex D e.type ∨ isSimplex (D - 1) e.type ∨ isLower (D - 1) e.type) := by
  induction es generalizing b with
  | nil => cases h; simp [volumeElements, facetElements]
  | cons e es ih =>
    unfold addAll at h
    split at h
    · rename_i b1 hb1
      obtain ⟨i1, i2, i3, i4, i5, i6, i7, i8⟩ := ih b1 h
      unfold addElement at hb1
      split at hb1
      · rename_i hD
        simp only at hb1
        generalize (if b.type_ = 0 then e.type else b.type_) = tt at hb1
        split at hb1
        · cases hb1
        · split at hb1
          · cases hb1
          · obtain ⟨f1, f2, f3, f4, f5, f6, f7, f8, f9⟩ := addHighOrder_frame _ _ _ _ _ _ hb1
            simp only at f1 f2 f3 f4 f5 f6 f7 f8 f9
            have hv : volumeElements D (e :: es) = e :: volumeElements D es := by
              simp [volumeElements, hD]
            have hfc : facetElements D (e :: es) = facetElements D es := by
              simp [facetElements, hD]
            rw [hv, hfc]
            refine ⟨by rw [i1, f2]; simp, by rw [i2, f5]; simp, by rw [i3, f4], by rw [i4, f6],
              by rw [i5, f1], by rw [i6, f3], by rw [i7, f8], ?_⟩
            intro e' he'
            rcases List.mem_cons.1 he' with rfl | he'
            · exact Or.inl hD
            · exact i8 e' he'
      · rename_i hD
        have hv : volumeElements D (e :: es) = volumeElements D es := by
          simp [volumeElements, hD]
        split at hb1
        · rename_i hD1
          split at hb1
          · cases hb1
          · simp only at hb1
            cases hb1
            have hfc : facetElements D (e :: es) = e :: facetElements D es := by
              simp [facetElements, hD, hD1]
            obtain ⟨s1, s2⟩ := bcOfTag_spec e.tag
            rw [hv, hfc]
            refine ⟨i1, i2, by rw [i3]; simp, by rw [i4, s1]; simp, i5, i6, ?_, ?_⟩
            · rw [i7, List.countP_cons]
              simp only
              by_cases hc : (bcOfTag e.tag).2 = true
              · rw [if_pos hc, if_pos (decide_eq_true (s2.1 hc))]; omega
              · rw [if_neg hc, if_neg (by rw [decide_eq_true_eq]; exact fun k => hc (s2.2 k))]; omega
            · intro e' he'
              rcases List.mem_cons.1 he' with rfl | he'
              · exact Or.inr (Or.inl hD1)
              · exact i8 e' he'
        · rename_i hD1
          have hfc : facetElements D (e :: es) = facetElements D es := by
            simp [facetElements, hD1]
          split at hb1
          · rename_i hl
            cases hb1
            rw [hv, hfc]
            refine ⟨i1, i2, i3, i4, i5, i6, i7, ?_⟩
            intro e' he'
            rcases List.mem_cons.1 he' with rfl | he'
            · exact Or.inr (Or.inr hl)
            · exact i8 e' he'
          · cases hb1
    · cases h
    · cases h

/-- The columns of the permutation table are those of `node_permutation`. -/
def GoodTable (D n : ℕ) (tol : ℝ) (t : ℕ → Option (List ℕ)) : Prop :=
  ∀ p : List ℕ, p.Perm (List.range (D + 1)) → ∃ L P, Combinatorics.permutationToLehmer p = some L ∧
    t (Combinatorics.lehmerToInteger L) = some P ∧
    NodePermutation.nodePermutation (nodes .GMSH D n) (toPerm D p) tol = some P

/-- The nodes of element `k` in the builder: vertices first, then the high-order nodes. -/
def storedNode {D : ℕ} (b : Builder D) (k i : ℕ) : Option ℕ :=
  if i < D + 1 then (b.elements[k]?).bind (fun e => e[i]?) else some (b.highOrder.get (i - (D + 1)) k)

/-- Element `k` of the builder is the element `e` of the file with its vertices in another order: for
some permutation `σ` of the vertices, the node stored at reference position `ξ_i` is the node of the
file at the image of `ξ_i` under the affine map that sends vertex `m` to vertex `σ m`. -/
def SameElement {D : ℕ} (n : ℕ) (b : Builder D) (k : ℕ) (e : FileElement) : Prop :=
  ∃ σ : Equiv.Perm (Fin (D + 1)), ∀ (i : ℕ) xi, (nodes .GMSH D n)[i]? = some xi →
    ∃ (j : ℕ) (v : ℕ), (nodes .GMSH D n)[j]? = some (Spec.vertexMap σ xi) ∧ e.nodes[j]? = some v ∧
      storedNode b k i = some v

theorem vertexMap_vertex (D : ℕ) (σ : Equiv.Perm (Fin (D + 1))) (m : Fin (D + 1)) :
    Spec.vertexMap σ (Spec.refVertex D m) = Spec.refVertex D (σ m) := by
  have h := NodePermutation.vertexMap_point (D := D) 1 (by omega) σ (Pi.single m 1) (by
    rw [Finset.sum_pi_single']; simp)
  have e : ∀ k : Fin (D + 1), point 1 (Pi.single k 1) (refVertices D) = Spec.refVertex D k := by
    intro k
    funext d
    rw [point_ref D 1 (by omega)]
    unfold Spec.refVertex
    by_cases hk : k.val = d.val + 1
    · have : d.succ = k := Fin.ext (by simp [hk])
      simp [this, hk]
    · have : d.succ ≠ k := fun e => hk (by rw [← e]; simp)
      simp [this, hk]
  have e2 : (Pi.single m 1 : Fin (D + 1) → ℕ) ∘ σ.symm = Pi.single (σ m) 1 := by
    funext k
    simp only [Function.comp, Pi.single_apply]
    by_cases hk : k = σ m
    · subst hk; simp
    · rw [if_neg hk, if_neg fun c => hk (by rw [← c]; simp)]
  rw [e2, e, e] at h
  exact h

/-- Adding one high-order element. -/
theorem addHighOrder_spec (D n fuel : ℕ) (tol : ℝ) (hD : D = 1 ∨ D = 2 ∨ D = 3) (hn : 2 ≤ n)
    (h0 : 0 ≤ tol) (ht : tol * n < 1) (hf : (n + D).choose D ≤ fuel) (b : Builder D)
    (e : FileElement) (hlen : e.nodes.length = (n + D).choose D)
    (hcap : b.elements.length ≤ b.capacity)
    (pre : List (List ℕ)) (hel : b.elements = pre ++ [Simplex.mk (e.nodes.take (D + 1))])
    (hst : b.highOrder.rows * b.highOrder.cols = 0 ∨
      (b.highOrder.rows = (n + D).choose D - (D + 1) ∧ b.highOrder.cols = b.capacity ∧
        GoodTable D n tol b.perms)) :
    ∃ b', addHighOrder D fuel tol b e.nodes = .ok b' ∧
      b'.highOrder.rows = (n + D).choose D - (D + 1) ∧ b'.highOrder.cols = b'.capacity ∧
      GoodTable D n tol b'.perms ∧ SameElement n b' pre.length e ∧
      (b.highOrder.rows * b.highOrder.cols ≠ 0 →
        ∀ r c, c ≠ pre.length → b'.highOrder.get r c = b.highOrder.get r c) := by
  have hbig : D + 1 < (n + D).choose D := by
    have h1 := Functions.choose_strictMono D (by omega) (show 1 < n by omega)
    have : (1 + D).choose D = D + 1 := by rw [Nat.add_comm, Nat.choose_succ_self_right]
    omega
  obtain ⟨hnd, hnl, hmem⟩ := C61_lattice .GMSH D n hD (by omega)
  unfold addHighOrder
  rw [if_neg (by omega)]
  -- the prepared builder
  obtain ⟨b1, hb1, r1, c1, g1, e1, p1, k1⟩ : ∃ b1 : Builder D,
      prepare D fuel tol b e.nodes.length = some b1 ∧ b1.highOrder.rows = (n + D).choose D - (D + 1) ∧
      b1.highOrder.cols = b1.capacity ∧ GoodTable D n tol b1.perms ∧ b1.elements = b.elements ∧
      b1.capacity = b.capacity ∧
      (b.highOrder.rows * b.highOrder.cols ≠ 0 → b1.highOrder = b.highOrder) := by
    obtain ⟨t, ht1, ht2⟩ := table_spec D n fuel tol hD (by omega) h0 ht hf
    unfold prepare
    by_cases hz : b.highOrder.rows * b.highOrder.cols = 0
    · rw [if_pos hz, hlen, ht1]
      exact ⟨_, rfl, by simp, rfl, ht2, rfl, rfl, fun c => absurd hz c⟩
    · rw [if_neg hz]
      rcases hst with hst | ⟨a, c, d⟩
      · exact absurd hst hz
      · exact ⟨b, rfl, a, c, d, rfl, rfl, fun _ => rfl⟩
  rw [hb1]
  simp only
  have htk : (e.nodes.take (D + 1)).length = D + 1 := by rw [List.length_take]; omega
  have hperm : (argsort (e.nodes.take (D + 1))).Perm (List.range (D + 1)) := by
    have := argsort_perm (e.nodes.take (D + 1))
    rwa [htk] at this
  obtain ⟨L, P, q1, q2, q3⟩ := g1 _ hperm
  rw [q1]
  simp only
  rw [q2]
  simp only
  obtain ⟨σ, hσ⟩ := toPerm_bij D _ hperm
  obtain ⟨P', hP', hP2, hP3⟩ := NodePermutation.C77_equidistant .GMSH n hD (by omega) σ tol h0 ht
  rw [hσ, q3] at hP'
  cases hP'
  have hPl : P.length = (n + D).choose D := by
    have := hP2.length_eq
    rw [List.length_range, hnl] at this
    exact this
  have hel1 : b1.elements.length - 1 = pre.length := by rw [e1, hel]; simp
  have hlt : pre.length < b1.highOrder.cols := by
    rw [c1, p1]
    rw [hel] at hcap
    simp at hcap
    omega
  obtain ⟨m', s1, s2, s3, s4, s5, s6⟩ := storeNodes_spec D e.nodes P (b1.elements.length - 1)
    (List.range' (D + 1) (e.nodes.length - (D + 1))) b1.highOrder
    (fun i hi => by rw [List.mem_range'_1] at hi; omega) List.nodup_range'
    (fun i hi => by rw [List.mem_range'_1] at hi; rw [r1]; omega) (by rw [hel1]; exact hlt)
    (fun i hi => by
      rw [List.mem_range'_1] at hi
      have hi' : i < P.length := by omega
      have hb : P[i] < e.nodes.length := by
        have := hP2.mem_iff.1 (List.getElem_mem hi')
        rw [List.mem_range, hnl] at this
        omega
      exact ⟨P[i], e.nodes[P[i]], by simp, by simp⟩)
  rw [s1]
  refine ⟨_, rfl, ?_, ?_, ?_, ?_, ?_⟩
  · simp only; rw [s2, r1]
  · simp only; rw [s3, c1]
  · exact g1
  · refine ⟨σ, fun i xi hi => ?_⟩
    by_cases hiD : i < D + 1
    · -- a vertex
      have hv := C61_vertices .GMSH D n hD (by omega) ⟨i, hiD⟩
      simp only at hv
      rw [hv] at hi
      cases hi
      rw [vertexMap_vertex]
      have hlt2 : (σ ⟨i, hiD⟩).val < e.nodes.length := by
        have := (σ ⟨i, hiD⟩).isLt; omega
      refine ⟨(σ ⟨i, hiD⟩).val, e.nodes[(σ ⟨i, hiD⟩).val], C61_vertices .GMSH D n hD (by omega) _,
        by simp, ?_⟩
      unfold storedNode
      rw [if_pos hiD]
      simp only
      rw [e1, hel, List.getElem?_append_right (by omega), Nat.sub_self]
      simp only [List.getElem?_cons_zero, Option.bind_some]
      rw [mk_eq_argsort, List.getElem?_map]
      have hv2 := toPerm_val D _ hperm ⟨i, hiD⟩
      simp only at hv2
      rw [hv2, ← hσ, Option.map_some]
      congr 1
      rw [List.getD_eq_getElem?_getD, List.getElem?_take_of_lt (σ ⟨i, hiD⟩).isLt,
        List.getElem?_eq_getElem hlt2, Option.getD_some]
    · obtain ⟨j, hj1, hj2⟩ := hP3 i xi hi
      have hi2 : i < (n + D).choose D := by
        have := (List.getElem?_eq_some_iff.1 hi).1; omega
      obtain ⟨pi, t1, t2⟩ := s4 i (List.mem_range'_1.2 ⟨by omega, by omega⟩)
      rw [hj1] at t1
      cases t1
      refine ⟨j, _, hj2, t2, ?_⟩
      unfold storedNode
      rw [if_neg hiD, hel1]
  · intro hz r c hc
    simp only
    rw [s5 r c (by rw [hel1]; exact hc), k1 hz]

/-- The file is one the property speaks about: every element is a simplex of dimension at most `D`,
all `D`-simplices have the same type and the number of nodes of degree `n`, and facets have enough
nodes. -/
structure FileOk (D n : ℕ) (T : ℤ) (es : List FileElement) : Prop where
  types : ∀ e ∈ es, isSimplex D e.type ∨ isSimplex (D - 1) e.type ∨ isLower (D - 1) e.type
  same : ∀ e ∈ es, isSimplex D e.type → e.type = T ∧ e.nodes.length = (n + D).choose D
  facets : ∀ e ∈ es, isSimplex (D - 1) e.type → D ≤ e.nodes.length

/-- The state after the `D`-simplices `done`. -/
def Inv (D n : ℕ) (T : ℤ) (tol : ℝ) (b : Builder D) (done : List FileElement) : Prop :=
  b.elements = done.map (fun e => Simplex.mk (e.nodes.take (D + 1))) ∧
  (b.type_ = 0 ∨ b.type_ = T) ∧
  (2 ≤ n → done = [] → b.highOrder.rows * b.highOrder.cols = 0) ∧
  (2 ≤ n → done ≠ [] → b.highOrder.rows = (n + D).choose D - (D + 1) ∧
    b.highOrder.cols = b.capacity ∧ GoodTable D n tol b.perms) ∧
  (2 ≤ n → ∀ (k : ℕ) e, done[k]? = some e → SameElement n b k e)

theorem SameElement_mono {D : ℕ} (n : ℕ) (b b' : Builder D) (k : ℕ) (e : FileElement)
    (h : SameElement n b k e) (h1 : b'.elements[k]? = b.elements[k]?)
    (h2 : ∀ r, b'.highOrder.get r k = b.highOrder.get r k) : SameElement n b' k e := by
  obtain ⟨σ, hσ⟩ := h
  refine ⟨σ, fun i xi hi => ?_⟩
  obtain ⟨j, v, a, c, d⟩ := hσ i xi hi
  refine ⟨j, v, a, c, ?_⟩
  rw [← d]
  unfold storedNode
  rw [h1, h2]

theorem addAll_inv (D n fuel : ℕ) (T : ℤ) (tol : ℝ) (hD : D = 1 ∨ D = 2 ∨ D = 3) (hn : 1 ≤ n)
    (h0 : 0 ≤ tol) (ht : tol * n < 1) (hf : (n + D).choose D ≤ fuel) (hT : T ≠ 0) :
    ∀ (es : List FileElement) (b : Builder D) (done : List FileElement), FileOk D n T es →
      Inv D n T tol b done → done.length + (volumeElements D es).length ≤ b.capacity →
      ∃ b', addAll D fuel tol b es = .ok b' ∧ Inv D n T tol b' (done ++ volumeElements D es) := by
  have hbig : 2 ≤ n → D + 1 < (n + D).choose D := by
    intro h2
    have h1 := Functions.choose_strictMono D (by omega) (show 1 < n by omega)
    have : (1 + D).choose D = D + 1 := by rw [Nat.add_comm, Nat.choose_succ_self_right]
    omega
  have hge : D + 1 ≤ (n + D).choose D := by
    rcases Nat.lt_or_ge n 2 with h | h
    · have : n = 1 := by omega
      subst this
      rw [Nat.add_comm 1 D, Nat.choose_succ_self_right]
    · exact (hbig h).le
  intro es
  induction es with
  | nil =>
    intro b done _ hi _
    exact ⟨b, rfl, by simpa [volumeElements] using hi⟩
  | cons e es ih =>
    intro b done hok hi hcap
    have hok' : FileOk D n T es := ⟨fun x hx => hok.types x (List.mem_cons_of_mem _ hx),
      fun x hx => hok.same x (List.mem_cons_of_mem _ hx),
      fun x hx => hok.facets x (List.mem_cons_of_mem _ hx)⟩
    obtain ⟨i1, i2, i3, i4, i5⟩ := hi
    unfold addAll addElement
    by_cases hS : isSimplex D e.type = true
    · have hv : volumeElements D (e :: es) = e :: volumeElements D es := by
        simp [volumeElements, hS]
      rw [hv] at hcap ⊢
      simp only [List.length_cons] at hcap
      obtain ⟨t1, t2⟩ := hok.same e (by simp) hS
      have htt : (if b.type_ = 0 then e.type else b.type_) = T := by
        split
        · exact t1
        · rcases i2 with h | h
          · contradiction
          · exact h
      rw [if_pos hS]
      simp only
      rw [htt, if_neg (by rw [t1]; simp)]
      rw [if_neg (by omega)]
      rcases Nat.lt_or_ge n 2 with hlow | hhigh
      · -- linear elements
        have hn1 : n = 1 := by omega
        have hle : e.nodes.length ≤ D + 1 := by
          rw [t2, hn1, Nat.add_comm, Nat.choose_succ_self_right]
        unfold addHighOrder
        rw [if_pos hle]
        simp only
        obtain ⟨b', hb', hinv⟩ := ih ⟨b.vertices, b.elements ++ [Simplex.mk (e.nodes.take (D + 1))],
          b.capacity, b.facets, b.volumeTags ++ [e.tag], b.bcs, b.highOrder, b.perms, b.ignoredElems,
          b.unknownBC, T⟩ (done ++ [e]) hok'
          ⟨by simp [i1], Or.inr rfl, by omega, by omega, by omega⟩ (by simp; omega)
        exact ⟨b', hb', by simpa using hinv⟩
      · obtain ⟨b1, hb1, a1, a2, a3, a4, a5⟩ := addHighOrder_spec D n fuel tol hD hhigh h0 ht hf
          ⟨b.vertices, b.elements ++ [Simplex.mk (e.nodes.take (D + 1))],
          b.capacity, b.facets, b.volumeTags ++ [e.tag], b.bcs, b.highOrder, b.perms, b.ignoredElems,
          b.unknownBC, T⟩ e t2 (by simp [i1]; omega) b.elements rfl (by
            rcases List.eq_nil_or_concat done with hdn | ⟨x, y, hdn⟩
            · exact Or.inl (i3 hhigh hdn)
            · exact Or.inr (i4 hhigh (by rw [hdn]; simp)))
        rw [hb1]
        simp only
        obtain ⟨f1, f2, f3, f4, f5, f6, f7, f8, f9⟩ := addHighOrder_frame _ _ _ _ _ _ hb1
        simp only at f2 f3 f9 a5
        obtain ⟨b', hb', hinv⟩ := ih b1 (done ++ [e]) hok' ⟨by rw [f2, i1]; simp, Or.inr f9,
          fun _ h => absurd h (by simp), fun _ _ => ⟨a1, a2, a3⟩, fun _ k x hk => by
            have hlenb : b.elements.length = done.length := by rw [i1]; simp
            rcases Nat.lt_or_ge k done.length with hkl | hkl
            · rw [List.getElem?_append_left hkl] at hk
              have hne : done ≠ [] := by intro h; rw [h] at hkl; simp at hkl
              refine SameElement_mono n b b1 k x (i5 hhigh k x hk) ?_ fun r => ?_
              · rw [f2, List.getElem?_append_left (by omega)]
              · refine a5 ?_ r k (by omega)
                obtain ⟨c1, c2, _⟩ := i4 hhigh hne
                rw [c1, c2]
                have := hbig hhigh
                exact Nat.mul_ne_zero (by omega) (by omega)
            · rw [List.getElem?_append_right hkl] at hk
              have hk0 : k = done.length := by
                have := (List.getElem?_eq_some_iff.1 hk).1
                simp at this; omega
              subst hk0
              simp at hk
              subst hk
              rw [hlenb] at a4
              exact a4⟩ (by rw [f3]; simp; omega)
        exact ⟨b', hb', by simpa using hinv⟩
    · have hv : volumeElements D (e :: es) = volumeElements D es := by
        simp [volumeElements, hS]
      rw [hv] at hcap ⊢
      rw [if_neg hS]
      by_cases hS1 : isSimplex (D - 1) e.type = true
      · rw [if_pos hS1, if_neg (by have := hok.facets e (by simp) hS1; omega)]
        simp only
        exact ih _ done hok' ⟨i1, i2, i3, i4, fun h k x hk => SameElement_mono n b _ k x
          (i5 h k x hk) rfl fun _ => rfl⟩ hcap
      · rw [if_neg hS1]
        have hl : isLower (D - 1) e.type = true := by
          rcases hok.types e (by simp) with h | h | h
          · exact absurd h hS
          · exact absurd h hS1
          · exact h
        rw [if_pos hl]
        simp only
        exact ih _ done hok' ⟨i1, i2, i3, i4, fun h k x hk => SameElement_mono n b _ k x
          (i5 h k x hk) rfl fun _ => rfl⟩ hcap

/-- C36 (high order): for every file of simplices whose `D`-simplices are all of one type of degree
`n`, with at most the announced number of elements, the builder accepts the file, never reads or writes
out of bounds, and (`n ≥ 2`) element `k` of the builder has the nodes of the `k`-th `D`-simplex of the
file, moved by one affine map that only reorders the vertices. -/
theorem C36_high_order (D n fuel : ℕ) (T : ℤ) (tol : ℝ) (hD : D = 1 ∨ D = 2 ∨ D = 3) (hn : 1 ≤ n)
    (h0 : 0 ≤ tol) (ht : tol * n < 1) (hf : (n + D).choose D ≤ fuel) (hT : T ≠ 0)
    (vertices : List (Fin D → ℝ)) (numElements : ℕ) (es : List FileElement) (hok : FileOk D n T es)
    (hnum : es.length ≤ numElements) :
    ∃ b, addAll D fuel tol (Builder.init vertices numElements) es = .ok b ∧
      (2 ≤ n → ∀ (k : ℕ) e, (volumeElements D es)[k]? = some e → SameElement n b k e) := by
  have hle : (volumeElements D es).length ≤ es.length := List.length_filter_le _ _
  obtain ⟨b, h1, h2⟩ := addAll_inv D n fuel T tol hD hn h0 ht hf hT es
    (Builder.init vertices numElements) [] hok
    ⟨rfl, Or.inl rfl, fun _ _ => rfl, fun _ h => absurd rfl h, fun _ k x hk => by simp at hk⟩
    (by simp [Builder.init]; omega)
  exact ⟨b, h1, fun h k e hk => h2.2.2.2.2 h k e (by simpa using hk)⟩

theorem simplex_ne_zero (D : ℕ) (t : ℤ) (h : isSimplex D t = true) : t ≠ 0 := by
  rintro rfl
  unfold isSimplex at h
  rw [List.contains_iff_mem] at h
  match D with
  | 0 | 1 | 2 | 3 | (n + 4) => simp [simplexTypes] at h

/-- The element does not end in an out-of-bounds access. -/
theorem addHighOrder_not_throws (D fuel : ℕ) (tol : ℝ) (b : Builder D) (node : List ℕ) :
    addHighOrder D fuel tol b node ≠ .throws := by
  unfold addHighOrder
  intro h
  split at h
  · cases h
  · split at h
    · cases h
    · split at h
      · cases h
      · split at h
        · cases h
        · split at h <;> cases h

/-- The two reasons to reject a file. -/
def Rejected (D : ℕ) (es : List FileElement) : Prop :=
  (∃ e ∈ es, ∀ d ≤ D, isSimplex d e.type = false) ∨
  ∃ e ∈ es, ∃ e' ∈ es, isSimplex D e.type = true ∧ isSimplex D e'.type = true ∧ e.type ≠ e'.type

theorem addAll_reject (D fuel : ℕ) (tol : ℝ) (hD : 0 < D) (es : List FileElement) :
    ∀ (b : Builder D) (T : ℤ), (b.type_ = T) →
    (addAll D fuel tol b es = .throws → (∃ e ∈ es, ∀ d ≤ D, isSimplex d e.type = false) ∨
      (T ≠ 0 ∧ ∃ e ∈ es, isSimplex D e.type = true ∧ e.type ≠ T) ∨
      ∃ e ∈ es, ∃ e' ∈ es, isSimplex D e.type = true ∧ isSimplex D e'.type = true ∧
        e.type ≠ e'.type) ∧
    (∀ b', addAll D fuel tol b es = .ok b' → (∀ e ∈ es, ∃ d ≤ D, isSimplex d e.type = true) ∧
      ∀ e ∈ es, isSimplex D e.type = true → (T ≠ 0 → e.type = T) ∧
        ∀ e' ∈ es, isSimplex D e'.type = true → e.type = e'.type) := by
  induction es with
  | nil => intro b T _; exact ⟨fun h => (by cases h), fun b' h => (by simp)⟩
  | cons e es ih =>
    intro b T hT
    have hfoot : ∀ b1, addElement D fuel tol b e.type e.tag e.nodes = .ok b1 →
        (∃ d ≤ D, isSimplex d e.type = true) ∧
        (isSimplex D e.type = true → b1.type_ = e.type ∧ (T ≠ 0 → e.type = T)) ∧
        (isSimplex D e.type = false → b1.type_ = T) := by
      intro b1 h1
      unfold addElement at h1
      by_cases hS : isSimplex D e.type = true
      · rw [if_pos hS] at h1
        simp only at h1
        by_cases ht : (if b.type_ = 0 then e.type else b.type_) ≠ e.type
        · rw [if_pos ht] at h1; cases h1
        · rw [if_neg ht] at h1
          split at h1
          · cases h1
          · have := (addHighOrder_frame _ _ _ _ _ _ h1).2.2.2.2.2.2.2.2
            simp only at this
            rw [not_not] at ht
            refine ⟨⟨D, le_refl _, hS⟩, fun _ => ⟨this.trans ht, fun h0 => ?_⟩, fun h => ?_⟩
            · rw [hT, if_neg h0] at ht; exact ht.symm
            · rw [hS] at h; cases h
      · rw [if_neg hS] at h1
        split at h1
        · rename_i h2
          split at h1
          · cases h1
          · cases h1
            exact ⟨⟨D - 1, by omega, h2⟩, fun h => absurd h hS, fun _ => hT⟩
        · split at h1
          · rename_i h3
            cases h1
            obtain ⟨d, hd, h4⟩ := (C36_types.2.2 _ _).1 h3
            exact ⟨⟨d, by omega, h4⟩, fun h => absurd h hS, fun _ => hT⟩
          · cases h1
    unfold addAll
    split
    · rename_i b1 hb1
      obtain ⟨g1, g2, g3⟩ := hfoot b1 hb1
      by_cases hS : isSimplex D e.type = true
      · obtain ⟨k1, k2⟩ := g2 hS
        have hne := simplex_ne_zero _ _ hS
        obtain ⟨i1, i2⟩ := ih b1 e.type k1
        constructor
        · intro h
          rcases i1 h with ⟨x, hx, h⟩ | ⟨_, x, hx, h1, h2⟩ | ⟨x, hx, y, hy, h⟩
          · exact Or.inl ⟨x, List.mem_cons_of_mem _ hx, h⟩
          · exact Or.inr (Or.inr ⟨x, List.mem_cons_of_mem _ hx, e, by simp, h1, hS, h2⟩)
          · exact Or.inr (Or.inr ⟨x, List.mem_cons_of_mem _ hx, y, List.mem_cons_of_mem _ hy, h⟩)
        · intro b' h
          obtain ⟨j1, j2⟩ := i2 b' h
          have hall : ∀ x ∈ e :: es, isSimplex D x.type = true → x.type = e.type := by
            intro x hx hxs
            rcases List.mem_cons.1 hx with rfl | hx
            · rfl
            · exact (j2 x hx hxs).1 hne
          refine ⟨fun x hx => ?_, fun x hx hxs => ⟨fun h0 => ?_, fun y hy hys => ?_⟩⟩
          · rcases List.mem_cons.1 hx with rfl | hx
            · exact g1
            · exact j1 x hx
          · rw [hall x hx hxs]; exact k2 h0
          · rw [hall x hx hxs, hall y hy hys]
      · have hS' : isSimplex D e.type = false := by simpa using hS
        obtain ⟨i1, i2⟩ := ih b1 T (g3 hS')
        constructor
        · intro h
          rcases i1 h with ⟨x, hx, h⟩ | ⟨h0, x, hx, h⟩ | ⟨x, hx, y, hy, h⟩
          · exact Or.inl ⟨x, List.mem_cons_of_mem _ hx, h⟩
          · exact Or.inr (Or.inl ⟨h0, x, List.mem_cons_of_mem _ hx, h⟩)
          · exact Or.inr (Or.inr ⟨x, List.mem_cons_of_mem _ hx, y, List.mem_cons_of_mem _ hy, h⟩)
        · intro b' h
          obtain ⟨j1, j2⟩ := i2 b' h
          refine ⟨fun x hx => ?_, fun x hx hxs => ?_⟩
          · rcases List.mem_cons.1 hx with rfl | hx
            · exact g1
            · exact j1 x hx
          · rcases List.mem_cons.1 hx with rfl | hx
            · exact absurd hxs hS
            · refine ⟨(j2 x hx hxs).1, fun y hy hys => ?_⟩
              rcases List.mem_cons.1 hy with rfl | hy
              · exact absurd hys hS
              · exact (j2 x hx hxs).2 y hy hys
    · rename_i hb1
      refine ⟨fun _ => ?_, fun b' h => by cases h⟩
      unfold addElement at hb1
      by_cases hS : isSimplex D e.type = true
      · rw [if_pos hS] at hb1
        simp only at hb1
        by_cases ht : (if b.type_ = 0 then e.type else b.type_) ≠ e.type
        · right; left
          by_cases h0 : b.type_ = 0
          · rw [if_pos h0] at ht; exact absurd rfl ht
          · rw [if_neg h0] at ht
            exact ⟨hT ▸ h0, e, by simp, hS, fun h => ht (by rw [hT, h])⟩
        · rw [if_neg ht] at hb1
          split at hb1
          · cases hb1
          · exact absurd hb1 (addHighOrder_not_throws _ _ _ _ _)
      · rw [if_neg hS] at hb1
        split at hb1
        · split at hb1 <;> cases hb1
        · rename_i h2
          split at hb1
          · cases hb1
          · rename_i h3
            refine Or.inl ⟨e, by simp, fun d hd => ?_⟩
            rcases Nat.lt_or_ge d (D - 1) with h | h
            · have : ¬ ∃ d < D - 1, isSimplex d e.type = true := fun k => h3 ((C36_types.2.2 _ _).2 k)
              simpa using fun k => this ⟨d, h, k⟩
            · rcases Nat.lt_or_ge d D with h' | h'
              · have : d = D - 1 := by omega
                subst this; simpa using h2
              · have : d = D := by omega
                subst this; simpa using hS
    · exact ⟨fun h => (by cases h), fun b' h => (by cases h)⟩

/-- C36 (rejection): the builder throws only for a file that has an element that is no simplex of
dimension at most `D`, or two `D`-simplices of different type; and it accepts no such file. -/
theorem C36_rejects (D fuel : ℕ) (tol : ℝ) (hD : 0 < D) (vertices : List (Fin D → ℝ))
    (numElements : ℕ) (es : List FileElement) :
    (addAll D fuel tol (Builder.init vertices numElements) es = .throws → Rejected D es) ∧
    (Rejected D es → ∀ b, addAll D fuel tol (Builder.init vertices numElements) es ≠ .ok b) := by
  obtain ⟨h1, h2⟩ := addAll_reject D fuel tol hD es (Builder.init vertices numElements) 0 rfl
  constructor
  · intro h
    rcases h1 h with h | ⟨h, _⟩ | h
    · exact Or.inl h
    · exact absurd rfl h
    · exact Or.inr h
  · rintro (⟨e, he, h⟩ | ⟨e, he, e', he', h, h', hne⟩) b hb
    · obtain ⟨d, hd, hs⟩ := (h2 b hb).1 e he
      rw [h d hd] at hs; cases hs
    · exact hne (((h2 b hb).2 e he h).2 e' he' h')

/-! ## Renumbering -/

/-- The invariant of the renumbering: the numbers given out are `0, …, newId - 1`, each to one vertex. -/
def Numbering (s : Renum) (seen : ℕ → Prop) : Prop :=
  (∀ v, (∃ i, s.map v = some i) ↔ seen v) ∧
  (∀ v w i, s.map v = some i → s.map w = some i → v = w) ∧
  (∀ i, i < s.newId ↔ ∃ v, s.map v = some i)

theorem renumVertex_spec (s : Renum) (seen : ℕ → Prop) (h : Numbering s seen) (e : ℕ) :
    (renumVertex s e).2.map e = some (renumVertex s e).1 ∧
    (∀ v i, s.map v = some i → (renumVertex s e).2.map v = some i) ∧
    Numbering (renumVertex s e).2 (fun v => seen v ∨ v = e) := by
  obtain ⟨h1, h2, h3⟩ := h
  unfold renumVertex
  cases he : s.map e with
  | some i =>
    refine ⟨he, fun _ _ h => h, fun v => ?_, h2, h3⟩
    rw [h1]
    exact ⟨Or.inl, fun h => h.elim id fun h => h ▸ (h1 e).1 ⟨i, he⟩⟩
  | none =>
    have hold : ∀ v i, s.map v = some i → i < s.newId := fun v i h => (h3 i).2 ⟨v, h⟩
    have hne : ∀ v i, s.map v = some i → v ≠ e := fun v i h k => by rw [k, he] at h; cases h
    refine ⟨by simp, fun v i h => ?_, fun v => ?_, fun v w i hv hw => ?_, fun i => ?_⟩
    · simp [hne v i h, h]
    · simp only
      by_cases hve : v = e
      · simp [hve]
      · simp [hve, h1]
    · simp only at hv hw
      by_cases hve : v = e <;> by_cases hwe : w = e
      · rw [hve, hwe]
      · rw [if_pos hve] at hv; rw [if_neg hwe] at hw
        cases hv; exact absurd (hold w _ hw) (by omega)
      · rw [if_neg hve] at hv; rw [if_pos hwe] at hw
        cases hw; exact absurd (hold v _ hv) (by omega)
      · rw [if_neg hve] at hv; rw [if_neg hwe] at hw
        exact h2 v w i hv hw
    · simp only
      constructor
      · intro hi
        rcases Nat.lt_succ_iff_lt_or_eq.1 hi with hi | rfl
        · obtain ⟨v, hv⟩ := (h3 i).1 hi
          exact ⟨v, by simp [hne v i hv, hv]⟩
        · exact ⟨e, by simp⟩
      · rintro ⟨v, hv⟩
        by_cases hve : v = e
        · rw [if_pos hve] at hv; cases hv; omega
        · rw [if_neg hve] at hv
          have := hold v i hv; omega

theorem Numbering.congr {s : Renum} {p q : ℕ → Prop} (h : Numbering s p) (e : ∀ v, p v ↔ q v) :
    Numbering s q := ⟨fun v => (h.1 v).trans (e v), h.2⟩

theorem renumElement_spec (es : List ℕ) : ∀ (s : Renum) (seen : ℕ → Prop), Numbering s seen →
    es.map (renumElement s es).2.map = (renumElement s es).1.map some ∧
    (∀ v i, s.map v = some i → (renumElement s es).2.map v = some i) ∧
    Numbering (renumElement s es).2 (fun v => seen v ∨ v ∈ es) := by
  induction es with
  | nil => intro s seen h; exact ⟨rfl, fun _ _ h => h, h.congr fun v => by simp [renumElement]⟩
  | cons e es ih =>
    intro s seen h
    obtain ⟨a1, a2, a3⟩ := renumVertex_spec s seen h e
    obtain ⟨b1, b2, b3⟩ := ih (renumVertex s e).2 _ a3
    unfold renumElement
    simp only
    refine ⟨?_, fun v i hv => b2 v i (a2 v i hv), b3.congr fun v => ?_⟩
    · rw [List.map_cons, List.map_cons, b1, b2 _ _ a1]
    · simp [or_assoc]

theorem renumElements_spec (es : List (List ℕ)) : ∀ (s : Renum) (seen : ℕ → Prop),
    Numbering s seen →
    es.map (fun e => e.map (renumElements s es).2.map) = (renumElements s es).1.map (fun e => e.map some) ∧
    (∀ v i, s.map v = some i → (renumElements s es).2.map v = some i) ∧
    Numbering (renumElements s es).2 (fun v => seen v ∨ ∃ e ∈ es, v ∈ e) := by
  induction es with
  | nil => intro s seen h; exact ⟨rfl, fun _ _ h => h, h.congr fun v => by simp⟩
  | cons e es ih =>
    intro s seen h
    obtain ⟨a1, a2, a3⟩ := renumElement_spec e s seen h
    obtain ⟨b1, b2, b3⟩ := ih (renumElement s e).2 _ a3
    unfold renumElements
    simp only
    refine ⟨?_, fun v i hv => b2 v i (a2 v i hv), b3.congr fun v => ?_⟩
    · rw [List.map_cons, List.map_cons, b1]
      congr 1
      rw [← a1]
      apply List.map_congr_left
      intro v hv
      obtain ⟨i, hi⟩ := (a3.1 v).2 (Or.inr hv)
      rw [b2 v i hi, hi]
    · simp [or_assoc]

/-- C36 (create): `create` throws exactly if there is no element, or no facet, in the whole mesh.
Otherwise, without high-order nodes, elements, facets and vertices are handed on unchanged.  With
high-order nodes (all numbers in range), the vertices of the elements are numbered anew, one to one
and onto `0, …, numVertices - 1`; each element, each facet and the vertex coordinates are
those of the file under the new numbers, so two simplices are equal in the new numbers iff they
were equal in the old ones; high-order nodes, tags and boundary conditions are handed on. -/
theorem C36_create {D : ℕ} (b : Builder D) (totalElements totalBcs hoCols : ℕ)
    (hv : ∀ e ∈ b.elements ++ b.facets, ∀ v ∈ e, v < b.vertices.length) :
    (create b totalElements totalBcs hoCols = .throws ↔ totalElements = 0 ∨ totalBcs = 0) ∧
    (totalElements ≠ 0 → totalBcs ≠ 0 → ∃ m, create b totalElements totalBcs hoCols = .ok m ∧
      m.volumeTags = b.volumeTags ∧ m.bcs = b.bcs ∧
      ∃ φ : ℕ → Option ℕ,
        b.elements.map (fun e => e.map φ) = m.elements.map (fun e => e.map some) ∧
        b.facets.map (fun f => f.map φ) = m.facets ∧
        (∀ v w i, φ v = some i → φ w = some i → v = w) ∧
        (∀ v i, φ v = some i → i < m.numVertices ∧ m.vertices i = b.vertices[v]?) ∧
        (hoCols = 0 → m.highOrder = none ∧ ∀ v, φ v = some v ∨ b.vertices.length ≤ v) ∧
        (0 < hoCols → (∀ i, i < m.numVertices → ∃ v, φ v = some i) ∧
          (∀ v, (∃ i, φ v = some i) ↔ ∃ e ∈ b.elements, v ∈ e) ∧
          ∃ x, m.highOrder = some x ∧ ∀ j k, x j k = b.vertices[b.highOrder.get j k]?)) := by
  have hub : (b.elements ++ b.facets).any (fun e => e.any fun v => decide (b.vertices.length ≤ v))
      = false := by
    rw [List.any_eq_false]
    intro e he
    simp only [Bool.not_eq_true]
    rw [List.any_eq_false]
    intro v hvm
    have := hv e he v hvm
    simp; omega
  unfold create
  by_cases h1 : totalElements = 0
  · rw [if_pos h1]; exact ⟨by simp [h1], fun h => absurd h1 h⟩
  rw [if_neg h1]
  by_cases h2 : totalBcs = 0
  · rw [if_pos h2]; exact ⟨by simp [h2], fun _ h => absurd h2 h⟩
  rw [if_neg h2]
  by_cases h3 : 0 < hoCols
  · rw [if_pos h3, if_neg (by rw [hub]; simp)]
    refine ⟨by simp [h1, h2], fun _ _ => ⟨_, rfl, rfl, rfl, ?_⟩⟩
    obtain ⟨a1, _, a2, a3, a4⟩ := renumElements_spec b.elements ⟨fun _ => none, 0⟩ (fun _ => False)
      ⟨fun v => by simp, fun v w i h => by simp at h, fun i => by simp⟩
    refine ⟨_, a1, rfl, a3, fun v i hvi => ⟨(a4 i).2 ⟨v, hvi⟩, ?_⟩, fun h => by omega,
      fun _ => ⟨fun i hi => (a4 i).1 hi, fun v => by rw [a2]; simp, _, rfl, fun _ _ => rfl⟩⟩
    simp only
    unfold newVertices
    obtain ⟨e, he, hve⟩ : ∃ e ∈ b.elements, v ∈ e := by simpa using (a2 v).1 ⟨i, hvi⟩
    have hlt := hv e (List.mem_append_left _ he) v hve
    cases hfd : (List.range b.vertices.length).reverse.find? fun old =>
        (renumElements ⟨fun _ => none, 0⟩ b.elements).2.map old == some i with
    | none =>
      exact absurd (by simp [hvi]) (List.find?_eq_none.1 hfd v (by simp [hlt]))
    | some w =>
      have hw := List.find?_some hfd
      simp only [beq_iff_eq] at hw
      rw [a3 v w i hvi hw]
      rfl
  · rw [if_neg h3]
    refine ⟨by simp [h1, h2], fun _ _ => ⟨_, rfl, rfl, rfl,
      fun v => if v < b.vertices.length then some v else none, ?_, ?_, ?_, ?_, ?_, fun h => absurd h h3⟩⟩
    · apply List.map_congr_left
      intro e he
      apply List.map_congr_left
      intro v hve
      rw [if_pos (hv e (List.mem_append_left _ he) v hve)]
    · simp only
      apply List.map_congr_left
      intro e he
      apply List.map_congr_left
      intro v hve
      rw [if_pos (hv e (List.mem_append_right _ he) v hve)]
    · intro v w i h h'
      simp only at h h'
      split at h
      · split at h'
        · cases h; cases h'; rfl
        · cases h'
      · cases h
    · intro v i h
      simp only at h
      split at h
      · rename_i hl
        cases h
        exact ⟨hl, rfl⟩
      · cases h
    · intro _
      refine ⟨rfl, fun v => ?_⟩
      by_cases hl : v < b.vertices.length
      · exact Or.inl (if_pos hl)
      · exact Or.inr (by omega)

/-- C36 (facet off the mesh): with high-order nodes, a facet with a vertex that is in no element gets
the number `Invalid`; only an assertion, absent in release builds, notices. -/
theorem C36_facet_off_mesh {D : ℕ} (b : Builder D) (m : MeshData D) (te tb ho : ℕ) (hho : 0 < ho)
    (h : create b te tb ho = .ok m) (k : ℕ) (f : List ℕ) (hf : b.facets[k]? = some f) (j v : ℕ)
    (hj : f[j]? = some v) (hoff : ∀ e ∈ b.elements, v ∉ e) :
    ∃ g, m.facets[k]? = some g ∧ g[j]? = some none := by
  unfold create at h
  split at h
  · cases h
  · split at h
    · cases h
    · simp only [hho, if_true] at h
      split at h
      · cases h
      · cases h
        obtain ⟨_, _, a2, _⟩ := renumElements_spec b.elements ⟨fun _ => none, 0⟩ (fun _ => False)
          ⟨fun v => by simp, fun v w i h => by simp at h, fun i => by simp⟩
        refine ⟨_, by simp only; rw [List.getElem?_map, hf, Option.map_some], ?_⟩
        rw [List.getElem?_map, hj, Option.map_some]
        congr 1
        cases hm : (renumElements ⟨fun _ => none, 0⟩ b.elements).2.map v with
        | none => rfl
        | some i =>
          obtain ⟨e, he, hve⟩ : ∃ e ∈ b.elements, v ∈ e := by simpa using (a2 v).1 ⟨i, hm⟩
          exact absurd hve (hoff e he)

/-! ## The hypotheses are met -/

/-- Two quadratic triangles that share an edge (type 9, six nodes), an edge with boundary condition 5
(type 8) and a point (type 15). -/
def exampleFile : List FileElement :=
  [⟨15, 0, [0]⟩, ⟨8, 5, [1, 0, 4]⟩, ⟨9, 7, [3, 1, 0, 8, 4, 5]⟩, ⟨9, 7, [1, 2, 3, 6, 7, 8]⟩]

theorem exampleFile_ok : FileOk 2 2 9 exampleFile := by
  refine ⟨?_, ?_, ?_⟩ <;> decide +kernel

/-- With nine vertices, the file is accepted and `create` renumbers its four corner vertices. -/
example (vertices : List (Fin 2 → ℝ)) (hv : vertices.length = 9) :
    ∃ b, addAll 2 6 0 (Builder.init vertices 4) exampleFile = .ok b ∧
      b.elements = [[0, 1, 3], [1, 2, 3]] ∧ b.facets = [[0, 1]] ∧ b.bcs = [.Dirichlet] ∧
      ∃ m, create b 2 1 4 = .ok m ∧ m.elements = [[0, 1, 2], [1, 3, 2]] ∧ m.numVertices = 4 := by
  obtain ⟨b, hb, _⟩ := C36_high_order 2 2 6 9 0 (by simp) (by omega) (le_refl _) (by simp)
    (by decide) (by decide) vertices 4 exampleFile exampleFile_ok (by decide)
  obtain ⟨h1, h2, h3, h4, h5, -⟩ := C36_elements 2 6 0 _ b exampleFile hb
  have e1 : b.elements = [[0, 1, 3], [1, 2, 3]] := by
    rw [h1]; rfl
  have e2 : b.facets = [[0, 1]] := by
    rw [h3]; rfl
  have e3 : b.vertices.length = 9 := by rw [h5]; exact hv
  refine ⟨b, hb, e1, e2, by rw [h4]; rfl, ?_⟩
  unfold create
  rw [if_neg (by omega), if_neg (by omega), if_pos (by omega), e1, e2, e3, if_neg (by decide)]
  exact ⟨_, rfl, rfl, rfl⟩

example : Rejected 2 [⟨9, 0, [0, 1, 2, 3, 4, 5]⟩, ⟨2, 0, [0, 1, 2]⟩] ∧ Rejected 2 [⟨4, 0, [0, 1, 2, 3]⟩] := by
  refine ⟨Or.inr ?_, Or.inl ?_⟩
  · exact ⟨_, List.mem_cons_self, _, List.mem_cons_of_mem _ (List.mem_cons_self), by decide +kernel⟩
  · exact ⟨_, List.mem_cons_self, by decide +kernel⟩

end Tandem.MeshBuilder
