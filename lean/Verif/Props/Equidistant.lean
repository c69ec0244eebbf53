import Verif.Lemmas.Equidistant
import Verif.Spec.Nodes
import Mathlib.Tactic.NormNum
/-! # Property C61: equidistant nodes -/
namespace Tandem.Equidistant

/-- The lattice point of a barycentric multi-index. -/
theorem point_ref (D n : ℕ) (hn : 0 < n) (α : Fin (D + 1) → ℕ) (d : Fin D) :
    point n α (refVertices D) d = (α d.succ : ℝ) / n := by
  unfold point
  rw [if_neg (by omega), Finset.sum_apply, Finset.sum_eq_single d.succ]
  · simp [refVertices]
  · intro k _ hk
    have : ¬ k.val = d.val + 1 := fun e => hk (Fin.ext (by simpa using e))
    simp [refVertices, this]
  · intro h; exact absurd (Finset.mem_univ _) h

/-- The index lists of the three dimensions. -/
def idx (conv : Convention) : (D : ℕ) → ℕ → List (Fin (D + 1) → ℕ)
  | 1, n => [![n, 0], ![0, n]] ++ edgeIdx n 0 1
  | 2, n => triIdx n
  | 3, n => tetIdx conv n
  | _, _ => []

theorem nodes_eq (conv : Convention) (D n : ℕ) (hD : D = 1 ∨ D = 2 ∨ D = 3) (hn : 0 < n) :
    nodes conv D n = (idx conv D n).map fun α => point n α (refVertices D) := by
  rcases hD with rfl | rfl | rfl
  · have hn' : (n : ℝ) ≠ 0 := by positivity
    have hn0 : ¬ n = 0 := by omega
    simp only [nodes, idx, List.map_append, List.map_cons, List.map_nil]
    rw [edge_eq n hn (0 : Fin 2) 1 (by decide)]
    have p0 : point n ![n, 0] (refVertices 1) = refVertices 1 0 := by
      simp [point, hn0, div_self hn']
    have p1 : point n ![0, n] (refVertices 1) = refVertices 1 1 := by
      simp [point, hn0, div_self hn']
    rw [p0, p1]
  · exact triangle_eq n _
  · exact tet_eq conv n _

theorem mem_idx (conv : Convention) (D n : ℕ) (hD : D = 1 ∨ D = 2 ∨ D = 3) (hn : 0 < n)
    (α : Fin (D + 1) → ℕ) : α ∈ idx conv D n ↔ ∑ j, α j = n := by
  rcases hD with rfl | rfl | rfl
  · have l2 : ∀ a b : ℕ, α = ![a, b] ↔ (α 0 = a ∧ α 1 = b) := by
      intro a b
      constructor
      · rintro rfl; simp
      · rintro ⟨h1, h2⟩; funext i; fin_cases i <;> simp [h1, h2]
    simp only [idx, List.mem_append, List.mem_cons, List.not_mem_nil, or_false, l2,
      mem_edgeIdx n (0 : Fin 2) 1 (by decide), Fin.sum_univ_two]
    simp only [Fin.forall_fin_succ]
    simp
    omega
  · simp only [idx]; rw [mem_triIdx, Fin.sum_univ_three]
  · simp only [idx]; rw [mem_tetIdx, Fin.sum_univ_four]

theorem length_idx (conv : Convention) (D n : ℕ) (hD : D = 1 ∨ D = 2 ∨ D = 3) (hn : 0 < n) :
    (idx conv D n).length = (n + D).choose D := by
  rcases hD with rfl | rfl | rfl
  · simp [idx, length_edgeIdx]; omega
  · have h := length_triIdx n
    have c : (n + 2).choose 2 * 2 = (n + 1) * (n + 2) := by
      have := Nat.add_one_mul_choose_eq (n + 1) 1
      simp at this
      rw [← this]; ring
    simp only [idx]; omega
  · have h := length_tetIdx conv n
    have c2 : (n + 2).choose 2 * 2 = (n + 1) * (n + 2) := by
      have := Nat.add_one_mul_choose_eq (n + 1) 1
      simp at this
      rw [← this]; ring
    have c : (n + 3).choose 3 * 3 = (n + 3) * (n + 2).choose 2 := by
      have := Nat.add_one_mul_choose_eq (n + 2) 2
      simpa using this.symm
    have : (n + 3).choose 3 * 6 = (n + 1) * (n + 2) * (n + 3) := by
      calc (n + 3).choose 3 * 6 = (n + 3).choose 3 * 3 * 2 := by ring
        _ = (n + 3) * ((n + 2).choose 2 * 2) := by rw [c]; ring
        _ = _ := by rw [c2]; ring
    simp only [idx]; omega

/-- C61 (lattice): for every degree `n ≥ 1`, `D = 1, 2, 3` and both numbering conventions the factory
returns every lattice point of the reference simplex exactly once, and nothing else; in particular
`binom(n+D, D)` nodes. -/
theorem C61_lattice (conv : Convention) (D n : ℕ) (hD : D = 1 ∨ D = 2 ∨ D = 3) (hn : 0 < n) :
    (nodes conv D n).Nodup ∧ (nodes conv D n).length = (n + D).choose D ∧
      ∀ x, x ∈ nodes conv D n ↔ Spec.IsLatticePoint D n x := by
  have hn' : (n : ℝ) ≠ 0 := by positivity
  rw [nodes_eq conv D n hD hn]
  have hlen := length_idx conv D n hD hn
  have hnd := nodup_of_count n _ (mem_idx conv D n hD hn) hlen
  refine ⟨?_, by rw [List.length_map, hlen], fun x => ?_⟩
  · refine (List.nodup_map_iff_inj_on hnd).2 fun α hα β hβ e => ?_
    rw [mem_idx conv D n hD hn, Fin.sum_univ_succ] at hα hβ
    have hs : ∀ d : Fin D, α d.succ = β d.succ := by
      intro d
      have := congrFun e d
      rw [point_ref D n hn, point_ref D n hn, div_left_inj' hn'] at this
      exact_mod_cast this
    have h0 : α 0 = β 0 := by
      rw [Finset.sum_congr rfl fun d _ => hs d] at hα
      omega
    funext j
    refine Fin.cases h0 hs j
  · rw [List.mem_map]
    constructor
    · rintro ⟨α, hα, rfl⟩
      rw [mem_idx conv D n hD hn, Fin.sum_univ_succ] at hα
      exact ⟨fun d => α d.succ, by simp only; omega, fun d => point_ref D n hn α d⟩
    · rintro ⟨α, hs, hx⟩
      refine ⟨Fin.cons (n - ∑ d, α d) α, (mem_idx conv D n hD hn _).2 ?_, ?_⟩
      · rw [Fin.sum_univ_succ]
        simp only [Fin.cons_zero, Fin.cons_succ]
        omega
      · funext d
        rw [point_ref D n hn, Fin.cons_succ, hx]

/-- C61 (vertices): the first `D + 1` nodes are the vertices of the reference simplex, in order. -/
theorem C61_vertices (conv : Convention) (D n : ℕ) (hD : D = 1 ∨ D = 2 ∨ D = 3) (hn : 0 < n)
    (k : Fin (D + 1)) : (nodes conv D n)[k.val]? = some (Spec.refVertex D k) := by
  have hn0 : ¬ n = 0 := by omega
  rcases hD with rfl | rfl | rfl
  · fin_cases k <;> simp [nodes] <;> rfl
  · simp only [nodes]
    unfold triangle
    rw [if_neg hn0]
    fin_cases k <;> simp <;> rfl
  · simp only [nodes]
    unfold tet
    rw [if_neg hn0]
    fin_cases k <;> simp <;> rfl

/-- C61 (degree zero): for triangles and tetrahedra the only node is the origin; for intervals the
factory returns *two* nodes, one more than `binom(0+1, 1)`. -/
theorem C61_degree_zero (conv : Convention) :
    nodes conv 2 0 = [Spec.refVertex 2 0] ∧ nodes conv 3 0 = [Spec.refVertex 3 0] ∧
      (nodes conv 1 0).length = 2 := by
  refine ⟨?_, ?_, ?_⟩
  · simp only [nodes]; unfold triangle; simp; rfl
  · simp only [nodes]; unfold tet; simp; rfl
  · simp [nodes, edge]

theorem getElem_flatMap {α β : Type*} (f : α → List β) (L : ℕ) :
    ∀ (l : List α) (_ : ∀ a ∈ l, (f a).length = L) (e k : ℕ) (_ : k < L) (a : α) (_ : l[e]? = some a)
      (r : List β), (l.flatMap f ++ r)[e * L + k]? = (f a)[k]? := by
  intro l
  induction l with
  | nil => intro _ e k _ a h; simp at h
  | cons b l ih =>
    intro hl e k hk a ha r
    have hb := hl b (by simp)
    rw [List.flatMap_cons, List.append_assoc]
    cases e with
    | zero =>
      simp only [List.getElem?_cons_zero, Option.some.injEq] at ha
      subst ha
      rw [Nat.zero_mul, Nat.zero_add, List.getElem?_append_left (by omega)]
    | succ e =>
      rw [List.getElem?_cons_succ] at ha
      rw [List.getElem?_append_right (by rw [hb, Nat.add_mul]; omega), hb,
        show (e + 1) * L + k - L = e * L + k by rw [Nat.add_mul]; omega]
      exact ih (fun a h => hl a (by simp [h])) e k hk a ha r

/-- C61 (numbering of the nodes on edges): after the four vertices come the nodes inside the edges,
edge by edge in the order of the convention, running along the edge. -/
theorem C61_edge_order (conv : Convention) (n : ℕ) (e : Fin 6) (k : ℕ) (hk : k + 1 < n) :
    (nodes conv 3 n)[4 + (e.val * (n - 1) + k)]? = some (fun d =>
      let ab := (if conv = .VTK then Spec.vtkTetEdge else Spec.gmshTetEdge) e
      (1 - (k + 1 : ℕ) / n) * Spec.refVertex 3 ab.1 d + ((k + 1 : ℕ) / n) * Spec.refVertex 3 ab.2 d) := by
  have hn0 : ¬ n = 0 := by omega
  have hlen : ∀ a ∈ tetEdges conv, (edge (n - 1) (refVertices 3 a.1) (refVertices 3 a.2)).length = n - 1 := by
    intro a _; simp [edge]
  have he : (tetEdges conv)[e.val]? = some ((if conv = .VTK then Spec.vtkTetEdge else Spec.gmshTetEdge) e) := by
    cases conv <;> fin_cases e <;> rfl
  simp only [nodes]
  unfold tet
  rw [if_neg hn0]
  simp only [List.append_assoc, List.cons_append, List.nil_append]
  rw [show 4 + (e.val * (n - 1) + k) = (e.val * (n - 1) + k) + 1 + 1 + 1 + 1 by ring]
  simp only [List.getElem?_cons_succ]
  rw [getElem_flatMap _ (n - 1) _ hlen e.val k (by omega) _ he]
  simp only [edge, List.getElem?_map]
  rw [List.getElem?_range' (by omega)]
  simp only [Option.map_some, Option.some.injEq]
  funext d
  have hc : ((n - 1 : ℕ) : ℝ) + 1 = n := by
    rw [Nat.cast_sub (by omega)]; simp
  rw [hc]
  simp only [Pi.add_apply, Pi.smul_apply, smul_eq_mul, refVertices, Spec.refVertex]
  push_cast
  ring_nf

/-- C61 (numbering of the nodes inside faces): then come the nodes inside the faces, face by face in
the order of the convention, starting with those closest to the vertices of the face. -/
theorem C61_face_order (conv : Convention) (n : ℕ) (f : Fin 4) (j : Fin 3) (hn : 3 ≤ n)
    (hj : 4 ≤ n ∨ j = 0) :
    (nodes conv 3 n)[4 + (6 * (n - 1) + (f.val * ((n - 1) * (n - 2) / 2) + j.val))]? = some (fun d =>
      let v := (if conv = .VTK then Spec.vtkTetFace else Spec.gmshTetFace) f
      ∑ i, (if i = j then 1 - 2 / (n : ℝ) else 1 / n) * Spec.refVertex 3 (v i) d) := by
  have hn0 : ¬ n = 0 := by omega
  have hlen : ((tetEdges conv).flatMap (fun e => edge (n - 1) (refVertices 3 e.1) (refVertices 3 e.2))).length
      = 6 * (n - 1) := by
    cases conv <;> simp [tetEdges, edge] <;> ring
  have htri : ∀ (m : ℕ) (v : Fin 3 → Fin 3 → ℝ), (triangle m v).length = (m + 1) * (m + 2) / 2 := by
    intro m v
    rw [triangle_eq, List.length_map]
    have := length_triIdx m
    omega
  have hf : (tetFaces conv)[f.val]? = some (let v := (if conv = .VTK then Spec.vtkTetFace else Spec.gmshTetFace) f
      (v 0, v 1, v 2)) := by
    cases conv <;> fin_cases f <;> rfl
  have hL : j.val < (n - 1) * (n - 2) / 2 := by
    rcases hj with h | h
    · obtain ⟨m, rfl⟩ : ∃ m, n = m + 4 := ⟨n - 4, by omega⟩
      have : 3 * 2 ≤ (m + 4 - 1) * (m + 4 - 2) := Nat.mul_le_mul (by omega) (by omega)
      have := j.2
      omega
    · subst h
      obtain ⟨m, rfl⟩ : ∃ m, n = m + 3 := ⟨n - 3, by omega⟩
      have : 2 * 1 ≤ (m + 3 - 1) * (m + 3 - 2) := Nat.mul_le_mul (by omega) (by omega)
      simp only [Fin.val_zero]
      omega
  simp only [nodes]
  unfold tet
  rw [if_neg hn0, if_pos hn]
  simp only [List.append_assoc, List.cons_append, List.nil_append]
  rw [show ∀ x, 4 + x = x + 1 + 1 + 1 + 1 from fun x => by ring]
  simp only [List.getElem?_cons_succ]
  rw [List.getElem?_append_right (by omega), hlen, Nat.add_sub_cancel_left,
    getElem_flatMap _ ((n - 1) * (n - 2) / 2) _ (fun a _ => by
      rw [htri, show n - 3 + 1 = n - 2 by omega, show n - 3 + 2 = n - 1 by omega, Nat.mul_comm])
      f.val j.val hL _ hf]
  simp only
  generalize (if conv = .VTK then Spec.vtkTetFace else Spec.gmshTetFace) f = v
  have hs : ∀ j : Fin 3, shrinkAndShift (1 / (n : ℝ)) ![refVertices 3 (v 0), refVertices 3 (v 1), refVertices 3 (v 2)] j
      = fun d => ∑ i, (if i = j then 1 - 2 / (n : ℝ) else 1 / n) * Spec.refVertex 3 (v i) d := by
    intro j
    funext d
    unfold shrinkAndShift
    rw [Finset.sum_apply]
    refine Finset.sum_congr rfl fun i _ => ?_
    have : ![refVertices 3 (v 0), refVertices 3 (v 1), refVertices 3 (v 2)] i d = Spec.refVertex 3 (v i) d := by
      fin_cases i <;> rfl
    simp only [Pi.smul_apply, smul_eq_mul]
    rw [this]
    by_cases h : i = j
    · subst h; simp; left; ring
    · rw [if_neg h, if_neg (Ne.symm h)]
  unfold triangle
  rcases hj with h | h
  · rw [if_neg (by omega)]
    rw [← hs]
    fin_cases j <;> rfl
  · subst h
    rw [← hs]; rfl

/-- The tetrahedron of degree 4 has one interior node. -/
example : Spec.IsLatticePoint 3 4 ![1 / 4, 1 / 4, 1 / 4] :=
  ⟨![1, 1, 1], by decide, fun d => by fin_cases d <;> norm_num⟩
example : (nodes .GMSH 3 4).length = 35 := by
  rw [(C61_lattice .GMSH 3 4 (by omega) (by omega)).2.1]; rfl

end Tandem.Equidistant
