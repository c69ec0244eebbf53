import Verif.Model.NodePermutation
import Verif.Props.Equidistant
import Verif.Lemmas.DieterichRuina
import Mathlib.Data.List.Perm.Basic
import Mathlib.Tactic.Linarith
/-! # Property C77: permutation of the nodes of an element -/
namespace Tandem.NodePermutation
open Equidistant

variable {D : ℕ}

theorem eta_eq (p : Fin (D + 1) → Fin (D + 1)) (xi : Fin D → ℝ) : eta p xi = Spec.vertexMap p xi := by
  funext d
  simp [eta, Spec.vertexMap, Spec.refVertex, refVertices]

theorem norm_zero' : DieterichRuina.norm (0 : Fin D → ℝ) = 0 := by
  unfold DieterichRuina.norm
  split <;> simp

theorem norm_neg' (x : Fin D → ℝ) : DieterichRuina.norm (-x) = DieterichRuina.norm x := by
  unfold DieterichRuina.norm
  split <;> simp

theorem abs_le_norm (x : Fin D → ℝ) (d : Fin D) : |x d| ≤ DieterichRuina.norm x := by
  unfold DieterichRuina.norm
  split
  · rename_i h
    subst h
    have : d = ⟨0, by omega⟩ := by ext; omega
    rw [this]
  · refine Real.abs_le_sqrt ?_
    rw [sq]
    exact Finset.single_le_sum (f := fun i => x i * x i) (fun i _ => mul_self_nonneg _)
      (Finset.mem_univ d)

theorem search_some (nodes : List (Fin D → ℝ)) (tol : ℝ) (z : Fin D → ℝ) (j : ℕ)
    (h : search nodes tol z = some j) :
    ∃ x, nodes[j]? = some x ∧ DieterichRuina.norm (z - x) ≤ tol := by
  unfold search at h
  rw [List.findIdx?_eq_some_iff_getElem] at h
  obtain ⟨hj, h1, _⟩ := h
  refine ⟨nodes[j], by simp [hj], ?_⟩
  have := of_decide_eq_true h1
  exact not_lt.1 this

theorem search_unique (nodes : List (Fin D → ℝ)) (tol : ℝ) (z : Fin D → ℝ) (j : ℕ) (x : Fin D → ℝ)
    (hj : nodes[j]? = some x) (hx : DieterichRuina.norm (z - x) ≤ tol)
    (hu : ∀ (i : ℕ) y, nodes[i]? = some y → DieterichRuina.norm (z - y) ≤ tol → i = j) :
    search nodes tol z = some j := by
  unfold search
  rw [List.findIdx?_eq_some_iff_getElem]
  obtain ⟨hlt, rfl⟩ := List.getElem?_eq_some_iff.1 hj
  refine ⟨hlt, decide_eq_true (not_lt.2 hx), fun i hi hd => ?_⟩
  have h1 := of_decide_eq_true hd
  have := hu i nodes[i] (by simp) (not_lt.1 h1)
  omega

theorem mapM_eq_some {α β : Type*} (f : α → Option β) (l : List α) (r : List β) :
    l.mapM f = some r ↔ List.Forall₂ (fun a b => f a = some b) l r := by
  induction l generalizing r with
  | nil => cases r <;> simp
  | cons a l ih =>
    rw [List.mapM_cons]
    cases ha : f a with
    | none =>
      constructor
      · intro h; cases h
      · intro h; cases h with | cons h _ => rw [ha] at h; cases h
    | some b =>
      cases hl : l.mapM f with
      | none =>
        constructor
        · intro h; cases h
        · intro h; cases h with | cons _ h => rw [← ih, hl] at h; cases h
      | some r' =>
        constructor
        · intro h; cases h; exact .cons ha ((ih r').1 hl)
        · intro h
          cases h with
          | cons h1 h2 =>
            rw [ha] at h1; cases h1
            rw [← ih, hl] at h2; cases h2
            rfl

theorem perm_of_count (n : ℕ) (l : List ℕ) (hl : l.length = n)
    (h : ∀ c ∈ (List.range n).map (fun pos => l.count pos), c = 1) : l.Perm (List.range n) := by
  have h1 : ∀ i < n, l.count i = 1 := fun i hi => h _ (List.mem_map.2 ⟨i, List.mem_range.2 hi, rfl⟩)
  have hsub : (List.range n).Subperm l := by
    refine (List.nodup_range).subperm fun i hi => ?_
    have := h1 i (List.mem_range.1 hi)
    exact List.count_pos_iff.1 (by omega)
  exact (hsub.perm_of_length_le (by simp [hl])).symm

theorem count_of_perm (n : ℕ) (l : List ℕ) (h : l.Perm (List.range n)) :
    ∀ c ∈ (List.range n).map (fun pos => l.count pos), c = 1 := by
  intro c hc
  obtain ⟨i, hi, rfl⟩ := List.mem_map.1 hc
  rw [h.count_eq]
  exact List.count_eq_one_of_mem List.nodup_range hi

/-- C77 (sound): if `node_permutation` returns a list then it is a permutation `P` of the node
numbers and node `P_i` is within `tol` of the image of node `i` under the affine map that permutes
the vertices. -/
theorem C77_sound (nodes : List (Fin D → ℝ)) (p : Fin (D + 1) → Fin (D + 1)) (tol : ℝ) (P : List ℕ)
    (h : nodePermutation nodes p tol = some P) :
    P.Perm (List.range nodes.length) ∧
      ∀ (i : ℕ) xi, nodes[i]? = some xi → ∃ j x, P[i]? = some j ∧ nodes[j]? = some x ∧
        DieterichRuina.norm (Spec.vertexMap p xi - x) ≤ tol := by
  unfold nodePermutation at h
  split at h
  · cases h
  · rename_i res hres
    split at h
    · rename_i hc
      cases h
      have hf := (mapM_eq_some _ _ _).1 hres
      have hlen : P.length = nodes.length := hf.length_eq.symm
      refine ⟨perm_of_count _ _ hlen hc, fun i xi hi => ?_⟩
      obtain ⟨hlt, rfl⟩ := List.getElem?_eq_some_iff.1 hi
      have := List.forall₂_iff_get.1 hf
      have hs := this.2 i hlt (by omega)
      simp only [List.get_eq_getElem] at hs
      obtain ⟨x, h1, h2⟩ := search_some _ _ _ _ hs
      rw [eta_eq] at h2
      exact ⟨P[i], x, by simp [hlen, hlt], h1, h2⟩
    · cases h

/-- C77 (complete): if the nodes are more than `2 tol` apart and the affine map takes them to each
other up to `tol`, by the permutation `P`, then `node_permutation` returns `P`. -/
theorem C77_complete (nodes : List (Fin D → ℝ)) (p : Fin (D + 1) → Fin (D + 1)) (tol : ℝ) (P : List ℕ)
    (hP : P.Perm (List.range nodes.length))
    (hi : ∀ (i : ℕ) xi j, nodes[i]? = some xi → P[i]? = some j →
      ∃ x, nodes[j]? = some x ∧ DieterichRuina.norm (Spec.vertexMap p xi - x) ≤ tol ∧
        ∀ (k : ℕ) y, nodes[k]? = some y → DieterichRuina.norm (Spec.vertexMap p xi - y) ≤ tol → k = j) :
    nodePermutation nodes p tol = some P := by
  have hlen : P.length = nodes.length := by simpa using hP.length_eq
  have hres : nodes.mapM (fun xi => search nodes tol (eta p xi)) = some P := by
    rw [mapM_eq_some, List.forall₂_iff_get]
    refine ⟨hlen.symm, fun i h1 h2 => ?_⟩
    simp only [List.get_eq_getElem]
    obtain ⟨x, a, b, c⟩ := hi i nodes[i] P[i] (by simp) (by simp)
    exact search_unique _ _ _ _ x a (by rw [eta_eq]; exact b) fun k y hk hy =>
      c k y hk (by rw [← eta_eq]; exact hy)
  unfold nodePermutation
  rw [hres]
  simp only
  rw [if_pos (count_of_perm _ _ hP)]

/-- The affine map permutes the barycentric coordinates. -/
theorem vertexMap_point (n : ℕ) (hn : 0 < n) (p : Equiv.Perm (Fin (D + 1))) (α : Fin (D + 1) → ℕ)
    (hα : ∑ j, α j = n) :
    Spec.vertexMap p (point n α (refVertices D)) = point n (α ∘ p.symm) (refVertices D) := by
  have hn' : (n : ℝ) ≠ 0 := by positivity
  have e0 : 1 - ∑ e, point n α (refVertices D) e = (α 0 : ℝ) / n := by
    rw [Finset.sum_congr rfl fun e _ => point_ref D n hn α e, ← Finset.sum_div]
    have : (n : ℝ) = α 0 + ∑ e : Fin D, (α e.succ : ℝ) := by
      rw [← hα, Fin.sum_univ_succ]; push_cast; rfl
    field_simp
    rw [this]; ring
  funext d
  rw [point_ref D n hn]
  unfold Spec.vertexMap
  rw [e0, Finset.sum_congr rfl fun e _ => by rw [point_ref D n hn α e]]
  have h1 : (α 0 : ℝ) / n * Spec.refVertex D (p 0) d
      + ∑ e : Fin D, (α e.succ : ℝ) / n * Spec.refVertex D (p e.succ) d
      = ∑ k, (α k : ℝ) / n * Spec.refVertex D (p k) d := by rw [Fin.sum_univ_succ]
  rw [h1, Finset.sum_eq_single (p.symm d.succ)]
  · simp [Spec.refVertex]
  · intro k _ hk
    have : ¬ (p k).val = d.val + 1 := by
      intro e
      apply hk
      rw [Equiv.eq_symm_apply]
      exact Fin.ext (by simpa using e)
    simp [Spec.refVertex, this]
  · intro h; exact absurd (Finset.mem_univ _) h

/-- Two lattice points at distance less than the spacing are equal. -/
theorem lattice_close (n : ℕ) (hn : 0 < n) (x y : Fin D → ℝ) (hx : Spec.IsLatticePoint D n x)
    (hy : Spec.IsLatticePoint D n y) (tol : ℝ) (ht : tol * n < 1)
    (h : DieterichRuina.norm (x - y) ≤ tol) : x = y := by
  obtain ⟨α, _, ha⟩ := hx
  obtain ⟨β, _, hb⟩ := hy
  have hn' : (0 : ℝ) < n := by positivity
  funext d
  have h1 := (abs_le_norm (x - y) d).trans h
  rw [Pi.sub_apply, ha, hb, ← sub_div, abs_div, abs_of_pos hn', div_le_iff₀ hn'] at h1
  have h2 : |(α d : ℝ) - β d| < 1 := lt_of_le_of_lt h1 ht
  have h3 : |((α d : ℤ) - (β d : ℤ))| < 1 := by
    have : ((|((α d : ℤ) - (β d : ℤ))| : ℤ) : ℝ) < ((1 : ℤ) : ℝ) := by push_cast; exact h2
    exact_mod_cast this
  have h4 : (α d : ℤ) = β d := by
    have := Int.abs_lt_one_iff.1 h3
    omega
  rw [ha, hb]
  have : α d = β d := by exact_mod_cast h4
  rw [this]

/-- C77 (equidistant nodes): for the nodes of the equidistant factory of any degree `n ≥ 1` and any
permutation `p` of the vertices the permutation of the nodes exists (so the assertion in the mesh
builder holds), provided `tol` is less than the spacing, and it is exact. -/
theorem C77_equidistant (conv : Convention) (n : ℕ) (hD : D = 1 ∨ D = 2 ∨ D = 3) (hn : 0 < n)
    (p : Equiv.Perm (Fin (D + 1))) (tol : ℝ) (h0 : 0 ≤ tol) (ht : tol * n < 1) :
    ∃ P, nodePermutation (nodes conv D n) p tol = some P ∧
      P.Perm (List.range (nodes conv D n).length) ∧
      ∀ (i : ℕ) xi, (nodes conv D n)[i]? = some xi →
        ∃ j, P[i]? = some j ∧ (nodes conv D n)[j]? = some (Spec.vertexMap p xi) := by
  obtain ⟨hnd, hlen, hmem⟩ := C61_lattice conv D n hD hn
  have hmap : ∀ xi ∈ nodes conv D n, Spec.vertexMap p xi ∈ nodes conv D n := by
    intro xi hxi
    rw [nodes_eq conv D n hD hn, List.mem_map] at hxi ⊢
    obtain ⟨α, hα, rfl⟩ := hxi
    rw [mem_idx conv D n hD hn] at hα
    refine ⟨α ∘ p.symm, (mem_idx conv D n hD hn _).2 ?_, (vertexMap_point n hn p α hα).symm⟩
    rw [← hα]
    exact Equiv.sum_comp p.symm α
  have hinj : ∀ xi ∈ nodes conv D n, ∀ yi ∈ nodes conv D n,
      Spec.vertexMap p xi = Spec.vertexMap p yi → xi = yi := by
    intro xi hxi yi hyi e
    rw [nodes_eq conv D n hD hn, List.mem_map] at hxi hyi
    obtain ⟨α, hα, rfl⟩ := hxi
    obtain ⟨β, hβ, rfl⟩ := hyi
    rw [mem_idx conv D n hD hn] at hα hβ
    rw [vertexMap_point n hn p α hα, vertexMap_point n hn p β hβ] at e
    have hn' : (n : ℝ) ≠ 0 := by positivity
    have h1 : ∀ d : Fin D, α (p.symm d.succ) = β (p.symm d.succ) := by
      intro d
      have := congrFun e d
      rw [point_ref D n hn, point_ref D n hn, div_left_inj' hn'] at this
      exact_mod_cast this
    have ha : ∑ j, (α ∘ p.symm) j = n := by rw [← hα]; exact Equiv.sum_comp p.symm α
    have hb : ∑ j, (β ∘ p.symm) j = n := by rw [← hβ]; exact Equiv.sum_comp p.symm β
    rw [Fin.sum_univ_succ] at ha hb
    have h2 : α (p.symm 0) = β (p.symm 0) := by
      have : ∑ d : Fin D, (α ∘ p.symm) d.succ = ∑ d : Fin D, (β ∘ p.symm) d.succ :=
        Finset.sum_congr rfl fun d _ => h1 d
      simp only [Function.comp] at *
      omega
    have h3 : ∀ k, α (p.symm k) = β (p.symm k) := Fin.cases h2 h1
    have : α = β := by
      funext j
      have := h3 (p j)
      simpa using this
    rw [this]
  set L := nodes conv D n with hL
  -- the permutation: position of the image
  have hex : ∀ xi ∈ L, ∃ j, L[j]? = some (Spec.vertexMap p xi) := fun xi hxi =>
    List.mem_iff_getElem?.1 (hmap xi hxi)
  classical
  let pos : (Fin D → ℝ) → ℕ := fun xi => if h : ∃ j, L[j]? = some (Spec.vertexMap p xi)
    then h.choose else 0
  have hpos : ∀ xi ∈ L, L[pos xi]? = some (Spec.vertexMap p xi) := by
    intro xi hxi
    simp only [pos]
    rw [dif_pos (hex xi hxi)]
    exact (hex xi hxi).choose_spec
  have hP : (L.map pos).Perm (List.range L.length) := by
    have hnd' : (L.map pos).Nodup := by
      refine (List.nodup_map_iff_inj_on hnd).2 fun a ha b hb e => ?_
      have h1 := hpos a ha
      rw [e, hpos b hb] at h1
      exact (hinj b hb a ha (Option.some.inj h1)).symm
    refine (List.subperm_of_subset hnd' ?_).perm_of_length_le (by simp)
    intro j hj
    obtain ⟨a, ha, rfl⟩ := List.mem_map.1 hj
    obtain ⟨h, _⟩ := List.getElem?_eq_some_iff.1 (hpos a ha)
    exact List.mem_range.2 h
  have hPi : ∀ (i : ℕ) xi, L[i]? = some xi → (L.map pos)[i]? = some (pos xi) := by
    intro i xi h
    rw [List.getElem?_map, h]; rfl
  refine ⟨L.map pos, ?_, hP, fun i xi h =>
    ⟨pos xi, hPi i xi h, hpos xi (List.mem_of_getElem? h)⟩⟩
  refine C77_complete L p tol _ hP fun i xi j h1 h2 => ?_
  rw [hPi i xi h1] at h2
  cases h2
  have hx := hpos xi (List.mem_of_getElem? h1)
  refine ⟨_, hx, by rw [sub_self, norm_zero']; exact h0, fun k y hk hy => ?_⟩
  have hc := lattice_close n hn _ y ((hmem _).1 (List.mem_of_getElem? hx))
    ((hmem _).1 (List.mem_of_getElem? hk)) tol ht hy
  rw [← hc] at hk
  obtain ⟨a, b⟩ := List.getElem?_eq_some_iff.1 hk
  obtain ⟨c, d⟩ := List.getElem?_eq_some_iff.1 hx
  exact (List.Nodup.getElem_inj_iff hnd).1 (b.trans d.symm)

/-- Swapping two vertices of the quadratic triangle. -/
example : ∃ P, nodePermutation (nodes .GMSH 2 2) (Equiv.swap 0 1) (1 / 10) = some P :=
  (C77_equidistant .GMSH 2 (by omega) (by omega) (Equiv.swap 0 1) (1 / 10) (by norm_num)
    (by norm_num)).imp fun _ h => h.1

end Tandem.NodePermutation
