import Verif.Model.MeshBuilder
import Verif.Props.NodePermutation
import Verif.Props.Functions
import Verif.Props.Simplex
/-! # Lemmas on the mesh builder -/
namespace Tandem.MeshBuilder
open Equidistant

/-! ## Sorting by a key -/

theorem insertBy_perm (key : ℕ → ℕ) (a : ℕ) (l : List ℕ) : (insertBy key a l).Perm (a :: l) := by
  induction l with
  | nil => exact List.Perm.refl _
  | cons b l ih =>
    unfold insertBy
    split
    · exact List.Perm.refl _
    · exact (ih.cons b).trans (List.Perm.swap a b l)

theorem insertBy_sorted (key : ℕ → ℕ) (a : ℕ) (l : List ℕ) (h : l.Pairwise fun x y => key x ≤ key y) :
    (insertBy key a l).Pairwise fun x y => key x ≤ key y := by
  induction l with
  | nil => simp [insertBy]
  | cons b l ih =>
    unfold insertBy
    rw [List.pairwise_cons] at h
    split
    · rename_i hlt
      refine List.pairwise_cons.2 ⟨fun y hy => ?_, List.pairwise_cons.2 h⟩
      rcases List.mem_cons.1 hy with rfl | hy
      · omega
      · have := h.1 y hy; omega
    · rename_i hlt
      refine List.pairwise_cons.2 ⟨fun y hy => ?_, ih h.2⟩
      rcases List.mem_cons.1 ((insertBy_perm key a l).mem_iff.1 hy) with rfl | hy
      · omega
      · exact h.1 y hy

theorem argsort_core (key : ℕ → ℕ) (l : List ℕ) :
    (l.foldr (fun a l => insertBy key a l) []).Perm l ∧
      (l.foldr (fun a l => insertBy key a l) []).Pairwise fun x y => key x ≤ key y := by
  induction l with
  | nil => simp
  | cons a l ih =>
    exact ⟨(insertBy_perm key a _).trans (ih.1.cons a), insertBy_sorted key a _ ih.2⟩

theorem argsort_perm (elem : List ℕ) : (argsort elem).Perm (List.range elem.length) :=
  (argsort_core _ _).1.trans (List.reverse_perm _)

/-- The stored simplex lists the vertices in the order of the sorting permutation. -/
theorem mk_eq_argsort (elem : List ℕ) :
    Simplex.mk elem = (argsort elem).map fun i => elem.getD i 0 := by
  refine Simplex.sorted_unique _ _ (Simplex.sort_sorted elem) ?_ ?_
  · rw [List.pairwise_map]
    exact (argsort_core _ _).2
  · refine (Simplex.sort_perm elem).trans ?_
    have h : elem = (List.range elem.length).map fun i => elem.getD i 0 := by
      apply List.ext_getElem
      · simp
      · intro i h1 h2
        simp [h1]
    conv_lhs => rw [h]
    exact ((argsort_perm elem).map _).symm

/-! ## The table of permutations -/

theorem toPerm_val (D : ℕ) (p : List ℕ) (hp : p.Perm (List.range (D + 1))) (k : Fin (D + 1)) :
    p[k.val]? = some (toPerm D p k).val := by
  have hl : p.length = D + 1 := by simpa using hp.length_eq
  have hk : k.val < p.length := by omega
  have hm : p[k.val] < D + 1 := List.mem_range.1 (hp.mem_iff.1 (List.getElem_mem hk))
  simp only [toPerm, Fin.ofNat]
  rw [List.getD_eq_getElem?_getD, List.getElem?_eq_getElem hk, Option.getD_some,
    Nat.mod_eq_of_lt hm]

theorem toPerm_bij (D : ℕ) (p : List ℕ) (hp : p.Perm (List.range (D + 1))) :
    ∃ σ : Equiv.Perm (Fin (D + 1)), (σ : Fin (D + 1) → Fin (D + 1)) = toPerm D p := by
  have hinj : Function.Injective (toPerm D p) := by
    intro a b h
    have ha := toPerm_val D p hp a
    have hb := toPerm_val D p hp b
    rw [h] at ha
    obtain ⟨x, hx⟩ := List.getElem?_eq_some_iff.1 ha
    obtain ⟨y, hy⟩ := List.getElem?_eq_some_iff.1 hb
    have hnd : p.Nodup := hp.nodup_iff.2 List.nodup_range
    exact Fin.ext ((List.Nodup.getElem_inj_iff hnd).1 (hx.trans hy.symm))
  exact ⟨Equiv.ofBijective _ (Finite.injective_iff_bijective.1 hinj), rfl⟩

theorem isPermutation_of_perm (n : ℕ) (p : List ℕ) (hp : p.Perm (List.range n)) :
    Spec.IsPermutation p p.length := by
  have hl : p.length = n := by simpa using hp.length_eq
  refine ⟨rfl, fun i hi => ?_, hp.nodup_iff.2 List.nodup_range⟩
  rw [hl]
  exact List.mem_range.1 (hp.mem_iff.1 hi)

theorem table_spec (D n fuel : ℕ) (tol : ℝ) (hD : D = 1 ∨ D = 2 ∨ D = 3) (hn : 0 < n)
    (h0 : 0 ≤ tol) (ht : tol * n < 1) (hf : (n + D).choose D ≤ fuel) :
    ∃ t, permutationTable D ((n + D).choose D) fuel tol = some t ∧
      ∀ p : List ℕ, p.Perm (List.range (D + 1)) → ∃ L P, Combinatorics.permutationToLehmer p = some L ∧
        t (Combinatorics.lehmerToInteger L) = some P ∧
        NodePermutation.nodePermutation (nodes .GMSH D n) (toPerm D p) tol = some P := by
  have hcol : ∀ p : List ℕ, p.Perm (List.range (D + 1)) → ∃ L P,
      Combinatorics.permutationToLehmer p = some L ∧
      NodePermutation.nodePermutation (nodes .GMSH D n) (toPerm D p) tol = some P := by
    intro p hp
    have hl : p.length = D + 1 := by simpa using hp.length_eq
    obtain ⟨a, ha, _⟩ := Combinatorics.C07_number_below_factorial p (isPermutation_of_perm _ p hp)
      (by omega)
    obtain ⟨σ, hσ⟩ := toPerm_bij D p hp
    obtain ⟨P, hP, _⟩ := NodePermutation.C77_equidistant .GMSH n hD hn σ tol h0 ht
    unfold Combinatorics.permutationNumber at ha
    cases hL : Combinatorics.permutationToLehmer p with
    | none => rw [hL] at ha; cases ha
    | some L => exact ⟨L, P, rfl, by rw [← hσ]; exact hP⟩
  have hperm : ∀ p ∈ (List.range (D + 1)).permutations, p.Perm (List.range (D + 1)) :=
    fun p hp => List.mem_permutations.1 hp
  have hmap : ∃ cols, (List.range (D + 1)).permutations.mapM (tableColumn D (nodes .GMSH D n) tol)
      = some cols := by
    generalize (List.range (D + 1)).permutations = l at hperm
    induction l with
    | nil => exact ⟨[], rfl⟩
    | cons p l ih =>
      obtain ⟨L, P, h1, h2⟩ := hcol p (hperm p (by simp))
      obtain ⟨cols, hc⟩ := ih fun q hq => hperm q (List.mem_cons_of_mem _ hq)
      refine ⟨(Combinatorics.lehmerToInteger L, P) :: cols, ?_⟩
      rw [List.mapM_cons, hc]
      have : tableColumn D (nodes .GMSH D n) tol p = some (Combinatorics.lehmerToInteger L, P) := by
        unfold tableColumn; rw [h1, h2]
      rw [this]
      rfl
  obtain ⟨cols, hcols⟩ := hmap
  refine ⟨fun np => (cols.find? fun c => c.1 == np).map (·.2), ?_, fun p hp => ?_⟩
  · unfold permutationTable
    rw [Functions.C56_round_trip D n fuel (by omega) hn hf]
    simp only
    rw [hcols]
  · obtain ⟨L, P, h1, h2⟩ := hcol p hp
    have hf2 := (NodePermutation.mapM_eq_some _ _ _).1 hcols
    refine ⟨L, P, h1, ?_, h2⟩
    have hpm : p ∈ (List.range (D + 1)).permutations := List.mem_permutations.2 hp
    -- the column of `p` is in the list
    have hin : (Combinatorics.lehmerToInteger L, P) ∈ cols := by
      obtain ⟨i, hi, rfl⟩ := List.mem_iff_getElem.1 hpm
      have hg := List.forall₂_iff_get.1 hf2
      have := hg.2 i hi (by rw [← hg.1]; exact hi)
      simp only [List.get_eq_getElem] at this
      unfold tableColumn at this
      rw [h1, h2] at this
      rw [Option.some.injEq] at this
      rw [this]
      exact List.getElem_mem _
    -- and every column with that number is its column
    have huniq : ∀ c ∈ cols, c.1 = Combinatorics.lehmerToInteger L → c.2 = P := by
      intro c hc he
      obtain ⟨i, hi, rfl⟩ := List.mem_iff_getElem.1 hc
      have hg := List.forall₂_iff_get.1 hf2
      have hi' : i < (List.range (D + 1)).permutations.length := by rw [hg.1]; exact hi
      have := hg.2 i hi' hi
      simp only [List.get_eq_getElem] at this
      set q := (List.range (D + 1)).permutations[i] with hq
      have hqp : q.Perm (List.range (D + 1)) := hperm q (List.getElem_mem hi')
      obtain ⟨M, Q, g1, g2⟩ := hcol q hqp
      unfold tableColumn at this
      rw [g1, g2] at this
      rw [Option.some.injEq] at this
      rw [← this] at he ⊢
      have hql : q.length = D + 1 := by simpa using hqp.length_eq
      have hpl : p.length = D + 1 := by simpa using hp.length_eq
      have : q = p := by
        refine Combinatorics.C07_number_injective q p (isPermutation_of_perm _ q hqp)
          (isPermutation_of_perm _ p hp) (by omega) (by omega) ?_
        unfold Combinatorics.permutationNumber
        rw [g1, h1, Option.map_some, Option.map_some]
        exact congrArg some he
      rw [this, h2] at g2
      exact (Option.some.inj g2).symm
    cases hfd : cols.find? fun c => c.1 == Combinatorics.lehmerToInteger L with
    | none =>
      exact absurd (by simp) (List.find?_eq_none.1 hfd _ hin)
    | some c =>
      have hc1 := List.find?_some hfd
      have hc2 := List.mem_of_find?_eq_some hfd
      rw [← huniq c hc2 (by simpa using hc1)]
      simp only [hfd, Option.map_some]

/-! ## Storing the nodes of one element -/

theorem storeNodes_spec (D : ℕ) (node col : List ℕ) (elNo : ℕ) (is : List ℕ) (m : Matrix)
    (hge : ∀ i ∈ is, D + 1 ≤ i) (hnd : is.Nodup)
    (hr : ∀ i ∈ is, i - (D + 1) < m.rows) (hc : elNo < m.cols)
    (hv : ∀ i ∈ is, ∃ pi v, col[i]? = some pi ∧ node[pi]? = some v) :
    ∃ m', storeNodes D node col elNo is m = some m' ∧ m'.rows = m.rows ∧ m'.cols = m.cols ∧
      (∀ i ∈ is, ∃ pi, col[i]? = some pi ∧ node[pi]? = some (m'.get (i - (D + 1)) elNo)) ∧
      (∀ r c, c ≠ elNo → m'.get r c = m.get r c) ∧
      (∀ r, (∀ i ∈ is, r ≠ i - (D + 1)) → m'.get r elNo = m.get r elNo) := by
  induction is generalizing m with
  | nil => exact ⟨m, rfl, rfl, rfl, by simp, by simp, by simp⟩
  | cons i is ih =>
    obtain ⟨pi, v, h1, h2⟩ := hv i (by simp)
    rw [List.nodup_cons] at hnd
    unfold storeNodes
    simp only [h1, h2]
    rw [if_pos ⟨hr i (by simp), hc⟩]
    obtain ⟨m', e, a, b, c, d, f⟩ := ih
      ⟨m.rows, m.cols, fun r c => if r = i - (D + 1) ∧ c = elNo then v else m.get r c⟩
      (fun j hj => hge j (List.mem_cons_of_mem _ hj)) hnd.2
      (fun j hj => hr j (List.mem_cons_of_mem _ hj)) hc
      (fun j hj => hv j (List.mem_cons_of_mem _ hj))
    refine ⟨m', e, a, b, ?_, ?_, ?_⟩
    · intro j hj
      rcases List.mem_cons.1 hj with rfl | hj
      · refine ⟨pi, h1, ?_⟩
        rw [f (j - (D + 1)) fun k hk => ?_]
        · simp [h2]
        · have := hge k (List.mem_cons_of_mem _ hk)
          have := hge j (by simp)
          intro e
          have : k = j := by omega
          exact hnd.1 (this ▸ hk)
      · exact c j hj
    · intro r k hk
      rw [d r k hk]
      simp [hk]
    · intro r hr'
      rw [f r fun k hk => hr' k (List.mem_cons_of_mem _ hk)]
      simp [hr' i (by simp)]

end Tandem.MeshBuilder
