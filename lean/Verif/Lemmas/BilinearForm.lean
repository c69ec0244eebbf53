import Verif.Lemmas.SystemSolve
import Verif.Props.ElasticityMatrix
/-! # The product with the assembled matrix by entries, and its symmetry as a bilinear form (C104) -/
namespace Tandem.DGAssembly
open Tandem.Spec Tandem.DGTopo

variable {P D : ℕ} {elems : ℕ → List (List ℕ)} {num fnum tag : List ℕ → ℕ} {views : ℕ → View}

theorem columns_valid (hd : IsDistributed P D elems num fnum tag views) {r : ℕ} (hr : r < P) {B : Type} (o : LocalOp B) {blocks : List (ℕ × ℕ × B)}
    (h : assemble (views r) o = some blocks) : ∀ b ∈ blocks, ∃ e, (views r).elems[b.2.1]? = some e ∧ InElems P elems e := by
  have hv := hd.view r hr
  have hin : ∀ {j e}, (views r).elems[j]? = some e → InElems P elems e := fun hj => ((hv.exactly _).1 (List.mem_of_getElem? hj)).1
  have hinfo : ∀ f, f ∈ List.range (views r).numLocalFacets → (facetInfo (views r) f).map (fun i => (f, i)) =
      some (f, (facetInfo (views r) f).getD ⟨0, 0, 0, 0, 0, 0, false, false, 0⟩) := by
    intro f hf
    obtain ⟨info, _, _, _, h, _⟩ := C33_facet_info hd r hr f (by simpa using hf)
    rw [h]; rfl
  unfold assemble at h
  rw [Probes.mapM_all _ _ _ hinfo] at h
  obtain rfl := Option.some.inj h
  intro b hb
  rcases List.mem_append.1 hb with hb | hb
  · obtain ⟨e, he, rfl⟩ := List.mem_map.1 hb
    have := numLocal_le hv
    have hlt : e < (views r).elems.length := by have := List.mem_range.1 he; omega
    exact ⟨_, List.getElem?_eq_getElem hlt, hin (List.getElem?_eq_getElem hlt)⟩
  · obtain ⟨p, hp, hb⟩ := List.mem_flatMap.1 hb
    obtain ⟨i, hi, rfl⟩ := List.mem_map.1 hp
    obtain ⟨info, f', e0, e1, g1, g2, g3, g4, -⟩ := C33_facet_info hd r hr i (List.mem_range.1 hi)
    rw [g1] at hb
    have hc : b.2.1 = info.up0 ∨ b.2.1 = info.up1 := by
      simp only [Option.getD_some] at hb
      unfold facetBlocks at hb
      split at hb
      · rcases List.mem_append.1 hb with hb | hb
        · split at hb
          · simp only [List.mem_cons, List.not_mem_nil, or_false] at hb
            rcases hb with rfl | rfl <;> simp
          · simp at hb
        · split at hb
          · simp only [List.mem_cons, List.not_mem_nil, or_false] at hb
            rcases hb with rfl | rfl <;> simp
          · simp at hb
      · split at hb
        · split at hb
          · rw [List.mem_singleton] at hb; subst hb; simp
          · simp at hb
        · simp at hb
    rcases hc with h | h <;> rw [h]
    · exact ⟨e0, g3, hin g3⟩
    · exact ⟨e1, g4, hin g4⟩

/-- The product of a row by the entries of the global matrix. -/
theorem rowApply_entries (hd : IsDistributed P D elems num fnum tag views) {r : ℕ} (hr : r < P) {n dim : ℕ} 
    (o : LocalOp (Fin n → Fin dim → Fin n → Fin dim → ℝ)) {blocks : List (ℕ × ℕ × (Fin n → Fin dim → Fin n → Fin dim → ℝ))}
    (h : assemble (views r) o = some blocks) (X : List ℕ → Fin n → Fin dim → ℝ) {u : ℕ} {e : List ℕ} (hu : (views r).elems[u]? = some e)
    (k : Fin n) (p : Fin dim) :
    rowApply Elasticity.mulVec blocks (fun j => X ((views r).elems.getD j [])) u k p =
      ∑ e' ∈ allElems P elems, ∑ l, ∑ v, entry (views r) blocks e e' k p l v * X e' l v := by
  classical
  have hcol := columns_valid hd hr o h
  have hn := (hd.view r hr).once
  have key : ∀ bs : List (ℕ × ℕ × (Fin n → Fin dim → Fin n → Fin dim → ℝ)), (∀ b ∈ bs, ∃ e, (views r).elems[b.2.1]? = some e ∧ InElems P elems e) →
      rowApply Elasticity.mulVec bs (fun j => X ((views r).elems.getD j [])) u k p =
        ∑ e' ∈ allElems P elems, ∑ l, ∑ v, entry (views r) bs e e' k p l v * X e' l v := by
    intro bs
    induction bs with
    | nil => intro _; simp [rowApply, entry]
    | cons b bs ih =>
      intro hb
      have ih := ih fun c hc => hb c (List.mem_cons_of_mem _ hc)
      obtain ⟨c, hc, hcI⟩ := hb b (by simp)
      have hiff : (views r).elems[b.1]? = some e ↔ b.1 = u := ⟨fun h => get_inj hn h hu, fun h => h ▸ hu⟩
      have hrow : rowApply Elasticity.mulVec (b :: bs) (fun j => X ((views r).elems.getD j [])) u k p =
          (if b.1 = u then Elasticity.mulVec b.2.2 (X c) k p else 0) + rowApply Elasticity.mulVec bs (fun j => X ((views r).elems.getD j [])) u k p := by
        unfold rowApply
        by_cases h1 : b.1 = u
        · rw [List.filter_cons_of_pos (by simp [h1]), List.map_cons, List.sum_cons, if_pos h1]
          have : (views r).elems.getD b.2.1 [] = c := by rw [List.getD_eq_getElem?_getD, hc]; rfl
          simp only [this]; rfl
        · rw [List.filter_cons_of_neg (by simp [h1]), if_neg h1, zero_add]
      have hent : ∀ e' l v, entry (views r) (b :: bs) e e' k p l v =
          (if b.1 = u ∧ e' = c then b.2.2 k p l v else 0) + entry (views r) bs e e' k p l v := by
        intro e' l v
        unfold entry
        by_cases h1 : b.1 = u ∧ e' = c
        · rw [List.filter_cons_of_pos (by simp [hiff.2 h1.1, hc, h1.2]), List.map_cons, List.sum_cons, if_pos h1]; rfl
        · rw [List.filter_cons_of_neg (by
            simp only [decide_eq_true_eq, hiff, hc, Option.some.injEq]
            exact fun h => h1 ⟨h.1, h.2.symm⟩), if_neg h1, zero_add]
      rw [hrow, ih]
      simp only [hent, add_mul, Finset.sum_add_distrib]
      congr 1
      by_cases h1 : b.1 = u
      · rw [if_pos h1, Finset.sum_eq_single_of_mem c ((mem_all c).2 hcI)]
        · simp only [h1, and_self, if_true]; rfl
        · intro e' _ hne
          simp [hne]
      · simp [h1]
  exact key blocks hcol

/-- If the entries are symmetric, so is the bilinear form. -/
theorem form_symmetric (hd : IsDistributed P D elems num fnum tag views) {n dim : ℕ} 
    (o : ℕ → LocalOp (Fin n → Fin dim → Fin n → Fin dim → ℝ)) {blocks : ℕ → List (ℕ × ℕ × (Fin n → Fin dim → Fin n → Fin dim → ℝ))}
    (h : ∀ r, r < P → assemble (views r) (o r) = some (blocks r))
    (hsym : ∀ r r' e e', r < P → r' < P → e ∈ elems r → e' ∈ elems r' → ∀ k p l v,
      entry (views r) (blocks r) e e' k p l v = entry (views r') (blocks r') e' e l v k p)
    (X Y : List ℕ → Fin n → Fin dim → ℝ) :
    ∑ r ∈ Finset.range P, ∑ u ∈ Finset.range (elems r).length, ∑ k, ∑ p, Y ((views r).elems.getD u []) k p *
        rowApply Elasticity.mulVec (blocks r) (fun j => X ((views r).elems.getD j [])) u k p =
      ∑ r ∈ Finset.range P, ∑ u ∈ Finset.range (elems r).length, ∑ k, ∑ p, X ((views r).elems.getD u []) k p *
        rowApply Elasticity.mulVec (blocks r) (fun j => Y ((views r).elems.getD j [])) u k p := by
  have hex : ∀ X Y : List ℕ → Fin n → Fin dim → ℝ, ∑ r ∈ Finset.range P, ∑ u ∈ Finset.range (elems r).length, ∑ k, ∑ p, Y ((views r).elems.getD u []) k p *
        rowApply Elasticity.mulVec (blocks r) (fun j => X ((views r).elems.getD j [])) u k p =
      ∑ r ∈ Finset.range P, ∑ u ∈ Finset.range (elems r).length, ∑ r' ∈ Finset.range P, ∑ u' ∈ Finset.range (elems r').length, ∑ k, ∑ p, ∑ l, ∑ v,
        Y ((views r).elems.getD u []) k p * (entry (views r) (blocks r) ((views r).elems.getD u []) ((views r').elems.getD u' []) k p l v *
          X ((views r').elems.getD u' []) l v) := by
    intro X Y
    refine Finset.sum_congr rfl fun r hr => Finset.sum_congr rfl fun u hu => ?_
    have hr := Finset.mem_range.1 hr
    have hu := Finset.mem_range.1 hu
    have hlt : u < (views r).elems.length := by
      have := numLocal_le (hd.view r hr); rw [(hd.view r hr).numLocal] at this; omega
    have hg : (views r).elems[u]? = some ((views r).elems.getD u []) := by
      rw [List.getD_eq_getElem?_getD, List.getElem?_eq_getElem hlt]; rfl
    generalize (views r).elems.getD u [] = e at hg ⊢
    rw [sum_ranks hd fun e' => ∑ k, ∑ p, ∑ l, ∑ v, Y e k p * (entry (views r) (blocks r) e e' k p l v * X e' l v)]
    refine Eq.trans ?_ (Finset.sum_comm.trans (Finset.sum_congr rfl fun k _ => Finset.sum_comm)).symm
    refine Finset.sum_congr rfl fun k _ => Finset.sum_congr rfl fun p _ => ?_
    rw [rowApply_entries hd hr (o r) (h r hr) X hg, Finset.mul_sum]
    refine Finset.sum_congr rfl fun e' _ => ?_
    simp only [Finset.mul_sum]
  have hown : ∀ r, r < P → ∀ u, u < (elems r).length → (views r).elems.getD u [] ∈ elems r := fun r hr u hu => by
    have hlt : u < (views r).elems.length := by
      have := numLocal_le (hd.view r hr); rw [(hd.view r hr).numLocal] at this; omega
    have hg : (views r).elems[u]? = some ((views r).elems.getD u []) := by
      rw [List.getD_eq_getElem?_getD, List.getElem?_eq_getElem hlt]; rfl
    exact (own_iff hr hd.mesh (hd.view r hr) hg).2.1 (by rw [(hd.view r hr).numLocal]; exact hu)
  rw [hex X Y, hex Y X]
  have hswap : ∀ F : ℕ → ℕ → ℕ → ℕ → ℝ, ∑ r ∈ Finset.range P, ∑ u ∈ Finset.range (elems r).length, ∑ r' ∈ Finset.range P, ∑ u' ∈ Finset.range (elems r').length, F r u r' u' =
      ∑ r' ∈ Finset.range P, ∑ u' ∈ Finset.range (elems r').length, ∑ r ∈ Finset.range P, ∑ u ∈ Finset.range (elems r).length, F r u r' u' := by
    intro F
    have := Finset.sum_comm (s := (Finset.range P).sigma fun r => Finset.range (elems r).length) (t := (Finset.range P).sigma fun r => Finset.range (elems r).length)
      (f := fun (a b : (_ : ℕ) × ℕ) => F a.1 a.2 b.1 b.2)
    simpa only [Finset.sum_sigma] using this
  rw [hswap]
  refine Finset.sum_congr rfl fun r hr => Finset.sum_congr rfl fun u hu => Finset.sum_congr rfl fun r' hr' => Finset.sum_congr rfl fun u' hu' => ?_
  have hr := Finset.mem_range.1 hr
  have hr' := Finset.mem_range.1 hr'
  have hu := hown r hr u (Finset.mem_range.1 hu)
  have hu' := hown r' hr' u' (Finset.mem_range.1 hu')
  generalize (views r).elems.getD u [] = e at hu ⊢
  generalize (views r').elems.getD u' [] = e' at hu' ⊢
  have := Finset.sum_comm (s := (Finset.univ : Finset (Fin n × Fin dim))) (t := (Finset.univ : Finset (Fin n × Fin dim)))
    (f := fun (a b : Fin n × Fin dim) => Y e' a.1 a.2 * (entry (views r') (blocks r') e' e a.1 a.2 b.1 b.2 * X e b.1 b.2))
  simp only [Fintype.sum_prod_type] at this
  rw [this]
  refine Finset.sum_congr rfl fun k _ => Finset.sum_congr rfl fun p _ => Finset.sum_congr rfl fun l _ => Finset.sum_congr rfl fun v _ => ?_
  rw [hsym r' r e' e hr' hr hu' hu]
  ring

end Tandem.DGAssembly
