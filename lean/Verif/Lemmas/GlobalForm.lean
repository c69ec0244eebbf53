import Verif.Lemmas.GlobalMatrix
import Verif.Lemmas.Ghosts
import Mathlib.Algebra.Order.BigOperators.Group.Finset
import Mathlib.Algebra.BigOperators.Ring.Finset
import Mathlib.Tactic.Linarith
import Mathlib.Tactic.FieldSimp
/-! The product of the global matrix with a vector and its quadratic form as sums over elements and facets of the mesh. -/
namespace Tandem.DGAssembly
open Tandem.Spec Tandem.DGTopo

section
variable {B X M : Type} [AddCommMonoid M]
variable {P D : Nat} {elems : Nat → List (List Nat)} {num fnum tag : List Nat → Nat} {views : Nat → View}

/-- What facet `f` contributes to row `e` of the product. -/
noncomputable def meshFacet (P : Nat) (elems : Nat → List (List Nat)) (d : MeshOp B) (act : B → X → M) (x : List Nat → X)
    (e f : List Nat) : M :=
  match nbr P elems f e with
  | some a => act (d.diag f e a) (x e) + act (d.off f e a) (x a)
  | none => match d.bnd f e with
    | some b => act b (x e)
    | none => 0

theorem row_mesh (hd : IsDistributed P D elems num fnum tag views) (r : Nat) (hr : r < P) (o : LocalOp B)
    (d : MeshOp B) (ho : Agrees (views r) (elems r).length o d) (act : B → X → M) (x : List Nat → X) :
    ∃ blocks, assemble (views r) o = some blocks ∧
      ∀ u, u < (elems r).length → ∃ e, (views r).elems[u]? = some e ∧ e ∈ elems r ∧
        rowApply act blocks (fun j => x ((views r).elems.getD j [])) u =
          act (d.vol e) (x e) + ((Ghosts.facets D e).map (meshFacet P elems d act x e)).sum := by
  have hv := hd.view r hr
  obtain ⟨blocks, h1, _, h3⟩ := row_spec hd r hr o act (fun j => x ((views r).elems.getD j []))
  refine ⟨blocks, h1, ?_⟩
  intro u hu
  have hle := numLocal_le hv
  rw [hv.numLocal] at hle
  have hue := List.getElem?_eq_getElem (l := (views r).elems) (i := u) (by omega)
  generalize (views r).elems[u] = e at hue
  have he : e ∈ elems r := (own_iff hr hd.mesh hv hue).2.1 (by rw [hv.numLocal]; exact hu)
  obtain ⟨ds, a1, a2, a3, a4⟩ := hv.down u e hue
  refine ⟨e, hue, he, ?_⟩
  rw [h3 u ds hu a1]
  have hx : ∀ (j : Nat) (a : List Nat), (views r).elems[j]? = some a → x ((views r).elems.getD j []) = x a := by
    intro j a ha; rw [List.getD_eq_getElem?_getD, ha]; rfl
  congr 1
  · simp only [hx u e hue]; rw [ho.volume u e hu hue]
  · have hF := Ghosts.facets_spec D hd.mesh.dim e (hd.mesh.size r hr e he) (hd.mesh.sorted r hr e he)
    have hnd : (ds.map (fun i => (views r).facets.getD i [])).Nodup := by
      rw [List.nodup_map_iff_inj_on a3]
      intro i hi j hj hij
      obtain ⟨f, b1, _⟩ := (a4 i).1 hi
      obtain ⟨f', b2, _⟩ := (a4 j).1 hj
      rw [List.getD_eq_getElem?_getD, List.getD_eq_getElem?_getD, b1, b2] at hij
      exact get_inj hv.facetsOnce b1 (show _ = some f by rw [b2]; exact congrArg some hij.symm)
    have hmem : ∀ f, f ∈ ds.map (fun i => (views r).facets.getD i []) ↔ IsFacet e f := by
      intro f
      rw [List.mem_map]
      constructor
      · rintro ⟨i, hi, rfl⟩
        obtain ⟨f, b1, b2⟩ := (a4 i).1 hi
        rw [List.getD_eq_getElem?_getD, b1]; exact b2
      · intro hf
        have hmem : f ∈ (views r).facets := (hv.facetsExactly f).2 ⟨e, List.mem_of_getElem? hue, hf⟩
        obtain ⟨i, hi⟩ := List.mem_iff_getElem?.1 hmem
        exact ⟨i, (a4 i).2 ⟨f, hi, hf⟩, by rw [List.getD_eq_getElem?_getD, hi]; rfl⟩
    have hperm : (ds.map (fun i => (views r).facets.getD i [])).Perm (Ghosts.facets D e) :=
      (List.perm_ext_iff_of_nodup hnd hF.1).2 (fun f => by rw [hmem, hF.2])
    rw [← (hperm.map _).sum_eq, List.map_map]
    congr 1
    apply List.map_congr_left
    intro i hi
    obtain ⟨f, b1, b2⟩ := (a4 i).1 hi
    have hlt : i < (views r).numLocalFacets := (hv.localFacets i f b1).2 ⟨e, he, b2⟩
    obtain ⟨info, f', e0, e1, g1, g2, g3, g4, g5, g6, g7, _⟩ := C33_facet_info hd r hr i hlt
    obtain rfl := Option.some.inj (b1.symm.trans g2)
    simp only [Function.comp_apply]
    rw [g1, Option.getD_some, List.getD_eq_getElem?_getD (l := (views r).facets), b1, Option.getD_some]
    have heI : InElems P elems e := ⟨r, hr, he⟩
    unfold facetTerm meshFacet
    by_cases hne : info.up0 = info.up1
    · have h01 : e0 = e1 := by rw [hne] at g3; exact Option.some.inj (g3.symm.trans g4)
      have hee0 : e = e0 := by
        rcases g7 e heI b2 with h | h
        · exact h
        · rw [h, h01]
      subst hee0
      rw [if_neg (fun h => h hne), nbr_none (fun a ha hfa => by
        rcases g7 a ha hfa with h | h
        · exact h
        · rw [h, h01]), ho.boundary i info f e hlt g1 g2 g3 hne]
      cases d.bnd f e with
      | none => rfl
      | some a => simp only [hx u e hue]
    · obtain ⟨s1, s2, s3, s4⟩ := ho.skeleton i info f e0 e1 hlt g1 g2 g3 g4 hne
      have hne01 : e0 ≠ e1 := fun h => hne (get_inj hv.once g3 (h ▸ g4))
      rw [if_pos hne]
      by_cases h0 : info.up0 = u
      · have hee0 : e = e0 := by rw [h0] at g3; exact Option.some.inj (hue.symm.trans g3)
        subst hee0
        rw [if_pos h0, nbr_some hd.mesh heI b2 (mem_inElems hv g4) (Ne.symm hne01) g6, s1, s2]
        simp only [hx u e hue, hx info.up1 e1 g4]
      · rw [if_neg h0]
        have hee1 : e = e1 := by
          rcases g7 e heI b2 with h | h
          · exact absurd (get_inj hv.once g3 (h ▸ hue)) h0
          · exact h
        subst hee1
        rw [nbr_some hd.mesh heI b2 (mem_inElems hv g3) hne01 g5, s3, s4]
        simp only [hx u e hue, hx info.up0 e0 g3]
        rw [add_comm]
end

section
variable {P D : Nat} {elems : Nat → List (List Nat)}

/-- All elements of the mesh. -/
def allElems (P : Nat) (elems : Nat → List (List Nat)) : Finset (List Nat) := ((List.range P).flatMap elems).toFinset

theorem mem_all (e : List Nat) : e ∈ allElems P elems ↔ InElems P elems e := by
  simp [allElems, InElems]

theorem facets_length (hm : Mesh P D elems) (e : List Nat) (he : InElems P elems e) : (Ghosts.facets D e).length = D + 1 := by
  obtain ⟨s, hs, h⟩ := he
  obtain ⟨fs, h1, h2, h3⟩ := Simplex.C20_downward D (D - 1) (by have := hm.dim; omega) e (hm.size s hs e h) (hm.sorted s hs e h) (D + 1)
    (by have := hm.dim; rw [show D - 1 + 1 = D by omega, Nat.choose_succ_self_right]; omega)
  unfold Ghosts.facets
  rw [h1]
  simp only [Option.getD_some]
  rw [h3]
  have := hm.dim
  rw [show D - 1 + 1 = D by omega, Nat.choose_succ_self_right]

/-- A sum over elements and facets is nonnegative if it is for both sides of each facet together. -/
theorem pair_nonneg (hm : Mesh P D elems) (G : List Nat → List Nat → ℝ)
    (hin : ∀ f e a, InElems P elems e → InElems P elems a → e ≠ a → IsFacet e f → IsFacet a f → 0 ≤ G e f + G a f)
    (hbd : ∀ f e, InElems P elems e → IsFacet e f → (∀ a, InElems P elems a → IsFacet a f → a = e) → 0 ≤ G e f) :
    0 ≤ ∑ e ∈ allElems P elems, ∑ f ∈ (Ghosts.facets D e).toFinset, G e f := by
  classical
  have hF : ∀ e, InElems P elems e → (Ghosts.facets D e).Nodup ∧ ∀ f, f ∈ Ghosts.facets D e ↔ IsFacet e f := by
    rintro e ⟨s, hs, h⟩
    exact Ghosts.facets_spec D hm.dim e (hm.size s hs e h) (hm.sorted s hs e h)
  rw [Finset.sum_sigma']
  set S := (allElems P elems).sigma (fun e => (Ghosts.facets D e).toFinset) with hS
  have hmem : ∀ p : (_ : List Nat) × List Nat, p ∈ S ↔ InElems P elems p.1 ∧ IsFacet p.1 p.2 := by
    intro p
    rw [hS, Finset.mem_sigma, mem_all, List.mem_toFinset]
    constructor
    · rintro ⟨h1, h2⟩; exact ⟨h1, ((hF p.1 h1).2 p.2).1 h2⟩
    · rintro ⟨h1, h2⟩; exact ⟨h1, ((hF p.1 h1).2 p.2).2 h2⟩
  let σ : (_ : List Nat) × List Nat → (_ : List Nat) × List Nat := fun p => ⟨(nbr P elems p.2 p.1).getD p.1, p.2⟩
  have hσ : ∀ p ∈ S, σ p ∈ S ∧ σ (σ p) = p := by
    rintro ⟨e, f⟩ hp
    obtain ⟨h1, h2⟩ := (hmem _).1 hp
    rcases nbr_cases hm h1 h2 with ⟨a, c1, c2, c3, c4⟩ | ⟨c1, c2⟩
    · have e1 : σ ⟨e, f⟩ = ⟨a, f⟩ := by simp only [σ, c4, Option.getD_some]
      rw [e1]
      refine ⟨(hmem _).2 ⟨c1, c3⟩, ?_⟩
      simp only [σ, nbr_some hm c1 c3 h1 (Ne.symm c2) h2, Option.getD_some]
    · have e1 : σ ⟨e, f⟩ = ⟨e, f⟩ := by simp only [σ, c2, Option.getD_none]
      rw [e1, e1]
      exact ⟨hp, rfl⟩
  have hsum : ∑ p ∈ S, G p.1 p.2 = ∑ p ∈ S, G (σ p).1 (σ p).2 := by
    refine Finset.sum_bij' (fun p _ => σ p) (fun p _ => σ p) (fun p hp => (hσ p hp).1) (fun p hp => (hσ p hp).1)
      (fun p hp => (hσ p hp).2) (fun p hp => (hσ p hp).2) (fun p hp => ?_)
    simp only [(hσ p hp).2]
  have h2 : 0 ≤ ∑ p ∈ S, (G p.1 p.2 + G (σ p).1 (σ p).2) := by
    apply Finset.sum_nonneg
    rintro ⟨e, f⟩ hp
    obtain ⟨h1, h2⟩ := (hmem _).1 hp
    rcases nbr_cases hm h1 h2 with ⟨a, c1, c2, c3, c4⟩ | ⟨c1, c2⟩
    · simp only [σ, c4, Option.getD_some]
      exact hin f e a h1 c1 (Ne.symm c2) h2 c3
    · simp only [σ, c2, Option.getD_none]
      have := hbd f e h1 h2 c1
      linarith
  rw [Finset.sum_add_distrib, ← hsum] at h2
  linarith

/-- Volume terms `V` and facet terms `T`: the total is nonnegative if each facet takes at most its share of the volume terms
of its elements. -/
theorem total_nonneg (hm : Mesh P D elems) (V : List Nat → ℝ) (T : List Nat → List Nat → ℝ)
    (hin : ∀ f e a, InElems P elems e → InElems P elems a → e ≠ a → IsFacet e f → IsFacet a f →
      -((V e + V a) / (D + 1 : ℝ)) ≤ T e f + T a f)
    (hbd : ∀ f e, InElems P elems e → IsFacet e f → (∀ a, InElems P elems a → IsFacet a f → a = e) →
      -(V e / (D + 1 : ℝ)) ≤ T e f) :
    0 ≤ ∑ e ∈ allElems P elems, (V e + ((Ghosts.facets D e).map (T e)).sum) := by
  have h := pair_nonneg hm (fun e f => V e / (D + 1 : ℝ) + T e f)
    (fun f e a h1 h2 h3 h4 h5 => by have := hin f e a h1 h2 h3 h4 h5; rw [add_div] at this; linarith)
    (fun f e h1 h2 h3 => by have := hbd f e h1 h2 h3; linarith)
  refine le_of_le_of_eq h ?_
  apply Finset.sum_congr rfl
  intro e he
  have heI := (mem_all e).1 he
  have hF : (Ghosts.facets D e).Nodup := by
    obtain ⟨s, hs, h⟩ := heI
    exact (Ghosts.facets_spec D hm.dim e (hm.size s hs e h) (hm.sorted s hs e h)).1
  rw [Finset.sum_add_distrib, Finset.sum_const, List.toFinset_card_of_nodup hF, facets_length hm e heI, List.sum_toFinset _ hF]
  congr 1
  rw [nsmul_eq_mul]
  have : (D + 1 : ℝ) ≠ 0 := by positivity
  push_cast
  field_simp

/-- Sums over the own elements of all ranks are sums over the elements of the mesh. -/
theorem sum_ranks {num fnum tag : List Nat → Nat} {views : Nat → View} (hd : IsDistributed P D elems num fnum tag views)
    (F : List Nat → ℝ) :
    ∑ r ∈ Finset.range P, ∑ u ∈ Finset.range (elems r).length, F ((views r).elems.getD u []) = ∑ e ∈ allElems P elems, F e := by
  classical
  have hm := hd.mesh
  have h1 : ∀ r ∈ Finset.range P, ∑ u ∈ Finset.range (elems r).length, F ((views r).elems.getD u []) = ∑ e ∈ (elems r).toFinset, F e := by
    intro r hr
    rw [Finset.mem_range] at hr
    have hv := hd.view r hr
    rw [List.sum_toFinset F (hm.nodup r hr)]
    rw [← (hv.ownFirst.map F).sum_eq]
    have hle := numLocal_le hv
    rw [hv.numLocal] at hle
    have : Finset.range (elems r).length = (List.range (elems r).length).toFinset := by ext; simp
    rw [this, List.sum_toFinset _ List.nodup_range]
    congr 1
    apply List.ext_getElem?
    intro j
    rw [List.getElem?_map, List.getElem?_map]
    by_cases hj : j < (elems r).length
    · rw [List.getElem?_range hj, List.getElem?_take_of_lt hj, List.getElem?_eq_getElem (show j < (views r).elems.length by omega)]
      simp only [Option.map_some]
      rw [List.getD_eq_getElem?_getD, List.getElem?_eq_getElem (show j < (views r).elems.length by omega)]; rfl
    · rw [List.getElem?_eq_none (by simpa using hj), List.getElem?_eq_none (by rw [List.length_take]; omega)]; rfl
  rw [Finset.sum_congr rfl h1]
  have h2 : allElems P elems = (Finset.range P).biUnion (fun r => (elems r).toFinset) := by
    ext e
    simp [mem_all, InElems]
  rw [h2, Finset.sum_biUnion]
  intro r hr s hs hne
  rw [Finset.coe_range, Set.mem_Iio] at hr hs
  rw [Function.onFun, Finset.disjoint_left]
  intro e he he'
  exact hm.disjoint r s hr hs hne e (by simpa using he) (by simpa using he')
end
end Tandem.DGAssembly
