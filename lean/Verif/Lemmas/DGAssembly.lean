import Verif.Model.DGAssembly
import Verif.Props.DGMatrix
import Mathlib.Algebra.BigOperators.Group.Finset.Basic
import Mathlib.Algebra.BigOperators.Group.List.Lemmas
/-! Rows of the assembled matrix as sums over the facets of the element. -/
namespace Tandem.DGAssembly
open Tandem.Spec Tandem.DGTopo

section
variable {B X M : Type} [AddCommMonoid M]

/-- The product of row `u` of the matrix assembled from `blocks` with the blocks `x` of a vector. -/
def rowApply (act : B → X → M) (blocks : List (Nat × Nat × B)) (x : Nat → X) (u : Nat) : M :=
  ((blocks.filter (fun b => b.1 = u)).map (fun b => act b.2.2 (x b.2.1))).sum

theorem rowApply_append (act : B → X → M) (a b : List (Nat × Nat × B)) (x : Nat → X) (u : Nat) :
    rowApply act (a ++ b) x u = rowApply act a x u + rowApply act b x u := by
  simp [rowApply, List.filter_append]

theorem rowApply_nil (act : B → X → M) (x : Nat → X) (u : Nat) : rowApply act [] x u = 0 := rfl

theorem rowApply_flatMap {A : Type} (act : B → X → M) (l : List A) (g : A → List (Nat × Nat × B)) (x : Nat → X) (u : Nat) :
    rowApply act (l.flatMap g) x u = (l.map (fun a => rowApply act (g a) x u)).sum := by
  induction l with
  | nil => rfl
  | cons a l ih => rw [List.flatMap_cons, rowApply_append, ih, List.map_cons, List.sum_cons]

/-- What facet `i` adds to the product of row `u`. -/
def facetTerm (o : LocalOp B) (act : B → X → M) (x : Nat → X) (u i : Nat) (info : FacetInfo) : M :=
  if info.up0 ≠ info.up1 then
    if info.up0 = u then act (o.skeleton i info 0 0) (x u) + act (o.skeleton i info 0 1) (x info.up1)
    else act (o.skeleton i info 1 0) (x info.up0) + act (o.skeleton i info 1 1) (x u)
  else match o.boundary i info with
    | some a => act a (x u)
    | none => 0

theorem sum_range_mem (n : Nat) (ds : List Nat) (hn : ds.Nodup) (hlt : ∀ i ∈ ds, i < n) (t : Nat → M) :
    ((List.range n).map (fun i => if i ∈ ds then t i else 0)).sum = (ds.map t).sum := by
  classical
  have h1 : ((List.range n).map (fun i => if i ∈ ds then t i else 0)).sum =
      ∑ i ∈ Finset.range n, if i ∈ ds then t i else 0 := by
    rw [Finset.sum_list_map_count]
    have : (List.range n).toFinset = Finset.range n := by ext; simp
    rw [this]
    apply Finset.sum_congr rfl
    intro i hi
    rw [List.count_eq_one_of_mem List.nodup_range (by simpa using hi), one_nsmul]
  have h2 : (ds.map t).sum = ∑ i ∈ ds.toFinset, t i := (List.sum_toFinset t hn).symm
  rw [h1, h2, ← Finset.sum_filter]
  apply Finset.sum_congr _ (fun _ _ => rfl)
  ext i
  simp only [Finset.mem_filter, Finset.mem_range, List.mem_toFinset]
  exact ⟨fun h => h.2, fun h => ⟨hlt i h, h⟩⟩
end

section
variable {P D : Nat} {elems : Nat → List (List Nat)} {num fnum tag : List Nat → Nat} {views : Nat → View}
variable {B X M : Type} [AddCommMonoid M]

theorem inside_iff (hd : IsDistributed P D elems num fnum tag views) (r : Nat) (hr : r < P) (i : Nat)
    (hi : i < (views r).numLocalFacets) :
    ∃ info, facetInfo (views r) i = some info ∧ (info.inside0 = true ↔ info.up0 < (elems r).length) ∧
      (info.inside1 = true ↔ info.up1 < (elems r).length) ∧
      ∀ u ds, (views r).down[u]? = some ds → u < (elems r).length → (i ∈ ds ↔ info.up0 = u ∨ info.up1 = u) := by
  have hv := hd.view r hr
  obtain ⟨info, f, e0, e1, g1, g2, g3, g4, g5, g6, g7, _, _, ⟨d0, k0, k0'⟩, ⟨d1, k1, k1'⟩, g12, g13, _, _⟩ := C33_facet_info hd r hr i hi
  refine ⟨info, g1, ?_, ?_, ?_⟩
  · rw [g12, ← (own_iff hr hd.mesh hv g3).2, hv.numLocal]
  · rw [g13, ← (own_iff hr hd.mesh hv g4).2, hv.numLocal]
  · intro u ds hds hu
    have hle := numLocal_le hv
    rw [hv.numLocal] at hle
    have he := List.getElem?_eq_getElem (l := (views r).elems) (i := u) (by omega)
    obtain ⟨ds', a1, a2, a3, a4⟩ := hv.down u _ he
    obtain rfl := Option.some.inj (hds.symm.trans a1)
    constructor
    · intro hm
      obtain ⟨f', b1, b2⟩ := (a4 i).1 hm
      obtain rfl := Option.some.inj (g2.symm.trans b1)
      rcases g7 _ (mem_inElems hv he) b2 with h | h
      · exact Or.inl (get_inj hv.once g3 (h ▸ he))
      · exact Or.inr (get_inj hv.once g4 (h ▸ he))
    · rintro (rfl | rfl)
      · obtain rfl := Option.some.inj (hds.symm.trans k0)
        exact List.mem_of_getElem? k0'
      · obtain rfl := Option.some.inj (hds.symm.trans k1)
        exact List.mem_of_getElem? k1'

/-- Row `u` of the assembled matrix times a vector: volume block, then one term per facet. -/
theorem row_spec (hd : IsDistributed P D elems num fnum tag views) (r : Nat) (hr : r < P) (o : LocalOp B)
    (act : B → X → M) (x : Nat → X) :
    ∃ blocks, assemble (views r) o = some blocks ∧
      (∀ b ∈ blocks, b.1 < (elems r).length) ∧
      ∀ u ds, u < (elems r).length → (views r).down[u]? = some ds →
      rowApply act blocks x u = act (o.volume u) (x u) +
        (ds.map (fun i => facetTerm o act x u i ((facetInfo (views r) i).getD ⟨0, 0, 0, 0, 0, 0, false, false, 0⟩))).sum := by
  have hv := hd.view r hr
  have hinfo : ∀ f, f ∈ List.range (views r).numLocalFacets → (facetInfo (views r) f).map (fun i => (f, i)) =
      some (f, (facetInfo (views r) f).getD ⟨0, 0, 0, 0, 0, 0, false, false, 0⟩) := by
    intro f hf
    obtain ⟨info, _, _, _, h, _⟩ := C33_facet_info hd r hr f (by simpa using hf)
    rw [h]; rfl
  refine ⟨_, by unfold assemble; rw [Probes.mapM_all _ _ _ hinfo]; rfl, ?_, ?_⟩
  · intro b hb
    rw [List.mem_append] at hb
    rcases hb with hb | hb
    · obtain ⟨e, he, rfl⟩ := List.mem_map.1 hb
      rw [← hv.numLocal]; simpa using he
    · rw [List.mem_flatMap] at hb
      obtain ⟨p, hp, hb⟩ := hb
      obtain ⟨i, hi, rfl⟩ := List.mem_map.1 hp
      rw [List.mem_range] at hi
      obtain ⟨info, g1, g2, g3, _⟩ := inside_iff hd r hr i hi
      rw [g1] at hb
      simp only [Option.getD_some] at hb
      unfold facetBlocks at hb
      split at hb
      · rw [List.mem_append] at hb
        rcases hb with hb | hb
        · split at hb
          · next h0 =>
            have := g2.1 h0
            simp only [List.mem_cons, List.not_mem_nil, or_false] at hb
            rcases hb with rfl | rfl <;> exact this
          · simp at hb
        · split at hb
          · next h0 =>
            have := g3.1 h0
            simp only [List.mem_cons, List.not_mem_nil, or_false] at hb
            rcases hb with rfl | rfl <;> exact this
          · simp at hb
      · split at hb
        · next h0 =>
          have := g2.1 h0
          split at hb
          · rw [List.mem_singleton] at hb; subst hb; exact this
          · simp at hb
        · simp at hb
  intro u ds hu hds
  have hle := numLocal_le hv
  rw [rowApply_append, rowApply_flatMap, List.map_map]
  congr 1
  · -- volume
    have : (List.range (views r).numLocal).filter (fun e => e = u) = [u] := by
      rw [hv.numLocal]
      have key : ∀ n, u < n → (List.range n).filter (fun e => e = u) = [u] := by
        intro n
        induction n with
        | zero => intro h; omega
        | succ n ih =>
          intro h
          rw [List.range_succ, List.filter_append]
          by_cases hc : u = n
          · subst hc
            have : (List.range u).filter (fun e => e = u) = [] := by
              rw [List.filter_eq_nil_iff]
              intro a ha
              rw [List.mem_range] at ha
              simp; omega
            rw [this]; simp
          · rw [ih (by omega)]
            have hnu : n ≠ u := by omega
            simp [hnu]
      exact key _ hu
    unfold rowApply
    rw [List.filter_map]
    have h2 : (fun b : Nat × Nat × B => decide (b.1 = u)) ∘ (fun e => (e, e, o.volume e)) = fun e => decide (e = u) := rfl
    rw [h2, this]
    simp
  · have hlt : ∀ i ∈ ds, i < (views r).numLocalFacets := by
      intro i hi
      have he := List.getElem?_eq_getElem (l := (views r).elems) (i := u) (by rw [hv.numLocal] at hle; omega)
      obtain ⟨ds', a1, a2, a3, a4⟩ := hv.down u _ he
      obtain rfl := Option.some.inj (hds.symm.trans a1)
      obtain ⟨f, b1, b2⟩ := (a4 i).1 hi
      exact (hv.localFacets i f b1).2 ⟨_, (own_iff hr hd.mesh hv he).2.1 (by rw [hv.numLocal]; exact hu), b2⟩
    have hnd : ds.Nodup := by
      have he := List.getElem?_eq_getElem (l := (views r).elems) (i := u) (by rw [hv.numLocal] at hle; omega)
      obtain ⟨ds', a1, a2, a3, a4⟩ := hv.down u _ he
      obtain rfl := Option.some.inj (hds.symm.trans a1)
      exact a3
    rw [← sum_range_mem (views r).numLocalFacets ds hnd hlt]
    congr 1
    apply List.map_congr_left
    intro i hi
    rw [List.mem_range] at hi
    obtain ⟨info, g1, g2, g3, g4⟩ := inside_iff hd r hr i hi
    have hmem := g4 u ds hds hu
    simp only [Function.comp_apply, g1, Option.getD_some]
    have key : rowApply act (facetBlocks o i info) x u =
        if info.up0 = u ∨ info.up1 = u then facetTerm o act x u i info else 0 := by
      unfold facetBlocks facetTerm
      by_cases hne : info.up0 = info.up1
      · have hne' : ¬ (info.up0 ≠ info.up1) := fun h => h hne
        rw [if_neg hne', if_neg hne']
        by_cases h0 : info.up0 = u
        · have hin : info.inside0 = true := g2.2 (h0 ▸ hu)
          rw [if_pos hin, if_pos (Or.inl h0)]
          cases o.boundary i info with
          | none => rfl
          | some a => simp [rowApply, h0]
        · rw [if_neg (show ¬ (info.up0 = u ∨ info.up1 = u) by rw [← hne]; simp [h0])]
          split
          · cases o.boundary i info with
            | none => rfl
            | some a => simp [rowApply, h0]
          · rfl
      · rw [if_pos hne, if_pos hne, rowApply_append]
        by_cases h0 : info.up0 = u
        · have hin : info.inside0 = true := g2.2 (h0 ▸ hu)
          have h1 : info.up1 ≠ u := fun h => hne (h0.trans h.symm)
          rw [if_pos hin, if_pos (Or.inl h0), if_pos h0]
          have z : rowApply act (if info.inside1 = true then [(info.up1, info.up0, o.skeleton i info 1 0),
              (info.up1, info.up1, o.skeleton i info 1 1)] else []) x u = 0 := by
            split
            · simp [rowApply, h1]
            · rfl
          rw [z, add_zero]
          simp [rowApply, h0]
        · have z : rowApply act (if info.inside0 = true then [(info.up0, info.up0, o.skeleton i info 0 0),
              (info.up0, info.up1, o.skeleton i info 0 1)] else []) x u = 0 := by
            split
            · simp [rowApply, h0]
            · rfl
          rw [z, zero_add, if_neg h0]
          by_cases h1 : info.up1 = u
          · have hin : info.inside1 = true := g3.2 (h1 ▸ hu)
            rw [if_pos hin, if_pos (Or.inr h1)]
            simp [rowApply, h1]
          · rw [if_neg (not_or.2 ⟨h0, h1⟩)]
            split
            · simp [rowApply, h1]
            · rfl
    rw [key]
    by_cases hc : i ∈ ds
    · rw [if_pos hc, if_pos (hmem.1 hc)]
    · rw [if_neg hc, if_neg (fun h => hc (hmem.2 h))]

theorem foldl_add {A : Type} (l : List A) (step : A → M → M) (t : A → M) (h : ∀ a ∈ l, ∀ y, step a y = y + t a) (y : M) :
    l.foldl (fun y a => step a y) y = y + (l.map t).sum := by
  induction l generalizing y with
  | nil => simp
  | cons a l ih =>
    rw [List.foldl_cons, h a (by simp), ih (fun b hb => h b (List.mem_cons_of_mem _ hb)), List.map_cons, List.sum_cons, add_assoc]

/-- A loop over the neighbours of each own element whose step adds a term of the facet adds the terms of the facets of the
element. -/
theorem neighbour_steps (hd : IsDistributed P D elems num fnum tag views) (r : Nat) (hr : r < P)
    (t : Nat → Nat → FacetInfo → M) (step : Nat → Nat → SideInfo → M → M)
    (hstep : ∀ f info, f < (views r).numLocalFacets → facetInfo (views r) f = some info → ∀ (s : Fin 2) y,
      upOf info s < (elems r).length → step (upOf info s) (localNoOf info s)
        ⟨f, s.val, upOf info (1 - s), localNoOf info (1 - s), info.bc⟩ y = y + t (upOf info s) f info) :
    ∃ tbl, neighbourInfo (views r) (D + 1) = some tbl ∧
      ∀ u, u < (elems r).length → ∃ (row : List SideInfo) (ds : List Nat), tbl[u]? = some (row.map some) ∧ row.length = D + 1 ∧
        (views r).down[u]? = some ds ∧ ∀ y,
        row.zipIdx.foldl (fun y p => step u p.2 p.1 y) y =
          y + (ds.map (fun i => t u i ((facetInfo (views r) i).getD ⟨0, 0, 0, 0, 0, 0, false, false, 0⟩))).sum := by
  have hv := hd.view r hr
  obtain ⟨tbl, t1, t2, t3⟩ := C33_neighbours hd r hr
  refine ⟨tbl, t1, ?_⟩
  intro u hu
  have hle := numLocal_le hv
  rw [hv.numLocal] at hle
  have he := List.getElem?_eq_getElem (l := (views r).elems) (i := u) (by omega)
  obtain ⟨row, ds, r1, r2, r3, r4⟩ := t3 u _ hu he
  obtain ⟨ds', a1, a2, a3, a4⟩ := hv.down u _ he
  obtain rfl := Option.some.inj (r3.symm.trans a1)
  -- all entries are set
  have hrow : ∃ row' : List SideInfo, row = row'.map some := by
    refine ⟨row.map (fun s => s.getD ⟨0, 0, 0, 0, 0⟩), ?_⟩
    rw [List.map_map]
    apply List.ext_getElem?
    intro l
    by_cases hl : l < D + 1
    · obtain ⟨s, _, _, _, q1, _⟩ := r4 l hl
      rw [List.getElem?_map, q1]; rfl
    · rw [List.getElem?_eq_none (by omega), List.getElem?_eq_none (by simp; omega)]
  obtain ⟨row', rfl⟩ := hrow
  rw [List.length_map] at r2
  refine ⟨row', ds, r1, r2, r3, ?_⟩
  intro y
  rw [foldl_add row'.zipIdx (fun p y => step u p.2 p.1 y) (fun p => t u p.1.fctNo
    ((facetInfo (views r) p.1.fctNo).getD ⟨0, 0, 0, 0, 0, 0, false, false, 0⟩))]
  · congr 2
    apply List.ext_getElem?
    intro l
    rw [List.getElem?_map, List.getElem?_map, List.getElem?_zipIdx]
    by_cases hl : l < D + 1
    · obtain ⟨s, f, e', info, q1, q2, _⟩ := r4 l hl
      rw [List.getElem?_map] at q1
      obtain ⟨s', q1', q1''⟩ := Option.map_eq_some_iff.1 q1
      obtain rfl := Option.some.inj q1''
      rw [q1', q2]; rfl
    · rw [List.getElem?_eq_none (by omega), List.getElem?_eq_none (by omega)]; rfl
  · intro p hp y
    obtain ⟨s, l⟩ := p
    have hp' := List.mem_zipIdx_iff_getElem?.1 hp
    simp only at hp' ⊢
    have hl : l < D + 1 := by rw [← r2]; exact lt_of_get hp'
    obtain ⟨s', f, e', info, q1, q2, q3, q4, q5, q6, q7, ⟨ds', q8, q9⟩, q10, q11, q12⟩ := r4 l hl
    rw [List.getElem?_map, hp'] at q1
    simp only [Option.map_some, Option.some.injEq] at q1
    subst q1
    have hlt : s.fctNo < (views r).numLocalFacets :=
      (hv.localFacets _ f q3).2 ⟨_, (own_iff hr hd.mesh hv he).2.1 (by rw [hv.numLocal]; exact hu), q4⟩
    obtain ⟨info', f', e0, e1, g1, g2, g3, g4, g5, g6, g7, _, _, ⟨d0, k0, k0'⟩, ⟨d1, k1, k1'⟩, g12, g13, _, g14⟩ :=
      C33_facet_info hd r hr _ hlt
    obtain rfl := Option.some.inj (q11.symm.trans g1)
    obtain rfl := Option.some.inj (q3.symm.trans g2)
    obtain ⟨ds2, b1, b2, b3, b4⟩ := hv.down _ _ q5
    obtain rfl := Option.some.inj (q8.symm.trans b1)
    rw [q11, Option.getD_some]
    rcases q12 with ⟨m1, m2, m3⟩ | ⟨m1, m2, m3⟩
    · have e1 : l = info.localNo0 := by
        rw [m2] at k0
        obtain rfl := Option.some.inj (r3.symm.trans k0)
        exact get_inj a3 q2 k0'
      have e2 : s.localNo = info.localNo1 := by
        rw [m3] at k1
        obtain rfl := Option.some.inj (q8.symm.trans k1)
        exact get_inj b3 q9 k1'
      have := hstep s.fctNo info hlt q11 0 y (by simp only [upOf, if_true]; rw [m2]; exact hu)
      change step info.up0 info.localNo0 ⟨s.fctNo, 0, info.up1, info.localNo1, info.bc⟩ y = y + t info.up0 s.fctNo info at this
      rw [m2, m3, ← e1, ← e2, g14, ← q10, ← m1] at this
      exact this
    · have e1 : l = info.localNo1 := by
        rw [m2] at k1
        obtain rfl := Option.some.inj (r3.symm.trans k1)
        exact get_inj a3 q2 k1'
      have e2 : s.localNo = info.localNo0 := by
        rw [m3] at k0
        obtain rfl := Option.some.inj (q8.symm.trans k0)
        exact get_inj b3 q9 k0'
      have := hstep s.fctNo info hlt q11 1 y (by simp only [upOf, show ((1 : Fin 2) = 0) = False by simp, if_false]; rw [m2]; exact hu)
      change step info.up1 info.localNo1 ⟨s.fctNo, 1, info.up0, info.localNo0, info.bc⟩ y = y + t info.up1 s.fctNo info at this
      rw [m2, m3, ← e1, ← e2, g14, ← q10, ← m1] at this
      exact this

/-- A loop over the neighbours of each own element whose step adds the facet's terms computes the product with the
assembled matrix. -/
theorem neighbour_loop (hd : IsDistributed P D elems num fnum tag views) (r : Nat) (hr : r < P) (o : LocalOp B)
    (act : B → X → M) (x : Nat → X) (step : Nat → Nat → SideInfo → M → M)
    (hstep : ∀ f info, f < (views r).numLocalFacets → facetInfo (views r) f = some info → ∀ (s : Fin 2) y,
      upOf info s < (elems r).length → step (upOf info s) (localNoOf info s)
        ⟨f, s.val, upOf info (1 - s), localNoOf info (1 - s), info.bc⟩ y = y + facetTerm o act x (upOf info s) f info) :
    ∃ blocks tbl, assemble (views r) o = some blocks ∧ neighbourInfo (views r) (D + 1) = some tbl ∧
      (∀ b ∈ blocks, b.1 < (elems r).length) ∧
      ∀ u, u < (elems r).length → ∃ row : List SideInfo, tbl[u]? = some (row.map some) ∧ row.length = D + 1 ∧
        row.zipIdx.foldl (fun y p => step u p.2 p.1 y) (act (o.volume u) (x u)) = rowApply act blocks x u := by
  obtain ⟨blocks, h1, h2, h3⟩ := row_spec hd r hr o act x
  obtain ⟨tbl, t1, t2⟩ := neighbour_steps hd r hr (fun u f info => facetTerm o act x u f info) step hstep
  refine ⟨blocks, tbl, h1, t1, h2, ?_⟩
  intro u hu
  obtain ⟨row, ds, r1, r2, r3, r4⟩ := t2 u hu
  exact ⟨row, r1, r2, by rw [h3 u ds hu r3, r4]⟩

/-- What facet `i` adds to block `u` of the right-hand side. -/
def rhsTerm (sk : Nat → FacetInfo → Fin 2 → M) (bn : Nat → FacetInfo → M) (u i : Nat) (info : FacetInfo) : M :=
  if info.up0 ≠ info.up1 then (if info.up0 = u then sk i info 0 else sk i info 1) else bn i info

theorem foldl_update (l : List Nat) (hn : l.Nodup) (vol : Nat → M) (b : Nat → M) (u : Nat) :
    (l.foldl (fun b e => Function.update b e (b e + vol e)) b) u = b u + if u ∈ l then vol u else 0 := by
  induction l generalizing b with
  | nil => simp
  | cons a l ih =>
    rw [List.nodup_cons] at hn
    rw [List.foldl_cons, ih hn.2]
    by_cases h : u = a
    · subst h; simp [hn.1]
    · simp [Function.update_of_ne h, h]

/-- Block `u` of the right-hand side: the volume term and one term per facet are added. -/
theorem rhs_spec (hd : IsDistributed P D elems num fnum tag views) (r : Nat) (hr : r < P) (o : LocalRhs M)
    (vol : Nat → M) (sk : Nat → FacetInfo → Fin 2 → M) (bn : Nat → FacetInfo → M)
    (hvol : ∀ e b, o.volume e b = b + vol e) (hsk : ∀ f i s b, o.skeleton f i s b = b + sk f i s)
    (hbn : ∀ f i b, o.boundary f i b = b + bn f i) (b : Nat → M) :
    ∃ b', rhs (views r) o b = some b' ∧ ∀ u ds, u < (elems r).length → (views r).down[u]? = some ds →
      b' u = b u + vol u + (ds.map (fun i => rhsTerm sk bn u i ((facetInfo (views r) i).getD ⟨0, 0, 0, 0, 0, 0, false, false, 0⟩))).sum := by
  have hv := hd.view r hr
  have hinfo : ∀ f, f ∈ List.range (views r).numLocalFacets → (facetInfo (views r) f).map (fun i => (f, i)) =
      some (f, (facetInfo (views r) f).getD ⟨0, 0, 0, 0, 0, 0, false, false, 0⟩) := by
    intro f hf
    obtain ⟨info, _, _, _, h, _⟩ := C33_facet_info hd r hr f (by simpa using hf)
    rw [h]; rfl
  refine ⟨_, by unfold rhs; rw [Probes.mapM_all _ _ _ hinfo]; rfl, ?_⟩
  intro u ds hu hds
  have hle := numLocal_le hv
  have hlt : ∀ i ∈ ds, i < (views r).numLocalFacets := by
    intro i hi
    have he := List.getElem?_eq_getElem (l := (views r).elems) (i := u) (by rw [hv.numLocal] at hle; omega)
    obtain ⟨ds', a1, a2, a3, a4⟩ := hv.down u _ he
    obtain rfl := Option.some.inj (hds.symm.trans a1)
    obtain ⟨f, b1, b2⟩ := (a4 i).1 hi
    exact (hv.localFacets i f b1).2 ⟨_, (own_iff hr hd.mesh hv he).2.1 (by rw [hv.numLocal]; exact hu), b2⟩
  have hnd : ds.Nodup := by
    have he := List.getElem?_eq_getElem (l := (views r).elems) (i := u) (by rw [hv.numLocal] at hle; omega)
    obtain ⟨ds', a1, a2, a3, a4⟩ := hv.down u _ he
    obtain rfl := Option.some.inj (hds.symm.trans a1)
    exact a3
  have hfold : ∀ (l : List Nat) (b : Nat → M), (∀ i ∈ l, i < (views r).numLocalFacets) →
      ((l.map (fun f => (f, (facetInfo (views r) f).getD ⟨0, 0, 0, 0, 0, 0, false, false, 0⟩))).foldl (fun b p => rhsFacet o p.1 p.2 b) b) u =
      b u + (l.map (fun i => if i ∈ ds then rhsTerm sk bn u i ((facetInfo (views r) i).getD ⟨0, 0, 0, 0, 0, 0, false, false, 0⟩) else 0)).sum := by
    intro l
    induction l with
    | nil => intro b _; simp
    | cons i l ih =>
      intro b hl
      obtain ⟨info, g1, g2, g3, g4⟩ := inside_iff hd r hr i (hl i (by simp))
      have hmem := g4 u ds hds hu
      rw [List.map_cons, List.foldl_cons, ih _ (fun j hj => hl j (List.mem_cons_of_mem _ hj)), List.map_cons, List.sum_cons, ← add_assoc]
      congr 1
      simp only [g1, Option.getD_some]
      unfold rhsFacet rhsTerm
      by_cases hne : info.up0 = info.up1
      · have hne' : ¬ (info.up0 ≠ info.up1) := fun h => h hne
        rw [if_neg hne', if_neg hne']
        by_cases h0 : info.up0 = u
        · rw [if_pos (g2.2 (h0 ▸ hu)), if_pos (hmem.2 (Or.inl h0)), h0, Function.update_self, hbn]
        · rw [if_neg (fun h => (hmem.1 h).elim h0 (fun h' => h0 (hne.trans h'))), add_zero]
          split
          · rw [Function.update_of_ne (Ne.symm h0)]
          · rfl
      · rw [if_pos hne, if_pos hne]
        by_cases h0 : info.up0 = u
        · have h1 : info.up1 ≠ u := fun h => hne (h0.trans h.symm)
          rw [if_pos (hmem.2 (Or.inl h0)), if_pos h0, if_pos (g2.2 (h0 ▸ hu))]
          split
          · rw [Function.update_of_ne (Ne.symm h1), h0, Function.update_self, hsk]
          · rw [h0, Function.update_self, hsk]
        · rw [if_neg h0]
          have hb0 : (if info.inside0 = true then Function.update b info.up0 (o.skeleton i info 0 (b info.up0)) else b) u = b u := by
            split
            · rw [Function.update_of_ne (Ne.symm h0)]
            · rfl
          by_cases h1 : info.up1 = u
          · rw [if_pos (hmem.2 (Or.inr h1)), if_pos (g3.2 (h1 ▸ hu)), h1, Function.update_self, hsk, hb0]
          · rw [if_neg (fun h => (hmem.1 h).elim h0 h1), add_zero]
            split
            · rw [Function.update_of_ne (Ne.symm h1), hb0]
            · exact hb0
  rw [hfold _ _ (fun i hi => by simpa using hi), sum_range_mem _ _ hnd hlt]
  congr 1
  have := foldl_update (List.range (views r).numLocal) List.nodup_range vol b u
  simp only [hvol]
  rw [this, if_pos (by rw [List.mem_range, hv.numLocal]; exact hu)]
end
end Tandem.DGAssembly
