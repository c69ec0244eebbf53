import Verif.Lemmas.DGAssembly
import Verif.Spec.DGAssembly
/-! The entries of the global matrix as sums over the facets of the mesh, independent of the distribution. -/
namespace Tandem.DGAssembly
open Tandem.Spec Tandem.DGTopo

/-- The local operators' blocks by facet and element instead of local numbers. -/
structure MeshOp (B : Type) where
  vol : List Nat → B
  diag : List Nat → List Nat → List Nat → B
  off : List Nat → List Nat → List Nat → B
  bnd : List Nat → List Nat → Option B

/-- The local operator of a rank has these blocks. -/
structure Agrees {B : Type} (v : View) (n : Nat) (o : LocalOp B) (d : MeshOp B) : Prop where
  volume : ∀ (u : Nat) (e : List Nat), u < n → v.elems[u]? = some e → o.volume u = d.vol e
  skeleton : ∀ (i : Nat) (info : FacetInfo) (f e0 e1 : List Nat), i < v.numLocalFacets → facetInfo v i = some info →
    v.facets[i]? = some f → v.elems[info.up0]? = some e0 → v.elems[info.up1]? = some e1 → info.up0 ≠ info.up1 →
    o.skeleton i info 0 0 = d.diag f e0 e1 ∧ o.skeleton i info 0 1 = d.off f e0 e1 ∧
    o.skeleton i info 1 0 = d.off f e1 e0 ∧ o.skeleton i info 1 1 = d.diag f e1 e0
  boundary : ∀ (i : Nat) (info : FacetInfo) (f e : List Nat), i < v.numLocalFacets → facetInfo v i = some info →
    v.facets[i]? = some f → v.elems[info.up0]? = some e → info.up0 = info.up1 → o.boundary i info = d.bnd f e

open Classical in
/-- The element on the other side of facet `f` of `e`. -/
noncomputable def nbr (P : Nat) (elems : Nat → List (List Nat)) (f e : List Nat) : Option (List Nat) :=
  if h : ∃ a, InElems P elems a ∧ a ≠ e ∧ IsFacet a f then some h.choose else none

theorem nbr_some {P D : Nat} {elems : Nat → List (List Nat)} (hm : Mesh P D elems) {f e a : List Nat}
    (he : InElems P elems e) (hf : IsFacet e f) (ha : InElems P elems a) (hne : a ≠ e) (hfa : IsFacet a f) :
    nbr P elems f e = some a := by
  have h : ∃ a, InElems P elems a ∧ a ≠ e ∧ IsFacet a f := ⟨a, ha, hne, hfa⟩
  unfold nbr
  rw [dif_pos h]
  have hs := h.choose_spec
  generalize h.choose = b at hs
  obtain ⟨⟨s, hs1, hs2⟩, hb, hbf⟩ := hs
  obtain ⟨s', h1, h2⟩ := ha
  obtain ⟨t, h3, h4⟩ := he
  congr 1
  rcases hm.conforming s s' t hs1 h1 h3 b hs2 a h2 e h4 f hbf hfa hf with h | h | h
  · exact h
  · exact absurd h hne
  · exact absurd h hb

theorem nbr_none {P : Nat} {elems : Nat → List (List Nat)} {f e : List Nat}
    (h : ∀ a, InElems P elems a → IsFacet a f → a = e) : nbr P elems f e = none := by
  unfold nbr
  rw [dif_neg]
  rintro ⟨a, h1, h2, h3⟩
  exact h2 (h a h1 h3)

section
variable {B : Type} [AddCommMonoid B]

/-- The blocks of the matrix in the row of element `e` and the column of element `e'`, added up. -/
def entry (v : View) (blocks : List (Nat × Nat × B)) (e e' : List Nat) : B :=
  ((blocks.filter (fun b => v.elems[b.1]? = some e ∧ v.elems[b.2.1]? = some e')).map (fun b => b.2.2)).sum

/-- What facet `f` of `e` contributes to row `e`, column `e'`. -/
noncomputable def facetEntry (P : Nat) (elems : Nat → List (List Nat)) (d : MeshOp B) (e e' f : List Nat) : B :=
  match nbr P elems f e with
  | some a => if e' = e then d.diag f e a else if e' = a then d.off f e a else 0
  | none => if e' = e then (d.bnd f e).getD 0 else 0

/-- A block counted or not. -/
def pick (b : B) (c : Bool) : B := if c then b else 0

theorem rowApply_entry (v : View) (hn : v.elems.Nodup) (blocks : List (Nat × Nat × B)) (u : Nat) (e e' : List Nat)
    (hu : v.elems[u]? = some e) :
    entry v blocks e e' = rowApply pick blocks (fun j => decide (v.elems[j]? = some e')) u := by
  unfold entry rowApply
  induction blocks with
  | nil => rfl
  | cons b l ih =>
    have hiff : v.elems[b.1]? = some e ↔ b.1 = u := ⟨fun h => get_inj hn h hu, fun h => h ▸ hu⟩
    by_cases h1 : b.1 = u
    · by_cases h2 : v.elems[b.2.1]? = some e'
      · rw [List.filter_cons_of_pos (by simp [hiff.2 h1, h2]), List.filter_cons_of_pos (by simp [h1]),
          List.map_cons, List.map_cons, List.sum_cons, List.sum_cons, ih]
        simp [pick, h2]
      · rw [List.filter_cons_of_neg (by simp [h2]), List.filter_cons_of_pos (by simp [h1]),
          List.map_cons, List.sum_cons, ih]
        simp [pick, h2]
    · rw [List.filter_cons_of_neg (by simp [hiff, h1]), List.filter_cons_of_neg (by simp [h1]), ih]

/-- The facets of an element. -/
def FacetList (e : List Nat) (L : List (List Nat)) : Prop := L.Nodup ∧ ∀ f, f ∈ L ↔ IsFacet e f

variable {P D : Nat} {elems : Nat → List (List Nat)} {num fnum tag : List Nat → Nat} {views : Nat → View}

theorem entry_spec (hd : IsDistributed P D elems num fnum tag views) (r : Nat) (hr : r < P) (o : LocalOp B)
    (d : MeshOp B) (ho : Agrees (views r) (elems r).length o d) :
    ∃ blocks, assemble (views r) o = some blocks ∧
      (∀ b ∈ blocks, b.1 < (elems r).length) ∧
      ∀ e ∈ elems r, ∃ L, FacetList e L ∧ ∀ e', entry (views r) blocks e e' =
        (if e' = e then d.vol e else 0) + (L.map (facetEntry P elems d e e')).sum := by
  have hv := hd.view r hr
  obtain ⟨blocks, h1, h2, _⟩ := row_spec hd r hr o pick (fun _ => true)
  refine ⟨blocks, h1, h2, ?_⟩
  intro e he
  obtain ⟨u, hu, hue⟩ : ∃ u, u < (elems r).length ∧ (views r).elems[u]? = some e := by
    have hm : e ∈ (views r).elems.take (elems r).length := hv.ownFirst.mem_iff.2 he
    obtain ⟨u, hu⟩ := List.mem_iff_getElem?.1 hm
    have hlt : u < (elems r).length := by
      have := lt_of_get hu
      rw [List.length_take] at this; omega
    rw [List.getElem?_take_of_lt hlt] at hu
    exact ⟨u, hlt, hu⟩
  obtain ⟨ds, a1, a2, a3, a4⟩ := hv.down u e hue
  refine ⟨ds.map (fun i => (views r).facets.getD i []), ⟨?_, ?_⟩, ?_⟩
  · rw [List.nodup_map_iff_inj_on a3]
    intro i hi j hj hij
    obtain ⟨f, b1, _⟩ := (a4 i).1 hi
    obtain ⟨f', b2, _⟩ := (a4 j).1 hj
    rw [List.getD_eq_getElem?_getD, List.getD_eq_getElem?_getD, b1, b2] at hij
    exact get_inj hv.facetsOnce b1 (show _ = some f by rw [b2]; exact congrArg some hij.symm)
  · intro f
    rw [List.mem_map]
    constructor
    · rintro ⟨i, hi, rfl⟩
      obtain ⟨f, b1, b2⟩ := (a4 i).1 hi
      rw [List.getD_eq_getElem?_getD, b1]; exact b2
    · intro hf
      have hmem : f ∈ (views r).facets := (hv.facetsExactly f).2 ⟨e, List.mem_of_getElem? hue, hf⟩
      obtain ⟨i, hi⟩ := List.mem_iff_getElem?.1 hmem
      exact ⟨i, (a4 i).2 ⟨f, hi, hf⟩, by rw [List.getD_eq_getElem?_getD, hi]; rfl⟩
  intro e'
  rw [rowApply_entry (views r) hv.once blocks u e e' hue]
  obtain ⟨blocks', h1', _, h3⟩ := row_spec hd r hr o pick (fun j => decide ((views r).elems[j]? = some e'))
  obtain rfl := Option.some.inj (h1.symm.trans h1')
  rw [h3 u ds hu a1]
  have hee : ∀ (x : List Nat), (some x = some e') = (e' = x) := by
    intro x; simp [eq_comm]
  congr 1
  · rw [ho.volume u e hu hue]; unfold pick; simp [hue, hee]
  · rw [List.map_map]
    congr 1
    apply List.map_congr_left
    intro i hi
    obtain ⟨f, b1, b2⟩ := (a4 i).1 hi
    have hlt : i < (views r).numLocalFacets :=
      (hv.localFacets i f b1).2 ⟨e, he, b2⟩
    obtain ⟨info, f', e0, e1, g1, g2, g3, g4, g5, g6, g7, _⟩ := C33_facet_info hd r hr i hlt
    obtain rfl := Option.some.inj (b1.symm.trans g2)
    simp only [Function.comp_apply]
    rw [g1, Option.getD_some, List.getD_eq_getElem?_getD, b1, Option.getD_some]
    have heI : InElems P elems e := ⟨r, hr, he⟩
    unfold facetTerm facetEntry
    by_cases hne : info.up0 = info.up1
    · have h01 : e0 = e1 := by rw [hne] at g3; exact Option.some.inj (g3.symm.trans g4)
      have hee0 : e = e0 := by
        rcases g7 e heI b2 with h | h
        · exact h
        · rw [h, h01]
      subst hee0
      rw [if_neg (fun h => h hne), nbr_none (fun a ha hfa => by
        rcases g7 a ha hfa with h | h
        · exact h
        · rw [h, h01]), ho.boundary i info f e hlt g1 g2 g3 hne]
      cases d.bnd f e with
      | none => simp
      | some a => simp [pick, hue, hee]
    · obtain ⟨s1, s2, s3, s4⟩ := ho.skeleton i info f e0 e1 hlt g1 g2 g3 g4 hne
      have hne01 : e0 ≠ e1 := fun h => hne (get_inj hv.once g3 (h ▸ g4))
      rw [if_pos hne]
      by_cases h0 : info.up0 = u
      · have hee0 : e = e0 := by rw [h0] at g3; exact Option.some.inj (hue.symm.trans g3)
        subst hee0
        rw [if_pos h0, nbr_some hd.mesh heI b2 (mem_inElems hv g4) (Ne.symm hne01) g6, s1, s2]
        simp only [pick, hue, g4, hee, decide_eq_true_eq]
        by_cases c1 : e' = e
        · subst c1; simp [hne01]
        · simp [c1]
      · rw [if_neg h0]
        have hee1 : e = e1 := by
          rcases g7 e heI b2 with h | h
          · exact absurd (get_inj hv.once g3 (h ▸ hue)) h0
          · exact h
        subst hee1
        rw [nbr_some hd.mesh heI b2 (mem_inElems hv g3) hne01 g5, s3, s4]
        simp only [pick, hue, g3, hee, decide_eq_true_eq]
        by_cases c1 : e' = e
        · subst c1; simp [Ne.symm hne01]
        · simp [c1]

/-- The blocks of the mesh are their own transposes, those off the diagonal each other's. -/
structure Symmetric (τ : B → B) (P : Nat) (elems : Nat → List (List Nat)) (d : MeshOp B) : Prop where
  zero : τ 0 = 0
  add : ∀ a b, τ (a + b) = τ a + τ b
  vol : ∀ e, InElems P elems e → τ (d.vol e) = d.vol e
  diag : ∀ f e a, InElems P elems e → InElems P elems a → e ≠ a → IsFacet e f → IsFacet a f →
    τ (d.diag f e a) = d.diag f e a
  off : ∀ f e a, InElems P elems e → InElems P elems a → e ≠ a → IsFacet e f → IsFacet a f →
    τ (d.off f e a) = d.off f a e
  bnd : ∀ f e b, InElems P elems e → IsFacet e f → (∀ a, InElems P elems a → IsFacet a f → a = e) →
    d.bnd f e = some b → τ b = b

theorem nbr_cases {P D : Nat} {elems : Nat → List (List Nat)} (hm : Mesh P D elems) {f e : List Nat}
    (he : InElems P elems e) (hf : IsFacet e f) :
    (∃ a, InElems P elems a ∧ a ≠ e ∧ IsFacet a f ∧ nbr P elems f e = some a) ∨
    ((∀ a, InElems P elems a → IsFacet a f → a = e) ∧ nbr P elems f e = none) := by
  by_cases h : ∃ a, InElems P elems a ∧ a ≠ e ∧ IsFacet a f
  · obtain ⟨a, h1, h2, h3⟩ := h
    exact Or.inl ⟨a, h1, h2, h3, nbr_some hm he hf h1 h2 h3⟩
  · have h' : ∀ a, InElems P elems a → IsFacet a f → a = e := by
      intro a h1 h3
      by_cases hc : a = e
      · exact hc
      · exact absurd ⟨a, h1, hc, h3⟩ h
    exact Or.inr ⟨h', nbr_none h'⟩

theorem entry_transpose (hd : IsDistributed P D elems num fnum tag views)
    (o : Nat → LocalOp B) (d : MeshOp B) (ho : ∀ r, r < P → Agrees (views r) (elems r).length (o r) d) (τ : B → B)
    (hs : Symmetric τ P elems d) :
    ∃ blocks : Nat → List (Nat × Nat × B), (∀ r, r < P → assemble (views r) (o r) = some (blocks r)) ∧
      ∀ r r' e e', r < P → r' < P → e ∈ elems r → e' ∈ elems r' →
        entry (views r') (blocks r') e' e = τ (entry (views r) (blocks r) e e') := by
  have h0 : ∀ r, ∃ blocks, r < P → assemble (views r) (o r) = some blocks ∧
      ∀ e ∈ elems r, ∃ L, FacetList e L ∧ ∀ e', entry (views r) blocks e e' =
        (if e' = e then d.vol e else 0) + (L.map (facetEntry P elems d e e')).sum := by
    intro r
    by_cases hr : r < P
    · obtain ⟨b, h1, _, h2⟩ := entry_spec hd r hr (o r) d (ho r hr)
      exact ⟨b, fun _ => ⟨h1, h2⟩⟩
    · exact ⟨[], fun h => absurd h hr⟩
  choose blocks hb using h0
  refine ⟨blocks, fun r hr => (hb r hr).1, ?_⟩
  intro r r' e e' hr hr' he he'
  obtain ⟨L, hL, h1⟩ := (hb r hr).2 e he
  obtain ⟨L', hL', h2⟩ := (hb r' hr').2 e' he'
  rw [h1, h2, hs.add]
  have hsum : ∀ l : List B, τ l.sum = (l.map τ).sum := by
    intro l
    induction l with
    | nil => simp [hs.zero]
    | cons a l ih => rw [List.sum_cons, hs.add, ih, List.map_cons, List.sum_cons]
  rw [hsum, List.map_map]
  have heI : InElems P elems e := ⟨r, hr, he⟩
  have heI' : InElems P elems e' := ⟨r', hr', he'⟩
  by_cases hee : e' = e
  · subst hee
    have hperm : L'.Perm L := (List.perm_ext_iff_of_nodup hL'.1 hL.1).2 (fun f => by rw [hL'.2, hL.2])
    rw [if_pos rfl, hs.vol e' heI]
    congr 1
    rw [(hperm.map _).sum_eq]
    congr 1
    apply List.map_congr_left
    intro f hf
    have hf' := (hL.2 f).1 hf
    simp only [Function.comp_apply]
    unfold facetEntry
    rcases nbr_cases hd.mesh heI hf' with ⟨a, c1, c2, c3, c4⟩ | ⟨c1, c2⟩
    · rw [c4]; simp only [if_true]; rw [hs.diag f e' a heI c1 (Ne.symm c2) hf' c3]
    · rw [c2]; simp only [if_true]
      cases hbd : d.bnd f e' with
      | none => simp [hs.zero]
      | some b => simp [hs.bnd f e' b heI hf' c1 hbd]
  · rw [if_neg hee, if_neg (Ne.symm hee), hs.zero]
    congr 1
    -- both sums run over the common facets
    have key : ∀ (e e' : List Nat) (L : List (List Nat)), InElems P elems e → InElems P elems e' → e' ≠ e → FacetList e L →
        (L.map (facetEntry P elems d e e')) = L.map (fun f => if f ∈ L.filter (fun f => decide (f.length + 1 = e'.length) && decide (f.Pairwise (· < ·)) && f.all (fun v => decide (v ∈ e'))) then d.off f e e' else 0) := by
      intro e e' L heI heI' hee hL
      apply List.map_congr_left
      intro f hf
      have hf' := (hL.2 f).1 hf
      unfold facetEntry
      have hfe' : (f ∈ L.filter (fun f => decide (f.length + 1 = e'.length) && decide (f.Pairwise (· < ·)) && f.all (fun v => decide (v ∈ e')))) ↔ IsFacet e' f := by
        rw [List.mem_filter]
        simp [IsFacet, hf, and_assoc]
      by_cases hc : IsFacet e' f
      · rw [nbr_some hd.mesh heI hf' heI' hee hc, if_pos (hfe'.2 hc)]
        simp [hee]
      · rw [if_neg (fun h => hc (hfe'.1 h))]
        rcases nbr_cases hd.mesh heI hf' with ⟨a, c1, c2, c3, c4⟩ | ⟨c1, c2⟩
        · rw [c4]; simp only
          rw [if_neg hee, if_neg (fun h : e' = a => hc (h ▸ c3))]
        · rw [c2]; simp only; rw [if_neg hee]
    have sumfilter : ∀ (L M : List (List Nat)) (g : List Nat → B), L.Nodup → (∀ f ∈ M, f ∈ L) → M.Nodup →
        (L.map (fun f => if f ∈ M then g f else 0)).sum = (M.map g).sum := by
      intro L M g hL hM hMn
      classical
      rw [← List.sum_toFinset _ hL, ← List.sum_toFinset _ hMn]
      rw [← Finset.sum_filter]
      apply Finset.sum_congr _ (fun _ _ => rfl)
      ext f
      simp only [Finset.mem_filter, List.mem_toFinset]
      exact ⟨fun h => h.2, fun h => ⟨hM f h, h⟩⟩
    rw [← List.map_map, key e e' L heI heI' hee hL, key e' e L' heI' heI (Ne.symm hee) hL', List.map_map]
    have hτ : (τ ∘ fun f => if f ∈ L.filter (fun f => decide (f.length + 1 = e'.length) && decide (f.Pairwise (· < ·)) && f.all (fun v => decide (v ∈ e'))) then d.off f e e' else 0) =
        fun f => if f ∈ L.filter (fun f => decide (f.length + 1 = e'.length) && decide (f.Pairwise (· < ·)) && f.all (fun v => decide (v ∈ e'))) then τ (d.off f e e') else 0 := by
      funext f; simp only [Function.comp_apply]; split
      · rfl
      · exact hs.zero
    rw [hτ, sumfilter _ _ _ hL.1 (fun f hf => (List.mem_filter.1 hf).1) (hL.1.filter _),
      sumfilter _ _ _ hL'.1 (fun f hf => (List.mem_filter.1 hf).1) (hL'.1.filter _)]
    have hperm : (L'.filter (fun f => decide (f.length + 1 = e.length) && decide (f.Pairwise (· < ·)) && f.all (fun v => decide (v ∈ e)))).Perm
        (L.filter (fun f => decide (f.length + 1 = e'.length) && decide (f.Pairwise (· < ·)) && f.all (fun v => decide (v ∈ e')))) := by
      rw [List.perm_ext_iff_of_nodup (hL'.1.filter _) (hL.1.filter _)]
      intro f
      rw [List.mem_filter, List.mem_filter, hL'.2, hL.2]
      simp only [IsFacet, Bool.and_eq_true, decide_eq_true_eq, List.all_eq_true]
      tauto
    rw [(hperm.map _).sum_eq]
    congr 1
    apply List.map_congr_left
    intro f hf
    have hf1 := List.mem_filter.1 hf
    have hfe := (hL.2 f).1 hf1.1
    have hfe' : IsFacet e' f := by
      have := hf1.2
      simp only [Bool.and_eq_true, decide_eq_true_eq, List.all_eq_true] at this
      exact ⟨this.1.1, this.1.2, this.2⟩
    exact (hs.off f e e' heI heI' (Ne.symm hee) hfe hfe').symm

/-- Two distributions of the same mesh give the same global matrix. -/
theorem entry_distribution {P' : Nat} {elems' : Nat → List (List Nat)} {num' fnum' tag' : List Nat → Nat} {views' : Nat → View}
    (hd : IsDistributed P D elems num fnum tag views) (hd' : IsDistributed P' D elems' num' fnum' tag' views')
    (hsame : ∀ e, InElems P elems e ↔ InElems P' elems' e)
    (o o' : Nat → LocalOp B) (d : MeshOp B) (ho : ∀ r, r < P → Agrees (views r) (elems r).length (o r) d)
    (ho' : ∀ r, r < P' → Agrees (views' r) (elems' r).length (o' r) d) (r r' : Nat) (hr : r < P) (hr' : r' < P') :
    ∃ blocks blocks', assemble (views r) (o r) = some blocks ∧ assemble (views' r') (o' r') = some blocks' ∧
      ∀ e e', e ∈ elems r → e ∈ elems' r' → entry (views r) blocks e e' = entry (views' r') blocks' e e' := by
  obtain ⟨b, h1, _, h2⟩ := entry_spec hd r hr (o r) d (ho r hr)
  obtain ⟨b', h1', _, h2'⟩ := entry_spec hd' r' hr' (o' r') d (ho' r' hr')
  refine ⟨b, b', h1, h1', ?_⟩
  intro e e' he he'
  obtain ⟨L, hL, g⟩ := h2 e he
  obtain ⟨L', hL', g'⟩ := h2' e he'
  rw [g, g']
  have hn : ∀ f, nbr P elems f e = nbr P' elems' f e := by
    intro f
    have : InElems P elems = InElems P' elems' := funext (fun e => propext (hsame e))
    unfold nbr
    rw [this]
  have hperm : L'.Perm L := (List.perm_ext_iff_of_nodup hL'.1 hL.1).2 (fun f => by rw [hL'.2, hL.2])
  rw [(hperm.map _).sum_eq]
  congr 2
  apply List.map_congr_left
  intro f _
  unfold facetEntry
  rw [hn]
end
end Tandem.DGAssembly
