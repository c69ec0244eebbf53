import Verif.Spec.SeasOp
import Verif.Props.DGTopo
import Verif.Props.BoundaryMap
/-! # Lemmas for C90 -/
namespace Tandem.SeasOp
open Tandem.Spec Tandem.DGTopo Tandem.ScatterPlan Tandem.CommPattern

theorem flat_blocks {α β : Type} (bs : Nat) (X : β → List α) (L : List β) (h : ∀ e ∈ L, (X e).length = bs) :
    (L.flatMap X).length = L.length * bs ∧
      ∀ (i : Nat) (e : β), L[i]? = some e → slice (L.flatMap X) (i * bs) bs = X e := by
  induction L with
  | nil => simp
  | cons a L ih =>
    obtain ⟨i1, i2⟩ := ih (fun e he => h e (List.mem_cons_of_mem _ he))
    have ha := h a (by simp)
    constructor
    · rw [List.flatMap_cons, List.length_append, i1, ha, List.length_cons, Nat.add_mul]; omega
    · intro i e hi
      cases i with
      | zero =>
        simp only [List.getElem?_cons_zero, Option.some.injEq] at hi
        subst hi
        unfold slice
        rw [List.flatMap_cons, Nat.zero_mul, List.drop_zero, List.take_append_of_le_length (by omega),
          List.take_of_length_le (by omega)]
      | succ i =>
        rw [List.getElem?_cons_succ] at hi
        rw [← i2 i e hi]
        unfold slice
        rw [List.flatMap_cons, Nat.add_mul, Nat.one_mul]
        rw [show i * bs + bs = (X a).length + i * bs by omega, List.drop_length_add_append]

section
variable {P D : Nat} {elems : Nat → List (List Nat)} {num fnum tag : List Nat → Nat} {views : Nat → View}
  {ranks : Nat → Rank} {plansU plansS : List Plan} {bsU bsS : Nat}

/-- Blocks of the local part. -/
theorem field_own {α : Type} (hs : IsSetup P D elems num fnum tag views ranks plansU plansS bsU bsS)
    {X : List Nat → List α} {xs : List (List α)} (hx : HoldsField P elems views bsU X xs) {r : Nat} (hr : r < P)
    {x : List α} (hxr : xs[r]? = some x) {i : Nat} {e : List Nat} (hi : (views r).elems[i]? = some e)
    (he : e ∈ elems r) : slice x (i * bsU) bsU = X e ∧ i * bsU + bsU ≤ x.length := by
  have hv := hs.mesh.view r hr
  have hil := (own_iff hr hs.mesh.mesh hv hi).2.2 he
  rw [hv.numLocal] at hil
  obtain ⟨f1, f2⟩ := flat_blocks bsU X ((views r).elems.take (elems r).length) (fun e he => hx.1 e
    ((hv.exactly e).1 (List.mem_of_mem_take he)).1)
  have : x = _ := Option.some.inj (hxr.symm.trans (hx.2 r hr))
  subst this
  refine ⟨f2 i e (by rw [List.getElem?_take_of_lt hil, hi]), ?_⟩
  rw [f1, hv.ownFirst.length_eq]
  have : (i + 1) * bsU ≤ (elems r).length * bsU := Nat.mul_le_mul_right _ hil
  rw [Nat.add_mul, Nat.one_mul] at this
  exact this

/-- After a scatter of `xs` the ghost vector holds the blocks of the elements owned by other ranks. -/
theorem field_scatter {α : Type} (hs : IsSetup P D elems num fnum tag views ranks plansU plansS bsU bsS)
    {X : List Nat → List α} {xs : List (List α)} (hx : HoldsField P elems views bsU X xs) {r : Nat} (hr : r < P)
    {c : Comm} {y : List α} (hc : Completes plansU bsU r c y) :
    ∃ ghost, scatter bsU c.plans xs r y c.arrival = some ghost ∧
      ∀ (u : List α) (i : Nat) (e : List Nat), (views r).elems[i]? = some e → e ∉ elems r →
        viewGetBlock (views r).numLocal bsU u (ranks r).dispIdx ghost i = some (X e) := by
  have hd := hs.mesh
  have hv := hd.view r hr
  have hcons := C33_plan_consistent hd
  obtain ⟨hc1, p, hp, ha, hy⟩ := hc
  obtain ⟨p', hp', _, hidx, hlen⟩ := hs.planU r hr
  obtain rfl : p = p' := Option.some.inj (hp.symm.trans hp')
  have hcov : ∀ s, s < P → CoversOwned bsU s (elemFaces (views s)) ((xs[s]?).getD []) := by
    intro s hsP i g hi hgo
    obtain ⟨e, l, he, hl, rfl⟩ := (elemFaces_get (hd.view s hsP) i g).1 hi
    have hxs := hx.2 s hsP
    rw [hxs]
    exact (field_own hs hx hsP hxs he (((own_iff hsP hd.mesh (hd.view s hsP) he).1).1 hgo)).2
  obtain ⟨ghost, hsc, hgh⟩ := ScatterPlan.C18_scatter bsU P (fun s => elemFaces (views s)) hcons plansU
    (fun s hsP => by obtain ⟨q, h1, h2, _⟩ := hs.planU s hsP; exact ⟨q, h1, h2⟩)
    (fun s => (xs[s]?).getD []) hcov xs (fun s hsP => by rw [hx.2 s hsP]; rfl) r hr p hp hlen y hy c.arrival ha
  refine ⟨ghost, by rw [hc1]; exact hsc, ?_⟩
  intro u i e hi he
  obtain ⟨l, hl, _⟩ := hv.shared i e hi
  obtain ⟨o1, o2⟩ := ownerOf_spec hv hi
  have hne : ownerOf (views r) i ≠ r := fun hc => he (hc ▸ o2)
  have hnl : ¬ i < (views r).numLocal := fun hc => he ((own_iff hr hd.mesh hv hi).2.1 hc)
  have hvo := hd.view _ o1
  have hin : e ∈ (views (ownerOf (views r) i)).elems := (hvo.exactly e).2 ⟨mem_inElems hv hi, Or.inl o2⟩
  obtain ⟨j, hj⟩ := List.mem_iff_getElem?.1 hin
  obtain ⟨l2, hl2, _⟩ := hvo.shared j e hj
  have := hgh i _ ((elemFaces_get hv i _).2 ⟨e, l, hi, hl, rfl⟩) hne j _
    ((elemFaces_get hvo j _).2 ⟨e, l2, hj, hl2, rfl⟩) rfl
  unfold viewGetBlock
  rw [if_neg hnl, hidx, this]
  have hxo := hx.2 _ o1
  simp only
  rw [hxo]
  exact congrArg some (field_own hs hx o1 hxo hj o2).1

/-- Blocks of the local fault state. -/
theorem state_own {α : Type} (hs : IsSetup P D elems num fnum tag views ranks plansU plansS bsU bsS)
    {S : List Nat → List α} {ss : List (List α)} (hx : HoldsState P views ranks bsS S ss) {r : Nat} (hr : r < P)
    {s : List α} (hsr : ss[r]? = some s) : s.length = (ranks r).map.localSize * bsS ∧
    ∀ (b i : Nat) (f : List Nat), b < (ranks r).map.localSize → (ranks r).map.fctNo b = some i →
      (views r).facets[i]? = some f → slice s (b * bsS) bsS = S f := by
  obtain ⟨m, h0, h1, h2, h3, h4, h5, h6, h7⟩ := C31_boundary_map hs.mesh r hr bcFault (hs.small r hr)
  have hm : m = (ranks r).map := Option.some.inj (h0.symm.trans (hs.map r hr))
  subst hm
  obtain ⟨f1, f2⟩ := flat_blocks bsS (fun i => S ((views r).facets.getD i [])) (ranks r).map.localFctNos
    (fun _ _ => hx.1 _)
  have : s = _ := Option.some.inj (hsr.symm.trans (hx.2 r hr))
  subst this
  constructor
  · rw [f1]
    congr 1
    unfold BMap.localFctNos
    rw [List.length_take]
    omega
  · intro b i f hb hbi hf
    rw [f2 b i (by unfold BMap.localFctNos; rw [List.getElem?_take_of_lt hb]; exact hbi), getD_of hf]

/-- After a scatter of the fault state every fault facet of the rank is visible with its block. -/
theorem state_scatter {α : Type} (hs : IsSetup P D elems num fnum tag views ranks plansU plansS bsU bsS)
    {S : List Nat → List α} {ss : List (List α)} (hx : HoldsState P views ranks bsS S ss) {r : Nat} (hr : r < P)
    {c : Comm} {y : List α} (hc : Completes plansS bsS r c y) :
    ∃ ghost, scatter bsS c.plans ss r y c.arrival = some ghost ∧
      ∀ (s : List α) (b i : Nat) (f : List Nat), (ranks r).map.localSize ≤ b → (ranks r).map.fctNo b = some i →
        (views r).facets[i]? = some f → stateView (ranks r) s ghost b = some (S f) := by
  obtain ⟨hc1, p, hp, ha, hy⟩ := hc
  obtain ⟨s0, t0, hs0, ht0, hp', hidx, hlen⟩ := hs.planS r hr
  obtain rfl := Option.some.inj (hp.symm.trans hp')
  obtain ⟨y', hy', hgh⟩ := C31_scatter hs.mesh bcFault hs.small (fun r => (ranks r).map) hs.map plansS
    (fun s hsP => by obtain ⟨a, b, h1, h2, h3, _⟩ := hs.planS s hsP; exact ⟨a, b, h1, h2, h3⟩)
    bsS (fun s => (ss[s]?).getD []) (fun s hsP => by
      have := hx.2 s hsP
      have h := (state_own hs hx hsP this).1
      rw [this]; exact h)
    ss (fun s hsP => by rw [hx.2 s hsP]; rfl) r hr _ hp hlen y hy c.arrival ha
  refine ⟨y', by rw [hc1]; exact hy', ?_⟩
  intro s b i f hb hbi hf
  obtain ⟨o, j, i', ho, hj, hji, hf', hblk⟩ := hgh b i f hb hbi hf
  unfold stateView viewGetBlock
  rw [if_neg (by omega), hidx, hs.bsS r hr, hblk]
  have hxo := hx.2 o ho
  rw [hxo]
  exact congrArg some ((state_own hs hx ho hxo).2 j i' f hj hji hf')

/-- The slip callback with a complete state view. -/
theorem slip_block {α : Type} (hs : IsSetup P D elems num fnum tag views ranks plansU plansS bsU bsS)
    {S : List Nat → List α} {ss : List (List α)} (hx : HoldsState P views ranks bsS S ss) {r : Nat} (hr : r < P)
    {c : Comm} {y : List α} (hc : Completes plansS bsS r c y) {s : List α} (hsr : ss[r]? = some s) :
    ∃ ghost, scatter bsS c.plans ss r y c.arrival = some ghost ∧
      ∀ (i : Nat) (f : List Nat), i < (views r).numLocalFacets → (views r).facets[i]? = some f → tag f = bcFault →
        slipBc (ranks r) (stateView (ranks r) s ghost) i = some (S f) := by
  obtain ⟨ghost, h1, h2⟩ := state_scatter hs hx hr hc
  refine ⟨ghost, h1, ?_⟩
  intro i f hi hf ht
  obtain ⟨m, g0, g1, g2, g3, g4, g5, g6, g7⟩ := C31_boundary_map hs.mesh r hr bcFault (hs.small r hr)
  have hm : m = (ranks r).map := Option.some.inj (g0.symm.trans (hs.map r hr))
  subst hm
  have hbc := (hs.mesh.view r hr).bc i f hf
  have hin := (g2 i).2 ⟨hi, by rw [hbc, ht]⟩
  obtain ⟨b, hb⟩ := List.mem_iff_getElem?.1 hin
  have hb' := ((g4 i b).1 hb).1
  unfold slipBc
  rw [hb']
  show stateView (ranks r) s ghost b = _
  by_cases hl : b < (ranks r).map.localSize
  · unfold stateView viewGetBlock
    rw [if_pos hl, hs.bsS r hr]
    exact congrArg some ((state_own hs hx hr hsr).2 b i f hl hb hf)
  · exact h2 s b i f (by omega) hb hf

end
end Tandem.SeasOp
