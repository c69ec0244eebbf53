import Verif.Lemmas.SeasOp
import Verif.Props.DGTopoMesh
/-! # Property C90: the right-hand sides of the SEAS problem on a distributed mesh -/
namespace Tandem.SeasOp
open Tandem.Spec Tandem.DGTopo Tandem.ScatterPlan Tandem.CommPattern

section
variable {P D : Nat} {elems : Nat → List (List Nat)} {num fnum tag : List Nat → Nat} {views : Nat → View}
  {ranks : Nat → Rank} {plansU plansS : List Plan} {bsU bsS : Nat} {K : Type}

theorem mapM_rel {β γ : Type} (f : β → Option γ) (Q : β → γ → Prop) : ∀ (L : List β),
    (∀ a ∈ L, ∃ b, f a = some b ∧ Q a b) → ∃ out, L.mapM f = some out ∧ List.Forall₂ Q L out
  | [], _ => ⟨[], rfl, .nil⟩
  | a :: L, h => by
    obtain ⟨b, h1, h2⟩ := h a (by simp)
    obtain ⟨out, h3, h4⟩ := mapM_rel f Q L (fun a ha => h a (List.mem_cons_of_mem _ ha))
    refine ⟨b :: out, ?_, .cons h2 h4⟩
    rw [List.mapM_cons, h1, h3]; rfl

theorem forall2_get {β γ : Type} {Q : β → γ → Prop} {L : List β} {out : List γ} (h : List.Forall₂ Q L out) :
    out.length = L.length ∧ ∀ (i : Nat) (a : β), L[i]? = some a → ∃ b, out[i]? = some b ∧ Q a b := by
  induction h with
  | nil => exact ⟨rfl, by simp⟩
  | @cons a b L out hq _ ih =>
    refine ⟨by simp [ih.1], ?_⟩
    intro i a' hi
    cases i with
    | zero => exact ⟨b, rfl, by rw [← Option.some.inj hi]; exact hq⟩
    | succ i => exact ih.2 i a' hi

/-- `update_traction`, with any view of the displacement and a complete slip callback. -/
theorem traction_spec {α : Type} (hs : IsSetup P D elems num fnum tag views ranks plansU plansS bsU bsS)
    {r : Nat} (hr : r < P) (dg : DG K α) (disp state : Nat → Option (List α)) (Y S : List Nat → List α)
    (hdisp : ∀ (i : Nat) (e : List Nat), (views r).elems[i]? = some e → disp i = some (Y e))
    (hslip : ∀ (b i : Nat) (f : List Nat), b < (ranks r).map.localSize → (ranks r).map.fctNo b = some i →
      (views r).facets[i]? = some f → slipBc (ranks r) state i = some (S f)) :
    ∃ t, updateTraction (ranks r) dg disp state = some (t, { dg with slip := none }) ∧
      t.length = (ranks r).map.localSize ∧
      ∀ (b : Nat) (f : List Nat), LocalFault (views r) (ranks r) b f →
        ∃ a, t[b]? = some a ∧ IsTraction P elems (views r) Y S f a := by
  obtain ⟨m, g0, g1, g2, g3, g4, g5, g6, g7⟩ := C31_boundary_map hs.mesh r hr bcFault (hs.small r hr)
  have hm : m = (ranks r).map := Option.some.inj (g0.symm.trans (hs.map r hr))
  subst hm
  have hv := hs.mesh.view r hr
  have key : ∀ b ∈ List.range (ranks r).map.localSize, ∃ a,
      tractionAt (ranks r) ({ dg with slip := some (slipBc (ranks r) state) } : DG K α) disp b = some a ∧
      ∀ f, LocalFault (views r) (ranks r) b f → IsTraction P elems (views r) Y S f a := by
    intro b hb
    rw [List.mem_range] at hb
    have hbl : b < (ranks r).map.fctNos.length := by omega
    have hbi : (ranks r).map.fctNo b = some ((ranks r).map.fctNos[b]) := List.getElem?_eq_getElem hbl
    set i := (ranks r).map.fctNos[b] with hidef
    obtain ⟨hil, hbc⟩ := (g2 i).1 (List.getElem_mem hbl)
    obtain ⟨info, f, e0, e1, k1, k2, k3, k4, k5, k6, k7, _, _, _, _, _, _, _, k15⟩ := C33_facet_info hs.mesh r hr i hil
    have htag : tag f = bcFault := by
      rw [hv.bc i f k2] at hbc
      exact Option.some.inj hbc
    refine ⟨⟨i, Y e0, if info.up0 = info.up1 then none else some (Y e1), some (S f)⟩, ?_, ?_⟩
    · unfold tractionAt
      rw [hbi, hs.view r hr]
      simp only [Option.bind_eq_bind, Option.bind_some, k1, hdisp _ _ k3, hdisp _ _ k4]
      unfold DG.slipAt DG.callSlip
      rw [k15, htag, if_pos rfl]
      simp only [Option.bind_some]
      rw [hslip b i f hb hbi k2]
      rfl
    · rintro f' ⟨_, i', hi', hf'⟩
      obtain rfl : i = i' := Option.some.inj (hbi.symm.trans hi')
      obtain rfl : f = f' := Option.some.inj (k2.symm.trans hf')
      refine ⟨k2, rfl, e0, e1, mem_inElems hv k3, mem_inElems hv k4, k5, k6, k7, rfl, ?_⟩
      have : info.up0 = info.up1 ↔ e0 = e1 := by
        constructor
        · intro h; exact Option.some.inj (k3.symm.trans (h ▸ k4))
        · intro h; exact get_inj hv.once k3 (h ▸ k4)
      by_cases h : e0 = e1
      · simp only [this.2 h, h, if_true]
      · have h' : ¬ info.up0 = info.up1 := fun hc => h (this.1 hc)
        simp only [h, h', if_false]
  obtain ⟨t, h1, h2⟩ := mapM_rel _ _ _ key
  obtain ⟨h3, h4⟩ := forall2_get h2
  refine ⟨t, ?_, by rw [h3, List.length_range], ?_⟩
  · unfold updateTraction traction
    simp only [h1, Option.bind_eq_bind, Option.bind_some]
    rfl
  · intro b f hbf
    obtain ⟨a, ha, hq⟩ := h4 b b (List.getElem?_range hbf.1)
    exact ⟨a, ha, hq f hbf⟩

theorem blocks_get {α : Type} (bs n : Nat) (x : List α) (i : Nat) (h : i < n) :
    (blocks bs n x)[i]? = some (slice x (i * bs) bs) := by
  unfold blocks
  rw [List.getElem?_map, List.getElem?_range h]; rfl

/-- The arguments of the friction law on a rank. -/
theorem friction_args {α : Type} (hs : IsSetup P D elems num fnum tag views ranks plansU plansS bsU bsS)
    {r : Nat} (hr : r < P) {S : List Nat → List α} {ss : List (List α)} (hS : HoldsState P views ranks bsS S ss)
    {s : List α} (hsr : ss[r]? = some s) {t : List (Traction α)} (ht : t.length = (ranks r).map.localSize)
    {Q : List Nat → Traction α → Prop}
    (hq : ∀ (b : Nat) (f : List Nat), LocalFault (views r) (ranks r) b f → ∃ a, t[b]? = some a ∧ Q f a) :
    (frictionArgs (ranks r) t s).length = (ranks r).map.localSize ∧
    ∀ (b : Nat) (f : List Nat), LocalFault (views r) (ranks r) b f →
      ∃ a, (frictionArgs (ranks r) t s)[b]? = some (a, S f) ∧ Q f a := by
  constructor
  · unfold frictionArgs blocks; simp [ht]
  · intro b f hbf
    obtain ⟨a, ha, hqa⟩ := hq b f hbf
    refine ⟨a, ?_, hqa⟩
    obtain ⟨hb, i, hi, hf⟩ := hbf
    unfold frictionArgs
    rw [List.getElem?_zip_eq_some]
    refine ⟨ha, ?_⟩
    rw [blocks_get _ _ _ _ hb, hs.bsS r hr]
    exact congrArg some ((state_own hs hS hr hsr).2 b i f hb hi hf)

theorem copyBlocks_spec {α : Type} (bs : Nat) (v : List α) : ∀ (n : Nat) (du : List α), v.length = du.length →
    n * bs ≤ du.length → (copyBlocks bs n v du).length = du.length ∧
      (copyBlocks bs n v du).take (n * bs) = v.take (n * bs) ∧
      (copyBlocks bs n v du).drop (n * bs) = du.drop (n * bs)
  | 0, du, _, _ => by simp [copyBlocks]
  | n + 1, du, hl, hn => by
    have hn' : n * bs + bs ≤ du.length := by rw [Nat.add_mul, Nat.one_mul] at hn; exact hn
    obtain ⟨h1, h2, h3⟩ := copyBlocks_spec bs v n du hl (by omega)
    unfold copyBlocks at *
    rw [List.range_succ, List.foldl_append, List.foldl_cons, List.foldl_nil]
    set w := (List.range n).foldl (fun d i => writeAt d (i * bs) (slice v (i * bs) bs)) du
    have hsl : (slice v (n * bs) bs).length = bs := by unfold slice; simp; omega
    have hw : writeAt w (n * bs) (slice v (n * bs) bs) =
        v.take (n * bs) ++ slice v (n * bs) bs ++ du.drop (n * bs + bs) := by
      unfold writeAt
      rw [h2, hsl, show n * bs + bs = n * bs + bs from rfl, ← List.drop_drop, h3, List.drop_drop]
    rw [hw, Nat.add_mul, Nat.one_mul]
    have e1 : v.take (n * bs) ++ slice v (n * bs) bs = v.take (n * bs + bs) := by
      unfold slice; rw [List.take_add]
    rw [e1]
    have e2 : (v.take (n * bs + bs)).length = n * bs + bs := by simp; omega
    refine ⟨by simp; omega, ?_, ?_⟩
    · rw [List.take_append_of_le_length (by omega), List.take_of_length_le (by omega)]
    · rw [List.drop_append_of_le_length (by omega), List.drop_of_length_le (by omega), List.nil_append]

/-- C90 (fully dynamic).  The state is distributed over any number of ranks: block `V e`, `X e` (velocity,
displacement) for element `e`, block `S f` for fault facet `f`.  On every rank `rhs(t, ...)` finishes, whatever
the order in which messages arrive and whatever the ghost vectors contained before; and
* `du` is the velocity;
* the wave kernel runs once for every own element, with the element's displacement, the displacement of the
  element behind each of its facets and, at fault facets, the slip of that facet, all taken from the global
  fields; boundary data are those of time `t`;
* the friction law runs for every local fault facet, with time `t`, the facet's state and the traction of the
  displacements on its two sides and its slip;
* afterwards the slip callback is the throwing one again. -/
theorem C90_fd_rhs {α : Type} (hs : IsSetup P D elems num fnum tag views ranks plansU plansS bsU bsS)
    {V X S : List Nat → List α} {vs us ss : List (List α)} (hV : HoldsField P elems views bsU V vs)
    (hX : HoldsField P elems views bsU X us) (hS : HoldsState P views ranks bsS S ss)
    {r : Nat} (hr : r < P) {v : List α} (hv : vs[r]? = some v) (du : List α) (hdu : du.length = v.length)
    (hasBoundary : Bool) (t : K) (cS cU cD : Comm) (yS yU yD : List α)
    (hcS : Completes plansS bsS r cS yS) (hcU : Completes plansU bsU r cU yU) (hcD : Completes plansU bsU r cD yD)
    (during : Nat → List α) (dg : DG K α) :
    ∃ out, fdRhs (ranks r) r hasBoundary t v us ss du cS cU cD yS yU yD during dg = some out ∧
      out.du = ((views r).elems.take (elems r).length).flatMap V ∧
      out.waveDirichlet = (if hasBoundary then some t else dg.dirichlet) ∧
      out.wave.map (·.1) = List.range (elems r).length ∧
      (∀ (n : Nat) (x0 : List α) (xn : List (SideInfo × List α × Option (List α))), (n, x0, xn) ∈ out.wave →
        ∃ e, (views r).elems[n]? = some e ∧ e ∈ elems r ∧ x0 = X e ∧ xn.length = D + 1 ∧
          ∀ q ∈ xn, ∃ f e', (views r).facets[q.1.fctNo]? = some f ∧ IsFacet e f ∧ IsFacet e' f ∧
            (∀ e'', InElems P elems e'' → IsFacet e'' f → e'' = e ∨ e'' = e') ∧ q.2.1 = X e' ∧
            q.2.2 = (if tag f = bcFault then some (S f) else none)) ∧
      out.frictionTime = t ∧ out.friction.length = (ranks r).map.localSize ∧
      (∀ (b : Nat) (f : List Nat), LocalFault (views r) (ranks r) b f →
        ∃ a, out.friction[b]? = some (a, S f) ∧ IsTraction P elems (views r) X S f a) ∧
      out.dg.slip = none := by
  have hd := hs.mesh
  have hvw := hd.view r hr
  have hu := hX.2 r hr
  have hsr := hS.2 r hr
  set u := ((views r).elems.take (elems r).length).flatMap X with hudef
  set s := (ranks r).map.localFctNos.flatMap (fun i => S ((views r).facets.getD i [])) with hsdef
  obtain ⟨sg, hsg, hslip⟩ := slip_block hs hS hr hcS hsr
  obtain ⟨ug, hug, hghost⟩ := field_scatter hs hX hr hcU
  obtain ⟨hcD1, pD, hpD, haD, hyD⟩ := hcD
  obtain ⟨pD', hpD', _, hidx, hlenD⟩ := hs.planU r hr
  obtain rfl : pD = pD' := Option.some.inj (hpD.symm.trans hpD')
  obtain ⟨og, k, tbl, args, w1, w2, w3, w4, w5, w6⟩ := C33_apply hd bsU plansU
    (fun s hsP => by obtain ⟨q, h1, h2, _⟩ := hs.planU s hsP; exact ⟨q, h1, h2⟩) X hX.1
    (fun s => ((views s).elems.take (elems s).length).flatMap X) (fun _ _ => rfl) us hX.2 r hr pD hpD hlenD yD hyD
    cD.arrival haD during
  have hk : (ranks r).interior = k := Option.some.inj ((hs.interior r hr).symm.trans w2)
  have hnb : (ranks r).nb = tbl := Option.some.inj ((hs.nb r hr).symm.trans w3)
  obtain ⟨tbl', n1, _, n3⟩ := C33_neighbours hd r hr
  obtain rfl : tbl = tbl' := Option.some.inj (w3.symm.trans n1)
  set dg2 : DG K α := ⟨some (slipBc (ranks r) (stateView (ranks r) s sg)), if hasBoundary then some t else dg.dirichlet⟩
    with hdg2
  have hnl : (views r).numLocal = (elems r).length := hvw.numLocal
  -- slips of the wave kernels
  have hwave : ∀ a ∈ args, ∃ b, waveSlips dg2 a = some b ∧ (b.1 = a.1 ∧
      ∃ e, (views r).elems[a.1]? = some e ∧ e ∈ elems r ∧ b.2.1 = X e ∧ b.2.2.length = D + 1 ∧
          ∀ q ∈ b.2.2, ∃ f e', (views r).facets[q.1.fctNo]? = some f ∧ IsFacet e f ∧ IsFacet e' f ∧
            (∀ e'', InElems P elems e'' → IsFacet e'' f → e'' = e ∨ e'' = e') ∧ q.2.1 = X e' ∧
            q.2.2 = (if tag f = bcFault then some (S f) else none)) := by
    rintro ⟨n, x0, xn⟩ ha
    obtain ⟨e, a1, a2, a3, a4, a5, a6⟩ := w6 n x0 xn ha
    have hn : n < (elems r).length := by rw [← hnl]; exact (own_iff hr hd.mesh hvw a1).2.2 a2
    obtain ⟨row, ds, b1, b2, b3, b4⟩ := n3 n e hn a1
    have hrow : row = xn.map (fun p => some p.1) := Option.some.inj (b1.symm.trans a4)
    have hq : ∀ p ∈ xn, ∃ f e', (views r).facets[p.1.fctNo]? = some f ∧ IsFacet e f ∧ IsFacet e' f ∧
            (∀ e'', InElems P elems e'' → IsFacet e'' f → e'' = e ∨ e'' = e') ∧ p.2 = X e' ∧
            dg2.slipAt p.1.bc p.1.fctNo = some (if tag f = bcFault then some (S f) else none) := by
      intro p hp
      obtain ⟨l, hl⟩ := List.mem_iff_getElem?.1 hp
      have hll : l < D + 1 := by rw [← a5]; exact lt_of_get hl
      obtain ⟨si, f, e', info, c1, c2, c3, c4, c5, c6, c7, c8, c9, _⟩ := b4 l hll
      have hsi : si = p.1 := by
        rw [hrow, List.getElem?_map, hl] at c1
        exact (Option.some.inj (Option.some.inj c1)).symm
      subst hsi
      obtain ⟨e2, d1, d2⟩ := a6 p hp
      obtain rfl : e' = e2 := Option.some.inj (c5.symm.trans d1)
      refine ⟨f, e', c3, c4, c6, c7, d2, ?_⟩
      unfold DG.slipAt DG.callSlip
      rw [c9]
      by_cases ht : tag f = bcFault
      · rw [if_pos ht, if_pos ht]
        show (slipBc (ranks r) (stateView (ranks r) s sg) p.1.fctNo).map some = _
        rw [hslip _ f ((hvw.localFacets _ f c3).2 ⟨e, a2, c4⟩) c3 ht]
        rfl
      · rw [if_neg ht, if_neg ht]
    obtain ⟨ys, m1, m2⟩ := mapM_rel (fun p : SideInfo × List α => (dg2.slipAt p.1.bc p.1.fctNo).map (fun s => (p.1, p.2, s)))
      (fun p q => ∃ f e', (views r).facets[q.1.fctNo]? = some f ∧ IsFacet e f ∧ IsFacet e' f ∧
            (∀ e'', InElems P elems e'' → IsFacet e'' f → e'' = e ∨ e'' = e') ∧ q.2.1 = X e' ∧
            q.2.2 = (if tag f = bcFault then some (S f) else none)) xn (by
        intro p hp
        obtain ⟨f, e', c1, c2, c3, c4, c5, c6⟩ := hq p hp
        exact ⟨_, by rw [c6]; rfl, f, e', c1, c2, c3, c4, c5, rfl⟩)
    obtain ⟨l1, l2⟩ := forall2_get m2
    refine ⟨(n, x0, ys), ?_, rfl, e, a1, a2, a3, by rw [l1, a5], ?_⟩
    · unfold waveSlips
      simp only [m1, Option.bind_eq_bind, Option.bind_some]
      rfl
    · intro q hqm
      obtain ⟨l, hl⟩ := List.mem_iff_getElem?.1 hqm
      have hll : l < xn.length := by rw [← l1]; exact lt_of_get hl
      obtain ⟨q', c1, c2⟩ := l2 l _ (List.getElem?_eq_getElem hll)
      obtain rfl : q = q' := Option.some.inj (hl.symm.trans c1)
      exact c2
  obtain ⟨wave, x1, x2⟩ := mapM_rel _ _ args hwave
  obtain ⟨x3, x4⟩ := forall2_get x2
  -- traction
  obtain ⟨tr, t1, t2, t3⟩ := traction_spec hs hr ({ dg2 with slip := none } : DG K α)
    (dispView (ranks r) u ug) (stateView (ranks r) s sg) X S (by
      intro i e hi
      unfold dispView
      rw [hs.view r hr, hs.bsU r hr]
      by_cases he : e ∈ elems r
      · rw [view_local _ _ _ _ _ _ ((own_iff hr hd.mesh hvw hi).2.2 he), (field_own hs hX hr hu hi he).1]
      · exact hghost u i e hi he) (by
      intro b i f hb hbi hf
      obtain ⟨m, g0, g1, g2, g3, g4, g5, g6, g7⟩ := C31_boundary_map hd r hr bcFault (hs.small r hr)
      have hm : m = (ranks r).map := Option.some.inj (g0.symm.trans (hs.map r hr))
      subst hm
      obtain ⟨hil, hbc⟩ := (g2 i).1 (List.mem_of_getElem? hbi)
      rw [hvw.bc i f hf] at hbc
      exact hslip i f hil hf (Option.some.inj hbc))
  obtain ⟨f1, f2⟩ := friction_args hs hr hS hsr t2 t3
  refine ⟨⟨copyBlocks bsU (elems r).length v du, wave, if hasBoundary then some t else dg.dirichlet,
    frictionArgs (ranks r) tr s, t, { dg2 with slip := none }⟩, ?_, ?_, rfl, ?_, ?_, rfl, f1, f2, rfl⟩
  · unfold fdRhs
    have hif : (if hasBoundary = true then
        ({ ({ dg with slip := some (slipBc (ranks r) (stateView (ranks r) s sg)) } : DG K α) with dirichlet := some t } : DG K α)
        else { dg with slip := some (slipBc (ranks r) (stateView (ranks r) s sg)) }) = dg2 := by
      cases hasBoundary <;> rfl
    rw [hs.view r hr, hs.bsU r hr, hs.bsS r hr, hk, hnb, hidx, hnl]
    rw [hnl] at w4
    have w4' : apply bsU (elems r).length k pD.recvIdx tbl u during og = some args := w4
    rw [hcD1]
    simp only [hu, hsr, hsg, hug, w1, w4', Option.bind_eq_bind, Option.bind_some, hif, x1, t1]
    rfl
  · show copyBlocks bsU (elems r).length v du = _
    have hv' := Option.some.inj (hv.symm.trans (hV.2 r hr))
    obtain ⟨fl, _⟩ := flat_blocks bsU V ((views r).elems.take (elems r).length) (fun e he => hV.1 e
      ((hvw.exactly e).1 (List.mem_of_mem_take he)).1)
    rw [hvw.ownFirst.length_eq, ← hv'] at fl
    obtain ⟨c1, c2, c3⟩ := copyBlocks_spec bsU v (elems r).length du hdu.symm (by omega)
    rw [List.take_of_length_le (by omega), List.take_of_length_le (by omega)] at c2
    rw [c2, hv']
  · show wave.map (·.1) = _
    rw [← w5]
    apply List.ext_getElem?
    intro i
    rw [List.getElem?_map, List.getElem?_map]
    cases ha : args[i]? with
    | none =>
      rw [List.getElem?_eq_none_iff] at ha
      rw [List.getElem?_eq_none (by omega)]; rfl
    | some a =>
      obtain ⟨b, hb, hb1, _⟩ := x4 i a ha
      rw [hb]; simp [hb1]
  · intro n x0 xn hin
    obtain ⟨i, hi⟩ := List.mem_iff_getElem?.1 hin
    have hil : i < args.length := by rw [← x3]; exact lt_of_get hi
    obtain ⟨b, hb, hb1, e, hb2⟩ := x4 i _ (List.getElem?_eq_getElem hil)
    obtain rfl := Option.some.inj (hi.symm.trans hb)
    exact ⟨e, by rw [show n = _ from hb1]; exact hb2.1, hb2.2⟩

/-- C90 (fully dynamic, initial condition).  `X`, `S` are the initial displacement and the fault state after
`pre_init`; `Xold` is what the displacement vector held when `initial_condition` was entered.  The friction law is
initialised with the facet's state and its slip, and with the traction of displacements which are `X` in the
rank's own elements but `Xold` in the elements of other ranks: the exchange is started before the initial
displacement is written. -/
theorem C90_fd_initial {α : Type} (hs : IsSetup P D elems num fnum tag views ranks plansU plansS bsU bsS)
    {Xold X Sold S : List Nat → List α} {usOld us ssOld ss : List (List α)}
    (hXo : HoldsField P elems views bsU Xold usOld) (hX : HoldsField P elems views bsU X us)
    (hSo : HoldsState P views ranks bsS Sold ssOld) (hS : HoldsState P views ranks bsS S ss)
    {r : Nat} (hr : r < P) {u s : List α} (hu : us[r]? = some u) (hsr : ss[r]? = some s)
    (cS cU : Comm) (yS yU : List α) (hcS : Completes plansS bsS r cS yS) (hcU : Completes plansU bsU r cU yU)
    (dg : DG K α) :
    ∃ out, fdInitial (ranks r) r usOld ssOld u s cS cU yS yU dg = some (out, { dg with slip := none }) ∧
      out.length = (ranks r).map.localSize ∧
      ∀ (b : Nat) (f : List Nat), LocalFault (views r) (ranks r) b f →
        ∃ a, out[b]? = some (a, S f) ∧
          IsTraction P elems (views r) (fun e => if e ∈ elems r then X e else Xold e) S f a := by
  have hd := hs.mesh
  have hvw := hd.view r hr
  obtain ⟨sg, hsg, _⟩ := state_scatter hs hSo hr hcS
  obtain ⟨ug, hug, hghost⟩ := field_scatter hs hXo hr hcU
  obtain ⟨tr, t1, t2, t3⟩ := traction_spec hs hr dg (dispView (ranks r) u ug) (stateView (ranks r) s sg)
    (fun e => if e ∈ elems r then X e else Xold e) S (by
      intro i e hi
      unfold dispView
      rw [hs.view r hr, hs.bsU r hr]
      by_cases he : e ∈ elems r
      · rw [view_local _ _ _ _ _ _ ((own_iff hr hd.mesh hvw hi).2.2 he), (field_own hs hX hr hu hi he).1, if_pos he]
      · rw [if_neg he]; exact hghost u i e hi he) (by
      intro b i f hb hbi hf
      obtain ⟨m, g0, g1, g2, g3, g4, g5, g6, g7⟩ := C31_boundary_map hd r hr bcFault (hs.small r hr)
      have hm : m = (ranks r).map := Option.some.inj (g0.symm.trans (hs.map r hr))
      subst hm
      unfold slipBc
      rw [((g4 i b).1 hbi).1]
      show stateView (ranks r) s sg b = _
      unfold stateView viewGetBlock
      rw [if_pos hb, hs.bsS r hr]
      exact congrArg some ((state_own hs hS hr hsr).2 b i f hb hbi hf))
  obtain ⟨f1, f2⟩ := friction_args hs hr hS hsr t2 t3
  refine ⟨frictionArgs (ranks r) tr s, ?_, f1, f2⟩
  unfold fdInitial
  rw [hs.bsU r hr, hs.bsS r hr]
  simp only [hsg, hug, t1, Option.bind_eq_bind, Option.bind_some]
  rfl

/-- C90: without an initial displacement (all vectors start as zero) the initial condition is the right one on
every distribution. -/
theorem C90_fd_initial_zero {α : Type} (hs : IsSetup P D elems num fnum tag views ranks plansU plansS bsU bsS)
    (zero : α) {Sold S : List Nat → List α} {us ssOld ss : List (List α)}
    (hX : HoldsField P elems views bsU (fun _ => List.replicate bsU zero) us)
    (hSo : HoldsState P views ranks bsS Sold ssOld) (hS : HoldsState P views ranks bsS S ss)
    {r : Nat} (hr : r < P) {u s : List α} (hu : us[r]? = some u) (hsr : ss[r]? = some s)
    (cS cU : Comm) (yS yU : List α) (hcS : Completes plansS bsS r cS yS) (hcU : Completes plansU bsU r cU yU)
    (dg : DG K α) :
    ∃ out, fdInitial (ranks r) r us ssOld u s cS cU yS yU dg = some (out, { dg with slip := none }) ∧
      ∀ (b : Nat) (f : List Nat), LocalFault (views r) (ranks r) b f →
        ∃ a, out[b]? = some (a, S f) ∧ IsTraction P elems (views r) (fun _ => List.replicate bsU zero) S f a := by
  obtain ⟨out, h1, _, h3⟩ := C90_fd_initial hs hX hX hSo hS hr hu hsr cS cU yS yU hcS hcU dg
  refine ⟨out, h1, fun b f hbf => ?_⟩
  obtain ⟨a, ha, hq⟩ := h3 b f hbf
  exact ⟨a, ha, by simpa using hq⟩

/-- C90: at a local fault facet whose second element belongs to another rank the initial traction is computed
with the old displacement of that element; so with an initial displacement that differs there the initial
state depends on the distribution of the mesh. -/
theorem C90_fd_initial_stale {α : Type} (hs : IsSetup P D elems num fnum tag views ranks plansU plansS bsU bsS)
    {Xold X Sold S : List Nat → List α} {usOld us ssOld ss : List (List α)}
    (hXo : HoldsField P elems views bsU Xold usOld) (hX : HoldsField P elems views bsU X us)
    (hSo : HoldsState P views ranks bsS Sold ssOld) (hS : HoldsState P views ranks bsS S ss)
    {r : Nat} (hr : r < P) {u s : List α} (hu : us[r]? = some u) (hsr : ss[r]? = some s)
    (cS cU : Comm) (yS yU : List α) (hcS : Completes plansS bsS r cS yS) (hcU : Completes plansU bsU r cU yU)
    (dg : DG K α) (b : Nat) (f : List Nat) (hf : LocalFault (views r) (ranks r) b f) (e e' : List Nat)
    (he : e ∈ elems r) (hfe : IsFacet e f) (o : Nat) (ho : o < P) (he' : e' ∈ elems o) (hor : e' ∉ elems r)
    (hfe' : IsFacet e' f) :
    ∃ out a, fdInitial (ranks r) r usOld ssOld u s cS cU yS yU dg = some (out, { dg with slip := none }) ∧
      out[b]? = some (a, S f) ∧ ((a.u0 = X e ∧ a.u1 = some (Xold e')) ∨ (a.u0 = Xold e' ∧ a.u1 = some (X e))) := by
  obtain ⟨out, h1, _, h3⟩ := C90_fd_initial hs hXo hX hSo hS hr hu hsr cS cU yS yU hcS hcU dg
  obtain ⟨a, ha, _, _, e0, e1, i0, i1, k0, k1, hex, v0, v1⟩ := h3 b f hf
  refine ⟨out, a, h1, ha, ?_⟩
  have hne : e ≠ e' := fun h => hor (h ▸ he)
  rcases hex e ⟨r, hr, he⟩ hfe with rfl | rfl <;> rcases hex e' ⟨o, ho, he'⟩ hfe' with h | rfl
  · exact absurd h.symm hne
  · left
    rw [v0, v1, if_neg hne]
    simp [he, hor]
  · right
    subst h
    rw [v0, v1, if_neg (Ne.symm hne)]
    simp [he, hor]
  · exact absurd rfl hne

/-- C90 (quasi-dynamic), assembly of the linear system: on every rank the right-hand side sees, at every facet
of its elements, the slip of the global state at fault facets (nothing at others), and boundary data of time
`t`. -/
theorem C90_qd_assemble {α : Type} (hs : IsSetup P D elems num fnum tag views ranks plansU plansS bsU bsS)
    {S : List Nat → List α} {ss : List (List α)} (hS : HoldsState P views ranks bsS S ss)
    {r : Nat} (hr : r < P) (hasBoundary : Bool) (t : K) (cS : Comm) (yS : List α)
    (hcS : Completes plansS bsS r cS yS) (dg : DG K α) :
    ∃ ghost slips dg', qdAssemble (ranks r) r hasBoundary t ss cS yS dg = some (ghost, slips, dg') ∧
      dg'.dirichlet = (if hasBoundary then some t else dg.dirichlet) ∧
      slips.length = (views r).numLocalFacets ∧
      (∀ (i : Nat) (f : List Nat), i < (views r).numLocalFacets → (views r).facets[i]? = some f →
        slips[i]? = some (i, if tag f = bcFault then some (S f) else none)) ∧
      ∀ (s : List α), ss[r]? = some s → ∀ (b i : Nat) (f : List Nat), (ranks r).map.fctNo b = some i →
        (views r).facets[i]? = some f → slipBc (ranks r) (stateView (ranks r) s ghost) i = some (S f) := by
  have hd := hs.mesh
  have hvw := hd.view r hr
  have hsr := hS.2 r hr
  obtain ⟨sg, hsg, hslip⟩ := slip_block hs hS hr hcS hsr
  set s := (ranks r).map.localFctNos.flatMap (fun i => S ((views r).facets.getD i [])) with hsdef
  set dg2 : DG K α := ⟨some (slipBc (ranks r) (stateView (ranks r) s sg)), if hasBoundary then some t else dg.dirichlet⟩
    with hdg2
  obtain ⟨slips, m1, m2⟩ := mapM_rel (fun i => do
    let info ← facetInfo (views r) i
    let sl ← dg2.slipAt info.bc i
    return (i, sl)) (fun i q => ∀ f, (views r).facets[i]? = some f →
      q = (i, if tag f = bcFault then some (S f) else none)) (List.range (views r).numLocalFacets) (by
    intro i hi
    rw [List.mem_range] at hi
    obtain ⟨info, f, e0, e1, k1, k2, k3, k4, k5, k6, k7, _, _, _, _, _, _, _, k15⟩ := C33_facet_info hd r hr i hi
    refine ⟨(i, if tag f = bcFault then some (S f) else none), ?_, ?_⟩
    · simp only [k1, Option.bind_eq_bind, Option.bind_some]
      unfold DG.slipAt DG.callSlip
      rw [k15]
      by_cases ht : tag f = bcFault
      · rw [if_pos ht, if_pos ht]
        show ((slipBc (ranks r) (stateView (ranks r) s sg) i).map some).bind _ = _
        rw [hslip i f hi k2 ht]
        rfl
      · rw [if_neg ht, if_neg ht]; rfl
    · intro f' hf'
      rw [Option.some.inj (k2.symm.trans hf')])
  obtain ⟨l1, l2⟩ := forall2_get m2
  refine ⟨sg, slips, dg2, ?_, rfl, by rw [l1, List.length_range], ?_, ?_⟩
  · unfold qdAssemble
    have hif : (if hasBoundary = true then
        ({ ({ dg with slip := some (slipBc (ranks r) (stateView (ranks r) s sg)) } : DG K α) with dirichlet := some t } : DG K α)
        else { dg with slip := some (slipBc (ranks r) (stateView (ranks r) s sg)) }) = dg2 := by
      cases hasBoundary <;> rfl
    rw [hs.view r hr, hs.bsS r hr]
    simp only [hsr, hsg, Option.bind_eq_bind, Option.bind_some, hif] at m1 ⊢
    rw [m1]
    rfl
  · intro i f hi hf
    obtain ⟨q, h1, h2⟩ := l2 i i (List.getElem?_range hi)
    rw [h1, h2 f hf]
  · intro s' hs' b i f hbi hf
    obtain rfl : s = s' := Option.some.inj (hsr.symm.trans hs')
    obtain ⟨m, g0, g1, g2, g3, g4, g5, g6, g7⟩ := C31_boundary_map hd r hr bcFault (hs.small r hr)
    have hm : m = (ranks r).map := Option.some.inj (g0.symm.trans (hs.map r hr))
    subst hm
    obtain ⟨hil, hbc⟩ := (g2 i).1 (List.mem_of_getElem? hbi)
    rw [hvw.bc i f hf] at hbc
    exact hslip i f hil hf (Option.some.inj hbc)

/-- C90 (quasi-dynamic), `rhs` and `initial_condition` (the latter with the state after `pre_init` and time 0):
whatever displacement field `X` the linear solver returns, the friction law runs for every local fault facet with
its state and the traction of `X` on both sides and its slip; the slip callback throws afterwards. -/
theorem C90_qd_rhs {α : Type} (hs : IsSetup P D elems num fnum tag views ranks plansU plansS bsU bsS)
    {X S : List Nat → List α} {xs ss : List (List α)} (hX : HoldsField P elems views bsU X xs)
    (hS : HoldsState P views ranks bsS S ss)
    {r : Nat} (hr : r < P) (hasBoundary : Bool) (t : K) (cS cU : Comm) (yS yU : List α)
    (hcS : Completes plansS bsS r cS yS) (hcU : Completes plansU bsU r cU yU) (dg : DG K α)
    (ghost : List α) (slips : List (Nat × Option (List α))) (dg' : DG K α)
    (h : qdAssemble (ranks r) r hasBoundary t ss cS yS dg = some (ghost, slips, dg')) :
    ∃ out dg'', qdFinish (ranks r) r t ss xs ghost cU yU dg' = some (out, t, dg'') ∧
      out.length = (ranks r).map.localSize ∧
      (∀ (b : Nat) (f : List Nat), LocalFault (views r) (ranks r) b f →
        ∃ a, out[b]? = some (a, S f) ∧ IsTraction P elems (views r) X S f a) ∧
      dg''.slip = none ∧ dg''.dirichlet = (if hasBoundary then some t else dg.dirichlet) := by
  have hd := hs.mesh
  have hvw := hd.view r hr
  have hsr := hS.2 r hr
  have hu := hX.2 r hr
  obtain ⟨ghost', slips', dg2, h1, h2, _, _, h5⟩ := C90_qd_assemble hs hS hr hasBoundary t cS yS hcS dg
  rw [h1] at h
  obtain ⟨rfl, rfl, rfl⟩ : ghost' = ghost ∧ slips' = slips ∧ dg2 = dg' := by simpa using h
  obtain ⟨ug, hug, hghost⟩ := field_scatter hs hX hr hcU
  obtain ⟨tr, t1, t2, t3⟩ := traction_spec hs hr ({ dg2 with slip := none } : DG K α)
    (dispView (ranks r) _ ug) (stateView (ranks r) _ ghost') X S (by
      intro i e hi
      unfold dispView
      rw [hs.view r hr, hs.bsU r hr]
      by_cases he : e ∈ elems r
      · rw [view_local _ _ _ _ _ _ ((own_iff hr hd.mesh hvw hi).2.2 he), (field_own hs hX hr hu hi he).1]
      · exact hghost _ i e hi he) (fun b i f _ hbi hf => h5 _ hsr b i f hbi hf)
  obtain ⟨f1, f2⟩ := friction_args hs hr hS hsr t2 t3
  refine ⟨_, { dg2 with slip := none }, ?_, f1, f2, rfl, h2⟩
  unfold qdFinish
  rw [hs.bsU r hr]
  simp only [hsr, hu, hug, t1, Option.bind_eq_bind, Option.bind_some]
  rfl

theorem foldl_min_spec [LinearOrder K] (l : List K) : ∀ (a : K), l.foldl min a ≤ a ∧ (∀ x ∈ l, l.foldl min a ≤ x) ∧
    (l.foldl min a = a ∨ l.foldl min a ∈ l) := by
  induction l with
  | nil => intro a; simp
  | cons b l ih =>
    intro a
    obtain ⟨h1, h2, h3⟩ := ih (min a b)
    rw [List.foldl_cons]
    refine ⟨h1.trans (min_le_left _ _), ?_, ?_⟩
    · intro x hx
      rcases List.mem_cons.1 hx with rfl | hx
      · exact h1.trans (min_le_right _ _)
      · exact h2 x hx
    · rcases h3 with h3 | h3
      · rcases min_choice a b with h | h
        · left; rw [h3, h]
        · right; rw [h3, h]; exact List.mem_cons_self
      · right; exact List.mem_cons_of_mem _ h3

/-- C90: the CFL time step is, on every rank, the smallest of the element time steps of all ranks: a lower
bound for all of them, and one of them if there is any element (no larger than the largest double). -/
theorem C90_cfl [LinearOrder K] (huge : K) (dts : Nat → List K) (P : Nat) :
    (∀ r, r < P → ∀ dt ∈ dts r, cflTimeStep huge dts P ≤ dt) ∧
    ((∃ r, r < P ∧ ∃ dt ∈ dts r, dt ≤ huge) → ∃ r, r < P ∧ cflTimeStep huge dts P ∈ dts r) := by
  have hloc := fun r => foldl_min_spec (dts r) huge
  obtain ⟨h1, h2, h3⟩ := foldl_min_spec ((List.range P).map (fun r => localCfl huge (dts r))) huge
  have hle : ∀ r, r < P → cflTimeStep huge dts P ≤ localCfl huge (dts r) := fun r hr =>
    h2 _ (List.mem_map.2 ⟨r, List.mem_range.2 hr, rfl⟩)
  refine ⟨fun r hr dt hdt => (hle r hr).trans ((hloc r).2.1 dt hdt), ?_⟩
  rintro ⟨r, hr, dt, hdt, hdth⟩
  by_cases hlt : cflTimeStep huge dts P = huge
  · have h4 : huge ≤ dt := by rw [← hlt]; exact (hle r hr).trans ((hloc r).2.1 dt hdt)
    exact ⟨r, hr, by rw [hlt, le_antisymm h4 hdth]; exact hdt⟩
  · rcases h3 with h3 | h3
    · exact absurd h3 hlt
    · obtain ⟨q, hq, hqe⟩ := List.mem_map.1 h3
      rw [List.mem_range] at hq
      refine ⟨q, hq, ?_⟩
      have hqe' : cflTimeStep huge dts P = localCfl huge (dts q) := hqe.symm
      rcases (hloc q).2.2 with h | h
      · exact absurd (hqe'.trans h) hlt
      · rw [hqe']; exact h

end
/-! ## set-ups exist -/

theorem push_total (key v : Nat) (m : List (Nat × List Nat)) :
    (makeIndices (push key v m)).length = (makeIndices m).length + 1 := by
  unfold makeIndices
  induction m with
  | nil => rfl
  | cons p m ih =>
    obtain ⟨k, l⟩ := p
    unfold push
    split
    · simp only [List.flatMap_cons, List.length_append, List.length_singleton]; omega
    · simp only [List.flatMap_cons, List.length_append, ih]; omega

theorem recv_total (rank : Nat) (faces : List Face) :
    (makeIndices (planMaps rank faces).2).length ≤ faces.length := by
  unfold planMaps
  have : ∀ (l : List (Face × Nat)) (m : List (Nat × List Nat) × List (Nat × List Nat)),
      (makeIndices (l.foldl (planStep rank) m).2).length ≤ (makeIndices m.2).length + l.length := by
    intro l
    induction l with
    | nil => intro m; simp
    | cons p l ih =>
      intro m
      rw [List.foldl_cons]
      refine (ih _).trans ?_
      have : (makeIndices (planStep rank m p).2).length ≤ (makeIndices m.2).length + 1 := by
        unfold planStep
        split
        · exact Nat.le_succ _
        · exact le_of_eq (push_total _ _ _)
      rw [List.length_cons]
      omega
  simpa [makeIndices] using this faces.zipIdx ([], [])

/-- C90: on any distributed mesh of representable size every rank can construct its operators, for any block
sizes. -/
theorem C90_setup {P D : Nat} {elems : Nat → List (List Nat)} {num fnum tag : List Nat → Nat} {views : Nat → View}
    (hd : IsDistributed P D elems num fnum tag views)
    (hf : ∀ r, r < P → (views r).numLocalFacets ≤ 2 ^ 64 - 1)
    (he : ∀ r, r < P → (views r).elems.length ≤ 2 ^ 64 - 1) (bsU bsS : Nat) :
    ∃ ranks plansU plansS, IsSetup P D elems num fnum tag views ranks plansU plansS bsU bsS := by
  have hget : ∀ (f : Nat → Plan) (r : Nat), r < P → ((List.range P).map f)[r]? = some (f r) := by
    intro f r hr
    rw [List.getElem?_map, List.getElem?_range hr]; rfl
  refine ⟨fun r => ⟨views r, (boundaryMap (views r) bcFault).getD ⟨[], [], 0, [], []⟩, (numInterior (views r)).getD 0,
      (neighbourInfo (views r) (D + 1)).getD [],
      (setup (planMaps r (elemFaces (views r))).1 (planMaps r (elemFaces (views r))).2).recvIdx,
      makeIndices ((boundaryMap (views r) bcFault).getD ⟨[], [], 0, [], []⟩).recvMap, bsU, bsS⟩,
    (List.range P).map (fun r => setup (planMaps r (elemFaces (views r))).1 (planMaps r (elemFaces (views r))).2),
    (List.range P).map (fun r => setup ((boundaryMap (views r) bcFault).getD ⟨[], [], 0, [], []⟩).sendMap
      ((boundaryMap (views r) bcFault).getD ⟨[], [], 0, [], []⟩).recvMap), ?_⟩
  refine ⟨hd, hf, fun _ _ => rfl, ?_, ?_, ?_, fun _ _ => rfl, fun _ _ => rfl, ?_, ?_⟩
  · intro r hr
    obtain ⟨m, h, _⟩ := C31_boundary_map hd r hr bcFault (hf r hr)
    simp [h]
  · intro r hr
    obtain ⟨k, h, _⟩ := C33_interior hd r hr
    simp [h]
  · intro r hr
    obtain ⟨t, h, _⟩ := C33_neighbours hd r hr
    simp [h]
  · intro r hr
    refine ⟨_, hget _ r hr, ⟨_, _, List.Perm.refl _, List.Perm.refl _, rfl⟩, rfl, ?_⟩
    refine (recv_total r (elemFaces (views r))).trans ?_
    simpa [elemFaces] using he r hr
  · intro r hr
    refine ⟨_, _, List.Perm.refl _, List.Perm.refl _, hget _ r hr, rfl, ?_⟩
    rw [boundaryMap_eq hr hd.mesh (hd.view r hr) bcFault]
    refine (recv_total _ _).trans ?_
    rw [List.length_map]
    have h1 : (theList (views r) bcFault).length = (bcFacets (views r) bcFault).length := by
      rw [← (theList_snd (views r) bcFault).length_eq, List.length_map]
    rw [h1, bcFacets]
    exact (List.length_filter_le _ _).trans (by simpa using hf r hr)

/-- The strip of five triangles on three ranks with the facets of vertex sum 5 as fault (among them `[2, 3]`,
between an element of rank 0 and one of rank 1) has a set-up: the hypotheses of the theorems above can be met. -/
theorem example_setup : ∃ num fnum views ranks plansU plansS,
    IsSetup 3 2 Ghosts.exElems num fnum (fun f => if f.sum = 5 then 3 else 1) views ranks plansU plansS 2 1 := by
  obtain ⟨num, fnum, views, h, _⟩ := C33_local_meshes Ghosts.exEnv Ghosts.exElems Ghosts.exMesh Ghosts.exOk (by decide)
    (fun _ f => if f.sum = 5 then 3 else 1)
    (fun r => (sortedBy_exists Ghosts.exEnv.P Ghosts.exEnv.plex2rank (facetLists Ghosts.exEnv Ghosts.exElems)
      (fun s => (Ghosts.exElems s).length) none (some (fun _ f => if f.sum = 5 then 3 else 1)) r).choose)
    (fun r _ => (sortedBy_exists Ghosts.exEnv.P Ghosts.exEnv.plex2rank (facetLists Ghosts.exEnv Ghosts.exElems)
      (fun s => (Ghosts.exElems s).length) none (some (fun _ f => if f.sum = 5 then 3 else 1)) r).choose_spec)
  have hall : ∀ e, InElems 3 Ghosts.exElems e → e ∈ Ghosts.exAll := by
    rintro e ⟨s, hs, he⟩
    have : ∀ s, s < 3 → ∀ a ∈ Ghosts.exElems s, a ∈ Ghosts.exAll := by decide
    exact this s hs e he
  have hsub : ∀ r, r < 3 → ∀ e ∈ (views r).elems, e ∈ Ghosts.exAll := fun r hr e he =>
    hall e (((h.view r hr).exactly e).1 he).1
  have hfac : ∀ a ∈ Ghosts.exAll, a.length = 3 ∧ a.Pairwise (· < ·) := by decide
  have hfs : ∀ r, r < 3 → ∀ f ∈ (views r).facets, f ∈ Ghosts.exAll.flatMap (Ghosts.facets 2) := by
    intro r hr f hf
    obtain ⟨e, he, hfe⟩ := ((h.view r hr).facetsExactly f).1 hf
    have hea := hsub r hr e he
    exact List.mem_flatMap.2 ⟨e, hea,
      ((Ghosts.facets_spec 2 (by decide) e (hfac e hea).1 (hfac e hea).2).2 f).2 hfe⟩
  obtain ⟨ranks, plansU, plansS, hs⟩ := C90_setup h (fun r hr => by
    have h1 := (List.subperm_of_subset (h.view r hr).facetsOnce (hfs r hr)).length_le
    have h2 : (Ghosts.exAll.flatMap (Ghosts.facets 2)).length = 15 := by decide
    have h3 := (h.view r hr).numLocalFacets
    omega) (fun r hr => by
    have h1 := (List.subperm_of_subset (h.view r hr).once (hsub r hr)).length_le
    have h2 : Ghosts.exAll.length = 5 := by decide
    omega) 2 1
  exact ⟨num, fnum, views, ranks, plansU, plansS, hs⟩

end Tandem.SeasOp
