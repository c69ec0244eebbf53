import Verif.Props.DirectTractionPoisson
import Verif.Props.BoundaryMap
import Verif.Props.PoissonDefiniteExample
/-! # The fault maps of C31 fulfil what C103 assumes, and C103 applies to a mesh on three ranks -/
namespace Tandem.Direct
open Spec Curvilinear RefElement GreenOp Spec.Green
open Tandem.Construct (Options Setup Exchange ElasticityState PoissonState volumes)
open Tandem.DGTopo (View facetInfo FacetInfo BMap boundaryMap)

variable {D P : ℕ} {elems : ℕ → List (List ℕ)} {num fnum tag : List ℕ → ℕ} {views : ℕ → View}

/-- **C103 (numbering)**: on every distributed mesh, the local facets of the boundary maps that the ranks build for the fault number every facet of the fault
exactly once. -/
theorem C103_fault_maps (h : IsDistributed P D elems num fnum tag views) (hsmall : ∀ r, r < P → (views r).numLocalFacets ≤ 2 ^ 64 - 1)
    (maps : ℕ → BMap) (hmaps : ∀ r, r < P → boundaryMap (views r) DGAssembly.bcFault = some (maps r)) :
    FaultMaps P tag views fun r => (maps r).localFctNos := by
  have hc : ∀ r, r < P → (maps r).fctNos.Nodup ∧
      ∀ i, i ∈ (maps r).fctNos ↔ i < (views r).numLocalFacets ∧ (views r).bc[i]? = some DGAssembly.bcFault := fun r hr => by
    obtain ⟨m, h0, h1, h2, -⟩ := DGTopo.C31_boundary_map h r hr DGAssembly.bcFault (hsmall r hr)
    obtain rfl := Option.some.inj (h0.symm.trans (hmaps r hr))
    exact ⟨h1, h2⟩
  have hlab : ∀ r, r < P → ∀ f, f < (views r).numLocalFacets → (views r).facets[f]? = some (label (views r) f) := fun r hr f hf => by
    have := lt_of_lt_of_le hf (h.view r hr).numLocalFacets
    unfold label
    rw [List.getD_eq_getElem?_getD, List.getElem?_eq_getElem this]; rfl
  have htake : ∀ r f, f ∈ (maps r).localFctNos ↔ ∃ b, b < (maps r).localSize ∧ (maps r).fctNo b = some f := fun r f => by
    unfold BMap.localFctNos BMap.fctNo
    rw [List.mem_iff_getElem?]
    constructor
    · rintro ⟨b, hb⟩
      rw [List.getElem?_take] at hb
      split at hb
      · exact ⟨b, by assumption, hb⟩
      · simp at hb
    · rintro ⟨b, hb, hf⟩
      exact ⟨b, by rw [List.getElem?_take, if_pos hb, hf]⟩
  have hfault : ∀ r, r < P → ∀ f ∈ (maps r).localFctNos, f < (views r).numLocalFacets ∧ tag (label (views r) f) = DGAssembly.bcFault := fun r hr f hf => by
    obtain ⟨h1, h2⟩ := ((hc r hr).2 f).1 (List.mem_of_mem_take hf)
    refine ⟨h1, ?_⟩
    rw [(h.view r hr).bc f _ (hlab r hr f h1)] at h2
    exact Option.some.inj h2
  refine ⟨hfault, fun r hr f hf ht => ?_, ?_⟩
  · obtain ⟨e, he, hef⟩ := ((h.view r hr).localFacets f _ (hlab r hr f hf)).1 hf
    obtain ⟨s, hs, ⟨b, i, hb, hi, hl⟩, -⟩ := DGTopo.C31_owned_once h DGAssembly.bcFault hsmall maps hmaps _ ⟨e, ⟨r, hr, he⟩, hef⟩ ht
    refine List.mem_flatten.2 ⟨_, List.mem_map.2 ⟨s, List.mem_range.2 hs, rfl⟩, List.mem_map.2 ⟨i, (htake s i).2 ⟨b, hb, hi⟩, ?_⟩⟩
    unfold label at hl ⊢
    rw [List.getD_eq_getElem?_getD, hl]; rfl
  · unfold allFaults
    refine List.nodup_flatten.2 ⟨fun l hl => ?_, ?_⟩
    · obtain ⟨r, hr, rfl⟩ := List.mem_map.1 hl
      have hr := List.mem_range.1 hr
      refine List.Nodup.map_on (fun f hf f' hf' hff => ?_) ((hc r hr).1.sublist (List.take_sublist _ _))
      have h1 := hlab r hr f (hfault r hr f hf).1
      have h2 := hlab r hr f' (hfault r hr f' hf').1
      rw [← hff] at h2
      exact (List.getElem?_inj (lt_of_lt_of_le (hfault r hr f hf).1 (h.view r hr).numLocalFacets) (h.view r hr).facetsOnce).1 (h1.trans h2.symm)
    · refine List.pairwise_map.2 (List.Pairwise.imp_of_mem ?_ List.nodup_range)
      intro r r' hr hr' hne
      have hr := List.mem_range.1 hr
      have hr' := List.mem_range.1 hr'
      intro l hl hl'
      obtain ⟨f, hf, rfl⟩ := List.mem_map.1 hl
      obtain ⟨f', hf', hll⟩ := List.mem_map.1 hl'
      obtain ⟨h1, h2⟩ := hfault r hr f hf
      obtain ⟨e, he, hef⟩ := ((h.view r hr).localFacets f _ (hlab r hr f h1)).1 h1
      obtain ⟨s, -, -, hu⟩ := DGTopo.C31_owned_once h DGAssembly.bcFault hsmall maps hmaps _ ⟨e, ⟨r, hr, he⟩, hef⟩ h2
      obtain ⟨b, hb, hbf⟩ := (htake r f).1 hf
      obtain ⟨b', hb', hbf'⟩ := (htake r' f').1 hf'
      have e1 := hu r hr ⟨b, f, hb, hbf, hlab r hr f h1⟩
      have e2 := hu r' hr' ⟨b', f', hb', hbf', by rw [hlab r' hr' f' (hfault r' hr' f' hf').1, hll]⟩
      exact hne (e1.trans e2.symm)

/-- The operator and the boundary traction of C44 exist for every map from slip to traction. -/
theorem operator_exists (R : (List ℕ → ℕ → ℝ) → List ℕ → ℕ → ℝ) (t : List ℕ → ℕ → ℝ) (br bc : ℕ) (order : List (List ℕ)) :
    (∃ G, IsOperator R br bc order G) ∧ ∃ tb, IsTraction t br order tb := by
  have hdiv : ∀ c x k : ℕ, k < c → (c * x + k) / c = x ∧ (c * x + k) % c = k := by
    intro c x k hk
    refine ⟨?_, ?_⟩
    · rw [Nat.mul_add_div (Nat.zero_lt_of_lt hk), Nat.div_eq_of_lt hk, Nat.add_zero]
    · rw [Nat.mul_add_mod, Nat.mod_eq_of_lt hk]
  refine ⟨⟨fun I J => R (unitField (order.getD (J / bc) []) (J % bc)) (order.getD (I / br) []) (I % br), fun x a y b hx hy d hd e he => ?_⟩,
    ⟨fun I => t (order.getD (I / br) []) (I % br), fun x a hx d hd => ?_⟩⟩
  · dsimp only
    rw [(hdiv br x d hd).1, (hdiv br x d hd).2, (hdiv bc y e he).1, (hdiv bc y e he).2, List.getD_eq_getElem?_getD, List.getD_eq_getElem?_getD, hx, hy]; rfl
  · dsimp only
    rw [(hdiv br x d hd).1, (hdiv br x d hd).2, List.getD_eq_getElem?_getD, hx]; rfl

theorem exSmall {num fnum : List ℕ → ℕ} {views : ℕ → View} (h : IsDistributed 3 2 Ghosts.exElems num fnum Poisson.exTag views) (r : ℕ) (hr : r < 3) :
    (views r).numLocalFacets ≤ 2 ^ 64 - 1 := by
  have hsub : (views r).facets ⊆ (List.range 7).flatMap fun a => (List.range 7).map fun b => [a, b] := by
    intro f hf
    obtain ⟨e, he, hlen, -, hmem⟩ := ((h.view r hr).facetsExactly f).1 hf
    obtain ⟨s, hs, he⟩ := (((h.view r hr).exactly e).1 he).1
    have hall : ∀ s, s < 3 → ∀ a ∈ Ghosts.exElems s, a.length = 3 ∧ ∀ v ∈ a, v < 7 := by decide
    obtain ⟨h3, h7⟩ := hall s hs e he
    obtain ⟨a, b, rfl⟩ := List.length_eq_two.1 (show f.length = 2 by omega)
    exact List.mem_flatMap.2 ⟨a, List.mem_range.2 (h7 a (hmem a (by simp))), List.mem_map.2 ⟨b, List.mem_range.2 (h7 b (hmem b (by simp))), rfl⟩⟩
  have h1 := ((h.view r hr).facetsOnce.subperm hsub).length_le
  have h2 : ((List.range 7).flatMap fun a => (List.range 7).map fun b => [a, b]).length = 49 := by decide
  have h3 := (h.view r hr).numLocalFacets
  omega

/-- Every hypothesis of `C103_elasticity` is met on the strip of triangles with faults on three ranks, whatever the basis of the fault, and the
facet between the elements `[1, 2, 3]` and `[2, 3, 4]` of different ranks is on the fault; so the mode of the Green's function and
the direct solve agree there. -/
example (n : ℕ) (a : ℕ → Adapter 2 n Construct.exOptions.fctRule.points.length)
    (g1 : ℕ → ℕ → Bool → Fin 2 → Fin Construct.exOptions.fctRule.points.length → ℝ) (time : ℝ) (slip : List ℕ → ℕ → ℝ) :
    ∃ (views : ℕ → View) (faults : ℕ → List ℕ) (s : ℕ → ElasticityState 1 Construct.exOptions)
      (blocks : ℕ → List (ℕ × ℕ × (Fin (nbf 2 Construct.exOptions.p) → Fin 2 → Fin (nbf 2 Construct.exOptions.p) → Fin 2 → ℝ)))
      (env : Env ℝ (List ℕ)) (G : Mat ℝ) (tb : ℕ → ℝ) (T : List ℕ → ℕ → ℝ),
      env.br = 2 * n ∧ env.bc = n * 1 ∧ [2, 3] ∈ env.labels 3 ∧
      (∀ slip, ElasticityDirect 3 Ghosts.exElems views (fun r => (s r).op) blocks a faults (fun _ => none) slip (env.response slip)) ∧
      ElasticityDirect 3 Ghosts.exElems views (fun r => (s r).op) blocks a faults (fun r => some (g1 r)) 0 env.boundary ∧
      IsOperator env.response env.br env.bc (env.labels 3) G ∧ IsTraction env.boundary env.br (env.labels 3) tb ∧
      ElasticityDirect 3 Ghosts.exElems views (fun r => (s r).op) blocks a faults (fun r => some fun f bd p q => time * g1 r f bd p q) slip T ∧
      ∀ x q, (env.labels 3)[x]? = some q → ∀ j < env.br, updateTraction env 3 G tb time slip (env.br * x + j) = T q j := by
  obtain ⟨num, fnum, views, b, h⟩ := Construct.exSetup
  obtain ⟨ranks, plans, buf, arrival, hx⟩ := Construct.exchange_exists 3 views b
  obtain ⟨C_N, hC, -⟩ := Cfl.C97_gradient_reference 2 Construct.exOptions.p (Or.inl ⟨rfl, le_rfl, by decide⟩)
  have hm : ∀ r, ∃ m, r < 3 → boundaryMap (views r) DGAssembly.bcFault = some m := fun r => by
    by_cases hr : r < 3
    · obtain ⟨m, hm, -⟩ := DGTopo.C31_boundary_map h.mesh r hr DGAssembly.bcFault (exSmall h.mesh r hr)
      exact ⟨m, fun _ => hm⟩
    · exact ⟨⟨[], [], 0, [], []⟩, fun h => absurd h hr⟩
  choose maps hmaps using hm
  have hf := C103_fault_maps h.mesh (exSmall h.mesh) maps hmaps
  obtain ⟨vol, s, blocks, -, h1, -, h2⟩ := C103_elasticity (n := n) (Or.inl rfl) h Construct.exStraight Construct.exValid Construct.exGood rfl C_N hC
    (fun _ _ _ => 1) (fun _ _ _ => 1) none (fun _ => 1) (fun _ => 1) (fun _ => 1) (fun _ _ => rfl) (fun _ _ => rfl) (fun _ _ => rfl)
    (fun _ _ => zero_le_one) (fun _ _ => one_pos) Definite.exAnchored ranks plans buf arrival hx _ hf a
  choose R hR using h1
  obtain ⟨⟨G, hG⟩, tb, htb⟩ := operator_exists (R fun _ => none) (R (fun r => some (g1 r)) 0) (2 * n) (n * 1) (allFaults 3 views fun r => (maps r).localFctNos).flatten
  let env : Env ℝ (List ℕ) := ⟨R fun _ => none, R (fun r => some (g1 r)) 0, 2 * n, n * 1, fun _ => allFaults 3 views fun r => (maps r).localFctNos⟩
  refine ⟨views, _, s, blocks, env, G, tb, _, rfl, rfl, ?_, hR _, hR _ _, hG, htb, hR _ slip,
    h2 env g1 rfl rfl (hR _) (hR _ _) G tb hG htb time slip _ (hR _ slip)⟩
  obtain ⟨i, hi, hl⟩ := DGTopo.facet_index (h.mesh.view 0 (by decide)) (show [1, 2, 3] ∈ Ghosts.exElems 0 by decide) (by decide) (show IsFacet [1, 2, 3] [2, 3] by decide)
  have hlab : label (views 0) i = [2, 3] := by unfold label; rw [List.getD_eq_getElem?_getD, hl]; rfl
  exact hlab ▸ hf.all 0 (by decide) i hi (by rw [hlab]; decide)

/-- Every hypothesis of `C103_poisson` is met on the strip of triangles with faults on three ranks, whatever the basis of the fault, and the
facet between the elements `[1, 2, 3]` and `[2, 3, 4]` of different ranks is on the fault; so the mode of the Green's function and
the direct solve agree there. -/
example (n : ℕ) (a : ℕ → Adapter 2 n Construct.exOptions.fctRule.points.length)
    (g1 : ℕ → ℕ → Bool → Fin Construct.exOptions.fctRule.points.length → ℝ) (time : ℝ) (slip : List ℕ → ℕ → ℝ) :
    ∃ (views : ℕ → View) (faults : ℕ → List ℕ) (s : ℕ → PoissonState 1 Construct.exOptions)
      (blocks : ℕ → List (ℕ × ℕ × (Fin (nbf 2 Construct.exOptions.p) → Fin (nbf 2 Construct.exOptions.p) → ℝ)))
      (env : Env ℝ (List ℕ)) (G : Mat ℝ) (tb : ℕ → ℝ) (T : List ℕ → ℕ → ℝ),
      env.br = 2 * n ∧ env.bc = n ∧ [2, 3] ∈ env.labels 3 ∧
      (∀ slip, PoissonDirect 3 Ghosts.exElems views (fun r => (s r).op) blocks a faults 0 slip (env.response slip)) ∧
      PoissonDirect 3 Ghosts.exElems views (fun r => (s r).op) blocks a faults g1 0 env.boundary ∧
      IsOperator env.response env.br env.bc (env.labels 3) G ∧ IsTraction env.boundary env.br (env.labels 3) tb ∧
      PoissonDirect 3 Ghosts.exElems views (fun r => (s r).op) blocks a faults (fun r f bd q => time * g1 r f bd q) slip T ∧
      ∀ x q, (env.labels 3)[x]? = some q → ∀ j < env.br, updateTraction env 3 G tb time slip (env.br * x + j) = T q j := by
  obtain ⟨num, fnum, views, b, h⟩ := Construct.exSetup
  obtain ⟨ranks, plans, buf, arrival, hx⟩ := Construct.exchange_exists 3 views b
  have hm : ∀ r, ∃ m, r < 3 → boundaryMap (views r) DGAssembly.bcFault = some m := fun r => by
    by_cases hr : r < 3
    · obtain ⟨m, hm, -⟩ := DGTopo.C31_boundary_map h.mesh r hr DGAssembly.bcFault (exSmall h.mesh r hr)
      exact ⟨m, fun _ => hm⟩
    · exact ⟨⟨[], [], 0, [], []⟩, fun h => absurd h hr⟩
  choose maps hmaps using hm
  have hf := C103_fault_maps h.mesh (exSmall h.mesh) maps hmaps
  obtain ⟨vol, s, blocks, -, h1, -, h2⟩ := C103_poisson (n := n) (Or.inl rfl) h Construct.exStraight Construct.exValid Construct.exGood rfl
    (fun _ _ _ => 1) (fun _ => 1) (fun _ _ => rfl) (fun _ _ => one_pos) Definite.exAnchored ranks plans buf arrival hx _ hf a
  choose R hR using h1
  obtain ⟨⟨G, hG⟩, tb, htb⟩ := operator_exists (R 0) (R g1 0) (2 * n) (n) (allFaults 3 views fun r => (maps r).localFctNos).flatten
  let env : Env ℝ (List ℕ) := ⟨R 0, R g1 0, 2 * n, n, fun _ => allFaults 3 views fun r => (maps r).localFctNos⟩
  refine ⟨views, _, s, blocks, env, G, tb, _, rfl, rfl, ?_, hR _, hR _ _, hG, htb, hR _ slip,
    h2 env g1 rfl rfl (hR _) (hR _ _) G tb hG htb time slip _ (hR _ slip)⟩
  obtain ⟨i, hi, hl⟩ := DGTopo.facet_index (h.mesh.view 0 (by decide)) (show [1, 2, 3] ∈ Ghosts.exElems 0 by decide) (by decide) (show IsFacet [1, 2, 3] [2, 3] by decide)
  have hlab : label (views 0) i = [2, 3] := by unfold label; rw [List.getD_eq_getElem?_getD, hl]; rfl
  exact hlab ▸ hf.all 0 (by decide) i hi (by rw [hlab]; decide)

end Tandem.Direct
