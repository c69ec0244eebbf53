import Verif.Lemmas.ScatterPlan
/-! # Properties C14 (block vectors) and C18 (scatter) -/
namespace Tandem.ScatterPlan
open Tandem.CommPattern

/-! ## C14 -/

/-- C14: exactly the listed blocks are present (the index list is shorter than the sentinel
`2^64 - 1`, as any list in memory is). -/
theorem C14_has_block (l2g : List Nat) (hlen : l2g.length ≤ 2 ^ 64 - 1) (idx : Nat) :
    hasBlock l2g idx = true ↔ idx ∈ l2g := by
  constructor
  · intro h
    apply Classical.byContradiction
    intro hn
    unfold hasBlock at h
    rcases globalToLocal_notMem l2g idx hn with h' | h' <;> rw [h'] at h <;> simp at h
  · intro h
    obtain ⟨k, h0, h1, h2⟩ := exists_last l2g idx h
    unfold hasBlock
    rw [globalToLocal_mem l2g idx k h1 h2]
    have : k ≠ invalid := by unfold invalid; omega
    simp [this]

/-- C14: with pairwise different indices, block `l2g[k]` is the `k`-th stretch of the storage; hence
different blocks do not overlap and all lie within the storage of `l2g.length * bs` items. -/
theorem C14_block_location (l2g : List Nat) (hlen : l2g.length ≤ 2 ^ 64 - 1) (hn : l2g.Nodup)
    (bs k : Nat) (hk : k < l2g.length) :
    blockOffset l2g bs l2g[k] = some (k * bs) ∧ k * bs + bs ≤ l2g.length * bs := by
  constructor
  · apply blockOffset_last _ _ _ _ (List.getElem?_eq_getElem hk) _ hlen
    intro j hj he
    have hjl : j < l2g.length := by
      apply Classical.byContradiction; intro h
      rw [List.getElem?_eq_none (by omega)] at he; simp at he
    rw [List.getElem?_eq_getElem hjl] at he
    have := (List.getElem_inj hn).1 (Option.some.inj he)
    omega
  · exact slice_block_bound (a := k) (b := l2g.length) (by omega) (Nat.le_refl _)

/-- C14: writing one block (through the view returned by `get_block`) changes that block to the new
content and no other block. -/
theorem C14_write_block {α} (l2g : List Nat) (hlen : l2g.length ≤ 2 ^ 64 - 1) (hn : l2g.Nodup)
    (bs : Nat) (mem v : List α) (hmem : mem.length = l2g.length * bs) (hv : v.length = bs)
    (i : Nat) (hi : i ∈ l2g) :
    ∃ o, blockOffset l2g bs i = some o ∧
      getBlock l2g bs (writeAt mem o v) i = some v ∧
      ∀ j, j ∈ l2g → j ≠ i → getBlock l2g bs (writeAt mem o v) j = getBlock l2g bs mem j := by
  obtain ⟨k, hk, rfl⟩ := List.getElem_of_mem hi
  obtain ⟨h1, h2⟩ := C14_block_location l2g hlen hn bs k hk
  refine ⟨_, h1, ?_, ?_⟩
  · simp only [getBlock, h1, Option.map_some]
    rw [slice_writeAt _ _ _ _ _ hv (by omega), if_pos rfl]
  · intro j hj hne
    obtain ⟨k', hk', rfl⟩ := List.getElem_of_mem hj
    obtain ⟨h3, h4⟩ := C14_block_location l2g hlen hn bs k' hk'
    simp only [getBlock, h3, Option.map_some]
    rw [slice_writeAt _ _ _ _ _ hv (by omega), if_neg]
    rintro rfl
    exact hne rfl

/-- C14: a composite view has the local blocks and the listed ghost blocks, and each block comes from
the side it belongs to. -/
theorem C14_composite {α} (numLocal bs : Nat) (loc : List α) (l2g : List Nat) (ghost : List α)
    (hlen : l2g.length ≤ 2 ^ 64 - 1) (hghost : ∀ g ∈ l2g, numLocal ≤ g) (idx : Nat) :
    (viewHasBlock numLocal l2g idx = true ↔ idx < numLocal ∨ idx ∈ l2g) ∧
    (idx < numLocal → viewGetBlock numLocal bs loc l2g ghost idx = some (slice loc (idx * bs) bs)) ∧
    (idx ∈ l2g → viewGetBlock numLocal bs loc l2g ghost idx = getBlock l2g bs ghost idx ∧
      (getBlock l2g bs ghost idx).isSome) ∧
    (¬ idx < numLocal → idx ∉ l2g → viewGetBlock numLocal bs loc l2g ghost idx = none) := by
  refine ⟨?_, ?_, ?_, ?_⟩
  · unfold viewHasBlock
    by_cases h : idx < numLocal
    · simp [h]
    · rw [if_neg h, C14_has_block l2g hlen]; simp [h]
  · intro h; rw [viewGetBlock, if_pos h]
  · intro h
    have hg := hghost idx h
    refine ⟨by rw [viewGetBlock, if_neg (by omega)], ?_⟩
    obtain ⟨k, h0, h1, h2⟩ := exists_last l2g idx h
    simp [getBlock, blockOffset_last l2g bs idx k h1 h2 hlen]
  · intro h hn
    rw [viewGetBlock, if_neg h, getBlock, blockOffset]
    rcases globalToLocal_notMem l2g idx hn with h' | h' <;> rw [h'] <;> simp

example : hasBlock [5, 9, 7] 9 = true ∧ hasBlock [5, 9, 7] 6 = false ∧
    getBlock [5, 9, 7] 2 [10, 11, 20, 21, 30, 31] 7 = some [30, 31] ∧
    viewGetBlock 4 2 [0, 1, 2, 3, 4, 5, 6, 7] [5, 9, 7] [10, 11, 20, 21, 30, 31] 3 = some [6, 7] ∧
    viewHasBlock 4 [5, 9, 7] 4 = false := by decide

/-! ## C18 -/

/-- Local index of the face with the given global id. -/
def localIndex (faces : List Face) (gid : Nat) : Nat := faces.findIdx (fun f => f.gid = gid)

/-- The plan a rank may build: the two hash maps may be iterated in any order. -/
def IsPlan (rank : Nat) (faces : List Face) (plan : Plan) : Prop :=
  ∃ s r, s.Perm (planMaps rank faces).1 ∧ r.Perm (planMaps rank faces).2 ∧ plan = setup s r

/-- The distributed faces fit together: `faces o` is what rank `o` of `P` holds. -/
structure Consistent (P : Nat) (faces : Nat → List Face) : Prop where
  /-- no rank holds a face twice -/
  gids : ∀ r, r < P → ((faces r).map (fun f => f.gid)).Nodup
  /-- shared-rank lists have no duplicates -/
  shared : ∀ r, r < P → ∀ f ∈ faces r, f.shared.Nodup
  /-- owners are ranks -/
  owner : ∀ r, r < P → ∀ f ∈ faces r, f.owner < P
  /-- the faces of `o` that `o` believes `d` to hold are the ones `d` holds, in the same order -/
  same : ∀ o d, o < P → d < P → o ≠ d →
    ((faces o).filter (fun f => f.owner = o ∧ d ∈ f.shared)).map (fun f => f.gid) =
      ((faces d).filter (fun f => f.owner = o)).map (fun f => f.gid)

theorem zipIdx_filter_gid (faces : List Face) (P : Face → Bool) : ∀ k,
    (((faces.zipIdx k).filter (fun p => P p.1)).map (fun p => p.1.gid)) =
      (faces.filter P).map (fun f => f.gid) := by
  induction faces with
  | nil => intro k; rfl
  | cons f faces ih =>
    intro k
    rw [List.zipIdx_cons, List.filter_cons, List.filter_cons]
    by_cases h : P f
    · simp [h, ih]
    · simp [h, ih]

theorem localIndex_spec (faces : List Face) (hn : (faces.map (fun f => f.gid)).Nodup)
    (i : Nat) (f : Face) (h : faces[i]? = some f) : localIndex faces f.gid = i := by
  unfold localIndex
  have hlt : i < faces.length := by
    apply Classical.byContradiction; intro h'
    rw [List.getElem?_eq_none (by omega)] at h; simp at h
  rw [List.getElem?_eq_getElem hlt] at h
  have hf := Option.some.inj h
  have h1 : faces.findIdx (fun g => g.gid = f.gid) < faces.length :=
    List.findIdx_lt_length_of_exists ⟨f, hf ▸ List.getElem_mem hlt, by simp⟩
  have h2 := List.findIdx_getElem (w := h1)
  simp at h2
  have h3 : (faces.map (fun f => f.gid))[faces.findIdx (fun g => g.gid = f.gid)]'(by simpa using h1) =
      (faces.map (fun f => f.gid))[i]'(by simpa using hlt) := by
    simp only [List.getElem_map]
    rw [h2, hf]
  exact (List.getElem_inj hn).1 h3

theorem zipIdx_mem_getElem? (faces : List Face) (p : Face × Nat) (h : p ∈ faces.zipIdx) :
    faces[p.2]? = some p.1 := by
  have := List.mem_zipIdx_iff_getElem?.1 (show (p.1, p.2) ∈ faces.zipIdx from h)
  simpa using this

theorem map_localIndex (faces : List Face) (hn : (faces.map (fun f => f.gid)).Nodup)
    (L : List (Face × Nat)) (hL : ∀ p ∈ L, p ∈ faces.zipIdx) :
    L.map (fun p => p.2) = (L.map (fun p => p.1.gid)).map (localIndex faces) := by
  rw [List.map_map]
  apply List.map_congr_left
  intro p hp
  exact (localIndex_spec faces hn p.2 p.1 (zipIdx_mem_getElem? faces p (hL p hp))).symm

/-- Under consistency what `o` sends to `d` are `o`'s blocks of the faces `d` receives from `o`. -/
theorem send_eq_recv (P : Nat) (faces : Nat → List Face) (hc : Consistent P faces) (o d : Nat)
    (ho : o < P) (hd : d < P) (hne : o ≠ d) :
    sendList o (faces o) d = (recvList d (faces d) o).map
      (fun i => localIndex (faces o) (((faces d)[i]?.map (fun f => f.gid)).getD 0)) := by
  have e1 : sendList o (faces o) d =
      (((faces o).filter (fun f => f.owner = o ∧ d ∈ f.shared)).map (fun f => f.gid)).map
        (localIndex (faces o)) := by
    unfold sendList
    rw [map_localIndex (faces o) (hc.gids o ho) _ (fun p hp => (List.mem_filter.1 hp).1)]
    congr 1
    exact zipIdx_filter_gid (faces o) (fun f => decide (f.owner = o ∧ d ∈ f.shared)) 0
  rw [e1, hc.same o d ho hd hne]
  have e2 : ((faces d).filter (fun f => f.owner = o)).map (fun f => f.gid) =
      (recvList d (faces d) o).map (fun i => ((faces d)[i]?.map (fun f => f.gid)).getD 0) := by
    unfold recvList
    rw [List.map_map]
    have e3 := zipIdx_filter_gid (faces d) (fun f => decide (f.owner ≠ d ∧ f.owner = o)) 0
    have e4 : (faces d).filter (fun f => decide (f.owner = o)) =
        (faces d).filter (fun f => decide (f.owner ≠ d ∧ f.owner = o)) := by
      apply List.filter_congr
      intro f _
      by_cases h : f.owner = o
      · simp [h, hne]
      · simp [h]
    rw [e4, ← e3]
    apply List.map_congr_left
    intro p hp
    have := zipIdx_mem_getElem? (faces d) p (List.mem_filter.1 hp).1
    simp [this]
  rw [e2, List.map_map]
  rfl

theorem recvList_mem (rank : Nat) (faces : List Face) (o i : Nat) :
    i ∈ recvList rank faces o ↔ ∃ f, faces[i]? = some f ∧ f.owner ≠ rank ∧ f.owner = o := by
  unfold recvList
  simp only [List.mem_map, List.mem_filter, decide_eq_true_eq]
  constructor
  · rintro ⟨p, ⟨h1, h2⟩, rfl⟩
    exact ⟨p.1, zipIdx_mem_getElem? _ _ h1, h2⟩
  · rintro ⟨f, h1, h2⟩
    exact ⟨(f, i), ⟨List.mem_zipIdx_iff_getElem?.2 (by simpa using h1), h2⟩, rfl⟩

theorem sendList_lt (rank : Nat) (faces : List Face) (d i : Nat) (h : i ∈ sendList rank faces d) :
    i < faces.length := by
  unfold sendList at h
  simp only [List.mem_map, List.mem_filter] at h
  obtain ⟨p, ⟨h1, _⟩, rfl⟩ := h
  have := zipIdx_mem_getElem? _ _ h1
  apply Classical.byContradiction
  intro h'
  rw [List.getElem?_eq_none (by omega)] at this; simp at this

theorem sendList_own (rank : Nat) (faces : List Face) (d i : Nat) (h : i ∈ sendList rank faces d) :
    ∃ f, faces[i]? = some f ∧ f.owner = rank := by
  unfold sendList at h
  simp only [List.mem_map, List.mem_filter, decide_eq_true_eq] at h
  obtain ⟨p, ⟨h1, h2, _⟩, rfl⟩ := h
  exact ⟨p.1, zipIdx_mem_getElem? _ _ h1, h2⟩

/-- The vector `x` of rank `r` has a block for each of the faces the rank owns. -/
def CoversOwned {α} (bs : Nat) (r : Nat) (faces : List Face) (x : List α) : Prop :=
  ∀ (i : Nat) (f : Face), faces[i]? = some f → f.owner = r → i * bs + bs ≤ x.length

/-- The block the owner sends for the local ghost face `i` of rank `d`. -/
def ownerBlock {α} (bs : Nat) (faces : Nat → List Face) (xs : Nat → List α) (d i : Nat) : List α :=
  match (faces d)[i]? with
  | none => []
  | some f => slice (xs f.owner) (localIndex (faces f.owner) f.gid * bs) bs

/-- Result of the scatter in the receive vector. -/
theorem scatter_result {α} (bs P : Nat) (faces : Nat → List Face) (hc : Consistent P faces)
    (plans : List Plan) (hplans : ∀ r, r < P → ∃ p, plans[r]? = some p ∧ IsPlan r (faces r) p)
    (xs : Nat → List α) (hxs : ∀ r, r < P → CoversOwned bs r (faces r) (xs r))
    (xl : List (List α)) (hxl : ∀ r, r < P → xl[r]? = some (xs r))
    (d : Nat) (hd : d < P) (plan : Plan) (hplan : plans[d]? = some plan)
    (y : List α) (hy : y.length = plan.recvIdx.length * bs)
    (arrival : List Block) (ha : arrival.Perm plan.recvBlocks) :
    scatter bs plans xl d y arrival = some (plan.recvIdx.flatMap (ownerBlock bs faces xs d)) ∧
    (∀ i ∈ plan.recvIdx, (ownerBlock bs faces xs d i).length = bs) ∧
    (∀ i, i ∈ plan.recvIdx ↔ ∃ f, (faces d)[i]? = some f ∧ f.owner ≠ d) := by
  obtain ⟨p, hp1, s, r, hs, hr, hp2⟩ := hplans d hd
  rw [hplan] at hp1
  have := Option.some.inj hp1
  subst this
  subst hp2
  obtain ⟨w1, w2, k1, k2⟩ := planMaps_spec d (faces d) (hc.shared d hd)
  have wr := w2.perm hr
  have hlook : ∀ o, look r o = recvList d (faces d) o := fun o => by rw [w2.look_perm hr, k2]
  have hmem : ∀ p ∈ r, p.2 = recvList d (faces d) p.1 ∧ p.2 ≠ [] ∧ p.1 ≠ d ∧ p.1 < P := by
    intro p hp
    obtain ⟨h1, h2⟩ := (wr.mem_iff p.1 p.2).1 hp
    rw [hlook] at h2
    refine ⟨h2.symm, h1, ?_⟩
    obtain ⟨i, hi⟩ := List.exists_mem_of_ne_nil _ h1
    rw [← h2, recvList_mem] at hi
    obtain ⟨f, hf, h3, h4⟩ := hi
    exact ⟨h4 ▸ h3, h4 ▸ hc.owner d hd f (List.mem_of_getElem? hf)⟩
  have hrecv : ∀ i, i ∈ makeIndices r ↔ ∃ f, (faces d)[i]? = some f ∧ f.owner ≠ d := by
    intro i
    unfold makeIndices
    simp only [List.mem_flatMap]
    constructor
    · rintro ⟨p, hp, hi⟩
      rw [(hmem p hp).1, recvList_mem] at hi
      obtain ⟨f, h1, h2, _⟩ := hi
      exact ⟨f, h1, h2⟩
    · rintro ⟨f, h1, h2⟩
      have hi : i ∈ recvList d (faces d) f.owner := (recvList_mem _ _ _ _).2 ⟨f, h1, h2, rfl⟩
      refine ⟨(f.owner, look r f.owner), (wr.mem_iff _ _).2 ⟨?_, rfl⟩, ?_⟩
      · rw [hlook]; exact List.ne_nil_of_mem hi
      · rw [hlook]; exact hi
  -- owner-side lengths
  have hob : ∀ i f, (faces d)[i]? = some f → f.owner ≠ d →
      localIndex (faces f.owner) f.gid ∈ sendList f.owner (faces f.owner) d ∧
      (ownerBlock bs faces xs d i).length = bs := by
    intro i f h1 h2
    have ho := hc.owner d hd f (List.mem_of_getElem? h1)
    have hi : i ∈ recvList d (faces d) f.owner := (recvList_mem _ _ _ _).2 ⟨f, h1, h2, rfl⟩
    have hs' : localIndex (faces f.owner) f.gid ∈ sendList f.owner (faces f.owner) d := by
      rw [send_eq_recv P faces hc f.owner d ho hd h2]
      exact List.mem_map.2 ⟨i, hi, by simp [h1]⟩
    refine ⟨hs', ?_⟩
    obtain ⟨f', hf', hof⟩ := sendList_own _ _ _ _ hs'
    unfold ownerBlock
    rw [h1]
    simp only
    rw [slice_length]
    exact hxs _ ho _ f' hf' hof
  have hl : ∀ p ∈ r, ∀ i ∈ p.2, (ownerBlock bs faces xs d i).length = bs := by
    intro p hp i hi
    rw [(hmem p hp).1, recvList_mem] at hi
    obtain ⟨f, h1, h2, _⟩ := hi
    exact (hob i f h1 h2).2
  refine ⟨?_, ?_, hrecv⟩
  · rw [scatter_core bs plans xl d s r (fun _ i => ownerBlock bs faces xs d i) ?_ hl y hy arrival ha]
    · congr 1
      show _ = (makeIndices r).flatMap _
      unfold makeIndices
      rw [List.flatMap_assoc]
    · intro p hp
      obtain ⟨h1, h2, h3, h4⟩ := hmem p hp
      obtain ⟨po, g1, so, ro, gs, gr, rfl⟩ := hplans p.1 h4
      refine ⟨_, xs p.1, g1, hxl p.1 h4, ?_⟩
      obtain ⟨v1, v2, j1, j2⟩ := planMaps_spec p.1 (faces p.1) (hc.shared p.1 h4)
      have hlo : look so d = sendList p.1 (faces p.1) d := by rw [v1.look_perm gs, j1]
      have hse := send_eq_recv P faces hc p.1 d h4 hd h3
      rw [message_eq bs so (v1.perm gs) ro (xs p.1) ?_ d ?_]
      · rw [hlo, hse, ← h1, List.flatMap_map]
        congr 1
        apply List.flatMap_congr
        intro i hi
        rw [h1, recvList_mem] at hi
        obtain ⟨f, f1, f2, f3⟩ := hi
        unfold ownerBlock
        rw [f1]
        simp [f3]
      · intro k i hi
        rw [v1.look_perm gs, j1] at hi
        obtain ⟨f', hf', hof⟩ := sendList_own _ _ _ _ hi
        exact hxs p.1 h4 i f' hf' hof
      · rw [hlo, hse, ← h1]
        simpa using h2
  · intro i hi
    obtain ⟨f, h1, h2⟩ := (hrecv i).1 hi
    exact (hob i f h1 h2).2

/-- C18 (`begin_scatter`/`wait_scatter`): on consistent faces, whatever the iteration order of the hash
maps on every rank and whatever the order of completion, all receives complete, and the receive vector
`y` — a sparse block vector over the plan's receive indices — holds for every ghost face the block its
owner has for the same global face. -/
theorem C18_scatter {α} (bs P : Nat) (faces : Nat → List Face) (hc : Consistent P faces)
    (plans : List Plan) (hplans : ∀ r, r < P → ∃ p, plans[r]? = some p ∧ IsPlan r (faces r) p)
    (xs : Nat → List α) (hxs : ∀ r, r < P → CoversOwned bs r (faces r) (xs r))
    (xl : List (List α)) (hxl : ∀ r, r < P → xl[r]? = some (xs r))
    (d : Nat) (hd : d < P) (plan : Plan) (hplan : plans[d]? = some plan)
    (hlen : plan.recvIdx.length ≤ 2 ^ 64 - 1)
    (y : List α) (hy : y.length = plan.recvIdx.length * bs)
    (arrival : List Block) (ha : arrival.Perm plan.recvBlocks) :
    ∃ y', scatter bs plans xl d y arrival = some y' ∧
      ∀ (i : Nat) (f : Face), (faces d)[i]? = some f → f.owner ≠ d →
        ∀ (j : Nat) (g : Face), (faces f.owner)[j]? = some g → g.gid = f.gid →
          getBlock plan.recvIdx bs y' i = some (slice (xs f.owner) (j * bs) bs) := by
  obtain ⟨h1, h2, h3⟩ := scatter_result bs P faces hc plans hplans xs hxs xl hxl d hd plan hplan y hy
    arrival ha
  refine ⟨_, h1, ?_⟩
  intro i f hi hf j g hj hg
  have hm : i ∈ plan.recvIdx := (h3 i).2 ⟨f, hi, hf⟩
  obtain ⟨k, _, k1, k2⟩ := exists_last _ _ hm
  rw [getBlock, blockOffset_last _ bs i k k1 k2 hlen, Option.map_some,
    slice_flatMap _ _ bs k i h2 k1]
  unfold ownerBlock
  rw [hi]
  simp only
  rw [← hg, localIndex_spec _ (hc.gids _ (hc.owner d hd f (List.mem_of_getElem? hi))) j g hj]

/-- C18: every ghost face exists at its owner, so the previous theorem speaks about every ghost. -/
theorem C18_owner_has (P : Nat) (faces : Nat → List Face) (hc : Consistent P faces) (d : Nat) (hd : d < P)
    (f : Face) (hf : f ∈ faces d) (ho : f.owner ≠ d) :
    ∃ (j : Nat) (g : Face), (faces f.owner)[j]? = some g ∧ g.gid = f.gid ∧ g.owner = f.owner := by
  have howner := hc.owner d hd f hf
  have h1 : f.gid ∈ ((faces d).filter (fun g => g.owner = f.owner)).map (fun f => f.gid) :=
    List.mem_map.2 ⟨f, List.mem_filter.2 ⟨hf, by simp⟩, rfl⟩
  rw [← hc.same f.owner d howner hd ho] at h1
  obtain ⟨g, hg, he⟩ := List.mem_map.1 h1
  obtain ⟨g1, g2⟩ := List.mem_filter.1 hg
  simp at g2
  obtain ⟨j, hj, rfl⟩ := List.getElem_of_mem g1
  exact ⟨j, _, List.getElem?_eq_getElem hj, he, g2.1⟩

/-- C18 (no message is left over): rank `o` sends to `d` exactly if `d` receives from `o`, and the
numbers of blocks agree. -/
theorem C18_matching (P : Nat) (faces : Nat → List Face) (hc : Consistent P faces)
    (o d : Nat) (ho : o < P) (hd : d < P) (hne : o ≠ d) (po pd : Plan)
    (hpo : IsPlan o (faces o) po) (hpd : IsPlan d (faces d) pd) (n : Nat) :
    (∃ b ∈ po.sendBlocks, b.peer = d ∧ b.count = n) ↔ (∃ b ∈ pd.recvBlocks, b.peer = o ∧ b.count = n) := by
  obtain ⟨so, ro, hs, hr, rfl⟩ := hpo
  obtain ⟨sd, rd, hs', hr', rfl⟩ := hpd
  obtain ⟨v1, _, j1, _⟩ := planMaps_spec o (faces o) (hc.shared o ho)
  obtain ⟨_, w2, _, k2⟩ := planMaps_spec d (faces d) (hc.shared d hd)
  have key : ∀ (m : List (Nat × List Nat)) (hw : WF m) (q : Nat),
      (∃ b ∈ makeBlocks 0 m, b.peer = q ∧ b.count = n) ↔ look m q ≠ [] ∧ (look m q).length = n := by
    intro m hw q
    constructor
    · rintro ⟨b, hb, rfl, rfl⟩
      obtain ⟨pre, l, post, h1, h2, h3⟩ := makeBlocks_mem m 0 b hb
      have : (b.peer, l) ∈ m := by rw [h1]; simp
      obtain ⟨g1, g2⟩ := (hw.mem_iff _ _).1 this
      rw [g2]; exact ⟨g1, h3.symm⟩
    · rintro ⟨h1, rfl⟩
      have := (hw.mem_iff q (look m q)).2 ⟨h1, rfl⟩
      obtain ⟨pre, post, hsp⟩ := List.append_of_mem this
      generalize look m q = l at *
      refine ⟨⟨0 + (makeIndices pre).length, l.length, q⟩, ?_, rfl, rfl⟩
      rw [hsp, makeBlocks_split]; simp
  show (∃ b ∈ makeBlocks 0 so, _) ↔ (∃ b ∈ makeBlocks 0 rd, _)
  rw [key so (v1.perm hs) d, key rd (w2.perm hr') o, v1.look_perm hs, j1, w2.look_perm hr', k2,
    send_eq_recv P faces hc o d ho hd hne]
  simp

/-- C18 (`SimpleScatter::scatter`): in place, every ghost block becomes the owner's block and every
owned block is unchanged. -/
theorem C18_simple_scatter {α} (bs P : Nat) (faces : Nat → List Face) (hc : Consistent P faces)
    (plans : List Plan) (hplans : ∀ r, r < P → ∃ p, plans[r]? = some p ∧ IsPlan r (faces r) p)
    (xs : Nat → List α) (hxs : ∀ r, r < P → (xs r).length ≥ (faces r).length * bs)
    (xl : List (List α)) (hxl : ∀ r, r < P → xl[r]? = some (xs r))
    (d : Nat) (hd : d < P) (plan : Plan) (hplan : plans[d]? = some plan)
    (buf : List α) (hy : buf.length = plan.recvIdx.length * bs)
    (arrival : List Block) (ha : arrival.Perm plan.recvBlocks) :
    ∃ data, simpleScatter bs plans xl d buf arrival = some data ∧ data.length = (xs d).length ∧
      (∀ (i : Nat) (f : Face), (faces d)[i]? = some f → f.owner = d →
        slice data (i * bs) bs = slice (xs d) (i * bs) bs) ∧
      (∀ (i : Nat) (f : Face), (faces d)[i]? = some f → f.owner ≠ d →
        ∀ (j : Nat) (g : Face), (faces f.owner)[j]? = some g → g.gid = f.gid →
          slice data (i * bs) bs = slice (xs f.owner) (j * bs) bs) := by
  obtain ⟨h1, h2, h3⟩ := scatter_result bs P faces hc plans hplans xs
    (fun r hr i f hi _ => slice_block_bound (List.getElem?_eq_some_iff.1 hi).1 (hxs r hr)) xl hxl d hd plan hplan buf hy
    arrival ha
  have hcopy := copyBack bs (plan.recvIdx.flatMap (ownerBlock bs faces xs d)) (ownerBlock bs faces xs d)
    plan.recvIdx.zipIdx (xs d) (by
      intro p hp
      have hp' : plan.recvIdx[p.2]? = some p.1 := by
        have := List.mem_zipIdx_iff_getElem?.1 (show (p.1, p.2) ∈ plan.recvIdx.zipIdx from hp)
        simpa using this
      have hm := List.mem_of_getElem? hp'
      refine ⟨slice_flatMap _ _ bs p.2 p.1 h2 hp', h2 _ hm, ?_⟩
      obtain ⟨f, hf, _⟩ := (h3 p.1).1 hm
      have hlt : p.1 < (faces d).length := by
        apply Classical.byContradiction; intro h'
        rw [List.getElem?_eq_none (by omega)] at hf; simp at hf
      exact slice_block_bound hlt (hxs d hd))
  have hkeys : plan.recvIdx.zipIdx.map (fun p => p.1) = plan.recvIdx := by simp
  rw [hkeys] at hcopy
  refine ⟨_, ?_, hcopy.1, ?_, ?_⟩
  · simp only [simpleScatter, hxl d hd, hplan, h1, Option.bind_eq_bind, Option.bind_some]
    rfl
  · intro i f hi hf
    rw [hcopy.2 i, if_neg]
    intro hm
    obtain ⟨f', hf', hne⟩ := (h3 i).1 hm
    rw [hi] at hf'
    exact hne (Option.some.inj hf' ▸ hf)
  · intro i f hi hf j g hj hg
    rw [hcopy.2 i, if_pos ((h3 i).2 ⟨f, hi, hf⟩)]
    unfold ownerBlock
    rw [hi]
    simp only
    rw [← hg, localIndex_spec _ (hc.gids _ (hc.owner d hd f (List.mem_of_getElem? hi))) j g hj]

theorem strictSorted_ext : ∀ (a b : List Nat), a.Pairwise (· < ·) → b.Pairwise (· < ·) →
    (∀ x, x ∈ a ↔ x ∈ b) → a = b := by
  intro a
  induction a with
  | nil =>
    intro b _ _ h
    cases b with
    | nil => rfl
    | cons y b => exact absurd ((h y).2 (by simp)) (by simp)
  | cons x a ih =>
    intro b ha hb h
    cases b with
    | nil => exact absurd ((h x).1 (by simp)) (by simp)
    | cons y b =>
      rw [List.pairwise_cons] at ha hb
      have hxy : x = y := by
        have h1 := (h x).1 (by simp)
        have h2 := (h y).2 (by simp)
        rcases List.mem_cons.1 h1 with h1 | h1
        · exact h1
        · rcases List.mem_cons.1 h2 with h2 | h2
          · exact h2.symm
          · have := hb.1 x h1
            have := ha.1 y h2
            omega
      subst hxy
      congr 1
      apply ih b ha.2 hb.2
      intro z
      constructor
      · intro hz
        rcases List.mem_cons.1 ((h z).1 (by simp [hz])) with h' | h'
        · have := ha.1 z hz; omega
        · exact h'
      · intro hz
        rcases List.mem_cons.1 ((h z).2 (by simp [hz])) with h' | h'
        · have := hb.1 z hz; omega
        · exact h'

/-- C18: sufficient condition for consistency.  If on every rank the faces of each owner are listed by
increasing global id, and the owner's shared-rank list of a face names exactly the other ranks holding
it, then the faces are consistent. -/
theorem C18_consistent_of_sorted (P : Nat) (faces : Nat → List Face)
    (hown : ∀ r, r < P → ∀ f ∈ faces r, f.owner < P)
    (hsh : ∀ r, r < P → ∀ f ∈ faces r, f.shared.Nodup)
    (hgid : ∀ r, r < P → ((faces r).map (fun f => f.gid)).Nodup)
    (hsort : ∀ r o, r < P → ((faces r).filter (fun f => f.owner = o)).Pairwise (fun f g => f.gid < g.gid))
    (hex : ∀ o d, o < P → d < P → o ≠ d → ∀ gid,
      (∃ f ∈ faces o, f.gid = gid ∧ f.owner = o ∧ d ∈ f.shared) ↔
        (∃ f ∈ faces d, f.gid = gid ∧ f.owner = o)) :
    Consistent P faces := by
  refine ⟨hgid, hsh, hown, ?_⟩
  intro o d ho hd hne
  apply strictSorted_ext
  · rw [List.pairwise_map]
    have := hsort o o ho
    have h2 : (faces o).filter (fun f => decide (f.owner = o ∧ d ∈ f.shared)) =
        ((faces o).filter (fun f => decide (f.owner = o))).filter (fun f => decide (d ∈ f.shared)) := by
      rw [List.filter_filter]
      apply List.filter_congr
      intro f _
      by_cases h : f.owner = o <;> by_cases h' : d ∈ f.shared <;> simp [h, h']
    rw [h2]
    exact this.sublist List.filter_sublist
  · rw [List.pairwise_map]
    exact hsort d o hd
  · intro gid
    have := hex o d ho hd hne gid
    simp only [List.mem_map, List.mem_filter, decide_eq_true_eq]
    constructor
    · rintro ⟨f, ⟨h1, h2, h3⟩, h4⟩
      obtain ⟨g, g1, g2, g3⟩ := this.1 ⟨f, h1, h4, h2, h3⟩
      exact ⟨g, ⟨g1, g3⟩, g2⟩
    · rintro ⟨g, ⟨g1, g3⟩, g2⟩
      obtain ⟨f, h1, h4, h2, h3⟩ := this.2 ⟨g, g1, g2, g3⟩
      exact ⟨f, ⟨h1, h2, h3⟩, h4⟩

/-- Example: three ranks with mutual ghosts. -/
def exFaces : Nat → List Face
  | 0 => [⟨0, 0, [1]⟩, ⟨1, 0, [1, 2]⟩, ⟨3, 1, [0]⟩]
  | 1 => [⟨2, 1, []⟩, ⟨3, 1, [0]⟩, ⟨0, 0, []⟩, ⟨1, 0, []⟩, ⟨4, 2, []⟩]
  | 2 => [⟨4, 2, [1]⟩, ⟨1, 0, []⟩]
  | _ => []

/-- Example: plans of the three ranks. -/
def exPlans : List Plan :=
  [0, 1, 2].map (fun r => setup (planMaps r (exFaces r)).1 (planMaps r (exFaces r)).2)

/-- Non-vacuity: the example is consistent, its plans are plans, and the scatter on rank 1 gives the
values of the owners. -/
example : Consistent 3 exFaces ∧
    (∀ r, r < 3 → ∃ p, exPlans[r]? = some p ∧ IsPlan r (exFaces r) p) ∧
    scatter 1 exPlans [[10, 11, 0], [12, 13, 0, 0, 0], [14, 0]] 1 [0, 0, 0]
      [⟨2, 1, 2⟩, ⟨0, 2, 0⟩] = some [10, 11, 14] := by
  refine ⟨⟨by decide, by decide, by decide, ?_⟩, ?_, by decide⟩
  · have : ∀ o, o < 3 → ∀ d, d < 3 → o ≠ d →
        ((exFaces o).filter (fun f => f.owner = o ∧ d ∈ f.shared)).map (fun f => f.gid) =
        ((exFaces d).filter (fun f => f.owner = o)).map (fun f => f.gid) := by decide
    exact fun o d ho hd h => this o ho d hd h
  · intro r hr
    refine ⟨setup (planMaps r (exFaces r)).1 (planMaps r (exFaces r)).2, ?_, _, _,
      List.Perm.refl _, List.Perm.refl _, rfl⟩
    match r, hr with
    | 0, _ => rfl
    | 1, _ => rfl
    | 2, _ => rfl

end Tandem.ScatterPlan
