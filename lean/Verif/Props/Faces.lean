import Mathlib.Order.Nat
import Verif.Lemmas.Faces
import Verif.Spec.Faces
/-! # Property C22: global face numbering and sharing -/
namespace Tandem.Faces
open Tandem.CommPattern Tandem.LocalFaces Tandem.Spec

variable {σ : Type} [LinearOrder σ]

theorem mem_flat (dw : List (List σ)) (f : σ) : f ∈ dw.flatten ↔ ∃ el ∈ dw, f ∈ el := by
  simp [List.mem_flatten]

theorem flatMap_slice' {α β} (g : β → List α) (L : List β) (i : Nat) (x : β) (hi : L[i]? = some x)
    (cnt : List Nat) (hc : cnt = L.map (fun p => (g p).length)) :
    slice (L.flatMap g) (cnt.take i).sum (cnt.getD i 0) = g x := by
  subst hc
  induction L generalizing i with
  | nil => simp at hi
  | cons a L ih =>
    cases i with
    | zero =>
      have : a = x := by simpa using hi
      subst this; simp [slice]
    | succ i =>
      have := ih i (by simpa using hi)
      simp only [List.map_cons, List.take_succ_cons, List.sum_cons, List.flatMap_cons,
        List.getD_cons_succ] at *
      rw [← this]
      unfold slice
      rw [← List.drop_drop, List.drop_left]

/-- The global number of a face. -/
def gidFor (P : Nat) (h : σ → Nat) (occ : Nat → List σ) : Option (σ → Nat) → σ → Nat
  | some g => g
  | none => (allFaces P h occ).idxOf

/-- Everything but the numbering: for any rank, and any permutation `std::sort` may return, `getFaces`
succeeds and returns a correct face table. -/
theorem getFaces_table {δ : Type} (P : Nat) (h : σ → Nat) (dw : Nat → List (List σ)) (own : Nat → Nat)
    (hh : ∀ f, InMesh P dw f → h f < P) (vno : Option (σ → Nat)) (val : Option (Nat → σ → δ))
    (r : Nat) (hr : r < P) (perm : List Nat)
    (hp : IsPermutation perm (requestBuf P h (dw r).flatten).length)
    (hs : (perm.map (sortKey (dw r) (unsorted P h dw own vno val r))).Pairwise (· ≤ ·)) :
    ∃ lf, getFaces P h dw own vno val perm r = some lf ∧
      IsFaceTable P dw (own r) h
        (gidFor P h (fun s => (dw s).flatten) vno) val r lf := by
  set occ : Nat → List σ := fun s => (dw s).flatten with hocc
  have hh' : ∀ s, s < P → ∀ f ∈ occ s, h f < P := fun s hs f hf =>
    hh f ⟨s, hs, (mem_flat (dw s) f).1 hf⟩
  set G : σ → Nat := gidFor P h occ vno with hG
  set n := (requestBuf P h (occ r)).length with hn
  set lf0 := unsorted P h dw own vno val r with hlf0
  have hfaces0 : lf0.faces = requestBuf P h (occ r) := rfl
  have howner0 : lf0.owner = (requestBuf P h (occ r)).map h := ownerBuf_eq P h (occ r)
  have hgids0 : lf0.gids = (requestBuf P h (occ r)).map G := by
    show contiguousGIDs P h occ vno r = _
    unfold contiguousGIDs
    rw [reply P h occ (answer P h occ vno) r hr]
    apply List.map_congr_left
    intro f hf
    rw [mem_requestBuf P h _ (hh' r hr)] at hf
    cases vno with
    | some g => rfl
    | none =>
      have hlt := hh' r hr f hf
      exact cGID_eq P h occ f (((ownedSet_spec P h occ _ hlt).2 f).2 ⟨rfl, r, hr, hf⟩) hlt
  have hcounts0 : lf0.sharedCounts = (requestBuf P h (occ r)).map
      (fun f => ((holders P occ f).filter (fun s => s ≠ r)).length) := by
    show sharedRecvCount P (fun _ => List.range P) (counts h occ) (requested P h occ) r = _
    rw [facesRecvCount_eq P h occ r hr]
    apply List.map_congr_left
    intro f hf
    rw [mem_requestBuf P h _ (hh' r hr)] at hf
    exact (holders_erase P occ r hr f hf).symm
  have hshared0 : lf0.sharedRanks = (requestBuf P h (occ r)).flatMap
      (fun f => (holders P occ f).filter (fun s => s ≠ r)) := facesRanks_eq P h occ r hr
  have hdata0 : lf0.data = val.map (fun v => (requestBuf P h (occ r)).map (fun f => v (h f) f)) := by
    show val.map _ = _
    cases val with
    | none => rfl
    | some v => simp only [Option.map_some]; rw [reply P h occ v r hr]
  have hcoh : Coherent lf0 n := by
    refine ⟨rfl, by rw [howner0]; simp [hn], by rw [hgids0]; simp [hn], by rw [hcounts0]; simp [hn], ?_, ?_⟩
    · rw [hshared0, hcounts0, List.length_flatMap]
    · intro d hd
      rw [hdata0] at hd
      cases val with
      | none => cases hd
      | some v => rw [← Option.some.inj hd]; simp [hn]
  obtain ⟨lf, e1, hcl, e2, e3, e4, -⟩ := C24_permute lf0 n hcoh perm hp n (Nat.le_refl _)
  have hget : getFaces P h dw own vno val perm r = some lf := e1
  have hnd0 : lf0.faces.Nodup := requestBuf_nodup P h (occ r)
  have hmem0 : ∀ f, f ∈ lf0.faces ↔ f ∈ occ r := mem_requestBuf P h (occ r) (hh' r hr)
  have hpl : perm.length = n := hp.1
  have hflen : lf.faces.length = n := hcl.faces
  -- position of a face
  have hpos : ∀ (i : Nat) (f : σ), lf.faces[i]? = some f → ∃ hi : i < perm.length, lf0.faces[perm[i]]? = some f := by
    intro i f hf
    have hi : i < perm.length := by
      have := (List.getElem?_eq_some_iff.1 hf).1; omega
    exact ⟨hi, by rw [← (e3 i hi).1]; exact hf⟩
  have hnd : lf.faces.Nodup := by
    rw [List.nodup_iff_injective_getElem]
    intro ⟨i, hi⟩ ⟨j, hj⟩ hij
    simp only [Fin.mk.injEq]
    have hij' : lf.faces[i] = lf.faces[j] := hij
    have h1 : lf.faces[i]? = some lf.faces[i] := List.getElem?_eq_getElem hi
    have h2 : lf.faces[j]? = some lf.faces[i] := by rw [hij']; exact List.getElem?_eq_getElem hj
    obtain ⟨hi', a⟩ := hpos i _ h1
    obtain ⟨hj', b⟩ := hpos j _ h2
    obtain ⟨ai, ae⟩ := List.getElem?_eq_some_iff.1 a
    obtain ⟨bi, be⟩ := List.getElem?_eq_some_iff.1 b
    have e : perm[i] = perm[j] := (List.Nodup.getElem_inj_iff hnd0).1 (ae.trans be.symm)
    exact (List.Nodup.getElem_inj_iff hp.2.2).1 e
  have hmem : ∀ f, f ∈ lf.faces ↔ f ∈ occ r := by
    intro f
    rw [← hmem0]
    constructor
    · intro hf
      obtain ⟨i, hi⟩ := List.mem_iff_getElem?.1 hf
      obtain ⟨_, a⟩ := hpos i f hi
      exact List.mem_iff_getElem?.2 ⟨_, a⟩
    · intro hf
      obtain ⟨j, hj⟩ := List.mem_iff_getElem?.1 hf
      have hjn : j < n := (List.getElem?_eq_some_iff.1 hj).1
      have hjm : j ∈ perm := by
        have hperm : perm.Perm (List.range n) := by
          rw [List.perm_ext_iff_of_nodup hp.2.2 List.nodup_range]
          have hsub : perm ⊆ List.range n := fun x hx => by simpa using hp.2.1 x hx
          have := (hp.2.2.subperm hsub).perm_of_length_le (by simp [hpl])
          intro a; exact this.mem_iff
        exact hperm.mem_iff.2 (by simpa using hjn)
      obtain ⟨i, hi, e⟩ := List.mem_iff_getElem.1 hjm
      have := (e3 i hi).1
      rw [e, hj] at this
      exact List.mem_iff_getElem?.2 ⟨i, this⟩
  -- order of first appearance
  obtain ⟨o1, o2, o3, -⟩ := orderFold (occ r) [] [] (by simp) (by simp) (by simp)
  rw [List.nil_append] at o2 o3
  set order := (occ r).foldl orderStep [] with horder
  have hkey : ∀ (i : Nat) (f : σ), lf0.faces[i]? = some f → sortKey (dw r) lf0 i = order.idxOf f := by
    intro i f hf
    unfold sortKey
    rw [hf]
    simp only
    rw [scan_fst]
  have hperm : lf.faces.Perm order := by
    rw [List.perm_ext_iff_of_nodup hnd o1]
    intro f; rw [hmem, o2]
  have hsorted : lf.faces.Pairwise (fun a b => order.idxOf a ≤ order.idxOf b) := by
    rw [List.pairwise_iff_getElem]
    intro i j hi hj hij
    obtain ⟨hi', a⟩ := hpos i _ (List.getElem?_eq_getElem hi)
    obtain ⟨hj', b⟩ := hpos j _ (List.getElem?_eq_getElem hj)
    rw [← hkey _ _ a, ← hkey _ _ b]
    rw [List.pairwise_map, List.pairwise_iff_getElem] at hs
    exact hs i j hi' hj' hij
  have hoidx : order.Pairwise (fun a b => order.idxOf a ≤ order.idxOf b) := by
    rw [List.pairwise_iff_getElem]
    intro i j hi hj hij
    rw [List.Nodup.idxOf_getElem o1, List.Nodup.idxOf_getElem o1]
    omega
  have heq : lf.faces = order := by
    refine List.Perm.eq_of_pairwise ?_ hsorted hoidx hperm
    intro a b ha hb h1 h2
    have e : order.idxOf a = order.idxOf b := by omega
    have hb' : order.idxOf b < order.length := List.idxOf_lt_length_of_mem hb
    have ha' : order.idxOf a < order.length := by omega
    have x1 := List.getElem_idxOf ha'
    have x2 := List.getElem_idxOf hb'
    rw [← x1, ← x2]
    congr 1
  have hls : lf0.localSize = (((dw r).take (own r)).flatten.foldl orderStep []).length := by
    show (scan (own r) 0 (dw r) ([], 0)).2 = _
    rw [scan_snd]
    split
    · rename_i hz
      rcases hz with hz | hz
      · have : own r = 0 := by omega
        simp [this]
      · simp [hz]
    · simp
  obtain ⟨q1, q2, -, -⟩ := orderFold ((dw r).take (own r)).flatten [] [] (by simp) (by simp) (by simp)
  rw [List.nil_append] at q2
  have hpre : (((dw r).take (own r)).flatten.foldl orderStep []) <+: order := by
    have hsplit : occ r = ((dw r).take (own r)).flatten ++ ((dw r).drop (own r)).flatten := by
      rw [← List.flatten_append, List.take_append_drop]
    rw [horder, hsplit, List.foldl_append]
    refine (orderFold ((dw r).drop (own r)).flatten _ (((dw r).take (own r)).flatten) q1 q2 ?_).2.2.2
    have := (orderFold ((dw r).take (own r)).flatten [] [] (by simp) (by simp) (by simp)).2.2.1
    simpa using this
  refine ⟨lf, hget, hnd, ?_, by rw [heq]; exact o3, ?_, ?_, ?_, ?_, ?_, ?_, ?_⟩
  · intro f; rw [hmem]; exact mem_flat (dw r) f
  · -- interior
    intro i f hf
    rw [e2, ← mem_flat]
    rw [hls, ← q2]
    obtain ⟨t, ht⟩ := hpre
    set A := ((dw r).take (own r)).flatten.foldl orderStep [] with hA
    rw [heq, ← ht] at hf
    constructor
    · intro hi
      rw [List.getElem?_append_left hi] at hf
      exact List.mem_iff_getElem?.2 ⟨i, hf⟩
    · intro hmemA
      obtain ⟨j, hj⟩ := List.mem_iff_getElem?.1 hmemA
      have hjl := (List.getElem?_eq_some_iff.1 hj).1
      have hj' : (A ++ t)[j]? = some f := by rw [List.getElem?_append_left hjl]; exact hj
      obtain ⟨x1, y1⟩ := List.getElem?_eq_some_iff.1 hf
      obtain ⟨x2, y2⟩ := List.getElem?_eq_some_iff.1 hj'
      have hnd2 : (A ++ t).Nodup := by rw [ht]; exact o1
      have : i = j := (List.Nodup.getElem_inj_iff hnd2).1 (y1.trans y2.symm)
      omega
  · intro i f hf
    obtain ⟨hi, a⟩ := hpos i f hf
    rw [(e3 i hi).2.1, howner0, List.getElem?_map, ← hfaces0, a]; rfl
  · intro i f hf
    obtain ⟨hi, a⟩ := hpos i f hf
    rw [(e3 i hi).2.2.1, hgids0, List.getElem?_map, ← hfaces0, a]; rfl
  · intro i f hf s
    obtain ⟨hi, a⟩ := hpos i f hf
    rw [(e3 i hi).2.2.2.1]
    unfold getSharedRanks
    rw [hshared0, flatMap_slice' _ _ perm[i] f (by rw [← hfaces0]; exact a) _ hcounts0]
    simp only [holders, List.mem_filter, List.mem_range, decide_eq_true_eq]
    rw [show f ∈ occ s ↔ ∃ el ∈ dw s, f ∈ el from mem_flat (dw s) f]
    tauto
  · intro i hi
    obtain ⟨hi', a⟩ := hpos i _ (List.getElem?_eq_getElem hi)
    rw [(e3 i hi').2.2.2.1]
    unfold getSharedRanks
    rw [hshared0, flatMap_slice' _ _ perm[i] _ (by rw [← hfaces0]; exact a) _ hcounts0]
    exact (List.pairwise_lt_range.filter _).filter _
  · intro v hv
    subst hv
    obtain ⟨d', hd'⟩ : ∃ d', lf.data = some d' := by
      have h0 : perm.length = 0 ∨ 0 < perm.length := by omega
      unfold getFaces permute at hget
      cases hdl : lf.data with
      | some d' => exact ⟨d', rfl⟩
      | none =>
        exfalso
        simp only [bind, Option.bind_eq_some_iff] at hget
        obtain ⟨_, _, _, _, _, _, d, hd, hfin⟩ := hget
        have hdat : lf0.data = some ((requestBuf P h (occ r)).map (fun f => v (h f) f)) := hdata0
        rw [show (unsorted P h dw own vno (some v) r).data = _ from hdat] at hd
        unfold permuteData at hd
        simp only [Option.map_eq_some_iff] at hd
        obtain ⟨d2, _, hd2⟩ := hd
        have : lf.data = d := by
          have := Option.some.inj hfin
          rw [← this]
        rw [this, ← hd2] at hdl
        cases hdl
    refine ⟨d', hd', ?_⟩
    intro i f hf
    obtain ⟨hi, a⟩ := hpos i f hf
    obtain ⟨d'', x, y⟩ := (e3 i hi).2.2.2.2 _ hdata0
    rw [hd'] at x
    rw [Option.some.inj x, y, List.getElem?_map, ← hfaces0, a]; rfl
  · rw [e2, hls, heq]
    exact hpre.length_le

/-- The permutation `std::sort` computes on rank `r`: any permutation of the positions that orders them
by number of first appearance. -/
def SortedBy {δ : Type} (P : Nat) (h : σ → Nat) (dw : Nat → List (List σ)) (own : Nat → Nat)
    (vno : Option (σ → Nat)) (val : Option (Nat → σ → δ)) (r : Nat) (perm : List Nat) : Prop :=
  IsPermutation perm (unsorted P h dw own vno val r).faces.length ∧
  (perm.map (sortKey (dw r) (unsorted P h dw own vno val r))).Pairwise (· ≤ ·)

/-- C22 (edges, facets, elements): there is one numbering of the faces of the whole mesh, injective and
onto `0 .. F-1`, such that on every rank `getFaces` returns a correct face table with these numbers;
owners agree on all ranks. -/
theorem C22_faces {δ : Type} (P : Nat) (h : σ → Nat) (dw : Nat → List (List σ)) (own : Nat → Nat)
    (hh : ∀ f, InMesh P dw f → h f < P) (val : Option (Nat → σ → δ)) :
    ∃ (gid : σ → Nat) (F : Nat),
      (∀ f g, InMesh P dw f → InMesh P dw g → gid f = gid g → f = g) ∧
      (∀ n, n < F ↔ ∃ f, InMesh P dw f ∧ gid f = n) ∧
      ∀ r, r < P → ∀ perm, SortedBy P h dw own none val r perm →
        ∃ lf, getFaces P h dw own none val perm r = some lf ∧
          IsFaceTable P dw (own r) h gid val r lf := by
  set all := allFaces P h (fun s => (dw s).flatten) with hall
  have hh' : ∀ s, s < P → ∀ f ∈ (dw s).flatten, h f < P := fun s hs f hf =>
    hh f ⟨s, hs, (mem_flat (dw s) f).1 hf⟩
  have hmem : ∀ f, f ∈ all ↔ InMesh P dw f := by
    intro f
    rw [hall, mem_allFaces P h _ hh']
    simp only [mem_flat, InMesh]
  refine ⟨all.idxOf, all.length, ?_, ?_, ?_⟩
  · intro f g hf hg e
    have h1 := List.getElem_idxOf (List.idxOf_lt_length_of_mem ((hmem f).2 hf))
    have h2 := List.getElem_idxOf (List.idxOf_lt_length_of_mem ((hmem g).2 hg))
    rw [← h1, ← h2]; congr 1
  · intro n
    constructor
    · intro hn
      exact ⟨all[n], (hmem _).1 (List.getElem_mem hn),
        List.Nodup.idxOf_getElem (allFaces_nodup P h _) n hn⟩
    · rintro ⟨f, hf, rfl⟩
      exact List.idxOf_lt_length_of_mem ((hmem f).2 hf)
  · intro r hr perm hp
    exact getFaces_table P h dw own hh none val r hr perm hp.1 hp.2

/-- C22 (vertices): the global number of a vertex is the number it had in the input mesh, on every
rank. -/
theorem C22_vertices {δ : Type} (P : Nat) (h : σ → Nat) (dw : Nat → List (List σ)) (own : Nat → Nat)
    (hh : ∀ f, InMesh P dw f → h f < P) (val : Option (Nat → σ → δ)) (number : σ → Nat)
    (r : Nat) (hr : r < P) (perm : List Nat) (hp : SortedBy P h dw own (some number) val r perm) :
    ∃ lf, getFaces P h dw own (some number) val perm r = some lf ∧
      IsFaceTable P dw (own r) h number val r lf :=
  getFaces_table P h dw own hh (some number) val r hr perm hp.1 hp.2

/-- The numbers of items the ranks announce to each other for the shared-rank lists agree, so the second
exchange is well defined. -/
theorem C22_shared_counts_match (P : Nat) (h : σ → Nat) (occ : Nat → List σ) (r p : Nat) (hr : r < P)
    (hp : p < P) :
    sharedRecvcounts P (fun _ => List.range P) (counts h occ) (requested P h occ) r p =
      sharedSendcounts P (fun _ => List.range P) (counts h occ) (requested P h occ) p r := by
  rw [sharedRecvcounts_eq P (fun _ => List.range P) (fun _ _ => List.Perm.refl _)
    (fun s d => required h d (occ s)) (fun s _ d _ => required_nodup h d _) (counts h occ)
    (fun s _ d _ => rfl) (requested P h occ) (fun r hr => requested_eq P h occ r hr) r p hr hp,
    sharedSendcounts_eq P (fun _ => List.range P) (fun _ _ => List.Perm.refl _)
    (fun s d => required h d (occ s)) (fun s _ d _ => required_nodup h d _) (counts h occ)
    (fun s _ d _ => rfl) (requested P h occ) (fun r hr => requested_eq P h occ r hr) p r hp hr]

/-- Sharing is symmetric: if rank `s` appears among the ranks sharing face `f` on rank `r`, then `f` is
in the table of `s` and `r` appears there. -/
theorem C22_sharing_symmetric {δ : Type} [DecidableEq σ] {P : Nat} {dw : Nat → List (List σ)}
    {own own' : Nat} {owner gid : σ → Nat} {val : Option (Nat → σ → δ)} {r s : Nat}
    {lr ls : LocalFaces σ δ} (hr : r < P)
    (tr : IsFaceTable P dw own owner gid val r lr) (ts : IsFaceTable P dw own' owner gid val s ls)
    (i : Nat) (f : σ) (hf : lr.faces[i]? = some f) (hs : s ∈ getSharedRanks lr i) :
    ∃ j, ls.faces[j]? = some f ∧ r ∈ getSharedRanks ls j ∧ ls.gids[j]? = lr.gids[i]? ∧
      ls.owner[j]? = lr.owner[i]? := by
  obtain ⟨_, hne, hold⟩ := (tr.sharedMem i f hf s).1 hs
  obtain ⟨j, hj⟩ := List.mem_iff_getElem?.1 ((ts.exactly f).2 hold)
  refine ⟨j, hj, (ts.sharedMem j f hj r).2 ⟨hr, fun e => hne e.symm, ?_⟩, ?_, ?_⟩
  · exact (tr.exactly f).1 (List.mem_iff_getElem?.2 ⟨i, hf⟩)
  · rw [ts.gidOf j f hj, tr.gidOf i f hf]
  · rw [ts.ownerOf j f hj, tr.ownerOf i f hf]

/-- Two triangles on two ranks sharing an edge; the edge `ab` is coded as `10 a + b`. -/
def twoTriangles : Nat → List (List Nat)
  | 0 => [[1, 2, 12]]
  | _ => [[12, 13, 23]]

example : ∀ f, InMesh 2 twoTriangles f → f % 2 < 2 := fun f _ => Nat.mod_lt f (by decide)

example : SortedBy (δ := Nat) 2 (· % 2) twoTriangles (fun _ => 1) none (some (fun p f => 100 * p + f)) 0
    [2, 0, 1] := by
  refine ⟨⟨?_, ?_, ?_⟩, ?_⟩ <;> decide +kernel

example : getFaces (δ := Nat) 2 (· % 2) twoTriangles (fun _ => 1) none (some (fun p f => 100 * p + f))
    [2, 0, 1] 0 =
    some ⟨[1, 2, 12], [1, 0, 0], [2, 0, 1], 3, [1], [0, 0, 1], some [101, 2, 12], none⟩ := by
  decide +kernel

/-- The owner of a face is its rendezvous rank; it need not hold the face: edge 01 of the first triangle
belongs to rank 1, which does not hold it. -/
theorem C22_owner_may_not_hold : ∃ lf,
    getFaces (δ := Nat) 2 (· % 2) twoTriangles (fun _ => 1) none none [2, 0, 1] 0 = some lf ∧
    lf.faces[0]? = some 1 ∧ lf.owner[0]? = some 1 ∧ ¬ ∃ el ∈ twoTriangles 1, 1 ∈ el := by
  refine ⟨_, rfl, ?_, ?_, ?_⟩ <;> decide +kernel

end Tandem.Faces
