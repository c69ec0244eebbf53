import Verif.Lemmas.CommPattern
/-! # Property C17: all-to-all exchange -/
namespace Tandem.CommPattern

/-- The counts all ranks announce: rank `s` sends `(msgs s d).length` items to rank `d`. -/
def countsOf {α} (P : Nat) (msgs : Nat → Nat → List α) : List (List Nat) :=
  (List.range P).map (fun s => (List.range P).map (fun d => (msgs s d).length))

theorem countsOf_get {α} (P : Nat) (msgs : Nat → Nat → List α) (r : Nat) (hr : r < P) :
    (countsOf P msgs)[r]? = some ((List.range P).map (fun d => (msgs r d).length)) := by
  simp [countsOf, hr]

theorem countsOf_recv {α} (P : Nat) (msgs : Nat → Nat → List α) (r : Nat) (hr : r < P) :
    (countsOf P msgs).map (fun sc => sc.getD r 0) = (List.range P).map (fun s => (msgs s r).length) := by
  simp [countsOf, hr, Function.comp_def]

theorem make_good {α} (P : Nat) (msgs : Nat → Nat → List α) (r : Nat) (hr : r < P) :
    ∃ a, make (countsOf P msgs) r = some a ∧
      a.sendcounts = (List.range P).map (fun d => (msgs r d).length) ∧
      a.recvcounts = (List.range P).map (fun s => (msgs s r).length) ∧
      Good P a (fun d => (msgs r d).length) (fun s => (msgs s r).length) id := by
  obtain ⟨d1, h1, h2, h3⟩ := makeDispls_ok ((List.range P).map (fun d => (msgs r d).length)) id
    (by simp; omega) ⟨fun i h => h, fun i j _ _ h => h⟩
  obtain ⟨d2, h4, h5, h6⟩ := makeDispls_ok ((List.range P).map (fun s => (msgs s r).length)) id
    (by simp; omega) ⟨fun i h => h, fun i j _ _ h => h⟩
  simp only [List.length_map, List.length_range] at h3 h6
  refine ⟨⟨_, _, d1, d2⟩, ?_, rfl, rfl, ?_⟩
  · simp only [make, countsOf_get P msgs r hr, countsOf_recv P msgs r hr, h1, h4,
      Option.bind_eq_bind, Option.bind_some]
    rfl
  · exact ⟨by simp, by simp, fun d hd => by simp [hd], fun s hs => by simp [hs], h3, h6⟩

theorem isPerm_of_perm (π : List Nat) (P : Nat) (h : π.Perm (List.range P)) :
    IsPerm (fun p => π.getD p 0) P ∧ π.length = P := by
  have hl : π.length = P := by simpa using h.length_eq
  have hnd : π.Nodup := h.nodup_iff.2 List.nodup_range
  refine ⟨⟨?_, ?_⟩, hl⟩
  · intro i hi
    simp only [List.getD_eq_getElem?_getD, List.getElem?_eq_getElem (by omega : i < π.length),
      Option.getD_some]
    have := h.mem_iff.1 (List.getElem_mem (by omega : i < π.length))
    simpa using this
  · intro i j hi hj he
    simp only [List.getD_eq_getElem?_getD, List.getElem?_eq_getElem (by omega : i < π.length),
      List.getElem?_eq_getElem (by omega : j < π.length), Option.getD_some] at he
    exact (List.getElem_inj hnd).1 he

theorem make_perm_good {α} (P : Nat) (msgs : Nat → Nat → List α) (r : Nat) (hr : r < P)
    (π : List Nat) (hπ : π.Perm (List.range P)) :
    ∃ a, (make (countsOf P msgs) r).bind (setRankPermutation π) = some a ∧
      Good P a (fun d => (msgs r d).length) (fun s => (msgs s r).length) (fun p => π.getD p 0) := by
  obtain ⟨a, h1, hs, hrc, hg⟩ := make_good P msgs r hr
  obtain ⟨hp, _⟩ := isPerm_of_perm π P hπ
  have hP : 0 < P := by omega
  obtain ⟨d1, h3, h4, h5⟩ := makeDispls_ok a.sendcounts (fun p => π.getD p 0)
    (by rw [hg.slen]; exact hP) (by rw [hg.slen]; exact hp)
  obtain ⟨d2, h6, h7, h8⟩ := makeDispls_ok a.recvcounts (fun p => π.getD p 0)
    (by rw [hg.rlen]; exact hP) (by rw [hg.rlen]; exact hp)
  rw [hg.slen] at h5
  rw [hg.rlen] at h8
  refine ⟨{ a with sdispls := d1, rdispls := d2 }, ?_, ?_⟩
  · rw [h1]
    simp only [Option.bind_some, setRankPermutation, h3, h6, Option.bind_eq_bind]
    rfl
  · exact ⟨hg.slen, hg.rlen, hg.scnt, hg.rcnt, h5, h8⟩

theorem arranged_eq_flatMap {α} (f : Nat → List α) (π : List Nat) :
    arranged f (fun p => π.getD p 0) π.length = π.flatMap f := by
  unfold arranged
  have : (List.range π.length).map (fun p => π.getD p 0) = π := by
    apply List.ext_getElem
    · simp
    · intro i h1 h2; simp [List.getElem?_eq_getElem h2]
  conv => rhs; rw [← this]
  rw [List.flatMap_map]

/-- C17 (delivery): every rank lays out its messages by destination in the order of its rank
permutation `π s` and builds the exchange from the message lengths.  Then every rank receives, in the
order of its own permutation, exactly the messages addressed to it, whatever the arrival order. -/
theorem C17_exchange {α} (zero : α) (P : Nat) (msgs : Nat → Nat → List α)
    (π : Nat → List Nat) (hπ : ∀ r, r < P → (π r).Perm (List.range P))
    (as : List A2A) (hlen : as.length = P)
    (has : ∀ r, r < P → as[r]? = (make (countsOf P msgs) r).bind (setRankPermutation (π r)))
    (sends : List (List α)) (hsend : ∀ s, s < P → sends[s]? = some ((π s).flatMap (msgs s)))
    (r : Nat) (hr : r < P) (arrival : List Nat) (ha : arrival.Perm (List.range P)) :
    exchange zero as sends r arrival = (π r).flatMap (fun s => msgs s r) := by
  have hl : ∀ r, r < P → (π r).length = P := fun r h => (isPerm_of_perm _ _ (hπ r h)).2
  rw [exchange_core zero P msgs (fun r p => (π r).getD p 0)
    (fun r h => (isPerm_of_perm _ _ (hπ r h)).1) as hlen ?_ sends ?_ r hr arrival ha]
  · rw [← arranged_eq_flatMap, hl r hr]
  · intro r' h'
    obtain ⟨a, h1, h2⟩ := make_perm_good P msgs r' (by omega) (π r') (hπ r' (by omega))
    have := has r' (by omega)
    rw [h1, List.getElem?_eq_getElem h'] at this
    rw [Option.some.inj this]
    exact h2
  · intro s hs
    rw [hsend s hs, ← arranged_eq_flatMap, hl s hs]

/-- C17 (reply): if every rank then answers each received item (rank `d` answers `x` by `f d x`), keeps
the answers in the order received, and the exchange is repeated after `swap()`, every rank gets the
answers to its own requests in the order in which it sent them. -/
theorem C17_reply {α β} (zero : α) (zero' : β) (f : Nat → α → β) (P : Nat)
    (msgs : Nat → Nat → List α)
    (π : Nat → List Nat) (hπ : ∀ r, r < P → (π r).Perm (List.range P))
    (as : List A2A) (hlen : as.length = P)
    (has : ∀ r, r < P → as[r]? = (make (countsOf P msgs) r).bind (setRankPermutation (π r)))
    (sends : List (List α)) (hsend : ∀ s, s < P → sends[s]? = some ((π s).flatMap (msgs s)))
    (arrival1 : Nat → List Nat) (ha1 : ∀ r, r < P → (arrival1 r).Perm (List.range P))
    (replies : List (List β))
    (hrep : ∀ d, d < P → replies[d]? = some ((exchange zero as sends d (arrival1 d)).map (f d)))
    (s : Nat) (hs : s < P) (arrival2 : List Nat) (ha2 : arrival2.Perm (List.range P)) :
    exchange zero' (as.map swap) replies s arrival2 =
      (π s).flatMap (fun d => (msgs s d).map (f d)) := by
  have hl : ∀ r, r < P → (π r).length = P := fun r h => (isPerm_of_perm _ _ (hπ r h)).2
  rw [exchange_core zero' P (fun d s => (msgs s d).map (f d)) (fun r p => (π r).getD p 0)
    (fun r h => (isPerm_of_perm _ _ (hπ r h)).1) (as.map swap) (by simpa using hlen) ?_ replies ?_
    s hs arrival2 ha2]
  · rw [← arranged_eq_flatMap, hl s hs]
  · intro r' h'
    have h'' : r' < as.length := by simpa using h'
    obtain ⟨a, h1, h2⟩ := make_perm_good P msgs r' (by omega) (π r') (hπ r' (by omega))
    have := has r' (by omega)
    rw [h1, List.getElem?_eq_getElem h''] at this
    have h3 : (as.map swap)[r'] = swap a := by
      rw [List.getElem_map, Option.some.inj this]
    rw [h3]
    have := h2.swap
    simpa using this
  · intro d hd
    rw [hrep d hd, C17_exchange zero P msgs π hπ as hlen has sends hsend d hd (arrival1 d) (ha1 d hd),
      ← arranged_eq_flatMap, hl d hd]
    congr 1
    unfold arranged
    rw [List.map_flatMap]

/-- C17 (default layout): without `setRankPermutation` the buffers are ordered by rank. -/
theorem C17_default_layout {α} (P : Nat) (msgs : Nat → Nat → List α) (r : Nat) (hr : r < P) :
    (make (countsOf P msgs) r).bind (setRankPermutation (List.range P)) = make (countsOf P msgs) r := by
  obtain ⟨a, h1, hs, hrc, hg⟩ := make_good P msgs r hr
  rw [h1]
  have hP : 0 < P := by omega
  have e1 : makeDispls a.sendcounts (fun p => (List.range P).getD p 0) = makeDispls a.sendcounts id := by
    apply makeDispls_congr
    · intro i hi; rw [hg.slen] at hi; simp [hi]
    · rw [hg.slen]; exact hP
  have e2 : makeDispls a.recvcounts (fun p => (List.range P).getD p 0) = makeDispls a.recvcounts id := by
    apply makeDispls_congr
    · intro i hi; rw [hg.rlen] at hi; simp [hi]
    · rw [hg.rlen]; exact hP
  have h1' := h1
  simp only [make, countsOf_get P msgs r hr, countsOf_recv P msgs r hr, Option.bind_eq_bind,
    Option.bind_some] at h1'
  rw [← hs, ← hrc] at h1'
  simp only [Option.bind_some, setRankPermutation, e1, e2, Option.bind_eq_bind]
  cases hd1 : makeDispls a.sendcounts id with
  | none => rw [hd1] at h1'; simp at h1'
  | some d1 =>
    rw [hd1] at h1'
    cases hd2 : makeDispls a.recvcounts id with
    | none => rw [hd2] at h1'; simp at h1'
    | some d2 =>
      rw [hd2] at h1'
      simp at h1'
      simp only [Option.bind_some]
      rw [← h1']; rfl

/-- Non-vacuity: two ranks, rank 1 lists itself first. -/
example : let msgs : Nat → Nat → List Nat := fun s d => List.replicate (s + 2 * d) (10 * s + d)
    let π : Nat → List Nat := fun r => if r = 0 then [0, 1] else [1, 0]
    let as := ((List.range 2).map (fun r => (make (countsOf 2 msgs) r).bind (setRankPermutation (π r)))).filterMap id
    as.length = 2 ∧ (∀ r, r < 2 → (π r).Perm (List.range 2)) ∧
    exchange 0 as [(π 0).flatMap (msgs 0), (π 1).flatMap (msgs 1)] 1 [0, 1] = [11, 11, 11, 1, 1] := by
  decide

end Tandem.CommPattern
