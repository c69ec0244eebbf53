import Verif.Model.CommPattern
import Mathlib.Data.List.Perm.Subperm
namespace Tandem.CommPattern

/-- sum of `counts ∘ perm` over the first `p` positions -/
def psum (counts : List Nat) (perm : Nat → Nat) (p : Nat) : Nat :=
  ((List.range p).map (fun q => counts.getD (perm q) 0)).sum

theorem psum_succ (counts : List Nat) (perm : Nat → Nat) (p : Nat) :
    psum counts perm (p + 1) = psum counts perm p + counts.getD (perm p) 0 := by
  simp [psum, List.range_succ, List.sum_append]

/-- `perm` is injective on `0..n-1` with values there. -/
structure IsPerm (perm : Nat → Nat) (n : Nat) : Prop where
  lt : ∀ i, i < n → perm i < n
  inj : ∀ i j, i < n → j < n → perm i = perm j → i = j

theorem displLoop_ok (counts : List Nat) (perm : Nat → Nat) (hp : IsPerm perm counts.length) :
    ∀ (todo p : Nat) (displs : List Nat), p + todo + 1 = counts.length → displs.length = counts.length →
      (∀ q, q ≤ p → displs[perm q]? = some (psum counts perm q)) →
      ∃ d, displLoop counts perm todo p displs = some d ∧ d.length = counts.length ∧
        ∀ q, q < counts.length → d[perm q]? = some (psum counts perm q) := by
  intro todo
  induction todo with
  | zero =>
    intro p displs h hl hq
    exact ⟨displs, rfl, hl, fun q hq' => hq q (by omega)⟩
  | succ t ih =>
    intro p displs h hl hq
    have h1 : perm p < counts.length := hp.lt p (by omega)
    have h2 : perm (p + 1) < displs.length := by rw [hl]; exact hp.lt (p + 1) (by omega)
    have hc : counts[perm p]? = some counts[perm p] := List.getElem?_eq_getElem h1
    obtain ⟨d, hd1, hd2, hd3⟩ := ih (p + 1)
      (displs.set (perm (p + 1)) (psum counts perm p + counts[perm p])) (by omega) (by simpa using hl) (by
        intro q hqp
        rcases Nat.lt_or_ge q (p + 1) with hlt | hge
        · rw [List.getElem?_set_ne]
          · exact hq q (by omega)
          · intro he
            have := hp.inj (p + 1) q (by omega) (by omega) he
            omega
        · have : q = p + 1 := by omega
          subst this
          rw [List.getElem?_set_self h2, psum_succ]
          congr 2
          rw [List.getD_eq_getElem?_getD, hc]; rfl)
    refine ⟨d, ?_, hd2, hd3⟩
    simp only [displLoop, hq p (Nat.le_refl _), hc, Option.bind_eq_bind, Option.bind_some, if_pos h2]
    exact hd1

theorem makeDispls_ok (counts : List Nat) (perm : Nat → Nat) (hn : 0 < counts.length)
    (hp : IsPerm perm counts.length) :
    ∃ d, makeDispls counts perm = some d ∧ d.length = counts.length ∧
      ∀ q, q < counts.length → d[perm q]? = some (psum counts perm q) := by
  have h0 : perm 0 < (List.replicate counts.length 0).length := by simpa using hp.lt 0 hn
  obtain ⟨d, h1, h2, h3⟩ := displLoop_ok counts perm hp (counts.length - 1) 0
    ((List.replicate counts.length 0).set (perm 0) 0) (by omega) (by simp) (by
      intro q hq
      have : q = 0 := by omega
      subst this
      rw [List.getElem?_set_self h0]; rfl)
  refine ⟨d, ?_, h2, h3⟩
  simp only [makeDispls, if_pos h0]
  exact h1

/-- Blocks laid out in the order `perm 0, perm 1, …`. -/
def arranged {α} (blocks : Nat → List α) (perm : Nat → Nat) (n : Nat) : List α :=
  (List.range n).flatMap (fun k => blocks (perm k))

theorem arranged_split {α} (blocks : Nat → List α) (perm : Nat → Nat) (n k : Nat) (hk : k < n) :
    ∃ post, arranged blocks perm n = arranged blocks perm k ++ (blocks (perm k) ++ post) := by
  obtain ⟨m, rfl⟩ : ∃ m, n = k + 1 + m := ⟨n - (k + 1), by omega⟩
  unfold arranged
  induction m with
  | zero => exact ⟨[], by simp [List.range_succ]⟩
  | succ m ih =>
    obtain ⟨post, hpost⟩ := ih (by omega)
    refine ⟨post ++ blocks (perm (k + 1 + m)), ?_⟩
    rw [show k + 1 + (m + 1) = (k + 1 + m) + 1 by omega, List.range_succ, List.flatMap_append, hpost]
    simp

theorem arranged_length {α} (blocks : Nat → List α) (perm : Nat → Nat) (counts : List Nat)
    (k : Nat) (h : ∀ i, i < k → (blocks (perm i)).length = counts.getD (perm i) 0) :
    (arranged blocks perm k).length = psum counts perm k := by
  induction k with
  | zero => rfl
  | succ k ih =>
    have := ih (fun i hi => h i (by omega))
    unfold arranged at *
    rw [List.range_succ, List.flatMap_append, List.length_append, this, psum_succ]
    rw [← h k (by omega)]; simp

theorem slice_arranged {α} (blocks : Nat → List α) (perm : Nat → Nat) (n k : Nat) (hk : k < n)
    (off len : Nat) (hoff : off = (arranged blocks perm k).length) (hlen : len = (blocks (perm k)).length) :
    slice (arranged blocks perm n) off len = blocks (perm k) := by
  obtain ⟨post, h⟩ := arranged_split blocks perm n k hk
  subst hoff hlen
  rw [h, slice, List.drop_left, List.take_left]

theorem slice_length {α} (T : List α) (off len : Nat) (h : off + len ≤ T.length) :
    (slice T off len).length = len := by
  simp [slice]; omega

theorem writeAt_length {α} (buf data : List α) (off : Nat) (h : off + data.length ≤ buf.length) :
    (writeAt buf off data).length = buf.length := by
  simp [writeAt]; omega

/-- Writing a slice of `T` makes the buffer agree with `T` on the slice and changes nothing else. -/
theorem writeAt_get {α} (buf T : List α) (off len : Nat) (hl : buf.length = T.length)
    (h : off + len ≤ T.length) (i : Nat) :
    (writeAt buf off (slice T off len))[i]? =
      if off ≤ i ∧ i < off + len then T[i]? else buf[i]? := by
  have hs := slice_length T off len h
  unfold writeAt
  rw [List.append_assoc, List.getElem?_append, List.length_take]
  by_cases h1 : i < off
  · rw [if_pos (by omega), if_neg (by omega), List.getElem?_take, if_pos h1]
  · rw [if_neg (by omega), List.getElem?_append, hs]
    by_cases h2 : i < off + len
    · rw [if_pos (by omega), if_pos (by omega)]
      unfold slice
      rw [List.getElem?_take, if_pos (by omega), List.getElem?_drop]
      congr 1; omega
    · rw [if_neg (by omega), if_neg (by omega), List.getElem?_drop]
      congr 1; omega

/-- Every position of the arranged buffer lies in some block. -/
theorem psum_cover (counts : List Nat) (perm : Nat → Nat) (n i : Nat) (hi : i < psum counts perm n) :
    ∃ k, k < n ∧ psum counts perm k ≤ i ∧ i < psum counts perm k + counts.getD (perm k) 0 := by
  induction n with
  | zero => simp [psum] at hi
  | succ n ih =>
    rcases Nat.lt_or_ge i (psum counts perm n) with h | h
    · obtain ⟨k, h1, h2⟩ := ih h; exact ⟨k, by omega, h2⟩
    · exact ⟨n, by omega, h, by rw [psum_succ] at hi; exact hi⟩

/-- Writing all slices of `T`, in any order, produces `T`. -/
theorem fold_writes {α β} (T : List α) (off len : β → Nat) (arrival : List β)
    (hb : ∀ s ∈ arrival, off s + len s ≤ T.length)
    (hcov : ∀ i, i < T.length → ∃ s ∈ arrival, off s ≤ i ∧ i < off s + len s)
    (buf : List α) (hl : buf.length = T.length) :
    arrival.foldl (fun b s => writeAt b (off s) (slice T (off s) (len s))) buf = T := by
  have key : ∀ (arr : List β) (b : List α), (∀ s ∈ arr, off s + len s ≤ T.length) →
      b.length = T.length →
      let res := arr.foldl (fun b s => writeAt b (off s) (slice T (off s) (len s))) b
      res.length = T.length ∧ ∀ i, (b[i]? = T[i]? ∨ ∃ s ∈ arr, off s ≤ i ∧ i < off s + len s) →
        res[i]? = T[i]? := by
    intro arr
    induction arr with
    | nil =>
      intro b _ hbl
      refine ⟨hbl, ?_⟩
      intro i h
      rcases h with h | ⟨s, hs, _⟩
      · exact h
      · simp at hs
    | cons s arr ih =>
      intro b hbs hbl
      have hs := hbs s (by simp)
      have hsl := slice_length T (off s) (len s) hs
      have hwl : (writeAt b (off s) (slice T (off s) (len s))).length = T.length := by
        rw [writeAt_length _ _ _ (by omega), hbl]
      obtain ⟨h1, h2⟩ := ih _ (fun s' hs' => hbs s' (by simp [hs'])) hwl
      refine ⟨h1, ?_⟩
      intro i h
      apply h2
      by_cases hin : off s ≤ i ∧ i < off s + len s
      · left; rw [writeAt_get b T _ _ hbl hs, if_pos hin]
      · rcases h with h | ⟨s', hs', h'⟩
        · left; rw [writeAt_get b T _ _ hbl hs, if_neg hin, h]
        · rcases List.mem_cons.1 hs' with rfl | hm
          · exact absurd h' hin
          · right; exact ⟨s', hm, h'⟩
  obtain ⟨h1, h2⟩ := key arrival buf hb hl
  apply List.ext_getElem?
  intro i
  rcases Nat.lt_or_ge i T.length with h | h
  · exact h2 i (Or.inr (hcov i h))
  · rw [List.getElem?_eq_none h, List.getElem?_eq_none (by omega)]

/-- The object describes counts `sc`, `rc` of a communication among `P` ranks with buffers laid out in
the order `perm`. -/
structure Good (P : Nat) (a : A2A) (sc rc : Nat → Nat) (perm : Nat → Nat) : Prop where
  slen : a.sendcounts.length = P
  rlen : a.recvcounts.length = P
  scnt : ∀ d, d < P → a.sendcounts[d]? = some (sc d)
  rcnt : ∀ s, s < P → a.recvcounts[s]? = some (rc s)
  sd : ∀ q, q < P → a.sdispls[perm q]? = some (psum a.sendcounts perm q)
  rd : ∀ q, q < P → a.rdispls[perm q]? = some (psum a.recvcounts perm q)

theorem Good.swap {P a sc rc perm} (h : Good P a sc rc perm) : Good P (swap a) rc sc perm :=
  ⟨h.rlen, h.slen, h.rcnt, h.scnt, h.rd, h.sd⟩

theorem isPerm_surj {perm : Nat → Nat} {n : Nat} (h : IsPerm perm n) (m : Nat) (hm : m < n) :
    ∃ k, k < n ∧ perm k = m := by
  have hnd : ((List.range n).map perm).Nodup := by
    rw [List.nodup_iff_pairwise_ne, List.pairwise_map, List.pairwise_iff_getElem]
    intro i j hi hj hij he
    simp at hi hj he
    have := h.inj i j hi hj he
    omega
  have hsub : ∀ x ∈ (List.range n).map perm, x ∈ List.range n := by
    intro x hx
    simp at hx ⊢
    obtain ⟨k, hk, rfl⟩ := hx
    exact h.lt k hk
  have hperm : ((List.range n).map perm).Perm (List.range n) := by
    apply List.Subperm.perm_of_length_le
    · exact List.subperm_of_subset hnd hsub
    · simp
  have : m ∈ (List.range n).map perm := hperm.mem_iff.2 (by simpa using hm)
  simpa using this

theorem sum_eq_psum (counts : List Nat) (perm : Nat → Nat) (h : IsPerm perm counts.length) :
    counts.sum = psum counts perm counts.length := by
  have hnd : ((List.range counts.length).map perm).Nodup := by
    rw [List.nodup_iff_pairwise_ne, List.pairwise_map, List.pairwise_iff_getElem]
    intro i j hi hj hij he
    simp at hi hj he
    have := h.inj i j hi hj he
    omega
  have hperm : ((List.range counts.length).map perm).Perm (List.range counts.length) := by
    apply List.Subperm.perm_of_length_le
    · refine List.subperm_of_subset hnd ?_
      intro x hx
      simp at hx ⊢
      obtain ⟨k, hk, rfl⟩ := hx
      exact h.lt k hk
    · simp
  have h1 : (((List.range counts.length).map perm).map (fun q => counts.getD q 0)).Perm
      ((List.range counts.length).map (fun q => counts.getD q 0)) := hperm.map _
  have h2 : (List.range counts.length).map (fun q => counts.getD q 0) = counts := by
    apply List.ext_getElem
    · simp
    · intro i h1 h2
      simp [List.getElem?_eq_getElem h2]
  have h3 := h1.sum_nat
  rw [h2] at h3
  rw [← h3, psum, List.map_map]
  rfl

theorem psum_mono (counts : List Nat) (perm : Nat → Nat) (k n : Nat) (h : k ≤ n) :
    psum counts perm k ≤ psum counts perm n := by
  induction n with
  | zero => have : k = 0 := by omega
            subst this; exact Nat.le_refl _
  | succ n ih =>
    rcases Nat.lt_or_ge k (n + 1) with hk | hk
    · rw [psum_succ]; have := ih (by omega); omega
    · have : k = n + 1 := by omega
      subst this; exact Nat.le_refl _

/-- The exchange delivers every message. -/
theorem exchange_core {α} (zero : α) (P : Nat) (msgs : Nat → Nat → List α)
    (perm : Nat → Nat → Nat) (hperm : ∀ r, r < P → IsPerm (perm r) P)
    (as : List A2A) (hlen : as.length = P)
    (has : ∀ r (h : r < as.length), Good P as[r] (fun d => (msgs r d).length)
      (fun s => (msgs s r).length) (perm r))
    (sends : List (List α))
    (hsend : ∀ s, s < P → sends[s]? = some (arranged (msgs s) (perm s) P))
    (r : Nat) (hr : r < P) (arrival : List Nat) (ha : arrival.Perm (List.range P)) :
    exchange zero as sends r arrival = arranged (fun s => msgs s r) (perm r) P := by
  have hme := has r (by omega)
  have hmeq : as.getD r ⟨[], [], [], []⟩ = as[r]'(by omega) := by
    rw [List.getD_eq_getElem?_getD, List.getElem?_eq_getElem (by omega : r < as.length)]; rfl
  have hp := hperm r hr
  have hrl := hme.rlen
  have hT : ∀ k, k ≤ P → (arranged (fun s => msgs s r) (perm r) k).length =
      psum (as[r]'(by omega)).recvcounts (perm r) k := by
    intro k hk
    apply arranged_length
    intro i hi
    rw [List.getD_eq_getElem?_getD, hme.rcnt _ (hp.lt i (by omega))]; rfl
  -- the source of each write is a slice of the expected result
  have hwrite : ∀ s, s < P →
      slice (sends.getD s []) ((as.getD s ⟨[], [], [], []⟩).sdispls.getD r 0)
        ((as.getD s ⟨[], [], [], []⟩).sendcounts.getD r 0) =
      slice (arranged (fun s => msgs s r) (perm r) P) ((as[r]'(by omega)).rdispls.getD s 0)
        ((as[r]'(by omega)).recvcounts.getD s 0) := by
    intro s hs
    have hsG := has s (by omega)
    have hseq : as.getD s ⟨[], [], [], []⟩ = as[s]'(by omega) := by
      rw [List.getD_eq_getElem?_getD, List.getElem?_eq_getElem (by omega : s < as.length)]; rfl
    rw [hseq, List.getD_eq_getElem?_getD (l := sends), hsend s hs, Option.getD_some]
    obtain ⟨k, hk, hkr⟩ := isPerm_surj (hperm s hs) r hr
    obtain ⟨k', hk', hks⟩ := isPerm_surj hp s hs
    have e1 : slice (arranged (msgs s) (perm s) P) ((as[s]'(by omega)).sdispls.getD r 0)
        ((as[s]'(by omega)).sendcounts.getD r 0) = msgs s r := by
      have h1 := hsG.sd k hk
      rw [hkr] at h1
      have h2 : (arranged (msgs s) (perm s) k).length = psum (as[s]'(by omega)).sendcounts (perm s) k := by
        apply arranged_length
        intro i hi
        rw [List.getD_eq_getElem?_getD, hsG.scnt _ ((hperm s hs).lt i (by omega))]; rfl
      rw [slice_arranged (msgs s) (perm s) P k hk _ _ (by
        rw [h2, List.getD_eq_getElem?_getD, h1]; rfl) (by
        rw [hkr, List.getD_eq_getElem?_getD, hsG.scnt r hr]; rfl), hkr]
    have e2 : slice (arranged (fun s => msgs s r) (perm r) P) ((as[r]'(by omega)).rdispls.getD s 0)
        ((as[r]'(by omega)).recvcounts.getD s 0) = msgs s r := by
      have h1 := hme.rd k' hk'
      rw [hks] at h1
      rw [slice_arranged (fun s => msgs s r) (perm r) P k' hk' _ _ (by
        rw [hT k' (by omega), List.getD_eq_getElem?_getD, h1]; rfl) (by
        rw [hks, List.getD_eq_getElem?_getD, hme.rcnt s hs]; rfl), hks]
    rw [e1, e2]
  unfold exchange
  simp only [hmeq]
  have hfold : ∀ (arr : List Nat) (b : List α), (∀ s ∈ arr, s < P) →
      arr.foldl (fun buf s => writeAt buf ((as[r]'(by omega)).rdispls.getD s 0)
        (slice (sends.getD s []) ((as.getD s ⟨[], [], [], []⟩).sdispls.getD r 0)
          ((as.getD s ⟨[], [], [], []⟩).sendcounts.getD r 0))) b =
      arr.foldl (fun buf s => writeAt buf ((as[r]'(by omega)).rdispls.getD s 0)
        (slice (arranged (fun s => msgs s r) (perm r) P) ((as[r]'(by omega)).rdispls.getD s 0)
        ((as[r]'(by omega)).recvcounts.getD s 0))) b := by
    intro arr
    induction arr with
    | nil => intro b _; rfl
    | cons s arr ih =>
      intro b hs
      rw [List.foldl_cons, List.foldl_cons, hwrite s (hs s (by simp))]
      exact ih _ (fun s' h' => hs s' (by simp [h']))
  have harr : ∀ s ∈ arrival, s < P := by
    intro s hs; simpa using ha.mem_iff.1 hs
  rw [hfold arrival _ harr]
  have hend : ∀ k, k < P → psum (as[r]'(by omega)).recvcounts (perm r) k +
      (as[r]'(by omega)).recvcounts.getD (perm r k) 0 ≤ psum (as[r]'(by omega)).recvcounts (perm r) P := by
    intro k hk
    rw [← psum_succ]
    exact psum_mono _ _ _ _ (by omega)
  apply fold_writes
  · intro s hs
    obtain ⟨k, hk, hks⟩ := isPerm_surj hp s (harr s hs)
    have h1 := hme.rd k hk
    rw [hks] at h1
    rw [List.getD_eq_getElem?_getD, h1, Option.getD_some, hT P (Nat.le_refl _), ← hks]
    exact hend k hk
  · intro i hi
    rw [hT P (Nat.le_refl _)] at hi
    obtain ⟨k, hk, h1, h2⟩ := psum_cover _ _ _ _ hi
    refine ⟨perm r k, ha.mem_iff.2 (by simpa using hp.lt k hk), ?_⟩
    rw [List.getD_eq_getElem?_getD, hme.rd k hk, Option.getD_some]
    exact ⟨h1, h2⟩
  · rw [List.length_replicate, hT P (Nat.le_refl _), sum_eq_psum _ (perm r) (by rw [hrl]; exact hp), hrl]

theorem makeDispls_congr (counts : List Nat) (p q : Nat → Nat) (h : ∀ i, i < counts.length → p i = q i)
    (hn : 0 < counts.length) : makeDispls counts p = makeDispls counts q := by
  have key : ∀ (todo k : Nat) (d : List Nat), k + todo + 1 = counts.length →
      displLoop counts p todo k d = displLoop counts q todo k d := by
    intro todo
    induction todo with
    | zero => intro k d _; rfl
    | succ t ih =>
      intro k d hk
      simp only [displLoop, h k (by omega), h (k + 1) (by omega)]
      cases d[q k]? with
      | none => rfl
      | some a =>
        cases counts[q k]? with
        | none => rfl
        | some c =>
          simp only [Option.bind_eq_bind, Option.bind_some]
          split
          · exact ih _ _ (by omega)
          · rfl
  unfold makeDispls
  simp only [h 0 hn]
  split
  · exact key _ _ _ (by omega)
  · rfl

end Tandem.CommPattern
